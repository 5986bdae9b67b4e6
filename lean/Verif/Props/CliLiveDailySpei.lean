import Verif.Lemmas.CliLiveDailySpei
import Verif.Props.CliLiveDaily
import Verif.Props.EndToEndSpei

/-!
# C124 and C125: which daily runs of the main tool with a PET file finish, and daily SPEI from the command line to the files
-/

namespace CI.Props
open CI FloatOps FloatLaws Spec Spec.McKee

/-! ## Specification -/

section
variable {F : Type} [FloatOps F]

/-- the result for the days of precipitation and PET of a place: the index of the years of 366 days, without the 29 February of ordinary years -/
def resultDaily₂ (E : Ext F) (cs ce y0 : Int) (Y : Nat) (o : Output) (l e : List F) : Res (List F) :=
  match o with
  | .spei dist s => do
    let r ← spei E (Arr.of1d (place366 y0 Y l)) (Arr.of1d (place366 y0 Y e)) s dist .daily y0 cs ce none
    pure (calendarDays y0 Y r.data)
  | o => resultDaily E cs ce y0 Y o l

/-- the output can be computed at every place -/
def ComputableDaily₂ (E : Ext F) (cs ce y0 : Int) (Y : Nat) (mm pe : List F) (A b n : Nat) (o : Output) : Prop :=
  ∀ i < A, ∀ k < b, ∃ r, resultDaily₂ E cs ce y0 Y o (seriesAt b n i k mm) (seriesAt b n i k pe) = .ok r

/-- the index function of a job of SPEI on daily values -/
theorem spei_result_daily [FloatLaws F] (E : Ext F) (hE : ExtNan E) (T : Trig F) (cs ce y0 : Int) (Y : Nat) (a : CliArgs) (hm : a.periodicity = .daily) (it : InputType) (fp fe : String × String)
    (dist : Distribution) (s : Nat) (l e r : List F) (hl : l.length = yearsLen y0 Y) :
    resultDaily₂ E cs ce y0 Y (.spei dist s) l e = .ok r ↔
      ∃ q t, indexFunction E T cs ce y0 (jobOf₂ a it fp fe (.spei dist s)) (place366 y0 Y l) (place366 y0 Y e) = .ok q ∧ assignSeries (Y * 366) q = .ok t ∧ r = calendarDays y0 Y t := by
  have hp : (place366 y0 Y l).length = Y * 366 := days366_length l y0 Y hl
  unfold resultDaily₂
  simp only []
  generalize place366 y0 Y l = p at hp
  generalize place366 y0 Y e = g
  have e1 : indexFunction E T cs ce y0 (jobOf₂ a it fp fe (.spei dist s)) p g = (spei E (Arr.of1d p) (Arr.of1d g) s dist .daily y0 cs ce none).map Arr.data := by
    rw [← hm]; rfl
  rw [e1]
  cases hsp : spei E (Arr.of1d p) (Arr.of1d g) s dist .daily y0 cs ce none with
  | error err =>
    constructor
    · intro h
      cases h
    · rintro ⟨q, t, h, _⟩
      cases h
  | ok o =>
    have hlen : o.data.length = p.length := spei_size E hE _ _ _ _ _ _ _ _ _ _ hsp
    constructor
    · intro h
      cases h
      refine ⟨o.data, o.data, rfl, ?_, rfl⟩
      unfold assignSeries
      rw [if_pos (by rw [← hp]; exact hlen)]
    · rintro ⟨q, t, h1, h2, rfl⟩
      cases h1
      rw [← hp] at h2
      rw [assignSeries_same h2 hlen]
      rfl

/-! ## C124 -/

open Classical in
/-- **C124.** A run of the main tool for SPEI or for all scaled indices (SPI, SPEI and the percentage of normal) from daily precipitation of whole calendar years on a grid and a daily PET file, in a
fresh process, with at least one worker process: it ends without exception exactly if every output can be computed at every place. In any case the outputs before the first one that cannot be computed
somewhere are written, in the documented order, with the right values at every place: those of the index of the years of 366 days, day by day; no other file is changed or created. -/
theorem C124_run [FloatLaws F] (E : Ext F) (hE : ExtNan E) (T : Trig F) (cs ce : Int) (wk : Nat) (hwk : 1 ≤ wk) (lower : String → String) (yearOf : F → Int) (cmp : CoordCmp F) (a : CliArgs) (w : World F)
    (hi : a.index = "spei" ∨ a.index = "scaled") {f v fe ve : String} {d de : NcFile F} {x xe : NcVar F} {A b n Y : Nat} {mm pe : List F} {y0 y1 : Int}
    (hM : DailyGrid lower yearOf a w f v d x A b n mm y0 y1 Y) (hP : PetFile lower cmp a w d x v fe ve de xe pe) (hfresh : w.shared "result_array" = none) (scales : List Nat)
    (hs : a.scales = some (scales.map Int.ofNat)) :
    ∃ res w', processIndices (indexFunction E T cs ce) wk lower yearOf cmp a w = (res, w') ∧
      (res = .ok () ↔ ∀ o ∈ documented a.index true scales, ComputableDaily₂ E cs ce y0 Y mm pe A b n o) ∧
      w'.written = w.written ++ entries a.outputFileBase ((documented a.index true scales).takeWhile (fun o => decide (ComputableDaily₂ E cs ce y0 Y mm pe A b n o))) ∧
      (∀ o ∈ (documented a.index true scales).takeWhile (fun o => decide (ComputableDaily₂ E cs ce y0 Y mm pe A b n o)),
        Holds w'.files a.outputFileBase o d x A b n (fun i k => resultDaily₂ E cs ce y0 Y o (seriesAt b n i k mm) (seriesAt b n i k pe))) ∧
      ∀ g, (∀ o ∈ (documented a.index true scales).takeWhile (fun o => decide (ComputableDaily₂ E cs ce y0 Y mm pe A b n o)), g ≠ fileName a.outputFileBase o.name) → w'.files g = w.files g := by
  have hR := hM.ready
  obtain ⟨it, hl, hL, hLP, hrun⟩ := process_jobs₂ (K := indexFunction E T cs ce) (wk := wk) hR hP hi hs
  have hsim := documented_scaled hi scales
  generalize documented a.index true scales = outs at hrun hsim ⊢
  rw [hrun]
  obtain ⟨u, hu, hc⟩ := hR.units
  obtain ⟨ue, hue, hce⟩ := hLP.units
  have hsh : x.shape = [A, b, n] := by
    rcases hR.layout with ⟨_, h⟩ | ⟨h, _⟩
    · exact h
    · rw [hM.grid] at h; simp at h
  have hit : it = .grid := by
    rcases hl with ⟨h, _⟩ | ⟨_, h, _⟩
    · exact h
    · rw [hsh] at h; simp at h
  have hser : ∀ i < A, ∀ k < b, (seriesAt b n i k mm).length = yearsLen y0 Y := by
    intro i hi' k hk
    rw [← hM.whole]
    exact seriesAt_len hl (by rw [convert_length.1 hc]; exact hR.input.wf) hi' hk
  have hserE : ∀ i < A, ∀ k < b, (seriesAt b n i k pe).length = yearsLen y0 Y := by
    intro i hi' k hk
    rw [← hM.whole]
    exact seriesAt_len (show IsLayout it xe.shape A b n by rw [hLP.shape]; exact hl) (by rw [convert_length.2.2 hce]; exact hLP.wf) hi' hk
  obtain ⟨hfy, hly⟩ := years_ok hR.years
  obtain ⟨hy1, hy2⟩ := hM.years
  have hY : y1 - y0 + 1 = (Y : Int) := by omega
  have hprep : ∀ (l p : List F), l.length = yearsLen y0 Y → preparedIt it a.periodicity y0 y1 l = .ok p → p = place366 y0 Y l := by
    intro l p hll t1
    unfold preparedIt prepared at t1
    rw [hM.daily, if_neg (by rw [hit]; decide), if_pos rfl, show (y1 - y0 + 1).toNat = Y by omega, to366_ok _ _ _ hll, Except.ok.injEq] at t1
    exact t1.symm
  have hrest : ∀ (t z : List F), t.length = Y * 366 → restored a.periodicity y0 t = .ok z → z = calendarDays y0 Y t := by
    intro t z htl t4
    unfold restored at t4
    rw [hM.daily, if_pos rfl, greg_ok t y0 Y htl hy2 hM.dates.1 (by have := hM.dates.2; omega), Except.ok.injEq] at t4
    exact t4.symm
  obtain ⟨res, w', r1, r2, _, r3⟩ := runOutputs (K := indexFunction E T cs ce) (wk := wk) (lower := lower) (yearOf := yearOf) (outs := outs) (job := jobOf₂ a it (f, v) (fe, ve))
    (G := [(f, d), (fe, de)]) (C := ComputableDaily₂ E cs ce y0 Y mm pe A b n) (V := fun o i k => resultDaily₂ E cs ce y0 Y o (seriesAt b n i k mm) (seriesAt b n i k pe)) (base := a.outputFileBase)
    (d := d) (x := x) (A := A) (b := b) (n := n) (rs := [A, b, Y * 366]) (fun o ho => jobOf₂_name a it _ _ o (hsim o ho)) (fun o ho => jobOf₂_base a it _ _ o (hsim o ho))
    (by
      intro p hp o ho
      simp only [List.mem_cons, List.not_mem_nil, or_false] at hp
      rcases hp with rfl | rfl
      · exact hR.input.notOutput o
      · exact hP.input.notOutput o)
    (by
      intro o ho hC v' hG hfit
      have g1 := hG (f, d) (by simp)
      have g2 := hG (fe, de) (by simp)
      have hL' : Loadable lower yearOf it v'.files f v d x mm y0 := ⟨g1, hL.found, hL.wf, hL.name, hL.year, hL.units, hL.dims, hL.place⟩
      have hLP' : LoadablePet lower it v'.files d x v fe ve de xe pe := ⟨g2, hLP.found, hLP.first, hLP.wf, hLP.name, hLP.differ, hLP.units, hLP.dims, hLP.shape, hLP.same⟩
      have hname := jobOf₂_name a it (f, v) (fe, ve) o (hsim o ho)
      have simple : Simple o → jobOf₂ a it (f, v) (fe, ve) o = jobOf a it (f, v) o → (∀ l e, resultDaily₂ E cs ce y0 Y o l e = resultDaily E cs ce y0 Y o l) →
          ∃ v'', computeWriteIndex (indexFunction E T cs ce) wk lower yearOf (jobOf₂ a it (f, v) (fe, ve) o) v' = (.ok (fileName a.outputFileBase o.name, o.name), v'') ∧
            ResFits [A, b, Y * 366] v''.shared ∧ v''.written = v'.written ++ [(fileName a.outputFileBase o.name, o.name)] := by
        intro hs0 he hres
        obtain ⟨e1, e2, e3, e4, e5, e6, e7⟩ := jobOf_facts a it (f, v) o hs0
        rw [he] at hname ⊢
        rw [← e7]
        refine cwi_exists_daily (mm := mm) (y0 := y0) (y1 := y1) (A := A) (b := b) (n := n) e1 e2 e3 e4 (by rw [e5, hM.daily]) (by rw [e6, hit]) (by rw [e6]; exact hL') hsh hR.places hM.lons hly hY hy2
          hM.whole hM.dates.1 hM.dates.2 hwk hfit hname ?_
        intro i hi' k hk
        obtain ⟨r, hr⟩ := hC i hi' k hk
        rw [hres] at hr
        obtain ⟨s, t, h1, h2, _⟩ := (jobOf_daily E hE T cs ce y0 Y a hM.daily it (f, v) o hs0 _ r (hser i hi' k hk)).1 hr
        exact ⟨s, t, h1, h2⟩
      cases o with
      | spi dist s => exact simple (hsim _ ho) rfl (fun _ _ => rfl)
      | pnp s => exact simple (hsim _ ho) rfl (fun _ _ => rfl)
      | pet => exact (hsim _ ho).elim
      | spei dist s =>
        refine cwi_spei_exists_daily (mm := mm) (pe := pe) (y0 := y0) (y1 := y1) (A := A) (b := b) (n := n) rfl rfl rfl rfl hM.daily hit hL' hLP' hsh hR.places hM.lons hly hY hy2
          hM.whole hM.dates.1 hM.dates.2 hwk hfit hname ?_
        intro i hi' k hk
        obtain ⟨r, hr⟩ := hC i hi' k hk
        obtain ⟨q, t, h1, h2, _⟩ := (spei_result_daily E hE T cs ce y0 Y a hM.daily it (f, v) (fe, ve) dist s _ _ r (hser i hi' k hk)).1 hr
        exact ⟨q, t, h1, h2⟩)
    (by
      intro o ho v1 v2 r hG hr
      have g1 := hG (f, d) (by simp)
      have g2 := hG (fe, de) (by simp)
      have simple : Simple o → jobOf₂ a it (f, v) (fe, ve) o = jobOf a it (f, v) o → (∀ l e, resultDaily₂ E cs ce y0 Y o l e = resultDaily E cs ce y0 Y o l) →
          ComputableDaily₂ E cs ce y0 Y mm pe A b n o ∧ ∃ new y, v2.files r.1 = some new ∧ (r.2, y) ∈ new ∧ (y.dims = x.dims ∧ Carries d new) ∧
            (y.shape = x.shape ∧ y.data.length = x.shape.foldr (· * ·) 1) ∧
            ∀ i < A, ∀ k < b, resultDaily₂ E cs ce y0 Y o (seriesAt b n i k mm) (seriesAt b n i k pe) = .ok (seriesAt b n i k y.data) := by
        intro hs0 he hres
        obtain ⟨e1, e2, e3, e4, e5, e6, e7⟩ := jobOf_facts a it (f, v) o hs0
        rw [he] at hr
        obtain ⟨u', mm', new, y, c1, c2, c3, c4, c5, c6, c6', c7⟩ := cwi_precip hr e1 e2 e3 e4 hR.input.reserved g1 hR.input.found (by rw [e6]; exact hl) hR.input.wf hR.years
        rw [hu] at c1
        cases c1
        rw [hc] at c2
        cases c2
        have key : ∀ i < A, ∀ k < b, resultDaily₂ E cs ce y0 Y o (seriesAt b n i k mm) (seriesAt b n i k pe) = .ok (seriesAt b n i k y.data) := by
          intro i hi' k hk
          obtain ⟨p, s, t, t1, t2, t3, t4⟩ := c7 i hi' k hk
          rw [e5, e6] at t1
          rw [e5] at t4
          have hpp := hprep _ _ (hser i hi' k hk) t1
          subst hpp
          rw [show (place366 y0 Y (seriesAt b n i k mm)).length = Y * 366 from days366_length _ y0 Y (hser i hi' k hk)] at t3
          rw [hres, hrest _ _ (assignSeries_ok t3) t4]
          exact (jobOf_daily E hE T cs ce y0 Y a hM.daily it (f, v) o hs0 _ _ (hser i hi' k hk)).2 ⟨s, t, t2, t3, rfl⟩
        exact ⟨fun i hi' k hk => ⟨_, key i hi' k hk⟩, new, y, c3, c4, c5, c6, key⟩
      cases o with
      | spi dist s => exact simple (hsim _ ho) rfl (fun _ _ => rfl)
      | pnp s => exact simple (hsim _ ho) rfl (fun _ _ => rfl)
      | pet => exact (hsim _ ho).elim
      | spei dist s =>
        obtain ⟨u', mm', ue', pe', new, y, c1, c2, c1', c2', c3, c4, c5, c6, c6', c7⟩ := cwi_spei hr rfl rfl rfl rfl ⟨hR.input.reserved.1, hR.input.reserved.2, hLP.name.1, hLP.name.2⟩ hLP.differ g1 g2
          hR.input.found hLP.first hLP.found hl hR.input.wf (by rw [hLP.shape]; exact hl) hLP.wf hLP.same hR.years
        rw [hu] at c1
        cases c1
        rw [hc] at c2
        cases c2
        rw [hue] at c1'
        cases c1'
        rw [hce] at c2'
        cases c2'
        have key : ∀ i < A, ∀ k < b, resultDaily₂ E cs ce y0 Y (.spei dist s) (seriesAt b n i k mm) (seriesAt b n i k pe) = .ok (seriesAt b n i k y.data) := by
          intro i hi' k hk
          obtain ⟨p, q, s', t, t1, t1', t2, t3, t4⟩ := c7 i hi' k hk
          have hpp := hprep _ _ (hser i hi' k hk) t1
          subst hpp
          have hqq := hprep _ _ (hserE i hi' k hk) t1'
          subst hqq
          rw [show (place366 y0 Y (seriesAt b n i k mm)).length = Y * 366 from days366_length _ y0 Y (hser i hi' k hk)] at t3
          rw [hrest _ _ (assignSeries_ok t3) t4]
          exact (spei_result_daily E hE T cs ce y0 Y a hM.daily it (f, v) (fe, ve) dist s _ _ _ (hser i hi' k hk)).2 ⟨s', t, t2, t3, rfl⟩
        exact ⟨fun i hi' k hk => ⟨_, key i hi' k hk⟩, new, y, c3, c4, c5, c6, key⟩)
    w (by
      intro p hp
      simp only [List.mem_cons, List.not_mem_nil, or_false] at hp
      rcases hp with rfl | rfl
      · exact hR.input.opened
      · exact hLP.opened) (fun r hr => by rw [show keyResult = "result_array" from rfl, hfresh] at hr; cases hr)
  exact ⟨res, w', r1, r2, r3⟩

end

/-! ### Exactly which precipitation and evapotranspiration -/

/-- the step `c` of the year (of `p` steps) of a record `q` of water balances is one for which the Pearson fit fails: at least four accumulated balances in the calibration years, and all but one are
the same -/
def UnfitStep (p : ℕ) (q : List (Option ℝ)) (k c : ℕ) (ds cs ce : ℤ) : Prop :=
  4 ≤ (sample q k p c (cs - ds).toNat (ce - cs + 1).toNat).length ∧ AllButOne (sample q k p c (cs - ds).toNat (ce - cs + 1).toNat)

/-- the Pearson index of the accumulated balances of the record `q` with `p` steps in a year -/
def BalancePearson (p : ℕ) (P : ℝ → ℝ → ℝ → ℝ → ℝ) (Φ : ℝ → ℝ) (q : List (Option ℝ)) (k : ℕ) (ds cs ce : ℤ) (out : List (Fl ℝ)) : Prop :=
  out.length = q.length ∧ (∀ t < q.length, accum q k t = none → out[t]? = some .nan) ∧
    ∀ c < p, let s := sample q k p c (cs - ds).toNat (ce - cs + 1).toNat
      4 ≤ s.length →
      ∃ sc sk, 0 < sc ∧ Pearson3.lscale sc sk = pairDiff s / (s.length * (s.length - 1)) / 2 ∧
        ∀ t v, t % p = c → accum q k t = some v → Pearson3.Inside (mean s) sc sk v → out[t]? = some (.fin (clamp (Φ (P v sk (mean s) sc))))

/-- the gamma index of the accumulated balances, raised by 1000 mm per step, of the record `q` with `p` steps in a year -/
def BalanceGamma (p : ℕ) (G : ℝ → ℝ → ℝ → ℝ) (Φ : ℝ → ℝ) (q : List (Option ℝ)) (k : ℕ) (ds cs ce : ℤ) (out : List (Fl ℝ)) : Prop :=
  out.length = q.length ∧ (∀ t < q.length, accum q k t = none → out[t]? = some .nan) ∧
    ∀ t v, accum q k t = some v →
      let s := (sample q k p (t % p) (cs - ds).toNat (ce - cs + 1).toNat).map (· + (k : ℝ) * 1000)
      (∃ a ∈ s, ∃ b ∈ s, a ≠ b) → out[t]? = some (.fin (clamp (Φ (G (v + k * 1000) (shape s) (scale s)))))

/-- the water balance of the years of 366 days is that of the days, in years of 366 days -/
theorem waterBalance_days366 (y0 : ℤ) (Y : ℕ) (p e : List (Option ℝ)) (hl : p.length = e.length) :
    waterBalance (days366 optMean y0 Y p) (days366 optMean y0 Y e) = days366 optMean y0 Y (waterBalance p e) := by
  have h1 : days366 optMean y0 Y p = (days366 (fun a b : Option ℝ × Option ℝ => (optMean a.1 b.1, optMean a.2 b.2)) y0 Y (p.zip e)).map Prod.fst := by
    rw [← days366_map Prod.fst (fun a b : Option ℝ × Option ℝ => (optMean a.1 b.1, optMean a.2 b.2)) optMean (fun _ _ => rfl), List.map_fst_zip (by omega)]
  have h2 : days366 optMean y0 Y e = (days366 (fun a b : Option ℝ × Option ℝ => (optMean a.1 b.1, optMean a.2 b.2)) y0 Y (p.zip e)).map Prod.snd := by
    rw [← days366_map Prod.snd (fun a b : Option ℝ × Option ℝ => (optMean a.1 b.1, optMean a.2 b.2)) optMean (fun _ _ => rfl), List.map_snd_zip (by omega)]
  have h3 : waterBalance p e = (p.zip e).map (fun q => q.1.bind (fun u => q.2.map (fun v => u - v))) := by
    unfold waterBalance
    rw [List.zip, List.map_zipWith]
  rw [h1, h2, h3, days366_map (fun q : Option ℝ × Option ℝ => q.1.bind (fun u => q.2.map (fun v => u - v))) (fun a b : Option ℝ × Option ℝ => (optMean a.1 b.1, optMean a.2 b.2)) optMean]
  · unfold waterBalance
    rw [List.zipWith_map, List.zipWith_self]
  · rintro ⟨a1, a2⟩ ⟨b1, b2⟩
    cases a1 <;> cases a2 <;> cases b1 <;> cases b2 <;> simp [optMean]
    ring

/-- a lower bound of the days is one of the years of 366 days -/
theorem days366_bound (c : ℝ) (y0 : ℤ) (Y : ℕ) (l : List (Option ℝ)) (h : ∀ a, some a ∈ l → c ≤ a) : ∀ a, some a ∈ days366 optMean y0 Y l → c ≤ a := by
  intro a ha
  have hm := days366_map (Option.map (· + -c)) optMean optMean (by
    intro u v
    cases u <;> cases v <;> simp [optMean]
    ring) Y y0 l
  have := days366_nonneg Y y0 (l.map (Option.map (· + -c))) (by
    intro u hu
    obtain ⟨o, ho, e⟩ := List.mem_map.1 hu
    cases o with
    | none => cases e
    | some v =>
      have e' : v + -c = u := by simpa using e
      linarith [h v ho]) (a + -c) (by
    rw [hm]
    exact List.mem_map.2 ⟨_, ha, rfl⟩)
  linarith

section
variable (E : Ext (Fl ℝ)) (hE : ExtNan E) (hR : ExtReal E) (p e : List (Option ℝ)) (hp : ∀ a, some a ∈ p → 0 ≤ a) (hl : p.length = e.length) (hb : ∀ a, some a ∈ waterBalance p e → -999.9995 ≤ a)
  (k : ℕ) (h1 : 1 ≤ k) (h2 : k ≤ p.length) (per : Periodicity) (hper : per ≠ .other) (ds cs ce : ℤ) (c1 : ds ≤ cs) (c2 : cs ≤ ce) (c3 : ce < ds + yearsOf p.length per.steps)

include hE hp hl hb hper in
/-- no value where there is no accumulated balance -/
theorem spei_no_accum' (hs : ∃ a, some a ∈ waterBalance p e) (dist : Distribution) (out : Arr (Fl ℝ))
    (h : spei E (Arr.of1d (p.map toFl)) (Arr.of1d (e.map toFl)) k dist per ds cs ce none = .ok out) (t : ℕ) (ht : t < p.length) (hn : accum (waterBalance p e) k t = none) :
    out.data[t]? = some .nan := by
  rw [spei_raised E p e hp hl (fun a ha => by linarith [hb a ha]) hs k dist per hper ds cs ce] at h
  cases hsp : spi E (Arr.of1d ((raised 1000 (waterBalance p e)).map toFl)) k dist ds cs ce per none with
  | error err => rw [hsp] at h; cases h
  | ok o =>
    rw [hsp] at h
    cases h
    have hlen : (raised 1000 (waterBalance p e)).length = p.length := by rw [raised_length, waterBalance_length p e hl]
    have hx : ∃ v ∈ (Arr.of1d ((raised 1000 (waterBalance p e)).map toFl)).data, isNan v = false := by
      obtain ⟨a, ha⟩ := hs
      exact ⟨toFl (some (a + 1000)), List.mem_map.2 ⟨_, raised_mem.2 (by rwa [add_sub_cancel_right]), rfl⟩, rfl⟩
    refine C11_missing E hE _ _ _ ds cs ce per none o hx hsp t (by simpa [Arr.of1d, hlen] using ht) (accum_none (by rw [hlen]; exact ht) ?_)
    rw [accum_raised, hn]
    rfl

include hE hR hp hl hb h1 h2 hper c1 c2 c3 in
/-- the Pearson SPEI of a record -/
theorem balancePearson_of (P : ℝ → ℝ → ℝ → ℝ → ℝ) (Φ : ℝ → ℝ)
    (hP : ∀ v sk loc sc, 0 < v → 0 < sc → Pearson3.Inside loc sc sk v →
      E.pearson3Cdf (.fin v) (.fin sk) (.fin loc) (.fin sc) = .fin (P v sk loc sc) ∧ 0 < P v sk loc sc ∧ P v sk loc sc < 1)
    (hloc : ∀ v sk loc sc c, 0 < sc → P (v + c) sk (loc + c) sc = P v sk loc sc)
    (hΦ : ∀ q, 0 < q → q < 1 → E.normPpf (.fin q) = .fin (Φ q))
    (out : Arr (Fl ℝ)) (h : spei E (Arr.of1d (p.map toFl)) (Arr.of1d (e.map toFl)) k .pearson per ds cs ce none = .ok out) : BalancePearson per.steps P Φ (waterBalance p e) k ds cs ce out.data := by
  have hwl := waterBalance_length p e hl
  by_cases hs : ∃ a, some a ∈ waterBalance p e
  · have hlen := spei_size E hE _ _ _ _ _ _ _ _ _ _ h
    refine ⟨by rw [hwl]; simpa [Arr.of1d] using hlen, fun t ht hn => ?_, fun c hc => C115_pearson E hE hR P Φ hP hloc hΦ p e hp hl hb hs k h1 h2 per hper ds cs ce c1 c2 c3 out h c hc⟩
    exact spei_no_accum' E hE p e hp hl hb k per hper ds cs ce hs .pearson out h t (by omega) hn
  · obtain ⟨out', g1, g2, g3⟩ := spei_missing E p e hp hl hs k h1 h2 .pearson (.inl rfl) per ds cs ce
    rw [h] at g1
    cases g1
    refine ⟨by rw [hwl]; exact g2, fun t ht _ => g3 t (by omega), ?_⟩
    intro c hc s h4
    have : s = [] := sample_missing _ hs k per.steps c _ _ h1
    rw [this] at h4
    simp at h4

include hE hR hp hl hb h1 h2 hper c1 c2 c3 in
/-- the gamma SPEI of a record -/
theorem balanceGamma_of (G : ℝ → ℝ → ℝ → ℝ) (Φ : ℝ → ℝ)
    (hG : ∀ v a b, 0 < v → 0 < a → 0 < b → E.gammaCdf (.fin v) (.fin a) (.fin b) = .fin (G v a b) ∧ 0 < G v a b ∧ G v a b < 1)
    (hΦ : ∀ q, 0 < q → q < 1 → E.normPpf (.fin q) = .fin (Φ q))
    (out : Arr (Fl ℝ)) (h : spei E (Arr.of1d (p.map toFl)) (Arr.of1d (e.map toFl)) k .gamma per ds cs ce none = .ok out) : BalanceGamma per.steps G Φ (waterBalance p e) k ds cs ce out.data := by
  have hwl := waterBalance_length p e hl
  by_cases hs : ∃ a, some a ∈ waterBalance p e
  · obtain ⟨out', g1, g2, g3⟩ := C115_gamma E hE hR G Φ hG hΦ p e hp hl (fun a ha => by linarith [hb a ha]) hs k h1 h2 per hper ds cs ce c1 c2 c3
    rw [h] at g1
    cases g1
    exact ⟨by rw [hwl]; exact g2, fun t ht hn => spei_no_accum' E hE p e hp hl hb k per hper ds cs ce hs .gamma out h t (by omega) hn, g3⟩
  · obtain ⟨out', g1, g2, g3⟩ := spei_missing E p e hp hl hs k h1 h2 .gamma (.inr rfl) per ds cs ce
    rw [h] at g1
    cases g1
    refine ⟨by rw [hwl]; exact g2, fun t ht _ => g3 t (by omega), ?_⟩
    intro t v hv
    rw [accum_missing hs k t h1] at hv
    cases hv

include hR hp hl hb h1 h2 hper c1 c2 c3 in
/-- when the SPEI of a record can be computed -/
theorem spei_defined_exact : ((∃ out, spei E (Arr.of1d (p.map toFl)) (Arr.of1d (e.map toFl)) k .pearson per ds cs ce none = .ok out) ↔
      ∀ c < per.steps, ¬ UnfitStep per.steps (waterBalance p e) k c ds cs ce) ∧
    ∃ out, spei E (Arr.of1d (p.map toFl)) (Arr.of1d (e.map toFl)) k .gamma per ds cs ce none = .ok out := by
  by_cases hs : ∃ a, some a ∈ waterBalance p e
  · refine ⟨⟨?_, fun h => ?_⟩, ?_⟩
    · rintro ⟨r, hr⟩ c hc ⟨u1, u2⟩
      have := (C115_refused E hR p e hp hl hb hs k h1 h2 per hper ds cs ce c1 c2 c3).2 ⟨c, hc, u1, u2⟩
      rw [this] at hr
      cases hr
    · obtain ⟨out, ho, _⟩ := C115_defined E hR p e hp hl hb hs k h1 h2 per hper ds cs ce c1 c2 c3 (fun c hc u1 u2 => h c hc ⟨u1, u2⟩)
      exact ⟨out, ho⟩
    · have hx : ∃ v ∈ (Arr.of1d ((raised 1000 (waterBalance p e)).map toFl)).data, isNan v = false := by
        obtain ⟨a, ha⟩ := hs
        exact ⟨toFl (some (a + 1000)), List.mem_map.2 ⟨_, raised_mem.2 (by rwa [add_sub_cancel_right]), rfl⟩, rfl⟩
      obtain ⟨out, ho, _⟩ := C10_gamma E (Arr.of1d ((raised 1000 (waterBalance p e)).map toFl)) k ds cs ce per (.inl rfl)
        (by cases per with | other => exact absurd rfl hper | monthly => exact .inl rfl | daily => exact .inr rfl) (by exact_mod_cast h1) hx
      rw [spei_raised E p e hp hl (fun a ha => by linarith [hb a ha]) hs k .gamma per hper ds cs ce, ho]
      exact ⟨_, rfl⟩
  · refine ⟨⟨fun _ c hc hbad => ?_, fun _ => ?_⟩, ?_⟩
    · have := hbad.1
      rw [sample_missing _ hs k per.steps c _ _ h1] at this
      simp at this
    · obtain ⟨out, ho, _⟩ := spei_missing E p e hp hl hs k h1 h2 .pearson (.inl rfl) per ds cs ce
      exact ⟨out, ho⟩
    · obtain ⟨out, ho, _⟩ := spei_missing E p e hp hl hs k h1 h2 .gamma (.inr rfl) per ds cs ce
      exact ⟨out, ho⟩

end

/-- when the SPEI of a record of days can be computed -/
theorem resultDaily_spei (E : Ext (Fl ℝ)) (hR : ExtReal E) (p e : List (Option ℝ)) (hp : ∀ a, some a ∈ p → 0 ≤ a) (hb : ∀ a, some a ∈ waterBalance p e → -999.9995 ≤ a) (y0 : ℤ) (Y : ℕ)
    (hl : p.length = yearsLen y0 Y) (hle : e.length = yearsLen y0 Y) (k : ℕ) (h1 : 1 ≤ k) (h2 : k ≤ Y * 366) (cs ce : ℤ) (c1 : y0 ≤ cs) (c2 : cs ≤ ce) (c3 : ce < y0 + Y) :
    ((∃ r, resultDaily₂ E cs ce y0 Y (.spei .pearson k) (p.map toFl) (e.map toFl) = .ok r) ↔ ∀ c < 366, ¬ UnfitStep 366 (days366 optMean y0 Y (waterBalance p e)) k c y0 cs ce) ∧
      ∃ r, resultDaily₂ E cs ce y0 Y (.spei .gamma k) (p.map toFl) (e.map toFl) = .ok r := by
  have hlen := days366_len y0 Y p hl
  have hlene := days366_len y0 Y e hle
  have hstep : ∀ dist, (∃ r, resultDaily₂ E cs ce y0 Y (.spei dist k) (p.map toFl) (e.map toFl) = .ok r) ↔
      ∃ out, spei E (Arr.of1d ((days366 optMean y0 Y p).map toFl)) (Arr.of1d ((days366 optMean y0 Y e).map toFl)) k dist .daily y0 cs ce none = .ok out := by
    intro dist
    unfold resultDaily₂
    simp only [place366_toFl]
    generalize spei E (Arr.of1d ((days366 optMean y0 Y p).map toFl)) (Arr.of1d ((days366 optMean y0 Y e).map toFl)) k dist .daily y0 cs ce none = q
    cases q with
    | error e =>
      constructor
      · rintro ⟨r, hr⟩
        cases hr
      · rintro ⟨r, hr⟩
        cases hr
    | ok r => exact ⟨fun _ => ⟨r, rfl⟩, fun _ => ⟨_, rfl⟩⟩
  rw [hstep, hstep, ← waterBalance_days366 y0 Y p e (by rw [hl, hle])]
  refine spei_defined_exact E hR _ _ (days366_nonneg Y y0 p hp) (by rw [hlen, hlene]) ?_ k h1 (by omega) .daily (by decide) y0 cs ce c1 c2 ?_
  · rw [waterBalance_days366 y0 Y p e (by rw [hl, hle])]
    exact days366_bound _ y0 Y _ hb
  · rw [hlen, show Periodicity.daily.steps = 366 from rfl, yearsOf_days]
    exact c3

section
variable {lower : String → String} {yearOf : Fl ℝ → Int} {cmp : CoordCmp (Fl ℝ)} {a : CliArgs} {w : World (Fl ℝ)} {f v fe ve : String} {d de : NcFile (Fl ℝ)} {x xe : NcVar (Fl ℝ)} {A b n Y : Nat}
  {vals pet : List (Option ℝ)} {y0 y1 : Int}

theorem pet_day_length (hM : DailyGrid lower yearOf a w f v d x A b n (vals.map toFl) y0 y1 Y) (hP : PetFile lower cmp a w d x v fe ve de xe (pet.map toFl)) {i k : Nat} (hi : i < A) (hk : k < b) :
    (seriesAt b n i k pet).length = yearsLen y0 Y := by
  obtain ⟨u, hu, hc⟩ := hP.units
  obtain ⟨it, hl⟩ : ∃ it, IsLayout it xe.shape A b n := by
    rw [hP.shape]
    rcases hM.ready.layout with ⟨_, h⟩ | ⟨_, h, hb⟩
    · exact ⟨.grid, .inl ⟨rfl, h⟩⟩
    · exact ⟨.divisions, .inr ⟨rfl, h, hb⟩⟩
  have := seriesAt_len hl (by rw [convert_length.2.2 hc]; exact hP.input.wf) hi hk
  rw [seriesAt_toFl, List.length_map] at this
  rw [this, hM.whole]

/-- **C124, exactly, SPEI.** In exact arithmetic, for daily precipitation that is not negative, a daily water balance not below −999.9995 mm, scales from 1 to the length of the record and calibration
years inside the record: the run for SPEI ends without exception exactly if no calendar day (of 366) of any place at any scale has a calibration sample of the accumulated water balance (at least
four) of which all but one are equal. -/
theorem C124_spei_exact (E : Ext (Fl ℝ)) (hE : ExtNan E) (hR : ExtReal E) (T : Trig (Fl ℝ)) (cs ce : Int) (wk : Nat) (hwk : 1 ≤ wk) (hi : a.index = "spei")
    (hM : DailyGrid lower yearOf a w f v d x A b n (vals.map toFl) y0 y1 Y) (hP : PetFile lower cmp a w d x v fe ve de xe (pet.map toFl)) (hpos : ∀ u, some u ∈ vals → 0 ≤ u)
    (hbal : Balanced b n A vals pet) (hfresh : w.shared "result_array" = none) (scales : List Nat)
    (hs : a.scales = some (scales.map Int.ofNat)) (hsc : ∀ s ∈ scales, 1 ≤ s ∧ s ≤ Y * 366) (c1 : y0 ≤ cs) (c2 : cs ≤ ce) (c3 : ce ≤ y1) :
    (∃ w', processIndices (indexFunction E T cs ce) wk lower yearOf cmp a w = (.ok (), w')) ↔
      ∀ s ∈ scales, ∀ i < A, ∀ k < b, ∀ c < 366, ¬ UnfitStep 366 (days366 optMean y0 Y (waterBalance (seriesAt b n i k vals) (seriesAt b n i k pet))) s c y0 cs ce := by
  obtain ⟨res, w', h1, h2, _⟩ := C124_run E hE T cs ce wk hwk lower yearOf cmp a w (.inl hi) hM hP hfresh scales hs
  have hmem : ∀ i k u, some u ∈ seriesAt b n i k vals → 0 ≤ u := fun i k u hu => hpos u (List.mem_of_mem_drop (List.mem_of_mem_take hu))
  have hpl : ∀ s ∈ scales, ∀ i (hi' : i < A) k (hk : k < b), _ := fun s hs' i hi' k hk =>
    resultDaily_spei E hR (seriesAt b n i k vals) (seriesAt b n i k pet) (hmem i k) (hbal i hi' k hk) y0 Y (day_length hM hi' hk) (pet_day_length hM hP hi' hk) s (hsc s hs').1 (hsc s hs').2 cs ce c1 c2
      (by have := hM.years.1; omega)
  rw [h1]
  have hdoc : ∀ o, o ∈ documented a.index true scales ↔ ∃ s ∈ scales, o = .spei .pearson s ∨ o = .spei .gamma s := by
    intro o
    rw [hi]
    show o ∈ speiOutputs scales ↔ _
    simp [speiOutputs]
  constructor
  · rintro ⟨w'', hw⟩
    have := h2.1 (Prod.ext_iff.1 hw).1
    intro s hs' i hi' k hk
    have := this (.spei .pearson s) ((hdoc _).2 ⟨s, hs', .inl rfl⟩) i hi' k hk
    rw [seriesAt_toFl, seriesAt_toFl] at this
    exact (hpl s hs' i hi' k hk).1.1 this
  · intro h
    have hall : ∀ o ∈ documented a.index true scales, ComputableDaily₂ E cs ce y0 Y (vals.map toFl) (pet.map toFl) A b n o := by
      intro o ho i hi' k hk
      obtain ⟨s, hs', rfl | rfl⟩ := (hdoc o).1 ho
      · rw [seriesAt_toFl, seriesAt_toFl]
        exact (hpl s hs' i hi' k hk).1.2 (h s hs' i hi' k hk)
      · rw [seriesAt_toFl, seriesAt_toFl]
        exact (hpl s hs' i hi' k hk).2
    exact ⟨w', by rw [h2.2 hall]⟩

/-- **C124, exactly, all scaled indices.** Under the same conditions the run for all scaled indices (SPI, SPEI, percentage of normal) of daily values ends without exception exactly if, in addition, the
Pearson fit of the precipitation itself is possible everywhere. -/
theorem C124_scaled_exact (E : Ext (Fl ℝ)) (hE : ExtNan E) (hR : ExtReal E) (T : Trig (Fl ℝ)) (cs ce : Int) (wk : Nat) (hwk : 1 ≤ wk) (hi : a.index = "scaled")
    (hM : DailyGrid lower yearOf a w f v d x A b n (vals.map toFl) y0 y1 Y) (hP : PetFile lower cmp a w d x v fe ve de xe (pet.map toFl)) (hpos : ∀ u, some u ∈ vals → 0 ≤ u)
    (hbal : Balanced b n A vals pet) (hfresh : w.shared "result_array" = none) (scales : List Nat)
    (hs : a.scales = some (scales.map Int.ofNat)) (hsc : ∀ s ∈ scales, 1 ≤ s ∧ s ≤ Y * 366) (c1 : y0 ≤ cs) (c2 : cs ≤ ce) (c3 : ce ≤ y1) :
    (∃ w', processIndices (indexFunction E T cs ce) wk lower yearOf cmp a w = (.ok (), w')) ↔
      ∀ s ∈ scales, ∀ i < A, ∀ k < b, ∀ c < 366, ¬ UnfitDay (days366 optMean y0 Y (seriesAt b n i k vals)) s c y0 cs ce ∧
        ¬ UnfitStep 366 (days366 optMean y0 Y (waterBalance (seriesAt b n i k vals) (seriesAt b n i k pet))) s c y0 cs ce := by
  obtain ⟨res, w', h1, h2, _⟩ := C124_run E hE T cs ce wk hwk lower yearOf cmp a w (.inr hi) hM hP hfresh scales hs
  have hmem : ∀ i k u, some u ∈ seriesAt b n i k vals → 0 ≤ u := fun i k u hu => hpos u (List.mem_of_mem_drop (List.mem_of_mem_take hu))
  have c3' : ce < y0 + Y := by have := hM.years.1; omega
  have hpl : ∀ s ∈ scales, ∀ i (hi' : i < A) k (hk : k < b), _ := fun s hs' i hi' k hk =>
    resultDaily_spei E hR (seriesAt b n i k vals) (seriesAt b n i k pet) (hmem i k) (hbal i hi' k hk) y0 Y (day_length hM hi' hk) (pet_day_length hM hP hi' hk) s (hsc s hs').1 (hsc s hs').2 cs ce c1 c2 c3'
  have hpl' : ∀ s ∈ scales, ∀ i (hi' : i < A) k (hk : k < b), _ := fun s hs' i hi' k hk =>
    resultDaily_spi E hR (seriesAt b n i k vals) (hmem i k) y0 Y (day_length hM hi' hk) s (hsc s hs').1 (hsc s hs').2 cs ce c1 c2 c3'
  rw [h1]
  have hdoc := mem_scaled hi scales
  constructor
  · rintro ⟨w'', hw⟩
    have := h2.1 (Prod.ext_iff.1 hw).1
    intro s hs' i hi' k hk c hc
    have t1 := this (.spei .pearson s) ((hdoc _).2 ⟨s, hs', by simp⟩) i hi' k hk
    have t2 := this (.spi .pearson s) ((hdoc _).2 ⟨s, hs', by simp⟩) i hi' k hk
    rw [seriesAt_toFl, seriesAt_toFl] at t1 t2
    exact ⟨(hpl' s hs' i hi' k hk).1.1 t2 c hc, (hpl s hs' i hi' k hk).1.1 t1 c hc⟩
  · intro h
    have hall : ∀ o ∈ documented a.index true scales, ComputableDaily₂ E cs ce y0 Y (vals.map toFl) (pet.map toFl) A b n o := by
      intro o ho i hi' k hk
      rw [seriesAt_toFl, seriesAt_toFl]
      obtain ⟨s, hs', rfl | rfl | rfl | rfl | rfl⟩ := (hdoc o).1 ho
      · exact (hpl' s hs' i hi' k hk).1.2 (fun c hc => (h s hs' i hi' k hk c hc).1)
      · exact (hpl' s hs' i hi' k hk).2
      · exact (hpl s hs' i hi' k hk).1.2 (fun c hc => (h s hs' i hi' k hk c hc).2)
      · exact (hpl s hs' i hi' k hk).2
      · exact (resultDaily_pnp E _ s y0 cs ce Y (by rw [List.length_map]; exact day_length hM hi' hk)).2 ⟨c1, by push_cast; omega, .inr (hsc s hs')⟩
    exact ⟨w', by rw [h2.2 hall]⟩

end

/-! ## C125: from the command line to the daily SPEI in the files -/

open Classical in
/-- what is known of the run of a command line on daily values with a PET file -/
theorem daily_of_line₂ (E : Ext (Fl ℝ)) (hE : ExtNan E) (T : Trig (Fl ℝ)) (toInt : String → Option Int) (ht : ∀ n : Int, toInt (toString n) = some n) (cpus : Nat) (lower : String → String)
    (yearOf : Fl ℝ → Int) (cmp : CoordCmp (Fl ℝ)) (j : String → Bool) (c : MainCommand) (hc : Writable j c) (hi : c.args.index = "spei" ∨ c.args.index = "scaled") (cs ce : Int)
    (hcs : c.calibrationStart = some cs) (hce : c.calibrationEnd = some ce) (hcpu : 1 ≤ numberOfWorkers c.multiprocessing cpus) (w : World (Fl ℝ)) {f v fe ve : String} {d de : NcFile (Fl ℝ)}
    {x xe : NcVar (Fl ℝ)} {A b n Y : Nat} {vals pet : List (Option ℝ)} {y0 y1 : Int} (hM : DailyGrid lower yearOf c.args w f v d x A b n (vals.map toFl) y0 y1 Y)
    (hP : PetFile lower cmp c.args w d x v fe ve de xe (pet.map toFl)) (hfresh : w.shared "result_array" = none) (scales : List Nat)
    (hs : c.args.scales = some (scales.map Int.ofNat)) (hall : ∀ o ∈ documented c.args.index true scales, ComputableDaily₂ E cs ce y0 Y (vals.map toFl) (pet.map toFl) A b n o) :
    ∃ w', mainTool E T toInt cpus lower yearOf cmp (commandLine j c) w = (.ended (.ok ()), w') ∧
      w'.written = w.written ++ entries c.args.outputFileBase (documented c.args.index true scales) ∧
      (∀ g, (∀ o ∈ documented c.args.index true scales, g ≠ fileName c.args.outputFileBase o.name) → w'.files g = w.files g) ∧
      ∀ o ∈ documented c.args.index true scales, FileHolds w'.files (fileName c.args.outputFileBase o.name) o.name d x A b n
        (fun i k l => resultDaily₂ E cs ce y0 Y o ((seriesAt b n i k vals).map toFl) ((seriesAt b n i k pet).map toFl) = .ok l) := by
  rw [C106_given E T toInt cpus lower yearOf cmp (commandLine j c) w c (C105_main toInt ht j c hc) cs ce hcs hce]
  obtain ⟨res, w', h1, h2, h3, h4, h5⟩ := C124_run E hE T cs ce _ hcpu lower yearOf cmp c.args w hi hM hP hfresh scales hs
  have htake : (documented c.args.index true scales).takeWhile (fun o => decide (ComputableDaily₂ E cs ce y0 Y (vals.map toFl) (pet.map toFl) A b n o)) = documented c.args.index true scales := by
    rw [List.takeWhile_eq_self_iff]
    intro o ho
    exact decide_eq_true (hall o ho)
  rw [htake] at h3 h4 h5
  rw [h1]
  refine ⟨w', by rw [h2.2 hall], h3, h5, fun o ho => ?_⟩
  obtain ⟨file, y, g1, g2, ⟨g3, g4⟩, ⟨g5, _⟩, g6⟩ := h4 o ho
  exact ⟨file, y, g1, g2, g3, g5, g4, fun i hi k hk => by
    have := g6 i hi k hk
    beta_reduce at this ⊢
    rwa [seriesAt_toFl, seriesAt_toFl] at this⟩

/-- **C125, SPEI.** The documented command line for SPEI of daily precipitation of whole calendar years on a grid and a daily PET file (any files, names, scales, calibration years inside the record,
numbers of workers, separate values or `=`), in exact arithmetic, for precipitation that is not negative, a daily water balance not below −999.9995 mm and Pearson fits at all places, scales and
calendar days (else no run finishes, C124): the tool ends without exception, writes exactly two files per scale, `BASE_spei_gamma_NN.nc` and `BASE_spei_pearson_NN.nc`, changes no other file, and at
every place the value in these files for a day is the index of the accumulated water balance for that calendar day, computed in years of 366 days. -/
theorem C125_spei (E : Ext (Fl ℝ)) (hE : ExtNan E) (hR : ExtReal E) (G : ℝ → ℝ → ℝ → ℝ) (P : ℝ → ℝ → ℝ → ℝ → ℝ) (Φ : ℝ → ℝ)
    (hG : ∀ v a b, 0 < v → 0 < a → 0 < b → E.gammaCdf (.fin v) (.fin a) (.fin b) = .fin (G v a b) ∧ 0 < G v a b ∧ G v a b < 1)
    (hPc : ∀ v sk loc sc, 0 < v → 0 < sc → Pearson3.Inside loc sc sk v →
      E.pearson3Cdf (.fin v) (.fin sk) (.fin loc) (.fin sc) = .fin (P v sk loc sc) ∧ 0 < P v sk loc sc ∧ P v sk loc sc < 1)
    (hloc : ∀ v sk loc sc c, 0 < sc → P (v + c) sk (loc + c) sc = P v sk loc sc)
    (hΦ : ∀ q, 0 < q → q < 1 → E.normPpf (.fin q) = .fin (Φ q))
    (T : Trig (Fl ℝ)) (toInt : String → Option Int) (ht : ∀ n : Int, toInt (toString n) = some n) (cpus : Nat) (lower : String → String)
    (yearOf : Fl ℝ → Int) (cmp : CoordCmp (Fl ℝ)) (j : String → Bool) (c : MainCommand) (hc : Writable j c) (hi : c.args.index = "spei") (cs ce : Int)
    (hcs : c.calibrationStart = some cs) (hce : c.calibrationEnd = some ce) (hcpu : 1 ≤ numberOfWorkers c.multiprocessing cpus) (w : World (Fl ℝ)) {f v fe ve : String} {d de : NcFile (Fl ℝ)}
    {x xe : NcVar (Fl ℝ)} {A b n Y : Nat} {vals pet : List (Option ℝ)} {y0 y1 : Int} (hM : DailyGrid lower yearOf c.args w f v d x A b n (vals.map toFl) y0 y1 Y)
    (hP : PetFile lower cmp c.args w d x v fe ve de xe (pet.map toFl)) (hfresh : w.shared "result_array" = none)
    (hpos : ∀ u, some u ∈ vals → 0 ≤ u) (hbal : Balanced b n A vals pet) (scales : List Nat) (hs : c.args.scales = some (scales.map Int.ofNat)) (hsc : ∀ s ∈ scales, 1 ≤ s ∧ s ≤ Y * 366)
    (c1 : y0 ≤ cs) (c2 : cs ≤ ce) (c3 : ce ≤ y1)
    (hfit : ∀ s ∈ scales, ∀ i < A, ∀ k < b, ∀ m < 366, ¬ UnfitStep 366 (days366 optMean y0 Y (waterBalance (seriesAt b n i k vals) (seriesAt b n i k pet))) s m y0 cs ce) :
    ∃ w', mainTool E T toInt cpus lower yearOf cmp (commandLine j c) w = (.ended (.ok ()), w') ∧
      w'.written = w.written ++ entries c.args.outputFileBase (speiOutputs scales) ∧
      (∀ g, (∀ o ∈ speiOutputs scales, g ≠ fileName c.args.outputFileBase o.name) → w'.files g = w.files g) ∧
      ∀ s ∈ scales,
        FileHolds w'.files (c.args.outputFileBase ++ "_" ++ ("spei_gamma_" ++ twoDigits s) ++ ".nc") ("spei_gamma_" ++ twoDigits s) d x A b n
          (fun i k out => OfDays (fun q r => BalanceGamma 366 G Φ q s y0 cs ce r) y0 Y (waterBalance (seriesAt b n i k vals) (seriesAt b n i k pet)) out) ∧
        FileHolds w'.files (c.args.outputFileBase ++ "_" ++ ("spei_pearson_" ++ twoDigits s) ++ ".nc") ("spei_pearson_" ++ twoDigits s) d x A b n
          (fun i k out => OfDays (fun q r => BalancePearson 366 P Φ q s y0 cs ce r) y0 Y (waterBalance (seriesAt b n i k vals) (seriesAt b n i k pet)) out) := by
  have hmem : ∀ i k u, some u ∈ seriesAt b n i k vals → 0 ≤ u := fun i k u hu => hpos u (List.mem_of_mem_drop (List.mem_of_mem_take hu))
  have hdoc : documented c.args.index true scales = speiOutputs scales := by rw [hi]; rfl
  have c3' : ce < y0 + Y := by have := hM.years.1; omega
  have hmo : ∀ o, o ∈ speiOutputs scales ↔ ∃ s ∈ scales, o = .spei .pearson s ∨ o = .spei .gamma s := by
    intro o
    simp [speiOutputs]
  have hall : ∀ o ∈ documented c.args.index true scales, ComputableDaily₂ E cs ce y0 Y (vals.map toFl) (pet.map toFl) A b n o := by
    rw [hdoc]
    intro o ho i hi' k hk
    obtain ⟨s, hs', ho⟩ := (hmo o).1 ho
    obtain ⟨r1, r2⟩ := resultDaily_spei E hR (seriesAt b n i k vals) (seriesAt b n i k pet) (hmem i k) (hbal i hi' k hk) y0 Y (day_length hM hi' hk) (pet_day_length hM hP hi' hk) s (hsc s hs').1
      (hsc s hs').2 cs ce c1 c2 c3'
    rw [seriesAt_toFl, seriesAt_toFl]
    rcases ho with rfl | rfl
    · exact r1.2 (hfit s hs' i hi' k hk)
    · exact r2
  obtain ⟨w', h1, h2, h3, h4⟩ := daily_of_line₂ E hE T toInt ht cpus lower yearOf cmp j c hc (.inl hi) cs ce hcs hce hcpu w hM hP hfresh scales hs hall
  rw [hdoc] at h2 h3 h4
  refine ⟨w', h1, h2, h3, fun s hs' => ?_⟩
  have hdays : ∀ dist, ∀ i < A, ∀ k < b, ∀ out, resultDaily₂ E cs ce y0 Y (.spei dist s) ((seriesAt b n i k vals).map toFl) ((seriesAt b n i k pet).map toFl) = .ok out →
      ∃ r, spei E (Arr.of1d ((days366 optMean y0 Y (seriesAt b n i k vals)).map toFl)) (Arr.of1d ((days366 optMean y0 Y (seriesAt b n i k pet)).map toFl)) s dist .daily y0 cs ce none = .ok r ∧
        out = calendarDays y0 Y r.data := by
    intro dist i _ k _ out h
    unfold resultDaily₂ at h
    simp only [place366_toFl] at h
    obtain ⟨r, r1, r2⟩ := Res.bind_ok h
    cases r2
    exact ⟨r, r1, rfl⟩
  have hlen : ∀ i < A, ∀ k < b, s ≤ (days366 optMean y0 Y (seriesAt b n i k vals)).length ∧ ce < y0 + yearsOf (days366 optMean y0 Y (seriesAt b n i k vals)).length Periodicity.daily.steps ∧
      (days366 optMean y0 Y (seriesAt b n i k vals)).length = (days366 optMean y0 Y (seriesAt b n i k pet)).length ∧
      waterBalance (days366 optMean y0 Y (seriesAt b n i k vals)) (days366 optMean y0 Y (seriesAt b n i k pet)) = days366 optMean y0 Y (waterBalance (seriesAt b n i k vals) (seriesAt b n i k pet)) := by
    intro i hi' k hk
    rw [days366_len y0 Y _ (day_length hM hi' hk), days366_len y0 Y _ (pet_day_length hM hP hi' hk)]
    exact ⟨(hsc s hs').2, by rw [show Periodicity.daily.steps = 366 from rfl, yearsOf_days]; exact c3', rfl,
      waterBalance_days366 y0 Y _ _ (by rw [day_length hM hi' hk, pet_day_length hM hP hi' hk])⟩
  constructor
  · obtain ⟨file, y, g1, g2, g3, g4, g5, g6⟩ := h4 (.spei .gamma s) ((hmo _).2 ⟨s, hs', .inr rfl⟩)
    have hn : (Output.spei .gamma s).name = "spei_gamma_" ++ twoDigits s := rfl
    rw [hn] at g1 g2
    refine ⟨file, y, g1, g2, g3, g4, g5, fun i hi' k hk => ?_⟩
    obtain ⟨r, r1, r2⟩ := hdays .gamma i hi' k hk _ (g6 i hi' k hk)
    obtain ⟨l1, l2, l3, l4⟩ := hlen i hi' k hk
    have := balanceGamma_of E hE hR _ _ (days366_nonneg Y y0 _ (hmem i k)) l3 (by rw [l4]; exact days366_bound _ y0 Y _ (hbal i hi' k hk)) s (hsc s hs').1 l1 .daily (by decide) y0 cs ce c1 c2 l2 G Φ hG hΦ r r1
    rw [l4] at this
    exact ⟨r.data, this, r2⟩
  · obtain ⟨file, y, g1, g2, g3, g4, g5, g6⟩ := h4 (.spei .pearson s) ((hmo _).2 ⟨s, hs', .inl rfl⟩)
    have hn : (Output.spei .pearson s).name = "spei_pearson_" ++ twoDigits s := rfl
    rw [hn] at g1 g2
    refine ⟨file, y, g1, g2, g3, g4, g5, fun i hi' k hk => ?_⟩
    obtain ⟨r, r1, r2⟩ := hdays .pearson i hi' k hk _ (g6 i hi' k hk)
    obtain ⟨l1, l2, l3, l4⟩ := hlen i hi' k hk
    have := balancePearson_of E hE hR _ _ (days366_nonneg Y y0 _ (hmem i k)) l3 (by rw [l4]; exact days366_bound _ y0 Y _ (hbal i hi' k hk)) s (hsc s hs').1 l1 .daily (by decide) y0 cs ce c1 c2 l2 P Φ hPc hloc hΦ
      r r1
    rw [l4] at this
    exact ⟨r.data, this, r2⟩

/-! ## Concrete runs: 0, 1, 2, 4 and 8 mm of precipitation on all days of the years 2000 to 2004, and 3 mm of evapotranspiration -/

noncomputable def dayPet : List (Option ℝ) := yearVals (fun _ => 3)

noncomputable def dayPetVar : NcVar (Fl ℝ) := ⟨["lat", "lon", "time"], [1, 1, 1827], some "mm", dayPet.map toFl⟩

noncomputable def dayPetFile : NcFile (Fl ℝ) :=
  [("pet", dayPetVar), ("lat", ⟨["lat"], [1], none, [.fin 40]⟩), ("lon", ⟨["lon"], [1], none, [.fin 0]⟩), ("time", ⟨["time"], [1827], none, (List.range 1827).map (fun i : ℕ => .fin (i : ℝ))⟩)]

noncomputable def dayPetWorld (u : ℕ → ℝ) : World (Fl ℝ) := ⟨fun g => if g = "p.nc" then some (yearFile u) else if g = "e.nc" then some dayPetFile else none, fun _ => none, []⟩

/-- the arguments: a PET file instead of the temperature -/
def dayPetArgs (index : String) : CliArgs := { dailyArgs index [1] with netcdfTemp := none, varNameTemp := none, netcdfPet := some "e.nc", varNamePet := some "pet" }

theorem dayPet_daily (u : ℕ → ℝ) (index : String) :
    DailyGrid id fiveYear (dayPetArgs index) (dayPetWorld u) "p.nc" "prcp" (yearFile u) (yearVar u) 1 1 1827 ((yearVals u).map toFl) 2000 2004 5 := by
  have h := year_daily u index [1]
  exact ⟨⟨⟨rfl, rfl, rfl, rfl, h.ready.input.wf, h.ready.input.reserved, h.ready.input.notOutput⟩, h.ready.layout, h.ready.places, h.ready.coords, h.ready.lats, h.ready.years, h.ready.units⟩, h.grid,
    h.lons, rfl, h.years, h.whole, h.dates⟩

theorem dayPet_pet (u : ℕ → ℝ) (index : String) (cmp : CoordCmp (Fl ℝ)) (hcmp : ∀ l, cmp.close l l = .ok true ∧ cmp.equal l l = true) :
    PetFile id cmp (dayPetArgs index) (dayPetWorld u) (yearFile u) (yearVar u) "prcp" "e.nc" "pet" dayPetFile dayPetVar (dayPet.map toFl) := by
  refine ⟨⟨rfl, rfl, rfl, rfl, ?_, by decide, demo_notOutput _ (by decide)⟩, rfl, rfl, by decide, .inl rfl, ?_, fun c _ y _ => hcmp y.data, ?_, ⟨"mm", rfl, ?_⟩, rfl⟩
  · simp [dayPetVar, dayPet, yearVals_length]
  · intro c hc
    rcases (show c = "lat" ∨ c = "lon" ∨ c = "time" by simpa [yearVar] using hc) with rfl | rfl | rfl
    · exact ⟨_, _, rfl, rfl, rfl⟩
    · exact ⟨_, _, rfl, rfl, rfl⟩
    · exact ⟨_, _, rfl, rfl, rfl⟩
  · intro c x y h1 h2 h3 h4
    simp only [yearFile, dayPetFile, List.mem_cons, Prod.mk.injEq, List.not_mem_nil, or_false] at h1 h2
    rcases h1 with ⟨rfl, rfl⟩ | ⟨rfl, rfl⟩ | ⟨rfl, rfl⟩ | ⟨rfl, rfl⟩
    · exact absurd h3 (by simp [yearVar])
    all_goals
      rcases h2 with ⟨e, rfl⟩ | ⟨e, rfl⟩ | ⟨e, rfl⟩ | ⟨e, rfl⟩
      · exact absurd e (by decide)
      all_goals first | exact absurd e (by decide) | rfl
  · unfold convertPet
    rw [if_pos (by decide)]
    rfl

theorem year_balance (u v : ℕ → ℝ) : waterBalance (yearVals u) (yearVals v) = yearVals (fun j => u j - v j) := by
  have z : ∀ (m : ℕ) (a b : ℝ), List.zipWith (fun a b : Option ℝ => a.bind (fun u => b.map (fun v => u - v))) (List.replicate m (some a)) (List.replicate m (some b)) = List.replicate m (some (a - b)) := by
    intro m a b
    rw [List.zipWith_replicate, min_self]
    rfl
  have za : ∀ (m : ℕ) (a b : ℝ) (r s : List (Option ℝ)), List.zipWith (fun a b : Option ℝ => a.bind (fun u => b.map (fun v => u - v))) (List.replicate m (some a) ++ r) (List.replicate m (some b) ++ s) =
      List.replicate m (some (a - b)) ++ List.zipWith (fun a b : Option ℝ => a.bind (fun u => b.map (fun v => u - v))) r s := by
    intro m a b r s
    rw [List.zipWith_append (by rw [List.length_replicate, List.length_replicate]), z]
  unfold waterBalance yearVals
  rw [za, za, za, za, z]

theorem year_bounded (u : ℕ → ℝ) (c : ℝ) (h : ∀ j, c ≤ u j) : ∀ v, some v ∈ yearVals u → c ≤ v := by
  intro v hv
  have : ∃ j, v = u j := by
    simp only [yearVals, List.mem_append, List.mem_replicate, Option.some.injEq] at hv
    rcases hv with h | h | h | h | h <;> exact ⟨_, h.2⟩
  obtain ⟨j, rfl⟩ := this
  exact h j

theorem levels_ge (j : ℕ) : 0 ≤ levels j := by
  unfold levels
  split <;> positivity

theorem dayPet_balanced (u : ℕ → ℝ) (h : ∀ j, 0 ≤ u j) : Balanced 1 1827 1 (yearVals u) dayPet := by
  intro i hi k hk
  obtain rfl : i = 0 := by omega
  obtain rfl : k = 0 := by omega
  rw [dayPet, year_series, year_series, year_balance]
  exact year_bounded _ _ (fun j => by linarith [h j])

theorem sample_dayBalance (u : ℕ → ℝ) (c : ℕ) (hc : c < 366) :
    sample (days366 optMean 2000 5 (waterBalance (seriesAt 1 1827 0 0 (yearVals u)) (seriesAt 1 1827 0 0 dayPet))) 1 366 c 0 5 = [u 0 - 3, u 1 - 3, u 2 - 3, u 3 - 3, u 4 - 3] := by
  rw [dayPet, year_series, year_series, year_balance, sample_year _ c hc]

theorem dayPet_fit (s : ℕ) (hs : s ∈ [1]) (i : ℕ) (hi : i < 1) (k : ℕ) (hk : k < 1) (m : ℕ) (hm : m < 366) :
    ¬ UnfitStep 366 (days366 optMean 2000 5 (waterBalance (seriesAt 1 1827 i k (yearVals levels)) (seriesAt 1 1827 i k dayPet))) s m 2000 2000 2004 := by
  obtain rfl : s = 1 := by simpa using hs
  obtain rfl : i = 0 := by omega
  obtain rfl : k = 0 := by omega
  rintro ⟨_, h⟩
  have e2 : ((2000 : ℤ) - 2000).toNat = 0 := rfl
  have e3 : ((2004 : ℤ) - 2000 + 1).toNat = 5 := rfl
  rw [e2, e3, sample_dayBalance levels m hm] at h
  have : [levels 0 - 3, levels 1 - 3, levels 2 - 3, levels 3 - 3, levels 4 - 3] = [0, 1, 2, 4, 8].map (· + (-3 : ℝ)) := by norm_num [levels]
  rw [this, allButOne_raised] at h
  exact not_allButOne_steps5 h

/-- C124 for these files: the runs for SPEI and for all scaled indices end -/
example (T : Trig (Fl ℝ)) (cmp : CoordCmp (Fl ℝ)) (hcmp : ∀ l, cmp.close l l = .ok true ∧ cmp.equal l l = true) :
    (∃ w', processIndices (indexFunction sigmoidExt T 2000 2004) 2 id fiveYear cmp (dayPetArgs "spei") (dayPetWorld levels) = (.ok (), w')) ∧
      ∃ w', processIndices (indexFunction sigmoidExt T 2000 2004) 2 id fiveYear cmp (dayPetArgs "scaled") (dayPetWorld levels) = (.ok (), w') :=
  ⟨(C124_spei_exact sigmoidExt sigmoidExt_nan sigmoidExt_real T 2000 2004 2 (by decide) rfl (dayPet_daily levels "spei") (dayPet_pet levels "spei" cmp hcmp) levels_nonneg (dayPet_balanced _ levels_ge)
    rfl [1] rfl (by decide) le_rfl (by norm_num) le_rfl).2 dayPet_fit,
  (C124_scaled_exact sigmoidExt sigmoidExt_nan sigmoidExt_real T 2000 2004 2 (by decide) rfl (dayPet_daily levels "scaled") (dayPet_pet levels "scaled" cmp hcmp) levels_nonneg
    (dayPet_balanced _ levels_ge) rfl [1] rfl (by decide) le_rfl (by norm_num) le_rfl).2 (fun s hs i hi k hk c hc => ⟨levels_fit s hs i hi k hk c hc, dayPet_fit s hs i hi k hk c hc⟩)⟩

/-- and with 5 mm on all days of the first four years and 7 mm in the last year they do not -/
example (T : Trig (Fl ℝ)) (cmp : CoordCmp (Fl ℝ)) (hcmp : ∀ l, cmp.close l l = .ok true ∧ cmp.equal l l = true) :
    ¬ ∃ w', processIndices (indexFunction sigmoidExt T 2000 2004) 2 id fiveYear cmp (dayPetArgs "spei") (dayPetWorld (fun j => if j < 4 then 5 else 7)) = (.ok (), w') := by
  have hge : ∀ j : ℕ, (0 : ℝ) ≤ if j < 4 then 5 else 7 := by
    intro j
    split <;> norm_num
  intro h
  refine (C124_spei_exact sigmoidExt sigmoidExt_nan sigmoidExt_real T 2000 2004 2 (by decide) rfl (dayPet_daily _ "spei") (dayPet_pet _ "spei" cmp hcmp) (year_bounded _ 0 hge) (dayPet_balanced _ hge)
    rfl [1] rfl (by decide) le_rfl (by norm_num) le_rfl).1 h 1 (by decide) 0 (by decide) 0 (by decide) 0 (by decide) ?_
  have e2 : ((2000 : ℤ) - 2000).toNat = 0 := rfl
  have e3 : ((2004 : ℤ) - 2000 + 1).toNat = 5 := rfl
  unfold UnfitStep
  rw [e2, e3, sample_dayBalance _ 0 (by decide)]
  norm_num
  refine ⟨2, 4, ?_⟩
  show List.Perm [2, 2, 2, 2, 4] (4 :: [2, 2, 2, 2])
  exact List.perm_append_comm (l₁ := [(2 : ℝ), 2, 2, 2]) (l₂ := [4])

/-- the command line of the run -/
def dayPetCommand (index : String) : MainCommand := ⟨dayPetArgs index, some 2000, some 2004, .single, "none"⟩

theorem dayPet_writable {index : String} (hi : index ∈ ["spei", "scaled"]) : Writable (fun _ => false) (dayPetCommand index) := by
  refine ⟨rfl, ?_, (by decide : Periodicity.daily ≠ .other), (by decide : "none" ∈ ["none", "input"]), ?_⟩
  · show index ∈ _
    rcases (show index = "spei" ∨ index = "scaled" by simpa using hi) with rfl | rfl <;> decide
  · intro p hp _ t ht
    simp only [dayPetCommand, dayPetArgs, dailyArgs, demoArgs, List.mem_cons, List.not_mem_nil, or_false] at hp
    rcases hp with rfl | rfl | rfl | rfl | rfl | rfl | rfl | rfl | rfl <;> cases ht <;> exact .inl (by decide)

/-- C125: in the file `out_spei_gamma_01.nc` the value of 15 January 2003 is the index of the balance 1 mm, raised by 1000 mm like the five balances of that calendar day -/
example (T : Trig (Fl ℝ)) (cmp : CoordCmp (Fl ℝ)) (hcmp : ∀ l, cmp.close l l = .ok true ∧ cmp.equal l l = true) (toInt : String → Option Int) (ht : ∀ n : Int, toInt (toString n) = some n) :
    ∃ w' file y, mainTool sigmoidExt T toInt 1 id fiveYear cmp (commandLine (fun _ => false) (dayPetCommand "spei")) (dayPetWorld levels) = (.ended (.ok ()), w') ∧
      w'.written = [("out_spei_pearson_01.nc", "spei_pearson_01"), ("out_spei_gamma_01.nc", "spei_gamma_01")] ∧ w'.files "out_spei_gamma_01.nc" = some file ∧ ("spei_gamma_01", y) ∈ file ∧
      y.data[366 + 365 + 365 + 14]? = some (.fin (clamp (8 * (gammaP (shape [997, 998, 999, 1001, 1005]) (1001 / scale [997, 998, 999, 1001, 1005]) - 1 / 2)))) := by
  obtain ⟨w', h1, h2, _, h4⟩ := C125_spei sigmoidExt sigmoidExt_nan sigmoidExt_real (fun v a b => gammaP a (v / b)) sigmoid (fun q => 8 * (q - 1 / 2)) realExt_G (by
      intro v sk loc sc _ hsc _
      refine ⟨?_, sigmoid_range v sk loc sc⟩
      show (if sc = 0 then Fl.nan else Fl.fin (sigmoid v 0 loc sc)) = _
      rw [if_neg hsc.ne']
      rfl) (by
      intro v sk loc sc c _
      unfold sigmoid
      rw [add_sub_add_right_eq_sub]) realExt_Φ T toInt ht 1 id fiveYear cmp (fun _ => false) (dayPetCommand "spei") (dayPet_writable (by decide)) rfl 2000 2004 rfl rfl (by decide) (dayPetWorld levels)
    (dayPet_daily levels "spei") (dayPet_pet levels "spei" cmp hcmp) rfl levels_nonneg (dayPet_balanced _ levels_ge) [1] rfl (by decide) le_rfl (by norm_num) le_rfl dayPet_fit
  obtain ⟨⟨file, y, g1, g2, _, g4, _, g6⟩, _⟩ := h4 1 (by decide)
  have hn : "spei_gamma_" ++ twoDigits 1 = "spei_gamma_01" := by decide +kernel
  rw [hn] at g1 g2
  refine ⟨w', file, y, h1, ?_, ?_, g2, ?_⟩
  · rw [h2]
    show [] ++ entries "out" (speiOutputs [1]) = _
    decide +kernel
  · rw [← g1]
    rfl
  · obtain ⟨r, hg, hr⟩ := g6 0 (by decide) 0 (by decide)
    beta_reduce at hg
    have hsam := sample_dayBalance levels 14 (by omega)
    rw [dayPet, year_series, year_series, year_balance] at hg hsam
    have hl : (days366 optMean 2000 5 (yearVals (fun j => levels j - 3))).length = 1830 := days366_len 2000 5 _ (by rw [yearVals_length]; decide)
    have hser : seriesAt 1 1827 0 0 y.data = y.data.take 1827 := rfl
    have hv := hg.2.2 1112 1 (by rw [accum_year _ 1112 (by omega)]; norm_num [levels])
    have e2 : ((2000 : ℤ) - 2000).toNat = 0 := rfl
    have e3 : ((2004 : ℤ) - 2000 + 1).toNat = 5 := rfl
    have e5 : 1112 % 366 = 14 := rfl
    rw [e2, e3, e5, hsam] at hv
    have hmap : [levels 0 - 3, levels 1 - 3, levels 2 - 3, levels 3 - 3, levels 4 - 3].map (· + ((1 : ℕ) : ℝ) * 1000) = [997, 998, 999, 1001, 1005] := by norm_num [levels]
    simp only [hmap] at hv
    have := hv ⟨997, by simp, 998, by simp, by norm_num⟩
    have hc := calendarDays_get 5 2000 r 3 14 (by omega) (by omega) (by rw [hg.1, hl])
    rw [← hr, show yearsLen 2000 3 + 14 = 366 + 365 + 365 + 14 by decide, show 3 * 366 + 14 = 1112 from rfl, this, hser, List.getElem?_take_of_lt (by omega)] at hc
    rw [hc]
    norm_num

end CI.Props
