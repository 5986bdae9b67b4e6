import Verif.Lemmas.CliLiveDaily
import Verif.Props.EndToEnd
import Verif.Props.CliDaily

/-!
# C122 and C123: which runs of the main tool on daily values finish, and the daily indices from the command line to the files
-/

namespace CI.Props
open CI FloatOps FloatLaws Spec Spec.McKee

/-! ## Specification -/

section
variable {F : Type} [FloatOps F]

/-- daily precipitation as a run needs it: variable `v` of file `f` on a grid of `A` × `b` places, `n` days of the `Y` whole years `y0` to `y1`, in known units (`mm`: the values in
millimetres), with coordinates -/
structure DailyGrid (lower : String → String) (yearOf : F → Int) (a : CliArgs) (w : World F) (f v : String) (d : NcFile F) (x : NcVar F) (A b n : Nat) (mm : List F) (y0 y1 : Int) (Y : Nat) : Prop where
  ready : Ready lower yearOf a w f v d x A b n mm y0 y1
  grid : x.dims = ["lat", "lon", "time"]
  lons : 1 ≤ b
  daily : a.periodicity = .daily
  years : y1 = y0 + Y - 1 ∧ 1 ≤ Y
  whole : n = yearsLen y0 Y
  dates : 1 ≤ y0 ∧ y1 ≤ 9999

/-- the values of the days `l` of a place in years of 366 days -/
def place366 (y0 : Int) (Y : Nat) (l : List F) : List F := days366 (fun e g => (e + g) / lit 2) y0 Y l

/-- the result for the days of a place: the index of the years of 366 days, without the 29 February of ordinary years -/
def resultDaily (E : Ext F) (cs ce y0 : Int) (Y : Nat) (o : Output) (l : List F) : Res (List F) :=
  match o with
  | .spi dist s => do
    let r ← spi E (Arr.of1d (place366 y0 Y l)) s dist y0 cs ce .daily none
    pure (calendarDays y0 Y r)
  | .pnp s => do
    let r ← percentageOfNormal (place366 y0 Y l) (some (s : Int)) y0 cs ce .daily
    if r.length = Y * 366 then pure (calendarDays y0 Y r) else .error .valueError
  | _ => .error .valueError

/-- the output can be computed at every place -/
def ComputableDaily (E : Ext F) (cs ce y0 : Int) (Y : Nat) (mm : List F) (A b n : Nat) (o : Output) : Prop := ∀ i < A, ∀ k < b, ∃ r, resultDaily E cs ce y0 Y o (seriesAt b n i k mm) = .ok r

/-- the index function of the job of an output on daily values, and its specification -/
theorem jobOf_daily [FloatLaws F] (E : Ext F) (hE : ExtNan E) (T : Trig F) (cs ce y0 : Int) (Y : Nat) (a : CliArgs) (hm : a.periodicity = .daily) (it : InputType) (fp : String × String) (o : Output) (ho : Simple o)
    (l r : List F) (hl : l.length = yearsLen y0 Y) :
    resultDaily E cs ce y0 Y o l = .ok r ↔ ∃ s t, indexFunction E T cs ce y0 (jobOf a it fp o) (place366 y0 Y l) (place366 y0 Y l) = .ok s ∧ assignSeries (Y * 366) s = .ok t ∧ r = calendarDays y0 Y t := by
  have hp : (place366 y0 Y l).length = Y * 366 := days366_length l y0 Y hl
  unfold resultDaily
  generalize place366 y0 Y l = p at hp
  cases o with
  | spi dist s =>
    have e : indexFunction E T cs ce y0 (jobOf a it fp (.spi dist s)) p p = spi E (Arr.of1d p) s dist y0 cs ce .daily none := by
      rw [← hm]; rfl
    rw [e]
    simp only []
    constructor
    · intro h
      obtain ⟨t, h1, h2⟩ := Res.bind_ok h
      cases h2
      refine ⟨t, t, h1, ?_, rfl⟩
      unfold assignSeries
      rw [if_pos (by rw [← hp]; exact C10_size E hE _ _ _ _ _ _ _ _ _ h1)]
    · rintro ⟨s', t, h1, h2, rfl⟩
      rw [← hp] at h2
      rw [assignSeries_same h2 (C10_size E hE _ _ _ _ _ _ _ _ _ h1), h1]
      rfl
  | pnp s =>
    have e : indexFunction E T cs ce y0 (jobOf a it fp (.pnp s)) p p = percentageOfNormal p (some (s : Int)) y0 cs ce .daily := by
      rw [← hm]; rfl
    rw [e]
    simp only []
    constructor
    · intro h
      obtain ⟨t, h1, h⟩ := Res.bind_ok h
      split at h
      · next hl =>
        cases h
        exact ⟨t, t, h1, by unfold assignSeries; rw [if_pos hl], rfl⟩
      · cases h
    · rintro ⟨s', t, h1, h2, rfl⟩
      rw [← hp] at h2
      have e := pnp_assign p s y0 cs ce .daily s' t h1 h2
      subst e
      have := assignSeries_ok h2
      simp only [h1, bind, Except.bind, ← hp, if_pos this]
      rfl
  | spei _ _ => exact ho.elim
  | pet => exact ho.elim

/-! ## C122 -/

open Classical in
/-- **C122.** A run of the main tool for SPI or for the percentage of normal from daily precipitation of whole calendar years on a grid, in a fresh process, with at least one worker process: it ends
without exception exactly if every output can be computed at every place. In any case the outputs before the first one that cannot be computed somewhere are written, in the documented order, with the
right values at every place: those of the index of the years of 366 days, day by day; no other file is changed or created. -/
theorem C122_run [FloatLaws F] (E : Ext F) (hE : ExtNan E) (T : Trig F) (cs ce : Int) (wk : Nat) (hwk : 1 ≤ wk) (lower : String → String) (yearOf : F → Int) (cmp : CoordCmp F) (a : CliArgs) (w : World F)
    (hi : a.index = "spi" ∨ a.index = "pnp") {f v : String} {d : NcFile F} {x : NcVar F} {A b n Y : Nat} {mm : List F} {y0 y1 : Int} (hM : DailyGrid lower yearOf a w f v d x A b n mm y0 y1 Y)
    (hfresh : w.shared "result_array" = none) (scales : List Nat) (hs : a.scales = some (scales.map Int.ofNat)) :
    ∃ res w', processIndices (indexFunction E T cs ce) wk lower yearOf cmp a w = (res, w') ∧
      (res = .ok () ↔ ∀ o ∈ documented a.index false scales, ComputableDaily E cs ce y0 Y mm A b n o) ∧
      w'.written = w.written ++ entries a.outputFileBase ((documented a.index false scales).takeWhile (fun o => decide (ComputableDaily E cs ce y0 Y mm A b n o))) ∧
      (∀ o ∈ (documented a.index false scales).takeWhile (fun o => decide (ComputableDaily E cs ce y0 Y mm A b n o)),
        Holds w'.files a.outputFileBase o d x A b n (fun i k => resultDaily E cs ce y0 Y o (seriesAt b n i k mm))) ∧
      ∀ g, (∀ o ∈ (documented a.index false scales).takeWhile (fun o => decide (ComputableDaily E cs ce y0 Y mm A b n o)), g ≠ fileName a.outputFileBase o.name) → w'.files g = w.files g := by
  have hR := hM.ready
  obtain ⟨it, hl, hL, hrun⟩ := process_jobs (K := indexFunction E T cs ce) (wk := wk) hR cmp hi hs
  have hsim := documented_simple hi scales
  generalize documented a.index false scales = outs at hrun hsim ⊢
  rw [hrun]
  obtain ⟨u, hu, hc⟩ := hR.units
  have hsh : x.shape = [A, b, n] := by
    rcases hR.layout with ⟨_, h⟩ | ⟨h, _⟩
    · exact h
    · rw [hM.grid] at h; simp at h
  have hit : it = .grid := by
    rcases hl with ⟨h, _⟩ | ⟨_, h, _⟩
    · exact h
    · rw [hsh] at h; simp at h
  have hser : ∀ i < A, ∀ k < b, (seriesAt b n i k mm).length = yearsLen y0 Y := by
    intro i hi' k hk
    rw [← hM.whole]
    exact seriesAt_len hl (by rw [convert_length.1 hc]; exact hR.input.wf) hi' hk
  obtain ⟨hfy, hly⟩ := years_ok hR.years
  obtain ⟨hy1, hy2⟩ := hM.years
  have hY : y1 - y0 + 1 = (Y : Int) := by omega
  refine precip_run a it w outs hsim [A, b, Y * 366] (fun o i k => resultDaily E cs ce y0 Y o (seriesAt b n i k mm)) (ComputableDaily E cs ce y0 Y mm A b n) (fun _ => Iff.rfl) hR.input.opened hR.input.notOutput hfresh ?_ ?_
  · intro o ho hcm v' hv1 hv2
    obtain ⟨e1, e2, e3, e4, e5, e6, e7⟩ := jobOf_facts a it (f, v) o (hsim o ho)
    rw [← e7]
    refine cwi_exists_daily (mm := mm) (y0 := y0) (y1 := y1) (A := A) (b := b) (n := n) e1 e2 e3 e4
      (by rw [e5, hM.daily]) (by rw [e6, hit]) (by
        rw [e6]
        exact ⟨hv1, hL.found, hL.wf, hL.name, hL.year, hL.units, hL.dims, hL.place⟩) hsh hR.places hM.lons hly hY hy2 hM.whole hM.dates.1 hM.dates.2 hwk hv2 (jobOf_name a it (f, v) o (hsim o ho)) ?_
    intro i hi' k hk
    obtain ⟨r, hr⟩ := hcm i hi' k hk
    obtain ⟨s, t, h1, h2, _⟩ := (jobOf_daily E hE T cs ce y0 Y a hM.daily it (f, v) o (hsim o ho) _ r (hser i hi' k hk)).1 hr
    exact ⟨s, t, h1, h2⟩
  · intro o ho v1 v2 r hf hr
    obtain ⟨e1, e2, e3, e4, e5, e6, e7⟩ := jobOf_facts a it (f, v) o (hsim o ho)
    obtain ⟨u', mm', new, y, c1, c2, c3, c4, c5, c6, c6', c7⟩ := cwi_precip hr e1 e2 e3 e4 hR.input.reserved hf hR.input.found (by rw [e6]; exact hl) hR.input.wf hR.years
    rw [hu] at c1
    cases c1
    rw [hc] at c2
    cases c2
    refine ⟨new, y, c3, c4, c5, c6, fun i hi' k hk => ?_⟩
    obtain ⟨p, s, t, t1, t2, t3, t4⟩ := c7 i hi' k hk
    have hpp : p = place366 y0 Y (seriesAt b n i k mm) := by
      unfold preparedIt prepared at t1
      rw [e6, e5, hM.daily, if_neg (by rw [hit]; decide), if_pos rfl, show (y1 - y0 + 1).toNat = Y by omega, to366_ok _ _ _ (hser i hi' k hk), Except.ok.injEq] at t1
      exact t1.symm
    subst hpp
    have hpl : (place366 y0 Y (seriesAt b n i k mm)).length = Y * 366 := days366_length _ y0 Y (hser i hi' k hk)
    rw [hpl] at t3
    have htl : t.length = Y * 366 := assignSeries_ok t3
    unfold restored at t4
    rw [e5, hM.daily, if_pos rfl, greg_ok t y0 Y htl hy2 hM.dates.1 (by have := hM.dates.2; omega), Except.ok.injEq] at t4
    exact (jobOf_daily E hE T cs ce y0 Y a hM.daily it (f, v) o (hsim o ho) _ _ (hser i hi' k hk)).2 ⟨s, t, t2, t3, t4.symm⟩

end

/-! ### Exactly which precipitation -/

/-- the calendar day `c` (of 366) of a record is one for which the Pearson fit fails: at least four positive accumulations in the calibration years, and all accumulations but one the same -/
def UnfitDay (x : List (Option ℝ)) (k c : ℕ) (ds cs ce : ℤ) : Prop :=
  4 ≤ (wet (sample x k 366 c (cs - ds).toNat (ce - cs + 1).toNat)).length ∧ AllButOne (sample x k 366 c (cs - ds).toNat (ce - cs + 1).toNat)

theorem days366_map {α β : Type} (g : α → β) (m : α → α → α) (m' : β → β → β) (hm : ∀ a b, m' (g a) (g b) = g (m a b)) (n : ℕ) : ∀ (y : ℤ) (l : List α),
    days366 m' y n (l.map g) = (days366 m y n l).map g := by
  induction n with
  | zero => intro y l; rfl
  | succ n ih =>
    intro y l
    rw [days366, days366, List.map_append, ← ih, List.map_drop, ← List.map_take]
    congr 1
    unfold year366
    generalize l.take (yearLen y) = c
    by_cases h : Leap y
    · rw [if_pos h, if_pos h]
    · rw [if_neg h, if_neg h, List.map_append, List.map_append, List.map_take, List.map_drop, List.map_zipWith]
      congr 2
      rw [← List.map_drop, ← List.map_take, ← List.map_drop, ← List.map_take, List.zipWith_map]
      congr 1
      funext a b
      exact hm a b

/-- the years of 366 days of a record with missing values -/
theorem place366_toFl (y0 : ℤ) (Y : ℕ) (l : List (Option ℝ)) : place366 y0 Y (l.map toFl) = (days366 optMean y0 Y l).map toFl := by
  refine days366_map toFl optMean _ (fun a b => ?_) Y y0 l
  cases a with
  | none => rfl
  | some a =>
    cases b with
    | none => rfl
    | some b =>
      show Fl.div (.fin (a + b)) (lit 2) = _
      rw [Fl.lit_def]
      simp [Fl.div, optMean, toFl]

theorem days366_nonneg (n : ℕ) : ∀ (y : ℤ) (l : List (Option ℝ)), (∀ a, some a ∈ l → 0 ≤ a) → ∀ a, some a ∈ days366 optMean y n l → 0 ≤ a := by
  induction n with
  | zero => intro y l _ a ha; cases ha
  | succ n ih =>
    intro y l h a ha
    rw [days366, List.mem_append] at ha
    rcases ha with ha | ha
    · have hc : ∀ a, some a ∈ l.take (yearLen y) → 0 ≤ a := fun a ha => h a (List.mem_of_mem_take ha)
      generalize l.take (yearLen y) = c at ha hc
      unfold year366 at ha
      split at ha
      · exact hc a ha
      · rw [List.mem_append, List.mem_append] at ha
        rcases ha with (ha | ha) | ha
        · exact hc a (List.mem_of_mem_take ha)
        · rw [List.mem_iff_getElem] at ha
          obtain ⟨i, hi, e⟩ := ha
          rw [List.getElem_zipWith] at e
          have m1 := List.mem_of_mem_drop (List.mem_of_mem_take (List.getElem_mem (l := (c.drop 58).take 1) (n := i) (by simp at hi ⊢; omega)))
          have m2 := List.mem_of_mem_drop (List.mem_of_mem_take (List.getElem_mem (l := (c.drop 59).take 1) (n := i) (by simp at hi ⊢; omega)))
          generalize ((c.drop 58).take 1)[i]'_ = p at e m1
          generalize ((c.drop 59).take 1)[i]'_ = q at e m2
          cases p with
          | none => cases e
          | some p =>
            cases q with
            | none => cases e
            | some q =>
              have e' : some ((p + q) / 2) = some a := e
              rw [Option.some.injEq] at e'
              have := hc p m1
              have := hc q m2
              linarith
        · exact hc a (List.mem_of_mem_drop ha)
    · exact ih (y + 1) _ (fun a ha => h a (List.mem_of_mem_drop ha)) a ha

theorem days366_len (y0 : ℤ) (Y : ℕ) (l : List (Option ℝ)) (h : l.length = yearsLen y0 Y) : (days366 optMean y0 Y l).length = Y * 366 := by
  have := days366_length (l.map toFl) y0 Y (by rw [List.length_map]; exact h)
  rw [show days366 (fun e g : Fl ℝ => (e + g) / lit 2) y0 Y (l.map toFl) = place366 y0 Y (l.map toFl) from rfl, place366_toFl, List.length_map] at this
  exact this

theorem yearsOf_days (Y : ℕ) : yearsOf (Y * 366) 366 = Y := by
  unfold yearsOf
  omega

/-- when the SPI of a record of days can be computed -/
theorem resultDaily_spi (E : Ext (Fl ℝ)) (hR : ExtReal E) (l : List (Option ℝ)) (hx : ∀ a, some a ∈ l → 0 ≤ a) (y0 : ℤ) (Y : ℕ) (hl : l.length = yearsLen y0 Y) (k : ℕ) (h1 : 1 ≤ k) (h2 : k ≤ Y * 366)
    (cs ce : ℤ) (c1 : y0 ≤ cs) (c2 : cs ≤ ce) (c3 : ce < y0 + Y) :
    ((∃ r, resultDaily E cs ce y0 Y (.spi .pearson k) (l.map toFl) = .ok r) ↔ ∀ c < 366, ¬ UnfitDay (days366 optMean y0 Y l) k c y0 cs ce) ∧
      ∃ r, resultDaily E cs ce y0 Y (.spi .gamma k) (l.map toFl) = .ok r := by
  have hlen := days366_len y0 Y l hl
  have hx' := days366_nonneg Y y0 l hx
  unfold resultDaily
  simp only [place366_toFl]
  generalize days366 optMean y0 Y l = x at hlen hx'
  have hstep : ∀ dist, (∃ r, (do
      let r ← spi E (Arr.of1d (x.map toFl)) k dist y0 cs ce .daily none
      pure (calendarDays y0 Y r)) = Except.ok r) ↔ ∃ r, spi E (Arr.of1d (x.map toFl)) k dist y0 cs ce .daily none = .ok r := by
    intro dist
    generalize spi E (Arr.of1d (x.map toFl)) k dist y0 cs ce .daily none = q
    cases q with
    | error e =>
      constructor
      · rintro ⟨r, hr⟩
        cases hr
      · rintro ⟨r, hr⟩
        cases hr
    | ok r => exact ⟨fun _ => ⟨r, rfl⟩, fun _ => ⟨_, rfl⟩⟩
  rw [hstep, hstep]
  have h2' : k ≤ x.length := by omega
  have c3' : ce < y0 + yearsOf x.length 366 := by rw [hlen, yearsOf_days]; exact c3
  by_cases hs : ∃ a, some a ∈ x
  · have hn : ∃ v ∈ (Arr.of1d (x.map toFl)).data, isNan v = false := by
      obtain ⟨a, ha⟩ := hs
      exact ⟨toFl (some a), List.mem_map.2 ⟨_, ha, rfl⟩, rfl⟩
    have hk : (1 : Int) ≤ (k : Int) := by exact_mod_cast h1
    constructor
    · have key := C10_pearson_exact E hR x hx' k h1 h2' .daily (by decide) y0 cs ce c1 c2 c3' hs
      rcases C10_pearson_partial E (Arr.of1d (x.map toFl)) k y0 cs ce .daily (.inl rfl) (.inr rfl) hk hn with ⟨out, ho, _⟩ | he
      · refine ⟨fun _ c hc hbad => ?_, fun _ => ⟨out, ho⟩⟩
        have := key.2 ⟨c, hc, hbad⟩
        rw [ho] at this
        cases this
      · refine ⟨fun ⟨r, hr⟩ => ?_, fun h => ?_⟩
        · rw [he] at hr
          cases hr
        · obtain ⟨c, hc, hbad⟩ := key.1 he
          exact absurd hbad (h c hc)
    · obtain ⟨out, ho, _⟩ := C10_gamma E (Arr.of1d (x.map toFl)) k y0 cs ce .daily (.inl rfl) (.inr rfl) hk hn
      exact ⟨out, ho⟩
  · refine ⟨⟨fun _ c hc hbad => ?_, fun _ => ⟨_, spi_missing E x hs k .pearson y0 cs ce .daily⟩⟩, _, spi_missing E x hs k .gamma y0 cs ce .daily⟩
    have := hbad.1
    rw [sample_missing x hs k 366 c _ _ h1] at this
    simp [wet] at this

section
variable {lower : String → String} {yearOf : Fl ℝ → Int} {a : CliArgs} {w : World (Fl ℝ)} {f v : String} {d : NcFile (Fl ℝ)} {x : NcVar (Fl ℝ)} {A b n Y : Nat} {vals : List (Option ℝ)} {y0 y1 : Int}

theorem day_length (hM : DailyGrid lower yearOf a w f v d x A b n (vals.map toFl) y0 y1 Y) {i k : Nat} (hi : i < A) (hk : k < b) : (seriesAt b n i k vals).length = yearsLen y0 Y := by
  obtain ⟨u, hu, hc⟩ := hM.ready.units
  obtain ⟨it, hl⟩ : ∃ it, IsLayout it x.shape A b n := by
    rcases hM.ready.layout with ⟨_, h⟩ | ⟨_, h, hb⟩
    · exact ⟨.grid, .inl ⟨rfl, h⟩⟩
    · exact ⟨.divisions, .inr ⟨rfl, h, hb⟩⟩
  have := seriesAt_len hl (by rw [convert_length.1 hc]; exact hM.ready.input.wf) hi hk
  rw [seriesAt_toFl, List.length_map] at this
  rw [this, hM.whole]

/-- **C122, exactly.** In exact arithmetic, for daily precipitation of whole years that is not negative (places may have missing days or no values at all), scales from 1 to the length of the record
and calibration years inside the record, a run for SPI ends without exception exactly if no place, no scale and no calendar day has a sample for which the Pearson fit fails: at least four
positive accumulations in the calibration years, and all accumulations but one the same. -/
theorem C122_spi_exact (E : Ext (Fl ℝ)) (hE : ExtNan E) (hR : ExtReal E) (T : Trig (Fl ℝ)) (cs ce : Int) (wk : Nat) (hwk : 1 ≤ wk) (cmp : CoordCmp (Fl ℝ)) (hi : a.index = "spi")
    (hM : DailyGrid lower yearOf a w f v d x A b n (vals.map toFl) y0 y1 Y) (hpos : ∀ u, some u ∈ vals → 0 ≤ u) (hfresh : w.shared "result_array" = none) (scales : List Nat)
    (hs : a.scales = some (scales.map Int.ofNat)) (hsc : ∀ s ∈ scales, 1 ≤ s ∧ s ≤ Y * 366) (c1 : y0 ≤ cs) (c2 : cs ≤ ce) (c3 : ce ≤ y1) :
    (∃ w', processIndices (indexFunction E T cs ce) wk lower yearOf cmp a w = (.ok (), w')) ↔
      ∀ s ∈ scales, ∀ i < A, ∀ k < b, ∀ c < 366, ¬ UnfitDay (days366 optMean y0 Y (seriesAt b n i k vals)) s c y0 cs ce := by
  obtain ⟨res, w', h1, h2, _⟩ := C122_run E hE T cs ce wk hwk lower yearOf cmp a w (.inl hi) hM hfresh scales hs
  have hmem : ∀ i k u, some u ∈ seriesAt b n i k vals → 0 ≤ u := fun i k u hu => hpos u (List.mem_of_mem_drop (List.mem_of_mem_take hu))
  have hpl : ∀ s ∈ scales, ∀ i (hi' : i < A) k (hk : k < b), _ := fun s hs' i hi' k hk =>
    resultDaily_spi E hR (seriesAt b n i k vals) (hmem i k) y0 Y (day_length hM hi' hk) s (hsc s hs').1 (hsc s hs').2 cs ce c1 c2 (by have := hM.years.1; omega)
  rw [h1]
  have hdoc : ∀ o, o ∈ documented a.index false scales ↔ ∃ s ∈ scales, o = .spi .pearson s ∨ o = .spi .gamma s := by
    intro o
    rw [hi]
    show o ∈ spiOutputs scales ↔ _
    simp [spiOutputs]
  constructor
  · rintro ⟨w'', hw⟩
    have := h2.1 (Prod.ext_iff.1 hw).1
    intro s hs' i hi' k hk
    have := this (.spi .pearson s) ((hdoc _).2 ⟨s, hs', .inl rfl⟩) i hi' k hk
    rw [seriesAt_toFl] at this
    exact (hpl s hs' i hi' k hk).1.1 this
  · intro h
    have hall : ∀ o ∈ documented a.index false scales, ComputableDaily E cs ce y0 Y (vals.map toFl) A b n o := by
      intro o ho i hi' k hk
      obtain ⟨s, hs', rfl | rfl⟩ := (hdoc o).1 ho
      · rw [seriesAt_toFl]
        exact (hpl s hs' i hi' k hk).1.2 (h s hs' i hi' k hk)
      · rw [seriesAt_toFl]
        exact (hpl s hs' i hi' k hk).2
    exact ⟨w', by rw [h2.2 hall]⟩

end

/-- when the percentage of normal of a record of days can be computed; the length of the calibration is compared as if a year had twelve values (indices.py:419-424) -/
theorem resultDaily_pnp {F : Type} [FloatOps F] (E : Ext F) (l : List F) (s : ℕ) (ds cs ce : ℤ) (Y : ℕ) (hl : l.length = yearsLen ds Y) :
    (∃ r, resultDaily E cs ce ds Y (.pnp s) l = .ok r) ↔ ds ≤ cs ∧ (ce - cs + 1) * 12 ≤ ((Y * 366 : ℕ) : ℤ) ∧ (s = 1 ∨ 1 ≤ s ∧ s ≤ Y * 366) := by
  have hp : (place366 ds Y l).length = Y * 366 := days366_length l ds Y hl
  unfold resultDaily
  rw [← hp]
  generalize place366 ds Y l = l
  unfold percentageOfNormal
  simp only []
  by_cases h1 : (s : Int) < 1
  · rw [if_pos h1]
    constructor
    · rintro ⟨r, hr⟩
      cases hr
    · rintro ⟨_, _, h | h⟩ <;> omega
  rw [if_neg h1]
  by_cases h2 : ds > cs
  · rw [if_pos h2]
    constructor
    · rintro ⟨r, hr⟩
      cases hr
    · rintro ⟨h, _⟩
      omega
  rw [if_neg h2]
  by_cases h3 : (ce - cs + 1) * 12 > l.length
  · rw [if_pos h3]
    constructor
    · rintro ⟨r, hr⟩
      cases hr
    · rintro ⟨_, h, _⟩
      omega
  rw [if_neg h3]
  unfold sumToScale
  by_cases h4 : (s : Int) = 1
  · rw [if_pos h4]
    simp only [bind, Except.bind, pure, Except.pure, List.length_mapIdx, if_true]
    exact ⟨fun _ => ⟨by omega, by omega, .inl (by omega)⟩, fun _ => ⟨_, rfl⟩⟩
  rw [if_neg h4]
  unfold convolveOnes
  by_cases h5 : l = []
  · rw [if_pos (.inr h5)]
    constructor
    · rintro ⟨r, hr⟩
      cases hr
    · rintro ⟨_, _, h⟩
      rw [h5, List.length_nil] at h
      omega
  rw [if_neg (by rintro (h | h); omega; exact h5 h)]
  have hl : l.length ≠ 0 := by rwa [ne_eq, List.length_eq_zero_iff]
  simp only [Int.toNat_natCast]
  by_cases h6 : s ≤ l.length
  · rw [if_pos h6]
    simp only [bind, Except.bind, pure, Except.pure, List.length_mapIdx]
    rw [if_pos (by simp; omega)]
    exact ⟨fun _ => ⟨by omega, by omega, .inr ⟨by omega, h6⟩⟩, fun _ => ⟨_, rfl⟩⟩
  · rw [if_neg h6]
    simp only [bind, Except.bind, pure, Except.pure, List.length_mapIdx]
    rw [if_neg (by simp; omega)]
    constructor
    · rintro ⟨r, hr⟩
      cases hr
    · rintro ⟨_, _, h⟩
      omega


/-- **C122, percentage of normal.** In every arithmetic, whatever the values: a run for the percentage of normal of daily values of whole years ends without exception exactly if the calibration does
not begin before the record, has at most a twelfth as many years as the record has days, and every scale is at least 1 and at most the length of the record (or 1). -/
theorem C122_pnp_exact {F : Type} [FloatOps F] [FloatLaws F] (E : Ext F) (hE : ExtNan E) (T : Trig F) (cs ce : Int) (wk : Nat) (hwk : 1 ≤ wk) (lower : String → String) (yearOf : F → Int) (cmp : CoordCmp F)
    (a : CliArgs) (w : World F) (hi : a.index = "pnp") {f v : String} {d : NcFile F} {x : NcVar F} {A b n Y : Nat} {mm : List F} {y0 y1 : Int}
    (hM : DailyGrid lower yearOf a w f v d x A b n mm y0 y1 Y) (hfresh : w.shared "result_array" = none) (scales : List Nat) (hs : a.scales = some (scales.map Int.ofNat)) :
    (∃ w', processIndices (indexFunction E T cs ce) wk lower yearOf cmp a w = (.ok (), w')) ↔
      ∀ s ∈ scales, y0 ≤ cs ∧ (ce - cs + 1) * 12 ≤ ((Y * 366 : ℕ) : ℤ) ∧ (s = 1 ∨ 1 ≤ s ∧ s ≤ Y * 366) := by
  obtain ⟨res, w', h1, h2, _⟩ := C122_run E hE T cs ce wk hwk lower yearOf cmp a w (.inr hi) hM hfresh scales hs
  have hlen : ∀ i < A, ∀ k < b, (seriesAt b n i k mm).length = yearsLen y0 Y := by
    intro i hi' k hk
    obtain ⟨u, hu, hc⟩ := hM.ready.units
    obtain ⟨it, hl⟩ : ∃ it, IsLayout it x.shape A b n := by
      rcases hM.ready.layout with ⟨_, h⟩ | ⟨_, h, hb⟩
      · exact ⟨.grid, .inl ⟨rfl, h⟩⟩
      · exact ⟨.divisions, .inr ⟨rfl, h, hb⟩⟩
    rw [← hM.whole]
    exact seriesAt_len hl (by rw [convert_length.1 hc]; exact hM.ready.input.wf) hi' hk
  have hdoc : ∀ o, o ∈ documented a.index false scales ↔ ∃ s ∈ scales, o = .pnp s := by
    intro o
    rw [hi]
    show o ∈ pnpOutputs scales ↔ _
    simp [pnpOutputs, eq_comm]
  rw [h1]
  constructor
  · rintro ⟨w'', hw⟩ s hs'
    have := h2.1 (Prod.ext_iff.1 hw).1 (.pnp s) ((hdoc _).2 ⟨s, hs', rfl⟩) 0 hM.ready.places 0 hM.lons
    rw [resultDaily_pnp E _ s y0 cs ce Y (hlen 0 hM.ready.places 0 hM.lons)] at this
    exact this
  · intro h
    have hall : ∀ o ∈ documented a.index false scales, ComputableDaily E cs ce y0 Y mm A b n o := by
      intro o ho i hi' k hk
      obtain ⟨s, hs', rfl⟩ := (hdoc o).1 ho
      rw [resultDaily_pnp E _ s y0 cs ce Y (hlen i hi' k hk)]
      exact h s hs'
    exact ⟨w', by rw [h2.2 hall]⟩

/-! ## C123: from the command line to the daily indices in the files -/

/-- the published gamma index of the record `x` of steps with `p` steps in a year (`GammaIndex` is the case `p` = 12) -/
def GammaIndexOf (p : ℕ) (G : ℝ → ℝ → ℝ → ℝ) (Φ : ℝ → ℝ) (x : List (Option ℝ)) (k : ℕ) (ds cs ce : ℤ) (out : List (Fl ℝ)) : Prop :=
  out.length = x.length ∧ ∀ t < x.length,
    (accum x k t = none → out[t]? = some .nan) ∧ (accum x k t = some 0 → out[t]? = some .nan) ∧
    ∀ v, accum x k t = some v → 0 < v →
      let s := sample x k p (t % p) (cs - ds).toNat (ce - cs + 1).toNat
      (∃ a ∈ wet s, ∃ b ∈ wet s, a ≠ b) →
      out[t]? = some (.fin (clamp (index G Φ ((dry (sample x k p (t % p) 0 (yearsOf x.length p)) : ℝ) / yearsOf x.length p) s v)))

/-- the Pearson index of the record `x` of steps with `p` steps in a year -/
def PearsonIndexOf (p : ℕ) (P : ℝ → ℝ → ℝ → ℝ → ℝ) (Φ : ℝ → ℝ) (x : List (Option ℝ)) (k : ℕ) (ds cs ce : ℤ) (out : List (Fl ℝ)) : Prop :=
  out.length = x.length ∧ (∀ t < x.length, accum x k t = none → out[t]? = some .nan) ∧
    ∀ c < p, let s := sample x k p c (cs - ds).toNat (ce - cs + 1).toNat
      4 ≤ (wet s).length →
      ∃ sc sk, 0 < sc ∧ Pearson3.lscale sc sk = pairDiff s / (s.length * (s.length - 1)) / 2 ∧
        ∀ t v, t % p = c → accum x k t = some v → 0.0005 ≤ v → Pearson3.Inside (mean s) sc sk v →
          out[t]? = some (.fin (clamp (Φ (zeroShare s + (1 - zeroShare s) * P v sk (mean s) sc))))

/-- the percentage of normal of the record `x` of steps with `p` steps in a year -/
def NormalRatioOf (p : ℕ) (x : List (Option ℝ)) (k : ℕ) (ds cs ce : ℤ) (out : List (Fl ℝ)) : Prop :=
  out.length = x.length ∧ ∀ t < x.length, out[t]? = some (
    match accum x k t with
    | none => .nan
    | some v => if 0 < mean (sample x k p (t % p) (cs - ds).toNat (ce - cs + 1).toNat) then .fin (v / mean (sample x k p (t % p) (cs - ds).toNat (ce - cs + 1).toNat)) else .nan)

/-- the days `out` of the record `x` of days of `Y` years from `y0` on are those of a series with the property `Q` of its years of 366 days -/
def OfDays (Q : List (Option ℝ) → List (Fl ℝ) → Prop) (y0 : ℤ) (Y : ℕ) (x : List (Option ℝ)) (out : List (Fl ℝ)) : Prop :=
  ∃ r, Q (days366 optMean y0 Y x) r ∧ out = calendarDays y0 Y r

theorem gammaIndexOf_of (E : Ext (Fl ℝ)) (hE : ExtNan E) (hR : ExtReal E) (G : ℝ → ℝ → ℝ → ℝ) (Φ : ℝ → ℝ)
    (hG : ∀ v a b, 0 < v → 0 < a → 0 < b → E.gammaCdf (.fin v) (.fin a) (.fin b) = .fin (G v a b) ∧ 0 < G v a b ∧ G v a b < 1)
    (hΦ : ∀ q, 0 < q → q < 1 → E.normPpf (.fin q) = .fin (Φ q))
    (x : List (Option ℝ)) (hx : ∀ a, some a ∈ x → 0 ≤ a) (k : ℕ) (h1 : 1 ≤ k) (h2 : k ≤ x.length) (ds cs ce : ℤ) (c1 : ds ≤ cs) (c2 : cs ≤ ce) 
    (per : Periodicity) (hper : per = .monthly ∨ per = .daily)
    (c3 : ce < ds + yearsOf x.length per.steps) (out : List (Fl ℝ)) (h : spi E (Arr.of1d (x.map toFl)) k .gamma ds cs ce per none = .ok out) : GammaIndexOf per.steps G Φ x k ds cs ce out := by
  by_cases hs : ∃ a, some a ∈ x
  · obtain ⟨out', ho, hl, hv⟩ := C84_value E hE hR G Φ hG hΦ x hx k h1 h2 per (by rcases hper with h | h <;> rw [h] <;> decide) ds cs ce c1 c2 c3 hs
    rw [h] at ho
    cases ho
    have hnn : ∃ v ∈ (Arr.of1d (x.map toFl)).data, isNan v = false := by
      obtain ⟨a, ha⟩ := hs
      exact ⟨toFl (some a), List.mem_map.2 ⟨_, ha, rfl⟩, rfl⟩
    refine ⟨hl, fun t ht => ⟨fun hn => ?_, fun h0 => C84_fails E hE x hx k h1 h2 per ds cs ce out h t h0, ?_⟩⟩
    rotate_left
    · intro v hv1 hv2 s hw
      exact hv t v hv1 hv2 hw
    exact C11_missing E hE _ _ _ ds cs ce per none out hnn h t (by simpa [Arr.of1d] using ht) (accum_none ht hn)
  · rw [spi_missing E x hs k .gamma ds cs ce per] at h
    cases h
    refine ⟨by simp, fun t ht => ⟨fun _ => missing_get hs ht, fun _ => missing_get hs ht, fun v hv => ?_⟩⟩
    rw [accum_missing hs k t h1] at hv
    cases hv

theorem pearsonIndexOf_of (E : Ext (Fl ℝ)) (hE : ExtNan E) (hR : ExtReal E) (P : ℝ → ℝ → ℝ → ℝ → ℝ) (Φ : ℝ → ℝ)
    (hP : ∀ v sk loc sc, 0 < v → 0 < sc → Pearson3.Inside loc sc sk v →
      E.pearson3Cdf (.fin v) (.fin sk) (.fin loc) (.fin sc) = .fin (P v sk loc sc) ∧ 0 < P v sk loc sc ∧ P v sk loc sc < 1)
    (hΦ : ∀ q, 0 < q → q < 1 → E.normPpf (.fin q) = .fin (Φ q))
    (x : List (Option ℝ)) (hx : ∀ a, some a ∈ x → 0 ≤ a) (k : ℕ) (h1 : 1 ≤ k) (h2 : k ≤ x.length) (ds cs ce : ℤ) (c1 : ds ≤ cs) (c2 : cs ≤ ce) 
    (per : Periodicity) (hper : per = .monthly ∨ per = .daily)
    (c3 : ce < ds + yearsOf x.length per.steps) (out : List (Fl ℝ)) (h : spi E (Arr.of1d (x.map toFl)) k .pearson ds cs ce per none = .ok out) : PearsonIndexOf per.steps P Φ x k ds cs ce out := by
  by_cases hs : ∃ a, some a ∈ x
  · have hnn : ∃ v ∈ (Arr.of1d (x.map toFl)).data, isNan v = false := by
      obtain ⟨a, ha⟩ := hs
      exact ⟨toFl (some a), List.mem_map.2 ⟨_, ha, rfl⟩, rfl⟩
    refine ⟨?_, fun t ht hn => ?_, ?_⟩
    · rcases C10_pearson_partial E (Arr.of1d (x.map toFl)) k ds cs ce per (.inl rfl) hper (by exact_mod_cast h1) hnn with ⟨out', ho, hl⟩ | he
      · rw [h] at ho
        cases ho
        simpa [Arr.of1d] using hl
      · rw [h] at he
        cases he
    · exact C11_missing E hE _ _ _ ds cs ce per none out hnn h t (by simpa [Arr.of1d] using ht) (accum_none ht hn)
    · intro c hc s h4
      exact C85_value E hE hR P Φ hP hΦ x hx k h1 h2 per ds cs ce c1 c2 c3 hs out h c hc h4
  · rw [spi_missing E x hs k .pearson ds cs ce per] at h
    cases h
    refine ⟨by simp, fun t ht _ => missing_get hs ht, ?_⟩
    intro c hc s h4
    have : s = [] := sample_missing x hs k per.steps c _ _ h1
    rw [this] at h4
    simp [wet] at h4

theorem normalRatioOf_of (x : List (Option ℝ)) (k : ℕ) (h1 : 1 ≤ k) (h2 : k ≤ x.length) (ds cs ce : ℤ) (c1 : ds ≤ cs) (c2 : cs ≤ ce) (c4 : (ce - cs + 1) * 12 ≤ x.length) (per : Periodicity) (hper : per ≠ .other)
    (out : List (Fl ℝ)) (h : percentageOfNormal (x.map toFl) (some (k : Int)) ds cs ce per = .ok out) : NormalRatioOf (pnpSteps per) x k ds cs ce out := by
  have hne : x.map toFl ≠ [] := by
    rw [← List.length_pos_iff, List.length_map]
    omega
  obtain ⟨sums, out', hs, ho, hl, hv⟩ := C28_ratio (x.map toFl) k ds cs ce per hper h1 hne c1 c2 (by simpa using c4)
  rw [h] at ho
  cases ho
  obtain ⟨s, e1, e2, e3⟩ := scaled_toFl x k h1 h2
  rw [hs] at e1
  cases e1
  have hget : ∀ t, t < x.length → sums[t]? = some (toFl (accum x k t)) := by
    intro t ht
    have := e3 0
    rw [List.replicate_zero, List.append_nil] at this
    rw [this, List.getElem?_map, List.getElem?_range (by omega)]
    rfl
  have hpast : ∀ t, x.length ≤ t → sums[t]? = none ∧ accum x k t = none := by
    intro t ht
    refine ⟨List.getElem?_eq_none (by omega), ?_⟩
    unfold accum
    simp only []
    rw [if_neg]
    omega
  have hmean : ∀ c, nanmean (calendarStepValues sums (pnpSteps per) c ds cs ce) =
      (let q := sample x k (pnpSteps per) c (cs - ds).toNat (ce - cs + 1).toNat
       if q = [] then Fl.nan else .fin (q.sum / q.length)) := by
    intro c
    apply nanmean_fin
    unfold calendarStepValues sample
    generalize List.range (ce - cs + 1).toNat = l
    induction l with
    | nil => rfl
    | cons y l ih =>
      rw [List.filterMap_cons, List.filterMap_cons]
      by_cases hb : ((cs - ds).toNat + y) * (pnpSteps per) + c < x.length
      · rw [hget _ hb]
        simp only []
        cases ha : accum x k (((cs - ds).toNat + y) * (pnpSteps per) + c) with
        | none =>
          rw [List.filter_cons, if_neg (show ¬ (!isNan (toFl none)) = true by decide), ih]
        | some v =>
          rw [List.filter_cons, if_pos (show (!isNan (toFl (some v))) = true from rfl), ih]
          rfl
      · rw [(hpast _ (by omega)).1, (hpast _ (by omega)).2]
        exact ih
  refine ⟨by rw [hl, e2], fun t ht => ?_⟩
  rw [hv t _ (hget t ht)]
  simp only [hmean]
  congr 1
  by_cases hq : sample x k (pnpSteps per) (t % pnpSteps per) (cs - ds).toNat (ce - cs + 1).toNat = []
  · rw [hq]
    simp only [if_true]
    have h0 : ¬ 0 < mean [] := by simp [mean]
    rw [if_neg (by rw [show (Fl.nan : Fl ℝ) = nan from rfl]; simp)]
    cases accum x k t with
    | none => rfl
    | some v => simp only [if_neg h0]; rfl
  · rw [if_neg hq]
    have hm : mean (sample x k (pnpSteps per) (t % pnpSteps per) (cs - ds).toNat (ce - cs + 1).toNat) =
      (sample x k (pnpSteps per) (t % pnpSteps per) (cs - ds).toNat (ce - cs + 1).toNat).sum / (sample x k (pnpSteps per) (t % pnpSteps per) (cs - ds).toNat (ce - cs + 1).toNat).length := rfl
    rw [← hm]
    generalize mean (sample x k (pnpSteps per) (t % pnpSteps per) (cs - ds).toNat (ce - cs + 1).toNat) = m
    by_cases hp : 0 < m
    · rw [if_pos (by rw [Fl.lit_def, Fl.flt_fin]; simpa using hp)]
      cases accum x k t with
      | none => rfl
      | some v =>
        simp only [if_pos hp]
        show Fl.div (.fin v) (.fin m) = _
        rw [Fl.div, if_neg hp.ne']
    · rw [if_neg (by rw [Fl.lit_def, Fl.flt_fin]; simpa using hp)]
      cases accum x k t with
      | none => rfl
      | some v => simp only [if_neg hp]; rfl


open Classical in
/-- what is known of the run of a command line on daily values -/
theorem daily_of_line (E : Ext (Fl ℝ)) (hE : ExtNan E) (T : Trig (Fl ℝ)) (toInt : String → Option Int) (ht : ∀ n : Int, toInt (toString n) = some n) (cpus : Nat) (lower : String → String)
    (yearOf : Fl ℝ → Int) (cmp : CoordCmp (Fl ℝ)) (j : String → Bool) (c : MainCommand) (hc : Writable j c) (hi : c.args.index = "spi" ∨ c.args.index = "pnp") (cs ce : Int)
    (hcs : c.calibrationStart = some cs) (hce : c.calibrationEnd = some ce) (hcpu : 1 ≤ numberOfWorkers c.multiprocessing cpus) (w : World (Fl ℝ)) {f v : String} {d : NcFile (Fl ℝ)} {x : NcVar (Fl ℝ)}
    {A b n Y : Nat} {vals : List (Option ℝ)} {y0 y1 : Int} (hM : DailyGrid lower yearOf c.args w f v d x A b n (vals.map toFl) y0 y1 Y) (hfresh : w.shared "result_array" = none) (scales : List Nat)
    (hs : c.args.scales = some (scales.map Int.ofNat)) (hall : ∀ o ∈ documented c.args.index false scales, ComputableDaily E cs ce y0 Y (vals.map toFl) A b n o) :
    ∃ w', mainTool E T toInt cpus lower yearOf cmp (commandLine j c) w = (.ended (.ok ()), w') ∧
      w'.written = w.written ++ entries c.args.outputFileBase (documented c.args.index false scales) ∧
      (∀ g, (∀ o ∈ documented c.args.index false scales, g ≠ fileName c.args.outputFileBase o.name) → w'.files g = w.files g) ∧
      ∀ o ∈ documented c.args.index false scales, FileHolds w'.files (fileName c.args.outputFileBase o.name) o.name d x A b n
        (fun i k l => resultDaily E cs ce y0 Y o ((seriesAt b n i k vals).map toFl) = .ok l) := by
  rw [C106_given E T toInt cpus lower yearOf cmp (commandLine j c) w c (C105_main toInt ht j c hc) cs ce hcs hce]
  obtain ⟨res, w', h1, h2, h3, h4, h5⟩ := C122_run E hE T cs ce _ hcpu lower yearOf cmp c.args w hi hM hfresh scales hs
  have htake : (documented c.args.index false scales).takeWhile (fun o => decide (ComputableDaily E cs ce y0 Y (vals.map toFl) A b n o)) = documented c.args.index false scales := by
    rw [List.takeWhile_eq_self_iff]
    intro o ho
    exact decide_eq_true (hall o ho)
  rw [htake] at h3 h4 h5
  rw [h1]
  refine ⟨w', by rw [h2.2 hall], h3, h5, fun o ho => ?_⟩
  obtain ⟨file, y, g1, g2, ⟨g3, g4⟩, ⟨g5, _⟩, g6⟩ := h4 o ho
  exact ⟨file, y, g1, g2, g3, g5, g4, fun i hi k hk => by
    have := g6 i hi k hk
    beta_reduce at this ⊢
    rwa [seriesAt_toFl] at this⟩

/-- **C123, SPI.** The documented command line for SPI of daily precipitation of whole calendar years on a grid (any files, names, scales, calibration years inside the record, numbers of workers,
separate values or `=`), in exact arithmetic, for precipitation that is not negative and has a Pearson fit at all places, scales and calendar days (else no run finishes, C122): the tool ends
without exception, writes exactly two files per scale, changes no other file, and at every place the value in these files for a day is the published index for that calendar day, computed in years
of 366 days. -/
theorem C123_spi (E : Ext (Fl ℝ)) (hE : ExtNan E) (hR : ExtReal E) (G : ℝ → ℝ → ℝ → ℝ) (P : ℝ → ℝ → ℝ → ℝ → ℝ) (Φ : ℝ → ℝ)
    (hG : ∀ v a b, 0 < v → 0 < a → 0 < b → E.gammaCdf (.fin v) (.fin a) (.fin b) = .fin (G v a b) ∧ 0 < G v a b ∧ G v a b < 1)
    (hP : ∀ v sk loc sc, 0 < v → 0 < sc → Pearson3.Inside loc sc sk v →
      E.pearson3Cdf (.fin v) (.fin sk) (.fin loc) (.fin sc) = .fin (P v sk loc sc) ∧ 0 < P v sk loc sc ∧ P v sk loc sc < 1)
    (hΦ : ∀ q, 0 < q → q < 1 → E.normPpf (.fin q) = .fin (Φ q))
    (T : Trig (Fl ℝ)) (toInt : String → Option Int) (ht : ∀ n : Int, toInt (toString n) = some n) (cpus : Nat) (lower : String → String)
    (yearOf : Fl ℝ → Int) (cmp : CoordCmp (Fl ℝ)) (j : String → Bool) (c : MainCommand) (hc : Writable j c) (hi : c.args.index = "spi") (cs ce : Int)
    (hcs : c.calibrationStart = some cs) (hce : c.calibrationEnd = some ce) (hcpu : 1 ≤ numberOfWorkers c.multiprocessing cpus) (w : World (Fl ℝ)) {f v : String} {d : NcFile (Fl ℝ)} {x : NcVar (Fl ℝ)}
    {A b n Y : Nat} {vals : List (Option ℝ)} {y0 y1 : Int} (hM : DailyGrid lower yearOf c.args w f v d x A b n (vals.map toFl) y0 y1 Y) (hfresh : w.shared "result_array" = none)
    (hpos : ∀ u, some u ∈ vals → 0 ≤ u) (scales : List Nat) (hs : c.args.scales = some (scales.map Int.ofNat)) (hsc : ∀ s ∈ scales, 1 ≤ s ∧ s ≤ Y * 366) (c1 : y0 ≤ cs) (c2 : cs ≤ ce)
    (c3 : ce ≤ y1) (hfit : ∀ s ∈ scales, ∀ i < A, ∀ k < b, ∀ m < 366, ¬ UnfitDay (days366 optMean y0 Y (seriesAt b n i k vals)) s m y0 cs ce) :
    ∃ w', mainTool E T toInt cpus lower yearOf cmp (commandLine j c) w = (.ended (.ok ()), w') ∧
      w'.written = w.written ++ entries c.args.outputFileBase (spiOutputs scales) ∧
      (∀ g, (∀ o ∈ spiOutputs scales, g ≠ fileName c.args.outputFileBase o.name) → w'.files g = w.files g) ∧
      ∀ s ∈ scales,
        FileHolds w'.files (c.args.outputFileBase ++ "_" ++ ("spi_gamma_" ++ twoDigits s) ++ ".nc") ("spi_gamma_" ++ twoDigits s) d x A b n
          (fun i k out => OfDays (fun p r => GammaIndexOf 366 G Φ p s y0 cs ce r) y0 Y (seriesAt b n i k vals) out) ∧
        FileHolds w'.files (c.args.outputFileBase ++ "_" ++ ("spi_pearson_" ++ twoDigits s) ++ ".nc") ("spi_pearson_" ++ twoDigits s) d x A b n
          (fun i k out => OfDays (fun p r => PearsonIndexOf 366 P Φ p s y0 cs ce r) y0 Y (seriesAt b n i k vals) out) := by
  have hmem : ∀ i k u, some u ∈ seriesAt b n i k vals → 0 ≤ u := fun i k u hu => hpos u (List.mem_of_mem_drop (List.mem_of_mem_take hu))
  have hdoc : documented c.args.index false scales = spiOutputs scales := by rw [hi]; rfl
  have c3' : ce < y0 + Y := by have := hM.years.1; omega
  have hmo : ∀ o, o ∈ spiOutputs scales ↔ ∃ s ∈ scales, o = .spi .pearson s ∨ o = .spi .gamma s := by
    intro o
    simp [spiOutputs, eq_comm]
  have hall : ∀ o ∈ documented c.args.index false scales, ComputableDaily E cs ce y0 Y (vals.map toFl) A b n o := by
    rw [hdoc]
    intro o ho i hi' k hk
    obtain ⟨s, hs', ho⟩ := (hmo o).1 ho
    obtain ⟨r1, r2⟩ := resultDaily_spi E hR (seriesAt b n i k vals) (hmem i k) y0 Y (day_length hM hi' hk) s (hsc s hs').1 (hsc s hs').2 cs ce c1 c2 c3'
    rw [seriesAt_toFl]
    rcases ho with rfl | rfl
    · exact r1.2 (hfit s hs' i hi' k hk)
    · exact r2
  obtain ⟨w', h1, h2, h3, h4⟩ := daily_of_line E hE T toInt ht cpus lower yearOf cmp j c hc (.inl hi) cs ce hcs hce hcpu w hM hfresh scales hs hall
  rw [hdoc] at h2 h3 h4
  refine ⟨w', h1, h2, h3, fun s hs' => ?_⟩
  have hdays : ∀ dist, dist ∈ distributions → ∀ i < A, ∀ k < b, ∀ out, resultDaily E cs ce y0 Y (.spi dist s) ((seriesAt b n i k vals).map toFl) = .ok out →
      ∃ r, spi E (Arr.of1d ((days366 optMean y0 Y (seriesAt b n i k vals)).map toFl)) s dist y0 cs ce .daily none = .ok r ∧ out = calendarDays y0 Y r := by
    intro dist _ i _ k _ out h
    unfold resultDaily at h
    simp only [place366_toFl] at h
    obtain ⟨r, r1, r2⟩ := Res.bind_ok h
    cases r2
    exact ⟨r, r1, rfl⟩
  have hlen : ∀ i < A, ∀ k < b, s ≤ (days366 optMean y0 Y (seriesAt b n i k vals)).length ∧ ce < y0 + yearsOf (days366 optMean y0 Y (seriesAt b n i k vals)).length Periodicity.daily.steps := by
    intro i hi' k hk
    rw [days366_len y0 Y _ (day_length hM hi' hk)]
    exact ⟨(hsc s hs').2, by rw [show Periodicity.daily.steps = 366 from rfl, yearsOf_days]; exact c3'⟩
  constructor
  · obtain ⟨file, y, g1, g2, g3, g4, g5, g6⟩ := h4 (.spi .gamma s) ((hmo _).2 ⟨s, hs', .inr rfl⟩)
    have hn : (Output.spi .gamma s).name = "spi_gamma_" ++ twoDigits s := rfl
    rw [hn] at g1 g2
    refine ⟨file, y, g1, g2, g3, g4, g5, fun i hi' k hk => ?_⟩
    obtain ⟨r, r1, r2⟩ := hdays .gamma (by decide) i hi' k hk _ (g6 i hi' k hk)
    exact ⟨r, gammaIndexOf_of E hE hR G Φ hG hΦ _ (days366_nonneg Y y0 _ (hmem i k)) s (hsc s hs').1 (hlen i hi' k hk).1 y0 cs ce c1 c2 .daily (.inr rfl) (hlen i hi' k hk).2 _ r1, r2⟩
  · obtain ⟨file, y, g1, g2, g3, g4, g5, g6⟩ := h4 (.spi .pearson s) ((hmo _).2 ⟨s, hs', .inl rfl⟩)
    have hn : (Output.spi .pearson s).name = "spi_pearson_" ++ twoDigits s := rfl
    rw [hn] at g1 g2
    refine ⟨file, y, g1, g2, g3, g4, g5, fun i hi' k hk => ?_⟩
    obtain ⟨r, r1, r2⟩ := hdays .pearson (by decide) i hi' k hk _ (g6 i hi' k hk)
    exact ⟨r, pearsonIndexOf_of E hE hR P Φ hP hΦ _ (days366_nonneg Y y0 _ (hmem i k)) s (hsc s hs').1 (hlen i hi' k hk).1 y0 cs ce c1 c2 .daily (.inr rfl) (hlen i hi' k hk).2 _ r1, r2⟩

/-- **C123, percentage of normal.** The same for the percentage of normal: one file per scale, whose values are the accumulation divided by the mean accumulation of the calendar day in the
calibration years, for any precipitation. -/
theorem C123_pnp (E : Ext (Fl ℝ)) (hE : ExtNan E) (T : Trig (Fl ℝ)) (toInt : String → Option Int) (ht : ∀ n : Int, toInt (toString n) = some n) (cpus : Nat) (lower : String → String)
    (yearOf : Fl ℝ → Int) (cmp : CoordCmp (Fl ℝ)) (j : String → Bool) (c : MainCommand) (hc : Writable j c) (hi : c.args.index = "pnp") (cs ce : Int)
    (hcs : c.calibrationStart = some cs) (hce : c.calibrationEnd = some ce) (hcpu : 1 ≤ numberOfWorkers c.multiprocessing cpus) (w : World (Fl ℝ)) {f v : String} {d : NcFile (Fl ℝ)} {x : NcVar (Fl ℝ)}
    {A b n Y : Nat} {vals : List (Option ℝ)} {y0 y1 : Int} (hM : DailyGrid lower yearOf c.args w f v d x A b n (vals.map toFl) y0 y1 Y) (hfresh : w.shared "result_array" = none)
    (scales : List Nat) (hs : c.args.scales = some (scales.map Int.ofNat)) (hsc : ∀ s ∈ scales, 1 ≤ s ∧ s ≤ Y * 366) (c1 : y0 ≤ cs) (c2 : cs ≤ ce) (c3 : ce ≤ y1) :
    ∃ w', mainTool E T toInt cpus lower yearOf cmp (commandLine j c) w = (.ended (.ok ()), w') ∧
      w'.written = w.written ++ entries c.args.outputFileBase (pnpOutputs scales) ∧
      (∀ g, (∀ o ∈ pnpOutputs scales, g ≠ fileName c.args.outputFileBase o.name) → w'.files g = w.files g) ∧
      ∀ s ∈ scales, FileHolds w'.files (c.args.outputFileBase ++ "_" ++ ("pnp_" ++ twoDigits s) ++ ".nc") ("pnp_" ++ twoDigits s) d x A b n
          (fun i k out => OfDays (fun p r => NormalRatioOf 366 p s y0 cs ce r) y0 Y (seriesAt b n i k vals) out) := by
  have hdoc : documented c.args.index false scales = pnpOutputs scales := by rw [hi]; rfl
  have c4 : (ce - cs + 1) * 12 ≤ ((Y * 366 : ℕ) : ℤ) := by have := hM.years.1; push_cast; omega
  have hmo : ∀ o, o ∈ pnpOutputs scales ↔ ∃ s ∈ scales, o = .pnp s := by
    intro o
    simp [pnpOutputs, eq_comm]
  have hall : ∀ o ∈ documented c.args.index false scales, ComputableDaily E cs ce y0 Y (vals.map toFl) A b n o := by
    rw [hdoc]
    intro o ho i hi' k hk
    obtain ⟨s, hs', rfl⟩ := (hmo o).1 ho
    rw [seriesAt_toFl]
    exact (resultDaily_pnp E _ s y0 cs ce Y (by rw [List.length_map]; exact day_length hM hi' hk)).2 ⟨c1, c4, .inr (hsc s hs')⟩
  obtain ⟨w', h1, h2, h3, h4⟩ := daily_of_line E hE T toInt ht cpus lower yearOf cmp j c hc (.inr hi) cs ce hcs hce hcpu w hM hfresh scales hs hall
  rw [hdoc] at h2 h3 h4
  refine ⟨w', h1, h2, h3, fun s hs' => ?_⟩
  obtain ⟨file, y, g1, g2, g3, g4, g5, g6⟩ := h4 (.pnp s) ((hmo _).2 ⟨s, hs', rfl⟩)
  have hn : (Output.pnp s).name = "pnp_" ++ twoDigits s := rfl
  rw [hn] at g1 g2
  refine ⟨file, y, g1, g2, g3, g4, g5, fun i hi' k hk => ?_⟩
  have hr := g6 i hi' k hk
  unfold resultDaily at hr
  simp only [place366_toFl] at hr
  obtain ⟨r, r1, r2⟩ := Res.bind_ok hr
  have hlen := days366_len y0 Y _ (day_length hM hi' hk)
  split at r2
  · exact ⟨r, normalRatioOf_of _ s (hsc s hs').1 (by rw [hlen]; exact (hsc s hs').2) y0 cs ce c1 c2 (by rw [hlen]; exact c4) .daily (by decide) _ r1, (Except.ok.inj r2).symm⟩
  · cases r2

/-! ## Concrete runs: one place, the years 2000 to 2004, in every year the same value on all days -/

noncomputable def yearVals (u : ℕ → ℝ) : List (Option ℝ) :=
  List.replicate 366 (some (u 0)) ++ (List.replicate 365 (some (u 1)) ++ (List.replicate 365 (some (u 2)) ++ (List.replicate 365 (some (u 3)) ++ List.replicate 366 (some (u 4)))))

theorem yearVals_length (u : ℕ → ℝ) : (yearVals u).length = 1827 := by simp only [yearVals, List.length_append, List.length_replicate]

noncomputable def yearVar (u : ℕ → ℝ) : NcVar (Fl ℝ) := ⟨["lat", "lon", "time"], [1, 1, 1827], some "mm", (yearVals u).map toFl⟩

noncomputable def yearFile (u : ℕ → ℝ) : NcFile (Fl ℝ) :=
  [("prcp", yearVar u), ("lat", ⟨["lat"], [1], none, [.fin 40]⟩), ("lon", ⟨["lon"], [1], none, [.fin 0]⟩), ("time", ⟨["time"], [1827], none, (List.range 1827).map (fun i : ℕ => .fin (i : ℝ))⟩)]

noncomputable def yearWorld (u : ℕ → ℝ) : World (Fl ℝ) := ⟨fun g => if g = "p.nc" then some (yearFile u) else none, fun _ => none, []⟩

/-- days since 1 January 2000 (exact for the first and the last day) -/
noncomputable def fiveYear : Fl ℝ → Int
  | .fin r => 2000 + ⌊r / 366⌋
  | _ => 0

theorem year_daily (u : ℕ → ℝ) (index : String) (scales : List Int) :
    DailyGrid id fiveYear (dailyArgs index scales) (yearWorld u) "p.nc" "prcp" (yearFile u) (yearVar u) 1 1 1827 ((yearVals u).map toFl) 2000 2004 5 := by
  refine ⟨⟨⟨rfl, rfl, rfl, rfl, ?_, by decide, demo_notOutput _ (by decide)⟩, .inl ⟨rfl, rfl⟩, by decide, ?_, ?_, ⟨_, .fin ((0 : ℕ) : ℝ), .fin ((1826 : ℕ) : ℝ), rfl, ?_, ?_, ?_, ?_⟩, ⟨"mm", rfl, ?_⟩⟩, rfl, by decide, rfl, by decide, by decide, by decide⟩
  · simp [yearVar, yearVals_length]
  · intro c hc
    rcases (show c = "lat" ∨ c = "lon" ∨ c = "time" by simpa [yearVar] using hc) with rfl | rfl | rfl
    · exact ⟨_, rfl⟩
    · exact ⟨_, rfl⟩
    · exact ⟨_, rfl⟩
  · intro h
    exact absurd h (by simp [yearVar])
  · simp [List.head?_range]
  · simp [List.getLast?_range]
  · simp [fiveYear]
  · show 2000 + ⌊((1826 : ℕ) : ℝ) / 366⌋ = 2004
    have : ⌊((1826 : ℕ) : ℝ) / 366⌋ = 4 := by
      rw [Int.floor_eq_iff]
      norm_num
    rw [this]
    norm_num
  · unfold convertPrecip
    rw [if_pos (by decide)]
    rfl

theorem year_series (u : ℕ → ℝ) : seriesAt 1 1827 0 0 (yearVals u) = yearVals u := by
  unfold seriesAt
  rw [List.take_of_length_le]
  · rfl
  · simp [yearVals_length]

theorem year366_same (y : ℤ) (v : ℝ) : year366 optMean y (List.replicate (yearLen y) (some v)) = List.replicate 366 (some v) := by
  unfold year366 yearLen
  by_cases h : Leap y
  · rw [if_pos h, if_pos h]
  · have hm : optMean (some v) (some v) = some v := by simp [optMean]
    rw [if_neg h, if_neg h]
    simp only [List.take_replicate, List.drop_replicate]
    show List.replicate 59 (some v) ++ [optMean (some v) (some v)] ++ List.replicate 306 (some v) = _
    rw [hm, show [some v] = List.replicate 1 (some v) from rfl, List.replicate_append_replicate, List.replicate_append_replicate]

theorem year_366 (u : ℕ → ℝ) : days366 optMean 2000 5 (yearVals u) = List.replicate 366 (some (u 0)) ++ (List.replicate 366 (some (u 1)) ++ (List.replicate 366 (some (u 2)) ++
    (List.replicate 366 (some (u 3)) ++ List.replicate 366 (some (u 4))))) := by
  have l0 : yearLen 2000 = 366 := by decide
  have l1 : yearLen (2000 + 1) = 365 := by decide
  have l2 : yearLen (2000 + 1 + 1) = 365 := by decide
  have l3 : yearLen (2000 + 1 + 1 + 1) = 365 := by decide
  have l4 : yearLen (2000 + 1 + 1 + 1 + 1) = 366 := by decide
  have e0 := year366_same 2000 (u 0)
  have e1 := year366_same (2000 + 1) (u 1)
  have e2 := year366_same (2000 + 1 + 1) (u 2)
  have e3 := year366_same (2000 + 1 + 1 + 1) (u 3)
  have e4 := year366_same (2000 + 1 + 1 + 1 + 1) (u 4)
  rw [l0] at e0; rw [l1] at e1; rw [l2] at e2; rw [l3] at e3; rw [l4] at e4
  have tk : ∀ (m : ℕ) (v : Option ℝ) (r : List (Option ℝ)), (List.replicate m v ++ r).take m = List.replicate m v := fun m v r => List.take_left' (by simp)
  have dr : ∀ (m : ℕ) (v : Option ℝ) (r : List (Option ℝ)), (List.replicate m v ++ r).drop m = r := fun m v r => List.drop_left' (by simp)
  simp only [days366, yearVals, l0, l1, l2, l3, l4, tk, dr, e0, e1, e2, e3]
  rw [List.take_of_length_le (by rw [List.length_replicate]), e4, List.append_nil]

theorem year_366_get (u : ℕ → ℝ) (t : ℕ) (ht : t < 1830) : (days366 optMean 2000 5 (yearVals u))[t]? = some (some (u (t / 366))) := by
  rw [year_366]
  simp only [List.getElem?_append, List.length_replicate, List.getElem?_replicate]
  split_ifs <;> first | omega | (congr 3; omega)

theorem accum_year (u : ℕ → ℝ) (t : ℕ) (ht : t < 1830) : accum (days366 optMean 2000 5 (yearVals u)) 1 t = some (u (t / 366)) := by
  have hl : (days366 optMean 2000 5 (yearVals u)).length = 1830 := days366_len 2000 5 _ (by rw [yearVals_length]; decide)
  have hg := year_366_get u t ht
  generalize days366 optMean 2000 5 (yearVals u) = l at *
  unfold accum
  rw [List.getElem?_eq_getElem (by omega), Option.some.injEq] at hg
  have hd : (l.drop (t + 1 - 1)).take 1 = [some (u (t / 366))] := by
    rw [Nat.add_sub_cancel, List.drop_eq_getElem_cons (by omega), hg]; rfl
  simp only [hd]
  rw [if_pos ⟨by omega, by omega, by simp⟩]
  simp

theorem sample_year (u : ℕ → ℝ) (c : ℕ) (hc : c < 366) : sample (days366 optMean 2000 5 (yearVals u)) 1 366 c 0 5 = [u 0, u 1, u 2, u 3, u 4] := by
  unfold sample
  rw [show List.range 5 = [0, 1, 2, 3, 4] from rfl]
  simp only [List.filterMap_cons, List.filterMap_nil]
  rw [accum_year _ _ (by omega), accum_year _ _ (by omega), accum_year _ _ (by omega), accum_year _ _ (by omega), accum_year _ _ (by omega)]
  have d : ∀ y, ((0 + y) * 366 + c) / 366 = y := by omega
  simp only [d]

/-- the days before March are those of the years of 366 days -/
theorem calendarDays_get {α : Type} (n : ℕ) : ∀ (y : ℤ) (r : List α) (k t : ℕ), k < n → t < 59 → r.length = n * 366 → (calendarDays y n r)[yearsLen y k + t]? = r[k * 366 + t]? := by
  induction n with
  | zero => intro y r k t hk; omega
  | succ n ih =>
    intro y r k t hk ht hr
    have hlen : (yearDays y (r.take 366)).length = yearLen y := by
      unfold yearDays yearLen
      by_cases h : Leap y
      · rw [if_pos h, if_pos h, List.length_take]; omega
      · rw [if_neg h, if_neg h]; simp; omega
    show (yearDays y (r.take 366) ++ calendarDays (y + 1) n (r.drop 366))[yearsLen y k + t]? = _
    cases k with
    | zero =>
      have h0 : yearsLen y 0 + t < (yearDays y (r.take 366)).length := by
        rw [hlen]; unfold yearLen; show 0 + t < _; split <;> omega
      rw [List.getElem?_append_left h0]
      show (yearDays y (r.take 366))[0 + t]? = r[0 * 366 + t]?
      unfold yearDays
      split
      · rw [List.getElem?_take_of_lt (by omega)]
      · rw [List.getElem?_append_left (by simp; omega), List.getElem?_take_of_lt (by omega), List.getElem?_take_of_lt (by omega)]
    | succ k =>
      have hs : yearsLen y (k + 1) = yearLen y + yearsLen (y + 1) k := yearsLen_succ' y k
      rw [List.getElem?_append_right (by rw [hlen, hs]; omega), hlen, hs, show yearLen y + yearsLen (y + 1) k + t - yearLen y = yearsLen (y + 1) k + t by omega,
        ih (y + 1) (r.drop 366) k t (by omega) ht (by rw [List.length_drop]; omega), List.getElem?_drop]
      congr 1
      omega

/-- 0, 1, 2, 4 and 8 mm on all days of the years -/
noncomputable def levels (j : ℕ) : ℝ := if j = 0 then 0 else 2 ^ (j - 1)

theorem sample_levels (c : ℕ) (hc : c < 366) : sample (days366 optMean 2000 5 (yearVals levels)) 1 366 c 0 5 = [0, 1, 2, 4, 8] := by
  rw [sample_year levels c hc]
  norm_num [levels]

theorem levels_nonneg : ∀ v, some v ∈ yearVals levels → 0 ≤ v := by
  intro v hv
  have : ∃ j, v = levels j := by
    simp only [yearVals, List.mem_append, List.mem_replicate, Option.some.injEq] at hv
    rcases hv with h | h | h | h | h <;> exact ⟨_, h.2⟩
  obtain ⟨j, rfl⟩ := this
  unfold levels
  split <;> positivity

theorem levels_fit (s : ℕ) (hs : s ∈ [1]) (i : ℕ) (hi : i < 1) (k : ℕ) (hk : k < 1) (m : ℕ) (hm : m < 366) :
    ¬ UnfitDay (days366 optMean 2000 5 (seriesAt 1 1827 i k (yearVals levels))) s m 2000 2000 2004 := by
  obtain rfl : s = 1 := by simpa using hs
  obtain rfl : i = 0 := by omega
  obtain rfl : k = 0 := by omega
  rintro ⟨_, h⟩
  have e2 : ((2000 : ℤ) - 2000).toNat = 0 := rfl
  have e3 : ((2004 : ℤ) - 2000 + 1).toNat = 5 := rfl
  rw [year_series, e2, e3, sample_levels m hm] at h
  exact not_allButOne_steps5 h

/-- C122 for this record: the run for SPI finishes -/
example (E : Ext (Fl ℝ)) (hE : ExtNan E) (hR : ExtReal E) (T : Trig (Fl ℝ)) (cmp : CoordCmp (Fl ℝ)) :
    ∃ w', processIndices (indexFunction E T 2000 2004) 4 id fiveYear cmp (dailyArgs "spi" [1]) (yearWorld levels) = (.ok (), w') :=
  (C122_spi_exact E hE hR T 2000 2004 4 (by decide) cmp rfl (year_daily levels "spi" [1]) levels_nonneg rfl [1] rfl (by decide) le_rfl (by norm_num) le_rfl).2 levels_fit

/-- and with 5 mm on all days of the first four years and 7 mm in the last year it does not -/
example (E : Ext (Fl ℝ)) (hE : ExtNan E) (hR : ExtReal E) (T : Trig (Fl ℝ)) (cmp : CoordCmp (Fl ℝ)) :
    ¬ ∃ w', processIndices (indexFunction E T 2000 2004) 4 id fiveYear cmp (dailyArgs "spi" [1]) (yearWorld (fun j => if j < 4 then 5 else 7)) = (.ok (), w') := by
  intro h
  refine (C122_spi_exact E hE hR T 2000 2004 4 (by decide) cmp rfl (year_daily _ "spi" [1]) ?_ rfl [1] rfl (by decide) le_rfl (by norm_num) le_rfl).1 h 1 (by decide) 0 (by decide) 0 (by decide) 0 (by decide) ?_
  · intro v hv
    have : ∃ j : ℕ, v = if j < 4 then 5 else 7 := by
      simp only [yearVals, List.mem_append, List.mem_replicate, Option.some.injEq] at hv
      rcases hv with h | h | h | h | h
      · exact ⟨0, h.2⟩
      · exact ⟨1, h.2⟩
      · exact ⟨2, h.2⟩
      · exact ⟨3, h.2⟩
      · exact ⟨4, h.2⟩
    obtain ⟨j, rfl⟩ := this
    split <;> norm_num
  · have e2 : ((2000 : ℤ) - 2000).toNat = 0 := rfl
    have e3 : ((2004 : ℤ) - 2000 + 1).toNat = 5 := rfl
    unfold UnfitDay
    rw [year_series, e2, e3, sample_year _ 0 (by decide)]
    norm_num
    constructor
    · simp [wet]
    · refine ⟨5, 7, ?_⟩
      show List.Perm [5, 5, 5, 5, 7] (7 :: [5, 5, 5, 5])
      exact List.perm_append_comm (l₁ := [(5 : ℝ), 5, 5, 5]) (l₂ := [7])

/-- C122 for the percentage of normal -/
example (E : Ext (Fl ℝ)) (hE : ExtNan E) (T : Trig (Fl ℝ)) (cmp : CoordCmp (Fl ℝ)) (u : ℕ → ℝ) :
    (∃ w', processIndices (indexFunction E T 2000 2004) 4 id fiveYear cmp (dailyArgs "pnp" [1, 30]) (yearWorld u) = (.ok (), w')) ∧
      ¬ ∃ w', processIndices (indexFunction E T 1999 2004) 4 id fiveYear cmp (dailyArgs "pnp" [1, 30]) (yearWorld u) = (.ok (), w') := by
  constructor
  · exact (C122_pnp_exact E hE T 2000 2004 4 (by decide) id fiveYear cmp (dailyArgs "pnp" [1, 30]) (yearWorld u) rfl (year_daily u "pnp" [1, 30]) rfl [1, 30] rfl).2 (by decide)
  · intro h
    exact absurd ((C122_pnp_exact E hE T 1999 2004 4 (by decide) id fiveYear cmp (dailyArgs "pnp" [1, 30]) (yearWorld u) rfl (year_daily u "pnp" [1, 30]) rfl [1, 30] rfl).1 h) (by decide)

/-- the command line of the runs -/
def dayCommand (index : String) : MainCommand := ⟨dailyArgs index [1], some 2000, some 2004, .single, "none"⟩

theorem day_writable {index : String} (hi : index ∈ ["spi", "pnp"]) : Writable (fun _ => false) (dayCommand index) := by
  refine ⟨rfl, ?_, (by decide : Periodicity.daily ≠ .other), (by decide : "none" ∈ ["none", "input"]), ?_⟩
  · show index ∈ _
    rcases (show index = "spi" ∨ index = "pnp" by simpa using hi) with rfl | rfl <;> decide
  · intro p hp _ t ht
    simp only [dayCommand, dailyArgs, demoArgs, List.mem_cons, List.not_mem_nil, or_false] at hp
    rcases hp with rfl | rfl | rfl | rfl | rfl | rfl | rfl | rfl | rfl <;> cases ht <;> exact .inl (by decide)

/-- C123: in the file `out_spi_gamma_01.nc` the value of 15 January 2003 is the published index of 4 mm, with the probability of zero 1/5 -/
example (T : Trig (Fl ℝ)) (cmp : CoordCmp (Fl ℝ)) (toInt : String → Option Int) (ht : ∀ n : Int, toInt (toString n) = some n) :
    ∃ w' file y, mainTool realExt T toInt 1 id fiveYear cmp (commandLine (fun _ => false) (dayCommand "spi")) (yearWorld levels) = (.ended (.ok ()), w') ∧
      w'.files "out_spi_gamma_01.nc" = some file ∧ ("spi_gamma_01", y) ∈ file ∧ y.shape = [1, 1, 1827] ∧
      y.data[366 + 365 + 365 + 14]? = some (.fin (clamp (index (fun v a b => gammaP a (v / b)) (fun q => 8 * (q - 1 / 2)) (1 / 5) [0, 1, 2, 4, 8] 4))) := by
  obtain ⟨w', h1, _, _, h4⟩ := C123_spi realExt realExt_nan realExt_real (fun v a b => gammaP a (v / b)) (fun v _ _ _ => v / (v + 1)) (fun q => 8 * (q - 1 / 2)) realExt_G (by
      intro v sk loc sc hv _ _
      refine ⟨?_, by positivity, by rw [div_lt_one (by linarith)]; linarith⟩
      show (if v ≤ 0 then Fl.fin 0 else Fl.fin (v / (v + 1))) = _
      rw [if_neg (by linarith)]) realExt_Φ T toInt ht 1 id fiveYear cmp (fun _ => false) (dayCommand "spi") (day_writable (by decide)) rfl 2000 2004 rfl rfl (by decide) (yearWorld levels)
    (year_daily levels "spi" [1]) rfl levels_nonneg [1] rfl (by decide) le_rfl (by norm_num) le_rfl levels_fit
  obtain ⟨⟨file, y, g1, g2, _, g4, _, g6⟩, _⟩ := h4 1 (by decide)
  have hn : "spi_gamma_" ++ twoDigits 1 = "spi_gamma_01" := by decide +kernel
  rw [hn] at g1 g2
  refine ⟨w', file, y, h1, ?_, g2, g4, ?_⟩
  · rw [← g1]
    rfl
  · obtain ⟨r, hg, hr⟩ := g6 0 (by decide) 0 (by decide)
    beta_reduce at hg
    rw [year_series] at hg
    have hl : (days366 optMean 2000 5 (yearVals levels)).length = 1830 := days366_len 2000 5 _ (by rw [yearVals_length]; decide)
    have hser : seriesAt 1 1827 0 0 y.data = y.data.take 1827 := rfl
    have hv := (hg.2 1112 (by rw [hl]; norm_num)).2.2 4 (by rw [accum_year levels 1112 (by omega)]; norm_num [levels]) (by norm_num)
    have e2 : ((2000 : ℤ) - 2000).toNat = 0 := rfl
    have e3 : ((2004 : ℤ) - 2000 + 1).toNat = 5 := rfl
    have e4 : yearsOf (days366 optMean 2000 5 (yearVals levels)).length 366 = 5 := by rw [hl]; norm_num [yearsOf]
    have e5 : 1112 % 366 = 14 := rfl
    rw [e2, e3, e4, e5, sample_levels 14 (by omega)] at hv
    simp only [wet_steps5] at hv
    have := hv ⟨1, by simp, 2, by simp, by norm_num⟩
    have hc := calendarDays_get 5 2000 r 3 14 (by omega) (by omega) (by rw [hg.1, hl])
    rw [← hr, show yearsLen 2000 3 + 14 = 366 + 365 + 365 + 14 by decide, show 3 * 366 + 14 = 1112 from rfl, this, hser, List.getElem?_take_of_lt (by omega)] at hc
    rw [hc]
    have hd : dry [0, 1, 2, 4, 8] = 1 := by unfold dry; norm_num
    rw [hd]
    norm_num

/-- C123 for the percentage of normal of the same day: 4 mm of 3 mm -/
example (T : Trig (Fl ℝ)) (cmp : CoordCmp (Fl ℝ)) (toInt : String → Option Int) (ht : ∀ n : Int, toInt (toString n) = some n) :
    ∃ w' file y, mainTool realExt T toInt 1 id fiveYear cmp (commandLine (fun _ => false) (dayCommand "pnp")) (yearWorld levels) = (.ended (.ok ()), w') ∧
      w'.files "out_pnp_01.nc" = some file ∧ ("pnp_01", y) ∈ file ∧ y.data[366 + 365 + 365 + 14]? = some (.fin (4 / 3)) := by
  obtain ⟨w', h1, _, _, h4⟩ := C123_pnp realExt realExt_nan T toInt ht 1 id fiveYear cmp (fun _ => false) (dayCommand "pnp") (day_writable (by decide)) rfl 2000 2004 rfl rfl (by decide) (yearWorld levels)
    (year_daily levels "pnp" [1]) rfl [1] rfl (by decide) le_rfl (by norm_num) le_rfl
  obtain ⟨file, y, g1, g2, _, _, _, g6⟩ := h4 1 (by decide)
  have hn : "pnp_" ++ twoDigits 1 = "pnp_01" := by decide +kernel
  rw [hn] at g1 g2
  refine ⟨w', file, y, h1, ?_, g2, ?_⟩
  · rw [← g1]
    rfl
  · obtain ⟨r, hg, hr⟩ := g6 0 (by decide) 0 (by decide)
    beta_reduce at hg
    rw [year_series] at hg
    have hl : (days366 optMean 2000 5 (yearVals levels)).length = 1830 := days366_len 2000 5 _ (by rw [yearVals_length]; decide)
    have hser : seriesAt 1 1827 0 0 y.data = y.data.take 1827 := rfl
    have hv := hg.2 1112 (by rw [hl]; norm_num)
    have hrl : r.length = 5 * 366 := by rw [hg.1, hl]
    have e2 : ((2000 : ℤ) - 2000).toNat = 0 := rfl
    have e3 : ((2004 : ℤ) - 2000 + 1).toNat = 5 := rfl
    have e5 : 1112 % 366 = 14 := rfl
    have hm : mean [0, 1, 2, 4, 8] = 3 := by unfold mean; norm_num
    have h4' : levels (1112 / 366) = 4 := by norm_num [levels]
    have hsam := sample_levels 14 (by omega)
    have hacc := accum_year levels 1112 (by omega)
    rw [h4'] at hacc
    rw [e2, e3, e5] at hv
    clear hl
    generalize days366 optMean 2000 5 (yearVals levels) = L at hv hsam hacc
    rw [hsam, hacc] at hv
    have hc := calendarDays_get 5 2000 r 3 14 (by omega) (by omega) hrl
    rw [← hr, show yearsLen 2000 3 + 14 = 366 + 365 + 365 + 14 by decide, show 3 * 366 + 14 = 1112 from rfl, hv, hser, List.getElem?_take_of_lt (by omega)] at hc
    rw [hc, hm]
    norm_num

end CI.Props
