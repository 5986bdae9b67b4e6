import Verif.Props.PnpDaily64

/-!
# C148: SPI of daily precipitation from the command line to the gamma files, in binary64 arithmetic

C123 does this in exact arithmetic, C139 for monthly data in float64. Daily values are first placed in years of 366 days; the mean for 29 February rounds.
-/

namespace CI.Props

open CI FloatOps FloatLaws B64 Spec Spec.McKee

variable {σ : SumOrder}

/-- a daily amount: missing, zero, or between 4/10^50 and 10^50/4 -/
def DayAmount (v : B64 σ) : Prop := v = .nan ∨ ∃ q, ext v = .fin q ∧ (q = 0 ∨ 4 / 10 ^ 50 ≤ q) ∧ q ≤ 10 ^ 50 / 4

theorem days366_mem {α : Type} (m : α → α → α) (n : ℕ) : ∀ (y : ℤ) (l : List α), l.length = yearsLen y n → ∀ v ∈ l, v ∈ days366 m y n l := by
  induction n with
  | zero =>
    intro y l hl v hv
    have : l = [] := List.length_eq_zero_iff.1 hl
    rw [this] at hv
    cases hv
  | succ n ih =>
    intro y l hl v hv
    rw [days366, List.mem_append]
    rw [← List.take_append_drop (yearLen y) l, List.mem_append] at hv
    rcases hv with h | h
    · left
      unfold year366
      split
      · exact h
      · rw [← List.take_append_drop 59 (l.take (yearLen y)), List.mem_append] at h
        rw [List.mem_append, List.mem_append]
        rcases h with h | h
        · exact .inl (.inl h)
        · exact .inr h
    · right
      refine ih (y + 1) _ ?_ v h
      rw [List.length_drop, hl, yearsLen_succ']
      omega

theorem day_near {x : List (B64 σ)} (hx : ∀ v ∈ x, DayAmount v) (y : ℤ) (Y : ℕ) :
    List.Forall₂ (Near 2 (2 / 10 ^ 50) (10 ^ 50 / 4)) (place366 y Y x) (place366 y Y (x.map ext)) := by
  have h0 : List.Forall₂ (Near 0 (2 * (2 / 10 ^ 50)) (10 ^ 50 / 4)) x (x.map ext) := by
    rw [List.forall₂_map_right_iff, List.forall₂_same]
    intro v hv
    rcases hx v hv with rfl | ⟨q, h1, h2, h3⟩
    · exact .inl ⟨rfl, rfl⟩
    · have e : (2 : ℚ) * (2 / 10 ^ 50) = 4 / 10 ^ 50 := by ring
      rw [e]
      refine .inr ⟨q, q, h1, h1, Close.refl ?_, h2, h3⟩
      rcases h2 with h | h
      · exact h.ge
      · exact le_trans (by positivity) h
  refine forall₂_days366 (fun a b h => h.mono (by omega) (by norm_num) le_rfl) (fun a b c d h h' => mean_near (by norm_num) ?_ ?_ h h') Y y h0
  · norm_num
  · norm_num

theorem day_step {x : List (B64 σ)} (hx : ∀ v ∈ x, DayAmount v) (y : ℤ) (Y : ℕ) : ∀ v ∈ place366 y Y x, StepAmount v := by
  intro v hv
  obtain ⟨i, hi, rfl⟩ := List.getElem_of_mem hv
  have hn := day_near hx y Y
  rcases (List.forall₂_iff_get.1 hn).2 i hi (by rw [← hn.length_eq]; exact hi) with ⟨h, _⟩ | ⟨a, b, h1, _, hc, hl, hh⟩
  · exact .inl h
  · have := hc.le_two (by norm_num)
    refine .inr ⟨a, h1, hl.imp (fun h => hc.eq_zero.2 h) fun h => ?_, ?_⟩
    · refine le_trans ?_ this.1
      rw [le_div_iff₀ (by norm_num)]
      refine le_trans (le_of_eq ?_) h
      ring
    · refine this.2.trans ?_
      have := mul_le_mul_of_nonneg_left hh (by norm_num : (0 : ℚ) ≤ 2)
      refine this.trans ?_
      norm_num

/-! ## Accumulations of values with errors -/

/-- `d` is next to the amount `a`, up to the part `ε` of it; or both are missing -/
def NextTo (ε : ℝ) (d a : Option ℝ) : Prop := (d = none ∧ a = none) ∨ ∃ u v, d = some u ∧ a = some v ∧ 0 ≤ v ∧ |u - v| ≤ v * ε

theorem sum_next {ε : ℝ} {l l' : List (Option ℝ)} (h : List.Forall₂ (NextTo ε) l l') :
    l.all Option.isSome = l'.all Option.isSome ∧ 0 ≤ (l'.filterMap id).sum ∧ |(l.filterMap id).sum - (l'.filterMap id).sum| ≤ (l'.filterMap id).sum * ε := by
  have hcons : ∀ (u : ℝ) (l : List (Option ℝ)), (some u :: l).filterMap id = u :: l.filterMap id := fun u l => by simp
  induction h with
  | nil => simp
  | cons h1 _ ih =>
    obtain ⟨i1, i2, i3⟩ := ih
    rcases h1 with ⟨rfl, rfl⟩ | ⟨u, v, rfl, rfl, hv, he⟩
    · exact ⟨rfl, by simpa using i2, by simpa using i3⟩
    · refine ⟨by simpa using i1, ?_, ?_⟩
      · rw [hcons v, List.sum_cons]
        exact add_nonneg hv i2
      · rw [hcons u, hcons v, List.sum_cons, List.sum_cons]
        obtain ⟨a1, a2⟩ := abs_le.1 he
        obtain ⟨b1, b2⟩ := abs_le.1 i3
        rw [abs_le, add_mul]
        constructor <;> linarith

theorem accum_next {ε : ℝ} {l l' : List (Option ℝ)} (h : List.Forall₂ (NextTo ε) l l') (k t : ℕ) : NextTo ε (accum l k t) (accum l' k t) := by
  obtain ⟨h1, h2, h3⟩ := sum_next (List.forall₂_take k (List.forall₂_drop (t + 1 - k) h))
  unfold accum
  simp only
  rw [h1, h.length_eq]
  split
  · exact .inr ⟨_, _, rfl, rfl, h2, h3⟩
  · exact .inl ⟨rfl, rfl⟩

/-- the number of an exact value -/
noncomputable def finReal : Fl ℚ → Option ℝ
  | .fin q => some (q : ℝ)
  | _ => none

theorem real64_map_ext (x : List (B64 σ)) : x.map real64 = (x.map ext).map finReal := by
  rw [List.map_map]
  refine List.map_congr_left fun v _ => ?_
  unfold real64
  simp only [Function.comp_apply]
  cases ext v <;> rfl

theorem optMean_fin (a b : Fl ℚ) : optMean (finReal a) (finReal b) = finReal ((a + b) / CI.lit 2) := by
  cases a with
  | nan => rfl
  | ninf => cases b <;> rfl
  | pinf => cases b <;> rfl
  | fin p =>
    cases b with
    | nan => rfl
    | ninf => rfl
    | pinf => rfl
    | fin q =>
      show some (((p : ℝ) + q) / 2) = finReal ((Fl.fin (p + q) : Fl ℚ) / Fl.fin 2)
      rw [Fl.fin_div_of_ne _ _ (by norm_num)]
      show _ = some (((p + q) / 2 : ℚ) : ℝ)
      push_cast
      rfl

/-- the days in years of 366 days, up to the rounding of 29 February -/
theorem day_next {x : List (B64 σ)} (hx : ∀ v ∈ x, DayAmount v) (y : ℤ) (Y : ℕ) :
    List.Forall₂ (NextTo (2 / 2 ^ 52)) ((place366 y Y x).map real64) (days366 optMean y Y (x.map real64)) := by
  rw [real64_map_ext x, days366_map finReal (fun e g => (e + g) / CI.lit 2) optMean optMean_fin Y y, List.forall₂_map_left_iff, List.forall₂_map_right_iff]
  refine (day_near hx y Y).imp fun v b h => ?_
  rcases h with ⟨rfl, rfl⟩ | ⟨p, q, h1, rfl, hc, _, _⟩
  · exact .inl ⟨rfl, rfl⟩
  · refine .inr ⟨p, q, by unfold real64; rw [h1], rfl, by exact_mod_cast hc.nonneg, ?_⟩
    have := hc.error (by norm_num)
    have e : (2 : ℚ) * (2 : ℕ) * unit = 2 / 2 ^ 52 := by unfold unit; norm_num
    rw [e] at this
    have h : ((|p - q| : ℚ) : ℝ) ≤ ((q * (2 / 2 ^ 52) : ℚ) : ℝ) := Rat.cast_le.2 this
    push_cast at h
    exact h

/-! ## The index -/

/-- the values `r` are the gamma SPI of a record that is next to `p`, in `Y` years of 366 days from year `ds` on, at scale `k` with calibration years `cs` to `ce`: the accumulations are the moving sums of
`p` up to `k + 3` units of 2^-52, and where the accumulation `v` is positive the value is the clamped normal quantile of a probability next to the mixed probability of `v` for parameters next to Thom's
estimates for that calendar day, as in C135 (if the positive accumulations of the day in the calibration years are not almost equal) -/
def GammaDays64 (G : ℝ → ℝ → ℝ → ℝ) (Φ : ℝ → ℝ) (η δ : ℝ) (p : List (Option ℝ)) (k : ℕ) (ds : ℤ) (Y : ℕ) (cs ce : ℤ) (r : List (B64 σ)) : Prop :=
  r.length = Y * 366 ∧ ∃ acc : List (Option ℝ), acc.length = Y * 366 ∧
    (∀ t < Y * 366, match accum p k t with
      | none => acc[t]? = some none
      | some a => ∃ v : ℝ, acc[t]? = some (some v) ∧ |v - a| ≤ a * ((k + 3) / 2 ^ 52)) ∧
    ∀ (t : ℕ) (v : ℝ), acc[t]? = some (some v) → 0 < v → ∀ (m : ℕ) (s : List ℝ) (q : ℝ), (m : ℤ) = ce - cs + 1 →
      s = wet (sample acc 1 366 (t % 366) (cs - ds).toNat m) → q = (dry (sample acc 1 366 (t % 366) 0 Y) : ℝ) / Y →
      ∀ (L : ℚ) (ε : ℝ), 1 ≤ L → L ≤ 1000 → (∀ a ∈ s, |Real.log a| ≤ L) → ε = (L + 1) * (m + 7) / 2 ^ 51 → 8 * ε ≤ Spec.McKee.gap s →
      ∃ (w : B64 σ) (z α β P : ℝ), r[t]? = some w ∧ (∃ zq : ℚ, ext w = .fin zq ∧ z = zq) ∧
        |α - shape s| ≤ shape s * (2 * (ε / Spec.McKee.gap s) + 1 / 2 ^ 48) ∧ |β - scale s| ≤ scale s * (4 * (ε / Spec.McKee.gap s) + (m + 2) / 2 ^ 51 + 1 / 2 ^ 47) ∧
        0 ≤ P ∧ P ≤ 1 ∧ |P - (q + (1 - q) * G v α β)| ≤ η + 3 / 2 ^ 51 ∧
        (0 < P → P < 1 → |z - clamp (Φ P)| ≤ δ + 1 / 2 ^ 50) ∧ (P = 0 → |z - -3.09| ≤ 1 / 2 ^ 50) ∧ (P = 1 → |z - 3.09| ≤ 1 / 2 ^ 50)

/-- the values `out` are the gamma SPI of the daily precipitation `x` of the years `ds` to `ds + Y - 1` at scale `k` with calibration years `cs` to `ce`: those of the calendar days of the index in years of
366 days, in the sense of `GammaDays64` -/
def DailyGamma64 (G : ℝ → ℝ → ℝ → ℝ) (Φ : ℝ → ℝ) (η δ : ℝ) (x : List (B64 σ)) (k : ℕ) (ds : ℤ) (Y : ℕ) (cs ce : ℤ) (out : List (B64 σ)) : Prop :=
  (∀ v ∈ x, DayAmount v) → (∃ v ∈ x, isNan v = false) → Y * 366 ≤ 2 ^ 40 →
    ∃ r : List (B64 σ), out = calendarDays ds Y r ∧ GammaDays64 G Φ η δ (days366 optMean ds Y (x.map real64)) k ds Y cs ce r

theorem combine_next {k : ℕ} (hk : k ≤ 2 ^ 40) {v u a : ℝ} (ha : 0 ≤ a) (h1 : |v - u| ≤ u * (k / 2 ^ 52)) (h2 : |u - a| ≤ a * (2 / 2 ^ 52)) : |v - a| ≤ a * ((k + 3) / 2 ^ 52) := by
  have hk' : (k : ℝ) ≤ 2 ^ 40 := by exact_mod_cast hk
  have hk0 : (0 : ℝ) ≤ k := Nat.cast_nonneg k
  have g2 := abs_le.1 h2
  have hu : u ≤ a * (1 + 2 / 2 ^ 52) := by linarith [g2.2]
  have h3 : u * (k / 2 ^ 52) ≤ a * (1 + 2 / 2 ^ 52) * (k / 2 ^ 52) := mul_le_mul_of_nonneg_right hu (by positivity)
  have h4 : a * (1 + 2 / 2 ^ 52) * (k / 2 ^ 52) + a * (2 / 2 ^ 52) ≤ a * ((k + 3) / 2 ^ 52) := by
    have : (1 + 2 / 2 ^ 52) * ((k : ℝ) / 2 ^ 52) + 2 / 2 ^ 52 ≤ (k + 3) / 2 ^ 52 := by
      have e : (k : ℝ) * 2 / 2 ^ 52 ≤ 1 := by
        rw [div_le_one (by positivity)]
        have : (2 : ℝ) ^ 40 * 2 ≤ 2 ^ 52 := by norm_num
        linarith
      have e2 : (1 + 2 / 2 ^ 52) * ((k : ℝ) / 2 ^ 52) + 2 / 2 ^ 52 = (k + (k : ℝ) * 2 / 2 ^ 52 + 2) / 2 ^ 52 := by ring
      rw [e2]
      refine div_le_div_of_nonneg_right ?_ (by positivity)
      linarith
    calc _ = a * ((1 + 2 / 2 ^ 52) * ((k : ℝ) / 2 ^ 52) + 2 / 2 ^ 52) := by ring
      _ ≤ _ := mul_le_mul_of_nonneg_left this ha
  have h5 := abs_sub_le v u a
  linarith

theorem gamma_days64 (E : Ext (B64 σ)) (hE : ExtNan E) (hA : Accurate E) (G : ℝ → ℝ → ℝ → ℝ) (Φ : ℝ → ℝ) (η δ : ℝ) (hI : IndexNear E G Φ η δ) (l : List (B64 σ)) (p : List (Option ℝ)) (ds : ℤ) (Y : ℕ)
    (hlen : l.length = Y * 366) (hxl : Y * 366 ≤ 2 ^ 40) (hstep : ∀ v ∈ l, StepAmount v) (hsome : ∃ v ∈ l, isNan v = false) (hnext : List.Forall₂ (NextTo (2 / 2 ^ 52)) (l.map real64) p)
    (k : ℕ) (h1 : 1 ≤ k) (h2 : k ≤ Y * 366) (cs ce : ℤ) (c1 : ds ≤ cs) (c2 : cs ≤ ce) (c3 : ce < ds + Y) (r : List (B64 σ))
    (ho : spi E (Arr.of1d l) k .gamma ds cs ce .daily none = .ok r) : GammaDays64 G Φ η δ p k ds Y cs ce r := by
  have hk40 := h2.trans hxl
  have hyears : yearsOf l.length Periodicity.daily.steps = Y := by rw [hlen]; exact yearsOf_days Y
  obtain ⟨acc, ha, hal, hm⟩ := C135_accumulations l hstep k h1 (by rw [hlen]; exact h2) hk40
  obtain ⟨m, hm0⟩ := Int.eq_ofNat_of_zero_le (show 0 ≤ ce - cs + 1 by omega)
  obtain ⟨out', o1, o2, o3⟩ := C135_spi E hE hA G Φ η δ hI l hstep k h1 (by rw [hlen]; exact h2) .daily (by simp) ds cs ce c1 c2 (by rw [hyears]; exact c3) hsome acc ha m hm0.symm (by rw [hlen]; exact hxl)
  rw [ho] at o1
  cases o1
  refine ⟨o2.trans hlen, acc.map real64, by rw [List.length_map, hal, hlen], fun t ht => ?_, ?_⟩
  · have := hm t (by rw [hlen]; exact ht)
    rcases accum_next hnext k t with ⟨e1, e2⟩ | ⟨u, a, e1, e2, ha0, hua⟩
    · rw [e1] at this
      rw [e2]
      simp only at this ⊢
      rw [List.getElem?_map, this]
      rfl
    · rw [e1] at this
      rw [e2]
      obtain ⟨v, v1, _, v2⟩ := this
      exact ⟨v, v1, combine_next hk40 ha0 v2 hua⟩
  · intro t v hv hv0 m' s q hm' hs hq
    have : m' = m := by omega
    subst this
    exact o3 t v hv hv0 Y s q hyears.symm hs hq

theorem daily_gamma64 (E : Ext (B64 σ)) (hE : ExtNan E) (hA : Accurate E) (G : ℝ → ℝ → ℝ → ℝ) (Φ : ℝ → ℝ) (η δ : ℝ) (hI : IndexNear E G Φ η δ) (x : List (B64 σ)) (ds : ℤ) (Y : ℕ)
    (hl : x.length = yearsLen ds Y) (k : ℕ) (h1 : 1 ≤ k) (h2 : k ≤ Y * 366) (cs ce : ℤ) (c1 : ds ≤ cs) (c2 : cs ≤ ce) (c3 : ce < ds + Y) (r : List (B64 σ))
    (ho : spi E (Arr.of1d (place366 ds Y x)) k .gamma ds cs ce .daily none = .ok r) : DailyGamma64 G Φ η δ x k ds Y cs ce (calendarDays ds Y r) := by
  intro hx hsome hxl
  refine ⟨r, rfl, gamma_days64 E hE hA G Φ η δ hI (place366 ds Y x) _ ds Y (days366_length x ds Y hl) hxl (day_step hx ds Y) ?_ (day_next hx ds Y) k h1 h2 cs ce c1 c2 c3 r ho⟩
  obtain ⟨v, hv, hn⟩ := hsome
  exact ⟨v, days366_mem _ Y ds x hl v hv, hn⟩

open Classical in
/-- **C148.** The documented command line for SPI of daily precipitation of whole calendar years on a grid, in IEEE float64 arithmetic: the tool ends without exception exactly if the Pearson index can be
computed at every place; then it has written exactly two files per scale and changed no other file, and at every place the values in the gamma files are the gamma SPI of the precipitation of that place
in the sense of `DailyGamma64`. -/
theorem C148_spi (E : Ext (B64 σ)) (hE : ExtNan E) (hA : Accurate E) (G : ℝ → ℝ → ℝ → ℝ) (Φ : ℝ → ℝ) (η δ : ℝ) (hI : IndexNear E G Φ η δ) (T : Trig (B64 σ))
    (toInt : String → Option Int) (ht : ∀ n : Int, toInt (toString n) = some n) (cpus : Nat) (lower : String → String)
    (yearOf : B64 σ → Int) (cmp : CoordCmp (B64 σ)) (j : String → Bool) (c : MainCommand) (hc : Writable j c) (hi : c.args.index = "spi") (cs ce : Int)
    (hcs : c.calibrationStart = some cs) (hce : c.calibrationEnd = some ce) (hcpu : 1 ≤ numberOfWorkers c.multiprocessing cpus) (w : World (B64 σ)) {f v : String} {d : NcFile (B64 σ)} {x : NcVar (B64 σ)}
    {A b n Y : Nat} {mm : List (B64 σ)} {y0 y1 : Int} (hM : DailyGrid lower yearOf c.args w f v d x A b n mm y0 y1 Y) (hfresh : w.shared "result_array" = none)
    (scales : List Nat) (hs : c.args.scales = some (scales.map Int.ofNat)) (hsc : ∀ s ∈ scales, 1 ≤ s ∧ s ≤ Y * 366) (c1 : y0 ≤ cs) (c2 : cs ≤ ce) (c3 : ce ≤ y1) :
    ∃ res w', mainTool E T toInt cpus lower yearOf cmp (commandLine j c) w = (.ended res, w') ∧
      (res = .ok () ↔ ∀ s ∈ scales, ∀ i < A, ∀ k < b, ∃ r, spi E (Arr.of1d (place366 y0 Y (seriesAt b n i k mm))) s .pearson y0 cs ce .daily none = .ok r) ∧
      (res = .ok () → w'.written = w.written ++ entries c.args.outputFileBase (spiOutputs scales) ∧
        (∀ g, (∀ o ∈ spiOutputs scales, g ≠ fileName c.args.outputFileBase o.name) → w'.files g = w.files g) ∧
        ∀ s ∈ scales, FileHolds w'.files (c.args.outputFileBase ++ "_" ++ ("spi_gamma_" ++ twoDigits s) ++ ".nc") ("spi_gamma_" ++ twoDigits s) d x A b n
          (fun i k out => DailyGamma64 G Φ η δ (seriesAt b n i k mm) s y0 Y cs ce out)) := by
  have hdoc : documented c.args.index false scales = spiOutputs scales := by rw [hi]; rfl
  have hy := hM.years
  have c3' : ce < y0 + Y := by omega
  have hmo : ∀ o, o ∈ spiOutputs scales ↔ ∃ s ∈ scales, o = .spi .pearson s ∨ o = .spi .gamma s := by
    intro o
    simp [spiOutputs, eq_comm]
  have hlen : ∀ i < A, ∀ k < b, (seriesAt b n i k mm).length = yearsLen y0 Y := by
    intro i hi' k hk
    obtain ⟨u, hu, hcv⟩ := hM.ready.units
    obtain ⟨it, hl⟩ : ∃ it, IsLayout it x.shape A b n := by
      rcases hM.ready.layout with ⟨_, h⟩ | ⟨_, h, hb⟩
      · exact ⟨.grid, .inl ⟨rfl, h⟩⟩
      · exact ⟨.divisions, .inr ⟨rfl, h, hb⟩⟩
    rw [← hM.whole]
    exact seriesAt_len hl (by rw [convert_length.1 hcv]; exact hM.ready.input.wf) hi' hk
  have hres : ∀ (dist : Distribution) (s : ℕ) (l : List (B64 σ)), (∃ r, resultDaily E cs ce y0 Y (.spi dist s) l = .ok r) ↔ ∃ r, spi E (Arr.of1d (place366 y0 Y l)) s dist y0 cs ce .daily none = .ok r := by
    intro dist s l
    unfold resultDaily
    simp only [bind, Except.bind]
    cases spi E (Arr.of1d (place366 y0 Y l)) s dist y0 cs ce .daily none with
    | error e => simp
    | ok r => simp [pure, Except.pure]
  have hgam : ∀ s ∈ scales, ComputableDaily E cs ce y0 Y mm A b n (.spi .gamma s) := by
    intro s hs' i hi' k hk
    rw [hres]
    generalize place366 y0 Y (seriesAt b n i k mm) = l
    by_cases hdata : ∃ v ∈ l, isNan v = false
    · obtain ⟨r, hr, _⟩ := C10_gamma E (Arr.of1d l) s y0 cs ce .daily (Or.inl rfl) (by simp) (by exact_mod_cast (hsc s hs').1) hdata
      exact ⟨r, hr⟩
    · refine ⟨l, ?_⟩
      unfold spi
      rw [if_pos (show (Arr.of1d l).shape.length = 2 ∨ (Arr.of1d l).shape.length = 1 from Or.inr rfl), if_pos]
      · rfl
      · show allNan l = true
        unfold allNan
        rw [List.all_eq_true]
        intro v hv
        by_contra hc
        exact hdata ⟨v, hv, by simpa using hc⟩
  rw [C106_given E T toInt cpus lower yearOf cmp (commandLine j c) w c (C105_main toInt ht j c hc) cs ce hcs hce]
  obtain ⟨res, w', h1, h2, h3, h4, h5⟩ := C122_run E hE T cs ce _ hcpu lower yearOf cmp c.args w (.inl hi) hM hfresh scales hs
  rw [hdoc] at h2 h3 h4 h5
  rw [h1]
  refine ⟨res, w', rfl, ?_, fun hok => ?_⟩
  · rw [h2]
    constructor
    · intro h s hs' i hi' k hk
      exact (hres _ _ _).1 (h _ ((hmo _).2 ⟨s, hs', .inl rfl⟩) i hi' k hk)
    · intro h o ho
      obtain ⟨s, hs', rfl | rfl⟩ := (hmo o).1 ho
      · exact fun i hi' k hk => (hres _ _ _).2 (h s hs' i hi' k hk)
      · exact hgam s hs'
  · have hall := h2.1 hok
    have htake : (spiOutputs scales).takeWhile (fun o => decide (ComputableDaily E cs ce y0 Y mm A b n o)) = spiOutputs scales := by
      rw [List.takeWhile_eq_self_iff]
      intro o ho
      exact decide_eq_true (hall o ho)
    rw [htake] at h3 h4 h5
    refine ⟨h3, h5, fun s hs' => ?_⟩
    obtain ⟨file, y, g1, g2, ⟨g3, g4⟩, ⟨g5, _⟩, g6⟩ := h4 (.spi .gamma s) ((hmo _).2 ⟨s, hs', .inr rfl⟩)
    have hn : (Output.spi .gamma s).name = "spi_gamma_" ++ twoDigits s := rfl
    rw [hn] at g1 g2
    refine ⟨file, y, g1, g2, g3, g5, g4, fun i hi' k hk => ?_⟩
    have hr := g6 i hi' k hk
    unfold resultDaily at hr
    obtain ⟨r, r1, r2⟩ := Res.bind_ok hr
    have he := Except.ok.inj r2
    beta_reduce
    rw [← he]
    exact daily_gamma64 E hE hA G Φ η δ hI _ y0 Y (hlen i hi' k hk) s (hsc s hs').1 (hsc s hs').2 cs ce c1 c2 c3' r r1

/-- C148 for the five years of daily rain of C147, read as inches -/
example (T : Trig (B64 leftToRight)) (cmp : CoordCmp (B64 leftToRight)) (toInt : String → Option Int) (ht : ∀ n : Int, toInt (toString n) = some n) :
    ∃ res w', mainTool nearIndex T toInt 1 id dayYear64 cmp (commandLine (fun _ => false) (dayCommand "spi")) exDayWorld = (.ended res, w') ∧
      (res = .ok () → ∃ file y, w'.files "out_spi_gamma_01.nc" = some file ∧ ("spi_gamma_01", y) ∈ file ∧
        DailyGamma64 (fun v _ b => v / (v + b)) (fun p => 6 * p - 3) (1 / 2 ^ 50) (1 / 2 ^ 50) (fiveDaily64.map fun v => v * lit 25.4) 1 2000 5 2000 2004 (seriesAt 1 1827 0 0 y.data)) := by
  have hser : seriesAt 1 1827 0 0 (fiveDaily64.map fun v => v * lit 25.4) = fiveDaily64.map fun v => v * lit 25.4 := by
    show ((fiveDaily64.map fun v => v * lit 25.4).drop 0).take 1827 = _
    rw [List.drop_zero, List.take_of_length_le (by rw [List.length_map]; exact fiveDaily64_length.le)]
  obtain ⟨res, w', h1, _, h3⟩ := C148_spi nearIndex nearIndex_nan ⟨nearExt_accurate.log, nearExt_accurate.sqrt⟩ _ _ _ _ nearIndex_near T toInt ht 1 id dayYear64 cmp (fun _ => false) (dayCommand "spi")
    (day_writable (by decide)) rfl 2000 2004 rfl rfl (by decide) exDayWorld (ex_day64 "spi") rfl [1] rfl (by decide) le_rfl (by norm_num) le_rfl
  refine ⟨res, w', h1, fun hok => ?_⟩
  obtain ⟨_, _, h4⟩ := h3 hok
  obtain ⟨file, y, g1, g2, _, _, _, g6⟩ := h4 1 (by decide)
  have hn : "spi_gamma_" ++ twoDigits 1 = "spi_gamma_01" := by decide +kernel
  rw [hn] at g1 g2
  have := g6 0 (by decide) 0 (by decide)
  beta_reduce at this
  rw [hser] at this
  exact ⟨file, y, g1, g2, this⟩

/-- the amounts of that record in millimetres meet `DayAmount` -/
example : [(0 : ℚ), 0.1, 0.2, 0.3, 0.4, 0.8].all (fun a => match ext (lit a * lit 25.4 : B64 leftToRight) with
      | .fin q => (decide (q = 0) || decide (4 / 10 ^ 50 ≤ q)) && decide (q ≤ 10 ^ 50 / 4)
      | _ => false) = true := by
  decide +kernel

end CI.Props
