import Verif.Props.McKee
import Verif.Props.LmomentsMatch

/-!
# C85: the Pearson type III SPI and the treatment of zeros (exact real arithmetic)
-/

namespace CI.Props
open Spec (toFl)
open Spec.McKee

/-- the accumulations of a record, padded to whole years, as the code stores them -/
noncomputable def accumData (x : List (Option ℝ)) (k p : ℕ) : List (Fl ℝ) := (List.range (yearsOf x.length p * p)).map (fun t => toFl (accum x k t))

theorem spi_toFl (E : Ext (Fl ℝ)) (x : List (Option ℝ)) (hx : ∀ a, some a ∈ x → 0 ≤ a) (k : ℕ) (h1 : 1 ≤ k) (h2 : k ≤ x.length)
    (dist : Distribution) (per : Periodicity) (ds cs ce : ℤ) (out : List (Fl ℝ)) (hsome : ∃ a, some a ∈ x)
    (h : spi E (Arr.of1d (x.map toFl)) k dist ds cs ce per none = .ok out) :
    per ≠ .other ∧ ∃ tr, distTransform E ⟨[yearsOf x.length per.steps, per.steps], accumData x k per.steps⟩ dist ds cs ce per none = .ok tr ∧
      ∀ t, t < x.length → out[t]? = (tr.data[t]?).map (npClip (lit (-3.09)) (lit 3.09)) := by
  have hnn : ∃ v ∈ (Arr.of1d (x.map toFl)).data, isNan v = false := by
    obtain ⟨a, ha⟩ := hsome
    exact ⟨toFl (some a), List.mem_map.2 ⟨_, ha, rfl⟩, rfl⟩
  obtain ⟨hper, s', n', tr, hs', hlen, htr, hout⟩ := spi_point E _ _ _ _ _ _ _ _ _ (allNan_false hnn) h
  refine ⟨hper, tr, ?_, by simpa [Arr.of1d] using hout⟩
  have hp := steps_pos per hper
  have hclip : clipNeg (Arr.of1d (x.map toFl)).data = x.map toFl := by
    apply clipNeg_id
    intro w hw
    obtain ⟨o, ho, rfl⟩ := List.mem_map.1 hw
    cases o with
    | none => rw [show toFl none = nan from rfl]; simp
    | some a =>
      show flt (Fl.fin a) _ = false
      rw [Fl.lit_def, Fl.flt_fin]
      simpa using hx a ho
  rw [hclip] at hs'
  obtain ⟨s'', e1, e2, e3⟩ := scaled_toFl x k h1 h2
  rw [e1] at hs'
  cases hs'
  rw [e3] at htr hlen
  rw [e2] at htr hlen
  have hdata : x.length + padCount x.length per.steps = n' * per.steps := by simpa using hlen
  have hnn' : yearsOf x.length per.steps = n' := by
    show (x.length + per.steps - 1) / per.steps = n'
    have := padCount_lt x.length per.steps hp
    rw [Nat.div_eq_iff hp]
    constructor
    · omega
    · have : n' * per.steps + per.steps = (n' + 1) * per.steps := by ring
      omega
  unfold accumData
  rw [hnn', ← hdata]
  exact htr

theorem accumData_column (x : List (Option ℝ)) (k p c : ℕ) (hc : c < p) (ds cs ce : ℤ) (c1 : ds ≤ cs) (c2 : cs ≤ ce) (c3 : ce < ds + yearsOf x.length p) :
    stride p c (calibrationValues (accumData x k p) (yearsOf x.length p) p ds cs ce) =
      (List.range (ce - cs + 1).toNat).map (fun y => toFl (accum x k (((cs - ds).toNat + y) * p + c))) := by
  rw [calibrationValues_within _ _ _ ds cs ce c1 (by omega) (by omega)]
  have : (ce + 1 - ds).toNat = (cs - ds).toNat + (ce - cs + 1).toNat := by omega
  unfold accumData
  rw [this, stride_slice_range _ _ _ _ _ _ hc (by omega)]

theorem sample_toFl (f : ℕ → Option ℝ) (l : List ℕ) : Sample (l.map (fun y => toFl (f y))) (l.filterMap f) := by
  unfold Sample
  induction l with
  | nil => rfl
  | cons y l ih =>
    rw [List.map_cons]
    cases hy : f y with
    | none => rw [List.filterMap_cons_none hy, List.filter_cons_of_neg (by rw [isNan_toFl]; simp), ih]
    | some a => rw [List.filterMap_cons_some hy, List.filter_cons_of_pos (by rw [isNan_toFl]; simp), ih, List.map_cons]; rfl

theorem sample_nonneg (x : List (Option ℝ)) (hx : ∀ a, some a ∈ x → 0 ≤ a) (k p c a m : ℕ) : ∀ v ∈ sample x k p c a m, 0 ≤ v := by
  intro v hv
  obtain ⟨y, _, h⟩ := List.mem_filterMap.1 hv
  exact accum_nonneg x hx k _ v h

theorem wet_length (s : List ℝ) (hs : ∀ v ∈ s, 0 ≤ v) : (wet s).length + dry s = s.length := by
  unfold wet dry
  induction s with
  | nil => rfl
  | cons a s ih =>
    have ih := ih (fun v hv => hs v (List.mem_cons_of_mem _ hv))
    have ha := hs a (by simp)
    by_cases h0 : a = 0
    · rw [List.filter_cons_of_neg (by simp [h0]), List.countP_cons_of_pos (by simp [h0]), List.length_cons]; omega
    · rw [List.filter_cons_of_pos (by simpa using lt_of_le_of_ne ha (Ne.symm h0)), List.countP_cons_of_neg (by simpa using h0), List.length_cons, List.length_cons]; omega

theorem wet_sum (s : List ℝ) (hs : ∀ v ∈ s, 0 ≤ v) : (wet s).sum = s.sum := by
  unfold wet
  induction s with
  | nil => rfl
  | cons a s ih =>
    have ih := ih (fun v hv => hs v (List.mem_cons_of_mem _ hv))
    have ha := hs a (by simp)
    by_cases h0 : a = 0
    · rw [List.filter_cons_of_neg (by simp [h0]), List.sum_cons, ih, h0, zero_add]
    · rw [List.filter_cons_of_pos (by simpa using lt_of_le_of_ne ha (Ne.symm h0)), List.sum_cons, List.sum_cons, ih]

/-- the parameters of one calendar step -/
theorem timeStep_toFl (E : Ext (Fl ℝ)) (hR : ExtReal E) (f : ℕ → Option ℝ) (l : List ℕ) (q : PearsonParams (Fl ℝ))
    (h : calculateTimeStepParams (lmomentsFit E) (l.map (fun y => toFl (f y))) = .ok q) (hs : ∀ v ∈ l.filterMap f, 0 ≤ v)
    (h4 : 4 ≤ (wet (l.filterMap f)).length) :
    ∃ sc sk : ℝ, q = ⟨.fin (zeroShare (l.filterMap f)), .fin (mean (l.filterMap f)), .fin sc, .fin sk⟩ ∧ 0 < sc ∧
      Pearson3.lscale sc sk = pairDiff (l.filterMap f) / ((l.filterMap f).length * ((l.filterMap f).length - 1)) / 2 := by
  generalize hsd : l.filterMap f = s at *
  have hsam := sample_toFl f l
  rw [hsd] at hsam
  have hlen := wet_length s hs
  have hcount : countZerosAndNonMissings (l.map (fun y => toFl (f y))) = (dry s, s.length) := by
    rw [C08_counts, ← List.countP_eq_length_filter, countP_toFl, hsd]
    have := congrArg List.length hsam
    rw [List.length_map] at this
    rw [this]
  unfold calculateTimeStepParams at h
  rw [hcount] at h
  simp only [bind, Except.bind, pure, Except.pure] at h
  rw [if_neg (by omega), if_pos (by omega)] at h
  cases hf : lmomentsFit E (l.map (fun y => toFl (f y))) with
  | error e => rw [hf] at h; cases h
  | ok r =>
    rw [hf] at h
    obtain ⟨sc, sk, hr, hls⟩ := C83_match E hR _ s hsam (by omega) r hf
    have hpos : 0 < sc := by
      obtain ⟨he, ho⟩ := C24_fit E hR _ s hsam (by omega)
      have hab : ¬ AllButOne s := fun hab => by rw [he.2 hab] at hf; cases hf
      obtain ⟨a, b, c, h', hb⟩ := ho hab
      rw [hf, hr] at h'
      cases h'
      exact hb
    subst hr
    cases h
    refine ⟨sc, sk, ?_, hpos, hls⟩
    have hz : (if 0 < dry s then (lit (dry s) / lit s.length : Fl ℝ) else lit 0) = .fin (zeroShare s) := by
      have hsl : ((s.length : ℚ) : ℝ) ≠ 0 := by
        have : s.length ≠ 0 := by omega
        simpa using this
      unfold zeroShare
      split
      · rw [Fl.lit_def, Fl.lit_def, Fl.fin_div_of_ne _ _ hsl]; simp
      · next h0 =>
        have : dry s = 0 := by omega
        rw [this, Fl.lit_def]; simp
    simp only [gt_iff_lt, hz]
    rfl

theorem minimumPossible_fin (loc sc sk : ℝ) (h : sk ≠ 0) :
    minimumPossible (Fl.fin sk) (.fin loc) (.fin sc) = .fin (loc - 2 * sc / sk) := by
  unfold minimumPossible
  dsimp only
  have h2 : ((2 : ℚ) : ℝ) ≠ 0 := by norm_num
  rw [Fl.lit_def, Fl.lit_def, Fl.fin_mul, Fl.fin_div_of_ne _ _ (mul_ne_zero h h), Fl.fin_mul, Fl.fin_mul, Fl.fin_div_of_ne _ _ h2, Fl.fin_sub]
  congr 2
  push_cast
  field_simp
  ring

theorem minimumPossible_zero (loc sc : ℝ) : minimumPossible (Fl.fin (0 : ℝ)) (.fin loc) (.fin sc) = .nan := by
  unfold minimumPossible
  have h4 : (lit 4 : Fl ℝ) / (Fl.fin 0 * Fl.fin 0) = .pinf := by
    rw [Fl.lit_def, Fl.fin_mul]
    show Fl.div _ _ = _
    simp [Fl.div, Fl.infSign]
  simp only [h4]
  have hnan : (Fl.pinf : Fl ℝ) * Fl.fin sc * Fl.fin 0 = .nan := by
    have hz : ∀ z : Fl ℝ, (z = .pinf ∨ z = .ninf ∨ z = .nan) → z * Fl.fin 0 = .nan := by
      rintro z (rfl | rfl | rfl)
      · show Fl.mul _ _ = _; simp [Fl.mul, Fl.infSign, Fl.neg]
      · show Fl.mul _ _ = _; simp [Fl.mul, Fl.infSign, Fl.neg]
      · rfl
    apply hz
    show Fl.mul _ _ = _ ∨ Fl.mul _ _ = _ ∨ Fl.mul _ _ = _
    simp only [Fl.mul, Fl.infSign]
    split <;> first | (left; rfl) | (right; left; rfl) | (right; right; rfl) | skip
    split <;> first | (left; rfl) | (right; left; rfl) | (right; right; rfl)
  rw [hnan]
  rfl

/-- the probability of one value, case by case -/
theorem pearsonProb1_fin (E : Ext (Fl ℝ)) (z m sc sk v : ℝ) :
    (0.0005 ≤ v → Pearson3.Inside m sc sk v →
      pearsonProb1 E ⟨.fin z, .fin m, .fin sc, .fin sk⟩ (.fin v) = E.pearson3Cdf (.fin v) (.fin sk) (.fin m) (.fin sc)) ∧
    (v < 0.0005 → Pearson3.Inside m sc sk v → 0 < z → pearsonProb1 E ⟨.fin z, .fin m, .fin sc, .fin sk⟩ (.fin v) = .fin 0) ∧
    (v < 0.0005 → Pearson3.Inside m sc sk v → z ≤ 0 → pearsonProb1 E ⟨.fin z, .fin m, .fin sc, .fin sk⟩ (.fin v) = .fin 0.0005) ∧
    (0 < sk → v ≤ m - 2 * sc / sk → pearsonProb1 E ⟨.fin z, .fin m, .fin sc, .fin sk⟩ (.fin v) = .fin 0.0005) ∧
    (sk < 0 → m - 2 * sc / sk ≤ v → pearsonProb1 E ⟨.fin z, .fin m, .fin sc, .fin sk⟩ (.fin v) = .fin 0.9995) := by
  have l0 : (lit 0 : Fl ℝ) = .fin 0 := by rw [Fl.lit_def]; norm_num
  have l5 : (lit 0.0005 : Fl ℝ) = .fin 0.0005 := by rw [Fl.lit_def]; norm_num
  have l9 : (lit 0.9995 : Fl ℝ) = .fin 0.9995 := by rw [Fl.lit_def]; norm_num
  have hin : Pearson3.Inside m sc sk v →
      (fle (Fl.fin v) (minimumPossible (Fl.fin sk) (.fin m) (.fin sc)) && fle (Fl.fin 0) (Fl.fin sk)) = false ∧
      (fle (minimumPossible (Fl.fin sk) (.fin m) (.fin sc)) (Fl.fin v) && flt (Fl.fin sk) (Fl.fin 0)) = false := by
    intro hin
    rcases eq_or_ne sk 0 with h0 | h0
    · subst h0
      rw [minimumPossible_zero, show (Fl.nan : Fl ℝ) = nan from rfl]
      simp only [FloatLaws.fle_nan_right, FloatLaws.fle_nan_left, Bool.false_and, and_self]
    · rw [minimumPossible_fin _ _ _ h0, Fl.fle_fin, Fl.fle_fin, Fl.fle_fin, Fl.flt_fin]
      constructor
      · by_contra hc
        simp only [Bool.not_eq_false, Bool.and_eq_true, decide_eq_true_eq] at hc
        have := hin.1 (lt_of_le_of_ne hc.2 (Ne.symm h0))
        linarith [hc.1]
      · by_contra hc
        simp only [Bool.not_eq_false, Bool.and_eq_true, decide_eq_true_eq] at hc
        have := hin.2 hc.2
        linarith [hc.1]
  have big : 0.0005 ≤ v → flt (Fl.fin v) (Fl.fin 0.0005) = false := by
    intro h; rw [Fl.flt_fin]; simpa using h
  have small : v < 0.0005 → flt (Fl.fin v) (Fl.fin 0.0005) = true := by
    intro h; rw [Fl.flt_fin]; simpa using h
  unfold pearsonProb1
  simp only [l0, l5, l9]
  refine ⟨fun h1 h2 => ?_, fun h1 h2 h3 => ?_, fun h1 h2 h3 => ?_, fun h1 h2 => ?_, fun h1 h2 => ?_⟩
  · simp only [(hin h2).1, (hin h2).2, big h1, Bool.false_and, Bool.false_eq_true, if_false]
  · have e1 : flt (Fl.fin 0) (Fl.fin z) = true := by rw [Fl.flt_fin]; simpa using h3
    have e2 : fle (Fl.fin z) (Fl.fin 0) = false := by rw [Fl.fle_fin]; simpa using h3
    simp only [(hin h2).1, (hin h2).2, small h1, e1, e2, Bool.true_and, Bool.false_eq_true, if_false, if_true]
  · have e2 : fle (Fl.fin z) (Fl.fin 0) = true := by rw [Fl.fle_fin]; simpa using h3
    simp only [(hin h2).1, (hin h2).2, small h1, e2, Bool.true_and, Bool.false_eq_true, if_false, if_true]
  · have e1 : fle (Fl.fin v) (Fl.fin (m - 2 * sc / sk)) = true := by rw [Fl.fle_fin]; simpa using h2
    have e2 : fle (Fl.fin 0) (Fl.fin sk) = true := by rw [Fl.fle_fin]; simpa using h1.le
    have e3 : flt (Fl.fin sk) (Fl.fin 0) = false := by rw [Fl.flt_fin]; simpa using h1.le
    simp only [minimumPossible_fin _ _ _ h1.ne', e1, e2, e3, Bool.and_true, Bool.and_false, Bool.false_eq_true, if_false, if_true]
  · have e1 : fle (Fl.fin (m - 2 * sc / sk)) (Fl.fin v) = true := by rw [Fl.fle_fin]; simpa using h2
    have e3 : flt (Fl.fin sk) (Fl.fin 0) = true := by rw [Fl.flt_fin]; simpa using h1
    simp only [minimumPossible_fin _ _ _ h1.ne, e1, e3, Bool.and_true, if_true]

/-- **C85 (all values).** What the Pearson SPI is, for every record with missing values, scale up to the length of the record and calibration period inside the
record, at every step with a number: the normal quantile of `q + (1 - q) F`, where `q` is the share of zeros among the accumulations of the calendar step in
the calibration years and `F` is, for an accumulation `v`,
* a Pearson type III distribution function with mean and L-scale of **all** these accumulations, zeros included, when `v` is at least 0.0005 and inside the
  support of the distribution;
* 0 when `v` is less than 0.0005, inside the support, and there are zeros; 0.0005 when there are none;
* 0.0005 when `v` is at or below the lower end of the support, 0.9995 when it is at or above the upper end.
The cases are exhaustive. (At least four of the accumulations positive.) -/
theorem C85_cases (E : Ext (Fl ℝ)) (hE : ExtNan E) (hR : ExtReal E) (P : ℝ → ℝ → ℝ → ℝ → ℝ) (Φ : ℝ → ℝ)
    (hP : ∀ v sk loc sc, 0 < v → 0 < sc → Pearson3.Inside loc sc sk v →
      E.pearson3Cdf (.fin v) (.fin sk) (.fin loc) (.fin sc) = .fin (P v sk loc sc) ∧ 0 < P v sk loc sc ∧ P v sk loc sc < 1)
    (hΦ : ∀ q, 0 < q → q < 1 → E.normPpf (.fin q) = .fin (Φ q))
    (x : List (Option ℝ)) (hx : ∀ a, some a ∈ x → 0 ≤ a) (k : ℕ) (h1 : 1 ≤ k) (h2 : k ≤ x.length) (per : Periodicity)
    (ds cs ce : ℤ) (c1 : ds ≤ cs) (c2 : cs ≤ ce) (c3 : ce < ds + yearsOf x.length per.steps) (hsome : ∃ a, some a ∈ x)
    (out : List (Fl ℝ)) (h : spi E (Arr.of1d (x.map toFl)) k .pearson ds cs ce per none = .ok out)
    (c : ℕ) (hc : c < per.steps) :
    let s := sample x k per.steps c (cs - ds).toNat (ce - cs + 1).toNat
    4 ≤ (wet s).length →
    ∃ sc sk, 0 < sc ∧ Pearson3.lscale sc sk = pairDiff s / (s.length * (s.length - 1)) / 2 ∧
      ∀ t v, t % per.steps = c → accum x k t = some v →
        (0.0005 ≤ v → Pearson3.Inside (mean s) sc sk v →
          out[t]? = some (.fin (clamp (Φ (zeroShare s + (1 - zeroShare s) * P v sk (mean s) sc))))) ∧
        (v < 0.0005 → Pearson3.Inside (mean s) sc sk v → 0 < dry s → out[t]? = some (.fin (clamp (Φ (zeroShare s))))) ∧
        (v < 0.0005 → Pearson3.Inside (mean s) sc sk v → dry s = 0 → out[t]? = some (.fin (clamp (Φ 0.0005)))) ∧
        (0 < sk → v ≤ mean s - 2 * sc / sk → out[t]? = some (.fin (clamp (Φ (zeroShare s + (1 - zeroShare s) * 0.0005))))) ∧
        (sk < 0 → mean s - 2 * sc / sk ≤ v → out[t]? = some (.fin (clamp (Φ (zeroShare s + (1 - zeroShare s) * 0.9995))))) := by
  intro s h4
  obtain ⟨hper, tr, htr, hout⟩ := spi_toFl E x hx k h1 h2 .pearson per ds cs ce out hsome h
  have hlen : (accumData x k per.steps).length = yearsOf x.length per.steps * per.steps := by simp [accumData]
  have htr' : transformFittedPearson E (lmomentsFit E) ⟨[yearsOf x.length per.steps, per.steps], accumData x k per.steps⟩ ds cs ce per
      ⟨none, none, none, none⟩ = .ok tr := htr
  have hcol := accumData_column x k per.steps c hc ds cs ce c1 c2 c3
  -- the parameters of the step exist
  obtain ⟨q, hq⟩ : ∃ q, calculateTimeStepParams (lmomentsFit E)
      (stride per.steps c (calibrationValues (accumData x k per.steps) (yearsOf x.length per.steps) per.steps ds cs ce)) = .ok q := by
    rcases transformFittedPearson_inv E _ _ _ _ ds cs ce per _ tr hper rfl htr' with ⟨hn, _⟩ | ⟨_, ps, hps, _, hsrc⟩
    · exfalso
      have hw : wet s ≠ [] := by intro h0; rw [h0] at h4; simp at h4
      obtain ⟨v, hv⟩ := List.exists_mem_of_ne_nil _ hw
      obtain ⟨y, hy, hvy⟩ := List.mem_filterMap.1 (List.mem_of_mem_filter hv)
      have hmem : toFl (some v) ∈ accumData x k per.steps := by
        rw [← hvy]
        have : toFl (accum x k (((cs - ds).toNat + y) * per.steps + c)) ∈
            stride per.steps c (calibrationValues (accumData x k per.steps) (yearsOf x.length per.steps) per.steps ds cs ce) := by
          rw [hcol]; exact List.mem_map.2 ⟨y, hy, rfl⟩
        exact mem_calibrationValues _ _ _ _ _ _ _ (mem_of_mem_stride _ _ _ _ this)
      have := List.all_eq_true.1 hn _ hmem
      cases this
    · rcases hsrc with ⟨_, hfits⟩ | ⟨a, b, c', d, a', b', c'', d', hargs, _⟩
      · obtain ⟨q, hq, _⟩ := mapM_getElem? _ _ _ hfits c c (by rw [List.getElem?_range hc])
        exact ⟨q, hq⟩
      · cases hargs
  have hq0 := hq
  rw [hcol] at hq
  obtain ⟨sc, sk, hqe, hsc, hls⟩ := timeStep_toFl E hR _ _ q hq (sample_nonneg x hx k per.steps c _ _) h4
  refine ⟨sc, sk, hsc, hls, ?_⟩
  intro t v htc hv
  have htx : t < x.length := by
    unfold accum at hv
    dsimp only at hv
    split at hv
    · next h => exact h.2.1
    · cases hv
  have hp := steps_pos per hper
  have htn : t < yearsOf x.length per.steps * per.steps := by
    have : x.length ≤ yearsOf x.length per.steps * per.steps := by
      have h3 := Nat.lt_div_mul_add hp (a := x.length + per.steps - 1)
      unfold yearsOf
      omega
    omega
  have hget : (accumData x k per.steps)[t]? = some (.fin v) := by
    unfold accumData
    rw [List.getElem?_map, List.getElem?_range htn, Option.map_some, hv]; rfl
  rw [hout t htx]
  rcases pearson_value E hE _ _ _ ds cs ce per _ tr hper hlen htr' t _ hget with ⟨hn, _⟩ | ⟨q', hq', hval⟩
  · exfalso
    have := List.all_eq_true.1 hn _ (List.mem_of_getElem? hget)
    cases this
  · have : q' = q := by
      have e : pearsonParamAt (lmomentsFit E) (yearsOf x.length per.steps) per.steps (accumData x k per.steps) ds cs ce ⟨none, none, none, none⟩ (t % per.steps) =
        (calculateTimeStepParams (lmomentsFit E) (stride per.steps (t % per.steps) (calibrationValues (accumData x k per.steps) (yearsOf x.length per.steps) per.steps ds cs ce))).toOption := rfl
      rw [e, htc, hq0] at hq'
      cases hq'
      rfl
    subst this
    rw [hval, Option.map_some]
    have hs0 := sample_nonneg x hx k per.steps c (cs - ds).toNat (ce - cs + 1).toNat
    have hwl := wet_length s hs0
    have hsl : (0 : ℝ) < s.length := by
      have : 0 < s.length := by omega
      exact_mod_cast this
    have hz0 : 0 ≤ zeroShare s := by unfold zeroShare; positivity
    have hz1 : zeroShare s < 1 := by
      unfold zeroShare
      rw [div_lt_one hsl]
      exact_mod_cast (by omega : dry s < s.length)
    obtain ⟨f1, f2, f3, f4, f5⟩ := pearsonProb1_fin E (zeroShare s) (mean s) sc sk v
    have claim : ∀ pr : ℝ, pearsonProb1 E ⟨.fin (zeroShare s), .fin (mean s), .fin sc, .fin sk⟩ (.fin v) = .fin pr →
        0 < zeroShare s + (1 - zeroShare s) * pr → zeroShare s + (1 - zeroShare s) * pr < 1 →
        some (npClip (lit (-3.09)) (lit 3.09) (pearsonTransform1 E q' (.fin v))) =
          some (.fin (clamp (Φ (zeroShare s + (1 - zeroShare s) * pr)))) := by
      intro pr hprob hq1 hq2
      have hqe' : q' = ⟨.fin (zeroShare s), .fin (mean s), .fin sc, .fin sk⟩ := hqe
      rw [hqe']
      unfold pearsonTransform1
      rw [hprob, show (lit 1 : Fl ℝ) = .fin 1 by rw [Fl.lit_def]; norm_num, show (lit 0 : Fl ℝ) = .fin 0 by rw [Fl.lit_def]; norm_num,
        Fl.fin_sub, Fl.fin_mul, Fl.fin_add]
      have hclip : npClip (.fin 0) (.fin 1) (Fl.fin (zeroShare s + (1 - zeroShare s) * pr)) =
          .fin (zeroShare s + (1 - zeroShare s) * pr) := by
        unfold npClip
        rw [Fl.flt_fin, Fl.flt_fin, if_neg (by simp), if_neg (by simpa using hq1.le), if_neg (by simpa using hq2.le)]
      rw [hclip, hΦ _ hq1 hq2, npClip_clamp]
    have mix : ∀ pr : ℝ, 0 < pr → pr < 1 → 0 < zeroShare s + (1 - zeroShare s) * pr ∧ zeroShare s + (1 - zeroShare s) * pr < 1 := by
      intro pr p2 p3
      have := mul_pos (sub_pos.2 hz1) p2
      have := mul_lt_mul_of_pos_left p3 (sub_pos.2 hz1)
      constructor <;> linarith
    refine ⟨fun h1 h2 => ?_, fun h1 h2 h3 => ?_, fun h1 h2 h3 => ?_, fun h1 h2 => ?_, fun h1 h2 => ?_⟩
    · obtain ⟨p1, p2, p3⟩ := hP v sk (mean s) sc (lt_of_lt_of_le (by norm_num) h1) hsc h2
      exact claim _ ((f1 h1 h2).trans p1) (mix _ p2 p3).1 (mix _ p2 p3).2
    · have hzp : 0 < zeroShare s := by
        unfold zeroShare
        exact div_pos (by exact_mod_cast h3) hsl
      have := claim 0 (f2 h1 h2 hzp) (by simpa using hzp) (by simpa using hz1)
      simpa using this
    · have hzz : zeroShare s = 0 := by unfold zeroShare; rw [h3]; simp
      have hm := mix 0.0005 (by norm_num) (by norm_num)
      have := claim 0.0005 (f3 h1 h2 (le_of_eq hzz)) hm.1 hm.2
      rw [hzz, zero_add, sub_zero, one_mul] at this
      exact this
    · have hm := mix 0.0005 (by norm_num) (by norm_num)
      exact claim _ (f4 h1 h2) hm.1 hm.2
    · have hm := mix 0.9995 (by norm_num) (by norm_num)
      exact claim _ (f5 h1 h2) hm.1 hm.2

/-- every value falls under one of the cases of `C85_cases` -/
example (loc sc sk v : ℝ) : Pearson3.Inside loc sc sk v ∨ (0 < sk ∧ v ≤ loc - 2 * sc / sk) ∨ (sk < 0 ∧ loc - 2 * sc / sk ≤ v) := by
  unfold Pearson3.Inside
  by_cases h1 : 0 < sk ∧ v ≤ loc - 2 * sc / sk
  · exact .inr (.inl h1)
  · by_cases h2 : sk < 0 ∧ loc - 2 * sc / sk ≤ v
    · exact .inr (.inr h2)
    · exact .inl ⟨fun h => not_le.1 fun h' => h1 ⟨h, h'⟩, fun h => not_le.1 fun h' => h2 ⟨h, h'⟩⟩

/-- **C85 (value).** What the Pearson SPI is, for every record with missing values, scale up to the length of the record and calibration period inside the
record: at a step whose accumulation is at least 0.0005 the index is the normal quantile of `q + (1 - q) F`, where `q` is the share of zeros among the
accumulations of the calendar step in the calibration years and `F` is a Pearson type III distribution function with mean and L-scale of **all** these
accumulations, zeros included. (At least four of them positive; the accumulation lies inside the support of the distribution.) -/
theorem C85_value (E : Ext (Fl ℝ)) (hE : ExtNan E) (hR : ExtReal E) (P : ℝ → ℝ → ℝ → ℝ → ℝ) (Φ : ℝ → ℝ)
    (hP : ∀ v sk loc sc, 0 < v → 0 < sc → Pearson3.Inside loc sc sk v →
      E.pearson3Cdf (.fin v) (.fin sk) (.fin loc) (.fin sc) = .fin (P v sk loc sc) ∧ 0 < P v sk loc sc ∧ P v sk loc sc < 1)
    (hΦ : ∀ q, 0 < q → q < 1 → E.normPpf (.fin q) = .fin (Φ q))
    (x : List (Option ℝ)) (hx : ∀ a, some a ∈ x → 0 ≤ a) (k : ℕ) (h1 : 1 ≤ k) (h2 : k ≤ x.length) (per : Periodicity)
    (ds cs ce : ℤ) (c1 : ds ≤ cs) (c2 : cs ≤ ce) (c3 : ce < ds + yearsOf x.length per.steps) (hsome : ∃ a, some a ∈ x)
    (out : List (Fl ℝ)) (h : spi E (Arr.of1d (x.map toFl)) k .pearson ds cs ce per none = .ok out)
    (c : ℕ) (hc : c < per.steps) :
    let s := sample x k per.steps c (cs - ds).toNat (ce - cs + 1).toNat
    4 ≤ (wet s).length →
    ∃ sc sk, 0 < sc ∧ Pearson3.lscale sc sk = pairDiff s / (s.length * (s.length - 1)) / 2 ∧
      ∀ t v, t % per.steps = c → accum x k t = some v → 0.0005 ≤ v → Pearson3.Inside (mean s) sc sk v →
        out[t]? = some (.fin (clamp (Φ (zeroShare s + (1 - zeroShare s) * P v sk (mean s) sc)))) := by
  intro s h4
  obtain ⟨sc, sk, h5, h6, h7⟩ := C85_cases E hE hR P Φ hP hΦ x hx k h1 h2 per ds cs ce c1 c2 c3 hsome out h c hc h4
  exact ⟨sc, sk, h5, h6, fun t v e1 e2 e3 e4 => (h7 t v e1 e2).1 e3 e4⟩

/-- **C85 (`_partial`: false when there are zeros, see `C85_fails`).** Without zeros among the accumulations of the calendar step in the calibration years the
index is that of the distribution with mean and L-scale of the positive accumulations, as published. -/
theorem C85_partial (E : Ext (Fl ℝ)) (hE : ExtNan E) (hR : ExtReal E) (P : ℝ → ℝ → ℝ → ℝ → ℝ) (Φ : ℝ → ℝ)
    (hP : ∀ v sk loc sc, 0 < v → 0 < sc → Pearson3.Inside loc sc sk v →
      E.pearson3Cdf (.fin v) (.fin sk) (.fin loc) (.fin sc) = .fin (P v sk loc sc) ∧ 0 < P v sk loc sc ∧ P v sk loc sc < 1)
    (hΦ : ∀ q, 0 < q → q < 1 → E.normPpf (.fin q) = .fin (Φ q))
    (x : List (Option ℝ)) (hx : ∀ a, some a ∈ x → 0 ≤ a) (k : ℕ) (h1 : 1 ≤ k) (h2 : k ≤ x.length) (per : Periodicity)
    (ds cs ce : ℤ) (c1 : ds ≤ cs) (c2 : cs ≤ ce) (c3 : ce < ds + yearsOf x.length per.steps) (hsome : ∃ a, some a ∈ x)
    (out : List (Fl ℝ)) (h : spi E (Arr.of1d (x.map toFl)) k .pearson ds cs ce per none = .ok out)
    (c : ℕ) (hc : c < per.steps) :
    let s := sample x k per.steps c (cs - ds).toNat (ce - cs + 1).toNat
    4 ≤ (wet s).length → dry s = 0 →
    ∃ sc sk, 0 < sc ∧ Pearson3.lscale sc sk = pairDiff (wet s) / ((wet s).length * ((wet s).length - 1)) / 2 ∧
      ∀ t v, t % per.steps = c → accum x k t = some v → 0.0005 ≤ v → Pearson3.Inside (mean (wet s)) sc sk v →
        out[t]? = some (.fin (clamp (Φ (P v sk (mean (wet s)) sc)))) := by
  intro s h4 hd
  obtain ⟨sc, sk, hsc, hls, hv⟩ := C85_value E hE hR P Φ hP hΦ x hx k h1 h2 per ds cs ce c1 c2 c3 hsome out h c hc h4
  have hs0 := sample_nonneg x hx k per.steps c (cs - ds).toNat (ce - cs + 1).toNat
  have hws : wet s = s := by
    unfold wet
    rw [List.filter_eq_self]
    intro v hv
    have hne : v ≠ 0 := by
      intro h0
      have : 0 < dry s := List.countP_pos_iff.2 ⟨v, hv, by simpa using h0⟩
      omega
    simpa using lt_of_le_of_ne (hs0 v hv) (Ne.symm hne)
  have hz : zeroShare s = 0 := by unfold zeroShare; rw [hd]; simp
  refine ⟨sc, sk, hsc, by rw [hws]; exact hls, ?_⟩
  intro t v ht hacc hv0 hin
  rw [hws] at hin ⊢
  have := hv t v ht hacc hv0 hin
  rw [this]
  show some (Fl.fin (clamp (Φ (zeroShare s + (1 - zeroShare s) * P v sk (mean s) sc)))) = _
  rw [hz, zero_add, sub_zero, one_mul]

/-- **C85 is false** for every record and every calendar step with a zero and at least four positive accumulations in the calibration years: the zeros enter
the probability of zero and also the fitted distribution, whose mean is less than the mean of the positive accumulations. -/
theorem C85_fails (E : Ext (Fl ℝ)) (hR : ExtReal E) (x : List (Option ℝ)) (hx : ∀ a, some a ∈ x → 0 ≤ a) (k : ℕ) (h1 : 1 ≤ k) (h2 : k ≤ x.length)
    (per : Periodicity) (hper : per ≠ .other) (ds cs ce : ℤ) (c1 : ds ≤ cs) (c2 : cs ≤ ce) (c3 : ce < ds + yearsOf x.length per.steps)
    (acc : Arr (Fl ℝ)) (hacc : scaleValues (Arr.of1d (x.map toFl)) k per = .ok acc) (hsome : ∃ a, some a ∈ x)
    (ps : List (PearsonParams (Fl ℝ))) (h : pearsonParameters (lmomentsFit E) acc ds cs ce per = .ok ps) (c : ℕ) (hc : c < per.steps) :
    let s := sample x k per.steps c (cs - ds).toNat (ce - cs + 1).toNat
    4 ≤ (wet s).length → 0 < dry s →
    ∃ q m, ps[c]? = some q ∧ q.probZero = .fin (zeroShare s) ∧ 0 < zeroShare s ∧ q.loc = .fin m ∧ m < mean (wet s) := by
  intro s h4 hd
  have hnn : ∃ v ∈ (Arr.of1d (x.map toFl)).data, isNan v = false := by
    obtain ⟨a, ha⟩ := hsome
    exact ⟨toFl (some a), List.mem_map.2 ⟨_, ha, rfl⟩, rfl⟩
  have hp := steps_pos per hper
  have hclip : clipNeg (Arr.of1d (x.map toFl)).data = x.map toFl := by
    apply clipNeg_id
    intro w hw
    obtain ⟨o, ho, rfl⟩ := List.mem_map.1 hw
    cases o with
    | none => rw [show toFl none = nan from rfl]; simp
    | some a =>
      show flt (Fl.fin a) _ = false
      rw [Fl.lit_def, Fl.flt_fin]
      simpa using hx a ho
  obtain ⟨_, s', hs', hr⟩ := scaleValues_eq _ _ per acc (allNan_false hnn) hacc
  rw [hclip] at hs'
  obtain ⟨s'', e1, e2, e3⟩ := scaled_toFl x k h1 h2
  rw [e1] at hs'
  cases hs'
  obtain ⟨n', hr', hlen⟩ := reshapeValues_total s' per hper
  rw [hr] at hr'
  cases hr'
  rw [e3, e2] at h
  rw [e3, e2] at hlen
  have hdata : x.length + padCount x.length per.steps = n' * per.steps := by simpa using hlen
  have hnn' : n' = yearsOf x.length per.steps := by
    symm
    show (x.length + per.steps - 1) / per.steps = n'
    have := padCount_lt x.length per.steps hp
    rw [Nat.div_eq_iff hp]
    constructor
    · omega
    · have : n' * per.steps + per.steps = (n' + 1) * per.steps := by ring
      omega
  rw [hdata, hnn', pearsonParameters_2d _ _ _ _ ds cs ce per hper rfl] at h
  unfold pearsonFits at h
  obtain ⟨q, hq1, hq2⟩ := mapM_getElem? _ _ _ h c c (by rw [List.getElem?_range hc])
  have hcol := accumData_column x k per.steps c hc ds cs ce c1 c2 c3
  unfold accumData at hcol
  rw [hcol] at hq1
  have hs0 := sample_nonneg x hx k per.steps c (cs - ds).toNat (ce - cs + 1).toNat
  obtain ⟨sc, sk, hqe, _, _⟩ := timeStep_toFl E hR _ _ q hq1 hs0 h4
  have hwl := wet_length s hs0
  have hws := wet_sum s hs0
  have hwp : (0 : ℝ) < (wet s).length := by
    have : 0 < (wet s).length := by omega
    exact_mod_cast this
  have hlt : ((wet s).length : ℝ) < s.length := by exact_mod_cast (by omega : (wet s).length < s.length)
  have hsp : (0 : ℝ) < s.length := lt_trans hwp hlt
  have hsum : 0 < s.sum := by
    rw [← hws]
    apply List.sum_pos
    · intro v hv
      have := List.of_mem_filter hv
      simpa using this
    · intro h0; rw [h0] at h4; simp at h4
  refine ⟨q, mean s, hq2, by rw [hqe]; rfl, ?_, by rw [hqe]; rfl, ?_⟩
  · unfold zeroShare
    apply div_pos _ hsp
    exact_mod_cast hd
  · show s.sum / s.length < (wet s).sum / (wet s).length
    rw [hws]
    exact div_lt_div_of_pos_left hsum hwp hlt

/-! ## When the Pearson SPI is refused -/

theorem nonZeros_wet (s : List ℝ) (hs : ∀ v ∈ s, 0 ≤ v) : nonZeros s = (wet s).length := by
  have h1 := wet_length s hs
  have h2 : nonZeros s + dry s = s.length := by
    have := List.length_eq_countP_add_countP (p := fun v : ℝ => decide (v = 0)) (l := s)
    have e : s.countP (fun v : ℝ => decide (v ≠ 0)) = s.countP (fun a => decide ¬decide (a = 0) = true) := by
      apply List.countP_congr
      intro v _
      simp
    unfold nonZeros dry
    rw [e]
    omega
  omega

/-- the SPI of a record, in terms of its accumulations -/
theorem spi_toFl_eq (E : Ext (Fl ℝ)) (x : List (Option ℝ)) (hx : ∀ a, some a ∈ x → 0 ≤ a) (k : ℕ) (h1 : 1 ≤ k) (h2 : k ≤ x.length)
    (dist : Distribution) (per : Periodicity) (hper : per ≠ .other) (ds cs ce : ℤ) (hsome : ∃ a, some a ∈ x) :
    spi E (Arr.of1d (x.map toFl)) k dist ds cs ce per none =
      (distTransform E ⟨[yearsOf x.length per.steps, per.steps], accumData x k per.steps⟩ dist ds cs ce per none).map
        (fun t => clipFlattenTruncate t x.length) := by
  have hnn : ∃ v ∈ (Arr.of1d (x.map toFl)).data, isNan v = false := by
    obtain ⟨a, ha⟩ := hsome
    exact ⟨toFl (some a), List.mem_map.2 ⟨_, ha, rfl⟩, rfl⟩
  have hp := steps_pos per hper
  have hclip : clipNeg (Arr.of1d (x.map toFl)).data = x.map toFl := by
    apply clipNeg_id
    intro w hw
    obtain ⟨o, ho, rfl⟩ := List.mem_map.1 hw
    cases o with
    | none => rw [show toFl none = nan from rfl]; simp
    | some a =>
      show flt (Fl.fin a) _ = false
      rw [Fl.lit_def, Fl.flt_fin]
      simpa using hx a ho
  obtain ⟨s, e1, e2, e3⟩ := scaled_toFl x k h1 h2
  obtain ⟨n', hr, hlen⟩ := reshapeValues_total s per hper
  rw [e3, e2] at hr
  rw [e3, e2] at hlen
  have hdata : x.length + padCount x.length per.steps = n' * per.steps := by simpa using hlen
  have hnn' : n' = yearsOf x.length per.steps := by
    symm
    show (x.length + per.steps - 1) / per.steps = n'
    have := padCount_lt x.length per.steps hp
    rw [Nat.div_eq_iff hp]
    constructor
    · omega
    · have : n' * per.steps + per.steps = (n' + 1) * per.steps := by ring
      omega
  rw [hdata, hnn'] at hr
  rw [spi_eq E _ _ dist ds cs ce per none (Or.inr rfl) (allNan_false hnn), hclip, e1]
  simp only [bind, Except.bind]
  rw [hr]
  simp only
  have hl : (Arr.of1d (x.map toFl)).data.length = x.length := by simp [Arr.of1d]
  rw [hl]
  unfold accumData
  cases distTransform E ⟨[yearsOf x.length per.steps, per.steps], (List.range (yearsOf x.length per.steps * per.steps)).map (fun t => toFl (accum x k t))⟩
    dist ds cs ce per none <;> rfl

/-- **C10 (Pearson, exact condition).** For every record with missing values, scale up to the length of the record and calibration period inside the record,
the Pearson SPI is refused (ValueError) exactly if some calendar step has at least four positive accumulations in the calibration years and all its
accumulations there but one are equal. Otherwise there is one value per input value (`C10_pearson_partial`). -/
theorem C10_pearson_exact (E : Ext (Fl ℝ)) (hR : ExtReal E) (x : List (Option ℝ)) (hx : ∀ a, some a ∈ x → 0 ≤ a) (k : ℕ) (h1 : 1 ≤ k)
    (h2 : k ≤ x.length) (per : Periodicity) (hper : per ≠ .other) (ds cs ce : ℤ) (c1 : ds ≤ cs) (c2 : cs ≤ ce)
    (c3 : ce < ds + yearsOf x.length per.steps) (hsome : ∃ a, some a ∈ x) :
    (spi E (Arr.of1d (x.map toFl)) k .pearson ds cs ce per none = .error .valueError ↔
      ∃ c, c < per.steps ∧ 4 ≤ (wet (sample x k per.steps c (cs - ds).toNat (ce - cs + 1).toNat)).length ∧
        AllButOne (sample x k per.steps c (cs - ds).toNat (ce - cs + 1).toNat)) := by
  rw [spi_toFl_eq E x hx k h1 h2 .pearson per hper ds cs ce hsome]
  have hdt : distTransform E ⟨[yearsOf x.length per.steps, per.steps], accumData x k per.steps⟩ .pearson ds cs ce per none =
      transformFittedPearson E (lmomentsFit E) ⟨[yearsOf x.length per.steps, per.steps], accumData x k per.steps⟩ ds cs ce per ⟨none, none, none, none⟩ := rfl
  rw [hdt]
  have hsam : ∀ c, c < per.steps → Sample (stride per.steps c (calibrationValues (accumData x k per.steps) (yearsOf x.length per.steps) per.steps ds cs ce))
      (sample x k per.steps c (cs - ds).toNat (ce - cs + 1).toNat) := by
    intro c hc
    rw [accumData_column x k per.steps c hc ds cs ce c1 c2 c3]
    exact sample_toFl _ _
  have hnz : ∀ c, nonZeros (sample x k per.steps c (cs - ds).toNat (ce - cs + 1).toNat) =
      (wet (sample x k per.steps c (cs - ds).toNat (ce - cs + 1).toNat)).length :=
    fun c => nonZeros_wet _ (sample_nonneg x hx k per.steps c _ _)
  cases hna : allNan (accumData x k per.steps) with
  | true =>
    have ht : transformFittedPearson E (lmomentsFit E) ⟨[yearsOf x.length per.steps, per.steps], accumData x k per.steps⟩ ds cs ce per
        ⟨none, none, none, none⟩ = .ok ⟨[yearsOf x.length per.steps, per.steps], accumData x k per.steps⟩ := by
      unfold transformFittedPearson
      simp [hna]
    rw [ht]
    constructor
    · intro h; cases h
    · rintro ⟨c, hc, h4, _⟩
      exfalso
      have hw : wet (sample x k per.steps c (cs - ds).toNat (ce - cs + 1).toNat) ≠ [] := by intro h0; rw [h0] at h4; simp at h4
      obtain ⟨v, hv⟩ := List.exists_mem_of_ne_nil _ hw
      have hv' := List.mem_of_mem_filter hv
      have hm : Fl.fin v ∈ (sample x k per.steps c (cs - ds).toNat (ce - cs + 1).toNat).map Fl.fin := List.mem_map.2 ⟨v, hv', rfl⟩
      rw [← hsam c hc] at hm
      have := mem_calibrationValues _ _ _ _ _ _ _ (mem_of_mem_stride _ _ _ _ (List.mem_of_mem_filter hm))
      have := List.all_eq_true.1 hna _ this
      cases this
  | false =>
    rw [transformFittedPearson_fit E _ _ _ _ ds cs ce per hper rfl hna]
    have hfin : ∀ v ∈ accumData x k per.steps, FinOrNan v := by
      intro v hv
      obtain ⟨t, _, rfl⟩ := List.mem_map.1 hv
      cases accum x k t with
      | none => exact Or.inl rfl
      | some a => exact Or.inr ⟨a, rfl⟩
    obtain ⟨g1, g2⟩ := C26_partial E hR (yearsOf x.length per.steps) (accumData x k per.steps) ds cs ce per hper hfin _ hsam
    rw [pearsonParameters_2d _ _ _ _ ds cs ce per hper rfl] at g1 g2
    by_cases hbad : ∃ c, c < per.steps ∧ 4 ≤ nonZeros (sample x k per.steps c (cs - ds).toNat (ce - cs + 1).toNat) ∧
        AllButOne (sample x k per.steps c (cs - ds).toNat (ce - cs + 1).toNat)
    · rw [g1 hbad]
      simp only [hnz] at hbad
      exact ⟨fun _ => hbad, fun _ => rfl⟩
    · obtain ⟨ps, hps, _⟩ := g2 (fun j hj h => hbad ⟨j, hj, h⟩)
      rw [hps]
      simp only [hnz] at hbad
      exact ⟨fun h => (by cases h), fun h => absurd h hbad⟩

/-- `scale_values` of the record: one row of accumulations per year -/
theorem scaleValues_toFl (x : List (Option ℝ)) (hx : ∀ a, some a ∈ x → 0 ≤ a) (k : ℕ) (h1 : 1 ≤ k) (h2 : k ≤ x.length)
    (per : Periodicity) (hper : per ≠ .other) (hsome : ∃ a, some a ∈ x) :
    scaleValues (Arr.of1d (x.map toFl)) k per = .ok ⟨[yearsOf x.length per.steps, per.steps], accumData x k per.steps⟩ := by
  have hnn : ∃ v ∈ (Arr.of1d (x.map toFl)).data, isNan v = false := by
    obtain ⟨a, ha⟩ := hsome
    exact ⟨toFl (some a), List.mem_map.2 ⟨_, ha, rfl⟩, rfl⟩
  have hp := steps_pos per hper
  have hclip : clipNeg (Arr.of1d (x.map toFl)).data = x.map toFl := by
    apply clipNeg_id
    intro w hw
    obtain ⟨o, ho, rfl⟩ := List.mem_map.1 hw
    cases o with
    | none => rw [show toFl none = nan from rfl]; simp
    | some a =>
      show flt (Fl.fin a) _ = false
      rw [Fl.lit_def, Fl.flt_fin]
      simpa using hx a ho
  obtain ⟨s, e1, e2, e3⟩ := scaled_toFl x k h1 h2
  obtain ⟨n', hr, hlen⟩ := reshapeValues_total s per hper
  rw [e3, e2] at hr
  rw [e3, e2] at hlen
  have hdata : x.length + padCount x.length per.steps = n' * per.steps := by simpa using hlen
  have hnn' : n' = yearsOf x.length per.steps := by
    symm
    show (x.length + per.steps - 1) / per.steps = n'
    have := padCount_lt x.length per.steps hp
    rw [Nat.div_eq_iff hp]
    constructor
    · omega
    · have : n' * per.steps + per.steps = (n' + 1) * per.steps := by ring
      omega
  rw [hdata, hnn'] at hr
  obtain ⟨m, hm⟩ := amin_ok _ (ne_nil_of_allNan _ (allNan_false hnn))
  have hc : (if flt m (lit 0) then (Arr.of1d (x.map toFl)).data.map (npClipMin (lit 0)) else (Arr.of1d (x.map toFl)).data) = x.map toFl := by
    have := hclip
    unfold clipNeg at this
    rw [hm] at this
    exact this
  unfold scaleValues
  rw [if_pos (show (Arr.of1d (x.map toFl)).shape.length = 2 ∨ (Arr.of1d (x.map toFl)).shape.length = 1 from Or.inr rfl),
    if_neg (by rw [allNan_false hnn]; simp)]
  rw [hm]
  simp only [bind, Except.bind]
  rw [hc, e1]
  simp only
  unfold accumData
  rw [← hr]
  cases per <;> rfl

/-! ## A concrete case: five years with 0, 1, 2, 4 and 8 mm in each month -/

/-- every month of year `y` has `2 ^ (y - 1)` mm, the first year none -/
noncomputable def steps5 : List (Option ℝ) := (List.range 60).map (fun i : ℕ => some (if i < 12 then 0 else 2 ^ (i / 12 - 1) : ℝ))

theorem steps5_nonneg : ∀ a, some a ∈ steps5 → 0 ≤ a := by
  intro a ha
  obtain ⟨i, _, h⟩ := List.mem_map.1 ha
  cases h
  split <;> positivity

theorem steps5_length : steps5.length = 60 := by simp [steps5]

theorem accum_steps5 (t : ℕ) (ht : t < 60) : accum steps5 1 t = some (if t < 12 then 0 else 2 ^ (t / 12 - 1) : ℝ) := by
  unfold accum
  have hl := steps5_length
  have hg : steps5[t]'(by omega) = some (if t < 12 then 0 else 2 ^ (t / 12 - 1) : ℝ) := by simp [steps5]
  have hd : (steps5.drop (t + 1 - 1)).take 1 = [some (if t < 12 then 0 else 2 ^ (t / 12 - 1) : ℝ)] := by
    rw [Nat.add_sub_cancel, List.drop_eq_getElem_cons (by omega), hg]; rfl
  simp only [hd]
  rw [if_pos ⟨by omega, by omega, by simp⟩]
  simp

theorem sample_steps5 (c : ℕ) (hc : c < 12) : sample steps5 1 12 c 0 5 = [0, 1, 2, 4, 8] := by
  unfold sample
  rw [show List.range 5 = [0, 1, 2, 3, 4] from rfl]
  simp only [List.filterMap_cons, List.filterMap_nil]
  rw [accum_steps5 _ (by omega), accum_steps5 _ (by omega), accum_steps5 _ (by omega), accum_steps5 _ (by omega), accum_steps5 _ (by omega)]
  have d : ∀ y, ((0 + y) * 12 + c) / 12 = y := by omega
  simp only [d]
  rw [if_pos (by omega), if_neg (by omega), if_neg (by omega), if_neg (by omega), if_neg (by omega)]
  norm_num

theorem wet_steps5 : wet [0, 1, 2, 4, 8] = [1, 2, 4, 8] := by unfold wet; norm_num

theorem not_allButOne_steps5 : ¬ AllButOne [0, 1, 2, 4, 8] := by
  rintro ⟨c, d, h⟩
  have hnd : ([0, 1, 2, 4, 8] : List ℝ).Nodup := by norm_num
  have h2 := (List.nodup_cons.1 (h.nodup_iff.1 hnd)).2
  rw [List.nodup_replicate] at h2
  simp at h2

/-- the Pearson SPI of the record exists -/
theorem steps5_spi : ∃ out, spi realExt (Arr.of1d (steps5.map toFl)) (1 : ℕ) .pearson 2000 2000 2004 .monthly none = .ok out := by
  have hnn : ∃ a, some a ∈ steps5 := ⟨0, List.mem_map.2 ⟨0, by simp, by norm_num⟩⟩
  have he := C10_pearson_exact realExt realExt_real steps5 steps5_nonneg 1 le_rfl (by rw [steps5_length]; norm_num) .monthly (by simp) 2000 2000 2004
    le_rfl (by norm_num) (by rw [steps5_length]; norm_num [yearsOf, Periodicity.steps]) hnn
  rcases C10_pearson_partial realExt (Arr.of1d (steps5.map toFl)) (1 : ℕ) 2000 2000 2004 .monthly (Or.inl rfl) (Or.inl rfl) (by norm_num)
    ⟨toFl (some 0), List.mem_map.2 ⟨some 0, List.mem_map.2 ⟨0, by simp, by norm_num⟩, rfl⟩, rfl⟩ with ⟨out, h, _⟩ | h
  · exact ⟨out, h⟩
  · obtain ⟨c, hc, _, hab⟩ := he.1 h
    exact absurd (by rw [← sample_steps5 c hc]; exact hab) not_allButOne_steps5

/-- C85: the fourth January (4 mm). The share of zeros is 1/5 and the fitted mean is 3, the mean of 0, 1, 2, 4, 8 and not of 1, 2, 4, 8. With the
distribution function `v / (v + 1)` and the quantile function `8 (q - 1/2)` the value is 2.72. -/
example : ∃ out, spi realExt (Arr.of1d (steps5.map toFl)) (1 : ℕ) .pearson 2000 2000 2004 .monthly none = .ok out ∧
    ∃ sc sk, 0 < sc ∧ Pearson3.lscale sc sk = pairDiff [0, 1, 2, 4, 8] / (5 * (5 - 1)) / 2 ∧
      (Pearson3.Inside 3 sc sk 4 → out[36]? = some (.fin 2.72)) := by
  obtain ⟨out, ho⟩ := steps5_spi
  refine ⟨out, ho, ?_⟩
  have hv := C85_value realExt realExt_nan realExt_real (fun v _ _ _ => v / (v + 1)) (fun q => 8 * (q - 1 / 2)) (by
      intro v sk loc sc hv _ _
      refine ⟨?_, by positivity, by rw [div_lt_one (by linarith)]; linarith⟩
      show (if v ≤ 0 then Fl.fin 0 else Fl.fin (v / (v + 1))) = _
      rw [if_neg (by linarith)]) realExt_Φ steps5 steps5_nonneg 1 le_rfl (by rw [steps5_length]; norm_num) .monthly 2000 2000 2004 le_rfl (by norm_num)
    (by rw [steps5_length]; norm_num [yearsOf, Periodicity.steps]) ⟨0, List.mem_map.2 ⟨0, by simp, by norm_num⟩⟩ out ho 0 (by decide)
  have e2 : ((2000 : ℤ) - 2000).toNat = 0 := rfl
  have e3 : ((2004 : ℤ) - 2000 + 1).toNat = 5 := rfl
  have e5 : Periodicity.monthly.steps = 12 := rfl
  rw [e2, e3, e5, sample_steps5 0 (by omega)] at hv
  dsimp only at hv
  rw [wet_steps5] at hv
  obtain ⟨sc, sk, hsc, hls, hval⟩ := hv (by simp)
  have hm : mean [0, 1, 2, 4, 8] = 3 := by unfold mean; norm_num
  have hz : zeroShare [0, 1, 2, 4, 8] = 1 / 5 := by unfold zeroShare dry; norm_num
  refine ⟨sc, sk, hsc, by rw [hls]; norm_num, ?_⟩
  intro hin
  have := hval 36 4 rfl (by rw [accum_steps5 36 (by omega)]; norm_num) (by norm_num) (by rw [hm]; exact hin)
  rw [this, hz]
  unfold clamp
  norm_num

/-- C85_fails: the same record. The probability of zero is 1/5, the fitted mean 3 and the mean of the wet Januaries 15/4. -/
example : ∃ acc ps, scaleValues (Arr.of1d (steps5.map toFl)) (1 : ℕ) .monthly = .ok acc ∧
    pearsonParameters (lmomentsFit realExt) acc 2000 2000 2004 .monthly = .ok ps ∧
    ∃ q m, ps[0]? = some q ∧ q.probZero = .fin (1 / 5) ∧ q.loc = .fin m ∧ m < 15 / 4 := by
  have hsome : ∃ a, some a ∈ steps5 := ⟨0, List.mem_map.2 ⟨0, by simp, by norm_num⟩⟩
  have hacc := scaleValues_toFl steps5 steps5_nonneg 1 le_rfl (by rw [steps5_length]; norm_num) .monthly (by simp) hsome
  have hy : yearsOf steps5.length Periodicity.monthly.steps = 5 := by rw [steps5_length]; rfl
  have e2 : ((2000 : ℤ) - 2000).toNat = 0 := rfl
  have e3 : ((2004 : ℤ) - 2000 + 1).toNat = 5 := rfl
  have e5 : Periodicity.monthly.steps = 12 := rfl
  have hfin : ∀ v ∈ accumData steps5 1 12, FinOrNan v := by
    intro v hv
    obtain ⟨t, _, rfl⟩ := List.mem_map.1 hv
    cases accum steps5 1 t with
    | none => exact Or.inl rfl
    | some a => exact Or.inr ⟨a, rfl⟩
  obtain ⟨_, g⟩ := C26_partial realExt realExt_real 5 (accumData steps5 1 12) 2000 2000 2004 .monthly (by simp) hfin
    (fun c => sample steps5 1 12 c 0 5) (by
      intro c hc
      have := accumData_column steps5 1 12 c hc 2000 2000 2004 le_rfl (by norm_num) (by rw [← e5, hy]; norm_num)
      rw [← e5, hy, e2, e3, e5] at this
      rw [e5, this]
      exact sample_toFl _ _)
  obtain ⟨ps, hps, _⟩ := g (by
    rintro c hc ⟨_, hab⟩
    rw [sample_steps5 c hc] at hab
    exact not_allButOne_steps5 hab)
  rw [hy] at hacc
  refine ⟨_, ps, hacc, hps, ?_⟩
  have hf := C85_fails realExt realExt_real steps5 steps5_nonneg 1 le_rfl (by rw [steps5_length]; norm_num) .monthly (by simp) 2000 2000 2004 le_rfl
    (by norm_num) (by rw [hy]; norm_num) _ hacc hsome ps hps 0 (by decide)
  rw [e2, e3, e5, sample_steps5 0 (by omega)] at hf
  dsimp only at hf
  rw [wet_steps5] at hf
  obtain ⟨q, m, h1, h2, _, h4, h5⟩ := hf (by simp) (by unfold dry; norm_num)
  refine ⟨q, m, h1, ?_, h4, ?_⟩
  · rw [h2]; congr 1; unfold zeroShare dry; norm_num
  · have : mean [1, 2, 4, 8] = 15 / 4 := by unfold mean; norm_num
    linarith

end CI.Props
