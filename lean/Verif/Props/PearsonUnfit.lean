import Verif.Props.EndToEndPet

/-!
# C141: the Pearson SPI where no distribution can be fitted

`calculate_time_step_params` (compute.py:248-258) fits no distribution to fewer than four positive accumulations and returns four zeros as parameters. `_pearson_fit` (compute.py:462-549) then works with
these zeros: scipy has no value for a distribution of scale 0, but accumulations below 0.0005 get probability 0.0005 all the same.
-/

namespace CI.Props

open CI FloatOps Spec Spec.McKee

/-- with fewer than four positive values all parameters are zero -/
theorem timeStep_unfit (E : Ext (Fl ℝ)) (f : ℕ → Option ℝ) (l : List ℕ) (hs : ∀ v ∈ l.filterMap f, 0 ≤ v) (h4 : (wet (l.filterMap f)).length < 4) :
    calculateTimeStepParams (lmomentsFit E) (l.map (fun y => toFl (f y))) = .ok ⟨.fin 0, .fin 0, .fin 0, .fin 0⟩ := by
  generalize hsd : l.filterMap f = s at *
  have hsam := sample_toFl f l
  rw [hsd] at hsam
  have hlen := wet_length s hs
  have hcount : countZerosAndNonMissings (l.map (fun y => toFl (f y))) = (dry s, s.length) := by
    rw [C08_counts, ← List.countP_eq_length_filter, countP_toFl, hsd]
    have := congrArg List.length hsam
    rw [List.length_map] at this
    rw [this]
  unfold calculateTimeStepParams
  rw [hcount]
  simp only
  rw [if_pos (by omega), show (lit 0 : Fl ℝ) = .fin 0 by rw [Fl.lit_def]; norm_num]

/-- **C141 (all values).** Wherever the calibration years have fewer than four positive accumulations of a calendar step (any record with missing values, scale and calibration period inside the record), the
Pearson SPI of that step is missing at accumulations of at least 0.0005, and the quantile of the probability 0.0005 at smaller ones, zeros included. `hcdf`: scipy has no probability for scale 0. -/
theorem C141_cases (E : Ext (Fl ℝ)) (hE : ExtNan E) (hcdf : ∀ v : ℝ, E.pearson3Cdf (.fin v) (.fin 0) (.fin 0) (.fin 0) = .nan) (z : ℝ) (hz : E.normPpf (.fin 0.0005) = .fin z)
    (x : List (Option ℝ)) (hx : ∀ a, some a ∈ x → 0 ≤ a) (k : ℕ) (h1 : 1 ≤ k) (h2 : k ≤ x.length) (per : Periodicity)
    (ds cs ce : ℤ) (c1 : ds ≤ cs) (c2 : cs ≤ ce) (c3 : ce < ds + yearsOf x.length per.steps) (hsome : ∃ a, some a ∈ x)
    (out : List (Fl ℝ)) (h : spi E (Arr.of1d (x.map toFl)) k .pearson ds cs ce per none = .ok out)
    (c : ℕ) (hc : c < per.steps) (h4 : (wet (sample x k per.steps c (cs - ds).toNat (ce - cs + 1).toNat)).length < 4) (t : ℕ) (v : ℝ) (htc : t % per.steps = c) (hv : accum x k t = some v) :
    (0.0005 ≤ v → out[t]? = some .nan) ∧ (v < 0.0005 → out[t]? = some (.fin (clamp z))) := by
  obtain ⟨hper, tr, htr, hout⟩ := spi_toFl E x hx k h1 h2 .pearson per ds cs ce out hsome h
  have hlen : (accumData x k per.steps).length = yearsOf x.length per.steps * per.steps := by simp [accumData]
  have htr' : transformFittedPearson E (lmomentsFit E) ⟨[yearsOf x.length per.steps, per.steps], accumData x k per.steps⟩ ds cs ce per
      ⟨none, none, none, none⟩ = .ok tr := htr
  have hq : calculateTimeStepParams (lmomentsFit E) (stride per.steps c (calibrationValues (accumData x k per.steps) (yearsOf x.length per.steps) per.steps ds cs ce)) =
      .ok ⟨.fin 0, .fin 0, .fin 0, .fin 0⟩ := by
    rw [accumData_column x k per.steps c hc ds cs ce c1 c2 c3]
    exact timeStep_unfit E _ _ (sample_nonneg x hx k per.steps c _ _) h4
  have htx : t < x.length := by
    unfold accum at hv
    dsimp only at hv
    split at hv
    · next h => exact h.2.1
    · cases hv
  have hp := steps_pos per hper
  have htn : t < yearsOf x.length per.steps * per.steps := by
    have : x.length ≤ yearsOf x.length per.steps * per.steps := by
      have h3 := Nat.lt_div_mul_add hp (a := x.length + per.steps - 1)
      unfold yearsOf
      omega
    omega
  have hget : (accumData x k per.steps)[t]? = some (.fin v) := by
    unfold accumData
    rw [List.getElem?_map, List.getElem?_range htn, Option.map_some, hv]; rfl
  rw [hout t htx]
  rcases pearson_value E hE _ _ _ ds cs ce per _ tr hper hlen htr' t _ hget with ⟨hn, _⟩ | ⟨q', hq', hval⟩
  · exfalso
    have := List.all_eq_true.1 hn _ (List.mem_of_getElem? hget)
    cases this
  · have : q' = ⟨.fin 0, .fin 0, .fin 0, .fin 0⟩ := by
      have e : pearsonParamAt (lmomentsFit E) (yearsOf x.length per.steps) per.steps (accumData x k per.steps) ds cs ce ⟨none, none, none, none⟩ (t % per.steps) =
        (calculateTimeStepParams (lmomentsFit E) (stride per.steps (t % per.steps) (calibrationValues (accumData x k per.steps) (yearsOf x.length per.steps) per.steps ds cs ce))).toOption := rfl
      rw [e, htc, hq] at hq'
      cases hq'
      rfl
    subst this
    rw [hval, Option.map_some]
    have hin : Pearson3.Inside 0 0 0 v := ⟨fun h => absurd h (lt_irrefl _), fun h => absurd h (lt_irrefl _)⟩
    obtain ⟨f1, _, f3, _⟩ := pearsonProb1_fin E 0 0 0 0 v
    have l0 : (lit 0 : Fl ℝ) = .fin 0 := by rw [Fl.lit_def]; norm_num
    have l1 : (lit 1 : Fl ℝ) = .fin 1 := by rw [Fl.lit_def]; norm_num
    refine ⟨fun h5 => ?_, fun h5 => ?_⟩
    · unfold pearsonTransform1
      rw [f1 h5 hin, hcdf v]
      have e : (Fl.fin (0 : ℝ)) + (lit 1 - Fl.fin (0 : ℝ)) * (Fl.nan : Fl ℝ) = nan := by rw [l1, Fl.fin_sub]; rfl
      rw [e, npClip_nan, hE.normPpf_nan, npClip_nan]
      rfl
    · unfold pearsonTransform1
      rw [f3 h5 hin le_rfl, l1, l0, Fl.fin_sub, Fl.fin_mul, Fl.fin_add, sub_zero, one_mul, zero_add]
      have hclip : npClip (.fin 0) (.fin 1) (Fl.fin (0.0005 : ℝ)) = .fin 0.0005 := by
        unfold npClip
        rw [Fl.flt_fin, Fl.flt_fin, if_neg (by simp), if_neg (by norm_num), if_neg (by norm_num)]
      rw [hclip, hz, npClip_clamp]

/-- **C141 (partial).** The full claim: the index of a calendar step to which no distribution can be fitted is missing. It holds at accumulations of at least 0.0005; at the others it never does
(`C141_fails`). -/
theorem C141_partial (E : Ext (Fl ℝ)) (hE : ExtNan E) (hcdf : ∀ v : ℝ, E.pearson3Cdf (.fin v) (.fin 0) (.fin 0) (.fin 0) = .nan) (z : ℝ) (hz : E.normPpf (.fin 0.0005) = .fin z)
    (x : List (Option ℝ)) (hx : ∀ a, some a ∈ x → 0 ≤ a) (k : ℕ) (h1 : 1 ≤ k) (h2 : k ≤ x.length) (per : Periodicity)
    (ds cs ce : ℤ) (c1 : ds ≤ cs) (c2 : cs ≤ ce) (c3 : ce < ds + yearsOf x.length per.steps) (hsome : ∃ a, some a ∈ x)
    (out : List (Fl ℝ)) (h : spi E (Arr.of1d (x.map toFl)) k .pearson ds cs ce per none = .ok out)
    (c : ℕ) (hc : c < per.steps) (h4 : (wet (sample x k per.steps c (cs - ds).toNat (ce - cs + 1).toNat)).length < 4) (t : ℕ) (v : ℝ) (htc : t % per.steps = c) (hv : accum x k t = some v) :
    out[t]? = some .nan ↔ 0.0005 ≤ v := by
  obtain ⟨g1, g2⟩ := C141_cases E hE hcdf z hz x hx k h1 h2 per ds cs ce c1 c2 c3 hsome out h c hc h4 t v htc hv
  refine ⟨fun hn => ?_, g1⟩
  by_contra hc'
  rw [g2 (not_le.1 hc')] at hn
  cases hn

theorem accum_zero (x : List (Option ℝ)) (hx : ∀ a, some a ∈ x → a = 0) (k t : ℕ) (v : ℝ) (h : accum x k t = some v) : v = 0 := by
  unfold accum at h
  dsimp only at h
  split at h
  · rw [Option.some.injEq] at h
    rw [← h]
    apply List.sum_eq_zero
    intro a ha
    obtain ⟨o, ho, hoa⟩ := List.mem_filterMap.1 ha
    obtain rfl : o = some a := hoa
    exact hx a (List.mem_of_mem_drop (List.mem_of_mem_take ho))
  · cases h

/-- **C141 is false**: in a desert, with no rain at all in any month of the record (months may be missing), every month that is as dry as all the others gets the clamped quantile of the probability 0.0005,
-3.09 with the normal distribution: an exceptional drought. Any record, scale, periodicity and calibration period inside the record. -/
theorem C141_fails (E : Ext (Fl ℝ)) (hE : ExtNan E) (hR : ExtReal E) (hcdf : ∀ v : ℝ, E.pearson3Cdf (.fin v) (.fin 0) (.fin 0) (.fin 0) = .nan) (z : ℝ) (hz : E.normPpf (.fin 0.0005) = .fin z)
    (x : List (Option ℝ)) (hx : ∀ a, some a ∈ x → a = 0) (k : ℕ) (h1 : 1 ≤ k) (h2 : k ≤ x.length) (per : Periodicity) (hper : per ≠ .other)
    (ds cs ce : ℤ) (c1 : ds ≤ cs) (c2 : cs ≤ ce) (c3 : ce < ds + yearsOf x.length per.steps) (hsome : ∃ a, some a ∈ x) :
    ∃ out, spi E (Arr.of1d (x.map toFl)) k .pearson ds cs ce per none = .ok out ∧ ∀ t v, accum x k t = some v → out[t]? = some (.fin (clamp z)) := by
  have hx0 : ∀ a, some a ∈ x → 0 ≤ a := fun a ha => (hx a ha).ge
  have hwet : ∀ c, wet (sample x k per.steps c (cs - ds).toNat (ce - cs + 1).toNat) = [] := by
    intro c
    unfold wet
    rw [List.filter_eq_nil_iff]
    intro v hv
    obtain ⟨y, _, hy⟩ := List.mem_filterMap.1 hv
    rw [accum_zero x hx k _ v hy]
    simp
  have hnn : ∃ v ∈ (Arr.of1d (x.map toFl)).data, isNan v = false := by
    obtain ⟨a, ha⟩ := hsome
    exact ⟨toFl (some a), List.mem_map.2 ⟨_, ha, rfl⟩, rfl⟩
  rcases C10_pearson_partial E (Arr.of1d (x.map toFl)) k ds cs ce per (.inl rfl)
      (by cases per with | other => exact absurd rfl hper | monthly => exact .inl rfl | daily => exact .inr rfl) (by exact_mod_cast h1) hnn with ⟨out, ho, _⟩ | he
  · refine ⟨out, ho, fun t v hv => ?_⟩
    have hp := steps_pos per hper
    refine (C141_cases E hE hcdf z hz x hx0 k h1 h2 per ds cs ce c1 c2 c3 hsome out ho (t % per.steps) (Nat.mod_lt _ hp) (by rw [hwet]; simp) t v rfl hv).2 ?_
    rw [accum_zero x hx k t v hv]
    norm_num
  · exfalso
    obtain ⟨c, _, h4, _⟩ := (C10_pearson_exact E hR x hx0 k h1 h2 per hper ds cs ce c1 c2 c3 hsome).1 he
    rw [hwet] at h4
    simp at h4

/-! ## Concrete cases -/

theorem sigmoid_cdf (v : ℝ) : sigmoidExt.pearson3Cdf (.fin v) (.fin 0) (.fin 0) (.fin 0) = .nan := by
  show (if (0 : ℝ) = 0 then Fl.nan else Fl.fin (sigmoid v 0 0 0)) = _
  rw [if_pos rfl]

theorem sigmoid_quantile : sigmoidExt.normPpf (.fin 0.0005) = .fin (8 * (0.0005 - 1 / 2)) := realExt_Φ 0.0005 (by norm_num) (by norm_num)

/-- five years without rain: every month gets -3.09 -/
example : ∃ out, spi sigmoidExt (Arr.of1d ((List.replicate 60 (some 0)).map toFl)) (1 : ℕ) .pearson 2000 2000 2004 .monthly none = .ok out ∧ ∀ t < 60, out[t]? = some (.fin (-3.09)) := by
  obtain ⟨out, ho, hv⟩ := C141_fails sigmoidExt sigmoidExt_nan sigmoidExt_real sigmoid_cdf _ sigmoid_quantile (List.replicate 60 (some 0)) (by
      intro a ha
      simpa using List.eq_of_mem_replicate ha) 1 le_rfl (by simp) .monthly (by decide) 2000 2000 2004 le_rfl (by norm_num) (by simp [yearsOf, Periodicity.steps]) ⟨0, by simp⟩
  refine ⟨out, ho, fun t ht => ?_⟩
  have := hv t 0 (by
    unfold accum
    dsimp only
    rw [List.drop_replicate, List.take_replicate, if_pos]
    · rw [show min 1 (60 - (t + 1 - 1)) = 1 by omega]
      simp
    · refine ⟨by omega, by simpa using ht, ?_⟩
      rw [List.all_replicate]
      simp)
  rw [this]
  unfold clamp
  norm_num

/-- a calendar step with three positive accumulations: 2 mm in January 2002 is without index, the dry January 2000 gets -3.09 -/
example : ∃ x : List (Option ℝ), (∀ a, some a ∈ x → 0 ≤ a) ∧ accum x 1 0 = some 0 ∧ accum x 1 24 = some 2 ∧ (wet (sample x 1 12 0 0 4)).length < 4 ∧
    ∃ out, spi sigmoidExt (Arr.of1d (x.map toFl)) (1 : ℕ) .pearson 2000 2000 2003 .monthly none = .ok out ∧ out[0]? = some (.fin (-3.09)) ∧ out[24]? = some .nan := by
  have hx0 : ∀ a, some a ∈ steps5.take 48 → 0 ≤ a := fun a ha => steps5_nonneg a (List.mem_of_mem_take ha)
  have hl : (steps5.take 48).length = 48 := by rw [List.length_take, steps5_length]; rfl
  have hacc : ∀ t, t < 48 → accum (steps5.take 48) 1 t = some (if t < 12 then 0 else 2 ^ (t / 12 - 1) : ℝ) := by
    intro t ht
    rw [← accum_steps5 t (by omega)]
    unfold accum
    dsimp only
    rw [hl, steps5_length, List.drop_take, List.take_take, show min 1 (48 - (t + 1 - 1)) = 1 by omega]
    simp only [ht, show t < 60 by omega, true_and]
  have hw : ∀ c < 12, sample (steps5.take 48) 1 12 c 0 4 = [0, 1, 2, 4] := by
    intro c hc
    unfold sample
    rw [show List.range 4 = [0, 1, 2, 3] from rfl]
    simp only [List.filterMap_cons, List.filterMap_nil]
    rw [hacc _ (by omega), hacc _ (by omega), hacc _ (by omega), hacc _ (by omega), if_pos (by omega), if_neg (by omega), if_neg (by omega), if_neg (by omega),
      show ((0 + 1) * 12 + c) / 12 = 1 by omega, show ((0 + 2) * 12 + c) / 12 = 2 by omega, show ((0 + 3) * 12 + c) / 12 = 3 by omega]
    norm_num
  have hlt : ∀ c < 12, (wet (sample (steps5.take 48) 1 12 c 0 4)).length < 4 := by
    intro c hc
    rw [hw c hc]
    unfold wet
    norm_num
  have hsome : ∃ a, some a ∈ steps5.take 48 := ⟨0, by
    refine List.mem_of_getElem? (i := 0) ?_
    rw [List.getElem?_take_of_lt (by norm_num)]
    unfold steps5
    simp⟩
  refine ⟨steps5.take 48, hx0, by rw [hacc 0 (by norm_num)]; norm_num, by rw [hacc 24 (by norm_num)]; norm_num, hlt 0 (by norm_num), ?_⟩
  have hnn : ∃ v ∈ (Arr.of1d ((steps5.take 48).map toFl)).data, isNan v = false := by
    obtain ⟨a, ha⟩ := hsome
    exact ⟨toFl (some a), List.mem_map.2 ⟨_, ha, rfl⟩, rfl⟩
  have c3 : (2003 : ℤ) < 2000 + yearsOf (steps5.take 48).length Periodicity.monthly.steps := by rw [hl]; norm_num [yearsOf, Periodicity.steps]
  rcases C10_pearson_partial sigmoidExt (Arr.of1d ((steps5.take 48).map toFl)) (1 : ℕ) 2000 2000 2003 .monthly (.inl rfl) (.inl rfl) (by norm_num) hnn with ⟨out, ho, _⟩ | he
  · refine ⟨out, ho, ?_, ?_⟩
    · rw [(C141_cases sigmoidExt sigmoidExt_nan sigmoid_cdf _ sigmoid_quantile _ hx0 1 le_rfl (by rw [hl]; norm_num) .monthly 2000 2000 2003 le_rfl (by norm_num) c3 hsome out ho 0 (by decide)
        (hlt 0 (by norm_num)) 0 0 rfl (by rw [hacc 0 (by norm_num)]; norm_num)).2 (by norm_num)]
      unfold clamp
      norm_num
    · exact (C141_cases sigmoidExt sigmoidExt_nan sigmoid_cdf _ sigmoid_quantile _ hx0 1 le_rfl (by rw [hl]; norm_num) .monthly 2000 2000 2003 le_rfl (by norm_num) c3 hsome out ho 0 (by decide)
        (hlt 0 (by norm_num)) 24 2 rfl (by rw [hacc 24 (by norm_num)]; norm_num)).1 (by norm_num)
  · exfalso
    obtain ⟨c, hc, h4, _⟩ := (C10_pearson_exact sigmoidExt sigmoidExt_real _ hx0 1 le_rfl (by rw [hl]; norm_num) .monthly (by decide) 2000 2000 2003 le_rfl (by norm_num) c3 hsome).1 he
    have := hlt c hc
    exact absurd h4 (not_le.2 this)

end CI.Props
