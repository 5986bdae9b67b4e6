import Verif.Props.SpiFit

/-!
# C15, C16, C17: order, zeros and negative values
-/

namespace CI.Props

variable {F : Type} [FloatOps F] [FloatLaws F]

/-! ## C15 -/

theorem npClip_mono (lo hi x y : F) (h : fle lo hi = true) (hxy : fle x y = true) :
    fle (npClip lo hi x) (npClip lo hi y) = true := by
  have hx := ne_nan_of_fle_left hxy
  have hy := ne_nan_of_fle_right hxy
  have hlo := ne_nan_of_fle_left h
  have hhi := ne_nan_of_fle_right h
  have ix := (isNan_eq_false_iff x).2 hx
  have iy := (isNan_eq_false_iff y).2 hy
  unfold npClip
  simp only [ix, iy, Bool.false_eq_true, if_false]
  by_cases h1 : flt x lo = true
  · rw [if_pos h1]
    by_cases h2 : flt y lo = true
    · rw [if_pos h2]; exact FloatLaws.fle_refl _ hlo
    · rw [if_neg h2]
      by_cases h3 : flt hi y = true
      · rw [if_pos h3]; exact h
      · rw [if_neg h3]; exact fle_of_not_flt hy hlo (by simpa using h2)
  · rw [if_neg h1]
    have h1' := fle_of_not_flt hx hlo (by simpa using h1)
    have h2 : flt y lo = false := not_flt_of_fle (FloatLaws.fle_trans _ _ _ h1' hxy)
    rw [h2]
    simp only [Bool.false_eq_true, if_false]
    by_cases h3 : flt hi x = true
    · rw [if_pos h3, if_pos (flt_of_flt_of_fle h3 hxy)]; exact FloatLaws.fle_refl _ hhi
    · rw [if_neg h3]
      by_cases h4 : flt hi y = true
      · rw [if_pos h4]; exact fle_of_not_flt hhi hx (by simpa using h3)
      · rw [if_neg h4]; exact hxy

theorem npClip_ne_nan (lo hi x : F) (h : npClip lo hi x ≠ nan) : x ≠ nan := by
  rintro rfl; exact h (npClip_nan _ _)

/-- a ratio of counts is at most one, so its complement is not negative -/
theorem one_sub_ratio_nonneg [FloatMono F] (k n : Nat) (hkn : k ≤ n) (hn : 0 < n) (hn' : n ≤ 2 ^ 53)
    (h : (lit 1 - lit (k : ℚ) / lit (n : ℚ) : F) ≠ nan) : fle (lit 0) (lit 1 - lit (k : ℚ) / lit (n : ℚ) : F) = true := by
  have hp0 : (lit (k : ℚ) / lit (n : ℚ) : F) ≠ nan := by
    intro hp; rw [hp] at h; simp at h
  have hpos : flt (lit 0 : F) (lit (n : ℚ)) = true := by
    apply FloatLaws.lit_pos
    have : (1 : ℚ) ≤ n := by exact_mod_cast hn
    refine le_trans ?_ this
    norm_num
  have hone : (lit (n : ℚ) / lit (n : ℚ) : F) = lit 1 := FloatMono.lit_div_self n hn hn'
  have h1 : fle (lit (k : ℚ) / lit (n : ℚ) : F) (lit (n : ℚ) / lit (n : ℚ) : F) = true := by
    apply FloatMono.div_le_div_right
    · exact FloatLaws.lit_mono _ _ (by exact_mod_cast hkn)
    · exact hpos
    · exact hp0
    · rw [hone]; exact FloatLaws.lit_ne_nan 1
  rw [hone] at h1
  have := FloatMono.sub_le_sub_left _ _ (lit 1 : F) h1 h (by rw [FloatMono.one_sub_one]; exact FloatLaws.lit_ne_nan 0)
  rwa [FloatMono.one_sub_one] at this

/-- the probability of zero used by the gamma transform is at most one -/
theorem one_sub_p0_nonneg [FloatMono F] (n p j : Nat) (data : List F) (hj : j < p) (hl : data.length = n * p)
    (hn : 0 < n) (hn' : n ≤ 2 ^ 53) (h : (lit 1 - p0Col n (stride p j data) : F) ≠ nan) :
    fle (lit 0) (lit 1 - p0Col n (stride p j data) : F) = true := by
  have hc : (stride p j data).countP (fun x => feq x (lit 0)) ≤ n := by
    rw [← stride_length n p j data hj hl]; exact List.countP_le_length
  exact one_sub_ratio_nonneg _ n hc hn hn' h

/-- **C15 (gamma).** Within one calendar step a larger accumulated value (`scale_values`) never gets a smaller gamma SPI.
Holds for rounded arithmetic (`FloatMono`), for every scale, for computed and for supplied parameters. -/
theorem C15_gamma [FloatMono F] (E : Ext F) (hE : ExtNan E) (hM : ExtMono E) (values acc : Arr F) (scale ds cs ce : Int)
    (per : Periodicity) (fp : Option (FitDict F)) (out : List F)
    (hx : ∃ v ∈ values.data, isNan v = false) (hs : scaleValues values scale per = .ok acc)
    (hsize : acc.data.length ≤ 2 ^ 53) (h : spi E values scale .gamma ds cs ce per fp = .ok out)
    (i k : Nat) (hik : i % per.steps = k % per.steps) (a b u v : F)
    (ha : acc.data[i]? = some a) (hb : acc.data[k]? = some b) (hab : fle a b = true)
    (hu : out[i]? = some u) (hv : out[k]? = some v) (hun : u ≠ nan) (hvn : v ≠ nan) : fle u v = true := by
  obtain ⟨hper, l1, n, t, e1, hl, _, ht, _, hout⟩ := spi_scaled E hE _ acc _ _ _ _ _ _ _ _ hx hs h
  clear hs e1
  generalize acc.data = d at *
  have hp := steps_pos per hper
  have hi := (List.getElem?_eq_some_iff.1 hu).1
  have hk := (List.getElem?_eq_some_iff.1 hv).1
  have hsi := (List.getElem?_eq_some_iff.1 ha).1
  have hm : i % per.steps < per.steps := Nat.mod_lt _ hp
  have hn0 : 0 < n := by
    rcases Nat.eq_zero_or_pos n with h0 | h0
    · subst h0; omega
    · exact h0
  have hn' : n ≤ 2 ^ 53 := by
    have h1 : n * 1 ≤ n * per.steps := Nat.mul_le_mul_left _ hp
    omega
  unfold distTransform at ht
  simp only [bind, Except.bind] at ht
  cases hg : getGammaArgs fp with
  | error e => rw [hg] at ht; cases ht
  | ok ab =>
    rw [hg] at ht
    rw [hout i (by omega), gamma_value E hE n _ ds cs ce per _ _ t hper hl ht i a ha] at hu
    rw [hout k (by omega), gamma_value E hE n _ ds cs ce per _ _ t hper hl ht k b hb, ← hik] at hv
    simp only [Option.map_some, Option.some.injEq] at hu hv
    subst hu hv
    have g1 := npClip_ne_nan _ _ _ hun
    have g2 := npClip_ne_nan _ _ _ hvn
    apply npClip_mono _ _ _ _ (FloatLaws.lit_mono _ _ (by norm_num))
    have hza : zeroToNan a = a := by
      unfold zeroToNan; split
      · rename_i hz; exfalso; apply g1; unfold zeroToNan; rw [if_pos hz, gammaTransform1_nan E hE]
      · rfl
    have hzb : zeroToNan b = b := by
      unfold zeroToNan; split
      · rename_i hz; exfalso; apply g2; unfold zeroToNan; rw [if_pos hz, gammaTransform1_nan E hE]
      · rfl
    rw [hza] at g1 ⊢
    rw [hzb] at g2 ⊢
    have hpos := one_sub_p0_nonneg n per.steps (i % per.steps) d hm hl hn0 hn'
    generalize gammaParamAt E n per.steps _ ds cs ce ab.1 ab.2 (i % per.steps) = P at g1 g2 ⊢
    generalize p0Col n (stride per.steps (i % per.steps) d) = p0 at g1 g2 hpos ⊢
    unfold gammaTransform1 at g1 g2 ⊢
    have k1 : p0 + (lit 1 - p0) * E.gammaCdf a P.1 P.2 ≠ nan := fun hc => g1 (by rw [hc]; exact hE.normPpf_nan)
    have k2 : p0 + (lit 1 - p0) * E.gammaCdf b P.1 P.2 ≠ nan := fun hc => g2 (by rw [hc]; exact hE.normPpf_nan)
    have m1 : (lit 1 - p0) * E.gammaCdf a P.1 P.2 ≠ nan := fun hc => k1 (by rw [hc]; simp)
    have m2 : (lit 1 - p0) * E.gammaCdf b P.1 P.2 ≠ nan := fun hc => k2 (by rw [hc]; simp)
    have c1 : E.gammaCdf a P.1 P.2 ≠ nan := fun hc => m1 (by rw [hc]; simp)
    have c2 : E.gammaCdf b P.1 P.2 ≠ nan := fun hc => m2 (by rw [hc]; simp)
    have q1 : lit 1 - p0 ≠ nan := fun hc => m1 (by rw [hc]; simp)
    refine hM.normPpf_mono _ _ ?_ g1 g2
    refine FloatMono.add_le_add_left _ _ _ ?_ k1 k2
    refine FloatMono.mul_le_mul_left _ _ _ ?_ (hpos q1) m1 m2
    exact hM.gammaCdf_mono _ _ _ _ hab c1 c2

example : okAnd (scaleValues (Arr.of1d five1) 1 .monthly) (fun acc => decide (acc.data[1]? = some (.fin 9) ∧ acc.data[13]? = some (.fin 4))) = true
   ∧ okAnd (spi toyExt (Arr.of1d five1) 1 .gamma 1990 1990 1994 .monthly none)
      (fun out => decide (out[1]? ≠ some .nan ∧ out[13]? ≠ some .nan ∧ out[1]? ≠ out[13]?)) = true := by
  decide +kernel

/-- one value through the Pearson transform is non-decreasing if the record has no zeros in the calibration -/
theorem pearsonTransform1_mono_p0 [FloatMono F] (E : Ext F) (hE : ExtNan E) (hM : ExtMono E) (q : PearsonParams F)
    (hq : q.probZero = lit 0) (x y : F) (hxy : fle x y = true)
    (hu : pearsonTransform1 E q x ≠ nan) (hv : pearsonTransform1 E q y ≠ nan) :
    fle (npClip (lit (-3.09)) (lit 3.09) (pearsonTransform1 E q x))
      (npClip (lit (-3.09)) (lit 3.09) (pearsonTransform1 E q y)) = true := by
  have hlohi : fle (lit (-3.09) : F) (lit 3.09) = true := FloatLaws.lit_mono _ _ (by norm_num)
  -- the transform is `normPpf (clip01 (0 + 1 * v))`
  have hval : ∀ z, pearsonTransform1 E q z =
      E.normPpf (npClip (lit 0) (lit 1) (lit 0 + pearsonProb1 E q z)) := by
    intro z; unfold pearsonTransform1; rw [hq, FloatMono.one_sub_zero, FloatMono.one_mul]
  have hlow : ∀ z, pearsonProb1 E q z = lit 0.0005 → pearsonTransform1 E q z = E.normPpf (lit 0.0005) := by
    intro z hz
    rw [hval, hz, FloatMono.zero_add_lit _ (by norm_num)]
    unfold npClip
    rw [isNan_lit, not_flt_of_fle (FloatLaws.lit_mono 0 0.0005 (by norm_num)),
      not_flt_of_fle (FloatLaws.lit_mono 0.0005 1 (by norm_num))]
    simp
  have hhigh : ∀ z, pearsonProb1 E q z = lit 0.9995 → pearsonTransform1 E q z = E.normPpf (lit 0.9995) := by
    intro z hz
    rw [hval, hz, FloatMono.zero_add_lit _ (by norm_num)]
    unfold npClip
    rw [isNan_lit, not_flt_of_fle (FloatLaws.lit_mono 0 0.9995 (by norm_num)),
      not_flt_of_fle (FloatLaws.lit_mono 0.9995 1 (by norm_num))]
    simp
  -- clipping a low value gives the minimum, clipping a high value the maximum
  have clow : npClip (lit (-3.09)) (lit 3.09) (E.normPpf (lit 0.0005)) = (lit (-3.09) : F) ∨
      fle (npClip (lit (-3.09)) (lit 3.09) (E.normPpf (lit 0.0005))) (lit (-3.09)) = true := by
    right
    have h := npClip_mono (lit (-3.09)) (lit 3.09) _ _ hlohi hM.normPpf_low
    have e : npClip (lit (-3.09)) (lit 3.09) (lit (-3.09) : F) = lit (-3.09) := by
      unfold npClip
      rw [isNan_lit, flt_irrefl, not_flt_of_fle hlohi]; simp
    rwa [e] at h
  have chigh : fle (lit 3.09 : F) (npClip (lit (-3.09)) (lit 3.09) (E.normPpf (lit 0.9995))) = true := by
    have h := npClip_mono (lit (-3.09)) (lit 3.09) _ _ hlohi hM.normPpf_high
    have e : npClip (lit (-3.09)) (lit 3.09) (lit 3.09 : F) = lit 3.09 := by
      unfold npClip
      rw [isNan_lit, not_flt_of_fle hlohi, flt_irrefl]; simp
    rwa [e] at h
  have clow' : fle (npClip (lit (-3.09)) (lit 3.09) (E.normPpf (lit 0.0005))) (lit (-3.09) : F) = true := by
    rcases clow with h | h
    · rw [h]; exact FloatLaws.fle_refl _ (FloatLaws.lit_ne_nan _)
    · exact h
  have range : ∀ z : F, z ≠ nan → fle (lit (-3.09)) (npClip (lit (-3.09)) (lit 3.09) z) = true ∧
      fle (npClip (lit (-3.09)) (lit 3.09) z) (lit 3.09) = true := by
    intro z hz
    rcases npClip_range (lit (-3.09)) (lit 3.09) z hlohi with h | h
    · exfalso
      rw [FloatLaws.isNan_iff] at h
      unfold npClip at h
      rw [(isNan_eq_false_iff z).2 hz] at h
      simp only [Bool.false_eq_true, if_false] at h
      split at h
      · exact FloatLaws.lit_ne_nan _ h
      · split at h
        · exact FloatLaws.lit_ne_nan _ h
        · exact hz h
    · exact h
  by_cases hx1 : pearsonProb1 E q x = lit 0.0005
  · rw [hlow x hx1]; exact FloatLaws.fle_trans _ _ _ clow' (range _ hv).1
  by_cases hy1 : pearsonProb1 E q y = lit 0.9995
  · rw [hhigh y hy1]; exact FloatLaws.fle_trans _ _ _ (range _ hu).2 chigh
  -- otherwise neither value is masked
  have hz0 : flt (lit 0 : F) (lit 0) = false := flt_irrefl _
  have hz1 : fle (lit 0 : F) (lit 0) = true := FloatLaws.fle_refl _ (FloatLaws.lit_ne_nan _)
  have hprob : ∀ z, pearsonProb1 E q z =
      if (fle (minimumPossible q.skew q.loc q.scale) z && flt q.skew (lit 0)) = true then lit 0.9995
      else if (fle z (minimumPossible q.skew q.loc q.scale) && fle (lit 0) q.skew) = true then lit 0.0005
      else if flt z (lit 0.0005) = true then lit 0.0005 else E.pearson3Cdf z q.skew q.loc q.scale := by
    intro z
    unfold pearsonProb1
    simp only [hq, hz0, hz1, Bool.and_true, Bool.and_false, Bool.false_eq_true, if_false]
  have hBy : (fle (minimumPossible q.skew q.loc q.scale) y && flt q.skew (lit 0)) = false := by
    rw [← Bool.not_eq_true]; intro hc; apply hy1; rw [hprob, if_pos hc]
  have hBx : (fle (minimumPossible q.skew q.loc q.scale) x && flt q.skew (lit 0)) = false := by
    rw [← Bool.not_eq_true]; intro hc
    rw [Bool.and_eq_true] at hc
    rw [FloatLaws.fle_trans _ _ _ hc.1 hxy, hc.2] at hBy; cases hBy
  have hAx : (fle x (minimumPossible q.skew q.loc q.scale) && fle (lit 0) q.skew) = false := by
    rw [← Bool.not_eq_true]; intro hc; apply hx1; rw [hprob, hBx, if_neg (by simp), if_pos hc]
  have hTx : flt x (lit 0.0005) = false := by
    rw [← Bool.not_eq_true]; intro hc; apply hx1
    rw [hprob, hBx, if_neg (by simp), hAx, if_neg (by simp), if_pos hc]
  have hAy : (fle y (minimumPossible q.skew q.loc q.scale) && fle (lit 0) q.skew) = false := by
    rw [← Bool.not_eq_true]; intro hc
    rw [Bool.and_eq_true] at hc
    rw [FloatLaws.fle_trans _ _ _ hxy hc.1, hc.2] at hAx; cases hAx
  have hTy : flt y (lit 0.0005) = false := by
    rw [← Bool.not_eq_true]; intro hc
    rw [flt_of_fle_of_flt hxy hc] at hTx; cases hTx
  have vx : pearsonProb1 E q x = E.pearson3Cdf x q.skew q.loc q.scale := by
    rw [hprob, hBx, hAx, hTx]; simp
  have vy : pearsonProb1 E q y = E.pearson3Cdf y q.skew q.loc q.scale := by
    rw [hprob, hBy, hAy, hTy]; simp
  apply npClip_mono _ _ _ _ hlohi
  rw [hval, vx] at hu ⊢
  rw [hval, vy] at hv ⊢
  have k1 : lit 0 + E.pearson3Cdf x q.skew q.loc q.scale ≠ nan := fun hc => hu (by rw [hc, npClip_nan, hE.normPpf_nan])
  have k2 : lit 0 + E.pearson3Cdf y q.skew q.loc q.scale ≠ nan := fun hc => hv (by rw [hc, npClip_nan, hE.normPpf_nan])
  refine hM.normPpf_mono _ _ (npClip_mono _ _ _ _ (FloatLaws.lit_mono _ _ (by norm_num)) ?_) hu hv
  refine FloatMono.add_le_add_left _ _ _ (hM.pearson3Cdf_mono _ _ _ _ _ hxy ?_ ?_) k1 k2
  · exact fun hc => k1 (by rw [hc]; simp)
  · exact fun hc => k2 (by rw [hc]; simp)

/-- the value lies on the proper side of the bound of the fitted Pearson distribution -/
def insideBound (q : PearsonParams F) (x : F) : Prop :=
  ¬(fle x (minimumPossible q.skew q.loc q.scale) = true ∧ fle (lit 0) q.skew = true) ∧
  ¬(fle (minimumPossible q.skew q.loc q.scale) x = true ∧ flt q.skew (lit 0) = true)

theorem pearsonTransform1_mono_inside [FloatMono F] (E : Ext F) (hE : ExtNan E) (hM : ExtMono E) (q : PearsonParams F)
    (hq : flt (lit 0) q.probZero = true) (hq1 : lit 1 - q.probZero ≠ nan → fle (lit 0) (lit 1 - q.probZero) = true)
    (x y : F) (hxi : insideBound q x) (hyi : insideBound q y) (hxy : fle x y = true)
    (hu : pearsonTransform1 E q x ≠ nan) (hv : pearsonTransform1 E q y ≠ nan) :
    fle (pearsonTransform1 E q x) (pearsonTransform1 E q y) = true := by
  have hp0 : fle q.probZero (lit 0) = false := ((FloatLaws.flt_iff _ _).1 hq).2
  have hprob : ∀ z, insideBound q z → pearsonProb1 E q z =
      if flt z (lit 0.0005) = true then lit 0 else E.pearson3Cdf z q.skew q.loc q.scale := by
    intro z hz
    have h1 : (fle z (minimumPossible q.skew q.loc q.scale) && fle (lit 0) q.skew) = false := by
      rw [← Bool.not_eq_true, Bool.and_eq_true]; exact hz.1
    have h2 : (fle (minimumPossible q.skew q.loc q.scale) z && flt q.skew (lit 0)) = false := by
      rw [← Bool.not_eq_true, Bool.and_eq_true]; exact hz.2
    unfold pearsonProb1
    simp only [hq, hp0, h1, h2, Bool.and_true, Bool.and_false, Bool.false_eq_true, if_false]
  unfold pearsonTransform1 at hu hv ⊢
  have k1 : q.probZero + (lit 1 - q.probZero) * pearsonProb1 E q x ≠ nan :=
    fun hc => hu (by rw [hc, npClip_nan, hE.normPpf_nan])
  have k2 : q.probZero + (lit 1 - q.probZero) * pearsonProb1 E q y ≠ nan :=
    fun hc => hv (by rw [hc, npClip_nan, hE.normPpf_nan])
  have m1 : (lit 1 - q.probZero) * pearsonProb1 E q x ≠ nan := fun hc => k1 (by rw [hc]; simp)
  have m2 : (lit 1 - q.probZero) * pearsonProb1 E q y ≠ nan := fun hc => k2 (by rw [hc]; simp)
  have c1 : pearsonProb1 E q x ≠ nan := fun hc => m1 (by rw [hc]; simp)
  have c2 : pearsonProb1 E q y ≠ nan := fun hc => m2 (by rw [hc]; simp)
  have q1 : lit 1 - q.probZero ≠ nan := fun hc => m1 (by rw [hc]; simp)
  refine hM.normPpf_mono _ _ (npClip_mono _ _ _ _ (FloatLaws.lit_mono _ _ (by norm_num)) ?_) hu hv
  refine FloatMono.add_le_add_left _ _ _ ?_ k1 k2
  refine FloatMono.mul_le_mul_left _ _ _ ?_ (hq1 q1) m1 m2
  rw [hprob x hxi] at c1 ⊢
  rw [hprob y hyi] at c2 ⊢
  by_cases hx : flt x (lit 0.0005) = true
  · rw [if_pos hx]
    by_cases hy : flt y (lit 0.0005) = true
    · rw [if_pos hy]; exact FloatLaws.fle_refl _ (FloatLaws.lit_ne_nan 0)
    · rw [if_neg hy] at c2 ⊢; exact hM.pearson3Cdf_nonneg _ _ _ _ c2
  · have hy : ¬ flt y (lit 0.0005) = true := fun hc => hx (flt_of_fle_of_flt hxy hc)
    rw [if_neg hx] at c1 ⊢
    rw [if_neg hy] at c2 ⊢
    exact hM.pearson3Cdf_mono _ _ _ _ _ hxy c1 c2

omit [FloatLaws F] in
/-- the fitted probability of zero is zero or a ratio of counts -/
theorem timeStepParams_p0 (fit : List F → Res (F × F × F)) (col : List F) (q : PearsonParams F)
    (h : calculateTimeStepParams fit col = .ok q) :
    q.probZero = lit 0 ∨ ∃ z m : Nat, 0 < z ∧ z ≤ m ∧ m ≤ col.length ∧ q.probZero = lit (z : ℚ) / lit (m : ℚ) := by
  unfold calculateTimeStepParams at h
  simp only [bind, Except.bind, pure, Except.pure] at h
  split at h
  · cases h; exact Or.inl rfl
  · rename_i h4
    split at h
    · split at h
      · cases h
      · cases h
        simp only
        split
        · rename_i hz
          right
          refine ⟨_, _, hz, by omega, ?_, rfl⟩
          unfold countZerosAndNonMissings
          exact List.countP_le_length
        · exact Or.inl rfl
    · cases h; exact Or.inl rfl

/-- value of the Pearson SPI in terms of the public functions -/
theorem spi_pearson_value (E : Ext F) (hE : ExtNan E) (values acc : Arr F) (scale ds cs ce : Int)
    (per : Periodicity) (ps : List (PearsonParams F)) (out : List F)
    (hx : ∃ v ∈ values.data, isNan v = false) (hs : scaleValues values scale per = .ok acc)
    (hp : pearsonParameters (lmomentsFit E) acc ds cs ce per = .ok ps)
    (h : spi E values scale .pearson ds cs ce per none = .ok out)
    (i : Nat) (hi : i < values.data.length) (v : F) (hv : acc.data[i]? = some v) :
    per ≠ .other ∧ ∃ q, ps[i % per.steps]? = some q ∧
      (q.probZero = lit 0 ∨ ∃ z m : Nat, 0 < z ∧ z ≤ m ∧ m ≤ acc.data.length ∧ q.probZero = lit (z : ℚ) / lit (m : ℚ)) ∧
      out[i]? = some (npClip (lit (-3.09)) (lit 3.09) (pearsonTransform1 E q v)) := by
  obtain ⟨hper, l1, n, t, e1, hl, _, ht, _, hout⟩ := spi_scaled E hE _ acc _ _ _ _ _ _ _ _ hx hs h
  refine ⟨hper, ?_⟩
  have hm : i % per.steps < per.steps := Nat.mod_lt _ (steps_pos per hper)
  rw [e1, pearsonParameters_2d _ n _ acc.data ds cs ce per hper rfl] at hp
  have hlen := pearsonFits_length _ _ _ _ _ _ _ _ hp
  unfold pearsonFits at hp
  obtain ⟨q, hq1, hq2⟩ := mapM_getElem? _ _ _ hp (i % per.steps) (i % per.steps) (by rw [List.getElem?_range hm])
  refine ⟨q, hq2, ?_, ?_⟩
  · rcases timeStepParams_p0 _ _ _ hq1 with h0 | ⟨z, m, h1, h2, h3, h4⟩
    · exact Or.inl h0
    · refine Or.inr ⟨z, m, h1, h2, le_trans h3 ?_, h4⟩
      unfold stride calibrationValues rowSlice
      rw [List.length_map]
      refine le_trans (List.length_filter_le _ _) ?_
      rw [List.length_zipIdx, slice_length']
      omega
  · rw [hout i hi]
    rcases pearson_value E hE (lmomentsFit E) n acc.data ds cs ce per ⟨none, none, none, none⟩ t hper hl ht i v hv with ⟨ha, hb⟩ | ⟨q', hq', hb⟩
    · have := eq_nan_of_allNan _ ha i v hv
      subst this
      rw [hb, pearsonTransform1_nan E hE]; simp
    · unfold pearsonParamAt at hq'
      simp only [hq1, Except.toOption, Option.some.injEq] at hq'
      rw [hb, hq']; simp

/-- **C15 (Pearson, partial).** Full statement: as for gamma. Proved if the calendar step has probability of zero 0 in the
calibration, or if both accumulated values are inside the bound of the fitted distribution (`insideBound`). Without
this the code is not monotone (`C15_fails_pearson`): a value at or below the lower bound is given probability 0.0005,
more than a value just above the bound. -/
theorem C15_pearson_partial [FloatMono F] (E : Ext F) (hE : ExtNan E) (hM : ExtMono E) (values acc : Arr F)
    (scale ds cs ce : Int) (per : Periodicity) (ps : List (PearsonParams F)) (q : PearsonParams F) (out : List F)
    (hx : ∃ v ∈ values.data, isNan v = false) (hs : scaleValues values scale per = .ok acc)
    (hsize : acc.data.length ≤ 2 ^ 53) (hp : pearsonParameters (lmomentsFit E) acc ds cs ce per = .ok ps)
    (h : spi E values scale .pearson ds cs ce per none = .ok out)
    (i k : Nat) (hik : i % per.steps = k % per.steps) (a b u v : F)
    (ha : acc.data[i]? = some a) (hb : acc.data[k]? = some b) (hab : fle a b = true)
    (hq : ps[i % per.steps]? = some q)
    (hcase : q.probZero = lit 0 ∨ (flt (lit 0) q.probZero = true ∧ insideBound q a ∧ insideBound q b))
    (hu : out[i]? = some u) (hv : out[k]? = some v) (hun : u ≠ nan) (hvn : v ≠ nan) : fle u v = true := by
  have l1 := C10_size E hE _ _ _ _ _ _ _ _ _ h
  have hi := (List.getElem?_eq_some_iff.1 hu).1
  have hk := (List.getElem?_eq_some_iff.1 hv).1
  obtain ⟨_, q1, h1, hp0, o1⟩ := spi_pearson_value E hE values acc scale ds cs ce per ps out hx hs hp h i (by omega) a ha
  obtain ⟨_, q2, h2, _, o2⟩ := spi_pearson_value E hE values acc scale ds cs ce per ps out hx hs hp h k (by omega) b hb
  rw [hq] at h1; cases h1
  rw [← hik, hq] at h2; cases h2
  rw [o1] at hu; cases hu
  rw [o2] at hv; cases hv
  have g1 := npClip_ne_nan _ _ _ hun
  have g2 := npClip_ne_nan _ _ _ hvn
  rcases hcase with h0 | ⟨h0, ia, ib⟩
  · exact pearsonTransform1_mono_p0 E hE hM q h0 a b hab g1 g2
  · apply npClip_mono _ _ _ _ (FloatLaws.lit_mono _ _ (by norm_num))
    refine pearsonTransform1_mono_inside E hE hM q h0 ?_ a b ia ib hab g1 g2
    intro hne
    rcases hp0 with hp0 | ⟨z, m, hz, hzm, hm, hp0⟩
    · rw [hp0, flt_irrefl] at h0; cases h0
    · rw [hp0] at hne ⊢
      exact one_sub_ratio_nonneg z m hzm (by omega) (by omega) hne

example : okAnd (scaleValues (Arr.of1d five1) 1 .monthly) (fun acc =>
      okAnd (pearsonParameters (lmomentsFit toyExt) acc 1990 1990 1994 .monthly) (fun ps =>
        okAnd (spi toyExt (Arr.of1d five1) 1 .pearson 1990 1990 1994 .monthly none) (fun out =>
        decide (acc.data[5]? = some (.fin 15) ∧ acc.data[17]? = some (.fin 4) ∧ (ps.map PearsonParams.probZero)[5]? = some (.fin 0)
          ∧ out[5]? = some (.fin 3.09) ∧ out[17]? = some (.fin 2.4))))) = true := by
  decide +kernel

/-- **C15 is false for Pearson.** Two Januaries with 0.0004 and 0.0005 (mm); the fitted lower bound is 0.0004 and half of
the years are dry: the drier January gets the higher SPI. Special functions: `toyExt`, which satisfies `ExtMono`;
the parameters are supplied by the caller. -/
theorem C15_fails_pearson :
    let x : List (Fl ℚ) := (five1.set 0 (.fin 0.0004)).set 12 (.fin 0.0005)
    let params : FitDict (Fl ℚ) := [("prob_zero", some [.fin 0.5]), ("loc", some [.fin 1.0004]), ("scale", some [.fin 1]),
      ("skew", some [.fin 2])]
    okAnd (spi toyExt (Arr.of1d x) 1 .pearson 1990 1990 1994 .monthly (some params)) (fun out =>
      match out[0]?, out[12]? with
      | some u, some v => flt v u
      | _, _ => false) = true := by decide +kernel

/-- **C15 is false for Pearson**, generally: for every special functions that satisfy the order laws with a strictly
increasing normal quantile, whenever the probability of zero is positive, the drier value lies at or below the lower
bound and the wetter one above it has a fitted probability below 0.0005, the drier value is given the higher index
(exact arithmetic). -/
theorem C15_fails_pearson_general {K : Type} [Field K] [LinearOrder K] [IsStrictOrderedRing K] (E : Ext (Fl K))
    (hppf : ∀ p r : K, 0 ≤ p → p < r → r ≤ 1 → flt (E.normPpf (.fin p)) (E.normPpf (.fin r)) = true)
    (p0 loc scale skew m x y c : K) (hp0 : 0 < p0) (hp1 : p0 < 1) (hskew : 0 < skew)
    (hm : minimumPossible (Fl.fin skew) (.fin loc) (.fin scale) = .fin m) (hx : x ≤ m) (hy : m < y)
    (hy5 : ((0.0005 : ℚ) : K) ≤ y) (hc : E.pearson3Cdf (.fin y) (.fin skew) (.fin loc) (.fin scale) = .fin c)
    (hc0 : 0 ≤ c) (hc5 : c < ((0.0005 : ℚ) : K)) :
    x < y ∧ flt (pearsonTransform1 E ⟨.fin p0, .fin loc, .fin scale, .fin skew⟩ (.fin y))
      (pearsonTransform1 E ⟨.fin p0, .fin loc, .fin scale, .fin skew⟩ (.fin x)) = true := by
  refine ⟨lt_of_le_of_lt hx hy, ?_⟩
  have h5 : ((0.0005 : ℚ) : K) ≤ 1 := by
    have : (0.0005 : ℚ) ≤ 1 := by norm_num
    exact_mod_cast this
  have clip : ∀ r : K, 0 ≤ r → r ≤ 1 → npClip (lit 0) (lit 1) (Fl.fin r) = Fl.fin r := by
    intro r h0 h1
    unfold npClip
    simp [Fl.lit_def, not_lt.2 h0, not_lt.2 h1]
  have vx : pearsonProb1 E ⟨.fin p0, .fin loc, .fin scale, .fin skew⟩ (.fin x) = .fin ((0.0005 : ℚ) : K) := by
    unfold pearsonProb1
    simp only [hm]
    simp [Fl.lit_def, hx, le_of_lt hskew, not_lt.2 (le_of_lt hskew)]
  have vy : pearsonProb1 E ⟨.fin p0, .fin loc, .fin scale, .fin skew⟩ (.fin y) = .fin c := by
    unfold pearsonProb1
    simp only [hm, hc]
    simp only [Fl.lit_def, Fl.fle_fin, Fl.flt_fin, decide_eq_false (not_lt.2 hy5), decide_eq_false (not_le.2 hy),
      Rat.cast_zero, decide_eq_false (not_lt.2 (le_of_lt hskew)), Bool.and_false, Bool.false_and, Bool.false_eq_true,
      if_false]
  unfold pearsonTransform1
  rw [vx, vy]
  simp only [Fl.lit_def, Fl.fin_sub, Fl.fin_mul, Fl.fin_add, Rat.cast_one]
  have b1 : 0 ≤ p0 + (1 - p0) * c := by
    have := mul_nonneg (sub_nonneg.2 hp1.le) hc0; linarith
  have b2 : p0 + (1 - p0) * c < p0 + (1 - p0) * ((0.0005 : ℚ) : K) := by
    have := mul_lt_mul_of_pos_left hc5 (sub_pos.2 hp1); linarith
  have b3 : p0 + (1 - p0) * ((0.0005 : ℚ) : K) ≤ 1 := by
    have := mul_le_mul_of_nonneg_left h5 (sub_nonneg.2 hp1.le); linarith
  have e1 := clip _ b1 (le_trans b2.le b3)
  have e2 := clip _ (le_trans b1 b2.le) b3
  simp only [Fl.lit_def, Rat.cast_one] at e1 e2
  rw [e1, e2]
  exact hppf _ _ b1 b2 b3

/-! ## C16 -/

/-- **C16 is false for gamma**, for every input: a time step whose accumulated precipitation is zero always gets a missing
SPI, whatever the probability of zero (the code replaces zeros by NaN before the transform). -/
theorem C16_fails_gamma (E : Ext F) (hE : ExtNan E) (values acc : Arr F) (scale ds cs ce : Int)
    (per : Periodicity) (fp : Option (FitDict F)) (out : List F)
    (hx : ∃ v ∈ values.data, isNan v = false) (hs : scaleValues values scale per = .ok acc)
    (h : spi E values scale .gamma ds cs ce per fp = .ok out)
    (i : Nat) (hi : i < values.data.length) (z : F) (hz : acc.data[i]? = some z) (hz0 : feq z (lit 0) = true) :
    out[i]? = some nan := by
  obtain ⟨hper, l1, n, t, e1, hl, _, ht, _, hout⟩ := spi_scaled E hE _ acc _ _ _ _ _ _ _ _ hx hs h
  unfold distTransform at ht
  simp only [bind, Except.bind] at ht
  cases hg : getGammaArgs fp with
  | error e => rw [hg] at ht; cases ht
  | ok ab =>
    rw [hg] at ht
    rw [hout i hi, gamma_value E hE n _ ds cs ce per _ _ t hper hl ht i z hz]
    unfold zeroToNan
    rw [if_pos hz0, gammaTransform1_nan E hE]
    simp [npClip_nan]

example : okAnd (scaleValues (Arr.of1d five1z) 1 .monthly) (fun acc => decide (acc.data[48]? = some (.fin 0))) = true ∧
    okAnd (spi toyExt (Arr.of1d five1z) 1 .gamma 1990 1990 1994 .monthly none)
      (fun out => decide (out[48]? = some .nan ∧ out[36]? ≠ some .nan)) = true := by decide +kernel

/-- **C16 (Pearson).** A zero accumulation gets a defined Pearson SPI: the normal quantile of `p0 + (1 - p0) * c` where `p0`
is the probability of zero of the calendar step and `c` is 0, 0.0005 or 0.9995 (0 or 0.0005 unless the fitted
distribution is bounded above by a value <= 0). Exact arithmetic over any ordered field; the only assumption on
the quantile function is that it is defined on [0, 1]. -/
theorem C16_pearson {K : Type} [Field K] [LinearOrder K] [IsStrictOrderedRing K] (E : Ext (Fl K)) (hE : ExtNan E)
    (hppf : ∀ p : K, 0 ≤ p → p ≤ 1 → E.normPpf (.fin p) ≠ .nan) (values acc : Arr (Fl K)) (scale ds cs ce : Int)
    (per : Periodicity) (ps : List (PearsonParams (Fl K))) (out : List (Fl K))
    (hx : ∃ v ∈ values.data, isNan v = false) (hs : scaleValues values scale per = .ok acc)
    (hp : pearsonParameters (lmomentsFit E) acc ds cs ce per = .ok ps)
    (h : spi E values scale .pearson ds cs ce per none = .ok out)
    (i : Nat) (hi : i < values.data.length) (hz : acc.data[i]? = some (.fin 0)) :
    ∃ (q : PearsonParams (Fl K)) (p0 c : K), ps[i % per.steps]? = some q ∧ q.probZero = .fin p0 ∧ 0 ≤ p0 ∧ p0 ≤ 1 ∧
      (c = 0 ∨ c = ((0.0005 : ℚ) : K) ∨
        (c = ((0.9995 : ℚ) : K) ∧ flt q.skew (lit 0) = true ∧ fle (minimumPossible q.skew q.loc q.scale) (lit 0) = true)) ∧
      out[i]? = some (npClip (lit (-3.09)) (lit 3.09) (E.normPpf (.fin (p0 + (1 - p0) * c)))) ∧ out[i]? ≠ some nan := by
  obtain ⟨_, q, hq, hp0, ho⟩ := spi_pearson_value E hE values acc scale ds cs ce per ps out hx hs hp h i hi _ hz
  obtain ⟨p0, hpz, h0, h1⟩ : ∃ p0 : K, q.probZero = .fin p0 ∧ 0 ≤ p0 ∧ p0 ≤ 1 := by
    rcases hp0 with hp0 | ⟨z, m, hz, hzm, _, hp0⟩
    · exact ⟨0, by rw [hp0, Fl.lit_def]; simp, le_refl _, zero_le_one⟩
    · have hm : (0 : K) < m := by exact_mod_cast (by omega : 0 < m)
      refine ⟨(z : K) / m, ?_, by positivity, ?_⟩
      · rw [hp0, Fl.lit_def, Fl.lit_def, Fl.fin_div_of_ne]
        · simp
        · simp only [Rat.cast_natCast]; exact hm.ne'
      · rw [div_le_one hm]; exact_mod_cast hzm
  have e5 : (0 : K) < ((0.0005 : ℚ) : K) := by
    have : (0 : ℚ) < 0.0005 := by norm_num
    exact_mod_cast this
  have e51 : ((0.0005 : ℚ) : K) ≤ 1 := by
    have : (0.0005 : ℚ) ≤ 1 := by norm_num
    exact_mod_cast this
  have e9 : (0 : K) ≤ ((0.9995 : ℚ) : K) := by
    have : (0 : ℚ) ≤ 0.9995 := by norm_num
    exact_mod_cast this
  have e91 : ((0.9995 : ℚ) : K) ≤ 1 := by
    have : (0.9995 : ℚ) ≤ 1 := by norm_num
    exact_mod_cast this
  obtain ⟨c, hc, hcase, hc0, hc1⟩ : ∃ c : K, pearsonProb1 E q (.fin 0) = .fin c ∧ (c = 0 ∨ c = ((0.0005 : ℚ) : K) ∨
        (c = ((0.9995 : ℚ) : K) ∧ flt q.skew (lit 0) = true ∧ fle (minimumPossible q.skew q.loc q.scale) (lit 0) = true)) ∧
      0 ≤ c ∧ c ≤ 1 := by
    have hz5 : flt (Fl.fin (0 : K)) (lit 0.0005) = true := by rw [Fl.lit_def, Fl.flt_fin]; simpa using e5
    have hl0 : (lit 0 : Fl K) = .fin 0 := by rw [Fl.lit_def]; simp
    unfold pearsonProb1
    simp only [hz5, Bool.true_and]
    by_cases hB : (fle (minimumPossible q.skew q.loc q.scale) (Fl.fin 0) && flt q.skew (lit 0)) = true
    · rw [if_pos hB]
      rw [Bool.and_eq_true] at hB
      exact ⟨_, Fl.lit_def _, Or.inr (Or.inr ⟨rfl, hB.2, by rw [hl0]; exact hB.1⟩), e9, e91⟩
    · rw [if_neg hB]
      split
      · exact ⟨_, Fl.lit_def _, Or.inr (Or.inl rfl), e5.le, e51⟩
      · rw [hpz, hl0]
        simp only [Fl.fle_fin, Fl.flt_fin]
        by_cases hle : p0 ≤ 0
        · rw [decide_eq_true hle]
          exact ⟨_, Fl.lit_def _, Or.inr (Or.inl rfl), e5.le, e51⟩
        · rw [decide_eq_false hle, decide_eq_true (not_le.1 hle)]
          exact ⟨0, rfl, Or.inl rfl, le_refl _, zero_le_one⟩
  have hr0 : 0 ≤ p0 + (1 - p0) * c := by
    have := mul_nonneg (sub_nonneg.2 h1) hc0; linarith
  have hr1 : p0 + (1 - p0) * c ≤ 1 := by
    have := mul_le_mul_of_nonneg_left hc1 (sub_nonneg.2 h1); linarith
  have ht : pearsonTransform1 E q (.fin 0) = E.normPpf (.fin (p0 + (1 - p0) * c)) := by
    unfold pearsonTransform1
    rw [hc, hpz]
    have e1 : (lit 1 : Fl K) = .fin 1 := by rw [Fl.lit_def]; simp
    have e0 : (lit 0 : Fl K) = .fin 0 := by rw [Fl.lit_def]; simp
    rw [e1, e0, Fl.fin_sub, Fl.fin_mul, Fl.fin_add]
    unfold npClip
    simp [not_lt.2 hr0, not_lt.2 hr1]
  refine ⟨q, p0, c, hq, hpz, h0, h1, hcase, by rw [ho, ht], ?_⟩
  rw [ho, ht]
  have hne := hppf _ hr0 hr1
  intro hcon
  simp only [Option.some.injEq] at hcon
  unfold npClip at hcon
  rw [(isNan_eq_false_iff _).2 hne] at hcon
  simp only [Bool.false_eq_true, if_false] at hcon
  split at hcon
  · exact FloatLaws.lit_ne_nan _ hcon
  · split at hcon
    · exact FloatLaws.lit_ne_nan _ hcon
    · exact hne hcon

example : (∀ p : ℚ, 0 ≤ p → p ≤ 1 → toyExt.normPpf (.fin p) ≠ .nan) ∧
    okAnd (scaleValues (Arr.of1d five1z) 1 .monthly) (fun acc =>
      okAnd (pearsonParameters (lmomentsFit toyExt) acc 1990 1990 1994 .monthly) (fun ps =>
        okAnd (spi toyExt (Arr.of1d five1z) 1 .pearson 1990 1990 1994 .monthly none) (fun out =>
        decide (acc.data[48]? = some (.fin 0) ∧ (ps.map PearsonParams.probZero)[0]? = some (.fin 0.2) ∧
          out[48]? ≠ some .nan)))) = true := by
  refine ⟨?_, by decide +kernel⟩
  intro p h0 h1
  simp only [toyExt, h0, h1, and_self, if_true]
  intro hc; cases hc

/-! ## C17 -/

/-- a negative value replaced by zero -/
def nonneg (x : F) : F := if flt x (lit 0) then lit 0 else x

theorem clipNeg_eq_nonneg (x : List F) (hn : ∀ v ∈ x, isNan v = false) : clipNeg x = x.map nonneg := by
  have hmap : x.map (npClipMin (lit 0)) = x.map nonneg := by
    apply List.map_congr_left
    intro v hv
    unfold npClipMin nonneg; rw [hn v hv]; simp
  by_cases hneg : ∃ v ∈ x, flt v (lit 0) = true
  · obtain ⟨v, hv, hv0⟩ := hneg
    have hle : ∀ (l : List F) (m : F), isNan m = false → (∀ w ∈ l, isNan w = false) →
        (fle (l.foldl (fun m y => if flt y m then y else m) m) m = true ∧
        ∀ w ∈ l, fle (l.foldl (fun m y => if flt y m then y else m) m) w = true) := by
      intro l
      induction l with
      | nil => intro m hm _; exact ⟨FloatLaws.fle_refl _ ((isNan_eq_false_iff _).1 hm), by simp⟩
      | cons a l ih =>
        intro m hm hl
        simp only [List.foldl_cons]
        have ha := hl a (by simp)
        have hm' := (isNan_eq_false_iff _).1 hm
        have ha' := (isNan_eq_false_iff _).1 ha
        by_cases hc : flt a m = true
        · rw [if_pos hc]
          obtain ⟨i1, i2⟩ := ih a ha (fun w hw => hl w (by simp [hw]))
          refine ⟨FloatLaws.fle_trans _ _ _ i1 (fle_of_flt hc), ?_⟩
          intro w hw
          rcases List.mem_cons.1 hw with rfl | hw
          · exact i1
          · exact i2 w hw
        · rw [if_neg hc]
          obtain ⟨i1, i2⟩ := ih m hm (fun w hw => hl w (by simp [hw]))
          refine ⟨i1, ?_⟩
          intro w hw
          rcases List.mem_cons.1 hw with rfl | hw
          · exact FloatLaws.fle_trans _ _ _ i1 (fle_of_not_flt ha' hm' (by simpa using hc))
          · exact i2 w hw
    unfold clipNeg
    cases x with
    | nil => simp at hv
    | cons a l =>
      unfold amin
      have hany : (a :: l).any isNan = false := by
        rw [List.any_eq_false]; intro w hw; rw [hn w hw]; simp
      simp only [hany, Bool.false_eq_true, if_false]
      obtain ⟨i1, i2⟩ := hle l a (hn a (by simp)) (fun w hw => hn w (by simp [hw]))
      have : flt (l.foldl (fun m y => if flt y m then y else m) a) (lit 0) = true := by
        rcases List.mem_cons.1 hv with rfl | hv
        · exact flt_of_fle_of_flt i1 hv0
        · exact flt_of_fle_of_flt (i2 v hv) hv0
      rw [this, if_pos rfl, hmap]
  · push Not at hneg
    have h0 : ∀ v ∈ x, flt v (lit 0) = false := fun v hv => by simpa using hneg v hv
    rw [clipNeg_id x h0]
    symm
    conv_rhs => rw [← List.map_id x]
    apply List.map_congr_left
    intro v hv
    unfold nonneg; rw [h0 v hv]; simp

theorem nonneg_nonneg (x : List F) : ∀ v ∈ x.map nonneg, flt v (lit 0) = false := by
  intro v hv
  obtain ⟨w, _, rfl⟩ := List.mem_map.1 hv
  unfold nonneg
  split
  · exact flt_irrefl _
  · rename_i h; simpa using h

theorem nonneg_isNan (x : F) : isNan (nonneg x) = isNan x := by
  unfold nonneg; split
  · rename_i h
    rw [isNan_lit]
    have : x ≠ nan := by rintro rfl; simp at h
    exact ((isNan_eq_false_iff x).2 this).symm
  · rfl

theorem allNan_map_nonneg (x : List F) : allNan (x.map nonneg) = allNan x := by
  unfold allNan
  rw [List.all_map]
  congr 1
  funext v
  exact nonneg_isNan v

/-- **C17 (SPI, partial).** Full statement: `spi` of a series equals `spi` of the series with its negative values
replaced by zero. Proved for series without missing values; with a missing value the code does not clip
(`C17_fails`). -/
theorem C17_spi_partial (E : Ext F) (values : Arr F) (scale : Int) (dist : Distribution) (ds cs ce : Int)
    (per : Periodicity) (fp : Option (FitDict F)) (hn : ∀ v ∈ values.data, isNan v = false) :
    spi E values scale dist ds cs ce per fp =
      spi E ⟨values.shape, values.data.map nonneg⟩ scale dist ds cs ce per fp := by
  by_cases hdim : values.shape.length = 2 ∨ values.shape.length = 1
  swap
  · unfold spi; simp only [if_neg hdim]
  by_cases he : values.data = []
  · rw [he]
    obtain ⟨sh, d⟩ := values
    simp only at he
    subst he
    rfl
  have ha : allNan values.data = false := by
    cases hd : values.data with
    | nil => exact absurd hd he
    | cons a l => exact allNan_false ⟨a, by simp, hn a (by simp [hd])⟩
  rw [spi_eq E values scale dist ds cs ce per fp hdim ha,
    spi_eq E ⟨values.shape, values.data.map nonneg⟩ scale dist ds cs ce per fp hdim (by rw [allNan_map_nonneg]; exact ha)]
  simp only [clipNeg_eq_nonneg values.data hn, clipNeg_id _ (nonneg_nonneg values.data), List.length_map]

/-- **C17 (SPEI, partial).** The same for the precipitation argument of `spei`. -/
theorem C17_spei_partial (E : Ext F) (precips pet : Arr F) (scale : Int) (dist : Distribution) (per : Periodicity)
    (ds cs ce : Int) (fp : Option (FitDict F)) (hne : precips.data ≠ [])
    (hn : ∀ v ∈ precips.data, isNan v = false) :
    spei E precips pet scale dist per ds cs ce fp =
      spei E ⟨precips.shape, precips.data.map nonneg⟩ pet scale dist per ds cs ce fp := by
  have ha : allNan precips.data = false := by
    cases hd : precips.data with
    | nil => exact absurd hd hne
    | cons a l => exact allNan_false ⟨a, by simp, hn a (by simp [hd])⟩
  obtain ⟨m, hm⟩ := amin_ok _ hne
  obtain ⟨m', hm'⟩ := amin_ok (precips.data.map nonneg) (by simpa using hne)
  have e1 : (if flt m (lit 0) then precips.data.map (npClipMin (lit 0)) else precips.data) = precips.data.map nonneg := by
    have := clipNeg_eq_nonneg precips.data hn
    unfold clipNeg at this; rw [hm] at this; exact this
  have e2 : (if flt m' (lit 0) then (precips.data.map nonneg).map (npClipMin (lit 0)) else precips.data.map nonneg) =
      precips.data.map nonneg := by
    have := clipNeg_id _ (nonneg_nonneg precips.data)
    unfold clipNeg at this; rw [hm'] at this; exact this
  unfold spei
  simp only [allNan_map_nonneg, ha, List.length_map, Bool.false_eq_true, if_false, bind, Except.bind, hm, hm', e1, e2]

/-- `five1` with one negative value, and additionally a missing value -/
def fiveNeg : List (Fl ℚ) := five1.set 14 (.fin (-5))
def fiveNegNan : List (Fl ℚ) := fiveNeg.set 0 .nan

example : (∀ v ∈ fiveNeg, isNan v = false) ∧ fiveNeg ≠ fiveNeg.map nonneg ∧
    okAnd (spi toyExt (Arr.of1d fiveNeg) 2 .gamma 1990 1990 1994 .monthly none)
      (fun out => decide (out.length = 60)) = true := by decide +kernel

/-- **C17 is false** for series with a missing value: one missing January and an unrelated negative value (March 1991);
the SPI of March 1992 differs from that of the clipped series. -/
theorem C17_fails :
    (spi toyExt (Arr.of1d fiveNegNan) 1 .gamma 1990 1990 1994 .monthly none).toOption.map (·[26]?) ≠
      (spi toyExt (Arr.of1d (fiveNegNan.map nonneg)) 1 .gamma 1990 1990 1994 .monthly none).toOption.map (·[26]?) := by
  decide +kernel

end CI.Props
