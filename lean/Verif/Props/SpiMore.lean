import Verif.Props.SpiMono

/-!
# C144: more rain outside the calibration years and the SPI

Two records of the same length with the same sums in the calibration years. C15 compares two times of one record, this compares the same time of two records.
-/

namespace CI.Props

variable {F : Type} [FloatOps F] [FloatLaws F]

/-- one value through the gamma transform is non-decreasing -/
theorem gammaTransform1_mono [FloatMono F] (E : Ext F) (hE : ExtNan E) (hM : ExtMono E) (p0 al be a b : F) (hp : (lit 1 - p0 : F) ≠ nan → fle (lit 0) (lit 1 - p0) = true)
    (hab : fle a b = true) (g1 : gammaTransform1 E p0 al be (zeroToNan a) ≠ nan) (g2 : gammaTransform1 E p0 al be (zeroToNan b) ≠ nan) :
    fle (gammaTransform1 E p0 al be (zeroToNan a)) (gammaTransform1 E p0 al be (zeroToNan b)) = true := by
  have hz : ∀ c : F, gammaTransform1 E p0 al be (zeroToNan c) ≠ nan → zeroToNan c = c := by
    intro c hc
    unfold zeroToNan; split
    · rename_i hz; exfalso; apply hc; unfold zeroToNan; rw [if_pos hz, gammaTransform1_nan E hE]
    · rfl
  have za := hz a g1
  have zb := hz b g2
  rw [za] at g1 ⊢
  rw [zb] at g2 ⊢
  unfold gammaTransform1 at g1 g2 ⊢
  have k1 : p0 + (lit 1 - p0) * E.gammaCdf a al be ≠ nan := fun hc => g1 (by rw [hc]; exact hE.normPpf_nan)
  have k2 : p0 + (lit 1 - p0) * E.gammaCdf b al be ≠ nan := fun hc => g2 (by rw [hc]; exact hE.normPpf_nan)
  have m1 : (lit 1 - p0) * E.gammaCdf a al be ≠ nan := fun hc => k1 (by rw [hc]; simp)
  have m2 : (lit 1 - p0) * E.gammaCdf b al be ≠ nan := fun hc => k2 (by rw [hc]; simp)
  have c1 : E.gammaCdf a al be ≠ nan := fun hc => m1 (by rw [hc]; simp)
  have c2 : E.gammaCdf b al be ≠ nan := fun hc => m2 (by rw [hc]; simp)
  have q1 : lit 1 - p0 ≠ nan := fun hc => m1 (by rw [hc]; simp)
  refine hM.normPpf_mono _ _ ?_ g1 g2
  refine FloatMono.add_le_add_left _ _ _ ?_ k1 k2
  refine FloatMono.mul_le_mul_left _ _ _ ?_ (hp q1) m1 m2
  exact hM.gammaCdf_mono _ _ _ _ hab c1 c2

/-- **C144 (gamma, partial).** Full statement: more rain outside the calibration years never lowers an SPI. Proved for rounded arithmetic: if the accumulated values of two records
agree in the calibration years, and as many of those of the calendar step of time `i` are zero in both, then the record with the larger accumulated value at time `i` does not
have the smaller gamma SPI at time `i`. Missing: a change of the number of dry years, where it is false (`C144_fails`). -/
theorem C144_gamma_partial [FloatMono F] (E : Ext F) (hE : ExtNan E) (hM : ExtMono E) (x y : List F) (scale ds cs ce : ℤ) (per : Periodicity) (ax ay : Arr F) (ox oy : List F)
    (hlen : x.length = y.length) (hx : ∃ v ∈ x, isNan v = false) (hy : ∃ v ∈ y, isNan v = false)
    (hsx : scaleValues (Arr.of1d x) scale per = .ok ax) (hsy : scaleValues (Arr.of1d y) scale per = .ok ay) (hsize : ax.data.length ≤ 2 ^ 53)
    (h1 : ds ≤ cs) (h2 : cs ≤ ce) (h3 : (ce - ds + 1) * per.steps ≤ ax.data.length)
    (hagree : ∀ i : ℕ, cs ≤ ds + (i / per.steps : ℕ) → ds + (i / per.steps : ℕ) ≤ ce → ax.data[i]? = ay.data[i]?)
    (hok1 : spi E (Arr.of1d x) scale .gamma ds cs ce per none = .ok ox) (hok2 : spi E (Arr.of1d y) scale .gamma ds cs ce per none = .ok oy)
    (i : ℕ) (hz : (stride per.steps (i % per.steps) ax.data).countP (fun v => feq v (lit 0)) = (stride per.steps (i % per.steps) ay.data).countP (fun v => feq v (lit 0)))
    (a b u v : F) (ha : ax.data[i]? = some a) (hb : ay.data[i]? = some b) (hab : fle a b = true)
    (hu : ox[i]? = some u) (hv : oy[i]? = some v) (hun : u ≠ nan) (hvn : v ≠ nan) : fle u v = true := by
  obtain ⟨hper, l1, n, t, -, hl, -, ht, -, hout⟩ := spi_scaled E hE _ ax _ _ _ _ _ _ _ _ hx hsx hok1
  obtain ⟨-, l2, n', t', -, hl', -, ht', -, hout'⟩ := spi_scaled E hE _ ay _ _ _ _ _ _ _ _ hy hsy hok2
  have hp := steps_pos per hper
  have hll := scaled_length x y scale per ax ay hper hlen hx hy hsx hsy
  have hnn : n = n' := by rw [hl, hl'] at hll; exact Nat.eq_of_mul_eq_mul_right hp hll
  subst hnn
  have hce : ce < ds + n := by
    have a1 : (ce - ds + 1) * (per.steps : ℤ) ≤ (n : ℤ) * per.steps := by
      rw [← Nat.cast_mul, ← hl]; exact h3
    have := Int.le_of_mul_le_mul_right a1 (by exact_mod_cast hp)
    omega
  have e := calib_eq n ax.data ay.data per.steps ds cs ce h1 h2 hce hp hagree
  have hi := (List.getElem?_eq_some_iff.1 hu).1
  have hi' := (List.getElem?_eq_some_iff.1 hv).1
  have hm : i % per.steps < per.steps := Nat.mod_lt _ hp
  have hsi := (List.getElem?_eq_some_iff.1 ha).1
  have hn0 : 0 < n := by
    rcases Nat.eq_zero_or_pos n with h0 | h0
    · subst h0; omega
    · exact h0
  have hn' : n ≤ 2 ^ 53 := by
    have h1 : n * 1 ≤ n * per.steps := Nat.mul_le_mul_left _ hp
    omega
  unfold distTransform at ht ht'
  simp only [bind, Except.bind] at ht ht'
  have hg : getGammaArgs (none : Option (FitDict F)) = .ok (none, none) := rfl
  rw [hg] at ht ht'
  rw [hout i (by omega), gamma_value E hE n _ ds cs ce per _ _ t hper hl ht i a ha] at hu
  rw [hout' i (by omega), gamma_value E hE n _ ds cs ce per _ _ t' hper hl' ht' i b hb] at hv
  simp only [Option.map_some, Option.some.injEq] at hu hv
  have hP : gammaParamAt E n per.steps ay.data ds cs ce none none (i % per.steps) = gammaParamAt E n per.steps ax.data ds cs ce none none (i % per.steps) := by
    unfold gammaParamAt
    simp only
    rw [calibrationValues_map, calibrationValues_map, e]
  have hp0 : p0Col n (stride per.steps (i % per.steps) ay.data) = p0Col n (stride per.steps (i % per.steps) ax.data) := by
    unfold p0Col; rw [hz]
  rw [hP, hp0] at hv
  subst hu hv
  exact npClip_mono _ _ _ _ (FloatLaws.lit_mono _ _ (by norm_num)) (gammaTransform1_mono E hE hM _ _ _ a b (one_sub_p0_nonneg n per.steps (i % per.steps) ax.data hm hl hn0 hn') hab
    (npClip_ne_nan _ _ _ hun) (npClip_ne_nan _ _ _ hvn))

/-- **C144 (Pearson, partial).** The same for the Pearson distribution, for which only the calibration years decide on the probability of zero: proved if this probability is zero, or
if both accumulated values are inside the bound of the fitted distribution (without this C15 is already false). -/
theorem C144_pearson_partial [FloatMono F] (E : Ext F) (hE : ExtNan E) (hM : ExtMono E) (x y : List F) (scale ds cs ce : ℤ) (per : Periodicity) (ax ay : Arr F) (ox oy : List F)
    (hlen : x.length = y.length) (hx : ∃ v ∈ x, isNan v = false) (hy : ∃ v ∈ y, isNan v = false)
    (hsx : scaleValues (Arr.of1d x) scale per = .ok ax) (hsy : scaleValues (Arr.of1d y) scale per = .ok ay) (hsize : ax.data.length ≤ 2 ^ 53)
    (h1 : ds ≤ cs) (h2 : cs ≤ ce) (h3 : (ce - ds + 1) * per.steps ≤ ax.data.length)
    (hagree : ∀ i : ℕ, cs ≤ ds + (i / per.steps : ℕ) → ds + (i / per.steps : ℕ) ≤ ce → ax.data[i]? = ay.data[i]?)
    (ps : List (PearsonParams F)) (hps : pearsonParameters (lmomentsFit E) ax ds cs ce per = .ok ps)
    (hok1 : spi E (Arr.of1d x) scale .pearson ds cs ce per none = .ok ox) (hok2 : spi E (Arr.of1d y) scale .pearson ds cs ce per none = .ok oy)
    (i : ℕ) (q : PearsonParams F) (hq : ps[i % per.steps]? = some q) (a b u v : F) (ha : ax.data[i]? = some a) (hb : ay.data[i]? = some b) (hab : fle a b = true)
    (hcase : q.probZero = lit 0 ∨ (flt (lit 0) q.probZero = true ∧ insideBound q a ∧ insideBound q b))
    (hu : ox[i]? = some u) (hv : oy[i]? = some v) (hun : u ≠ nan) (hvn : v ≠ nan) : fle u v = true := by
  obtain ⟨hper, l1, n, t, e1, hl, -, -, -, -⟩ := spi_scaled E hE _ ax _ _ _ _ _ _ _ _ hx hsx hok1
  obtain ⟨-, l2, n', t', e2, hl', -, -, -, -⟩ := spi_scaled E hE _ ay _ _ _ _ _ _ _ _ hy hsy hok2
  have hp := steps_pos per hper
  have hll := scaled_length x y scale per ax ay hper hlen hx hy hsx hsy
  have hnn : n = n' := by rw [hl, hl'] at hll; exact Nat.eq_of_mul_eq_mul_right hp hll
  subst hnn
  have hce : ce < ds + n := by
    have a1 : (ce - ds + 1) * (per.steps : ℤ) ≤ (n : ℤ) * per.steps := by
      rw [← Nat.cast_mul, ← hl]; exact h3
    have := Int.le_of_mul_le_mul_right a1 (by exact_mod_cast hp)
    omega
  have hps' : pearsonParameters (lmomentsFit E) ay ds cs ce per = .ok ps := by
    rw [← hps, e1, e2]
    exact (C13_pearson_params E n ax.data ay.data ds cs ce per hper h1 h2 hce hagree).symm
  have hi := (List.getElem?_eq_some_iff.1 hu).1
  have hi' := (List.getElem?_eq_some_iff.1 hv).1
  obtain ⟨_, q1, r1, hp0, o1⟩ := spi_pearson_value E hE _ ax scale ds cs ce per ps ox hx hsx hps hok1 i (by omega) a ha
  obtain ⟨_, q2, r2, _, o2⟩ := spi_pearson_value E hE _ ay scale ds cs ce per ps oy hy hsy hps' hok2 i (by omega) b hb
  rw [hq] at r1; cases r1
  rw [hq] at r2; cases r2
  rw [o1] at hu; cases hu
  rw [o2] at hv; cases hv
  have g1 := npClip_ne_nan _ _ _ hun
  have g2 := npClip_ne_nan _ _ _ hvn
  rcases hcase with h0 | ⟨h0, ia, ib⟩
  · exact pearsonTransform1_mono_p0 E hE hM q h0 a b hab g1 g2
  · apply npClip_mono _ _ _ _ (FloatLaws.lit_mono _ _ (by norm_num))
    refine pearsonTransform1_mono_inside E hE hM q h0 ?_ a b ia ib hab g1 g2
    intro hne
    rcases hp0 with hp0 | ⟨z, m, hz, hzm, hm, hp0⟩
    · rw [hp0, flt_irrefl] at h0; cases h0
    · rw [hp0] at hne ⊢
      exact one_sub_ratio_nonneg z m hzm (by omega) (by omega) hne

/-! ## Cases -/

/-- `five1` with 1 mm instead of 17 mm in February 1994 -/
def five1f : List (Fl ℚ) := five1.set 49 (.fin 1)

/-- calibration 1990 to 1993: the SPI of February 1994 rises from 0 to 3.09 -/
example : okAnd (spi toyExt (Arr.of1d five1f) 1 .gamma 1990 1990 1993 .monthly none) (fun a => okAnd (spi toyExt (Arr.of1d five1) 1 .gamma 1990 1990 1993 .monthly none) (fun b =>
    decide (a[49]? = some (.fin 0) ∧ b[49]? = some (.fin 3.09)))) = true := by
  decide +kernel

example (ox oy : List (Fl ℚ)) (h : spi toyExt (Arr.of1d five1f) 1 .gamma 1990 1990 1993 .monthly none = .ok ox) (h' : spi toyExt (Arr.of1d five1) 1 .gamma 1990 1990 1993 .monthly none = .ok oy) :=
  C144_gamma_partial toyExt toyExt_nan toyExt_mono five1f five1 1 1990 1990 1993 .monthly ⟨[5, 12], five1f⟩ ⟨[5, 12], five1⟩ ox oy (by decide +kernel) ⟨.fin 4, by decide +kernel, rfl⟩
    ⟨.fin 4, by decide +kernel, rfl⟩ (by decide +kernel) (by decide +kernel) (by decide +kernel) (by norm_num) (by norm_num) (by decide +kernel)
    (by
      intro i _ hi
      have : i ≠ 49 := by rintro rfl; simp [Periodicity.steps] at hi
      exact List.getElem?_set_ne (Ne.symm this)) h h' 49 (by decide +kernel) (.fin 1) (.fin 17)

/-- `five1` with 6 and with 7 mm in March 1994: the Pearson SPI rises from 2.86 to 3; the probability of zero is 0 -/
example : okAnd (spi toyExt (Arr.of1d (five1.set 50 (.fin 6))) 1 .pearson 1990 1990 1993 .monthly none) (fun a =>
    okAnd (spi toyExt (Arr.of1d (five1.set 50 (.fin 7))) 1 .pearson 1990 1990 1993 .monthly none) (fun b =>
      okAnd (pearsonParameters (lmomentsFit toyExt) ⟨[5, 12], five1.set 50 (.fin 6)⟩ 1990 1990 1993 .monthly) (fun ps =>
        decide (a[50]? = some (.fin (20 / 7)) ∧ b[50]? = some (.fin 3) ∧ (ps.map PearsonParams.probZero)[2]? = some (.fin 0))))) = true := by
  decide +kernel

example (ps : List (PearsonParams (Fl ℚ))) (hps : pearsonParameters (lmomentsFit toyExt) ⟨[5, 12], five1.set 50 (.fin 6)⟩ 1990 1990 1993 .monthly = .ok ps) (ox oy : List (Fl ℚ))
    (h : spi toyExt (Arr.of1d (five1.set 50 (.fin 6))) 1 .pearson 1990 1990 1993 .monthly none = .ok ox)
    (h' : spi toyExt (Arr.of1d (five1.set 50 (.fin 7))) 1 .pearson 1990 1990 1993 .monthly none = .ok oy) :=
  C144_pearson_partial toyExt toyExt_nan toyExt_mono (five1.set 50 (.fin 6)) (five1.set 50 (.fin 7)) 1 1990 1990 1993 .monthly ⟨[5, 12], five1.set 50 (.fin 6)⟩ ⟨[5, 12], five1.set 50 (.fin 7)⟩
    ox oy (by decide +kernel) ⟨.fin 4, by decide +kernel, rfl⟩ ⟨.fin 4, by decide +kernel, rfl⟩ (by decide +kernel) (by decide +kernel) (by decide +kernel) (by norm_num) (by norm_num)
    (by decide +kernel)
    (by
      intro i _ hi
      have h50 : i ≠ 50 := by rintro rfl; simp [Periodicity.steps] at hi
      exact (List.getElem?_set_ne (Ne.symm h50)).trans (List.getElem?_set_ne (Ne.symm h50)).symm) ps hps h h' 50

/-- **C144 is false for gamma**: if January 1994 gets 1 mm of rain instead of none, with the calibration years 1990 to 1993, the SPI of January 1990 falls from 2.72 to 2.4. The probability
of a dry January is taken from the whole record. -/
theorem C144_fails :
    (∀ i < 60, ∃ a b : Fl ℚ, five1z[i]? = some a ∧ five1[i]? = some b ∧ fle a b = true) ∧ (∀ i < 60, i ≠ 48 → five1z[i]? = five1[i]?) ∧
    okAnd (spi toyExt (Arr.of1d five1z) 1 .gamma 1990 1990 1993 .monthly none) (fun a => okAnd (spi toyExt (Arr.of1d five1) 1 .gamma 1990 1990 1993 .monthly none) (fun b =>
      decide (a[0]? = some (.fin 2.72) ∧ b[0]? = some (.fin 2.4)))) = true := by
  refine ⟨?_, by decide +kernel, by decide +kernel⟩
  have h : ∀ i < 60, (match five1z[i]?, five1[i]? with | some a, some b => fle a b | _, _ => false) = true := by decide +kernel
  intro i hi
  have := h i hi
  split at this
  · rename_i a b ha hb
    exact ⟨a, b, ha, hb, this⟩
  · cases this

end CI.Props
