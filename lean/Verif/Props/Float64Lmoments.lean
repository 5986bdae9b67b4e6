import Verif.Lemmas.Lmoments64
import Verif.Spec.Ext

/-!
# C104: sample L-moments in float64
-/

namespace CI.Props
open CI CI.B64 Round
variable {σ : SumOrder}

/-! ## Specification: the sample L-moments of an ascending sample (Hosking 1990) -/

/-- probability weighted moments of the ascending sample `y` -/
def pwm0 (y : List ℚ) : ℚ := y.sum / y.length
def pwm1 (y : List ℚ) : ℚ := (y.mapIdx (fun i v => (i : ℚ) * v)).sum / (y.length * (y.length - 1))
def pwm2 (y : List ℚ) : ℚ := (y.mapIdx (fun i v => (i : ℚ) * ((i : ℚ) - 1) * v)).sum / (y.length * (y.length - 1) * (y.length - 2))

/-- the first three L-moments -/
def lambda1 (y : List ℚ) : ℚ := pwm0 y
def lambda2 (y : List ℚ) : ℚ := 2 * pwm1 y - pwm0 y
def lambda3 (y : List ℚ) : ℚ := 6 * pwm2 y - 6 * pwm1 y + pwm0 y

/-- `y` are the numbers of the sample `x` in ascending order; they are zero or between 10^-100 and 10^100 -/
def Ascending (x : List (B64 σ)) (y : List ℚ) : Prop :=
  ∃ p : List (B64 σ), p.Perm (x.filter (fun v => !isNan v)) ∧ List.Forall₂ (fun v q => ext v = .fin q) p y ∧ y.Pairwise (· ≤ ·) ∧
    ∀ q ∈ y, (q = 0 ∨ 1 / 10 ^ 100 ≤ q) ∧ q ≤ 10 ^ 100

/-- the limit of the errors: about 13 n rounding errors of the mean -/
def slack (y : List ℚ) : ℚ := lambda1 y * ((13 * y.length + 80) / 2 ^ 52)

theorem wsumQ_mapIdx (w : ℕ → ℚ) (k : ℕ) (l : List ℚ) : wsumQ w k l = (l.mapIdx (fun i v => w (k + i) * v)).sum := by
  induction l generalizing k with
  | nil => rfl
  | cons a l ih =>
    rw [List.mapIdx_cons, List.sum_cons, wsumQ, ih]
    simp only [Nat.add_zero]
    have : ∀ i, k + 1 + i = k + (i + 1) := fun i => by omega
    simp only [this]

theorem m0_eq (y : List ℚ) : m0 y = pwm0 y := by
  unfold m0 pwm0 d0
  rw [show wsumQ w0 0 y = y.sum from wsumQ_one 0 y]

theorem m1_eq (y : List ℚ) (h4 : 4 ≤ y.length) : m1 y = pwm1 y := by
  unfold m1 pwm1 d1
  rw [wsumQ_mapIdx, Nat.cast_mul, Nat.cast_sub (by omega)]
  simp only [w1, zero_add, Nat.cast_one]

theorem m2_eq (y : List ℚ) (h4 : 4 ≤ y.length) : m2 y = pwm2 y := by
  unfold m2 pwm2 d2
  rw [wsumQ_mapIdx, Nat.cast_mul, Nat.cast_mul, Nat.cast_sub (by omega), Nat.cast_sub (by omega)]
  have : ∀ i : ℕ, w2 i = (i : ℚ) * ((i : ℚ) - 1) := by
    intro i
    unfold w2
    rcases Nat.eq_zero_or_pos i with rfl | h
    · simp
    · rw [Nat.cast_sub h]; simp
  simp only [this, zero_add, Nat.cast_one, Nat.cast_ofNat]

/-- the order of the numbers of a sorted sample is unique -/
theorem ascending_sorted {x : List (B64 σ)} {y : List ℚ} (h : Ascending x y) :
    List.Forall₂ (fun v q => ext v = .fin q ∧ Amount q) ((npSort x).take (x.countP (fun v => !isNan v))) y := by
  obtain ⟨p, hp, hpy, hy, ham⟩ := h
  obtain ⟨r, hr, hrp, hrs⟩ := npSort_take x
  rw [hr]
  -- the values of both lists are the same
  have hfin : ∀ v ∈ p, ∃ q, ext v = .fin q := by
    intro v hv
    obtain ⟨i, hi, rfl⟩ := List.getElem_of_mem hv
    have hl := hpy.length_eq
    exact ⟨y[i]'(by omega), (List.forall₂_iff_get.1 hpy).2 i hi (by omega)⟩
  have hperm : r.Perm p := hrp.trans hp.symm
  let f : B64 σ → ℚ := fun v => match ext v with | .fin q => q | _ => 0
  have hf : ∀ v ∈ p, ext v = .fin (f v) := by
    intro v hv
    obtain ⟨q, hq⟩ := hfin v hv
    simp only [f, hq]
  have hpf : p.map f = y := by
    clear hp hperm hrp hfin hf hy ham
    induction hpy with
    | nil => rfl
    | cons h _ ih => rw [List.map_cons, ih]; simp only [f, h]
  have hrf : (r.map f).Pairwise (· ≤ ·) := by
    rw [List.pairwise_map]
    refine hrs.imp_of_mem ?_
    intro a b ha hb hab
    have ea := hf a (hperm.mem_iff.1 ha)
    have eb := hf b (hperm.mem_iff.1 hb)
    unfold CI.sortLe at hab
    rw [fle_ext ea eb] at hab
    have hn : isNan b = false := by
      cases b with
      | nan => cases eb
      | inf s => cases s <;> cases eb
      | fin s m h => rfl
    simpa [hn] using hab
  have hry : r.map f = y := by
    refine List.Perm.eq_of_pairwise (fun _ _ _ _ h1 h2 => le_antisymm h1 h2) hrf hy ?_
    rw [← hpf]; exact hperm.map f
  rw [← hry, List.forall₂_map_right_iff, List.forall₂_same]
  intro v hv
  refine ⟨hf v (hperm.mem_iff.1 hv), ?_⟩
  exact ham _ (by rw [← hry]; exact List.mem_map_of_mem hv)

/-- `_estimate_lmoments` before the last division -/
theorem lmoments_run {x : List (B64 σ)} {y : List ℚ} (h : Ascending x y) (h4 : 4 ≤ y.length) (hn : y.length ≤ 2 ^ 17) :
    ∃ (L1 T1 T2 : B64 σ) (l1 t1 t2 : ℚ), estimateLmoments x = (if feq T1 (lit 0) then .ok (lit 0, lit 0, lit 0) else .ok (L1, T1, T2 / T1)) ∧
      ext L1 = .fin l1 ∧ ext T1 = .fin t1 ∧ ext T2 = .fin t2 ∧
      |l1 - lambda1 y| ≤ lambda1 y * ((y.length + 3) / 2 ^ 52) ∧ |t1 - lambda2 y| ≤ slack y ∧ |t2 - lambda3 y| ≤ slack y := by
  have hs := ascending_sorted h
  have hl := hs.length_eq
  have hcount : x.countP (fun v => !isNan v) = y.length := by
    obtain ⟨p, hp, hpy, _⟩ := h
    rw [List.countP_eq_length_filter, ← hp.length_eq, hpy.length_eq]
  rw [hcount] at hs hl
  have hy : ∀ q ∈ y, Amount q := by obtain ⟨p, _, _, _, ham⟩ := h; exact ham
  obtain ⟨s0, s1, s2, a0, a1, a2, hf, f0, c0, f1, c1, f2, c2⟩ := moments_close hs (by omega) (by omega)
  rw [hl] at f0 f1 f2 c0 c1 c2
  have hy0 : ∀ q ∈ y, 0 ≤ q := fun q hq => (hy q hq).nonneg
  obtain ⟨o1, o2⟩ := m_order h4 hy0
  have hM : m0 y ≤ 10 ^ 100 := by
    rw [m0_eq]
    unfold pwm0
    have hpos : (0 : ℚ) < y.length := Nat.cast_pos.2 (by omega)
    rw [div_le_iff₀ hpos]
    have := List.sum_le_card_nsmul y (10 ^ 100) fun q hq => (hy q hq).2
    rw [nsmul_eq_mul] at this
    linarith
  obtain ⟨⟨t1, g1, k1⟩, ⟨t2, g2, k2⟩⟩ := combine hn f0 f1 f2 c0 c1 c2 o1 o2 hM
  refine ⟨_, _, _, a0, t1, t2, ?_, f0, g1, g2, ?_, ?_, ?_⟩
  · unfold estimateLmoments
    dsimp only
    rw [hcount, if_neg (by omega)]
    have e1 : ((y.length : ℚ) * ((y.length : ℚ) - 1)) = (d1 y.length : ℚ) := by
      unfold d1; rw [Nat.cast_mul, Nat.cast_sub (by omega)]; simp
    have e2 : (d1 y.length : ℚ) * ((y.length : ℚ) - 2) = (d2 y.length : ℚ) := by
      unfold d2 d1; rw [Nat.cast_mul _ (y.length - 2), Nat.cast_sub (by omega : 2 ≤ y.length)]; simp
    unfold lmomSums
    rw [hf]
    simp only [e1, e2]
    rfl
  · have := c0.error (by omega)
    unfold lambda1
    rw [← m0_eq]
    refine this.trans (le_of_eq ?_)
    unfold unit; push_cast; ring
  · unfold slack lambda2 lambda1
    rw [← m0_eq, ← m1_eq y h4]; exact k1
  · unfold slack lambda3 lambda1
    rw [← m0_eq, ← m1_eq y h4, ← m2_eq y h4]; exact k2

theorem lambda_order {x : List (B64 σ)} {y : List ℚ} (h : Ascending x y) (h4 : 4 ≤ y.length) : 0 ≤ lambda1 y ∧ lambda2 y ≤ lambda1 y := by
  have hy : ∀ q ∈ y, Amount q := by obtain ⟨p, _, _, _, ham⟩ := h; exact ham
  have hy0 : ∀ q ∈ y, 0 ≤ q := fun q hq => (hy q hq).nonneg
  obtain ⟨o1, o2⟩ := m_order h4 hy0
  obtain ⟨n0, _⟩ := m_nonneg h4 hy0
  rw [m0_eq] at n0 o1
  rw [m1_eq y h4] at o1
  unfold lambda1 lambda2
  exact ⟨n0, by linarith⟩

theorem slack_bounds {x : List (B64 σ)} {y : List ℚ} (h : Ascending x y) (h4 : 4 ≤ y.length) (hn : y.length ≤ 2 ^ 17) :
    0 ≤ slack y ∧ 100 * (lambda1 y * unit) ≤ slack y ∧ slack y ≤ lambda1 y := by
  obtain ⟨h0, _⟩ := lambda_order h h4
  have hn' : (y.length : ℚ) ≤ 2 ^ 17 := by exact_mod_cast hn
  have hn0 : (0 : ℚ) ≤ y.length := Nat.cast_nonneg _
  have e : slack y = lambda1 y * unit * (2 * (13 * y.length + 80)) := by unfold slack unit; ring
  have hu : 0 ≤ lambda1 y * unit := mul_nonneg h0 unit_pos.le
  refine ⟨?_, ?_, ?_⟩
  · rw [e]; positivity
  · rw [e]; nlinarith
  · unfold slack
    have : (13 * (y.length : ℚ) + 80) / 2 ^ 52 ≤ 1 := by rw [div_le_one (by positivity)]; linarith
    have := mul_le_mul_of_nonneg_left this h0
    linarith

/-- **C104.** The L-scale computed in float64 for a sample of 4 to 2^17 non-negative numbers (missing values aside) differs from the exact second L-moment by at most
(13 n + 80) 2^-52 times the mean. -/
theorem C104_scale (x : List (B64 σ)) (y : List ℚ) (h : Ascending x y) (h4 : 4 ≤ y.length) (hn : y.length ≤ 2 ^ 17) :
    ∃ L1 L2 T3 l2, estimateLmoments x = .ok (L1, L2, T3) ∧ ext L2 = .fin l2 ∧ |l2 - lambda2 y| ≤ slack y := by
  obtain ⟨L1, T1, T2, l1, t1, t2, he, f0, f1, f2, g0, g1, g2⟩ := lmoments_run h h4 hn
  by_cases hz : feq T1 (lit 0) = true
  · rw [if_pos hz] at he
    refine ⟨_, _, _, 0, he, ext_lit_zero, ?_⟩
    rw [feq_ext f1 ext_lit_zero] at hz
    rw [← of_decide_eq_true hz]; exact g1
  · rw [if_neg hz] at he
    exact ⟨_, _, _, t1, he, f1, g1⟩

theorem rnd_below_one : rnd (1 - unit) = 1 - unit := by
  have := rndPos_exact (2 ^ 53 - 1) (-53) (by norm_num) (by norm_num)
  rw [rnd_of_nonneg (by unfold unit; norm_num)]
  have e : ((2 ^ 53 - 1 : ℕ) : ℚ) * 2 ^ (-53 : ℤ) = 1 - unit := by unfold unit; norm_num
  rwa [e] at this

/-- **C104 (partial: without samples near degeneracy).** If the sample is not degenerate (λ2 exceeds |λ3| by more than three times the limit of the errors), then in float64 the fit is not refused; location and scale are
those of exact arithmetic up to (13 n + 80) 2^-52 times the mean, and the L-skewness up to four times that, relative to λ2. -/
theorem C104_fit_partial (E : Ext (B64 σ)) (x : List (B64 σ)) (y : List ℚ) (h : Ascending x y) (h4 : 4 ≤ y.length) (hn : y.length ≤ 2 ^ 17)
    (hm : |lambda3 y| + 3 * slack y < lambda2 y) :
    ∃ L1 L2 T3 l1 l2 t3, estimateLmoments x = .ok (L1, L2, T3) ∧ ext L1 = .fin l1 ∧ ext L2 = .fin l2 ∧ ext T3 = .fin t3 ∧
      |l1 - lambda1 y| ≤ lambda1 y * ((y.length + 3) / 2 ^ 52) ∧ |l2 - lambda2 y| ≤ slack y ∧ |t3 - lambda3 y / lambda2 y| ≤ 4 * slack y / lambda2 y ∧
      0 < l2 ∧ |t3| < 1 ∧ ∃ scale skew, lmomentsFit E x = .ok (L1, scale, skew) := by
  obtain ⟨L1, T1, T2, l1, t1, t2, he, f0, f1, f2, g0, g1, g2⟩ := lmoments_run h h4 hn
  obtain ⟨o1, o2⟩ := lambda_order h h4
  obtain ⟨s0, s1, s2⟩ := slack_bounds h h4 hn
  have hl3 := abs_nonneg (lambda3 y)
  have hl2 : 0 < lambda2 y := by linarith
  have k1 := abs_le.1 g1
  have hu := unit_pos
  have ht1 : 0 < t1 := by linarith
  have ht2 : |t2| ≤ t1 - slack y := by
    have := abs_sub_abs_le_abs_sub t2 (lambda3 y)
    linarith
  have ht1u : t1 * unit ≤ slack y := by
    have : t1 ≤ 2 * lambda1 y := by linarith
    have := mul_le_mul_of_nonneg_right this hu.le
    have : 0 ≤ lambda1 y * unit := mul_nonneg o1 hu.le
    linarith
  have hq : |t2 / t1| ≤ 1 - unit := by
    rw [abs_div, abs_of_pos ht1, div_le_iff₀ ht1]
    linarith
  have hq1 : |t2 / t1| ≤ 1 := by linarith
  have hbig : |t2 / t1| ≤ 2 ^ (1023 : ℤ) := below_max (hq1.trans (by norm_num))
  have f3 := fin_div f2 f1 ht1.ne' hbig
  have hr : |rnd (t2 / t1)| ≤ 1 - unit := by
    have := rnd_abs_le hq
    rwa [rnd_below_one] at this
  have hz : feq T1 (lit 0) = false := by
    rw [feq_ext f1 ext_lit_zero]; exact decide_eq_false ht1.ne'
  rw [hz] at he
  simp only [Bool.false_eq_true, if_false] at he
  have hskew : |rnd (t2 / t1) - lambda3 y / lambda2 y| ≤ 4 * slack y / lambda2 y := by
    have e1 := rnd_abs (t2 / t1)
    have e2 : |t2 / t1 - lambda3 y / lambda2 y| ≤ 3 * slack y / lambda2 y := by
      have e3 : t2 / t1 - lambda3 y / lambda2 y = ((t2 - lambda3 y) * lambda2 y - lambda3 y * (t1 - lambda2 y)) / (t1 * lambda2 y) := by field_simp; ring
      have e4 : |(t2 - lambda3 y) * lambda2 y - lambda3 y * (t1 - lambda2 y)| ≤ 2 * slack y * lambda2 y := by
        refine (abs_sub _ _).trans ?_
        rw [abs_mul, abs_mul, abs_of_pos hl2]
        have q1 := mul_le_mul_of_nonneg_right g2 hl2.le
        have q2 := mul_le_mul (by linarith : |lambda3 y| ≤ lambda2 y) g1 (abs_nonneg _) hl2.le
        linarith
      rw [e3, abs_div, abs_of_pos (mul_pos ht1 hl2), div_le_div_iff₀ (mul_pos ht1 hl2) hl2]
      have e5 : 2 * lambda2 y ≤ 3 * t1 := by linarith
      have e6 := mul_le_mul_of_nonneg_right e4 hl2.le
      have e7 : (2 * lambda2 y) * (slack y * lambda2 y) ≤ (3 * t1) * (slack y * lambda2 y) := mul_le_mul_of_nonneg_right e5 (mul_nonneg s0 hl2.le)
      linarith
    have e8 : |t2 / t1| * unit + 2 ^ (-1074 : ℤ) ≤ slack y / lambda2 y := by
      have q1 : |t2 / t1| * unit ≤ 1 * unit := mul_le_mul_of_nonneg_right hq1 hu.le
      have q2 : (2 : ℚ) ^ (-1074 : ℤ) ≤ unit := tiny_small.trans (by unfold unit; norm_num)
      have q3 : 2 * unit ≤ slack y / lambda2 y := by
        rw [le_div_iff₀ hl2]
        have := mul_le_mul_of_nonneg_right o2 hu.le
        have : 0 ≤ lambda1 y * unit := mul_nonneg o1 hu.le
        linarith
      linarith
    have e9 : 4 * slack y / lambda2 y = 3 * slack y / lambda2 y + slack y / lambda2 y := by ring
    have := abs_sub_le (rnd (t2 / t1)) (t2 / t1) (lambda3 y / lambda2 y)
    rw [e9]
    linarith
  have hlt : |rnd (t2 / t1)| < 1 := by linarith
  refine ⟨L1, T1, T2 / T1, l1, t1, rnd (t2 / t1), he, f0, f1, f3, g0, g1, hskew, ht1, hlt, ?_⟩
  have hn1 : fle T1 (lit 0) = false := by rw [fle_ext f1 ext_lit_zero]; exact decide_eq_false (not_le.2 ht1)
  have hn2 : fle (lit 1) (fabs (T2 / T1)) = false := by
    have hab : ∃ q, ext (fabs (T2 / T1)) = .fin q ∧ q < 1 := by
      unfold fabs
      rw [flt_ext f3 ext_lit_zero]
      by_cases hneg : rnd (t2 / t1) < 0
      · rw [if_pos (decide_eq_true hneg)]
        refine ⟨-rnd (t2 / t1), ?_, by linarith [(abs_lt.1 hlt).1]⟩
        show ext (neg (T2 / T1)) = _
        rw [ext_neg, f3]; rfl
      · rw [if_neg (by simpa using hneg)]
        exact ⟨_, f3, (abs_lt.1 hlt).2⟩
    obtain ⟨q, e1, e2⟩ := hab
    rw [fle_ext ext_lit_one e1]; exact decide_eq_false (not_le.2 e2)
  unfold lmomentsFit
  rw [he]
  simp only [bind, Except.bind, hn1, hn2, Bool.or_self, Bool.false_eq_true, if_false]
  unfold estimatePearson3Parameters
  simp only [hn1, hn2, Bool.or_self, Bool.false_eq_true, if_false]
  split <;> exact ⟨_, _, rfl⟩

/-- the sample 3, 1, missing, 2, 7 meets the conditions: λ1 = 13/4, λ2 = 19/12, λ3 = 3/4 -/
example : Ascending ([lit 3, lit 1, .nan, lit 2, lit 7] : List (B64 leftToRight)) [1, 2, 3, 7] ∧
    |lambda3 [1, 2, 3, 7]| + 3 * slack [1, 2, 3, 7] < lambda2 [1, 2, 3, 7] := by
  constructor
  · refine ⟨[lit 1, lit 2, lit 3, lit 7], ?_, ?_, by norm_num, by norm_num⟩
    · have : ([lit 3, lit 1, .nan, lit 2, lit 7] : List (B64 leftToRight)).filter (fun v => !isNan v) = [lit 3, lit 1, lit 2, lit 7] := by
        rw [List.filter_cons_of_pos (by decide +kernel), List.filter_cons_of_pos (by decide +kernel), List.filter_cons_of_neg (by decide +kernel),
          List.filter_cons_of_pos (by decide +kernel), List.filter_cons_of_pos (by decide +kernel), List.filter_nil]
      rw [this]
      exact List.perm_middle (l₁ := [lit 1, lit 2]) (l₂ := [lit 7])
    · exact .cons (by decide +kernel) (.cons (by decide +kernel) (.cons (by decide +kernel) (.cons (by decide +kernel) .nil)))
  · norm_num [lambda1, lambda2, lambda3, slack, pwm0, pwm1, pwm2, List.mapIdx, List.mapIdx.go]

/-- the sample passes the checks of `fit` (lmoments.py:32-35, 60-63) -/
def passes (x : List (B64 σ)) : Bool :=
  match estimateLmoments x with
  | .ok lm => !(fle lm.2.1 (lit 0) || fle (lit 1) (fabs lm.2.2))
  | .error _ => false

theorem fit_passes (E : Ext (B64 σ)) (x : List (B64 σ)) (h : passes x = true) : ∃ r, lmomentsFit E x = .ok r := by
  unfold passes at h
  unfold lmomentsFit
  split at h
  · next lm hlm =>
    rw [hlm]
    rw [Bool.not_eq_true'] at h
    simp only [bind, Except.bind, h, Bool.false_eq_true, if_false]
    unfold estimatePearson3Parameters
    simp only [h, Bool.false_eq_true, if_false]
    split <;> exact ⟨_, rfl⟩
  · cases h

theorem fit_refuses (E : Ext (B64 σ)) (x : List (B64 σ)) (h : passes x = false) : ∃ e, lmomentsFit E x = .error e := by
  unfold passes at h
  unfold lmomentsFit
  split at h
  · next lm hlm =>
    rw [hlm]
    rw [Bool.not_eq_false'] at h
    exact ⟨.valueError, by simp only [bind, Except.bind, h, if_true]⟩
  · next e he => exact ⟨e, by rw [he]; rfl⟩

/-- **C104, C24 fail in float64 for constant samples.** Twenty times 0.7: in exact arithmetic λ2 = 0 and the fit is refused; in float64 λ2 is a rounding error and the fit is
accepted. -/
theorem C104_constant_fails (E : Ext (B64 leftToRight)) : ∃ r, lmomentsFit E (List.replicate 20 (lit 0.7 : (B64 leftToRight))) = .ok r :=
  fit_passes E _ (by decide +kernel)

/-- **C104, C24 fail in float64 for nearly constant samples.** The numbers 1, 1, 1 + 2^-52, 1 + 2^-52: not degenerate (λ3 = 0 < λ2), but in float64 the fit is refused. -/
theorem C104_distinct_fails (E : Ext (B64 leftToRight)) : ∃ (x : List (B64 leftToRight)) (y : List ℚ), Ascending x y ∧ 4 ≤ y.length ∧ |lambda3 y| < lambda2 y ∧ ∃ e, lmomentsFit E x = .error e := by
  refine ⟨[lit 1, lit 1, lit (1 + 1 / 2 ^ 52), lit (1 + 1 / 2 ^ 52)], [1, 1, 1 + 1 / 2 ^ 52, 1 + 1 / 2 ^ 52], ?_, by simp, ?_, fit_refuses E _ (by decide +kernel)⟩
  · refine ⟨_, List.Perm.refl _, ?_, by norm_num, by norm_num⟩
    rw [List.filter_cons_of_pos (by decide +kernel), List.filter_cons_of_pos (by decide +kernel), List.filter_cons_of_pos (by decide +kernel),
          List.filter_cons_of_pos (by decide +kernel), List.filter_nil]
    exact .cons (by decide +kernel) (.cons (by decide +kernel) (.cons (by decide +kernel) (.cons (by decide +kernel) .nil)))
  · norm_num [lambda1, lambda2, lambda3, slack, pwm0, pwm1, pwm2, List.mapIdx, List.mapIdx.go]

end CI.Props
