import Verif.Base.Binary64
import Mathlib.Tactic.Linarith
import Mathlib.Tactic.Positivity
import Mathlib.Tactic.Ring
import Mathlib.Tactic.NormNum

/-!
# Errors of binary64 operations

`rnd` is the rounding function; `ext x = .fin a` says that `x` is a finite number of value `a`.
-/

namespace CI.B64
open Round
variable {σ : SumOrder}

/-- rounding to nearest, ties to even, without overflow -/
def rnd (q : ℚ) : ℚ := if q < 0 then -rndPos |q| else rndPos |q|

/-- the unit roundoff 2^-53 -/
def unit : ℚ := 1 / 2 ^ 53

theorem unit_zpow : (2 : ℚ) ^ (-53 : ℤ) = unit := by unfold unit; norm_num

theorem rnd_zero : rnd 0 = 0 := by simp [rnd, rndPos]

theorem rnd_of_nonneg {q : ℚ} (h : 0 ≤ q) : rnd q = rndPos q := by rw [rnd, if_neg (not_lt.2 h), abs_of_nonneg h]

theorem rnd_neg (q : ℚ) : rnd (-q) = -rnd q := by
  unfold rnd
  rw [abs_neg]
  rcases lt_trichotomy q 0 with h | h | h
  · rw [if_neg (by linarith), if_pos h, neg_neg]
  · subst h; simp [rndPos]
  · rw [if_pos (by linarith), if_neg (by linarith)]

theorem rnd_nonneg {q : ℚ} (h : 0 ≤ q) : 0 ≤ rnd q := by rw [rnd_of_nonneg h]; exact rndPos_nonneg q

theorem rnd_mono {a b : ℚ} (h : a ≤ b) : rnd a ≤ rnd b := by
  by_cases ha : 0 ≤ a
  · rw [rnd_of_nonneg ha, rnd_of_nonneg (ha.trans h)]; exact rndPos_mono h
  · have ha := not_le.1 ha
    by_cases hb : 0 ≤ b
    · have h1 : rnd a ≤ 0 := by
        have := rnd_nonneg (q := -a) (by linarith)
        rw [rnd_neg] at this; linarith
      exact h1.trans (rnd_nonneg hb)
    · have hb := not_le.1 hb
      have := rndPos_mono (show -b ≤ -a by linarith)
      rw [← rnd_of_nonneg (by linarith), ← rnd_of_nonneg (by linarith), rnd_neg, rnd_neg] at this
      linarith

theorem rfl64_rnd (q : ℚ) (h : rndPos |q| < pow2 1024) : rfl64 (.fin q) = .fin (rnd q) := by
  rw [rfl64_fin, if_pos h, rnd]

/-- values up to 2^1023 do not overflow -/
theorem no_overflow {q : ℚ} (h : |q| ≤ 2 ^ (1023 : ℤ)) : rndPos |q| < pow2 1024 := by
  refine lt_of_le_of_lt (rndPos_mono h) ?_
  have := rndPos_exact 1 1023 (by norm_num) (by norm_num)
  rw [Nat.cast_one, one_mul] at this
  rw [this, pow2_eq]
  exact zpow_lt_zpow_right₀ (by norm_num) (by norm_num)

theorem rnd_fin {x : B64 σ} {a : ℚ} (h : ext x = .fin a) : rnd a = a := by
  cases x with
  | nan => cases h
  | inf s => cases s <;> cases h
  | fin s m hm =>
    simp only [ext, Fl.fin.injEq] at h
    subst h
    have h1 := rnd_of_nonneg hm.1
    rw [hm.2.1] at h1
    cases s
    · simpa [val] using h1
    · simp only [val, if_true]
      rw [rnd_neg, h1]

theorem rnd_one : rnd 1 = 1 := by
  have h : ext (CI.lit 1 : B64 leftToRight) = .fin 1 := by rw [lit_one]; simp [ext, val]
  exact rnd_fin h

theorem ext_lit_one : ext (CI.lit 1 : B64 σ) = .fin 1 := by rw [lit_one]; simp [ext, val]
theorem ext_lit_zero : ext (CI.lit 0 : B64 σ) = .fin 0 := by rw [lit_zero]; simp [ext, val]

theorem fin_add {x y : B64 σ} {a b : ℚ} (hx : ext x = .fin a) (hy : ext y = .fin b) (h : |a + b| ≤ 2 ^ (1023 : ℤ)) :
    ext (x + y) = .fin (rnd (a + b)) := by
  show ext (add x y) = _
  rw [ext_add, hx, hy]
  exact rfl64_rnd _ (no_overflow h)

theorem fin_sub {x y : B64 σ} {a b : ℚ} (hx : ext x = .fin a) (hy : ext y = .fin b) (h : |a - b| ≤ 2 ^ (1023 : ℤ)) :
    ext (x - y) = .fin (rnd (a - b)) := by
  show ext (add x (neg y)) = _
  rw [ext_add, ext_neg, hx, hy]
  show rfl64 (.fin (a + -b)) = _
  rw [← sub_eq_add_neg]
  exact rfl64_rnd _ (no_overflow h)

theorem fin_mul {x y : B64 σ} {a b : ℚ} (hx : ext x = .fin a) (hy : ext y = .fin b) (h : |a * b| ≤ 2 ^ (1023 : ℤ)) :
    ext (x * y) = .fin (rnd (a * b)) := by
  show ext (mul x y) = _
  rw [ext_mul, hx, hy]
  exact rfl64_rnd _ (no_overflow h)

theorem fin_div {x y : B64 σ} {a b : ℚ} (hx : ext x = .fin a) (hy : ext y = .fin b) (hb : b ≠ 0) (h : |a / b| ≤ 2 ^ (1023 : ℤ)) :
    ext (x / y) = .fin (rnd (a / b)) := by
  show ext (div x y) = _
  have hy0 : y ≠ .fin true 0 mag_zero := by
    rintro rfl
    simp only [ext, val_zero, Fl.fin.injEq] at hy
    exact hb hy.symm
  rw [ext_div x y hy0, hx, hy]
  simp only [Fl.div, if_neg hb]
  exact rfl64_rnd _ (no_overflow h)

theorem fle_ext {x y : B64 σ} {a b : ℚ} (hx : ext x = .fin a) (hy : ext y = .fin b) : fle x y = decide (a ≤ b) := by
  show Fl.le (ext x) (ext y) = _
  rw [hx, hy]; rfl

theorem flt_ext {x y : B64 σ} {a b : ℚ} (hx : ext x = .fin a) (hy : ext y = .fin b) : flt x y = decide (a < b) := by
  show (Fl.le (ext x) (ext y) && !Fl.le (ext y) (ext x)) = _
  rw [hx, hy]
  simp only [Fl.le]
  by_cases h : a < b
  · simp [h, h.le]
  · simp only [h, decide_false, Bool.and_eq_false_iff, decide_eq_false_iff_not, Bool.not_eq_false', decide_eq_true_eq]
    exact Or.inr (not_lt.1 h)

theorem feq_ext {x y : B64 σ} {a b : ℚ} (hx : ext x = .fin a) (hy : ext y = .fin b) : feq x y = decide (a = b) := by
  show (Fl.le (ext x) (ext y) && Fl.le (ext y) (ext x)) = _
  rw [hx, hy]
  simp only [Fl.le]
  by_cases h : a = b
  · simp [h]
  · rcases lt_or_gt_of_ne h with h' | h'
    · simp [h, h'.le, h']
    · simp [h, h'.le, h']

/-! ## Relative errors -/

theorem rnd_rel {q : ℚ} (h : (2 : ℚ) ^ (-1022 : ℤ) ≤ |q|) : |rnd q - q| ≤ |q| * unit := by
  have := rndPos_rel h
  rw [unit_zpow] at this
  rcases le_or_gt 0 q with h0 | h0
  · rw [abs_of_nonneg h0] at this ⊢
    rwa [rnd_of_nonneg h0]
  · rw [abs_of_neg h0] at this ⊢
    have h1 : rnd q = -rndPos (-q) := by
      rw [← rnd_of_nonneg (by linarith : (0 : ℚ) ≤ -q), rnd_neg, neg_neg]
    rw [h1]
    have h2 : -rndPos (-q) - q = -(rndPos (-q) - -q) := by ring
    rw [h2, abs_neg]
    exact this

/-- finite numbers are multiples of 2^-1074 -/
theorem fin_grid {x : B64 σ} {a : ℚ} (h : ext x = .fin a) : ∃ n : ℤ, a = n * 2 ^ (-1074 : ℤ) := by
  cases x with
  | nan => cases h
  | inf s => cases s <;> cases h
  | fin s m hm =>
    simp only [ext, Fl.fin.injEq] at h
    subst h
    obtain ⟨n, k, _, hk, e⟩ := rndPos_form m
    rw [hm.2.1] at e
    have h2 : (2 : ℚ) ^ k = ((2 ^ (k + 1074).toNat : ℤ) : ℚ) * 2 ^ (-1074 : ℤ) := by
      rw [← two_zpow_nat (k + 1074) (by omega), ← zpow_add₀ (by norm_num)]
      congr 1; ring
    cases s
    · refine ⟨n * 2 ^ (k + 1074).toNat, ?_⟩
      simp only [val, Bool.false_eq_true, if_false]
      rw [e, h2]; push_cast; ring
    · refine ⟨-(n * 2 ^ (k + 1074).toNat), ?_⟩
      simp only [val, if_true]
      rw [e, h2]; push_cast; ring

/-- the relative error of a sum is at most 2^-53, for all finite numbers: small sums are exact -/
theorem rnd_add_rel {x y : B64 σ} {a b : ℚ} (hx : ext x = .fin a) (hy : ext y = .fin b) : |rnd (a + b) - (a + b)| ≤ |a + b| * unit := by
  by_cases h : (2 : ℚ) ^ (-1022 : ℤ) ≤ |a + b|
  · exact rnd_rel h
  · have h := not_le.1 h
    obtain ⟨m, rfl⟩ := fin_grid hx
    obtain ⟨n, rfl⟩ := fin_grid hy
    have e : (m : ℚ) * 2 ^ (-1074 : ℤ) + n * 2 ^ (-1074 : ℤ) = ((m + n : ℤ) : ℚ) * 2 ^ (-1074 : ℤ) := by push_cast; ring
    rw [e] at h ⊢
    generalize m + n = k at h ⊢
    have hp : (0 : ℚ) < 2 ^ (-1074 : ℤ) := zpow_pos (by norm_num) _
    have hk : |(k : ℚ)| < 2 ^ (52 : ℤ) := by
      rw [abs_mul, abs_of_pos hp] at h
      have e2 : (2 : ℚ) ^ (-1022 : ℤ) = 2 ^ (52 : ℤ) * 2 ^ (-1074 : ℤ) := by
        rw [← zpow_add₀ (by norm_num)]; norm_num
      rw [e2] at h
      exact lt_of_mul_lt_mul_right h hp.le
    have key : ∀ j : ℕ, (j : ℚ) < 2 ^ (52 : ℤ) → rnd ((j : ℚ) * 2 ^ (-1074 : ℤ)) = j * 2 ^ (-1074 : ℤ) := by
      intro j hj
      rw [rnd_of_nonneg (mul_nonneg (Nat.cast_nonneg j) hp.le)]
      refine rndPos_exact j (-1074) ?_ le_rfl
      have : j < 2 ^ 52 := by exact_mod_cast hj
      omega
    have hr : rnd ((k : ℚ) * 2 ^ (-1074 : ℤ)) = k * 2 ^ (-1074 : ℤ) := by
      obtain ⟨j, rfl | rfl⟩ := Int.eq_nat_or_neg k
      · refine key j ?_
        have := hk
        rwa [Int.cast_natCast, abs_of_nonneg (Nat.cast_nonneg j)] at this
      · have h3 : (j : ℚ) < 2 ^ (52 : ℤ) := by
          have := hk
          rwa [Int.cast_neg, abs_neg, Int.cast_natCast, abs_of_nonneg (Nat.cast_nonneg j)] at this
        rw [Int.cast_neg, Int.cast_natCast, neg_mul, rnd_neg, key j h3]
    rw [hr, sub_self, abs_zero]
    exact mul_nonneg (abs_nonneg _) (by unfold unit; positivity)

theorem rnd_sub_rel {x y : B64 σ} {a b : ℚ} (hx : ext x = .fin a) (hy : ext y = .fin b) : |rnd (a - b) - (a - b)| ≤ |a - b| * unit := by
  have hy' : ext (neg y) = .fin (-b) := by rw [ext_neg, hy]; rfl
  have := rnd_add_rel hx hy'
  rwa [← sub_eq_add_neg] at this

/-- bounds for a sum that is not negative -/
theorem rnd_add_bounds {x y : B64 σ} {a b : ℚ} (hx : ext x = .fin a) (hy : ext y = .fin b) (h : 0 ≤ a + b) :
    (a + b) * (1 - unit) ≤ rnd (a + b) ∧ rnd (a + b) ≤ (a + b) * (1 + unit) := by
  have := abs_le.1 (rnd_add_rel hx hy)
  rw [abs_of_nonneg h] at this
  constructor <;> linarith [this.1, this.2]

theorem rnd_sub_bounds {x y : B64 σ} {a b : ℚ} (hx : ext x = .fin a) (hy : ext y = .fin b) (h : 0 ≤ a - b) :
    (a - b) * (1 - unit) ≤ rnd (a - b) ∧ rnd (a - b) ≤ (a - b) * (1 + unit) := by
  have := abs_le.1 (rnd_sub_rel hx hy)
  rw [abs_of_nonneg h] at this
  constructor <;> linarith [this.1, this.2]

end CI.B64
