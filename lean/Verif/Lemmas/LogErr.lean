import Mathlib.Analysis.SpecialFunctions.Pow.Real
import Mathlib.Analysis.Complex.ExponentialBounds
import Verif.Lemmas.Near64
import Verif.Lemmas.Palmer64
import Verif.Lemmas.DaylightNear

/-!
# Errors as factors

`LogE e a b`: the non-negative numbers `a` and `b` differ by a factor of at most `exp e`. Such errors add up in products and quotients, and are multiplied by the exponent in powers.
-/

namespace CI
open B64

variable {σ : SumOrder}

structure LogE (e a b : ℝ) : Prop where
  left : 0 ≤ a
  right : 0 ≤ b
  up : a ≤ b * Real.exp e
  down : b ≤ a * Real.exp e

namespace LogE

variable {e f a b c d : ℝ}

theorem refl (h : 0 ≤ a) : LogE 0 a a := ⟨h, h, by simp, by simp⟩

theorem symm (h : LogE e a b) : LogE e b a := ⟨h.right, h.left, h.down, h.up⟩

theorem mono (h : LogE e a b) (hf : e ≤ f) : LogE f a b :=
  ⟨h.left, h.right, h.up.trans (mul_le_mul_of_nonneg_left (Real.exp_le_exp.2 hf) h.right), h.down.trans (mul_le_mul_of_nonneg_left (Real.exp_le_exp.2 hf) h.left)⟩

theorem trans (h : LogE e a b) (h' : LogE f b c) : LogE (e + f) a c := by
  refine ⟨h.left, h'.right, ?_, ?_⟩
  · refine h.up.trans ((mul_le_mul_of_nonneg_right h'.up (Real.exp_pos _).le).trans (le_of_eq ?_))
    rw [Real.exp_add]; ring
  · refine h'.down.trans ((mul_le_mul_of_nonneg_right h.down (Real.exp_pos _).le).trans (le_of_eq ?_))
    rw [Real.exp_add]; ring

theorem mul (h : LogE e a b) (h' : LogE f c d) : LogE (e + f) (a * c) (b * d) := by
  refine ⟨mul_nonneg h.left h'.left, mul_nonneg h.right h'.right, ?_, ?_⟩
  · refine (mul_le_mul h.up h'.up h'.left (mul_nonneg h.right (Real.exp_pos _).le)).trans (le_of_eq ?_)
    rw [Real.exp_add]; ring
  · refine (mul_le_mul h.down h'.down h'.right (mul_nonneg h.left (Real.exp_pos _).le)).trans (le_of_eq ?_)
    rw [Real.exp_add]; ring

theorem pos_iff (h : LogE e a b) : 0 < a ↔ 0 < b := by
  constructor
  · intro ha
    by_contra hb
    have : b = 0 := le_antisymm (not_lt.1 hb) h.right
    have := h.up
    simp_all
    linarith
  · intro hb
    by_contra ha
    have : a = 0 := le_antisymm (not_lt.1 ha) h.left
    have := h.down
    simp_all
    linarith

theorem inv (h : LogE e a b) : LogE e a⁻¹ b⁻¹ := by
  rcases h.left.eq_or_lt with ha | ha
  · have hb : b = 0 := by
      by_contra hb
      have := h.pos_iff.2 (lt_of_le_of_ne h.right (Ne.symm hb))
      linarith
    rw [← ha, hb]
    exact ⟨by simp, by simp, by simp, by simp⟩
  · have hb := h.pos_iff.1 ha
    refine ⟨(inv_pos.2 ha).le, (inv_pos.2 hb).le, ?_, ?_⟩
    · rw [inv_le_iff_one_le_mul₀ ha, mul_assoc, ← div_eq_inv_mul, one_le_div hb, mul_comm]; exact h.down
    · rw [inv_le_iff_one_le_mul₀ hb, mul_assoc, ← div_eq_inv_mul, one_le_div ha, mul_comm]; exact h.up

theorem div (h : LogE e a b) (h' : LogE f c d) : LogE (e + f) (a / c) (b / d) := by
  rw [div_eq_mul_inv, div_eq_mul_inv]
  exact h.mul h'.inv

theorem add (h : LogE e a b) (h' : LogE e c d) : LogE e (a + c) (b + d) :=
  ⟨add_nonneg h.left h'.left, add_nonneg h.right h'.right, by have := h.up; have := h'.up; linarith, by have := h.down; have := h'.down; linarith⟩

theorem sum {ι : Type} (l : List ι) (u v : ι → ℝ) (h : ∀ i ∈ l, LogE e (u i) (v i)) : LogE e (l.map u).sum (l.map v).sum := by
  induction l with
  | nil => exact ⟨by simp, by simp, by simp, by simp⟩
  | cons i l ih =>
    rw [List.map_cons, List.map_cons, List.sum_cons, List.sum_cons]
    exact (h i (by simp)).add (ih fun j hj => h j (List.mem_cons_of_mem _ hj))

theorem rpow (h : LogE e a b) {y : ℝ} (hy : 0 ≤ y) : LogE (y * e) (a ^ y) (b ^ y) := by
  refine ⟨Real.rpow_nonneg h.left _, Real.rpow_nonneg h.right _, ?_, ?_⟩
  · refine (Real.rpow_le_rpow h.left h.up hy).trans (le_of_eq ?_)
    rw [Real.mul_rpow h.right (Real.exp_pos _).le, ← Real.exp_mul, mul_comm e]
  · refine (Real.rpow_le_rpow h.right h.down hy).trans (le_of_eq ?_)
    rw [Real.mul_rpow h.left (Real.exp_pos _).le, ← Real.exp_mul, mul_comm e]

/-- another exponent -/
theorem exponent (ha : 0 < a) (y z : ℝ) : LogE (|y - z| * |Real.log a|) (a ^ y) (a ^ z) := by
  have key : ∀ y z : ℝ, a ^ y ≤ a ^ z * Real.exp (|y - z| * |Real.log a|) := by
    intro y z
    rw [Real.rpow_def_of_pos ha, Real.rpow_def_of_pos ha, ← Real.exp_add, Real.exp_le_exp]
    have := le_abs_self ((y - z) * Real.log a)
    rw [abs_mul] at this
    linarith
  refine ⟨(Real.rpow_pos_of_pos ha _).le, (Real.rpow_pos_of_pos ha _).le, key y z, ?_⟩
  rw [abs_sub_comm]
  exact key z y

theorem of_rel {δ : ℝ} (hb : 0 ≤ b) (h : |a - b| ≤ b * δ) (h0 : 0 ≤ δ) (h1 : δ ≤ 1 / 2) : LogE (2 * δ) a b := by
  have h' := abs_le.1 h
  have ha : b * (1 - δ) ≤ a := by linarith [h'.1]
  have ha0 : 0 ≤ a := (mul_nonneg hb (by linarith)).trans ha
  have e1 := Real.add_one_le_exp (2 * δ)
  refine ⟨ha0, hb, ?_, ?_⟩
  · have := mul_le_mul_of_nonneg_left e1 hb
    have := mul_nonneg hb h0
    linarith [h'.2]
  · have h2 := mul_le_mul ha e1 (by linarith) ha0
    have h3 : b ≤ b * (1 - δ) * (2 * δ + 1) := by
      have : b * (1 - δ) * (2 * δ + 1) = b + b * (δ * (1 - 2 * δ)) := by ring
      have := mul_nonneg hb (mul_nonneg h0 (by linarith : 0 ≤ 1 - 2 * δ))
      linarith
    linarith

theorem rel (h : LogE e a b) (h0 : 0 ≤ e) (h1 : e ≤ 1) : |a - b| ≤ b * (2 * e) := by
  have h2 : Real.exp e ≤ 1 + 2 * e := by
    have := Real.abs_exp_sub_one_sub_id_le (x := e) (by rw [abs_of_nonneg h0]; exact h1)
    have := (abs_le.1 this).2
    nlinarith
  have h3 := mul_le_mul_of_nonneg_left h2 h.right
  rw [abs_le]
  refine ⟨?_, by linarith [h.up]⟩
  -- a ≥ b exp(-e) ≥ b (1 - e)
  have h4 : b * Real.exp (-e) ≤ a := by
    have := mul_le_mul_of_nonneg_right h.down (Real.exp_pos (-e)).le
    rwa [mul_assoc, ← Real.exp_add, add_neg_cancel, Real.exp_zero, mul_one] at this
  have h5 := mul_le_mul_of_nonneg_left (Real.add_one_le_exp (-e)) h.right
  have := mul_nonneg h.right h0
  linarith

/-- a factor of at most three for errors up to 1 -/
theorem le_three (h : LogE e a b) (h1 : e ≤ 1) : a ≤ 3 * b ∧ b ≤ 3 * a := by
  have h2 : Real.exp e ≤ 3 := (Real.exp_le_exp.2 h1).trans (by have := Real.exp_one_lt_d9; linarith)
  exact ⟨h.up.trans (by have := mul_le_mul_of_nonneg_left h2 h.right; linarith), h.down.trans (by have := mul_le_mul_of_nonneg_left h2 h.left; linarith)⟩

theorem log_le (h : LogE e a b) (hb : 0 < b) : |Real.log a - Real.log b| ≤ e := by
  have ha := h.pos_iff.2 hb
  have h1 := Real.log_le_log ha h.up
  have h2 := Real.log_le_log hb h.down
  rw [Real.log_mul hb.ne' (Real.exp_pos _).ne', Real.log_exp] at h1
  rw [Real.log_mul ha.ne' (Real.exp_pos _).ne', Real.log_exp] at h2
  rw [abs_le]
  constructor <;> linarith

end LogE

/-- rounding of a number of normal size -/
theorem LogE_rnd {q : ℚ} (h0 : 0 ≤ q) (h : q = 0 ∨ (2 : ℚ) ^ (-1022 : ℤ) ≤ q) : LogE (1 / 2 ^ 52) ((rnd q : ℚ) : ℝ) q := by
  rcases h with rfl | h
  · rw [rnd_zero]; exact (LogE.refl (by norm_num)).mono (by norm_num)
  · have h1 := rnd_rel (q := q) (by rwa [abs_of_nonneg h0])
    rw [abs_of_nonneg h0] at h1
    have h2 : ((|rnd q - q| : ℚ) : ℝ) ≤ ((q * unit : ℚ) : ℝ) := by exact_mod_cast h1
    rw [Rat.cast_abs, Rat.cast_sub, Rat.cast_mul, unit_real] at h2
    exact (LogE.of_rel (by exact_mod_cast h0) h2 (by norm_num) (by norm_num)).mono (by norm_num)

theorem LogE_close {c : ℕ} {a b : ℚ} (h : Close c a b) (hc : c ≤ 2 ^ 50) : LogE (c / 2 ^ 51) (a : ℝ) b := by
  have h1 := h.error (hc.trans (by norm_num))
  have h2 : ((|a - b| : ℚ) : ℝ) ≤ ((b * (2 * c * unit) : ℚ) : ℝ) := by exact_mod_cast h1
  rw [Rat.cast_abs, Rat.cast_sub, Rat.cast_mul, Rat.cast_mul, unit_real] at h2
  push_cast at h2
  have hc' : (c : ℝ) ≤ 2 ^ 50 := by exact_mod_cast hc
  refine (LogE.of_rel (by exact_mod_cast h.nonneg) h2 (by positivity) ?_).mono (le_of_eq ?_)
  · have := mul_le_mul_of_nonneg_right hc' (show (0 : ℝ) ≤ 2 * (1 / 2 ^ 53) by norm_num)
    norm_num at this ⊢
    linarith
  · ring

/-! ## Operations -/

/-- a float64 number that is `A` up to the factor `exp e` -/
def Val (e A : ℝ) (x : B64 σ) : Prop := ∃ a : ℚ, ext x = .fin a ∧ LogE e (a : ℝ) A

theorem Val.mono {e f A : ℝ} {x : B64 σ} (h : Val e A x) (hf : e ≤ f) : Val f A x := by
  obtain ⟨a, ha, hl⟩ := h
  exact ⟨a, ha, hl.mono hf⟩

/-- the range of the results: zero, or between 2^-900 and 2^200 -/
def InRange (A : ℝ) : Prop := (A = 0 ∨ (2 : ℝ) ^ (-900 : ℤ) ≤ A) ∧ A ≤ 2 ^ (200 : ℤ)

theorem inRange_rat {e A : ℝ} {a : ℚ} (h : LogE e (a : ℝ) A) (he : e ≤ 1) (hA : InRange A) :
    0 ≤ a ∧ (a = 0 ∨ (2 : ℚ) ^ (-1022 : ℤ) ≤ a) ∧ |a| ≤ 2 ^ 240 := by
  obtain ⟨h3, h4⟩ := h.le_three he
  have ha0 : 0 ≤ a := by exact_mod_cast h.left
  refine ⟨ha0, ?_, ?_⟩
  · rcases hA.1 with rfl | hl
    · left
      have : (a : ℝ) = 0 := le_antisymm (by linarith) h.left
      exact_mod_cast this
    · right
      have h5 : (2 : ℝ) ^ (-1022 : ℤ) ≤ a := by
        have h6 : (3 : ℝ) * 2 ^ (-1022 : ℤ) ≤ 2 ^ (-900 : ℤ) := by
          have e1 : (2 : ℝ) ^ (-900 : ℤ) = 2 ^ (122 : ℤ) * 2 ^ (-1022 : ℤ) := by rw [← zpow_add₀ (by norm_num)]; norm_num
          rw [e1]
          exact mul_le_mul_of_nonneg_right (by norm_num) (by positivity)
        have h7 : (3 : ℝ) * 2 ^ (-1022 : ℤ) ≤ 3 * a := h6.trans (hl.trans h4)
        exact le_of_mul_le_mul_left h7 (by norm_num)
      have h8 : ((2 ^ (-1022 : ℤ) : ℚ) : ℝ) ≤ (a : ℝ) := by rw [Rat.cast_zpow, Rat.cast_ofNat]; exact h5
      exact_mod_cast h8
  · rw [abs_of_nonneg ha0]
    have h5 : (a : ℝ) ≤ ((2 ^ 240 : ℚ) : ℝ) := by
      push_cast
      have h6 := hA.2
      have h7 : (3 : ℝ) * 2 ^ (200 : ℤ) ≤ 2 ^ 240 := by norm_num
      linarith
    exact_mod_cast h5

theorem val_mul {e f A B : ℝ} {x y : B64 σ} (hx : Val e A x) (hy : Val f B y) (hr : InRange (A * B)) (hef : e + f ≤ 1) : Val (e + f + 1 / 2 ^ 52) (A * B) (x * y) := by
  obtain ⟨a, ha, la⟩ := hx
  obtain ⟨b, hb, lb⟩ := hy
  have hl : LogE (e + f) ((a * b : ℚ) : ℝ) (A * B) := by rw [Rat.cast_mul]; exact la.mul lb
  obtain ⟨h1, h2, h3⟩ := inRange_rat hl hef hr
  exact ⟨_, fin_mul ha hb (below_max h3), ((LogE_rnd h1 h2).trans hl).mono (by linarith)⟩

theorem val_div {e f A B : ℝ} {x y : B64 σ} (hx : Val e A x) (hy : Val f B y) (hB : 0 < B) (hr : InRange (A / B)) (hef : e + f ≤ 1) : Val (e + f + 1 / 2 ^ 52) (A / B) (x / y) := by
  obtain ⟨a, ha, la⟩ := hx
  obtain ⟨b, hb, lb⟩ := hy
  have hl : LogE (e + f) ((a / b : ℚ) : ℝ) (A / B) := by rw [Rat.cast_div]; exact la.div lb
  obtain ⟨h1, h2, h3⟩ := inRange_rat hl hef hr
  have hb0 : b ≠ 0 := by
    have := lb.pos_iff.2 hB
    exact_mod_cast this.ne'
  exact ⟨_, fin_div ha hb hb0 (below_max h3), ((LogE_rnd h1 h2).trans hl).mono (by linarith)⟩

theorem val_lit {q : ℚ} (h : 1 / 10 ^ 10 ≤ q) (h' : q ≤ 10 ^ 10) : Val (1 / 2 ^ 52) (q : ℝ) (lit q : B64 σ) := by
  have h0 : 0 ≤ q := le_trans (by norm_num) h
  refine ⟨rnd q, ext_lit64 q (below_max ?_), LogE_rnd h0 (Or.inr ?_)⟩
  · rw [abs_of_nonneg h0]; exact h'.trans (by norm_num)
  · exact (zpow_le_zpow_right₀ (by norm_num) (show (-1022 : ℤ) ≤ -40 by norm_num)).trans (le_trans (by norm_num) h)

theorem val_nat {k : ℕ} (h : k ≤ 2 ^ 53) : Val 0 (k : ℝ) (lit (k : ℚ) : B64 σ) :=
  ⟨k, natlit h, by rw [Rat.cast_natCast]; exact LogE.refl (Nat.cast_nonneg k)⟩

end CI
