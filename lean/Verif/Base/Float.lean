import Mathlib.Algebra.Order.Field.Basic
import Mathlib.Algebra.Order.Ring.Rat
import Mathlib.Tactic.NormNum
import Mathlib.Tactic.Linarith
import Mathlib.Tactic.Positivity

/-!
# Floating point values

The code computes with numpy/Python float64 values. The model functions are polymorphic over a type
`F` with `FloatOps F`; structural theorems assume only `FloatLaws F`.

The laws are true of IEEE-754 binary64 (proved in `Base/Binary64` for rounding to nearest), if all NaN payloads are
identified (numpy code cannot tell payloads apart except by bit inspection, which the code never does).
Equality of floats in the code (`==`) is the boolean `feq`; it is *not* Lean's equality, because
`-0.0 == 0.0` although the two values differ.

`Fl K` is the instance over an ordered field: exact arithmetic with NaN and infinities
(one zero only). It shows that the laws are consistent, carries the theorems that are about exact
arithmetic, and, for `K = ℚ`, is executable.
-/

namespace CI

/-- Operations of float64 used by the code. -/
class FloatOps (F : Type) extends Add F, Sub F, Mul F, Div F, Neg F where
  /-- `np.nan` -/
  nan : F
  /-- `np.isnan` -/
  isNan : F → Bool
  /-- `x < y` -/
  flt : F → F → Bool
  /-- `x <= y` -/
  fle : F → F → Bool
  /-- `x == y` -/
  feq : F → F → Bool
  /-- a literal of the source text, or the conversion `float(int)` -/
  lit : ℚ → F
  /-- `np.sum` and the inner sums of `np.convolve` with ones: a sum of the list in an order of additions chosen
  by numpy (pairwise, vectorised); the model makes no assumption on that order. -/
  fsum : List F → F

export FloatOps (nan isNan flt fle feq lit fsum)

/-- Laws of IEEE comparison and NaN propagation (independent of rounding). -/
class FloatLaws (F : Type) [FloatOps F] : Prop where
  isNan_iff : ∀ x : F, isNan x = true ↔ x = nan
  nan_add : ∀ x : F, nan + x = nan
  add_nan : ∀ x : F, x + nan = nan
  nan_sub : ∀ x : F, nan - x = nan
  sub_nan : ∀ x : F, x - nan = nan
  nan_mul : ∀ x : F, nan * x = nan
  mul_nan : ∀ x : F, x * nan = nan
  nan_div : ∀ x : F, nan / x = nan
  div_nan : ∀ x : F, x / nan = nan
  neg_nan : -(nan : F) = nan
  fle_nan_left : ∀ x : F, fle nan x = false
  fle_nan_right : ∀ x : F, fle x nan = false
  fle_refl : ∀ x : F, x ≠ nan → fle x x = true
  fle_total : ∀ x y : F, x ≠ nan → y ≠ nan → fle x y = true ∨ fle y x = true
  fle_trans : ∀ x y z : F, fle x y = true → fle y z = true → fle x z = true
  flt_iff : ∀ x y : F, flt x y = true ↔ fle x y = true ∧ fle y x = false
  feq_iff : ∀ x y : F, feq x y = true ↔ fle x y = true ∧ fle y x = true
  lit_ne_nan : ∀ q : ℚ, lit q ≠ (nan : F)
  lit_mono : ∀ p q : ℚ, p ≤ q → fle (lit p : F) (lit q) = true
  /-- integers up to 2^53 are exact, hence distinct -/
  lit_int_lt : ∀ a b : ℤ, |a| ≤ 2 ^ 53 → |b| ≤ 2 ^ 53 → a < b → flt (lit a : F) (lit b) = true
  /-- positive literals that do not underflow are positive -/
  lit_pos : ∀ q : ℚ, 1 / 10 ^ 200 ≤ q → flt (lit 0 : F) (lit q) = true
  fsum_nan : ∀ l : List F, nan ∈ l → fsum l = nan

/-- Monotonicity of rounded arithmetic (IEEE rounding is monotone; proved for binary64 in `Base/Binary64`): an operation keeps
the order of its operands whenever both results are numbers. The last laws are operations that are exact in IEEE
arithmetic (rounding to nearest). -/
class FloatMono (F : Type) [FloatOps F] : Prop where
  add_le_add_left : ∀ x y z : F, fle x y = true → z + x ≠ nan → z + y ≠ nan → fle (z + x) (z + y) = true
  mul_le_mul_left : ∀ x y z : F, fle x y = true → fle (lit 0) z = true → z * x ≠ nan → z * y ≠ nan →
    fle (z * x) (z * y) = true
  div_le_div_right : ∀ x y z : F, fle x y = true → flt (lit 0) z = true → x / z ≠ nan → y / z ≠ nan →
    fle (x / z) (y / z) = true
  sub_le_sub_left : ∀ x y z : F, fle x y = true → z - x ≠ nan → z - y ≠ nan → fle (z - y) (z - x) = true
  one_mul : ∀ x : F, lit 1 * x = x
  one_sub_zero : (lit 1 - lit 0 : F) = lit 1
  one_sub_one : (lit 1 - lit 1 : F) = lit 0
  zero_add_lit : ∀ q : ℚ, 1 / 10 ^ 200 ≤ q → (lit 0 + lit q : F) = lit q
  lit_div_self : ∀ n : ℕ, 0 < n → n ≤ 2 ^ 53 → (lit n / lit n : F) = lit 1

section lemmas
variable {F : Type} [FloatOps F] [L : FloatLaws F]

@[simp] theorem isNan_nan : isNan (nan : F) = true := (L.isNan_iff _).2 rfl

theorem isNan_eq_false_iff (x : F) : isNan x = false ↔ x ≠ nan := by
  rw [← Bool.not_eq_true, L.isNan_iff]

@[simp] theorem isNan_lit (q : ℚ) : isNan (lit q : F) = false :=
  (isNan_eq_false_iff _).2 (L.lit_ne_nan q)

attribute [simp] FloatLaws.nan_add FloatLaws.add_nan FloatLaws.nan_sub FloatLaws.sub_nan
  FloatLaws.nan_mul FloatLaws.mul_nan FloatLaws.nan_div FloatLaws.div_nan FloatLaws.neg_nan
  FloatLaws.fle_nan_left FloatLaws.fle_nan_right

@[simp] theorem flt_nan_left (x : F) : flt nan x = false := by
  rw [← Bool.not_eq_true, L.flt_iff]; simp

@[simp] theorem flt_nan_right (x : F) : flt x nan = false := by
  rw [← Bool.not_eq_true, L.flt_iff]; simp

@[simp] theorem feq_nan_left (x : F) : feq nan x = false := by
  rw [← Bool.not_eq_true, L.feq_iff]; simp

@[simp] theorem feq_nan_right (x : F) : feq x nan = false := by
  rw [← Bool.not_eq_true, L.feq_iff]; simp

theorem ne_nan_of_fle_left {x y : F} (h : fle x y = true) : x ≠ nan := by
  rintro rfl; simp at h

theorem ne_nan_of_fle_right {x y : F} (h : fle x y = true) : y ≠ nan := by
  rintro rfl; simp at h

theorem fle_of_flt {x y : F} (h : flt x y = true) : fle x y = true := ((L.flt_iff _ _).1 h).1

theorem flt_irrefl (x : F) : flt x x = false := by
  rw [← Bool.not_eq_true, L.flt_iff]; rintro ⟨h1, h2⟩; simp [h1] at h2

/-- on non-NaN values, not `x < y` means `y <= x` -/
theorem fle_of_not_flt {x y : F} (hx : x ≠ nan) (hy : y ≠ nan) (h : flt x y = false) :
    fle y x = true := by
  rcases L.fle_total y x hy hx with h' | h'
  · exact h'
  · by_contra hc
    rw [← Bool.not_eq_true, L.flt_iff] at h
    exact h ⟨h', by simpa using hc⟩

theorem flt_of_not_fle {x y : F} (hx : x ≠ nan) (hy : y ≠ nan) (h : fle x y = false) :
    flt y x = true := by
  rw [L.flt_iff]
  refine ⟨?_, h⟩
  rcases L.fle_total x y hx hy with h' | h'
  · simp [h'] at h
  · exact h'

theorem not_flt_of_fle {x y : F} (h : fle x y = true) : flt y x = false := by
  rw [← Bool.not_eq_true, L.flt_iff]; rintro ⟨_, h2⟩; simp [h] at h2

theorem flt_of_flt_of_fle {x y z : F} (h1 : flt x y = true) (h2 : fle y z = true) :
    flt x z = true := by
  rw [L.flt_iff] at *
  refine ⟨L.fle_trans _ _ _ h1.1 h2, ?_⟩
  rw [← Bool.not_eq_true]; intro h3
  have := L.fle_trans _ _ _ h2 h3
  simp [this] at h1

theorem flt_of_fle_of_flt {x y z : F} (h1 : fle x y = true) (h2 : flt y z = true) :
    flt x z = true := by
  rw [L.flt_iff] at *
  refine ⟨L.fle_trans _ _ _ h1 h2.1, ?_⟩
  rw [← Bool.not_eq_true]; intro h3
  have := L.fle_trans _ _ _ h3 h1
  simp [this] at h2

theorem lit_zero_lt_one : flt (lit 0 : F) (lit 1) = true := L.lit_pos 1 (by norm_num)

theorem lit_neg_one_lt_zero : flt (lit (-1) : F) (lit 0) = true := by
  have := L.lit_int_lt (-1) 0 (by norm_num) (by norm_num) (by norm_num)
  simpa using this

theorem feq_symm {x y : F} (h : feq x y = true) : feq y x = true := by
  rw [L.feq_iff] at *; exact ⟨h.2, h.1⟩

theorem feq_refl {x : F} (h : x ≠ nan) : feq x x = true := by
  rw [L.feq_iff]; exact ⟨L.fle_refl x h, L.fle_refl x h⟩

end lemmas

/-- Extended numbers over `K`: exact arithmetic, NaN, infinities. -/
inductive Fl (K : Type) where
  | nan : Fl K
  | ninf : Fl K
  | fin : K → Fl K
  | pinf : Fl K
  deriving DecidableEq, Repr

namespace Fl
variable {K : Type} [Field K] [LinearOrder K]

/-- IEEE addition without rounding: `inf + (-inf)` is NaN. -/
def add : Fl K → Fl K → Fl K
  | .nan, _ => .nan
  | _, .nan => .nan
  | .fin a, .fin b => .fin (a + b)
  | .pinf, .ninf => .nan
  | .ninf, .pinf => .nan
  | .pinf, _ => .pinf
  | _, .pinf => .pinf
  | .ninf, _ => .ninf
  | _, .ninf => .ninf

def neg : Fl K → Fl K
  | .nan => .nan
  | .fin a => .fin (-a)
  | .pinf => .ninf
  | .ninf => .pinf

/-- infinity with the sign of `a`; NaN for `a = 0` (used for `0 * inf` and `0 / 0`) -/
def infSign (a : K) : Fl K := if a = 0 then .nan else if 0 < a then .pinf else .ninf

/-- IEEE multiplication without rounding: `0 * inf` is NaN. -/
def mul : Fl K → Fl K → Fl K
  | .nan, _ => .nan
  | _, .nan => .nan
  | .fin a, .fin b => .fin (a * b)
  | .pinf, .pinf => .pinf
  | .pinf, .ninf => .ninf
  | .ninf, .pinf => .ninf
  | .ninf, .ninf => .pinf
  | .pinf, .fin a => infSign a
  | .fin a, .pinf => infSign a
  | .ninf, .fin a => neg (infSign a)
  | .fin a, .ninf => neg (infSign a)

/-- numpy division: `a / 0` is an infinity with the sign of `a`, `0 / 0` is NaN (the only zero is `+0`). -/
def div : Fl K → Fl K → Fl K
  | .nan, _ => .nan
  | _, .nan => .nan
  | .fin a, .fin b => if b = 0 then infSign a else .fin (a / b)
  | .fin _, .pinf => .fin 0
  | .fin _, .ninf => .fin 0
  | .pinf, .fin b => if 0 ≤ b then .pinf else .ninf
  | .ninf, .fin b => if 0 ≤ b then .ninf else .pinf
  | .pinf, .pinf => .nan
  | .pinf, .ninf => .nan
  | .ninf, .pinf => .nan
  | .ninf, .ninf => .nan

def le : Fl K → Fl K → Bool
  | .nan, _ => false
  | _, .nan => false
  | .ninf, _ => true
  | _, .pinf => true
  | .fin a, .fin b => decide (a ≤ b)
  | .fin _, .ninf => false
  | .pinf, .fin _ => false
  | .pinf, .ninf => false

def isnan : Fl K → Bool
  | .nan => true
  | _ => false

instance instFloatOps : FloatOps (Fl K) where
  add := add
  sub := fun x y => add x (neg y)
  mul := mul
  div := div
  neg := neg
  nan := .nan
  isNan := isnan
  flt := fun x y => le x y && !le y x
  fle := le
  feq := fun x y => le x y && le y x
  lit := fun q => .fin (q : K)
  fsum := fun l => l.foldr add (.fin 0)

theorem nan_def : (CI.nan : Fl K) = .nan := rfl
theorem lit_def (q : ℚ) : (CI.lit q : Fl K) = .fin (q : K) := rfl
@[simp] theorem fin_add (a b : K) : (Fl.fin a + Fl.fin b) = .fin (a + b) := rfl
@[simp] theorem fin_sub (a b : K) : (Fl.fin a - Fl.fin b) = .fin (a - b) := by
  show Fl.fin (a + -b) = _; rw [sub_eq_add_neg]
@[simp] theorem fin_mul (a b : K) : (Fl.fin a * Fl.fin b) = .fin (a * b) := rfl
@[simp] theorem fin_neg (a : K) : -(Fl.fin a) = .fin (-a) := rfl
theorem fin_div (a b : K) : (Fl.fin a / Fl.fin b) = if b = 0 then infSign a else .fin (a / b) := rfl
theorem fin_div_of_ne (a b : K) (h : b ≠ 0) : (Fl.fin a / Fl.fin b) = .fin (a / b) := by
  rw [fin_div, if_neg h]
@[simp] theorem fle_fin (a b : K) : fle (Fl.fin a) (Fl.fin b) = decide (a ≤ b) := rfl
@[simp] theorem flt_fin (a b : K) : flt (Fl.fin a) (Fl.fin b) = decide (a < b) := by
  show (decide (a ≤ b) && !decide (b ≤ a)) = _
  rw [Bool.eq_iff_iff]
  simp only [Bool.and_eq_true, decide_eq_true_eq, Bool.not_eq_true', decide_eq_false_iff_not, not_le]
  exact ⟨fun h => h.2, fun h => ⟨h.le, h⟩⟩
@[simp] theorem feq_fin (a b : K) : feq (Fl.fin a) (Fl.fin b) = decide (a = b) := by
  show (decide (a ≤ b) && decide (b ≤ a)) = _
  rw [Bool.eq_iff_iff]
  simp only [Bool.and_eq_true, decide_eq_true_eq]
  exact ⟨fun h => le_antisymm h.1 h.2, fun h => ⟨h.le, h.ge⟩⟩
@[simp] theorem isNan_fin (a : K) : isNan (Fl.fin a) = false := rfl
@[simp] theorem isNan_pinf : isNan (Fl.pinf : Fl K) = false := rfl
@[simp] theorem isNan_ninf : isNan (Fl.ninf : Fl K) = false := rfl
@[simp] theorem isNan_Flnan : isNan (Fl.nan : Fl K) = true := rfl
@[simp] theorem fin_ne_nan (a : K) : Fl.fin a ≠ CI.nan := by intro h; cases h

variable [IsStrictOrderedRing K]

instance instFloatLaws : FloatLaws (Fl K) where
  isNan_iff := by intro x; cases x <;> simp [nan_def, isNan, isnan]
  nan_add := by intro x; cases x <;> rfl
  add_nan := by intro x; cases x <;> rfl
  nan_sub := by intro x; cases x <;> rfl
  sub_nan := by intro x; cases x <;> rfl
  nan_mul := by intro x; cases x <;> rfl
  mul_nan := by intro x; cases x <;> rfl
  nan_div := by intro x; cases x <;> rfl
  div_nan := by intro x; cases x <;> rfl
  neg_nan := rfl
  fle_nan_left := by intro x; cases x <;> rfl
  fle_nan_right := by intro x; cases x <;> rfl
  fle_refl := by intro x h; cases x <;> simp_all [nan_def, fle, le]
  fle_total := by
    intro x y hx hy
    cases x <;> cases y <;> simp_all [nan_def, fle, le]
    exact le_total _ _
  fle_trans := by
    intro x y z
    cases x <;> cases y <;> cases z <;> simp [fle, le]
    exact le_trans
  flt_iff := by intro x y; simp [flt, fle]
  feq_iff := by intro x y; simp [feq, fle]
  lit_ne_nan := by intro q h; cases h
  lit_mono := by
    intro p q h
    simp only [lit_def, fle_fin, decide_eq_true_eq]
    exact_mod_cast h
  lit_int_lt := by
    intro a b _ _ h
    simp only [lit_def, flt_fin, decide_eq_true_eq]
    exact_mod_cast h
  lit_pos := by
    intro q h
    simp only [lit_def, flt_fin, decide_eq_true_eq]
    have : (0 : ℚ) < q := lt_of_lt_of_le (by positivity) h
    exact_mod_cast this
  fsum_nan := by
    intro l h
    show l.foldr add (.fin 0) = .nan
    induction l with
    | nil => simp at h
    | cons a l ih =>
      rw [List.foldr_cons]
      rcases List.mem_cons.1 h with h | h
      · rw [← h]; rfl
      · rw [ih h]; cases a <;> rfl

omit [IsStrictOrderedRing K] in
@[simp] theorem fsum_fin (l : List K) : fsum (l.map Fl.fin) = .fin l.sum := by
  show (l.map Fl.fin).foldr add (.fin 0) = _
  induction l with
  | nil => rfl
  | cons a l ih => rw [List.map_cons, List.foldr_cons, ih, List.sum_cons]; rfl

omit [IsStrictOrderedRing K] in
theorem infSign_mono {a b : K} (h : a ≤ b) (ha : infSign a ≠ .nan) (hb : infSign b ≠ .nan) :
    le (infSign a) (infSign b) = true := by
  unfold infSign at *
  by_cases h1 : a = 0
  · simp [h1] at ha
  by_cases h2 : b = 0
  · simp [h2] at hb
  simp only [h1, h2, if_false] at *
  by_cases h3 : 0 < a
  · have : 0 < b := lt_of_lt_of_le h3 h
    simp [h3, this, le]
  · simp only [h3, if_false]
    split <;> rfl

instance instFloatMono : FloatMono (Fl K) where
  add_le_add_left := by
    intro x y z h h1 h2
    change add z x ≠ .nan at h1
    change add z y ≠ .nan at h2
    change le x y = true at h
    show le (add z x) (add z y) = true
    cases x <;> cases y <;> cases z <;> simp_all [add, le]
  mul_le_mul_left := by
    intro x y z h hz h1 h2
    change mul z x ≠ .nan at h1
    change mul z y ≠ .nan at h2
    change le x y = true at h
    change le (.fin ((0 : ℚ) : K)) z = true at hz
    show le (mul z x) (mul z y) = true
    cases z with
    | nan => simp [mul] at h1
    | ninf => simp [le] at hz
    | fin c =>
      have hc : 0 ≤ c := by simpa [le] using hz
      cases x <;> cases y <;> simp only [mul, le, infSign, neg] at * <;>
        (try exact absurd rfl h1) <;> (try exact absurd rfl h2) <;> (try exact absurd h (by decide))
      all_goals
        by_cases hc0 : c = 0
        · simp [hc0] at *
        · have hcp : 0 < c := lt_of_le_of_ne hc (Ne.symm hc0)
          simp_all
    | pinf =>
      cases x <;> cases y <;> simp only [mul, le, decide_eq_true_eq] at * <;>
        (try exact absurd rfl h1) <;> (try exact absurd rfl h2) <;> (try exact absurd h (by decide))
      · rename_i a b; exact infSign_mono h h1 h2
      · rename_i a; cases ha : infSign a <;> simp_all
  div_le_div_right := by
    intro x y z h hz h1 h2
    change div x z ≠ .nan at h1
    change div y z ≠ .nan at h2
    change le x y = true at h
    change flt (Fl.fin ((0 : ℚ) : K)) z = true at hz
    show le (div x z) (div y z) = true
    cases z with
    | nan => cases x <;> simp [div] at h1
    | ninf => simp [flt, le] at hz
    | fin c =>
      have hc : 0 < c := by simpa using hz
      have hc0 : c ≠ 0 := ne_of_gt hc
      cases x <;> cases y <;> simp_all [div, le, hc.le]
      exact div_le_div_of_nonneg_right h hc.le
    | pinf =>
      cases x <;> cases y <;> simp_all [div, le]
  sub_le_sub_left := by
    intro x y z h h1 h2
    change add z (neg x) ≠ .nan at h1
    change add z (neg y) ≠ .nan at h2
    change le x y = true at h
    show le (add z (neg y)) (add z (neg x)) = true
    cases x <;> cases y <;> cases z <;> simp_all [add, le, neg]
    linarith
  one_mul := by
    intro x
    show mul (.fin ((1 : ℚ) : K)) x = x
    cases x <;> simp [mul, infSign, neg]
  one_sub_zero := by simp [lit_def]
  one_sub_one := by simp [lit_def]
  zero_add_lit := by intro q _; simp [lit_def]
  lit_div_self := by
    intro n hn _
    have : ((n : ℚ) : K) ≠ 0 := by
      have : (n : K) ≠ 0 := Nat.cast_ne_zero.2 (by omega)
      simpa using this
    rw [lit_def, fin_div_of_ne _ _ this, div_self this]; simp [lit_def]

end Fl
end CI
