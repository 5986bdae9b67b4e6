import Verif.Spec.Ext
import Mathlib.Analysis.SpecialFunctions.Log.Basic
import Mathlib.Analysis.SpecialFunctions.Gamma.Basic
import Mathlib.Analysis.SpecialFunctions.Pow.Real
import Mathlib.MeasureTheory.Integral.IntervalIntegral.Basic

/-!
# The elementary functions on real numbers

`ExtReal` says that `log`, `sqrt`, `exp`, `lgamma`, `pi` are the mathematical functions, and that the gamma distribution
function depends on its argument and its scale through their ratio only. Used by the theorems about exact arithmetic. `realExt` is
an instance.
-/

namespace CI

/-- exact elementary functions -/
structure ExtReal (E : Ext (Fl ℝ)) : Prop where
  log_pos : ∀ a : ℝ, 0 < a → E.log (.fin a) = .fin (Real.log a)
  sqrt_nonneg : ∀ a : ℝ, 0 ≤ a → E.sqrt (.fin a) = .fin (Real.sqrt a)
  exp_fin : ∀ a : ℝ, E.exp (.fin a) = .fin (Real.exp a)
  lgamma_pos : ∀ a : ℝ, 0 < a → E.lgamma (.fin a) = .fin (Real.log (Real.Gamma a))
  pi_eq : E.pi = .fin Real.pi
  gammaCdf_scale : ∀ (c x s : ℝ) (a : Fl ℝ), 0 < c → E.gammaCdf (.fin (c * x)) a (.fin (c * s)) = E.gammaCdf (.fin x) a (.fin s)
  gammaCdf_nan_scale : ∀ x a, E.gammaCdf x a .nan = .nan

/-- regularised lower incomplete gamma function -/
noncomputable def gammaP (a x : ℝ) : ℝ := (∫ t in (0 : ℝ)..x, t ^ (a - 1) * Real.exp (-t)) / Real.Gamma a

/-- real functions; the Pearson distribution function and the normal quantile are stand-ins -/
noncomputable def realExt : Ext (Fl ℝ) where
  log := fun x => match x with
    | .fin a => if 0 < a then .fin (Real.log a) else if a = 0 then .ninf else .nan
    | .pinf => .pinf
    | _ => .nan
  sqrt := fun x => match x with
    | .fin a => if 0 ≤ a then .fin (Real.sqrt a) else .nan
    | .pinf => .pinf
    | _ => .nan
  exp := fun x => match x with
    | .fin a => .fin (Real.exp a)
    | .pinf => .pinf
    | .ninf => .fin 0
    | .nan => .nan
  lgamma := fun x => match x with
    | .fin a => if 0 < a then .fin (Real.log (Real.Gamma a)) else .pinf
    | .nan => .nan
    | _ => .pinf
  pi := .fin Real.pi
  gammaCdf := fun x a s => match x, a, s with
    | .fin x, .fin a, .fin s => if 0 < a ∧ 0 < s then .fin (if x ≤ 0 then 0 else gammaP a (x / s)) else .nan
    | _, _, _ => .nan
  pearson3Cdf := fun x _ _ _ => match x with
    | .fin a => if a ≤ 0 then .fin 0 else .fin (a / (a + 1))
    | .pinf => .fin 1
    | .ninf => .fin 0
    | .nan => .nan
  normPpf := fun x => match x with
    | .fin p => if 0 ≤ p ∧ p ≤ 1 then .fin (8 * (p - 1 / 2)) else .nan
    | _ => .nan

theorem realExt_real : ExtReal realExt where
  log_pos := by intro a h; simp [realExt, h]
  sqrt_nonneg := by intro a h; simp [realExt, h]
  exp_fin := by intro a; rfl
  lgamma_pos := by intro a h; simp [realExt, h]
  pi_eq := rfl
  gammaCdf_scale := by
    intro c x s a hc
    have hc0 : c ≠ 0 := ne_of_gt hc
    cases a <;> simp only [realExt]
    have h1 : (0 < c * s) = (0 < s) := by simp [hc]
    have h2 : (c * x ≤ 0) = (x ≤ 0) := by
      apply propext
      constructor
      · intro h; by_contra hx; have := mul_pos hc (not_le.1 hx); linarith
      · intro h; exact mul_nonpos_of_nonneg_of_nonpos hc.le h
    have h3 : c * x / (c * s) = x / s := mul_div_mul_left x s hc0
    simp only [h1, h2, h3]
  gammaCdf_nan_scale := by intro x a; cases x <;> cases a <;> rfl

theorem realExt_nan : ExtNan realExt where
  log_nan := rfl
  gammaCdf_nan := by intro a s; rfl
  gammaCdf_nan_shape := by intro x s; cases x <;> rfl
  pearson3Cdf_nan := by intro a b c; rfl
  normPpf_nan := rfl

end CI
