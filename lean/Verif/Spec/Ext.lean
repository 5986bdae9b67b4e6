import Verif.Model.Compute

/-!
# Assumptions about the special functions

`ExtNan` is what the structural theorems assume of numpy/scipy: a missing argument gives a missing result.
`ExtMono` is the order part used for C15. `toyExt` is an executable instance that satisfies both (it is not
the real functions; it shows that the assumptions are consistent and is used for concrete runs).
-/

namespace CI

/-- NaN in, NaN out. -/
structure ExtNan {F : Type} [FloatOps F] (E : Ext F) : Prop where
  log_nan : E.log nan = nan
  gammaCdf_nan : ∀ a s, E.gammaCdf nan a s = nan
  gammaCdf_nan_shape : ∀ x s, E.gammaCdf x nan s = nan
  pearson3Cdf_nan : ∀ a b c, E.pearson3Cdf nan a b c = nan
  normPpf_nan : E.normPpf nan = nan

/-- The distribution functions and the normal quantile are non-decreasing where they are defined; probabilities are
between 0 and 1; the quantiles of 0.0005 and 0.9995 are beyond -3.09 and 3.09 (they are -3.2905 and 3.2905). -/
structure ExtMono {F : Type} [FloatOps F] (E : Ext F) : Prop where
  gammaCdf_mono : ∀ x y a s, fle x y = true → E.gammaCdf x a s ≠ nan → E.gammaCdf y a s ≠ nan →
    fle (E.gammaCdf x a s) (E.gammaCdf y a s) = true
  pearson3Cdf_mono : ∀ x y a b c, fle x y = true → E.pearson3Cdf x a b c ≠ nan → E.pearson3Cdf y a b c ≠ nan →
    fle (E.pearson3Cdf x a b c) (E.pearson3Cdf y a b c) = true
  pearson3Cdf_nonneg : ∀ x a b c, E.pearson3Cdf x a b c ≠ nan → fle (lit 0) (E.pearson3Cdf x a b c) = true
  normPpf_mono : ∀ x y, fle x y = true → E.normPpf x ≠ nan → E.normPpf y ≠ nan →
    fle (E.normPpf x) (E.normPpf y) = true
  normPpf_low : fle (E.normPpf (lit 0.0005)) (lit (-3.09)) = true
  normPpf_high : fle (lit 3.09) (E.normPpf (lit 0.9995)) = true

/-- a distribution function on the rationals: `x / (x + 1)` for positive `x` -/
def toyCdf : Fl ℚ → Fl ℚ
  | .nan => .nan
  | .ninf => .fin 0
  | .pinf => .fin 1
  | .fin x => if x ≤ 0 then .fin 0 else .fin (x / (x + 1))

/-- an executable stand-in for the special functions -/
def toyExt : Ext (Fl ℚ) where
  log := fun x => match x with
    | .nan => .nan
    | .ninf => .nan
    | .fin a => if 0 < a then .fin (1 - 1 / a) else if a = 0 then .ninf else .nan
    | .pinf => .pinf
  sqrt := fun x => match x with
    | .nan => .nan
    | .ninf => .nan
    | .fin a => if 0 ≤ a then .fin a else .nan
    | .pinf => .pinf
  exp := id
  lgamma := id
  pi := .fin (22 / 7)
  gammaCdf := fun x a s => if isNan a || isNan s then .nan else toyCdf x
  pearson3Cdf := fun x a b c => if isNan a || isNan b || isNan c then .nan else toyCdf x
  normPpf := fun x => match x with
    | .fin p => if 0 ≤ p ∧ p ≤ 1 then .fin (8 * (p - 1 / 2)) else .nan
    | _ => .nan

theorem toyExt_nan : ExtNan toyExt where
  log_nan := rfl
  gammaCdf_nan := by intro a s; simp only [toyExt]; split <;> rfl
  gammaCdf_nan_shape := by intro x s; simp [toyExt, Fl.nan_def]
  pearson3Cdf_nan := by intro a b c; simp only [toyExt]; split <;> rfl
  normPpf_nan := rfl

theorem toyCdf_mono (x y : Fl ℚ) (h : fle x y = true) : fle (toyCdf x) (toyCdf y) = true := by
  change Fl.le x y = true at h
  cases x <;> cases y <;> simp [Fl.le] at h <;> simp only [toyCdf]
  · rfl
  · split
    · rfl
    · simp only [Fl.fle_fin, decide_eq_true_eq]; apply div_nonneg <;> linarith
  · decide
  · rename_i a b
    split <;> split <;> simp only [Fl.fle_fin, decide_eq_true_eq]
    · exact le_refl _
    · apply div_nonneg <;> linarith
    · linarith
    · rw [div_le_div_iff₀ (by linarith) (by linarith)]; nlinarith
  · split <;> simp only [Fl.fle_fin, decide_eq_true_eq]
    · norm_num
    · rw [div_le_one (by linarith)]; linarith
  · decide

theorem toyCdf_nonneg (x : Fl ℚ) (h : x ≠ nan) : fle (lit 0) (toyCdf x) = true := by
  cases x with
  | nan => exact absurd rfl h
  | ninf => decide
  | pinf => decide
  | fin x =>
    simp only [toyCdf, Fl.lit_def]
    split <;> simp only [Fl.fle_fin, decide_eq_true_eq, Rat.cast_zero, le_refl]
    apply div_nonneg <;> linarith

theorem toyExt_mono : ExtMono toyExt where
  gammaCdf_mono := by
    intro x y a s h h1 _
    simp only [toyExt] at *
    split at h1
    · exact absurd rfl h1
    · rename_i hc; simp only [hc]; exact toyCdf_mono x y h
  pearson3Cdf_mono := by
    intro x y a b c h h1 _
    simp only [toyExt] at *
    split at h1
    · exact absurd rfl h1
    · rename_i hc; simp only [hc]; exact toyCdf_mono x y h
  pearson3Cdf_nonneg := by
    intro x a b c h1
    simp only [toyExt] at *
    split at h1
    · exact absurd rfl h1
    · rename_i hc; simp only [hc]
      apply toyCdf_nonneg
      rintro rfl; exact h1 rfl
  normPpf_mono := by
    intro x y h h1 h2
    change Fl.le x y = true at h
    cases x <;> cases y <;> simp_all [toyExt, Fl.nan_def, Fl.le]
  normPpf_low := by decide +kernel
  normPpf_high := by decide +kernel

end CI
