import Verif.Model.Eto
import Verif.Lemmas.PalmerNum
import Mathlib.Analysis.SpecialFunctions.Trigonometric.Inverse
import Mathlib.Analysis.SpecialFunctions.Trigonometric.Arctan
import Mathlib.Analysis.SpecialFunctions.Pow.Real
import Mathlib.Analysis.Real.Pi.Bounds

/-!
# Exact trigonometric functions and the textbook day length

`TrigReal` says that the functions of `Trig` are the mathematical ones; `realTrig` is an instance. `hours` is the day length formula of FAO-56
(equations 24, 25, 34) on real numbers, written independently of the model.
-/

namespace CI

/-- exact functions -/
structure TrigReal (T : Trig (Fl ℝ)) : Prop where
  sin_fin : ∀ a : ℝ, T.sin (.fin a) = .fin (Real.sin a)
  cos_fin : ∀ a : ℝ, T.cos (.fin a) = .fin (Real.cos a)
  tan_fin : ∀ a : ℝ, Real.cos a ≠ 0 → T.tan (.fin a) = .fin (Real.tan a)
  acos_fin : ∀ a : ℝ, -1 ≤ a → a ≤ 1 → T.acos (.fin a) = .fin (Real.arccos a)
  pow_fin : ∀ x y : ℝ, 0 ≤ x → 0 < y → T.pow (.fin x) (.fin y) = .fin (x ^ y)
  pow_nan : ∀ y : ℝ, 0 < y → T.pow .nan (.fin y) = .nan
  pow_nan_nan : T.pow .nan .nan = .nan
  pi_eq : T.pi = .fin Real.pi

/-- an instance -/
noncomputable def realTrig : Trig (Fl ℝ) where
  sin := fun x => match x with | .fin a => .fin (Real.sin a) | _ => .nan
  cos := fun x => match x with | .fin a => .fin (Real.cos a) | _ => .nan
  tan := fun x => match x with | .fin a => .fin (Real.tan a) | _ => .nan
  acos := fun x => match x with | .fin a => .fin (Real.arccos a) | _ => .nan
  pow := fun x y => match x, y with | .fin a, .fin b => .fin (a ^ b) | _, _ => .nan
  pi := .fin Real.pi

theorem realTrig_real : TrigReal realTrig where
  sin_fin := fun _ => rfl
  cos_fin := fun _ => rfl
  tan_fin := fun _ _ => rfl
  acos_fin := fun _ _ _ => rfl
  pow_fin := fun _ _ _ _ => rfl
  pow_nan := fun _ _ => rfl
  pow_nan_nan := rfl
  pi_eq := rfl

/-- solar declination in radians of a day of the year (FAO-56, eq. 24) -/
noncomputable def declination (d : ℕ) : ℝ := 0.409 * Real.sin (2 * Real.pi / 365 * d - 1.39)

/-- day length in hours at latitude `φ` (radians) on day `d` (FAO-56, eqs. 25 and 34); `Real.arccos` is 0 above 1 and π below -1 -/
noncomputable def hours (φ : ℝ) (d : ℕ) : ℝ := 24 / Real.pi * Real.arccos (-Real.tan φ * Real.tan (declination d))

/-- mean day length over the days `d, ..., d + n - 1` -/
noncomputable def meanHours (φ : ℝ) (n d : ℕ) : ℝ := ((List.range n).map (fun i => hours φ (d + i))).sum / n

/-- mean day length of consecutive periods of the given lengths, the first starting on day `d` -/
noncomputable def meansFrom (φ : ℝ) : List ℕ → ℕ → List ℝ
  | [], _ => []
  | n :: rest, d => meanHours φ n d :: meansFrom φ rest (d + n)

end CI
