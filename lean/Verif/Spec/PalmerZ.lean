import Mathlib.Analysis.SpecialFunctions.Log.Base
import Mathlib.Algebra.BigOperators.Group.Finset.Basic

/-!
# Specification: Palmer's moisture anomaly index Z (Palmer 1965) on real numbers

Months are numbered from 0, month `t` is calendar month `t % 12`. `p` is precipitation and `e` potential evapotranspiration, in inches; `awc` is the
available water capacity, of which 1 inch is in the upper layer. Written independently of the model, from the published description: a two-layer soil,
four coefficients that make precipitation "climatically appropriate", the departure from it, and a weight for each calendar month.
-/

namespace CI.Spec.PalmerZ

/-- rain beyond the demand, demand beyond the rain -/
noncomputable def surplus (p e : ℝ) : ℝ := max (p - e) 0
noncomputable def deficit (p e : ℝ) : ℝ := max (e - p) 0

/-- recharge of the upper layer (holding `s`), then of the lower one (holding `u`): as much as fits -/
noncomputable def gainUpper (s p e : ℝ) : ℝ := min (surplus p e) (1 - s)
noncomputable def gainLower (awc s u p e : ℝ) : ℝ := min (surplus p e - gainUpper s p e) (awc - 1 - u)

/-- loss of the upper layer: all that is demanded and there; loss of the lower one: the rest of the demand times its degree of filling -/
noncomputable def lossUpper (s p e : ℝ) : ℝ := min (deficit p e) s
noncomputable def lossLower (awc s u p e : ℝ) : ℝ := min u ((deficit p e - lossUpper s p e) * u / awc)

/-- moisture of both layers at the start of month `t`; the record starts with a full soil -/
noncomputable def soil (awc : ℝ) (p e : ℕ → ℝ) : ℕ → ℝ × ℝ
  | 0 => (1, awc - 1)
  | t + 1 =>
    let q := soil awc p e t
    (q.1 + gainUpper q.1 (p t) (e t) - lossUpper q.1 (p t) (e t),
      q.2 + gainLower awc q.1 q.2 (p t) (e t) - lossLower awc q.1 q.2 (p t) (e t))

section
variable (awc : ℝ) (p e : ℕ → ℝ)

/-- recharge, loss, runoff and evapotranspiration of month `t` -/
noncomputable def recharge (t : ℕ) : ℝ :=
  gainUpper (soil awc p e t).1 (p t) (e t) + gainLower awc (soil awc p e t).1 (soil awc p e t).2 (p t) (e t)
noncomputable def loss (t : ℕ) : ℝ :=
  lossUpper (soil awc p e t).1 (p t) (e t) + lossLower awc (soil awc p e t).1 (soil awc p e t).2 (p t) (e t)
noncomputable def runoff (t : ℕ) : ℝ := surplus (p t) (e t) - recharge awc p e t
noncomputable def evap (t : ℕ) : ℝ := min (p t) (e t) + loss awc p e t

/-- potential recharge, runoff and loss: what a full soil still takes, what it holds, what it would lose in a month without rain -/
noncomputable def potRecharge (t : ℕ) : ℝ := awc - ((soil awc p e t).1 + (soil awc p e t).2)
noncomputable def potRunoff (t : ℕ) : ℝ := (soil awc p e t).1 + (soil awc p e t).2
noncomputable def potLoss (t : ℕ) : ℝ :=
  lossUpper (soil awc p e t).1 0 (e t) + lossLower awc (soil awc p e t).1 (soil awc p e t).2 0 (e t)

/-- mean of `f` over calendar month `j` of the `k` calibration years starting with year number `a` -/
noncomputable def mean (a k j : ℕ) (f : ℕ → ℝ) : ℝ := (∑ y ∈ Finset.range k, f (12 * (a + y) + j)) / k

/-- a coefficient: ratio of the mean actual to the mean potential value. Palmer does not say what it is when the potential value is zero in all
calibration years; here it is 1 (evapotranspiration, recharge, runoff; 0 if the actual value is not zero as well). -/
noncomputable def ratio (actual potential : ℝ) : ℝ := if potential = 0 then (if actual = 0 then 1 else 0) else actual / potential

/-- the coefficients of calendar month `j` -/
structure Coef where
  alpha : ℕ → ℝ
  beta : ℕ → ℝ
  gamma : ℕ → ℝ
  delta : ℕ → ℝ

/-- the coefficients from the calibration years; that of the loss is 0 when the potential loss is always zero -/
noncomputable def coef (a k : ℕ) : Coef where
  alpha j := ratio (mean a k j (evap awc p e)) (mean a k j e)
  beta j := ratio (mean a k j (recharge awc p e)) (mean a k j (potRecharge awc p e))
  gamma j := ratio (mean a k j (runoff awc p e)) (mean a k j (potRunoff awc p e))
  delta j := if mean a k j (potLoss awc p e) = 0 then 0 else mean a k j (loss awc p e) / mean a k j (potLoss awc p e)

/-- departure of precipitation from the climatically appropriate one -/
noncomputable def departure (c : Coef) (t : ℕ) : ℝ :=
  p t - (c.alpha (t % 12) * e t + c.beta (t % 12) * potRecharge awc p e t + c.gamma (t % 12) * potRunoff awc p e t
    - c.delta (t % 12) * potLoss awc p e t)

/-- mean absolute departure of calendar month `j` -/
noncomputable def D (c : Coef) (a k j : ℕ) : ℝ := mean a k j (fun t => |departure awc p e c t|)

/-- mean moisture supply, and ratio of mean moisture demand to it -/
noncomputable def supply (a k j : ℕ) : ℝ := mean a k j p + mean a k j (loss awc p e)
noncomputable def T (a k j : ℕ) : ℝ :=
  (mean a k j e + mean a k j (recharge awc p e) + mean a k j (runoff awc p e)) / supply awc p e a k j

/-- first estimate of the weight (Palmer's equation 26) -/
noncomputable def K' (c : Coef) (a k j : ℕ) : ℝ := 1.5 * Real.logb 10 ((T awc p e a k j + 2.8) / D awc p e c a k j) + 0.5

/-- sum over the calendar months of the mean absolute departures times the first estimates -/
noncomputable def total (c : Coef) (a k : ℕ) : ℝ := ∑ j ∈ Finset.range 12, D awc p e c a k j * K' awc p e c a k j

/-- the weight (equation 27) -/
noncomputable def weight (c : Coef) (a k j : ℕ) : ℝ := 17.67 / total awc p e c a k * K' awc p e c a k j

/-- the moisture anomaly index -/
noncomputable def Z (c : Coef) (a k t : ℕ) : ℝ := weight awc p e c a k (t % 12) * departure awc p e c t

end

end CI.Spec.PalmerZ
