import Mathlib.Analysis.SpecialFunctions.Gamma.Basic
import Mathlib.Analysis.SpecialFunctions.Sqrt

/-!
# The L-scale of the Pearson type III distribution

Hosking and Wallis (1997), appendix A.9: with location (mean) `μ`, scale (standard deviation) `σ` and skew `γ`, the distribution is
normal for `γ = 0`; otherwise it is a shifted gamma distribution (mirrored for `γ < 0`) with shape `α = 4 / γ²` and scale `β = σ |γ| / 2`, and its second
L-moment is `β Γ(α + 1/2) / (√π Γ(α))`.
-/

namespace CI.Pearson3

/-- second L-moment of the Pearson type III distribution -/
noncomputable def lscale (scale skew : ℝ) : ℝ :=
  if skew = 0 then scale / Real.sqrt Real.pi
  else scale * |skew| / 2 * Real.Gamma (4 / skew ^ 2 + 1 / 2) / (Real.sqrt Real.pi * Real.Gamma (4 / skew ^ 2))

/-- `v` lies inside the support: above the lower bound `μ - 2 σ / γ` for positive skew, below it for negative skew -/
def Inside (loc scale skew v : ℝ) : Prop := (0 < skew → loc - 2 * scale / skew < v) ∧ (skew < 0 → v < loc - 2 * scale / skew)

end CI.Pearson3
