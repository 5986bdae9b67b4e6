import Verif.Spec.RealExt

/-!
# Specification: the published Standardized Precipitation Index (McKee et al. 1993, Thom 1966) on real numbers

A precipitation record is a list of time steps, each missing (`none`) or a real number; the first step is the first of a year. Written
independently of the model; the distribution function `G` and the normal quantile `Φ` are parameters.
-/

namespace CI.Spec.McKee

/-- precipitation accumulated over the `k` steps ending with step `t`; missing if one of them is missing or outside the record -/
noncomputable def accum (x : List (Option ℝ)) (k t : ℕ) : Option ℝ :=
  let w := (x.drop (t + 1 - k)).take k
  if k ≤ t + 1 ∧ t < x.length ∧ w.all Option.isSome then some (w.filterMap id).sum else none

/-- the accumulations that exist at calendar step `c` (of `p` steps per year) in the `m` years starting with year number `a` of the record -/
noncomputable def sample (x : List (Option ℝ)) (k p c a m : ℕ) : List ℝ :=
  (List.range m).filterMap (fun y => accum x k ((a + y) * p + c))

/-- the positive values of a sample -/
noncomputable def wet (s : List ℝ) : List ℝ := s.filter (fun v => 0 < v)

/-- number of zeros of a sample -/
noncomputable def dry (s : List ℝ) : ℕ := s.countP (fun v => v = 0)

/-- arithmetic mean -/
noncomputable def mean (s : List ℝ) : ℝ := s.sum / s.length

/-- Thom's statistic: logarithm of the mean minus mean of the logarithms -/
noncomputable def gap (s : List ℝ) : ℝ := Real.log (mean s) - mean (s.map Real.log)

/-- Thom's estimates of shape and scale of the gamma distribution -/
noncomputable def shape (s : List ℝ) : ℝ := 1 / (4 * gap s) * (1 + Real.sqrt (1 + 4 * gap s / 3))
noncomputable def scale (s : List ℝ) : ℝ := mean s / shape s

/-- the index of an accumulation `v` when `q` is the probability of zero and `s` the sample of the calendar step: the normal quantile of the mixed
probability -/
noncomputable def index (G : ℝ → ℝ → ℝ → ℝ) (Φ : ℝ → ℝ) (q : ℝ) (s : List ℝ) (v : ℝ) : ℝ :=
  Φ (q + (1 - q) * G v (shape (wet s)) (scale (wet s)))

/-- the published probability of zero: share of zeros in the sample -/
noncomputable def zeroShare (s : List ℝ) : ℝ := dry s / s.length

/-- the index is reported between -3.09 and 3.09 -/
noncomputable def clamp (z : ℝ) : ℝ := max (-3.09) (min 3.09 z)

end CI.Spec.McKee
