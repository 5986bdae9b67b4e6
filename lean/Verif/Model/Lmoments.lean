import Verif.Model.Compute
import Mathlib.Data.List.Sort

/-!
# Model of `src/climate_indices/lmoments.py`
-/

namespace CI
variable {F : Type} [FloatOps F]

/-- order used by `np.sort`: ascending, NaN last -/
def sortLe (a b : F) : Prop := (fle a b || isNan b) = true

instance (a b : F) : Decidable (sortLe a b) := by unfold sortLe; infer_instance

/-- `np.sort` (ascending, NaN last; the order among `==` values is irrelevant here) -/
def npSort (l : List F) : List F := l.insertionSort sortLe

/-- body of the accumulation loop (lmoments.py:142-149) for the 1-based position `i` and value `v` -/
def lmomAccStep (s : F × F × F) (iv : Nat × F) : F × F × F :=
  let i := iv.1
  let term := iv.2
  let s0 := s.1 + term
  let term := term * lit ((i : ℚ) - 1)
  let s1 := s.2.1 + term
  let term := term * lit ((i : ℚ) - 2)
  let s2 := s.2.2 + term
  (s0, s1, s2)

/-- lmoments.py:140-149: the three running sums over the first `n` sorted values -/
def lmomSums (sorted : List F) (n : Nat) : F × F × F :=
  ((sorted.take n).zipIdx.map (fun q => (q.2 + 1, q.1))).foldl lmomAccStep (lit 0, lit 0, lit 0)

/-- `_estimate_lmoments` (lmoments.py:107-179). The coefficient loop at 159-171 is unrolled:
first pass (k = 3): p0 = 1, then p = -1*(3+1-1)*(3-1)/1 = -6, then p = 6*(3+2-1)*(3-2)/4 = 6;
second pass (k = 2): p0 = -1, then p = 1*(2+1-1)*(2-1)/1 = 2. All these coefficients are exact.
`sums[k-1]` is written after use: pass 1 writes `sums[2]`, pass 2 uses `sums[0], sums[1]`. -/
def estimateLmoments (values : List F) : Res (F × F × F) :=
  let n := values.countP (fun x => !isNan x)
  if n < 4 then .error .valueError
  else
    let sorted := npSort values
    let (s0, s1, s2) := lmomSums sorted n
    let y := (n : ℚ)
    let s0 := s0 / lit y
    let s1 := s1 / lit (y * (y - 1))
    let s2 := s2 / lit (y * (y - 1) * (y - 2))
    let t2 := (lit 1 * s0 + lit (-6) * s1) + lit 6 * s2
    let t1 := lit (-1) * s0 + lit 2 * s1
    if feq t1 (lit 0) then .ok (lit 0, lit 0, lit 0)
    else .ok (s0, t1, t2 / t1)

/-- `abs` of a float -/
def fabs (x : F) : F := if flt x (lit 0) then -x else x

/-- `_estimate_pearson3_parameters` (lmoments.py:38-104): returns (loc, scale, skew). `math.sqrt` of a negative
number would raise ValueError; `Props` shows that its argument is positive. -/
def estimatePearson3Parameters (E : Ext F) (lm : F × F × F) : Res (F × F × F) :=
  let t3 := fabs lm.2.2
  if fle lm.2.1 (lit 0) || fle (lit 1) t3 then .error .valueError
  else
    let loc := lm.1
    if fle t3 (lit 1e-6) then
      .ok (loc, lm.2.1 * E.sqrt E.pi, lit 0)
    else
      let alpha :=
        if flt t3 (lit 0.333333333) then
          let t := E.pi * lit 3 * t3 * t3
          (lit 1 + (lit 0.2906 * t)) / (t * (lit 1 + (t * (lit 0.1882 + (t * lit 0.0442)))))
        else
          let t := lit 1 - t3
          t * (lit 0.36067 + (t * (lit (-0.59567) + (t * lit 0.25361)))) /
            (lit 1 + (t * (lit (-2.78861) + (t * (lit 2.56096 + (t * lit (-0.77045)))))))
      let alphaRoot := E.sqrt alpha
      let beta := E.sqrt E.pi * lm.2.1 * E.exp (E.lgamma alpha - E.lgamma (alpha + lit 0.5))
      let scale := beta * alphaRoot
      let skew := if flt lm.2.2 (lit 0) then lit (-2) / alphaRoot else lit 2 / alphaRoot
      .ok (loc, scale, skew)

/-- `fit` (lmoments.py:17-35): returns (loc, scale, skew). -/
def lmomentsFit (E : Ext F) (timeseries : List F) : Res (F × F × F) := do
  let lm ← estimateLmoments timeseries
  if fle lm.2.1 (lit 0) || fle (lit 1) (fabs lm.2.2) then .error .valueError
  else estimatePearson3Parameters E lm

end CI
