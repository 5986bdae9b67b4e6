import Verif.Model.Utils

/-!
# Model of `src/climate_indices/compute.py` (L-moments are in `Model/Lmoments.lean`)

2-D arrays of shape `(n, p)` (years by calendar steps) are kept in C order; column `j` is
the stride `j, j + p, j + 2p, ...` of the data. Per-column parameter arrays have `p` entries.
Masked-array branches are not modelled.
-/

namespace CI

/-- Special functions taken from numpy, Python's `math` and scipy. The model makes no assumption about
them; theorems that need one state it. -/
structure Ext (F : Type) where
  /-- `np.log` -/
  log : F → F
  /-- `np.sqrt` / `math.sqrt` -/
  sqrt : F → F
  /-- `math.exp` -/
  exp : F → F
  /-- `math.lgamma` -/
  lgamma : F → F
  /-- `math.pi` -/
  pi : F
  /-- `scipy.stats.gamma.cdf(x, a=a, scale=scale)` -/
  gammaCdf : (x a scale : F) → F
  /-- `scipy.stats.pearson3.cdf(x, skew, loc, scale)` -/
  pearson3Cdf : (x skew loc scale : F) → F
  /-- `scipy.stats.norm.ppf` -/
  normPpf : F → F

/-- `Periodicity` (compute.py:31-66); `other` stands for any argument that is not one of the two members. -/
inductive Periodicity where
  | monthly
  | daily
  | other
  deriving DecidableEq, Repr

/-- numpy strided slice `l[j::p]`: also column `j` of a C-order array with `p` columns. -/
def stride {α : Type} (p j : Nat) (l : List α) : List α :=
  (l.zipIdx.filter (fun q => q.2 % p == j)).map Prod.fst

/-- one row of `p` values repeated for `n` rows: broadcasting a `(p,)` array against `(n, p)` -/
def tile {α : Type} (n : Nat) (row : List α) : List α := (List.replicate n row).flatten

section
variable {F : Type} [FloatOps F]

/-- `np.all(np.isnan(values))` -/
def allNan (l : List F) : Bool := l.all isNan

/-- `np.amin`: NaN if any element is NaN; ValueError on an empty array. -/
def amin (l : List F) : Res F :=
  match l with
  | [] => .error .valueError
  | x :: xs =>
    if l.any isNan then .ok nan
    else .ok (xs.foldl (fun m y => if flt y m then y else m) x)

/-- `np.clip(x, lo, hi)` for one value: NaN stays NaN. -/
def npClip (lo hi x : F) : F :=
  if isNan x then x else if flt x lo then lo else if flt hi x then hi else x

/-- `np.clip(x, a_min=lo, a_max=None)` for one value. -/
def npClipMin (lo x : F) : F :=
  if isNan x then x else if flt x lo then lo else x

/-- `np.nanmean` of a 1-D array: NaN for an array without a number. -/
def nanmean (l : List F) : F :=
  let v := l.filter (fun x => !isNan x)
  if v.isEmpty then nan else fsum v / lit v.length

/-- `np.convolve(values, np.ones(scale), mode="valid")`, used at compute.py:154. `np.ones` of a negative
number and an empty operand raise ValueError. If `scale` exceeds the number of values numpy swaps the operands: every
entry is then the sum of all values. -/
def convolveOnes (values : List F) (scale : Int) : Res (List F) :=
  if scale ≤ 0 ∨ values = [] then .error .valueError
  else
    let k := scale.toNat
    let n := values.length
    if k ≤ n then .ok ((List.range (n - k + 1)).map (fun t => fsum (slice values t (t + k))))
    else .ok (List.replicate (k - n + 1) (fsum values))

/-- `sum_to_scale` (compute.py:115-157) on a 1-D array. -/
def sumToScale (values : List F) (scale : Int) : Res (List F) :=
  if scale = 1 then .ok values
  else do
    let slidingSums ← convolveOnes values scale
    pure (List.replicate (scale - 1).toNat nan ++ slidingSums)

/-- `_validate_array` (compute.py:69-112). -/
def validateArray (values : Arr F) (per : Periodicity) : Res (Arr F) :=
  match values.shape with
  | [_] =>
    match per with
    | .monthly => reshapeTo2d values 12
    | .daily => reshapeTo2d values 366
    | .other => .error .valueError
  | [_, c] => if c = 12 ∨ c = 366 then .ok values else .error .valueError
  | _ => .error .valueError

/-- `_probability_of_zero` (compute.py:174-223): defined but not called by the index functions. -/
def probabilityOfZero (values : Arr F) : Res (List F) :=
  match values.shape with
  | [_, p] =>
    if p = 12 ∨ p = 366 then
      .ok ((List.range p).map (fun j =>
        let (zeros, nonMissing) := countZerosAndNonMissings (stride p j values.data)
        if zeros > 0 ∧ nonMissing > 0 then lit zeros / lit nonMissing else nan))
    else .error .valueError
  | _ => .error .valueError

/-- `reshape_values` (compute.py:227-233). -/
def reshapeValues (values : Arr F) (per : Periodicity) : Res (Arr F) :=
  match per with
  | .monthly => reshapeTo2d values 12
  | .daily => reshapeTo2d values 366
  | .other => .error .valueError

/-- `validate_values_shape` (compute.py:236-239). -/
def validateValuesShape (values : Arr F) : Res Nat :=
  match values.shape with
  | [_, c] => if c = 12 ∨ c = 366 then .ok c else .error .valueError
  | _ => .error .valueError

/-- `adjust_calibration_years` (compute.py:242-245); the same test is at 619-621 and 692-694. -/
def adjustCalibrationYears (ds de cs ce : Int) : Int × Int :=
  if cs < ds ∨ ce > de then (ds, de) else (cs, ce)

/-- rows `values[b:e, :]` of a C-order `(n, p)` array, with Python's treatment of negative bounds -/
def rowSlice {α : Type} (data : List α) (n p : Nat) (b e : Int) : List α :=
  slice data (sliceBound n b * p) (sliceBound n e * p)

/-- calibration rows (compute.py:293-299 and 688-703): `data_end_year` is `start + number of rows`. -/
def calibrationValues {α : Type} (data : List α) (n p : Nat) (ds cs ce : Int) : List α :=
  let de := ds + n
  let (cs', ce') := adjustCalibrationYears ds de cs ce
  rowSlice data n p (cs' - ds) (ce' - ds + 1)

/-- gamma alpha and beta of one calendar step (compute.py:707-713) from its calibration values (zeros
already replaced by NaN). -/
def gammaFitCol (E : Ext F) (col : List F) : F × F :=
  let mean := nanmean col
  let logMean := E.log mean
  let logs := col.map E.log
  let meanLogs := nanmean logs
  let a := logMean - meanLogs
  let alpha := (lit 1 + E.sqrt (lit 1 + lit 4 * a / lit 3)) / (lit 4 * a)
  let beta := mean / alpha
  (alpha, beta)

/-- `values[values == 0] = np.nan` for one value (compute.py:685, 808) -/
def zeroToNan (x : F) : F := if feq x (lit 0) then nan else x

/-- `gamma_parameters` (compute.py:638-715), value level (the in-place write to the caller's array is in
`Model/Alias.lean`). -/
def gammaParameters (E : Ext F) (values : Arr F) (ds cs ce : Int) (per : Periodicity) :
    Res (List F × List F) :=
  if allNan values.data then
    match per with
    | .monthly => .ok (List.replicate 12 nan, List.replicate 12 nan)
    | .daily => .ok (List.replicate 366 nan, List.replicate 366 nan)
    | .other => .error .valueError
  else do
    let values ← validateArray values per
    match values.shape with
    | [n, p] =>
      let data := values.data.map zeroToNan
      let calib := calibrationValues data n p ds cs ce
      let fits := (List.range p).map (fun j => gammaFitCol E (stride p j calib))
      pure (fits.map Prod.fst, fits.map Prod.snd)
    | _ => .error .valueError  -- not reachable: `_validate_array` returns 2-D arrays

/-- broadcasting of a per-column parameter array against `p` columns: length `p`, or one value for all columns.
Other numpy-broadcastable shapes (0-d, 2-D) of user-supplied parameters are not modelled. -/
def bcast (p : Nat) (param : List F) : Res (List F) :=
  if param.length = p then .ok param
  else match param with
    | [x] => .ok (List.replicate p x)
    | _ => .error .valueError

/-- one value through the gamma transform (compute.py:821-831), before the final clip in `spi` -/
def gammaTransform1 (E : Ext F) (p0 alpha beta x : F) : F :=
  E.normPpf (p0 + (lit 1 - p0) * E.gammaCdf x alpha beta)

/-- `transform_fitted_gamma` (compute.py:760-831), value level. -/
def transformFittedGamma (E : Ext F) (values : Arr F) (ds cs ce : Int) (per : Periodicity)
    (alphas betas : Option (List F)) : Res (Arr F) :=
  if allNan values.data then .ok values
  else do
    let values ← validateArray values per
    match values.shape with
    | [n, p] =>
      let p0s := (List.range p).map (fun j =>
        (lit ((stride p j values.data).countP (fun x => feq x (lit 0))) / lit n : F))
      let data := values.data.map zeroToNan
      let (al, be) ← match alphas, betas with
        | some a, some b => pure (a, b)
        | _, _ => gammaParameters E ⟨[n, p], data⟩ ds cs ce per
      let al ← bcast p al
      let be ← bcast p be
      let params := List.zip p0s (List.zip al be)
      let out := List.zipWith (fun x q => gammaTransform1 E q.1 q.2.1 q.2.2 x) data (tile n params)
      pure ⟨[n, p], out⟩
    | _ => .error .valueError  -- not reachable

/-- Pearson Type III parameters of one calendar step -/
structure PearsonParams (F : Type) where
  probZero : F
  loc : F
  scale : F
  skew : F

/-- `calculate_time_step_params` (compute.py:248-258); `fit` is `lmoments.fit`. The counts are Python ints, the
difference may be negative only if zeros exceed non-missings, which never happens. -/
def calculateTimeStepParams (fit : List F → Res (F × F × F)) (col : List F) : Res (PearsonParams F) :=
  let (zeros, nonMissing) := countZerosAndNonMissings col
  if (nonMissing : Int) - zeros < 4 then .ok ⟨lit 0, lit 0, lit 0, lit 0⟩
  else do
    let p0 := if zeros > 0 then lit zeros / lit nonMissing else lit 0
    if (nonMissing : Int) - zeros > 3 then
      let (loc, scale, skew) ← fit col
      pure ⟨p0, loc, scale, skew⟩
    else pure ⟨lit 0, lit 0, lit 0, lit 0⟩

/-- `pearson_parameters` (compute.py:261-313): parameters per calendar step. -/
def pearsonParameters (fit : List F → Res (F × F × F)) (values : Arr F) (ds cs ce : Int)
    (per : Periodicity) : Res (List (PearsonParams F)) := do
  let values ← reshapeValues values per
  let p ← validateValuesShape values
  match values.shape with
  | [n, _] =>
    let calib := calibrationValues values.data n p ds cs ce
    (List.range p).mapM (fun j => calculateTimeStepParams fit (stride p j calib))
  | _ => .error .valueError  -- not reachable

/-- `_minimum_possible` (compute.py:440-459) -/
def minimumPossible (skew loc scale : F) : F :=
  let alpha := lit 4 / (skew * skew)
  loc - ((alpha * scale * skew) / lit 2)

/-- the probability part of `_pearson_fit` for one value (compute.py:486-527), scipy >= 1.6 branch -/
def pearsonProb1 (E : Ext F) (q : PearsonParams F) (x : F) : F :=
  let m := minimumPossible q.skew q.loc q.scale
  let minimumsMask := fle x m && fle (lit 0) q.skew
  let maximumsMask := fle m x && flt q.skew (lit 0)
  let zeroMask := flt x (lit 0.0005) && flt (lit 0) q.probZero
  let traceMask := flt x (lit 0.0005) && fle q.probZero (lit 0)
  let v := E.pearson3Cdf x q.skew q.loc q.scale
  let v := if zeroMask then lit 0 else v
  let v := if traceMask then lit 0.0005 else v
  let v := if minimumsMask then lit 0.0005 else v
  let v := if maximumsMask then lit 0.9995 else v
  v

/-- `_pearson_fit` (compute.py:462-549) on C-order data with one parameter record per value -/
def pearsonFit (E : Ext F) (data : List F) (params : List (PearsonParams F)) : List F :=
  if allNan data then data
  else
    let values := List.zipWith (fun x q => pearsonProb1 E q x) data params
    if allNan values then values
    else
      List.zipWith (fun v q =>
        E.normPpf (npClip (lit 0) (lit 1) (q.probZero + (lit 1 - q.probZero) * v))) values params

/-- The four optional parameter arrays of `transform_fitted_pearson`. -/
structure PearsonArgs (F : Type) where
  probZeros : Option (List F)
  locs : Option (List F)
  scales : Option (List F)
  skews : Option (List F)

/-- combine four per-column arrays -/
def zipParams (p0 loc scale skew : List F) : List (PearsonParams F) :=
  List.zipWith (fun a b => ⟨a.1, a.2, b.1, b.2⟩) (List.zip p0 loc) (List.zip scale skew)

/-- `transform_fitted_pearson` (compute.py:552-635). With some but not all arrays given, `list.count(None)`
already raises ValueError (ambiguous truth value of an array) or the explicit ValueError is raised: both
are ValueError. The calibration years are adjusted here and again in `pearson_parameters`. -/
def transformFittedPearson (E : Ext F) (fit : List F → Res (F × F × F)) (values : Arr F)
    (ds cs ce : Int) (per : Periodicity) (args : PearsonArgs F) : Res (Arr F) :=
  let allNone := args.probZeros.isNone && args.locs.isNone && args.scales.isNone && args.skews.isNone
  let anyNone := args.probZeros.isNone || args.locs.isNone || args.scales.isNone || args.skews.isNone
  if anyNone && !allNone then .error .valueError
  else if allNan values.data then .ok values
  else do
    let values ← validateArray values per
    match values.shape with
    | [n, p] =>
      let params ← match args.probZeros, args.locs, args.scales, args.skews with
        | some p0, some loc, some scale, some skew => do
          let p0 ← bcast p p0
          let loc ← bcast p loc
          let scale ← bcast p scale
          let skew ← bcast p skew
          pure (zipParams p0 loc scale skew)
        | _, _, _, _ =>
          let de := ds + n
          let (cs', ce') := adjustCalibrationYears ds de cs ce
          pearsonParameters fit values ds cs' ce' per
      pure ⟨[n, p], pearsonFit E values.data (tile n params)⟩
    | _ => .error .valueError  -- not reachable

/-- `scale_values` (compute.py:718-757), value level. An entirely missing input is returned flattened. -/
def scaleValues (values : Arr F) (scale : Int) (per : Periodicity) : Res (Arr F) :=
  if values.shape.length = 2 ∨ values.shape.length = 1 then
    if allNan values.data then .ok (Arr.of1d values.data)
    else do
      let m ← amin values.data
      let data := if flt m (lit 0) then values.data.map (npClipMin (lit 0)) else values.data
      let scaled ← sumToScale data scale
      match per with
      | .monthly => reshapeTo2d (Arr.of1d scaled) 12
      | .daily => reshapeTo2d (Arr.of1d scaled) 366
      | .other => .error .valueError
  else .error .valueError

end
end CI
