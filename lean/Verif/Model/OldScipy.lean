import Verif.Model.Compute

/-!
# The branch for scipy before 1.6.0 of `_pearson_fit`

`_do_pearson3_workaround` (compute.py:25) is decided once, when the module is imported. `Model/Compute.lean` has the
branch for newer releases (pyproject.toml asks for 1.10.1); this file has the other one.
-/

namespace CI
variable {F : Type} [FloatOps F]

/-- the probability part of `_pearson_fit` for one value (compute.py:486-521), branch for scipy before 1.6.0; `nans_mask`
is taken once, before the two assignments -/
def pearsonProbOld1 (E : Ext F) (q : PearsonParams F) (x : F) : F :=
  let m := minimumPossible q.skew q.loc q.scale
  let minimumsMask := fle x m && fle (lit 0) q.skew
  let maximumsMask := fle m x && flt q.skew (lit 0)
  let zeroMask := flt x (lit 0.0005) && flt (lit 0) q.probZero
  let traceMask := flt x (lit 0.0005) && fle q.probZero (lit 0)
  let v := E.pearson3Cdf x q.skew q.loc q.scale
  let v := if zeroMask then lit 0 else v
  let v := if traceMask then lit 0.0005 else v
  let nansMask := isNan v
  let v := if minimumsMask && nansMask then lit 0.0005 else v
  let v := if maximumsMask && nansMask then lit 0.0005 else v
  if flt q.skew (lit 0) then lit 1 - v else v

/-- `_pearson_fit` (compute.py:462-549) with the branch for scipy before 1.6.0 -/
def pearsonFitOld (E : Ext F) (data : List F) (params : List (PearsonParams F)) : List F :=
  if allNan data then data
  else
    let values := List.zipWith (fun x q => pearsonProbOld1 E q x) data params
    if allNan values then values
    else
      List.zipWith (fun v q =>
        E.normPpf (npClip (lit 0) (lit 1) (q.probZero + (lit 1 - q.probZero) * v))) values params

/-- `transform_fitted_pearson` (compute.py:552-635) with the branch for scipy before 1.6.0. The mask of the columns with
negative skew (line 520) must have one entry per column: a single skew for all columns raises IndexError at line 521. -/
def transformFittedPearsonOld (E : Ext F) (fit : List F → Res (F × F × F)) (values : Arr F)
    (ds cs ce : Int) (per : Periodicity) (args : PearsonArgs F) : Res (Arr F) :=
  let allNone := args.probZeros.isNone && args.locs.isNone && args.scales.isNone && args.skews.isNone
  let anyNone := args.probZeros.isNone || args.locs.isNone || args.scales.isNone || args.skews.isNone
  if anyNone && !allNone then .error .valueError
  else if allNan values.data then .ok values
  else do
    let values ← validateArray values per
    match values.shape with
    | [n, p] =>
      let params ← match args.probZeros, args.locs, args.scales, args.skews with
        | some p0, some loc, some scale, some skew => do
          let p0 ← bcast p p0
          let loc ← bcast p loc
          let scale ← bcast p scale
          let skew' ← bcast p skew
          if skew.length = p then pure (zipParams p0 loc scale skew') else .error .indexError
        | _, _, _, _ =>
          let de := ds + n
          let (cs', ce') := adjustCalibrationYears ds de cs ce
          pearsonParameters fit values ds cs' ce' per
      pure ⟨[n, p], pearsonFitOld E values.data (tile n params)⟩
    | _ => .error .valueError  -- not reachable

end CI
