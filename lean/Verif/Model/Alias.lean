import Verif.Model.Indices
import Verif.Model.Eto

/-!
# Aliasing: which calls write to the caller's array

The value level models (`spi`, `gammaParameters`, `etoThornthwaite`, …) do not say what happens to the array object the caller passed. Here the same functions
run on a heap of buffers: an array is a reference to a buffer and a shape. Views (`np.reshape` of a contiguous array, functions that return their argument) share the
buffer; `flatten`, `np.clip`, `np.pad`, `np.hstack` and arithmetic allocate a new one. Only arrays that are views of a whole contiguous buffer are
modelled.
-/

namespace CI

/-- the buffers allocated so far -/
abbrev Heap (F : Type) := List (List F)

/-- a numpy array object: a buffer and a shape -/
structure Ref where
  buf : Nat
  shape : List Nat
  deriving DecidableEq, Repr

/-- a call on the heap: the result (or exception) and the heap afterwards -/
def H (F α : Type) := Heap F → Res α × Heap F

/-- sequencing: an exception keeps the heap as it is at that moment -/
def H.bind {F α β : Type} (x : H F α) (f : α → H F β) : H F β := fun h =>
  match x h with
  | (.ok a, h') => f a h'
  | (.error e, h') => (.error e, h')

instance {F : Type} : Monad (H F) where
  pure a := fun h => (.ok a, h)
  bind := H.bind

section
variable {F : Type}

/-- contents of an array object -/
def Heap.arr (h : Heap F) (r : Ref) : Arr F := ⟨r.shape, h.getD r.buf []⟩

/-- read an array -/
def getArr (r : Ref) : H F (Arr F) := fun h => (.ok (h.arr r), h)

/-- allocate a new array -/
def allocArr (a : Arr F) : H F Ref := fun h => (.ok ⟨h.length, a.shape⟩, h ++ [a.data])

/-- overwrite the contents of an array in place -/
def putData (r : Ref) (d : List F) : H F Unit := fun h => (.ok (), h.set r.buf d)

/-- a computation that does not touch the heap -/
def liftRes {α : Type} (x : Res α) : H F α := fun h => (x, h)

variable [FloatOps F]

/-- `reshape_to_2d` (utils.py:193-236): a 2-D array is returned itself; a 1-D array of whole years is returned as a view, otherwise padded into a new array. -/
def reshapeTo2dH (r : Ref) (k : Nat) : H F Ref := do
  let a ← getArr r
  match a.shape with
  | [_, c] => if c = k then pure r else liftRes (.error .valueError)
  | [n] =>
    if k = 0 then liftRes (.error .zeroDivisionError)
    else if n % k > 0 then do
      let d := a.data ++ List.replicate (k - n % k) nan
      allocArr ⟨[d.length / k, k], d⟩
    else pure ⟨r.buf, [a.data.length / k, k]⟩
  | _ => liftRes (.error .valueError)

/-- `_validate_array` (compute.py:69-112) -/
def validateArrayH (r : Ref) (per : Periodicity) : H F Ref :=
  match r.shape with
  | [_] =>
    match per with
    | .monthly => reshapeTo2dH r 12
    | .daily => reshapeTo2dH r 366
    | .other => liftRes (.error .valueError)
  | [_, c] => if c = 12 ∨ c = 366 then pure r else liftRes (.error .valueError)
  | _ => liftRes (.error .valueError)

/-- `sum_to_scale` (compute.py:115-157): scale 1 returns the argument itself. -/
def sumToScaleH (r : Ref) (scale : Int) : H F Ref := do
  if scale = 1 then pure r
  else do
    let a ← getArr r
    let s ← liftRes (sumToScale a.data scale)
    allocArr (Arr.of1d s)

/-- flattening of 2-D arrays (indices.py:113-120, compute.py:725-731): `flatten` copies; 1-D arrays stay. -/
def flattenH (r : Ref) : H F Ref :=
  if r.shape.length = 2 then do
    let a ← getArr r
    allocArr (Arr.of1d a.data)
  else if r.shape.length = 1 then pure r
  else liftRes (.error .valueError)

/-- clipping of negative values (indices.py:128-130, compute.py:739-741): a new array if there are negative values, else the argument itself. -/
def clipNegH (r : Ref) : H F Ref := do
  let a ← getArr r
  let m ← liftRes (amin a.data)
  if flt m (lit 0) then allocArr ⟨a.shape, a.data.map (npClipMin (lit 0))⟩ else pure r

/-- reshaping by periodicity (indices.py:141-146, compute.py:747-755) -/
def reshapePerH (r : Ref) (per : Periodicity) : H F Ref :=
  match per with
  | .monthly => reshapeTo2dH r 12
  | .daily => reshapeTo2dH r 366
  | .other => liftRes (.error .valueError)

/-- `scale_values` (compute.py:718-757) -/
def scaleValuesH (r : Ref) (scale : Int) (per : Periodicity) : H F Ref := do
  let r ← flattenH r
  let a ← getArr r
  if allNan a.data then pure r
  else do
    let r ← clipNegH r
    let r ← sumToScaleH r scale
    reshapePerH r per

/-- the parameters of `gamma_parameters` after the zeros have been replaced (compute.py:687-715) -/
def gammaFitArr (E : Ext F) (a : Arr F) (ds cs ce : Int) : Res (List F × List F) :=
  match a.shape with
  | [n, p] =>
    let calib := calibrationValues a.data n p ds cs ce
    let fits := (List.range p).map (fun j => gammaFitCol E (stride p j calib))
    .ok (fits.map Prod.fst, fits.map Prod.snd)
  | _ => .error .valueError  -- not reachable

/-- `gamma_parameters` (compute.py:638-715); the write is at line 685 -/
def gammaParametersH (E : Ext F) (r : Ref) (ds cs ce : Int) (per : Periodicity) : H F (List F × List F) := do
  let a ← getArr r
  if allNan a.data then
    match per with
    | .monthly => pure (List.replicate 12 nan, List.replicate 12 nan)
    | .daily => pure (List.replicate 366 nan, List.replicate 366 nan)
    | .other => liftRes (.error .valueError)
  else do
    let r ← validateArrayH r per
    let a ← getArr r
    putData r (a.data.map zeroToNan)
    let a ← getArr r
    liftRes (gammaFitArr E a ds cs ce)

/-- the values of `transform_fitted_gamma` (compute.py:803-805, 821-831) from the array before (`a0`) and after (`a`) the replacement of zeros -/
def gammaOutArr (E : Ext F) (a0 a : Arr F) (al be : List F) : Res (Arr F) :=
  match a.shape with
  | [n, p] => do
    let p0s := (List.range p).map (fun j => (lit ((stride p j a0.data).countP (fun x => feq x (lit 0))) / lit n : F))
    let al ← bcast p al
    let be ← bcast p be
    let params := List.zip p0s (List.zip al be)
    pure ⟨[n, p], List.zipWith (fun x q => gammaTransform1 E q.1 q.2.1 q.2.2 x) a.data (tile n params)⟩
  | _ => .error .valueError  -- not reachable

/-- `transform_fitted_gamma` (compute.py:760-831); the write is at line 808 -/
def transformFittedGammaH (E : Ext F) (r : Ref) (ds cs ce : Int) (per : Periodicity) (alphas betas : Option (List F)) : H F Ref := do
  let a ← getArr r
  if allNan a.data then pure r
  else do
    let r ← validateArrayH r per
    let a0 ← getArr r
    putData r (a0.data.map zeroToNan)
    let ab ← match alphas, betas with
      | some al, some be => pure (al, be)
      | _, _ => gammaParametersH E r ds cs ce per
    let a ← getArr r
    let out ← liftRes (gammaOutArr E a0 a ab.1 ab.2)
    allocArr out

/-- `transform_fitted_pearson` (compute.py:552-635): no in-place write to the argument. -/
def transformFittedPearsonH (E : Ext F) (r : Ref) (ds cs ce : Int) (per : Periodicity) (args : PearsonArgs F) : H F Ref := do
  let a ← getArr r
  let out ← liftRes (transformFittedPearson E (lmomentsFit E) a ds cs ce per args)
  if allNan a.data then pure r else allocArr out

/-- `spi` (indices.py:69-204) -/
def spiH (E : Ext F) (r : Ref) (scale : Int) (dist : Distribution) (ds cs ce : Int) (per : Periodicity) (fp : Option (FitDict F)) : H F Ref := do
  let r ← flattenH r
  let a ← getArr r
  if allNan a.data then pure r
  else do
    let r ← clipNegH r
    let a ← getArr r
    let originalLength := a.data.length
    let r ← sumToScaleH r scale
    let r ← reshapePerH r per
    let r ← match dist with
      | .gamma => do
        let ab ← liftRes (getGammaArgs fp)
        transformFittedGammaH E r ds cs ce per ab.1 ab.2
      | .pearson => do
        let args ← liftRes (getPearsonArgs fp)
        transformFittedPearsonH E r ds cs ce per args
      | .other => liftRes (.error .valueError)
    let a ← getArr r
    allocArr (Arr.of1d (clipFlattenTruncate a originalLength))

/-- `eto_thornthwaite` (eto.py:196-282); the write is at line 246 -/
def etoThornthwaiteH (T : Trig F) (r : Ref) (latDeg : F) (startYear : Int) : H F Ref := do
  let a ← getArr r
  let originalLength := a.data.length
  let r ← reshapeTo2dH r 12
  let lat := radians T latDeg
  let a ← getArr r
  putData r (a.data.map zeroNegative)
  let a ← getArr r
  let i := heatIndex T a.data
  let e := thornExponent T i
  let dlN ← liftRes (monthlyMeanDaylight T lat false)
  let dlL ← liftRes (monthlyMeanDaylight T lat true)
  allocArr (Arr.of1d ((a.data.zipIdx.map (fun q => thornAt T i e dlN dlL startYear q.2 q.1)).take originalLength))

/-- `pet` (indices.py:459-511) -/
def petH (T : Trig F) (r : Ref) (lat : Option F) (startYear : Int) : H F Ref := do
  let a ← getArr r
  if allNan a.data then pure r
  else
    match lat with
    | none => liftRes (.error .valueError)
    | some x =>
      if !isNan x && (flt (lit (-90)) x && flt x (lit 90)) then etoThornthwaiteH T r x startYear
      else liftRes (.error .valueError)

/-! ## One grid cell in the SPI tool -/

/-- fitting for one series and scale, `_apply_to_subarray_gamma` (`__spi__.py`:1137-1149): the series is a view of the shared precipitation array -/
def fitGammaH (E : Ext F) (r : Ref) (scale ds cs ce : Int) (per : Periodicity) : H F (FitDict F) := do
  let s ← scaleValuesH r scale per
  let ab ← gammaParametersH E s ds cs ce per
  pure [("alpha", some ab.1), ("beta", some ab.2)]

/-- `_apply_to_subarray_pearson` (`__spi__.py`:1213-1237) -/
def fitPearsonH (E : Ext F) (r : Ref) (scale ds cs ce : Int) (per : Periodicity) : H F (FitDict F) := do
  let s ← scaleValuesH r scale per
  let a ← getArr s
  let ps ← liftRes (pearsonParameters (lmomentsFit E) a ds cs ce per)
  pure [("prob_zero", some (ps.map PearsonParams.probZero)), ("loc", some (ps.map PearsonParams.loc)), ("scale", some (ps.map PearsonParams.scale)),
    ("skew", some (ps.map PearsonParams.skew))]

/-- one (scale, distribution) of the loop in `_compute_write_index` (`__spi__.py`:590-716) for one grid cell: fitting, then SPI with the fitted parameters -/
def batchStepH (E : Ext F) (r : Ref) (ds cs ce : Int) (per : Periodicity) (sd : Int × Distribution) : H F (List F) := do
  let fp ← match sd.2 with
    | .gamma => fitGammaH E r sd.1 ds cs ce per
    | .pearson => fitPearsonH E r sd.1 ds cs ce per
    | .other => liftRes (.error .valueError)
  let out ← spiH E r sd.1 sd.2 ds cs ce per (some fp)
  let a ← getArr out
  pure a.data

/-- a sequence of (scale, distribution) pairs; an exception ends the run -/
def batchH (E : Ext F) (r : Ref) (ds cs ce : Int) (per : Periodicity) : List (Int × Distribution) → H F (List (List F))
  | [] => pure []
  | sd :: rest => do
    let out ← batchStepH E r ds cs ce per sd
    let outs ← batchH E r ds cs ce per rest
    pure (out :: outs)

/-- the pairs in the order of the tool: for every scale gamma, then Pearson -/
def toolPairs (scales : List Int) : List (Int × Distribution) := scales.flatMap (fun s => [(s, .gamma), (s, .pearson)])

end
end CI
