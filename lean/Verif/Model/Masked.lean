import Verif.Model.Indices

/-!
# Numpy masked arrays

A masked array (`numpy.ma.MaskedArray`, what netCDF4 returns for variables with a fill value) has data and a mask; the data
under the mask are usually fill values. Modelled are the functions in which the masked array is turned into a plain array at once:
`spi` and `percentage_of_normal` for scales of at least 2, where `np.convolve` (compute.py:154) takes the data with
`np.array(a)`, which drops the mask, and `is_data_valid`. For scale 1 the masked array itself goes on through the fitting; this
is not modelled.
-/

namespace CI

/-- a masked array of one or two dimensions: shape, data and mask (`true`: masked) in C order -/
structure MArr (F : Type) where
  shape : List Nat
  data : List F
  mask : List Bool

variable {F : Type} [FloatOps F]

/-- the values that are not masked: `a.compressed()` -/
def MArr.shown (a : MArr F) : List F := (a.data.zip a.mask).filterMap (fun q => if q.2 then none else some q.1)

/-- `np.ma.is_masked(values) and values.mask.all()`: at least one value is masked, and all are -/
def MArr.allMasked (a : MArr F) : Bool := a.mask.any id && a.mask.all id

/-- `spi` (indices.py:114-204) of a masked array for the scale `k + 2`. An array that is masked entirely or has no number is
returned. `np.isnan`, `np.all` and `np.amin` leave masked values out, `np.clip` clips the data under the mask too, `np.convolve`
takes all data; from there on the array is a plain one. -/
def spiMasked (E : Ext F) (values : MArr F) (k : Nat) (dist : Distribution) (ds cs ce : Int)
    (per : Periodicity) (fp : Option (FitDict F)) : Res (MArr F) :=
  if values.shape.length = 2 ∨ values.shape.length = 1 then
    if values.allMasked || allNan values.shown then .ok ⟨[values.data.length], values.data, values.mask⟩
    else do
      let m ← amin values.shown
      let data := if flt m (lit 0) then values.data.map (npClipMin (lit 0)) else values.data
      let originalLength := data.length
      let scaled ← sumToScale data (k + 2)
      let values ← match per with
        | .monthly => reshapeTo2d (Arr.of1d scaled) 12
        | .daily => reshapeTo2d (Arr.of1d scaled) 366
        | .other => .error .valueError
      let values ← match dist with
        | .gamma => do
          let (alphas, betas) ← getGammaArgs fp
          transformFittedGamma E values ds cs ce per alphas betas
        | .pearson => do
          let args ← getPearsonArgs fp
          transformFittedPearson E (lmomentsFit E) values ds cs ce per args
        | .other => .error .valueError
      let out := clipFlattenTruncate values originalLength
      pure ⟨[out.length], out, List.replicate out.length false⟩
  else .error .valueError

/-- `percentage_of_normal` (indices.py:349-456) of a one-dimensional masked array for the scale `k + 2`: the order of the checks is
scale, periodicity, entirely masked input, calibration years; after that only the data are used. -/
def pnpMasked (values : MArr F) (k : Nat) (ds cs ce : Int) (per : Periodicity) : Res (MArr F) :=
  if per = .other then .error .valueError
  else if values.allMasked then .ok values
  else do
    let out ← percentageOfNormal values.data (some (k + 2)) ds cs ce per
    pure ⟨[out.length], out, List.replicate out.length false⟩

/-- `is_data_valid` (utils.py:150-175) of a masked array: `bool(data.count())` -/
def isDataValidMasked (values : MArr F) : Bool := decide (values.shown.length ≠ 0)

end CI
