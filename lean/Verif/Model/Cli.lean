import Verif.Model.Parallel
import Verif.Model.Eto

/-!
# Model of the command line tools: argument validation, the sequence of computations, files and process-wide shared arrays

`src/climate_indices/__main__.py` and the argument validation of `src/climate_indices/__spi__.py`.

Files are a map from names to variables (with dimensions, units and values); coordinate variables are ordinary variables here. Not modelled here: argparse (see `Model/Argparse.lean`), NetCDF
encoding, chunk sizes, attributes other than units, log messages, files without coordinate variables, merging different values of the same data variable. Index functions are a
parameter. `yearOf` is the year of a value of the time coordinate (the first four characters of its text).
-/

namespace CI

/-! ## State and exceptions -/

/-- a call with state `σ`: result or exception, and the state afterwards -/
def SE (σ α : Type) := σ → Res α × σ

/-- sequencing: an exception keeps the state as it is at that moment -/
def SE.bind {σ α β : Type} (x : SE σ α) (f : α → SE σ β) : SE σ β := fun s =>
  match x s with
  | (.ok a, s') => f a s'
  | (.error e, s') => (.error e, s')

instance {σ : Type} : Monad (SE σ) where
  pure a := fun s => (.ok a, s)
  bind := SE.bind

/-- a computation that does not touch the state -/
def SE.lift {σ α : Type} (x : Res α) : SE σ α := fun s => (x, s)

/-! ## Files -/

/-- `InputType` (`__main__.py`:38-46) -/
inductive InputType | grid | divisions | timeseries
  deriving DecidableEq, Repr

/-- a variable of a NetCDF file -/
structure NcVar (F : Type) where
  dims : List String
  shape : List Nat
  units : Option String
  data : List F
  deriving DecidableEq

/-- a NetCDF file: its variables -/
abbrev NcFile (F : Type) := List (String × NcVar F)

/-- the files on disk -/
abbrev Files (F : Type) := String → Option (NcFile F)

section
variable {F : Type}

/-- `xr.open_dataset` (with `None` as file name xarray raises ValueError) -/
def openFile (fs : Files F) (name : Option String) : Res (NcFile F) :=
  match name with
  | none => .error .valueError
  | some n =>
    match fs n with
    | none => .error .osError
    | some d => .ok d

/-- `dataset[name]` -/
def NcFile.get (d : NcFile F) (name : String) : Res (NcVar F) :=
  match List.lookup name d with
  | none => .error .keyError
  | some v => .ok v

/-- `dataset[name]` for a name that may be `None` -/
def NcFile.getOpt (d : NcFile F) (name : Option String) : Res (NcVar F) :=
  match name with
  | none => .error .keyError
  | some v => d.get v

/-- `name not in dataset.variables` raises ValueError (`None` is in no data set) -/
def NcFile.require (d : NcFile F) (name : Option String) : Res (NcVar F) :=
  match name with
  | none => .error .valueError
  | some n =>
    match List.lookup n d with
    | none => .error .valueError
    | some v => .ok v

/-- the values of a coordinate variable -/
def NcFile.coord (d : NcFile F) (name : String) : Res (List F) := do
  let v ← d.get name
  pure v.data

/-! ## `_validate_args` of `__main__.py` -/

/-- command line arguments (`__main__.py`:1512-1593) that matter for validation and for the sequence of computations -/
structure CliArgs where
  index : String
  periodicity : Periodicity
  scales : Option (List Int)
  netcdfPrecip : Option String
  varNamePrecip : Option String
  netcdfTemp : Option String
  varNameTemp : Option String
  netcdfPet : Option String
  varNamePet : Option String
  netcdfAwc : Option String
  varNameAwc : Option String
  outputFileBase : String

/-- the values of `--index` (`__main__.py`:1516) -/
def indexChoices : List String := ["spi", "spei", "pnp", "scaled", "pet", "palmers", "all"]

/-- expected dimensions (`__main__.py`:76-93) -/
def dimsDivisions : List (List String) := [["time", "division"], ["division", "time"]]
def dimsGrid : List (List String) := [["lat", "lon", "time"], ["time", "lat", "lon"]]
def dimsTimeseries : List (List String) := [["time"]]
def dimsGridAwc : List (List String) := [["lat", "lon", "time"], ["time", "lat", "lon"], ["lat", "lon"], ["lat", "lon"]]
def dimsDivisionsAwc : List (List String) := [["time", "division"], ["division", "time"], ["division"]]

/-- the input type from the dimensions (`__main__.py`:120-134, 171-185) -/
def inputTypeOf (dims : List String) : Res InputType :=
  if dims ∈ dimsGrid then .ok .grid
  else if dims ∈ dimsDivisions then .ok .divisions
  else if dims ∈ dimsTimeseries then .ok .timeseries
  else .error .valueError

/-- comparison of coordinates: `np.allclose` with a tolerance computed from the first argument, which raises on shapes that do not fit, and `np.array_equal` -/
structure CoordCmp (F : Type) where
  close : List F → List F → Res Bool
  equal : List F → List F → Bool

/-- the precipitation file (`__main__.py`:94-143): input type and data set -/
def validatePrecip (fs : Files F) (a : CliArgs) : Res (InputType × NcFile F) :=
  match a.netcdfPrecip, a.varNamePrecip with
  | none, _ => .error .valueError
  | _, none => .error .valueError
  | some f, some v => do
    let d ← openFile fs (some f)
    let x ← d.require (some v)
    let it ← inputTypeOf x.dims
    match it with
    | .grid => do
      let _ ← d.coord "lat"
      let _ ← d.coord "lon"
      let _ ← d.coord "time"
      pure (it, d)
    | .divisions => do
      let _ ← d.coord "division"
      let _ ← d.coord "time"
      pure (it, d)
    | .timeseries => do
      let _ ← d.coord "time"
      pure (it, d)

/-- the temperature file for `--index pet` (`__main__.py`:145-185) -/
def validatePetTemp (fs : Files F) (a : CliArgs) : Res InputType :=
  match a.netcdfTemp with
  | none => .error .valueError
  | some f =>
    if a.periodicity ≠ .monthly then .error .valueError
    else do
      let d ← openFile fs (some f)
      let x ← d.require a.varNameTemp
      inputTypeOf x.dims

/-- the comparison of the lat/lon or division coordinates with those of the precipitation file -/
def compareSpace (cmp : CoordCmp F) (it : InputType) (p d : NcFile F) : Res Unit :=
  match it with
  | .grid => do
    let lp ← p.coord "lat"
    let ld ← d.coord "lat"
    let c1 ← cmp.close lp ld
    if c1 then do
      let op ← p.coord "lon"
      let od ← d.coord "lon"
      let c2 ← cmp.close op od
      if c2 then pure () else .error .valueError
    else .error .valueError
  | .divisions => do
    let dp ← p.coord "division"
    let dd ← d.coord "division"
    if cmp.equal dp dd then pure () else .error .valueError
  | .timeseries => pure ()

/-- the PET file (`__main__.py`:195-273) or the temperature file (`__main__.py`:282-359) against the precipitation file -/
def validateSecond (cmp : CoordCmp F) (fs : Files F) (it : InputType) (p : NcFile F) (file var : Option String) : Res Unit := do
  let d ← openFile fs file
  let x ← d.require var
  let expected := match it with
    | .grid => dimsGrid
    | .divisions => dimsDivisions
    | .timeseries => dimsTimeseries
  if x.dims ∈ expected then do
    compareSpace cmp it p d
    let tp ← p.coord "time"
    let td ← d.coord "time"
    if cmp.equal tp td then pure () else .error .valueError
  else .error .valueError

/-- the AWC file (`__main__.py`:361-431) -/
def validateAwc (cmp : CoordCmp F) (fs : Files F) (it : InputType) (p : NcFile F) (file var : Option String) : Res Unit :=
  match file with
  | none => .error .valueError
  | some f => do
    let d ← openFile fs (some f)
    let x ← d.require var
    match it with
    | .grid => if x.dims ∈ dimsGridAwc then compareSpace cmp it p d else .error .valueError
    | .divisions => if x.dims ∈ dimsDivisionsAwc then compareSpace cmp it p d else .error .valueError
    | .timeseries => .error .valueError

/-- the value, or an exception for `None` -/
def orElseRaise {α : Type} (x : Option α) (e : PyErr) : Res α :=
  match x with
  | none => .error e
  | some v => .ok v

/-- the scales (`__main__.py`:433-445) -/
def validateScales (a : CliArgs) : Res Unit :=
  if a.index ∈ ["spi", "spei", "scaled", "pnp"] then
    match a.scales with
    | none => .error .valueError
    | some s => if s.any (fun n => decide (n < 0)) then .error .valueError else .ok ()
  else .ok ()

/-- exactly one of PET and temperature (`__main__.py`:189-359) -/
def validateTempOrPet (cmp : CoordCmp F) (fs : Files F) (a : CliArgs) (it : InputType) (p : NcFile F) : Res Unit :=
  match a.netcdfTemp, a.netcdfPet with
  | none, none => .error .valueError
  | none, some f => validateSecond cmp fs it p (some f) a.varNamePet
  | some _, some _ => .error .valueError
  | some f, none => validateSecond cmp fs it p (some f) a.varNameTemp

/-- PET or temperature, and AWC (`__main__.py`:187-431) -/
def validateOthers (cmp : CoordCmp F) (fs : Files F) (a : CliArgs) (it : InputType) (p : NcFile F) : Res Unit :=
  if a.index ∈ ["spei", "scaled", "palmers"] then do
    validateTempOrPet cmp fs a it p
    if a.index = "palmers" then validateAwc cmp fs it p a.netcdfAwc a.varNameAwc else pure ()
  else pure ()

/-- `_validate_args` (`__main__.py`:64-447) -/
def validateArgs (cmp : CoordCmp F) (fs : Files F) (a : CliArgs) : Res InputType :=
  if a.index ≠ "pet" then do
    let (it, p) ← validatePrecip fs a
    validateOthers cmp fs a it p
    validateScales a
    pure it
  else do
    let it ← validatePetTemp fs a
    validateScales a
    pure it

/-! ## Processing -/

/-- keyword arguments of `_compute_write_index` -/
structure Job where
  index : String
  precip : Option (String × String)
  temp : Option (String × String)
  pet : Option (String × String)
  awc : Option (String × String)
  inputType : InputType
  scale : Option Int
  dist : Option Distribution
  periodicity : Periodicity
  base : String
  deriving DecidableEq

/-- Counter equality of dimension tuples -/
def sameDims (x y : List String) : Bool := x.length == y.length && x.all (fun d => x.count d == y.count d)

/-- the dimensions expected by `_prepare_file` (`__main__.py`:1449-1466) -/
def expectedDims (dims : List String) : Res (List String) :=
  if "division" ∈ dims then
    match dims.length with
    | 1 => .ok ["division"]
    | 2 => .ok ["division", "time"]
    | _ => .error .valueError
  else
    match dims.length with
    | 1 => .ok ["time"]
    | 2 => .ok ["lat", "lon"]
    | 3 => .ok ["lat", "lon", "time"]
    | _ => .error .valueError

/-- `_prepare_file` (`__main__.py`:1432-1473): the name of the file itself, or an exception -/
def prepareFile (fs : Files F) (file var : Option String) : Res String := do
  let d ← openFile fs file
  let x ← d.getOpt var
  let expected ← expectedDims x.dims
  if sameDims x.dims expected then pure (file.getD "") else .error .valueError

/-- the dimension checks of `_drop_data_into_shared_arrays_grid` (`__main__.py`:571-590) -/
def gridDimsOk (dims : List String) : Bool :=
  match dims.length with
  | 3 => decide (dims ∈ [["lat", "lon", "time"], ["lon", "lat", "time"]])
  | 2 => decide (dims ∈ [["lat", "lon"], ["lon", "lat"]])
  | 1 => decide (dims ∈ [["time"]])
  | _ => true

/-- the dimension checks of `_drop_data_into_shared_arrays_divisions` (`__main__.py`:643-656) -/
def divisionDimsOk (dims : List String) : Bool :=
  match dims.length with
  | 2 => decide (dims ∈ [["division", "time"], ["time", "division"]])
  | 1 => decide (dims ∈ [["division"]])
  | _ => true

/-! ### Units -/

variable [FloatOps F]

/-- precipitation in millimetres (`__main__.py`:756-766, the same in `__spi__.py`:596-604); `u` is the unit string in lower case -/
def convertPrecip (u : String) (x : List F) : Res (List F) :=
  if u ∈ ["mm", "millimeters", "millimeter", "mm/dy"] then .ok x
  else if u ∈ ["inches", "inch"] then .ok (x.map (fun v => v * lit 25.4))
  else .error .valueError

/-- PET in millimetres (`__main__.py`:790-798) -/
def convertPet (u : String) (x : List F) : Res (List F) :=
  if u ∈ ["mm", "millimeters", "millimeter"] then .ok x
  else if u ∈ ["inches", "inch"] then .ok (x.map (fun v => v * lit 25.4))
  else .error .valueError

/-- `scipy.constants.convert_temperature(x, "f", "c")` (external: through Kelvin) -/
def fahrenheitToCelsius (v : F) : F := ((v - lit 32) * lit 5 / lit 9 + lit 273.15) - lit 273.15

/-- `scipy.constants.convert_temperature(x, "k", "c")` -/
def kelvinToCelsius (v : F) : F := v - lit 273.15

/-- temperature in degrees Celsius (`__main__.py`:768-788) -/
def convertTemp (u : String) (x : List F) : Res (List F) :=
  if u ∈ ["degree_celsius", "degrees_celsius", "celsius", "c"] then .ok x
  else if u ∈ ["f", "fahrenheit", "degree_fahrenheit", "degrees_fahrenheit"] then .ok (x.map fahrenheitToCelsius)
  else if u ∈ ["k", "kelvin"] then .ok (x.map kelvinToCelsius)
  else .error .valueError

/-- conversion of one variable: `dataset[name].units.lower()` raises AttributeError without units; `lower` is Python's `str.lower` -/
def convertVar (lower : String → String) (conv : String → List F → Res (List F)) (x : NcVar F) : Res (NcVar F) :=
  match x.units with
  | none => .error .attributeError
  | some u => do
    let d ← conv (lower u) x.data
    pure { x with data := d }

/-! ### Output names -/

/-- `str(n).zfill(2)` -/
def zfill2 (n : Int) : String := let s := toString n; if s.length < 2 then "0" ++ s else s

/-- `Distribution.value` -/
def Distribution.value : Distribution → String
  | .pearson => "pearson"
  | .gamma => "gamma"
  | .other => ""

/-- the variable name of `_get_variable_attributes` (`__main__.py`:523-558); scale and distribution are looked up in a dictionary -/
def variableName (j : Job) : Res String :=
  match j.index, j.scale, j.dist with
  | "spi", some s, some d => .ok ("spi_" ++ d.value ++ "_" ++ zfill2 s)
  | "spei", some s, some d => .ok ("spei_" ++ d.value ++ "_" ++ zfill2 s)
  | "spi", _, _ => .error .keyError
  | "spei", _, _ => .error .keyError
  | "pnp", some s, _ => .ok ("pnp_" ++ zfill2 s)
  | "pnp", none, _ => .error .keyError
  | "pet", _, _ => .ok "pet_thornthwaite"
  | _, _, _ => .error .valueError

/-- the units attribute of the output variable -/
def outputUnits (j : Job) : Option String := if j.index = "pet" then some "millimeters" else none

/-! ### Shared arrays and the computation -/

/-- a Python dictionary -/
abbrev Dict (α : Type) := String → Option α

/-- `d[k] = v` -/
def Dict.put {α : Type} (d : Dict α) (k : String) (v : α) : Dict α := fun x => if x = k then some v else d x

/-- `d[k]` -/
def Dict.at {α : Type} (d : Dict α) (k : String) : Res α :=
  match d k with
  | none => .error .keyError
  | some v => .ok v

/-- process-wide state: files, `_global_shared_arrays`, and the log of (file, variable) written -/
structure World (F : Type) where
  files : Files F
  shared : Dict (Arr F)
  written : List (String × String)

/-- `_KEY_RESULT` (`__main__.py`:24) -/
def keyResult : String := "result_array"

/-- `_KEY_LAT` (`__main__.py`:23) -/
def keyLat : String := "lat"

/-- the `n` rows (first axis) of an array -/
def rowsOf (n : Nat) (d : List F) : List (List F) :=
  (List.range n).map (fun i => (d.drop (i * (d.length / n))).take (d.length / n))

/-- assignment of a computed series to a place for `n` values: a single value is broadcast, other lengths are a ValueError -/
def assignSeries (n : Nat) (out : List F) : Res (List F) :=
  if out.length = n then .ok out
  else match out with
    | [x] => .ok (List.replicate n x)
    | _ => .error .valueError

/-- one row of a grid (`cols` series of `n` values) or of divisions (`cols` = 1): the index function on every series. The second argument has the same layout (SPEI), or
is one value for the whole row (`lat`: PET), or is not used (SPI, PNP). -/
def rowFunc (func : List F → List F → Res (List F)) (cols n : Nat) (lat : Bool) (r : List F × List F) : Res (List F) := do
  let parts ← (List.range cols).mapM (fun j => do
    let out ← func ((r.1.drop (j * n)).take n) (if lat then r.2 else (r.2.drop (j * n)).take n)
    assignSeries n out)
  pure parts.flatten

/-- the chunks one after the other, each writing its rows of the output (by C47 this is the result of every parallel execution). `g` computes the rows of a chunk. -/
def applyChunks {ρ σ : Type} (g : List ρ → Res (List σ)) (rows : List ρ) : List (Nat × Option Nat) → List σ → Res (List σ)
  | [], out => .ok out
  | c :: cs, out => do
    let new ← g ((rows.take (c.2.getD rows.length)).drop c.1)
    applyChunks g rows cs (out.take c.1 ++ new ++ out.drop (c.2.getD out.length))

/-- the arrays of `_apply_along_axis` and `_apply_along_axis_double` (`__main__.py`:1281-1287, 1301-1302, 1325-1351): the shape used for the views (that of the input for
SPI and PNP, that of the result for SPEI and PET), after the sizes have been checked by `reshape` (that of the result array with its own shape: `__main__.py`:1062-1063) -/
def viewShape (j : Job) (first second res : Arr F) : Res (List Nat) :=
  if first.data.length ≠ res.data.length ∨ res.data.length ≠ res.shape.foldr (· * ·) 1 then .error .valueError
  else if j.index = "spei" then
    if second.data.length ≠ res.data.length then .error .valueError else .ok res.shape
  else if j.index = "pet" then
    match res.shape with
    | [] => .error .indexError
    | n :: _ => if second.data.length ≠ n then .error .valueError else .ok res.shape
  else .ok first.shape

/-- `_parallel_process` with `_apply_along_axis` or `_apply_along_axis_double` (`__main__.py`:1149-1363): the new contents of the result array. `first`, `second` are the
input arrays, `res` is the result array in shared memory. For grids the index function is applied along the third axis of a 3-D array, for divisions along the second
axis of a 2-D array, for a single time series to each chunk of time steps (SPEI and PET raise ValueError). Views of other ranks, which the validation excludes, raise
in numpy; here they are a ValueError. A grid without any longitude raises ValueError in `np.apply_along_axis`; here its result is empty. -/
def parallelProcess (K : Job → List F → List F → Res (List F)) (workers : Nat) (j : Job) (first second res : Arr F) : Res (List F) := do
  let n0 ← orElseRaise res.shape.head? .indexError
  let chunks ← mainChunks n0 workers
  if j.index ∈ ["spi", "pnp", "spei", "pet"] then do
    let shape ← viewShape j first second res
    match j.inputType, shape with
    | .timeseries, _ =>
      if j.index ∈ ["spei", "pet"] then .error .valueError
      else applyChunks (fun xs => K j xs [] >>= assignSeries xs.length) first.data chunks res.data
    | .grid, [a, b, n] => do
      let out ← applyChunks (fun rs => rs.mapM (rowFunc (K j) b n (j.index == "pet"))) ((rowsOf a first.data).zip (rowsOf a second.data)) chunks (rowsOf a res.data)
      pure out.flatten
    | .divisions, [a, n] => do
      let out ← applyChunks (fun rs => rs.mapM (rowFunc (K j) 1 n (j.index == "pet"))) ((rowsOf a first.data).zip (rowsOf a second.data)) chunks (rowsOf a res.data)
      pure out.flatten
    | _, _ => .error .valueError
  else .error .valueError

/-- coordinates: variables named like their only dimension; they are kept in an output file, data variables are removed (`__main__.py`:1085-1091) -/
def coordsOf (d : NcFile F) : NcFile F := d.filter (fun p => decide (p.2.dims = [p.1]))

/-- equal coordinate values (missing values are equal) -/
def sameCoordVal (x y : F) : Bool := feq x y || (isNan x && isNan y)

/-- equal coordinates -/
def sameCoord (x y : List F) : Bool := x.length == y.length && (x.zip y).all (fun p => sameCoordVal p.1 p.2)

/-- the coordinates that two data sets have in common are equal -/
def agree (d e : NcFile F) : Bool := (coordsOf d).all (fun p => (coordsOf e).all (fun q => p.1 != q.1 || sameCoord p.2.data q.2.data))

/-- common coordinates of data sets are equal -/
def coordsAgree : List (NcFile F) → Bool
  | [] => true
  | d :: ds => ds.all (agree d) && coordsAgree ds

/-- a value into a sorted list without duplicates -/
def insertCoord (x : F) : List F → List F
  | [] => [x]
  | y :: ys => if sameCoordVal x y then y :: ys else if flt x y then x :: y :: ys else y :: insertCoord x ys

/-- the coordinate of the merged data set (outer join): the common one, otherwise the sorted union -/
def joinCoord (ls : List (List F)) : List F :=
  match ls with
  | [] => []
  | l :: rest => if rest.all (sameCoord l) then l else ls.flatten.foldl (fun acc x => insertCoord x acc) []

/-- the values of an array at new positions along every axis; `none` is a place without a value (NaN) -/
def gather : List (List (Option Nat)) → List Nat → List F → List F
  | m :: ms, _ :: shape, data =>
    let size := shape.foldr (· * ·) 1
    m.flatMap (fun o => match o with
      | none => List.replicate ((ms.map List.length).foldr (· * ·) 1) nan
      | some i => gather ms shape ((data.drop (i * size)).take size))
  | _, _, data => data

/-- a variable of data set `d` on the coordinates of the merged data set -/
def alignVar (ds : List (NcFile F)) (d : NcFile F) (p : String × NcVar F) : String × NcVar F :=
  let new := fun c => joinCoord (ds.filterMap (fun e => (List.lookup c (coordsOf e)).map NcVar.data))
  if p.2.dims = [p.1] then (p.1, { p.2 with shape := [(new p.1).length], data := new p.1 })
  else
    let maps := (p.2.dims.zip p.2.shape).map (fun q =>
      match List.lookup q.1 (coordsOf d) with
      | none => (List.range q.2).map some
      | some x => (new q.1).map (fun v => x.data.findIdx? (sameCoordVal v)))
    (p.1, { p.2 with shape := maps.map List.length, data := gather maps p.2.shape p.2.data })

/-- the merged data set (`xr.open_mfdataset`, `__main__.py`:690-713); all files must exist. Every variable is looked up in the first file that has it. If common coordinates
differ, all variables are put on the union of the coordinates (xarray's default, an outer join). -/
def openAll (fs : Files F) (names : List String) : Res (NcFile F) := do
  let ds ← names.mapM (fun n => openFile fs (some n))
  if coordsAgree ds then pure ds.flatten else pure (ds.map (fun d => d.map (alignVar ds d))).flatten

/-- one input variable after the unit conversion, as a list of at most one element -/
def convertInput (lower : String → String) (conv : String → List F → Res (List F)) (d : NcFile F) (x : Option (String × String)) : Res (List (String × NcVar F)) :=
  match x with
  | none => .ok []
  | some (_, v) => do
    let x ← d.get v
    let x' ← convertVar lower conv x
    pure [(v, x')]

/-- the latitudes are an additional input variable for divisions (`__main__.py`:734-736) -/
def latInput (d : NcFile F) (it : InputType) : Res (List (String × NcVar F)) :=
  match it with
  | .divisions => do
    let x ← d.get "lat"
    pure [("lat", x)]
  | _ => .ok []

/-- the input variables after the unit conversions (`__main__.py`:727-739, 756-798): name and variable, in the order precipitation, temperature, PET, and `lat` for
divisions -/
def convertInputs (lower : String → String) (d : NcFile F) (j : Job) : Res (List (String × NcVar F)) := do
  let p ← convertInput lower convertPrecip d j.precip
  let t ← convertInput lower convertTemp d j.temp
  let e ← convertInput lower convertPet d j.pet
  let l ← latInput d j.inputType
  pure (p ++ t ++ e ++ l)

/-- dimension checks of `_drop_data_into_shared_arrays_grid` or `_drop_data_into_shared_arrays_divisions` (`__main__.py`:571-590, 643-656) -/
def dropDimsOk (it : InputType) (dims : List String) : Bool :=
  match it with
  | .divisions => divisionDimsOk dims
  | _ => gridDimsOk dims

/-- the output shape: of the last variable, for divisions of the last 2-D variable (`__main__.py`:608, 671-672) -/
def outputShape (it : InputType) (vars : List (String × NcVar F)) : Option (List Nat) :=
  match it with
  | .divisions => ((vars.filter (fun p => p.2.shape.length = 2)).getLast?).map (fun p => p.2.shape)
  | _ => vars.getLast?.map (fun p => p.2.shape)

/-- the first year (`__main__.py`:594, 742; `__spi__.py`:285, 590): `yearOf` is the year of a value of the time coordinate -/
def firstYear (yearOf : F → Int) (d : NcFile F) : Res Int := do
  let t ← d.get "time"
  let x ← getIdx t.data 0
  pure (yearOf x)

/-- the last year (`__main__.py`:595; `__spi__.py`:286) -/
def lastYear (yearOf : F → Int) (d : NcFile F) : Res Int := do
  let t ← d.get "time"
  let x ← orElseRaise t.data.getLast? .indexError
  pure (yearOf x)

/-- `np.apply_along_axis` along the last axis; ValueError if there is no series. `m` is the new length of the series. -/
def alongLast (f : List F → Res (List F)) (m : Nat) (shape : List Nat) (data : List F) : Res (Arr F) :=
  let k := shape.dropLast.foldr (· * ·) 1
  if shape = [] ∨ k = 0 then .error .valueError
  else do
    let parts ← (rowsOf k data).mapM f
    pure ⟨shape.dropLast ++ [m], parts.flatten⟩

/-- the values of a variable: daily values in 366-day years (`__main__.py`:592-606, `__spi__.py`:283-297) -/
def dailyValues (yearOf : F → Int) (per : Periodicity) (d : NcFile F) (x : NcVar F) : Res (Arr F) :=
  match per with
  | .daily => do
    let y0 ← firstYear yearOf d
    let y1 ← lastYear yearOf d
    if y1 - y0 + 1 < 0 then .error .valueError
    else alongLast (fun s => transformTo366day (Arr.of1d s) y0 (y1 - y0 + 1).toNat) ((y1 - y0 + 1).toNat * 366) x.shape x.data
  | _ => .ok ⟨x.shape, x.data⟩

/-- one variable on its way into shared memory (`__main__.py`:569-608, 640-672): its dimensions are checked; daily values are converted into 366-day years unless they are those of
divisions -/
def dropVar (yearOf : F → Int) (j : Job) (d : NcFile F) (p : String × NcVar F) : Res (String × NcVar F) :=
  if dropDimsOk j.inputType p.2.dims then
    match j.inputType with
    | .divisions => .ok p
    | _ => do
      let v ← dailyValues yearOf j.periodicity d p.2
      pure (p.1, { p.2 with shape := v.shape, data := v.data })
  else .error .valueError

/-- `_drop_data_into_shared_arrays_grid` and `_drop_data_into_shared_arrays_divisions` (`__main__.py`:561-677): the new dictionary and the output shape. Simplification:
when a variable is refused the dictionary is left as it was, although the variables before it have already been put; nothing reads them before they are put again. -/
def dropData (yearOf : F → Int) (j : Job) (d : NcFile F) (vars : List (String × NcVar F)) (sh : Dict (Arr F)) : Res (Dict (Arr F) × List Nat) := do
  let vars ← vars.mapM (dropVar yearOf j d)
  match outputShape j.inputType vars with
  | none => .error .typeError
  | some s => .ok (vars.foldl (fun d p => d.put p.1 ⟨p.2.shape, p.2.data⟩) sh, s)

/-- the first input of the index function (`__main__.py`:1007, 1019, 1046) -/
def firstName (j : Job) : Res String :=
  match (if j.index = "pet" then j.temp else j.precip) with
  | none => .error .keyError
  | some (_, v) => .ok v

/-- the dictionary key of the second input of the index function (`__main__.py`:1020, 1047); SPI and PNP have none and the first is named again -/
def secondName (j : Job) (first : String) : Res String :=
  if j.index = "spei" then
    match j.pet with
    | none => .error .keyError
    | some (_, v) => .ok v
  else if j.index = "pet" then .ok keyLat
  else .ok first

/-- the variable that gives the output its dimensions (`__main__.py`:747-754) -/
def outputLike (j : Job) : Res String :=
  match j.precip, j.temp with
  | some (_, v), _ => .ok v
  | none, some (_, v) => .ok v
  | none, none => .error .valueError

/-- for PET the latitudes are put into the dictionary (`__main__.py`:1028-1039) -/
def putLat (d : NcFile F) (j : Job) (sh : Dict (Arr F)) : Res (Dict (Arr F)) :=
  if j.index = "pet" then do
    let x ← d.get "lat"
    pure (sh.put keyLat ⟨x.shape, x.data⟩)
  else pure sh

/-- the result array is created only if there is none (`__main__.py`:995-1000), filled with zeros -/
def resultArray (sh : Dict (Arr F)) (shape : List Nat) : Arr F := (sh keyResult).getD ⟨shape, List.replicate (shape.foldr (· * ·) 1) (lit 0)⟩

/-- the first part of `_compute_write_index` (`__main__.py`:688-813): merged data set, initial year of the data, output variable's model, dictionary, output shape -/
def loadInputs (lower : String → String) (yearOf : F → Int) (j : Job) (w : World F) : Res (NcFile F × Int × NcVar F × Dict (Arr F) × List Nat) := do
  let d ← openAll w.files ((j.precip.toList ++ j.temp.toList ++ j.pet.toList).map Prod.fst)
  let ds ← firstYear yearOf d
  let like ← outputLike j
  let x ← d.get like
  let vars ← convertInputs lower d j
  let (sh, shape) ← dropData yearOf j d vars w.shared
  if j.index ∈ ["spi", "spei", "pnp", "palmers", "pet"] then pure (d, ds, x, sh, shape) else .error .valueError

/-- the Palmer branch of `_compute_write_index` (`__main__.py`:816-875): the AWC file is read, the result arrays are created (not modelled) and `_parallel_process`
raises ValueError (`__main__.py`:1249-1250), so the code after it (five output files, 877-992) is not reached. (For an array without rows or for no workers the division
in line 1185 is reported first, as another exception.) -/
def computePalmers (w : World F) (j : Job) : Res (String × String) := do
  let f ← orElseRaise j.awc .valueError
  let d ← openFile w.files (some f.1)
  let _ ← d.get f.2
  .error .valueError

/-- the dictionary and the values after the parallel computation (`__main__.py`:995-1052) -/
def computeValues (K : Job → List F → List F → Res (List F)) (workers : Nat) (d : NcFile F) (j : Job) (sh : Dict (Arr F)) (res : Arr F) : Res (List F) := do
  let sh' ← putLat d j sh
  let fn ← firstName j
  let first ← sh'.at fn
  let sn ← secondName j fn
  let second ← sh'.at sn
  parallelProcess K workers j first second res

/-- the values of the output variable (`__main__.py`:1060-1072): daily values back in Gregorian years. `m` is the number of time steps of the data set; another number of values
is reported when the variable is put into the data set, here the conversion reports it. -/
def outputValues (per : Periodicity) (ds : Int) (m : Nat) (shape : List Nat) (out : List F) : Res (Arr F) :=
  match per with
  | .daily => alongLast (fun s => do
      let g ← transformToGregorian (Arr.of1d s) ds
      if g.length = m then pure g else .error .valueError) m shape out
  | _ => .ok ⟨shape, out⟩

/-- the new file (`__main__.py`:1057-1095): coordinates and the new variable, which must fit the dimensions of the data set -/
def outputFile (d : NcFile F) (ds : Int) (like : NcVar F) (j : Job) (shape : List Nat) (out : List F) : Res (String × String × NcFile F) := do
  let name ← variableName j
  let v ← outputValues j.periodicity ds (like.shape.getLastD 0) shape out
  if v.shape = like.shape then
    pure (j.base ++ "_" ++ name ++ ".nc", name, coordsOf d ++ [(name, ⟨like.dims, v.shape, outputUnits j, v.data⟩)])
  else .error .valueError

/-- `_compute_write_index` (`__main__.py`:680-1097): the file and the variable written -/
def computeWriteIndex (K : Int → Job → List F → List F → Res (List F)) (workers : Nat) (lower : String → String) (yearOf : F → Int) (j : Job) : SE (World F) (String × String) := fun w =>
  match loadInputs lower yearOf j w with
  | .error e => (.error e, w)
  | .ok (d, ds, like, sh, shape) =>
    if j.index = "palmers" then (computePalmers w j, { w with shared := sh })
    else
      let res := resultArray sh shape
      let sh1 := sh.put keyResult res
      match computeValues (K ds) workers d j sh1 res with
      | .error e => (.error e, { w with shared := sh1 })
      | .ok out =>
        let sh2 := sh1.put keyResult ⟨res.shape, out⟩
        match outputFile d ds like j res.shape out with
        | .error e => (.error e, { w with shared := sh2 })
        | .ok (file, name, new) =>
          (.ok (file, name), { files := fun f => if f = file then some new else w.files f, shared := sh2, written := w.written ++ [(file, name)] })

/-- the files at this moment -/
def getFiles : SE (World F) (Files F) := fun w => (.ok w.files, w)

/-- the jobs one after the other -/
def runJobs (K : Int → Job → List F → List F → Res (List F)) (workers : Nat) (lower : String → String) (yearOf : F → Int) : List Job → SE (World F) Unit
  | [] => pure ()
  | j :: js => do
    let _ ← computeWriteIndex K workers lower yearOf j
    runJobs K workers lower yearOf js

/-- a job without the parts that depend on the index -/
def mkJob (a : CliArgs) (it : InputType) (index : String) (scale : Option Int) (dist : Option Distribution) (precip temp pet awc : Option (String × String)) : Job :=
  { index, precip, temp, pet, awc, inputType := it, scale, dist, periodicity := a.periodicity, base := a.outputFileBase }

/-- the distributions in the order of the enumeration (indices.py:15-21) -/
def distributions : List Distribution := [.pearson, .gamma]

/-- SPI (`__main__.py`:1636-1664) -/
def runSpi (K : Int → Job → List F → List F → Res (List F)) (workers : Nat) (lower : String → String) (yearOf : F → Int) (a : CliArgs) (it : InputType) : SE (World F) Unit :=
  if a.index ∈ ["spi", "scaled", "all"] then do
    let fs ← getFiles
    let fp ← SE.lift (prepareFile fs a.netcdfPrecip a.varNamePrecip)
    let scales ← SE.lift (orElseRaise a.scales .typeError)
    runJobs K workers lower yearOf (scales.flatMap (fun s => distributions.map (fun dist =>
      mkJob a it "spi" (some s) (some dist) (some (fp, a.varNamePrecip.getD "")) none none none)))
  else pure ()

/-- PET if no PET file was given (`__main__.py`:1666-1689): the PET file and variable to use afterwards -/
def runPet (K : Int → Job → List F → List F → Res (List F)) (workers : Nat) (lower : String → String) (yearOf : F → Int) (a : CliArgs) (it : InputType) :
    SE (World F) (Option String × Option String) :=
  if a.index ∈ ["pet", "spei", "scaled", "palmers", "all"] then
    match a.netcdfPet with
    | some f => pure (some f, a.varNamePet)
    | none => do
      let fs ← getFiles
      let ft ← SE.lift (prepareFile fs a.netcdfTemp a.varNameTemp)
      let r ← computeWriteIndex K workers lower yearOf (mkJob a it "pet" none none none (some (ft, a.varNameTemp.getD "")) none none)
      pure (some r.1, some r.2)
  else pure (a.netcdfPet, a.varNamePet)

/-- SPEI (`__main__.py`:1691-1723) -/
def runSpei (K : Int → Job → List F → List F → Res (List F)) (workers : Nat) (lower : String → String) (yearOf : F → Int) (a : CliArgs) (it : InputType) (pet : Option String × Option String) :
    SE (World F) Unit :=
  if a.index ∈ ["spei", "scaled", "all"] then do
    let fs ← getFiles
    let fp ← SE.lift (prepareFile fs a.netcdfPrecip a.varNamePrecip)
    let fe ← SE.lift (prepareFile fs pet.1 pet.2)
    let scales ← SE.lift (orElseRaise a.scales .typeError)
    runJobs K workers lower yearOf (scales.flatMap (fun s => distributions.map (fun dist =>
      mkJob a it "spei" (some s) (some dist) (some (fp, a.varNamePrecip.getD "")) none (some (fe, pet.2.getD "")) none)))
  else pure ()

/-- PNP (`__main__.py`:1725-1750) -/
def runPnp (K : Int → Job → List F → List F → Res (List F)) (workers : Nat) (lower : String → String) (yearOf : F → Int) (a : CliArgs) (it : InputType) : SE (World F) Unit :=
  if a.index ∈ ["pnp", "scaled", "all"] then do
    let fs ← getFiles
    let fp ← SE.lift (prepareFile fs a.netcdfPrecip a.varNamePrecip)
    let scales ← SE.lift (orElseRaise a.scales .typeError)
    runJobs K workers lower yearOf (scales.map (fun s => mkJob a it "pnp" (some s) none (some (fp, a.varNamePrecip.getD "")) none none none))
  else pure ()

/-- Palmer (`__main__.py`:1752-1784) -/
def runPalmers (K : Int → Job → List F → List F → Res (List F)) (workers : Nat) (lower : String → String) (yearOf : F → Int) (a : CliArgs) (it : InputType) (pet : Option String × Option String) :
    SE (World F) Unit :=
  if a.index ∈ ["palmers", "all"] then do
    let fs ← getFiles
    let fp ← SE.lift (prepareFile fs a.netcdfPrecip a.varNamePrecip)
    let fe ← SE.lift (prepareFile fs pet.1 pet.2)
    let fa ← SE.lift (prepareFile fs a.netcdfAwc a.varNameAwc)
    runJobs K workers lower yearOf [mkJob a it "palmers" none none (some (fp, a.varNamePrecip.getD "")) none (some (fe, pet.2.getD "")) (some (fa, a.varNameAwc.getD ""))]
  else pure ()

/-- `process_climate_indices` (`__main__.py`:1602-1790) -/
def processIndices (K : Int → Job → List F → List F → Res (List F)) (workers : Nat) (lower : String → String) (yearOf : F → Int) (cmp : CoordCmp F) (a : CliArgs) : SE (World F) Unit := do
  let fs ← getFiles
  let it ← SE.lift (validateArgs cmp fs a)
  runSpi K workers lower yearOf a it
  let pet ← runPet K workers lower yearOf a it
  runSpei K workers lower yearOf a it pet
  runPnp K workers lower yearOf a it
  runPalmers K workers lower yearOf a it pet

end

/-! ## The index functions -/

/-- `_spi`, `_spei`, `_pnp` and `_pet` (`__main__.py`:1100-1141) on one series; `ds` is the initial year of the data, `cs` and `ce` are the calibration years. -/
def indexFunction {F : Type} [FloatOps F] (E : Ext F) (T : Trig F) (cs ce ds : Int) (j : Job) (x y : List F) : Res (List F) :=
  match j.index, j.scale, j.dist with
  | "spi", some s, some d => spi E (Arr.of1d x) s d ds cs ce j.periodicity none
  | "spei", some s, some d => (spei E (Arr.of1d x) (Arr.of1d y) s d j.periodicity ds cs ce none).map Arr.data
  | "pnp", some s, _ => percentageOfNormal x (some s) ds cs ce j.periodicity
  | "pet", _, _ => pet T (Arr.of1d x) y.head? ds
  | _, _, _ => .error .keyError

/-! ## `_validate_args` of `__spi__.py` -/

/-- arguments of the SPI tool -/
structure SpiArgs where
  periodicity : Periodicity
  scales : Option (List Int)
  netcdfPrecip : Option String
  varNamePrecip : Option String
  saveParams : Option String
  loadParams : Option String
  overwrite : Bool

/-- `Periodicity.unit()` (compute.py:58-66) -/
def Periodicity.unit : Periodicity → Res String
  | .monthly => .ok "month"
  | .daily => .ok "day"
  | .other => .error .valueError

/-- `_FITTING_VARIABLES` (`__spi__.py`:20) -/
def fittingVariables : List String := ["alpha", "beta", "skew", "loc", "scale", "prob_zero"]

/-- truth value of an optional string -/
def truthy (s : Option String) : Bool := match s with | none => false | some t => !t.isEmpty

/-- the fitting parameter file (`__spi__.py`:130-154) -/
def validateLoad {F : Type} (fs : Files F) (a : SpiArgs) : Res Unit :=
  match a.loadParams with
  | none => .ok ()
  | some f =>
    if f.isEmpty then .ok ()
    else
      match fs f with
      | none => .error .valueError
      | some d =>
        match a.scales with
        | none => .error .typeError
        | some scales => do
          let names ← (fittingVariables.flatMap (fun v => scales.map (fun s => (v, s)))).mapM (fun vs => do
            let u ← a.periodicity.unit
            pure (vs.1 ++ "_" ++ (toString vs.2 ++ "_" ++ u)))
          if (names.filter (fun n => (List.lookup n d).isNone)).length > 0 then .error .valueError else .ok ()

/-- the options for saving fitting parameters (`__spi__.py`:119-128) -/
def validateSave {F : Type} (fs : Files F) (a : SpiArgs) : Res Unit :=
  if truthy a.saveParams then
    if truthy a.loadParams then .error .valueError
    else if (fs (a.saveParams.getD "")).isSome && !a.overwrite then .error .valueError
    else .ok ()
  else .ok ()

/-- `_validate_args` (`__spi__.py`:64-199) -/
def spiValidateArgs {F : Type} (fs : Files F) (a : SpiArgs) : Res InputType := do
  validateSave fs a
  validateLoad fs a
  match a.netcdfPrecip, a.varNamePrecip with
  | none, _ => .error .valueError
  | _, none => .error .valueError
  | some f, some v => do
    let d ← openFile fs (some f)
    let x ← d.require (some v)
    let it ← inputTypeOf x.dims
    match a.scales with
    | none => .error .valueError
    | some s => if s.any (fun n => decide (n < 0)) then .error .valueError else .ok it

end CI
