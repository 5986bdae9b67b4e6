import Verif.Model.Alias
import Verif.Model.Cli

/-!
# Model of a complete run of the SPI tool (`src/climate_indices/__spi__.py`)

`main` (1302-1460), `_prepare_file`, `_compute_write_index`, the copies into shared memory, fitting and SPI in worker processes, and the output files. Files, the dictionary of
shared arrays and exceptions are those of `Model/Cli`; the work on one series is that of `Model/Alias`, because the fitting functions and `indices.spi` get views of the shared
precipitation array and write to it.

Not modelled: argparse, NetCDF encoding, attributes other than units, log messages. `yearOf` is the year of a value of the time coordinate (`.dt.year`). The chunks are processed
one after the other; by C47 every parallel execution gives the same. After an exception in a worker the contents of the shared arrays do not matter (the tool ends); they
are left as they were before the call. The precipitation variable is taken to have none of the names of the fitting variables and not the name `result_array`; otherwise two
entries of the dictionary are the same array.
-/

namespace CI

section
variable {F : Type}

/-- keyword arguments of `_compute_write_index` (`__spi__.py`:1419-1432) -/
structure SpiJob where
  file : String
  var : String
  inputType : InputType
  scales : List Int
  per : Periodicity
  calStart : Int
  calEnd : Int
  base : String
  load : Option String
  save : Option String
  workers : Nat

/-- `ds.name` -/
def NcFile.attr (d : NcFile F) (name : String) : Res (NcVar F) :=
  match List.lookup name d with
  | none => .error .attributeError
  | some v => .ok v

/-- `ds[name] = v` -/
def NcFile.put (d : NcFile F) (name : String) (v : NcVar F) : NcFile F :=
  if (List.lookup name d).isSome then d.map (fun p => if p.1 = name then (name, v) else p) else d ++ [(name, v)]

/-- only coordinates, the precipitation variable, and for divisions the latitudes are kept (`__spi__.py`:524-533) -/
def spiTrim (j : SpiJob) (d : NcFile F) : NcFile F :=
  d.filter (fun p => decide (p.2.dims = [p.1]) || (p.1 == j.var) || (decide (j.inputType = .divisions) && p.1 == "lat"))

/-- the latitudes or longitudes for the attributes of an output data set (`__spi__.py`:430-435, 732-737): they must be there, not empty, and have units -/
def spiCoord (d : NcFile F) (name : String) : Res (NcVar F) := do
  let x ← d.attr name
  if x.data.isEmpty then .error .valueError
  else match x.units with
    | none => .error .attributeError
    | some _ => pure x

/-- number of calendar steps (`__spi__.py`:414-419) -/
def periodTimes : Periodicity → Res Nat
  | .monthly => .ok 12
  | .daily => .ok 366
  | .other => .error .valueError

/-- name of a fitting variable (`__spi__.py`:547-548) -/
def spiFitName (u : String) (scale : Int) (v : String) : String := v ++ "_" ++ (toString scale ++ "_" ++ u)

/-- the dimension checks of `_drop_data_into_shared_arrays_grid` (`__spi__.py`:267-281, 317-331): sets of dimensions; `three` are the sets allowed for three dimensions -/
def spiDimsOk (three : List (List String)) (dims : List String) : Bool :=
  let s := dims.dedup
  match s.length with
  | 3 => three.any (sameDims s)
  | 2 => sameDims s ["lat", "lon"]
  | 1 => sameDims s ["time"]
  | _ => true

/-- the dimension checks of `_drop_data_into_shared_arrays_divisions` (`__spi__.py`:362-382) -/
def spiDivisionDimsOk (dims : List String) : Bool :=
  match dims.length with
  | 2 => decide (dims ∈ [["division", "time"], ["time", "division"], ["division", "month"], ["month", "division"], ["division", "day"], ["day", "division"]])
  | 1 => decide (dims ∈ [["division"]])
  | _ => true

variable [FloatOps F]

/-- `build_dataset_fitting_grid` (`__spi__.py`:400-449) -/
def buildFittingGrid (d : NcFile F) (per : Periodicity) : Res (NcFile F) := do
  let p ← periodTimes per
  let u ← per.unit
  let lat ← spiCoord d "lat"
  let lon ← spiCoord d "lon"
  pure [("lat", lat), ("lon", lon), (u, ⟨[u], [p], none, (List.range p).map (fun (i : Nat) => lit (i : ℚ))⟩)]

/-- the empty arrays of one scale (`__spi__.py`:545-587); latitudes and longitudes that are not dimensions make xarray raise ValueError -/
def addEmptyFits (per : Periodicity) (g : NcFile F) (scale : Int) : Res (NcFile F) := do
  let p ← periodTimes per
  let u ← per.unit
  let lat ← g.attr "lat"
  let lon ← g.attr "lon"
  if lat.dims = ["lat"] ∧ lon.dims = ["lon"] then
    pure (fittingVariables.foldl (fun g v => g.put (spiFitName u scale v)
      ⟨["lat", "lon", u], [lat.data.length, lon.data.length, p], none, List.replicate (lat.data.length * (lon.data.length * p)) nan⟩) g)
  else .error .valueError

/-- the data set of fitting parameters: loaded, or built with empty arrays (`__spi__.py`:535-587) -/
def spiFitting (fs : Files F) (j : SpiJob) (d : NcFile F) : Res (NcFile F) :=
  match j.load with
  | some f => openFile fs (some f)
  | none => do
    let g ← buildFittingGrid d j.per
    j.scales.foldlM (addEmptyFits j.per) g

/-! ## Shared arrays -/

/-- the fitting variables into the dictionary (`__spi__.py`:314-345) -/
def dropFitting (fitting : NcFile F) (sh : Dict (Arr F)) : Res (Dict (Arr F)) :=
  (fitting.filter (fun p => decide (p.2.dims ≠ [p.1]))).foldlM (fun sh p =>
    if spiDimsOk [["lat", "lon", "month"], ["lat", "lon", "day"]] p.2.dims then .ok (sh.put p.1 ⟨p.2.shape, p.2.data⟩) else .error .valueError) sh

/-- `_drop_data_into_shared_arrays_grid` (`__spi__.py`:239-345) -/
def spiDropGrid (yearOf : F → Int) (per : Periodicity) (d fitting : NcFile F) (var : String) (sh : Dict (Arr F)) : Res (Dict (Arr F)) := do
  let x ← d.get var
  if spiDimsOk [["lat", "lon", "time"]] x.dims then do
    let v ← dailyValues yearOf per d x
    dropFitting fitting (sh.put var v)
  else .error .valueError

/-- `_drop_data_into_shared_arrays_divisions` (`__spi__.py`:348-397): the fitting variables are not put -/
def spiDropDivisions (d : NcFile F) (var : String) (sh : Dict (Arr F)) : Res (Dict (Arr F)) :=
  [var, "lat"].foldlM (fun sh name => do
    let x ← d.get name
    if spiDivisionDimsOk x.dims then pure (sh.put name ⟨x.shape, x.data⟩) else .error .valueError) sh

/-- copies into shared memory (`__spi__.py`:609-617) -/
def spiDrop (yearOf : F → Int) (j : SpiJob) (d fitting : NcFile F) (sh : Dict (Arr F)) : Res (Dict (Arr F)) :=
  match j.inputType with
  | .divisions => spiDropDivisions d j.var sh
  | _ => spiDropGrid yearOf j.per d fitting j.var sh

/-- the shape of the results (`__spi__.py`:619-632) -/
def spiOutShape (j : SpiJob) (d : NcFile F) (ds : Int) : Res (List Nat) :=
  match j.per with
  | .monthly => do
    let x ← d.get j.var
    pure x.shape
  | .daily => do
    let t ← d.get "time"
    let lat ← d.get "lat"
    let lon ← d.get "lon"
    pure [lat.data.length, lon.data.length, gregorianLengthAs366day t.data.length ds]
  | .other => .error .valueError

/-! ## Fitting and SPI -/

/-- a call on one series of the shared precipitation array: its result and the series afterwards -/
def cellOp {α : Type} (op : Ref → H F α) (s : List F) : Res (α × List F) :=
  match op ⟨0, [s.length]⟩ [s] with
  | (.ok x, h) => .ok (x, h.getD 0 [])
  | (.error e, _) => .error e

/-- the fitting variables of a distribution, in the order of the results of the fitting functions (`__spi__.py`:1144, 1226-1231) -/
def distVars : Distribution → List String
  | .gamma => ["alpha", "beta"]
  | .pearson => ["prob_zero", "loc", "scale", "skew"]
  | .other => []

/-- the fitting function of a distribution on one series (`__spi__.py`:1137-1150, 1218-1237) -/
def fitOp (E : Ext F) (dist : Distribution) (scale ds cs ce : Int) (per : Periodicity) (r : Ref) : H F (FitDict F) :=
  match dist with
  | .gamma => fitGammaH E r scale ds cs ce per
  | .pearson => fitPearsonH E r scale ds cs ce per
  | .other => liftRes (.error .valueError)

/-- fitting for one row of the grid (`cols` series of `n` values, `p` calendar steps): the row of the precipitation array afterwards, and for every series its parameters, one list
for each variable -/
def fitRow (op : Ref → H F (FitDict F)) (cols n p : Nat) (row : List F) : Res (List F × List (List (List F))) := do
  let cells ← (List.range cols).mapM (fun j => do
    let r ← cellOp op ((row.drop (j * n)).take n)
    let ps ← r.1.mapM (fun kv => assignSeries p (kv.2.getD []))
    pure (r.2, ps))
  pure ((cells.map Prod.fst).flatten, cells.map Prod.snd)

/-- `_parallel_fitting` with `_apply_to_subarray_gamma` or `_apply_to_subarray_pearson` (`__spi__.py`:900-964, 1098-1258): the dictionary afterwards. For a single time series
`scale_values` gets a number and raises ValueError; divisions do not get here (no fitting arrays in the dictionary). If the places of the fitting arrays are not those of the
precipitation array (time first), an exception follows at the latest when the output is built; here it is raised at once. -/
def fitStage (E : Ext F) (j : SpiJob) (u : String) (ds scale : Int) (dist : Distribution) (sh : Dict (Arr F)) : Res (Dict (Arr F)) := do
  let six ← fittingVariables.mapM (fun v => sh.at (spiFitName u scale v))
  let first ← getIdx six 0
  if six.any (fun x => x.shape != first.shape) then .error .valueError
  else do
    let n0 ← orElseRaise first.shape.head? .indexError
    let chunks ← spiChunks n0 j.workers
    let vals ← sh.at j.var
    let fits ← (distVars dist).mapM (fun v => sh.at (spiFitName u scale v))
    match j.inputType, vals.shape, first.shape with
    | .grid, [a, b, n], [a', b', p] =>
      if a = a' ∧ b = b' then do
        let start := (List.range a).map (fun i => (((rowsOf a vals.data)[i]?).getD [], (List.range b).map (fun k => fits.map (fun x => (x.data.drop ((i * b + k) * p)).take p))))
        let out ← applyChunks (fun rs => rs.mapM (fitRow (fitOp E dist scale ds j.calStart j.calEnd j.per) b n p)) (rowsOf a vals.data) chunks start
        pure ((distVars dist).zipIdx.foldl (fun sh q => sh.put (spiFitName u scale q.1) ⟨first.shape, (out.flatMap (fun r => r.2.map (fun c => c.getD q.2 []))).flatten⟩)
          (sh.put j.var ⟨vals.shape, (out.map Prod.fst).flatten⟩))
      else .error .valueError
    | _, _, _ => .error .valueError

/-- `array[i, j]` of a fitting array (`__spi__.py`:1046-1058). Three dimensions: the values of the calendar steps. Two: a single value (broadcast by numpy). Arrays of other ranks
are an IndexError (of more than three dimensions: not modelled). -/
def fitAt (x : Arr F) (i k : Nat) : Res (List F) :=
  match x.shape with
  | [a, b, p] => if i < a ∧ k < b then .ok ((x.data.drop ((i * b + k) * p)).take p) else .error .indexError
  | [a, b] => if i < a ∧ k < b then .ok ((x.data.drop (i * b + k)).take 1) else .error .indexError
  | _ => .error .indexError

/-- `indices.spi` on a view of the precipitation array: the values of the result -/
def spiOp (E : Ext F) (dist : Distribution) (scale ds cs ce : Int) (per : Periodicity) (fp : FitDict F) (r : Ref) : H F (List F) := do
  let out ← spiH E r scale dist ds cs ce per (some fp)
  let a ← getArr out
  pure a.data

/-- SPI for one row of the grid: the row of the precipitation array and the row of the results afterwards -/
def spiRow (op : FitDict F → Ref → H F (List F)) (names : List String) (fits : List (Arr F)) (cols n : Nat) (row : Nat × List F) : Res (List F × List F) := do
  let cells ← (List.range cols).mapM (fun k => do
    let ps ← fits.mapM (fun x => fitAt x row.1 k)
    let r ← cellOp (op (names.zip (ps.map some))) ((row.2.drop (k * n)).take n)
    let o ← assignSeries n r.1
    pure (r.2, o))
  pure ((cells.map Prod.fst).flatten, (cells.map Prod.snd).flatten)

/-- `_parallel_spi` with `_apply_to_subarray_spi` (`__spi__.py`:833-897, 967-1095): the dictionary afterwards. For a single time series an exception follows at the latest when
the output is built; here it is raised at once. Divisions: no fitting arrays (KeyError). -/
def spiStage (E : Ext F) (j : SpiJob) (u : String) (ds scale : Int) (dist : Distribution) (sh : Dict (Arr F)) : Res (Dict (Arr F)) := do
  let res ← sh.at keyResult
  let n0 ← orElseRaise res.shape.head? .indexError
  let chunks ← spiChunks n0 j.workers
  let vals ← sh.at j.var
  let fits ← (distVars dist).mapM (fun v => sh.at (spiFitName u scale v))
  if vals.data.length ≠ res.data.length then .error .valueError
  else
    match j.inputType, vals.shape with
    | .grid, [a, b, n] => do
      let out ← applyChunks (fun rs => rs.mapM (spiRow (spiOp E dist scale ds j.calStart j.calEnd j.per) (distVars dist) fits b n))
        ((List.range a).zip (rowsOf a vals.data)) chunks ((rowsOf a vals.data).zip (rowsOf a res.data))
      pure ((sh.put j.var ⟨vals.shape, (out.map Prod.fst).flatten⟩).put keyResult ⟨res.shape, (out.map Prod.snd).flatten⟩)
    | _, _ => .error .valueError

/-! ## Output -/

/-- the values of the output variable (`__spi__.py`:749-761): daily values back in Gregorian years -/
def spiOutValues (per : Periodicity) (ds : Int) (ntime : Nat) (res : Arr F) : Res (Arr F) :=
  match per with
  | .daily => alongLast (fun s => do
      let g ← transformToGregorian (Arr.of1d s) ds
      if g.length = ntime then pure g else .error .valueError) ntime res.shape res.data
  | _ => .ok res

/-- `build_dataset_spi_grid` (`__spi__.py`:719-774): coordinates and the variable; the shape must be that of the coordinates, and there must be no other coordinates (a length other
than that of the time coordinate after the conversion is reported when the variable is built; here the conversion reports it) -/
def buildSpiGrid (per : Periodicity) (ds : Int) (d : NcFile F) (name : String) (res : Arr F) : Res (NcFile F) := do
  let lat ← spiCoord d "lat"
  let lon ← spiCoord d "lon"
  let time ← d.attr "time"
  let v ← spiOutValues per ds time.data.length res
  if (coordsOf d).all (fun p => decide (p.1 ∈ ["lat", "lon", "time"])) ∧ lat.dims = ["lat"] ∧ lon.dims = ["lon"] ∧ time.dims = ["time"] ∧
      v.shape = [lat.data.length, lon.data.length, time.data.length] then
    pure [("lat", lat), ("lon", lon), ("time", time), (name, ⟨["lat", "lon", "time"], v.shape, none, v.data⟩)]
  else .error .valueError

/-- the name of the output variable (`__spi__.py`:690) -/
def spiOutName (dist : Distribution) (scale : Int) (u : String) : String := "spi_" ++ dist.value ++ "_" ++ toString scale ++ "_" ++ u

/-- the file is written -/
def writeFile (file name : String) (new : NcFile F) (w : World F) : World F :=
  { w with files := fun f => if f = file then some new else w.files f, written := w.written ++ [(file, name)] }

/-- fitting, unless the parameters were loaded (`__spi__.py`:661-674) -/
def spiFit (E : Ext F) (j : SpiJob) (u : String) (ds scale : Int) (dist : Distribution) (sh : Dict (Arr F)) : Res (Dict (Arr F)) :=
  match j.load with
  | none => fitStage E j u ds scale dist sh
  | some _ => .ok sh

/-- fitting and SPI for one scale and distribution, and the new file (`__spi__.py`:652-698): the dictionary afterwards, and name and
contents of the new file -/
def spiCompute (E : Ext F) (j : SpiJob) (u : String) (ds : Int) (d : NcFile F) (scale : Int) (dist : Distribution) (sh : Dict (Arr F)) : Res (Dict (Arr F) × String × NcFile F) := do
  let sh1 ← spiFit E j u ds scale dist sh
  let sh2 ← spiStage E j u ds scale dist sh1
  let res ← sh2.at keyResult
  let new ← buildSpiGrid j.per ds d (spiOutName dist scale u) res
  pure (sh2, spiOutName dist scale u, new)

/-- one scale and distribution (`__spi__.py`:643-702) -/
def spiPair (E : Ext F) (j : SpiJob) (u : String) (ds : Int) (d : NcFile F) (sd : Int × Distribution) : SE (World F) Unit := fun w =>
  match spiCompute E j u ds d sd.1 sd.2 w.shared with
  | .error e => (.error e, w)
  | .ok (sh, name, new) => (.ok (), writeFile (j.base ++ "_" ++ name ++ ".nc") name new { w with shared := sh })

/-- the fitting arrays of one scale are copied into the data set (`__spi__.py`:704-711) -/
def dumpFits (u : String) (scale : Int) (sh : Dict (Arr F)) (fitting : NcFile F) : Res (NcFile F) :=
  fittingVariables.foldlM (fun (g : NcFile F) v => do
    let x ← sh.at (spiFitName u scale v)
    let old ← g.get (spiFitName u scale v)
    if x.shape = old.shape then pure (g.put (spiFitName u scale v) { old with data := x.data }) else .error .valueError) fitting

/-- the loop over the scales (`__spi__.py`:642-711): the data set of fitting parameters at the end -/
def spiScales (E : Ext F) (j : SpiJob) (u : String) (ds : Int) (d : NcFile F) : List Int → NcFile F → SE (World F) (NcFile F)
  | [], fitting => pure fitting
  | s :: rest, fitting => do
    spiPair E j u ds d (s, .gamma)
    spiPair E j u ds d (s, .pearson)
    let g ← (fun w => (dumpFits u s w.shared fitting, w) : SE (World F) (NcFile F))
    spiScales E j u ds d rest g

/-- the part of `_compute_write_index` before the loop (`__spi__.py`:505-640): the trimmed and converted data set, fitting data set, first year, and the dictionary -/
def spiPrepare (yearOf : F → Int) (lower : String → String) (j : SpiJob) (w : World F) : Res (NcFile F × NcFile F × Int × Dict (Arr F)) := do
  let f ← openFile w.files (some j.file)
  let d := spiTrim j f
  let fitting ← spiFitting w.files j d
  let ds ← firstYear yearOf d
  let x ← d.get j.var
  let x' ← convertVar lower convertPrecip x
  let d' := d.put j.var x'
  let sh ← spiDrop yearOf j d' fitting w.shared
  let shape ← spiOutShape j d' ds
  pure (d', fitting, ds, sh.put keyResult (resultArray sh shape))

/-- the fitting parameters are written if requested (`__spi__.py`:713-716) -/
def spiSave (j : SpiJob) (fitting : NcFile F) : SE (World F) Unit := fun w =>
  match j.save with
  | none => (.ok (), w)
  | some f => (.ok (), writeFile f "" fitting w)

/-- `_compute_write_index` (`__spi__.py`:497-716) -/
def spiComputeWrite (E : Ext F) (yearOf : F → Int) (lower : String → String) (j : SpiJob) : SE (World F) Unit := fun w =>
  match spiPrepare yearOf lower j w, j.per.unit with
  | .error e, _ => (.error e, w)
  | _, .error e => (.error e, w)
  | .ok (d, fitting, ds, sh), .ok u => (do
      let g ← spiScales E j u ds d j.scales fitting
      spiSave j g : SE (World F) Unit) { w with shared := sh }

/-- the keyword arguments (`__spi__.py`:1414-1432) -/
def spiJob (a : SpiArgs) (it : InputType) (file : String) (cs ce : Int) (base : String) (workers : Nat) : SpiJob :=
  { file, var := a.varNamePrecip.getD "", inputType := it, scales := a.scales.getD [], per := a.periodicity, calStart := cs, calEnd := ce, base, load := a.loadParams,
    save := a.saveParams, workers }

/-- `main` (`__spi__.py`:1401-1435) after the arguments have been parsed: `cs`, `ce` are the calibration years, `base` is `--output_file_base`, `workers` the number of worker
processes -/
def spiMain (E : Ext F) (yearOf : F → Int) (lower : String → String) (cs ce : Int) (base : String) (workers : Nat) (a : SpiArgs) : SE (World F) Unit := do
  let fs ← getFiles
  let it ← SE.lift (spiValidateArgs fs a)
  let f ← SE.lift (prepareFile fs a.netcdfPrecip a.varNamePrecip)
  spiComputeWrite E yearOf lower (spiJob a it f cs ce base workers)

end
end CI
