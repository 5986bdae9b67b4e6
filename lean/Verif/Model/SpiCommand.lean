import Verif.Model.SpiTool
import Verif.Model.Argparse

/-!
# Model of the SPI tool from the command line on (`src/climate_indices/__spi__.py`), calibration years that may be `None`

`Model/SpiTool` has the tool after the arguments were parsed, for calibration years that are numbers. Here the years may be missing (`--calibration_start_year` and
`--calibration_end_year` are optional), and the arguments are read by `readSpi`. The years are looked at in the fitting functions only: `indices.spi` gets parameters for every call
and does not look at them (compute.py:605-630, 803-822; C107), so that `spiStage` is called with arbitrary years.
-/

namespace CI

variable {F : Type} [FloatOps F]

/-- the fitting function of a distribution on one series (`__spi__.py`:1137-1150, 1218-1237) if the comparison of the years raises TypeError. `gamma_parameters` returns missing parameters for
values that are all missing before it looks at the years (compute.py:671-681), `pearson_parameters` does not (compute.py:270-300). What has been written to the array before the exception
does not matter. -/
def fitOpNoYears (dist : Distribution) (scale : Int) (per : Periodicity) (r : Ref) : H F (FitDict F) :=
  match dist with
  | .gamma => do
    let s ← scaleValuesH r scale per
    let a ← getArr s
    if allNan a.data then
      match per with
      | .monthly => pure [("alpha", some (List.replicate 12 nan)), ("beta", some (List.replicate 12 nan))]
      | .daily => pure [("alpha", some (List.replicate 366 nan)), ("beta", some (List.replicate 366 nan))]
      | .other => liftRes (.error .valueError)
    else do
      let _ ← validateArrayH s per
      liftRes (.error .typeError)
  | .pearson => do
    let s ← scaleValuesH r scale per
    let a ← getArr s
    let v ← liftRes (reshapeValues a per)
    let _ ← liftRes (validateValuesShape v)
    liftRes (.error .typeError)
  | .other => liftRes (.error .valueError)

/-- the fitting function with years that may be `None`. The comparison is `(start < data_start) or (end > data_end)`: the second part is not evaluated if the first one holds, and then both
years are replaced by those of the record -/
def fitOpOpt (E : Ext F) (dist : Distribution) (scale ds : Int) (cs ce : Option Int) (per : Periodicity) (r : Ref) : H F (FitDict F) :=
  match cs, ce with
  | some c, some e => fitOp E dist scale ds c e per r
  | some c, none => if c < ds then fitOp E dist scale ds c ds per r else fitOpNoYears dist scale per r
  | none, _ => fitOpNoYears dist scale per r

/-- `_parallel_fitting` (`__spi__.py`:900-964, 1098-1258), as `fitStage` -/
def fitStageOpt (E : Ext F) (cs ce : Option Int) (j : SpiJob) (u : String) (ds scale : Int) (dist : Distribution) (sh : Dict (Arr F)) : Res (Dict (Arr F)) := do
  let six ← fittingVariables.mapM (fun v => sh.at (spiFitName u scale v))
  let first ← getIdx six 0
  if six.any (fun x => x.shape != first.shape) then .error .valueError
  else do
    let n0 ← orElseRaise first.shape.head? .indexError
    let chunks ← spiChunks n0 j.workers
    let vals ← sh.at j.var
    let fits ← (distVars dist).mapM (fun v => sh.at (spiFitName u scale v))
    match j.inputType, vals.shape, first.shape with
    | .grid, [a, b, n], [a', b', p] =>
      if a = a' ∧ b = b' then do
        let start := (List.range a).map (fun i => (((rowsOf a vals.data)[i]?).getD [], (List.range b).map (fun k => fits.map (fun x => (x.data.drop ((i * b + k) * p)).take p))))
        let out ← applyChunks (fun rs => rs.mapM (fitRow (fitOpOpt E dist scale ds cs ce j.per) b n p)) (rowsOf a vals.data) chunks start
        pure ((distVars dist).zipIdx.foldl (fun sh q => sh.put (spiFitName u scale q.1) ⟨first.shape, (out.flatMap (fun r => r.2.map (fun c => c.getD q.2 []))).flatten⟩)
          (sh.put j.var ⟨vals.shape, (out.map Prod.fst).flatten⟩))
      else .error .valueError
    | _, _, _ => .error .valueError

/-- fitting, unless the parameters were loaded (`__spi__.py`:661-674) -/
def spiFitOpt (E : Ext F) (cs ce : Option Int) (j : SpiJob) (u : String) (ds scale : Int) (dist : Distribution) (sh : Dict (Arr F)) : Res (Dict (Arr F)) :=
  match j.load with
  | none => fitStageOpt E cs ce j u ds scale dist sh
  | some _ => .ok sh

/-- fitting and SPI for one scale and distribution, and the new file (`__spi__.py`:652-698) -/
def spiComputeOpt (E : Ext F) (cs ce : Option Int) (j : SpiJob) (u : String) (ds : Int) (d : NcFile F) (scale : Int) (dist : Distribution) (sh : Dict (Arr F)) :
    Res (Dict (Arr F) × String × NcFile F) := do
  let sh1 ← spiFitOpt E cs ce j u ds scale dist sh
  let sh2 ← spiStage E j u ds scale dist sh1
  let res ← sh2.at keyResult
  let new ← buildSpiGrid j.per ds d (spiOutName dist scale u) res
  pure (sh2, spiOutName dist scale u, new)

/-- one scale and distribution (`__spi__.py`:643-702) -/
def spiPairOpt (E : Ext F) (cs ce : Option Int) (j : SpiJob) (u : String) (ds : Int) (d : NcFile F) (sd : Int × Distribution) : SE (World F) Unit := fun w =>
  match spiComputeOpt E cs ce j u ds d sd.1 sd.2 w.shared with
  | .error e => (.error e, w)
  | .ok (sh, name, new) => (.ok (), writeFile (j.base ++ "_" ++ name ++ ".nc") name new { w with shared := sh })

/-- the loop over the scales (`__spi__.py`:642-711) -/
def spiScalesOpt (E : Ext F) (cs ce : Option Int) (j : SpiJob) (u : String) (ds : Int) (d : NcFile F) : List Int → NcFile F → SE (World F) (NcFile F)
  | [], fitting => pure fitting
  | s :: rest, fitting => do
    spiPairOpt E cs ce j u ds d (s, .gamma)
    spiPairOpt E cs ce j u ds d (s, .pearson)
    let g ← (fun w => (dumpFits u s w.shared fitting, w) : SE (World F) (NcFile F))
    spiScalesOpt E cs ce j u ds d rest g

/-- `_compute_write_index` (`__spi__.py`:497-716) -/
def spiComputeWriteOpt (E : Ext F) (cs ce : Option Int) (yearOf : F → Int) (lower : String → String) (j : SpiJob) : SE (World F) Unit := fun w =>
  match spiPrepare yearOf lower j w, j.per.unit with
  | .error e, _ => (.error e, w)
  | _, .error e => (.error e, w)
  | .ok (d, fitting, ds, sh), .ok u => (do
      let g ← spiScalesOpt E cs ce j u ds d j.scales fitting
      spiSave j g : SE (World F) Unit) { w with shared := sh }

/-- `main` (`__spi__.py`:1401-1435) after the arguments have been parsed, with years that may be `None` (the years in the record are not used). Scales that were not given are refused by the
validation. -/
def spiMainOpt (E : Ext F) (yearOf : F → Int) (lower : String → String) (cs ce : Option Int) (base : String) (workers : Nat) (a : SpiArgs) : SE (World F) Unit := do
  let fs ← getFiles
  let it ← SE.lift (spiValidateArgs fs a)
  let f ← SE.lift (prepareFile fs a.netcdfPrecip a.varNamePrecip)
  spiComputeWriteOpt E cs ce yearOf lower (spiJob a it f (cs.getD 0) (ce.getD 0) base workers)

/-- `main` (`__spi__.py`:1302-1445) on a machine with `cpus` CPUs -/
def spiTool (E : Ext F) (toInt : String → Option Int) (cpus : Nat) (lower : String → String) (yearOf : F → Int) (argv : List String) (w : World F) : Outcome × World F :=
  match readSpi toInt argv with
  | .error e => (.exit e, w)
  | .ok c =>
    let r := spiMainOpt E yearOf lower c.calibrationStart c.calibrationEnd c.outputFileBase (numberOfWorkers c.multiprocessing cpus) c.args w
    (.ended r.1, r.2)

end CI
