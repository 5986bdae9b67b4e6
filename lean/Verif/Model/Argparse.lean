import Verif.Model.Cli
import Verif.Model.Parallel

/-!
# Model of the command line: `main` of `__main__.py` (1470-1600) and of `__spi__.py` (1302-1405)

The option tables of the two tools, `argparse.ArgumentParser.parse_args` for parsers without positional arguments (CPython 3.11, `Lib/argparse.py`:
`_parse_known_args`, `_parse_optional`, `_get_option_tuples`, `_get_values`), and the run of the main tool from the command line.

Simplified: digits in negative numbers are ASCII digits and a final newline is not accepted there; the messages are left out; `int()` is a parameter.
-/

namespace CI

/-! ## Options -/

/-- how the parser ends without arguments: `SystemExit(0)` after the help text, `SystemExit(2)` after an error message. Both pass the `except Exception` of `main`. -/
inductive Exit | help | usage
  deriving DecidableEq, Repr

/-- `nargs=None`, `nargs="*"`, `action="store_true"`, `action="help"` -/
inductive ArgKind | one | many | flag | help
  deriving DecidableEq, Repr

/-- `type=` -/
inductive ArgType | str | int | periodicity
  deriving DecidableEq, Repr

/-- one option of a parser; `choices` is empty if any value is allowed (the choices of `--periodicity` are all its values) -/
structure Opt where
  name : String
  kind : ArgKind := .one
  type : ArgType := .str
  choices : List String := []
  required : Bool := false
  deriving DecidableEq, Repr

/-- the options that every `ArgumentParser` has -/
def helpOpts : List Opt := [{ name := "-h", kind := .help }, { name := "--help", kind := .help }]

/-- the options of the main tool (`__main__.py`:1512-1588) -/
def mainOpts : List Opt := helpOpts ++ [
  { name := "--index", choices := indexChoices, required := true },
  { name := "--periodicity", type := .periodicity, required := true },
  { name := "--scales", kind := .many, type := .int },
  { name := "--calibration_start_year", type := .int },
  { name := "--calibration_end_year", type := .int },
  { name := "--netcdf_precip" },
  { name := "--var_name_precip" },
  { name := "--netcdf_temp" },
  { name := "--var_name_temp" },
  { name := "--netcdf_pet" },
  { name := "--var_name_pet" },
  { name := "--netcdf_awc" },
  { name := "--var_name_awc" },
  { name := "--output_file_base", required := true },
  { name := "--multiprocessing", choices := ["single", "all_but_one", "all"] },
  { name := "--chunksizes", choices := ["none", "input"] }]

/-- the options of the SPI tool (`__spi__.py`:1336-1401) -/
def spiOpts : List Opt := helpOpts ++ [
  { name := "--periodicity", type := .periodicity, required := true },
  { name := "--scales", kind := .many, type := .int },
  { name := "--calibration_start_year", type := .int },
  { name := "--calibration_end_year", type := .int },
  { name := "--netcdf_precip" },
  { name := "--var_name_precip" },
  { name := "--output_file_base", required := true },
  { name := "--multiprocessing", choices := ["single", "all_but_one", "all"] },
  { name := "--load_params" },
  { name := "--save_params" },
  { name := "--overwrite", kind := .flag }]

/-! ## argparse -/

/-- a converted value -/
inductive ArgVal
  | str (s : String)
  | int (n : Int)
  | per (p : Periodicity)
  | ints (l : List Int)
  | flag
  deriving DecidableEq, Repr

/-- what an argument is taken for: a value, `--`, an unknown option, an option (with the value after `=`), or `-h` directly followed by other letters -/
inductive Tok
  | value
  | dashes
  | unknown
  | opt (o : Opt) (explicit : Option String)
  | short (rest : List Char)
  deriving DecidableEq, Repr

/-- the text before and after the first `=` (`str.split("=", 1)`), if there is one -/
def splitEq (s : List Char) : Option (List Char × List Char) :=
  match s.span (· ≠ '=') with
  | (_, []) => none
  | (a, _ :: b) => some (a, b)

/-- `_negative_number_matcher`: `^-\d+$|^-\d*\.\d+$` -/
def isNegativeNumber (s : List Char) : Bool :=
  match s with
  | '-' :: t =>
    let (a, b) := t.span Char.isDigit
    match b with
    | [] => !a.isEmpty
    | '.' :: c => !c.isEmpty && c.all Char.isDigit
    | _ => false
  | _ => false

/-- `_get_option_tuples` for an argument `-c...` -/
def optionTuples (opts : List Opt) (arg : List Char) : List Tok :=
  match arg with
  | '-' :: '-' :: _ =>
    let (p, e) := match splitEq arg with | some (a, b) => (a, some (String.ofList b)) | none => (arg, none)
    (opts.filter (fun o => p.isPrefixOf o.name.toList)).map (fun o => .opt o e)
  | _ => opts.filterMap (fun o =>
      if o.name.toList = arg.take 2 then some (.short (arg.drop 2))
      else if arg.isPrefixOf o.name.toList then some (.opt o none) else none)

/-- `_parse_optional` -/
def parseOptional (opts : List Opt) (arg : String) : Except Exit Tok :=
  match arg.toList with
  | [] => .ok .value
  | c :: cs =>
    if c ≠ '-' then .ok .value
    else
      match opts.find? (fun o => o.name = arg) with
      | some o => .ok (.opt o none)
      | none =>
        if cs = [] then .ok .value
        else
          match (splitEq (c :: cs)).bind (fun p => (opts.find? (fun o => o.name = String.ofList p.1)).map (fun o => (o, p.2))) with
          | some (o, e) => .ok (.opt o (some (String.ofList e)))
          | none =>
            match optionTuples opts (c :: cs) with
            | [t] => .ok t
            | _ :: _ :: _ => .error .usage
            | [] => .ok (if isNegativeNumber (c :: cs) then .value else if ' ' ∈ c :: cs then .value else .unknown)

/-- the first loop of `_parse_known_args`: after `--` everything is a value -/
def classify (opts : List Opt) : List String → Except Exit (List (String × Tok))
  | [] => .ok []
  | a :: rest =>
    if a = "--" then .ok ((a, .dashes) :: rest.map (fun s => (s, .value)))
    else do
      let t ← parseOptional opts a
      let ts ← classify opts rest
      pure ((a, t) :: ts)

/-- `Periodicity.from_string` (compute.py:51-56) -/
def periodicityFromString (s : String) : Res Periodicity :=
  if s = "monthly" then .ok .monthly else if s = "daily" then .ok .daily else .error .valueError

/-- `_get_value` and `_check_value` for one string -/
def convertValue (toInt : String → Option Int) (o : Opt) (s : String) : Except Exit ArgVal :=
  match o.type with
  | .str => if o.choices = [] ∨ s ∈ o.choices then .ok (.str s) else .error .usage
  | .int => match toInt s with | some n => .ok (.int n) | none => .error .usage
  | .periodicity => match periodicityFromString s with | .ok p => .ok (.per p) | .error _ => .error .usage

/-- the values of an option with `nargs="*"` (only `--scales`, integers) -/
def convertMany (toInt : String → Option Int) (l : List String) : Except Exit ArgVal :=
  match l.mapM toInt with
  | some ns => .ok (.ints ns)
  | none => .error .usage

/-- an option whose values are being collected -/
inductive Pending
  | none
  | one (o : Opt)
  | many (o : Opt) (vals : List String)

/-- the values seen so far, the latest first -/
abbrev Namespace := List (String × ArgVal)

/-- the option gets no further value: too few values are an error -/
def flush (toInt : String → Option Int) (p : Pending) (ns : Namespace) : Except Exit Namespace :=
  match p with
  | .none => .ok ns
  | .one _ => .error .usage
  | .many o vals => do
    let v ← convertMany toInt vals
    pure ((o.name, v) :: ns)

/-- an option begins (`consume_optional`) -/
def start (toInt : String → Option Int) (o : Opt) (e : Option String) (ns : Namespace) : Except Exit (Namespace × Pending) :=
  match o.kind, e with
  | .one, none => .ok (ns, .one o)
  | .one, some s => do
    let v ← convertValue toInt o s
    pure ((o.name, v) :: ns, .none)
  | .many, none => .ok (ns, .many o [])
  | .many, some s => do
    let v ← convertMany toInt [s]
    pure ((o.name, v) :: ns, .none)
  | .flag, none => .ok ((o.name, .flag) :: ns, .none)
  | .flag, some _ => .error .usage
  | .help, none => .error .help
  | .help, some _ => .error .usage

/-- the second loop of `_parse_known_args`; `ex` says that an argument was not recognized -/
def consume (toInt : String → Option Int) : List (String × Tok) → Namespace → Bool → Pending → Except Exit (Namespace × Bool)
  | [], ns, ex, p => do
    let ns ← flush toInt p ns
    pure (ns, ex)
  | (s, .value) :: rest, ns, ex, p =>
    match p with
    | .none => consume toInt rest ns true .none
    | .one o => do
      let v ← convertValue toInt o s
      consume toInt rest ((o.name, v) :: ns) ex .none
    | .many o vals => consume toInt rest ns ex (.many o (vals ++ [s]))
  | (_, .opt o e) :: rest, ns, ex, p => do
    let ns ← flush toInt p ns
    let (ns, p) ← start toInt o e ns
    consume toInt rest ns ex p
  | (_, .short cs) :: rest, ns, ex, p => do
    let ns ← flush toInt p ns
    if cs.all (· = 'h') then .error .help else .error .usage
  | (_, _) :: rest, ns, ex, p => do
    let ns ← flush toInt p ns
    consume toInt rest ns true .none

/-- `parse_args`: missing required options and unrecognized arguments are errors -/
def parseArgs (toInt : String → Option Int) (opts : List Opt) (argv : List String) : Except Exit Namespace := do
  let toks ← classify opts argv
  let (ns, ex) ← consume toInt toks [] false .none
  if opts.all (fun o => !o.required || (ns.lookup o.name).isSome) then
    if ex then .error .usage else pure ns
  else .error .usage

/-! ## The arguments of the main tool -/

def Namespace.str (ns : Namespace) (n : String) : Option String := match ns.lookup n with | some (.str s) => some s | _ => none
def Namespace.int (ns : Namespace) (n : String) : Option Int := match ns.lookup n with | some (.int i) => some i | _ => none
def Namespace.ints (ns : Namespace) (n : String) : Option (List Int) := match ns.lookup n with | some (.ints l) => some l | _ => none
def Namespace.per (ns : Namespace) (n : String) : Periodicity := match ns.lookup n with | some (.per p) => p | _ => .other

/-- `arguments` of `process_climate_indices`: the arguments that `Verif.Model.Cli` knows and the other ones. `chunksizes` only changes the layout of the files on disk. -/
structure MainCommand where
  args : CliArgs
  calibrationStart : Option Int
  calibrationEnd : Option Int
  multiprocessing : MpOption
  chunksizes : String

/-- the number of workers is chosen by `--multiprocessing` (`__main__.py`:1629-1634): every other text means all but one -/
def mpOf (s : String) : MpOption := if s = "single" then .single else if s = "all" then .all else .allButOne

/-- the arguments of the main tool (`__main__.py`:1510-1590); the defaults are those of 1575-1588 -/
def readMain (toInt : String → Option Int) (argv : List String) : Except Exit MainCommand := do
  let ns ← parseArgs toInt mainOpts argv
  pure {
    args := {
      index := (ns.str "--index").getD "", periodicity := ns.per "--periodicity", scales := ns.ints "--scales",
      netcdfPrecip := ns.str "--netcdf_precip", varNamePrecip := ns.str "--var_name_precip", netcdfTemp := ns.str "--netcdf_temp", varNameTemp := ns.str "--var_name_temp",
      netcdfPet := ns.str "--netcdf_pet", varNamePet := ns.str "--var_name_pet", netcdfAwc := ns.str "--netcdf_awc", varNameAwc := ns.str "--var_name_awc",
      outputFileBase := (ns.str "--output_file_base").getD "" }
    calibrationStart := ns.int "--calibration_start_year"
    calibrationEnd := ns.int "--calibration_end_year"
    multiprocessing := mpOf ((ns.str "--multiprocessing").getD "all_but_one")
    chunksizes := (ns.str "--chunksizes").getD "none" }

/-- the arguments of the SPI tool -/
structure SpiCommand where
  args : SpiArgs
  outputFileBase : String
  calibrationStart : Option Int
  calibrationEnd : Option Int
  multiprocessing : MpOption

/-- the arguments of the SPI tool (`__spi__.py`:1336-1402) -/
def readSpi (toInt : String → Option Int) (argv : List String) : Except Exit SpiCommand := do
  let ns ← parseArgs toInt spiOpts argv
  pure {
    args := {
      periodicity := ns.per "--periodicity", scales := ns.ints "--scales", netcdfPrecip := ns.str "--netcdf_precip", varNamePrecip := ns.str "--var_name_precip",
      saveParams := ns.str "--save_params", loadParams := ns.str "--load_params", overwrite := (ns.lookup "--overwrite").isSome }
    outputFileBase := (ns.str "--output_file_base").getD ""
    calibrationStart := ns.int "--calibration_start_year"
    calibrationEnd := ns.int "--calibration_end_year"
    multiprocessing := mpOf ((ns.str "--multiprocessing").getD "all_but_one") }

/-! ## Calibration years that were not given -/

section
variable {F : Type} [FloatOps F]

/-- the transformation to one of the distributions without given parameters -/
def transformYears (E : Ext F) (values : Arr F) (dist : Distribution) (ds cs ce : Int) (per : Periodicity) : Res (Arr F) :=
  match dist with
  | .gamma => transformFittedGamma E values ds cs ce per none none
  | .pearson => transformFittedPearson E (lmomentsFit E) values ds cs ce per ⟨none, none, none, none⟩
  | .other => .error .valueError

/-- the transformation if the comparison of the years raises TypeError (`None < 1`): values that are all missing are returned before the years are looked at
(compute.py:598, 671, 802); `gamma_parameters` returns missing parameters before it looks at the years if no value is left after zeros were replaced (compute.py:671-681) -/
def transformNoYears (E : Ext F) (values : Arr F) (dist : Distribution) (ds : Int) (per : Periodicity) : Res (Arr F) :=
  match dist with
  | .gamma =>
    if allNan values.data then .ok values
    else do
      let v ← validateArray values per
      if allNan (v.data.map zeroToNan) then transformYears E values dist ds ds ds per else .error .typeError
  | .pearson =>
    if allNan values.data then .ok values
    else do
      let _ ← validateArray values per
      .error .typeError
  | .other => .error .valueError

/-- the transformation with years that may be `None`. The comparison is `(start < data_start) or (end > data_end)` (compute.py:612, 693): the second part is not evaluated if
the first one holds, and then both years are replaced by those of the record, so that the end year does not matter. -/
def transformOptYears (E : Ext F) (values : Arr F) (dist : Distribution) (ds : Int) (cs ce : Option Int) (per : Periodicity) : Res (Arr F) :=
  match cs, ce with
  | some c, some e => transformYears E values dist ds c e per
  | some c, none => if c < ds then transformYears E values dist ds c ds per else transformNoYears E values dist ds per
  | none, _ => transformNoYears E values dist ds per

/-- `spi` (indices.py:69-204) with years that may be `None` and without parameters -/
def spiOptYears (E : Ext F) (values : Arr F) (scale : Int) (dist : Distribution) (ds : Int) (cs ce : Option Int) (per : Periodicity) : Res (List F) :=
  if values.shape.length = 2 ∨ values.shape.length = 1 then
    if allNan values.data then .ok values.data
    else do
      let m ← amin values.data
      let data := if flt m (lit 0) then values.data.map (npClipMin (lit 0)) else values.data
      let originalLength := data.length
      let scaled ← sumToScale data scale
      let values ← match per with
        | .monthly => reshapeTo2d (Arr.of1d scaled) 12
        | .daily => reshapeTo2d (Arr.of1d scaled) 366
        | .other => .error .valueError
      let values ← transformOptYears E values dist ds cs ce per
      pure (clipFlattenTruncate values originalLength)
  else .error .valueError

/-- `spei` (indices.py:207-346) with years that may be `None` and without parameters -/
def speiOptYears (E : Ext F) (precips pet : Arr F) (scale : Int) (dist : Distribution) (per : Periodicity) (ds : Int) (cs ce : Option Int) : Res (Arr F) :=
  if allNan precips.data then .ok precips
  else if precips.data.length ≠ pet.data.length then .error .valueError
  else do
    let m ← amin precips.data
    let p := if flt m (lit 0) then precips.data.map (npClipMin (lit 0)) else precips.data
    let pMinusPet := List.zipWith (fun a b => (a - b) + lit 1000) p pet.data
    let originalLength := p.length
    let scaled ← sumToScale pMinusPet scale
    let values ← transformOptYears E (Arr.of1d scaled) dist ds cs ce per
    pure (Arr.of1d (clipFlattenTruncate values originalLength))

/-- `percentage_of_normal` (indices.py:349-456) with years that may be `None`: the first comparison is `data_start_year > calibration_start_year`, the difference of the years is
taken next -/
def pnpOptYears (values : List F) (scale : Option Int) (ds : Int) (cs ce : Option Int) (per : Periodicity) : Res (List F) :=
  match cs, ce with
  | some c, some e => percentageOfNormal values scale ds c e per
  | c, _ =>
    match scale with
    | none => .error .valueError
    | some s =>
      if s < 1 then .error .valueError
      else if per = .other then .error .valueError
      else
        match c with
        | none => .error .typeError
        | some c => if ds > c then .error .valueError else .error .typeError

/-- `_spi`, `_spei`, `_pnp` and `_pet` (`__main__.py`:1100-1141) with years that may be `None` -/
def indexFunctionOpt (E : Ext F) (T : Trig F) (cs ce : Option Int) (ds : Int) (j : Job) (x y : List F) : Res (List F) :=
  match j.index, j.scale, j.dist with
  | "spi", some s, some d => spiOptYears E (Arr.of1d x) s d ds cs ce j.periodicity
  | "spei", some s, some d => (speiOptYears E (Arr.of1d x) (Arr.of1d y) s d j.periodicity ds cs ce).map Arr.data
  | "pnp", some s, _ => pnpOptYears x (some s) ds cs ce j.periodicity
  | "pet", _, _ => pet T (Arr.of1d x) y.head? ds
  | _, _, _ => .error .keyError

/-- how `main` ends: the parser stops the process, or `process_climate_indices` ends, with or without exception -/
inductive Outcome
  | exit (e : Exit)
  | ended (r : Res Unit)

/-- `main` (`__main__.py`:1470-1600) on a machine with `cpus` CPUs -/
def mainTool (E : Ext F) (T : Trig F) (toInt : String → Option Int) (cpus : Nat) (lower : String → String) (yearOf : F → Int) (cmp : CoordCmp F) (argv : List String) (w : World F) :
    Outcome × World F :=
  match readMain toInt argv with
  | .error e => (.exit e, w)
  | .ok c =>
    let r := processIndices (indexFunctionOpt E T c.calibrationStart c.calibrationEnd) (numberOfWorkers c.multiprocessing cpus) lower yearOf cmp c.args w
    (.ended r.1, r.2)

end

end CI
