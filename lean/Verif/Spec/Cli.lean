import Verif.Model.Cli

/-!
# Specification of the outputs of the main command line tool
-/

namespace CI.Spec

/-- what the tool can produce -/
inductive Output
  | spi (dist : Distribution) (scale : Nat)
  | spei (dist : Distribution) (scale : Nat)
  | pnp (scale : Nat)
  | pet
  deriving DecidableEq, Repr

/-- the scale with at least two digits -/
def twoDigits (n : Nat) : String := if n < 10 then "0" ++ toString n else toString n

def distName : Distribution → String
  | .pearson => "pearson"
  | .gamma => "gamma"
  | .other => "other"

/-- documented variable names (README: `spi_gamma_06`, `spei_pearson_12`, `pnp_03`, `pet_thornthwaite`) -/
def Output.name : Output → String
  | .spi d n => "spi_" ++ distName d ++ "_" ++ twoDigits n
  | .spei d n => "spei_" ++ distName d ++ "_" ++ twoDigits n
  | .pnp n => "pnp_" ++ twoDigits n
  | .pet => "pet_thornthwaite"

/-- output file of a variable -/
def fileName (base name : String) : String := base ++ "_" ++ name ++ ".nc"

/-- the documented outputs in the order in which they are computed -/
def spiOutputs (scales : List Nat) : List Output := scales.flatMap (fun n => [.spi .pearson n, .spi .gamma n])
def speiOutputs (scales : List Nat) : List Output := scales.flatMap (fun n => [.spei .pearson n, .spei .gamma n])
def pnpOutputs (scales : List Nat) : List Output := scales.map .pnp
def petOutputs (petGiven : Bool) : List Output := if petGiven then [] else [.pet]

/-- the documented outputs of each choice of `--index` -/
def documented (index : String) (petGiven : Bool) (scales : List Nat) : List Output :=
  match index with
  | "spi" => spiOutputs scales
  | "pnp" => pnpOutputs scales
  | "pet" => petOutputs petGiven
  | "spei" => petOutputs petGiven ++ speiOutputs scales
  | "scaled" => spiOutputs scales ++ petOutputs petGiven ++ speiOutputs scales ++ pnpOutputs scales
  | _ => []

/-- files and variables of a list of outputs -/
def entries (base : String) (outs : List Output) : List (String × String) := outs.map (fun o => (fileName base o.name, o.name))

/-! ## Input files -/

/-- dimension orders of the data variables of each kind of input -/
def dataDims : InputType → List (List String)
  | .grid => [["lat", "lon", "time"], ["time", "lat", "lon"]]
  | .divisions => [["division", "time"], ["time", "division"]]
  | .timeseries => [["time"]]

/-- dimension orders of the available water capacity -/
def awcDims : InputType → List (List String)
  | .grid => ["lat", "lon"] :: dataDims .grid
  | .divisions => ["division"] :: dataDims .divisions
  | .timeseries => []

/-- a file and a variable have been named, the file exists and has the variable, with one of the given dimension orders -/
def Given {F : Type} (fs : Files F) (file var : Option String) (dims : List (List String)) : Prop :=
  ∃ f v d x, file = some f ∧ var = some v ∧ fs f = some d ∧ List.lookup v d = some x ∧ x.dims ∈ dims

/-! ## Units -/

/-- units of lengths of water accepted for precipitation (`mm/dy` for precipitation only), and their size in millimetres -/
def lengthUnits : List (String × ℚ) := [("mm", 1), ("millimeters", 1), ("millimeter", 1), ("inches", 25.4), ("inch", 25.4)]
def precipUnits : List (String × ℚ) := ("mm/dy", 1) :: lengthUnits

/-- scales of temperature: Celsius, Fahrenheit, Kelvin -/
inductive TempScale | celsius | fahrenheit | kelvin
  deriving DecidableEq, Repr

def tempUnits : List (String × TempScale) :=
  [("degree_celsius", .celsius), ("degrees_celsius", .celsius), ("celsius", .celsius), ("c", .celsius), ("f", .fahrenheit), ("fahrenheit", .fahrenheit),
   ("degree_fahrenheit", .fahrenheit), ("degrees_fahrenheit", .fahrenheit), ("k", .kelvin), ("kelvin", .kelvin)]

/-- what a thermometer of that scale shows at `c` degrees Celsius -/
def TempScale.reading {K : Type} [Field K] (s : TempScale) (c : K) : K :=
  match s with
  | .celsius => c
  | .fahrenheit => c * 9 / 5 + 32
  | .kelvin => c + 273.15

/-- name of a fitting parameter variable, e.g. `alpha_3_month` or `prob_zero_30_day` -/
def fittingName (v : String) (scale : Int) (daily : Bool) : String := v ++ "_" ++ (toString scale ++ "_" ++ if daily then "day" else "month")

/-- several calls of the processing entry point in one Python process, one after the other: an exception ends a call, not the process; results and final state -/
def sameProcess {F : Type} (call : CliArgs → SE (World F) Unit) : List CliArgs → World F → List (Res Unit) × World F
  | [], w => ([], w)
  | a :: as, w =>
    let r := call a w
    let rest := sameProcess call as r.2
    (r.1 :: rest.1, rest.2)

/-- the same calls, each in a new Python process: the files stay, the shared arrays do not -/
def newProcesses {F : Type} (call : CliArgs → SE (World F) Unit) : List CliArgs → World F → List (Res Unit) × World F
  | [], w => ([], w)
  | a :: as, w =>
    let r := call a { w with shared := fun _ => none }
    let rest := newProcesses call as r.2
    (r.1 :: rest.1, rest.2)

/-- the time series at place (`i`, `k`) of an array in C order whose last axis is time with `n` steps and whose rows have `b` places: for a grid (lat, lon, time) `b` is the number
of longitudes, for divisions (division, time) it is 1 -/
def seriesAt {F : Type} (b n i k : Nat) (d : List F) : List F := (d.drop ((i * b + k) * n)).take n

/-- shape of the data: a grid of `a` × `b` places or `a` divisions (`b` = 1), `n` time steps -/
def IsLayout (it : InputType) (shape : List Nat) (a b n : Nat) : Prop := (it = .grid ∧ shape = [a, b, n]) ∨ (it = .divisions ∧ shape = [a, n] ∧ b = 1)

/-- places and time steps of a variable: a grid (lat, lon, time) of `a` × `b` places or `a` divisions (division, time; `b` = 1), `n` time steps -/
def Layout {F : Type} (x : NcVar F) (a b n : Nat) : Prop :=
  (x.dims = ["lat", "lon", "time"] ∧ x.shape = [a, b, n]) ∨ (x.dims = ["division", "time"] ∧ x.shape = [a, n] ∧ b = 1)

/-- the input variable that is named by two arguments of a run: variable `v`, with contents `x`, of file `f`, with contents `d`. The variable is well-formed and has none of two
reserved names; the file is none of the output files of the run. -/
structure Input {F : Type} (fs : Files F) (base : String) (file var : Option String) (f v : String) (d : NcFile F) (x : NcVar F) : Prop where
  file : file = some f
  var : var = some v
  opened : fs f = some d
  found : List.lookup v d = some x
  wf : x.data.length = x.shape.foldr (· * ·) 1
  reserved : v ≠ "lat" ∧ v ≠ "result_array"
  notOutput : ∀ o : Output, f ≠ fileName base o.name

/-- every coordinate variable of data set `d` (a variable named like its only dimension) is in `file`, unchanged -/
def Carries {F : Type} (d file : NcFile F) : Prop := ∀ c y, (c, y) ∈ d → y.dims = [c] → (c, y) ∈ file

/-- the file of output `o` is there, with the coordinates of the input `d`, and has the variable with the dimensions and the shape of `like`, with as many values as the shape says; at every place (`i`, `k`) the values are those of `expected` -/
def Holds {F : Type} (fs : Files F) (base : String) (o : Output) (d : NcFile F) (like : NcVar F) (a b n : Nat) (expected : Nat → Nat → Res (List F)) : Prop :=
  ∃ file y, fs (fileName base o.name) = some file ∧ (o.name, y) ∈ file ∧ (y.dims = like.dims ∧ Carries d file) ∧ (y.shape = like.shape ∧ y.data.length = like.shape.foldr (· * ·) 1) ∧
    ∀ i < a, ∀ k < b, expected i k = .ok (seriesAt b n i k y.data)

/-- the series of a place as the index functions get it: daily values in 366-day years `y0` to `y1`, monthly values as they are -/
def prepared {F : Type} [FloatOps F] (per : Periodicity) (y0 y1 : Int) (l : List F) : Res (List F) :=
  if per = .daily then transformTo366day (Arr.of1d l) y0 (y1 - y0 + 1).toNat else .ok l

/-- daily values back in Gregorian years -/
def restored {F : Type} [FloatOps F] (per : Periodicity) (y0 : Int) (l : List F) : Res (List F) :=
  if per = .daily then transformToGregorian (Arr.of1d l) y0 else .ok l

/-- the same for the main tool, which does not convert the values of divisions -/
def preparedFor {F : Type} [FloatOps F] (dims : List String) (per : Periodicity) (y0 y1 : Int) (l : List F) : Res (List F) :=
  if "division" ∈ dims then .ok l else prepared per y0 y1 l

/-- the time coordinate of a file begins in year `y0` and ends in year `y1`; `yearOf` is the year of a value of the time coordinate -/
def Years {F : Type} (yearOf : F → Int) (d : NcFile F) (y0 y1 : Int) : Prop :=
  ∃ t t0 t1, List.lookup "time" d = some t ∧ t.data.head? = some t0 ∧ t.data.getLast? = some t1 ∧ yearOf t0 = y0 ∧ yearOf t1 = y1

/-- the coordinates that two files have in common are the same -/
def SameCoords {F : Type} (d e : NcFile F) : Prop := ∀ c x y, (c, x) ∈ d → (c, y) ∈ e → x.dims = [c] → y.dims = [c] → x.data = y.data

/-- computation `f` on a series of daily (or monthly) values: in 366-day years (unless of divisions), computed, back in Gregorian years -/
def onSeries {F : Type} [FloatOps F] (dims : List String) (per : Periodicity) (y0 y1 : Int) (f : List F → Res (List F)) (l : List F) : Res (List F) := do
  let p ← preparedFor dims per y0 y1 l
  let r ← f p
  restored per y0 r

/-- the same with two series -/
def onSeries₂ {F : Type} [FloatOps F] (dims : List String) (per : Periodicity) (y0 y1 : Int) (f : List F → List F → Res (List F)) (l e : List F) : Res (List F) := do
  let p ← preparedFor dims per y0 y1 l
  let q ← preparedFor dims per y0 y1 e
  let r ← f p q
  restored per y0 r

end CI.Spec
