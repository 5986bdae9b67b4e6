import Verif.Base.Py
import Verif.Model.Indices

/-!
# Model of the worker processes of the two command line tools

`src/climate_indices/__main__.py` (`_parallel_process`, `_apply_along_axis`, `_apply_along_axis_double`) and
`src/climate_indices/__spi__.py` (`_parallel_spi`, `_parallel_fitting`, `_apply_to_subarray_*`).

A worker is a program of atomic reads and writes of single values (8-byte doubles) in shared memory; computations between them are local. Starting and stopping
processes, pickling and exceptions inside a worker are not modelled. `pool.map` hands the chunks to the worker processes; every interleaving of the chunk programs is
allowed here, which includes every schedule of the pool.
-/

namespace CI

/-! ## Chunks -/

/-- Python `list(range(a, b, step))` for a positive step -/
def rangeStep (a b step : Nat) : List Nat := (List.range ((b - a + (step - 1)) / step)).map (fun k => a + k * step)

/-- `split_indices` (`__main__.py`:1175-1178, `__spi__.py`:855-858 and 923-926) for `n` rows and `w` processes -/
def splitIndices (n w : Nat) : Res (List Nat) :=
  if w = 0 then .error .zeroDivisionError
  else
    let d := n / w
    let m := n % w
    let s := rangeStep 0 ((d + 1) * (m + 1)) (d + 1)
    if d ≠ 0 then
      match s.getLast? with
      | none => .error .indexError
      | some l => .ok (s ++ rangeStep (l + d) n d)
    else .ok s

/-- the pairs (`sub_array_start`, `sub_array_end`) of `_parallel_process` (`__main__.py`:1174, 1190-1205; identical for SPEI and PET 1210-1247) -/
def mainChunks (n workers : Nat) : Res (List (Nat × Option Nat)) := do
  let r := min n workers
  let s ← splitIndices n r
  (List.range r).mapM (fun i => do
    let a ← getIdx s i
    if i < r - 1 then do
      let b ← getIdx s (i + 1)
      pure (a, some b)
    else pure (a, none))

/-- the loop with `break` of `_parallel_spi` and `_parallel_fitting` (`__spi__.py`:865-893 and 930-948) -/
def spiChunksLoop (s : List Nat) (w : Nat) : List Nat → Res (List (Nat × Option Nat))
  | [] => .ok []
  | i :: rest => do
    let a ← getIdx s i
    if i < w - 1 ∧ s.length > i + 1 then do
      let b ← getIdx s (i + 1)
      let tail ← spiChunksLoop s w rest
      pure ((a, some b) :: tail)
    else pure [(a, none)]

/-- the chunks of the SPI tool -/
def spiChunks (n w : Nat) : Res (List (Nat × Option Nat)) := do
  let s ← splitIndices n w
  spiChunksLoop s w (List.range w)

/-- `--multiprocessing` -/
inductive MpOption | single | all | allButOne
  deriving DecidableEq, Repr

/-- number of worker processes (`__main__.py`:1629-1634, `__spi__.py`:1406-1411) on a machine with `cpus` CPUs -/
def numberOfWorkers (o : MpOption) (cpus : Nat) : Nat :=
  match o with
  | .single => 1
  | .all => cpus
  | .allButOne => cpus - 1

/-! ## Programs over shared memory -/

/-- a value in shared memory: input array number `a`, or output array number `o`, at row (first axis), series within the row (second axis of a grid, 0 for divisions), time -/
inductive Loc
  | inp (a r j t : Nat)
  | out (o r j t : Nat)
  deriving DecidableEq, Repr

/-- shared memory -/
abbrev Mem (V : Type) := Loc → V

/-- a sequential program of atomic reads and writes -/
inductive Prog (V : Type)
  | done
  | read (l : Loc) (k : V → Prog V)
  | write (l : Loc) (v : V) (k : Prog V)

section
variable {V : Type}

/-- one write -/
def upd (m : Mem V) (l : Loc) (v : V) : Mem V := fun x => if x = l then v else m x

/-- the program run alone -/
def Prog.run : Prog V → Mem V → Mem V
  | .done, m => m
  | .read l k, m => (k (m l)).run m
  | .write l v k, m => k.run (upd m l v)

/-- read a list of values -/
def readAll : List Loc → (List V → Prog V) → Prog V
  | [], k => k []
  | l :: ls, k => .read l (fun v => readAll ls (fun vs => k (v :: vs)))

/-- write a list of values -/
def writeAll : List (Loc × V) → Prog V → Prog V
  | [], k => k
  | (l, v) :: ws, k => .write l v (writeAll ws k)

/-- the programs after program `i` has become `p` -/
def updProg {ι : Type} [DecidableEq ι] (ps : ι → Prog V) (i : ι) (p : Prog V) : ι → Prog V := fun j => if j = i then p else ps j

/-- one atomic step of one of the programs: memory and programs before and after -/
inductive Step {ι : Type} [DecidableEq ι] : Mem V × (ι → Prog V) → Mem V × (ι → Prog V) → Prop
  | read (m : Mem V) (ps : ι → Prog V) (i : ι) (l : Loc) (k : V → Prog V) (h : ps i = .read l k) :
      Step (m, ps) (m, updProg ps i (k (m l)))
  | write (m : Mem V) (ps : ι → Prog V) (i : ι) (l : Loc) (v : V) (k : Prog V) (h : ps i = .write l v k) :
      Step (m, ps) (upd m l v, updProg ps i k)

/-- an execution: any number of steps, in any order of the programs -/
inductive Exec {ι : Type} [DecidableEq ι] : Mem V × (ι → Prog V) → Mem V × (ι → Prog V) → Prop
  | refl (s : Mem V × (ι → Prog V)) : Exec s s
  | step {s t u : Mem V × (ι → Prog V)} (h : Exec s t) (h' : Step t u) : Exec s u

/-! ## The programs of the workers -/

/-- places of the series (`r`, `j`) of input array `a` with `n` time steps -/
def inLocs (a n : Nat) (rj : Nat × Nat) : List Loc := (List.range n).map (fun t => Loc.inp a rj.1 rj.2 t)

/-- writes of a series to output array `o` -/
def outWrites (o : Nat) (rj : Nat × Nat) (vs : List V) : List (Loc × V) := vs.zipIdx.map (fun q => (Loc.out o rj.1 rj.2 q.2, q.1))

/-- writes of several series, one for each output array -/
def outWritesAll (rj : Nat × Nat) (vss : List (List V)) : List (Loc × V) := vss.zipIdx.flatMap (fun q => outWrites q.2 rj q.1)

/-- writes back into the first input series (in-place changes made by the index functions) -/
def inWrites (rj : Nat × Nat) (vs : List V) : List (Loc × V) := vs.zipIdx.map (fun q => (Loc.inp 0 rj.1 rj.2 q.2, q.1))

/-- `_apply_along_axis` (`__main__.py`:1281-1303): `func` on every series of the chunk (`np.apply_along_axis` passes views, so `inplace`, the change made by the
function to its argument, reaches the shared input), then the copy of all results into the output -/
def progSingle (n : Nat) (func inplace : List V → List V) : List (Nat × Nat) → List (Loc × V) → Prog V
  | [], acc => writeAll acc .done
  | rj :: rest, acc => readAll (inLocs 0 n rj) (fun vs =>
      writeAll (inWrites rj (inplace vs)) (progSingle n func inplace rest (acc ++ outWrites 0 rj (func vs))))

/-- the loops that write the result of each series at once: `_apply_along_axis_double` (`__main__.py`:1325-1361; second input a series for SPEI, a latitude for PET),
`_apply_to_subarray_spi` (`__spi__.py`:1044-1079, grids; second input the fitting parameters), `_apply_to_subarray_gamma` and `_apply_to_subarray_pearson`
(`__spi__.py`:1135-1161, 1211-1258; no second input, two or four output arrays). Simplification: PET reads the latitude once per series instead of once per row; no
worker writes latitudes. -/
def progDouble (n : Nat) (second : Nat × Nat → List Loc) (func : List V → List V → List (List V)) (inplace : List V → List V) : List (Nat × Nat) → Prog V
  | [] => .done
  | rj :: rest => readAll (inLocs 0 n rj) (fun vs => readAll (second rj) (fun ws =>
      writeAll (inWrites rj (inplace vs)) (writeAll (outWritesAll rj (func vs ws)) (progDouble n second func inplace rest))))

/-- the second input of SPEI -/
def secondSeries (n : Nat) (rj : Nat × Nat) : List Loc := inLocs 1 n rj

/-- the second input of PET: the latitude of the row -/
def secondLat (rj : Nat × Nat) : List Loc := [Loc.inp 1 rj.1 0 0]

/-- the second input of the SPI tool: `k` fitting parameter arrays with `p` values for every series -/
def secondFit (k p : Nat) (rj : Nat × Nat) : List Loc := (List.range k).flatMap (fun a => inLocs (a + 1) p rj)

/-- the fitting functions have no second input -/
def secondNone (_ : Nat × Nat) : List Loc := []

/-- `array[start:end]` of the row numbers `0..n-1` -/
def chunkRows (n : Nat) (c : Nat × Option Nat) : List Nat := ((List.range n).take (c.2.getD n)).drop c.1

/-- the series of a chunk, in the order of the loops: `cols` series per row (number of longitudes for a grid, 1 for divisions) -/
def chunkSeries (n cols : Nat) (c : Nat × Option Nat) : List (Nat × Nat) :=
  (chunkRows n c).flatMap (fun r => (List.range cols).map (fun j => (r, j)))

end

/-! ## A single time series -/

/-- `_apply_along_axis` for a single time series (`__main__.py`:1294-1303): the first axis is the time axis, so every chunk of time steps is processed on its own.
Errors of the function are passed on. -/
def applyTimeseries {V : Type} (func : List V → Res (List V)) (x : List V) (workers : Nat) : Res (List V) := do
  let cs ← mainChunks x.length workers
  let parts ← cs.mapM (fun c => func ((x.take (c.2.getD x.length)).drop c.1))
  pure parts.flatten

/-! ## Divisions in the SPI tool -/

/-- the row of the output for one division of a chunk, `_apply_to_subarray_spi` (`__spi__.py`:1081-1095): the function is given the whole chunk `values_sub_array`
(`chunk`: the series of all its divisions, each with `len` values) instead of the series of the division; the result is assigned to a row of `len` values (numpy
broadcasts a single value, other lengths are a ValueError; a chunk of missing values comes back as a 2-D array, which numpy accepts only if it has one row, so its
length decides in the same way). `fp` are the fitting parameters of the division. -/
def spiDivisionRow {F : Type} [FloatOps F] (E : Ext F) (chunk : List (List F)) (len : Nat) (scale : Int) (dist : Distribution) (ds cs ce : Int) (per : Periodicity)
    (fp : Option (FitDict F)) : Res (List F) := do
  let out ← spi E ⟨[chunk.length, len], chunk.flatten⟩ scale dist ds cs ce per fp
  if out.length = len then pure out
  else match out with
    | [x] => pure (List.replicate len x)
    | _ => .error .valueError

end CI
