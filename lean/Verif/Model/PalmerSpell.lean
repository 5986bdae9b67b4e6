import Verif.Model.Lmoments

/-!
# Model of `src/climate_indices/palmer.py`, part 2: the spell machine (lines 317-720)

A month is identified by its position `t = 12 * year + month` in the record. The arrays `pdsi`, `phdi`, `wplm`, `ppr`, `px1`, `px2`,
`px3`, `x` of shape `(n_years, 12)` are kept as one list of records (`Cell`), the backlog arrays `indexj`, `indexm`, `sx`, `sx1`, `sx2`, `sx3`
as one list of records (`Slot`); they always have the same lengths in the code. The dictionary entries `pv`, `ze`, `ud`, `uw`,
`iass`, `year`, `month` are written before they are read in every month; they are passed as arguments.
`z[t]` does not depend on the spell state, so the machine is a function of the list of Z values.
-/

namespace CI
variable {F : Type} [FloatOps F]

/-- Python's `max(a, b)` on floats: `b` only if `b > a` -/
def pyMax (a b : F) : F := if flt a b then b else a

/-- Python's `min(a, b)` on floats: `b` only if `b < a` -/
def pyMin (a b : F) : F := if flt b a then b else a

/-- the entries of the per-month arrays at one month (palmer.py:809-822) -/
structure Cell (F : Type) where
  pdsi : F
  phdi : F
  wplm : F
  ppr : F
  px1 : F
  px2 : F
  px3 : F
  x : F
  deriving DecidableEq, Repr

/-- the entries of the backlog arrays at one position (palmer.py:807-808, 818-821); `none` is the initial NaN of
`indexj`/`indexm` -/
structure Slot (F : Type) where
  idx : Option Nat
  sx : F
  sx1 : F
  sx2 : F
  sx3 : F
  deriving DecidableEq, Repr

/-- the part of the `data` dictionary that the spell machine changes -/
structure Spell (F : Type) where
  v : F
  pro : F
  x1 : F
  x2 : F
  x3 : F
  k8 : Nat
  k8max : Nat
  slots : List (Slot F)
  cells : List (Cell F)
  deriving DecidableEq, Repr

/-- `K8_SIZE` (palmer.py:16) -/
def k8Size : Nat := 40

/-- initial entries of one month (palmer.py:809-822) -/
def cellInit : Cell F := ⟨nan, nan, nan, lit 0, lit 0, lit 0, lit 0, lit 0⟩

/-- initial entries of one backlog position -/
def slotInit : Slot F := ⟨none, lit 0, lit 0, lit 0, lit 0⟩

/-- initial state for `n` months (palmer.py:800-822) -/
def spellInit (n : Nat) : Spell F :=
  ⟨lit 0, lit 0, lit 0, lit 0, lit 0, 0, 0, List.replicate k8Size slotInit, List.replicate n cellInit⟩

/-- `_case` (palmer.py:317-350) -/
def palmerCase (prob x1 x2 x3 : F) : F :=
  if feq x3 (lit 0) then
    if flt (fabs x2) (fabs x1) then x1 else x2
  else if fle prob (lit 0) || fle (lit 100) prob then x3
  else
    let pro := prob / lit 100
    if fle x3 (lit 0) then (lit 1 - pro) * x3 + pro * x1
    else (lit 1 - pro) * x3 + pro * x2

/-- the assignment of the three indices of a month: lines 364-374, 406-417, 458-467 -/
def finalCell (c : Cell F) (xv : F) : Cell F :=
  { c with
    pdsi := xv
    phdi := if feq c.px3 (lit 0) then xv else c.px3
    wplm := palmerCase c.ppr c.px1 c.px2 c.px3 }

/-- the backtracking loop of `_assign` (palmer.py:386-400): positions `i-1, ..., 0` -/
def backtrack : Nat → Nat → List (Slot F) → Res (List (Slot F))
  | 0, _, s => .ok s
  | i + 1, isave, s => do
    let e ← getIdx s i
    if isave = 2 then
      if feq e.sx2 (lit 0) then backtrack i 1 (s.set i { e with sx := e.sx1 })
      else backtrack i 2 (s.set i { e with sx := e.sx2 })
    else
      if feq e.sx1 (lit 0) then backtrack i 2 (s.set i { e with sx := e.sx2 })
      else backtrack i 1 (s.set i { e with sx := e.sx1 })

/-- the loop `sx[i] = sx3[i]` (palmer.py:379-380) for positions below `i` -/
def takeX3 : Nat → List (Slot F) → Res (List (Slot F))
  | 0, s => .ok s
  | i + 1, s => do
    let s ← takeX3 i s
    let e ← getIdx s i
    setIdx s i { e with sx := e.sx3 }

/-- the output loop of `_assign` (palmer.py:403-417) over the first `k` positions. `int(nan)` raises ValueError. -/
def outputLoop (slots : List (Slot F)) : Nat → List (Cell F) → Res (List (Cell F))
  | 0, cells => .ok cells
  | k + 1, cells => do
    let cells ← outputLoop slots k cells
    let e ← getIdx slots k
    match e.idx with
    | none => .error .valueError
    | some j =>
      let c ← getIdx cells j
      setIdx cells j (finalCell c e.sx)

/-- the choice of the backlog values in `_assign` (palmer.py:375-401): all x3 for `iass = 3`, otherwise backtracking -/
def chooseSx (iass k8 : Nat) (slots : List (Slot F)) : Res (List (Slot F)) :=
  if iass = 3 then takeX3 k8 slots else backtrack k8 iass slots

/-- `_assign` (palmer.py:353-419) -/
def assign (st : Spell F) (t iass : Nat) : Res (Spell F) := do
  let c ← getIdx st.cells t
  let e ← getIdx st.slots st.k8
  let slots ← setIdx st.slots st.k8 { e with sx := c.x }
  if st.k8 = 0 then
    pure { st with slots := slots, cells := st.cells.set t (finalCell c c.x) }
  else do
    let slots ← chooseSx iass st.k8 slots
    let cells ← outputLoop slots (st.k8 + 1) st.cells
    pure { st with slots := slots, cells := cells, k8 := 0 }

/-- `_statement_220` (palmer.py:421-436) -/
def statement220 (st : Spell F) (t : Nat) (pv : F) : Res (Spell F) := do
  let c ← getIdx st.cells t
  pure { st with v := pv, pro := c.ppr, x1 := c.px1, x2 := c.px2, x3 := c.px3 }

/-- `_statement_210` (palmer.py:439-472) -/
def statement210 (st : Spell F) (t : Nat) (z : F) : Res (Spell F) := do
  let c ← getIdx st.cells t
  let px3 := lit 0.897 * st.x3 + z / lit 3
  let c : Cell F := { c with px1 := lit 0, px2 := lit 0, ppr := lit 0, px3 := px3, x := px3 }
  let st := { st with cells := st.cells.set t c }
  let st ←
    if st.k8 = 0 then pure { st with cells := st.cells.set t (finalCell c c.x) }
    else assign st t 3
  statement220 st t (lit 0)

/-- the buffer extension (palmer.py:538-545): appended entries are zeros, also in the index arrays -/
def growSlots (k8 : Nat) (slots : List (Slot F)) : List (Slot F) :=
  if k8 ≥ slots.length + 1 then
    slots ++ List.replicate (k8 - slots.length + 2) ⟨some 0, lit 0, lit 0, lit 0, lit 0⟩
  else slots

/-- `_statement_200` (palmer.py:475-554); `c` is the entry of the current month after `ppr` and `px3` have been set -/
def statement200 (st : Spell F) (t : Nat) (z pv : F) (c : Cell F) : Res (Spell F) := do
  let c : Cell F := { c with px1 := pyMax (lit 0) (lit 0.897 * st.x1 + z / lit 3) }
  if fle (lit 1) c.px1 && feq c.px3 (lit 0) then do
    let c : Cell F := { c with x := c.px1, px3 := c.px1, px1 := lit 0 }
    let st ← assign { st with cells := st.cells.set t c } t 1
    statement220 st t pv
  else
    let c : Cell F := { c with px2 := pyMin (lit 0) (lit 0.897 * st.x2 + z / lit 3) }
    if fle c.px2 (lit (-1)) && feq c.px3 (lit 0) then do
      let c : Cell F := { c with x := c.px2, px3 := c.px2, px2 := lit 0 }
      let st ← assign { st with cells := st.cells.set t c } t 2
      statement220 st t pv
    else if feq c.px3 (lit 0) && feq c.px1 (lit 0) then do
      let c : Cell F := { c with x := c.px2 }
      let st ← assign { st with cells := st.cells.set t c } t 2
      statement220 st t pv
    else if feq c.px3 (lit 0) && feq c.px2 (lit 0) then do
      let c : Cell F := { c with x := c.px1 }
      let st ← assign { st with cells := st.cells.set t c } t 1
      statement220 st t pv
    else do
      let slots := growSlots st.k8 st.slots
      let e ← getIdx slots st.k8
      let slots ← setIdx slots st.k8 { e with sx1 := c.px1, sx2 := c.px2, sx3 := c.px3 }
      let c : Cell F := { c with x := c.px3 }
      statement220 { st with slots := slots, cells := st.cells.set t c, k8 := st.k8 + 1, k8max := st.k8 + 1 } t pv

/-- `_statement_190` (palmer.py:557-580) -/
def statement190 (st : Spell F) (t : Nat) (z pv ze : F) : Res (Spell F) := do
  let c ← getIdx st.cells t
  let q := if feq st.pro (lit 100) then ze else ze + st.v
  let ppr := (pv / q) * lit 100
  let c : Cell F :=
    if fle (lit 100) ppr then { c with ppr := lit 100, px3 := lit 0 }
    else { c with ppr := ppr, px3 := lit 0.897 * st.x3 + z / lit 3 }
  statement200 { st with cells := st.cells.set t c } t z pv c

/-- `_statement_180` (palmer.py:583-602) -/
def statement180 (st : Spell F) (t : Nat) (z : F) : Res (Spell F) :=
  let uw := z + lit 0.15
  let pv := uw + pyMax st.v (lit 0)
  if fle pv (lit 0) then statement210 st t z
  else statement190 st t z pv (lit (-2.691) * st.x3 - lit 1.5)

/-- `_statement_170` (palmer.py:605-624) -/
def statement170 (st : Spell F) (t : Nat) (z : F) : Res (Spell F) :=
  let ud := z - lit 0.15
  let pv := ud + pyMin st.v (lit 0)
  if fle (lit 0) pv then statement210 st t z
  else statement190 st t z pv (lit (-2.691) * st.x3 + lit 1.5)

/-- the branching of one month (palmer.py:654-697), after the Z value is known -/
def spellBranch (st : Spell F) (t : Nat) (z : F) : Res (Spell F) :=
  if feq st.pro (lit 100) || feq st.pro (lit 0) then
    if fle (lit (-0.5)) st.x3 && fle st.x3 (lit 0.5) then do
      let c ← getIdx st.cells t
      let c : Cell F := { c with ppr := lit 0, px3 := lit 0 }
      statement200 { st with cells := st.cells.set t c } t z (lit 0) c
    else if flt (lit 0.5) st.x3 then
      if fle (lit 0.15) z then statement210 st t z else statement170 st t z
    else if flt st.x3 (lit (-0.5)) then
      if fle z (lit (-0.15)) then statement210 st t z else statement180 st t z
    else statement170 st t z
  else
    if flt (lit 0) st.x3 then statement170 st t z
    else if fle st.x3 (lit 0) then statement180 st t z
    else statement170 st t z

/-- one month of the loop of `_calc_zindex` (palmer.py:640-642 and 654-697): the month is entered in the index arrays at position `k8`
(IndexError if the arrays are too short), then the branching -/
def spellMonth (st : Spell F) (t : Nat) (z : F) : Res (Spell F) := do
  let e ← getIdx st.slots st.k8
  let slots ← setIdx st.slots st.k8 { e with idx := some t }
  spellBranch { st with slots := slots } t z

/-- the loop of `_calc_zindex` (palmer.py:636-697) over the Z values of the months `t, t+1, ...` -/
def spellRun : List F → Nat → Spell F → Res (Spell F)
  | [], _, st => .ok st
  | z :: zs, t, st => do
    let st ← spellMonth st t z
    spellRun zs (t + 1) st

/-- `_finish_up` (palmer.py:699-720): the first `k` positions of the backlog; `last` is the entry of the last month of the record -/
def finishLoop (slots : List (Slot F)) (last : Cell F) : Nat → List (Cell F) → Res (List (Cell F))
  | 0, cells => .ok cells
  | k + 1, cells => do
    let cells ← finishLoop slots last k cells
    let e ← getIdx slots k
    match e.idx with
    | none => .error .valueError
    | some j =>
      let c ← getIdx cells j
      setIdx cells j { c with
        pdsi := c.x
        phdi := if feq c.px3 (lit 0) then c.x else c.px3
        wplm := palmerCase last.ppr last.px1 last.px2 last.px3 }

/-- `_finish_up` (palmer.py:699-720) -/
def finishUp (st : Spell F) : Res (List (Cell F)) :=
  match st.cells.getLast? with
  | none => .ok st.cells  -- no month
  | some last => finishLoop st.slots last st.k8max st.cells

/-- `_calc_zindex` and `_finish_up` as a function of the Z values -/
def spellCells (zs : List F) : Res (List (Cell F)) := do
  let st ← spellRun zs 0 (spellInit zs.length)
  finishUp st

end CI
