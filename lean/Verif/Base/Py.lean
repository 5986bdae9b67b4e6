/-!
# Python values: exceptions, slices, numpy arrays
-/

namespace CI

/-- Exception classes raised by the code (messages are not modelled). -/
inductive PyErr where
  | valueError
  | indexError
  | keyError
  | typeError
  | zeroDivisionError
  | attributeError
  | osError
  deriving DecidableEq, Repr

/-- Result of a Python call. -/
abbrev Res (α : Type) := Except PyErr α

/-- `raise ValueError(...)` -/
def raiseValueError {α : Type} : Res α := .error .valueError

instance {ε α : Type} [DecidableEq ε] [DecidableEq α] : DecidableEq (Except ε α) := fun a b =>
  match a, b with
  | .ok x, .ok y => if h : x = y then isTrue (by rw [h]) else isFalse (by intro h'; cases h'; exact h rfl)
  | .error x, .error y =>
      if h : x = y then isTrue (by rw [h]) else isFalse (by intro h'; cases h'; exact h rfl)
  | .ok _, .error _ => isFalse (by intro h; cases h)
  | .error _, .ok _ => isFalse (by intro h; cases h)

/-- for concrete runs: the call returned and the value satisfies `p` -/
def okAnd {α : Type} (r : Res α) (p : α → Bool) : Bool :=
  match r with
  | .ok x => p x
  | .error _ => false

/-- A numpy array: shape and elements in C order (`data.length = shape.prod`, see `Arr.WF`). -/
structure Arr (α : Type) where
  shape : List Nat
  data : List α
  deriving DecidableEq, Repr

/-- well-formed: as many elements as the shape says -/
def Arr.WF {α : Type} (a : Arr α) : Prop := a.data.length = a.shape.foldr (· * ·) 1

/-- a 1-D array -/
def Arr.of1d {α : Type} (l : List α) : Arr α := ⟨[l.length], l⟩

theorem Arr.of1d_wf {α : Type} (l : List α) : (Arr.of1d l).WF := by simp [Arr.WF, Arr.of1d]

/-- Python slice bound: negative counts from the end, then clamped to `[0, n]`. -/
def sliceBound (n : Nat) (i : Int) : Nat :=
  if i < 0 then (i + n).toNat else min i.toNat n

/-- Python slice `l[lo:hi]` (step 1), with possibly negative bounds. -/
def pySlice {α : Type} (l : List α) (lo hi : Int) : List α :=
  let a := sliceBound l.length lo
  let b := sliceBound l.length hi
  (l.drop a).take (b - a)

/-- Slice `l[lo:hi]` for non-negative bounds. -/
def slice {α : Type} (l : List α) (lo hi : Nat) : List α := (l.drop lo).take (hi - lo)

/-- Python indexing `l[i]` for a non-negative `i`: IndexError outside. -/
def getIdx {α : Type} (l : List α) (i : Nat) : Res α :=
  match l[i]? with
  | some x => .ok x
  | none => .error .indexError

/-- numpy assignment `a[lo:hi] = v` with non-negative bounds and a 1-D right-hand side: the slice is
clamped; the lengths must be equal, or `v` has one element, which is broadcast; else ValueError. -/
def setSlice {α : Type} (a : List α) (lo hi : Nat) (v : List α) : Res (List α) :=
  let l := min lo a.length
  let h := max l (min hi a.length)
  if v.length = h - l then .ok (a.take l ++ v ++ a.drop h)
  else match v with
    | [x] => .ok (a.take l ++ List.replicate (h - l) x ++ a.drop h)
    | _ => .error .valueError

/-- Python item assignment `a[i] = x` for non-negative `i`: IndexError outside. -/
def setIdx {α : Type} (a : List α) (i : Nat) (x : α) : Res (List α) :=
  if i < a.length then .ok (a.set i x) else .error .indexError

end CI
