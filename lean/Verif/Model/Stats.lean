import Verif.Model.Lmoments

/-!
# Model of `get_tolerance` and `rmse` of `src/climate_indices/utils.py`
-/

namespace CI
variable {F : Type} [FloatOps F]

/-- `np.diff` of a 1-D array -/
def npDiff : List F → List F
  | a :: b :: l => (b - a) :: npDiff (b :: l)
  | _ => []

/-- `get_tolerance` (utils.py:112-119) for a float64 axis (`np.finfo(float64).resolution` is 1e-15). `.min()` of an empty array raises
ValueError. Python's `max(tol, r)` is `r` if `r > tol`, else `tol`. -/
def getTolerance (dim : List F) : Res F := do
  let m ← amin ((npDiff dim).map fabs)
  let tol := m / lit 10
  pure (if flt tol (lit 1e-15) then lit 1e-15 else tol)

/-- numpy binary operation on 1-D arrays: equal sizes, or one of them has one element -/
def broadcast2 (f : F → F → F) (a b : List F) : Res (List F) :=
  if a.length = b.length then .ok (List.zipWith f a b)
  else match a, b with
    | [x], b => .ok (b.map (f x))
    | a, [y] => .ok (a.map (f · y))
    | _, _ => .error .valueError

/-- `rmse` (utils.py:179-190) on 1-D arrays; `.mean()` is the sum divided by the size (NaN for an empty array:
`fsum [] = 0` and 0/0). -/
def rmse (E : Ext F) (predictions targets : List F) : Res F := do
  let d ← broadcast2 (fun x y => (x - y) * (x - y)) predictions targets
  pure (E.sqrt (fsum d / lit d.length))

end CI
