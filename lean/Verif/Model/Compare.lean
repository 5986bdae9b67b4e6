import Verif.Model.Cli
import Verif.Model.Stats

/-!
# Model of the coordinate comparisons of the main command line tool
-/

namespace CI
variable {F : Type} [FloatOps F]

/-- `np.isclose` on one pair of values, relative tolerance 1e-5 (numpy's default); a number is finite if its difference from itself is 0 -/
def isClose (atol x y : F) : Bool := (fle (fabs (x - y)) (atol + lit 1e-5 * fabs y) && feq (y - y) (lit 0)) || feq x y

/-- `np.allclose(a, b, atol=utils.get_tolerance(a))` (`__main__.py`:222-226, 229-233, 309-313, 316-320, 395-399, 402-406): the tolerance is computed first, and raises ValueError for an axis with
a single point -/
def npClose (a b : List F) : Res Bool := do
  let tol ← getTolerance a
  if a.length = b.length then pure ((a.zip b).all (fun p => isClose tol p.1 p.2))
  else match a, b with
    | [x], b => pure (b.all (isClose tol x))
    | a, [y] => pure (a.all (fun x => isClose tol x y))
    | _, _ => .error .valueError

/-- `np.array_equal` -/
def npEqual (a b : List F) : Bool := a.length == b.length && (a.zip b).all (fun p => feq p.1 p.2)

/-- the comparisons of the tool -/
def npCmp : CoordCmp F := ⟨npClose, npEqual⟩

end CI
