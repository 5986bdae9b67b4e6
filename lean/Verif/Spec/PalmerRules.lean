import Mathlib.Algebra.Order.Field.Basic
import Mathlib.Tactic.NormNum

/-!
# Palmer's rules for one month

Independent of the model: how the three indices X1 (incipient wet spell), X2 (incipient drought) and X3 (established spell) of a month may depend
on those of the month before and on the Z-index (Palmer 1965, equation 25 and the rules for starting and ending a spell).
-/

namespace CI.Rules
variable {K : Type} [Field K] [LinearOrder K]

/-- the recursion: 89.7 % of the previous index plus a third of the Z-index -/
def next (x z : K) : K := 897 / 1000 * x + z / 3

/-- the four ways in which a month may follow another; `x1 x2 x3` are the indices of the month before, `y1 y2 y3` those of the month -/
inductive Follows (x1 x2 x3 z : K) : K → K → K → Prop
  /-- the established spell certainly goes on: no incipient spell -/
  | goesOn : Follows x1 x2 x3 z 0 0 (next x3 z)
  /-- a wet spell becomes established: the incipient wet index has reached 1 -/
  | wetBegins : 1 ≤ next x1 z → Follows x1 x2 x3 z 0 0 (next x1 z)
  /-- a drought becomes established: the incipient dry index has reached -1 -/
  | droughtBegins : next x2 z ≤ -1 → Follows x1 x2 x3 z (max 0 (next x1 z)) 0 (next x2 z)
  /-- an established spell may be ending: both incipient indices are computed beside it -/
  | maybeEnds : Follows x1 x2 x3 z (max 0 (next x1 z)) (min 0 (next x2 z)) (next x3 z)
  /-- no established spell: neither incipient index has reached 1 or -1 -/
  | nothing : next x1 z < 1 → -1 < next x2 z → Follows x1 x2 x3 z (max 0 (next x1 z)) (min 0 (next x2 z)) 0

end CI.Rules
