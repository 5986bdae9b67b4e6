import Verif.Spec.Calendar

/-!
# Specification: years of 366 days
-/

namespace CI.Spec

/-- the days `c` of the year `y` as 366 days: in ordinary years 29 February is the mean of the days before and after it -/
def year366 {α : Type} (mean : α → α → α) (y : Int) (c : List α) : List α :=
  if Leap y then c else c.take 59 ++ List.zipWith mean ((c.drop 58).take 1) ((c.drop 59).take 1) ++ c.drop 59

/-- the days of `n` years from `y` on in years of 366 days -/
def days366 {α : Type} (mean : α → α → α) : Int → Nat → List α → List α
  | _, 0, _ => []
  | y, n + 1, l => year366 mean y (l.take (yearLen y)) ++ days366 mean (y + 1) n (l.drop (yearLen y))

/-- the days of the calendar year `y` among 366 days: in ordinary years there is no 29 February -/
def yearDays {α : Type} (y : Int) (c : List α) : List α := if Leap y then c else c.take 59 ++ c.drop 60

/-- the days of `n` calendar years from `y` on, from years of 366 days -/
def calendarDays {α : Type} : Int → Nat → List α → List α
  | _, 0, _ => []
  | y, n + 1, l => yearDays y (l.take 366) ++ calendarDays (y + 1) n (l.drop 366)

/-- the mean of two values, if both are there -/
def optMean {K : Type} [Add K] [Div K] [OfNat K 2] (a b : Option K) : Option K :=
  match a, b with
  | some a, some b => some ((a + b) / 2)
  | _, _ => none

end CI.Spec
