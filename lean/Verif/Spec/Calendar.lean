import Mathlib.Data.Int.Init
import Mathlib.Tactic.Common

/-!
# Specification: the Gregorian calendar, written without the code's arithmetic

Years are leap years iff divisible by 4 but not by 100 unless by 400; lengths of years and
offsets of years are plain sums; months are the usual table.
-/

namespace CI.Spec

/-- leap years of the (proleptic) Gregorian calendar -/
def Leap (y : Int) : Prop := (4 ∣ y ∧ ¬ 100 ∣ y) ∨ 400 ∣ y

instance (y : Int) : Decidable (Leap y) := by unfold Leap; infer_instance

/-- length of a year in days -/
def yearLen (y : Int) : Nat := if Leap y then 366 else 365

/-- number of days in the `k` years `y, y+1, ..., y+k-1` -/
def yearsLen (y : Int) : Nat → Nat
  | 0 => 0
  | k + 1 => yearsLen y k + yearLen (y + k)

/-- position of day `d` (0-based day of the real year `y`) among the 366 days of a leap year:
in ordinary years the days from March 1 on (day 59) are one slot further. -/
def slot (y : Int) (d : Nat) : Nat := if Leap y ∨ d < 59 then d else d + 1

/-- lengths of the months 0..11 of a year -/
def monthLen (y : Int) (m : Nat) : Int :=
  if m = 1 then (if Leap y then 29 else 28)
  else if m = 3 ∨ m = 5 ∨ m = 8 ∨ m = 10 then 30 else 31

/-- the values `p` in years of 366 days are, day by day, the values `l` of the `n` Gregorian years from `y` on -/
def SameDays {F : Type} (y : Int) (n : Nat) (l p : List F) : Prop :=
  l.length = yearsLen y n ∧ p.length = 366 * n ∧ ∀ k d, k < n → d < yearLen (y + k) → p[366 * k + slot (y + k) d]? = l[yearsLen y k + d]?

end CI.Spec
