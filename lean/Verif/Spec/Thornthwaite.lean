import Verif.Spec.TrigReal
import Verif.Spec.Calendar

/-!
# Specification: Thornthwaite's equation (1948) on real numbers

A temperature record is a list of months, each missing (`none`) or a real number, beginning in January. Written independently of the model.
-/

namespace CI.Spec

/-- the temperatures of calendar month `j`, negative ones counted as 0, missing ones left out -/
def monthValues (t : List (Option ℝ)) (j : ℕ) : List ℝ := (List.range t.length).filterMap (fun y => (t[y * 12 + j]?).join.map (max · 0))

/-- arithmetic mean -/
noncomputable def mean (l : List ℝ) : ℝ := l.sum / l.length

/-- the heat index: the sum over the twelve calendar months of (T / 5)^1.514 -/
noncomputable def heat (t : List (Option ℝ)) : ℝ := ((List.range 12).map (fun j => (mean (monthValues t j) / 5) ^ (1.514 : ℝ))).sum

/-- Thornthwaite's exponent -/
noncomputable def expo (i : ℝ) : ℝ := 6.75e-7 * i ^ 3 - 7.71e-5 * i ^ 2 + 1.792e-2 * i + 0.49239

/-- number of days of month `m` of year `y` -/
def mdays (y : ℤ) (m : ℕ) : ℕ := (monthLen y m).toNat

/-- day of the year of the first day of month `m` -/
def firstDay (y : ℤ) (m : ℕ) : ℕ := 1 + ((List.range m).map (mdays y)).sum

/-- Thornthwaite's potential evapotranspiration of the month number `k` of a record starting in January of year `y`: 16 (L/12) (N/30) (10 T / I)^a -/
noncomputable def thornthwaite (t : List (Option ℝ)) (φ : ℝ) (y : ℤ) (k : ℕ) (temp : ℝ) : ℝ :=
  16 * (meanHours φ (mdays (y + (k / 12 : ℕ)) (k % 12)) (firstDay (y + (k / 12 : ℕ)) (k % 12)) / 12) *
    ((mdays (y + (k / 12 : ℕ)) (k % 12) : ℝ) / 30) * (10 * max temp 0 / heat t) ^ expo (heat t)

/-- a missing value is NaN -/
def toFl : Option ℝ → Fl ℝ
  | none => .nan
  | some a => .fin a

end CI.Spec
