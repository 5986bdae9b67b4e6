import Verif.Base.Float
import Verif.Base.Py
import Verif.Model.Calendar

/-!
# Model of `src/climate_indices/utils.py`
-/

namespace CI

/-- Loop body and loop of `compute_days` (utils.py:60-68), from time step `i` on, for `n` more steps.
`int((i + initial_month - 1) / 12)`: float division and truncation, exact for all month counts below
2^53, modelled as truncated integer division; `%` is Python's floored modulus. -/
def computeDaysLoop (initialYear initialMonth start : Int) : Nat → Nat → Res (List Int)
  | _, 0 => .ok []
  | i, n + 1 => do
    let years := Int.tdiv ((i : Int) + initialMonth - 1) 12
    let months := Int.emod ((i : Int) + initialMonth - 1) 12
    let cur ← mkDate (initialYear + years) (1 + months).toNat 1
    let rest ← computeDaysLoop initialYear initialMonth start (i + 1) n
    pure ((cur - start) :: rest)

/-- `compute_days` (utils.py:26-70). `total_months` is a `Nat` (a negative value raises in `np.empty`). -/
def computeDays (initialYear : Int) (totalMonths : Nat) (initialMonth unitsStartYear : Int) :
    Res (List Int) := do
  let start ← mkDate unitsStartYear 1 1
  computeDaysLoop initialYear initialMonth start 0 totalMonths

section
variable {F : Type} [FloatOps F]

/-- `count_zeros_and_non_missings` (utils.py:73-92): `values.size - np.count_nonzero(values)` (NaN counts
as nonzero) and `np.count_nonzero(~np.isnan(values))`. -/
def countZerosAndNonMissings (values : List F) : Nat × Nat :=
  let zeros := values.length - values.countP (fun x => !feq x (lit 0))
  let nonMissings := values.countP (fun x => !isNan x)
  (zeros, nonMissings)

/-- `is_data_valid` (utils.py:151-176) for an `ndarray`: not all NaN. (`np.all` of an empty array is True.)
The masked-array and non-array branches are not modelled. -/
def isDataValid (values : List F) : Bool := !(values.all isNan)

/-- `np.sign` on floats: NaN for NaN. -/
def npSign (x : F) : F :=
  if isNan x then nan
  else if flt x (lit 0) then lit (-1)
  else if flt (lit 0) x then lit 1
  else lit 0

/-- `sign_change` (utils.py:122-148). `!=` on floats is true if either operand is NaN. -/
def signChange (a b : Arr F) : Res (Arr Bool) :=
  if a.data.length ≠ b.data.length then .error .valueError
  else
    let signA := a.data.map npSign
    let signB := b.data.map npSign
    let changes := List.zipWith (fun x y => !feq x y) signA signB
    .ok ⟨a.shape, changes⟩

/-- `reshape_to_2d` (utils.py:193-236). `second_axis_length` 0 raises ZeroDivisionError in `%` for 1-D input. -/
def reshapeTo2d (values : Arr F) (k : Nat) : Res (Arr F) :=
  match values.shape with
  | [_, c] => if c = k then .ok values else .error .valueError
  | [n] =>
    if k = 0 then .error .zeroDivisionError
    else
      let finalYearValues := n % k
      let padded :=
        if finalYearValues > 0 then values.data ++ List.replicate (k - finalYearValues) nan
        else values.data
      let firstAxisLength := padded.length / k
      .ok ⟨[firstAxisLength, k], padded⟩
  | _ => .error .valueError

/-- `reshape_to_divs_years_months` (utils.py:239-281). `np.reshape` keeps the C-order data. -/
def reshapeToDivsYearsMonths (a : Arr F) : Res (Arr F) :=
  match a.shape with
  | [_, _, m] => if m = 12 then .ok a else .error .valueError
  | [d, m] =>
    if m ≠ 12 then .error .valueError
    else
      let totalYears := m / 12
      if d * (totalYears * 12) = a.data.length then .ok ⟨[d, totalYears, 12], a.data⟩
      else .error .valueError
  | _ => .error .valueError

/-- number of days in a year as used in utils.py:292-295 and implied at 362, 402 -/
def daysInYear (year : Int) : Nat := if isLeap year then 366 else 365

theorem daysInYear_pos (y : Int) : 0 < daysInYear y := by unfold daysInYear; split <;> omega

/-- The `while remaining > 0` loop of `gregorian_length_as_366day` (utils.py:291-303). `remaining` is
a `Nat`: the loop ends as soon as it would be zero or negative, truncated subtraction is enough. -/
def gregorianLengthLoop (year : Int) (remaining length366 : Nat) : Nat :=
  if _h : remaining > 0 then
    let days := daysInYear year
    let length366' := if remaining ≥ days then length366 + 366 else length366 + remaining
    gregorianLengthLoop (year + 1) (remaining - days) length366'
  else length366
termination_by remaining
decreasing_by have := daysInYear_pos year; omega

/-- `gregorian_length_as_366day` (utils.py:284-305). -/
def gregorianLengthAs366day (lengthGregorian : Nat) (yearStart : Int) : Nat :=
  gregorianLengthLoop yearStart lengthGregorian 0

/-- The year loop of `transform_to_366day` (utils.py:354-404): `n` remaining years. -/
def to366Loop (original : List F) :
    (n : Nat) → (year : Int) → (allLeap : List F) → (oi ai : Nat) → Res (List F)
  | 0, _, allLeap, _, _ => .ok allLeap
  | n + 1, year, allLeap, oi, ai => do
    if isLeap year then
      let al ← setSlice allLeap ai (ai + 366) (slice original oi (oi + 366))
      to366Loop original n (year + 1) al (oi + 366) (ai + 366)
    else
      let al ← setSlice allLeap ai (ai + 59) (slice original oi (oi + 59))
      let feb28 ← getIdx original (oi + 58)
      let mar1 ← getIdx original (oi + 59)
      let al ← setIdx al (ai + 59) ((feb28 + mar1) / lit 2)
      let yearEnd := oi + 365
      if original.length < yearEnd then
        let remainder := original.drop (oi + 59)
        let space := (al.drop (ai + 60)).length
        if space < remainder.length then .error .valueError
        else
          let finalDays := remainder ++ List.replicate (space - remainder.length) nan
          let al ← setSlice al (ai + 60) al.length finalDays
          to366Loop original n (year + 1) al oi ai
      else
        let al ← setSlice al (ai + 60) (ai + 366) (slice original (oi + 59) yearEnd)
        to366Loop original n (year + 1) al (oi + 365) (ai + 366)

/-- `transform_to_366day` (utils.py:308-406). `total_years` is a `Nat` (a negative one raises in `np.full`).
A 0-dimensional array is not modelled. -/
def transformTo366day (original : Arr F) (yearStart : Int) (totalYears : Nat) : Res (List F) :=
  if original.shape.length > 1 then .error .valueError
  else to366Loop original.data totalYears yearStart (List.replicate (totalYears * 366) nan) 0 0

/-- The year loop of `transform_to_gregorian` (utils.py:467-492). -/
def toGregLoop (original : List F) :
    (n : Nat) → (year : Int) → (greg : List F) → (oi gi : Nat) → Res (List F)
  | 0, _, greg, _, _ => .ok greg
  | n + 1, year, greg, oi, gi => do
    if isLeap year then
      let g ← setSlice greg gi (gi + 366) (slice original oi (oi + 366))
      toGregLoop original n (year + 1) g (oi + 366) (gi + 366)
    else
      let g ← setSlice greg gi (gi + 59) (slice original oi (oi + 59))
      let g ← setSlice g (gi + 59) (gi + 365) (slice original (oi + 60) (oi + 366))
      toGregLoop original n (year + 1) g (oi + 366) (gi + 365)

/-- `transform_to_gregorian` (utils.py:409-494). `np.full` with a negative size raises ValueError
(not reachable: `days_actual >= 0`). -/
def transformToGregorian (original : Arr F) (yearStart : Int) : Res (List F) := do
  if original.shape.length > 1 then .error .valueError
  else if original.data.length % 366 ≠ 0 then .error .valueError
  else
    let totalYears := original.data.length / 366
    let yearEnd := yearStart + totalYears - 1
    let last ← mkDate yearEnd 12 31
    let first ← mkDate yearStart 1 1
    let daysActual := last - first + 1
    if daysActual < 0 then .error .valueError
    else
      let greg := List.replicate daysActual.toNat nan
      toGregLoop original.data totalYears yearStart greg 0 0

end
end CI
