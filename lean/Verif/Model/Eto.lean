import Verif.Model.Compute
import Verif.Model.Calendar
import Verif.Model.PalmerSpell

/-!
# Model of `src/climate_indices/eto.py` and of `pet` (indices.py:459-511)

The trigonometric functions and the power function are parameters (`Trig`). `math.radians(x)` and `np.deg2rad(x)` are
`x * (pi / 180)`. `math.acos` is called with a clamped argument only, so its domain error is not modelled; nor is the domain error of
`math.sin`/`math.tan` for infinite arguments (latitudes are finite after the range check).
-/

namespace CI

/-- functions of Python's `math` and numpy -/
structure Trig (F : Type) where
  sin : F → F
  cos : F → F
  tan : F → F
  acos : F → F
  /-- numpy power `x ** y` -/
  pow : F → F → F
  /-- `math.pi` -/
  pi : F

section
variable {F : Type} [FloatOps F]

/-- `math.radians`, `np.deg2rad` -/
def radians (T : Trig F) (deg : F) : F := deg * (T.pi / lit 180)

/-- `_sunset_hour_angle` (eto.py:57-102) with the limits of eto.py:47-54 -/
def sunsetHourAngle (T : Trig F) (lat dec : F) : Res F :=
  if !(fle (radians T (lit (-90))) lat && fle lat (radians T (lit 90))) then .error .valueError
  else if !(fle (radians T (lit (-23.45))) dec && fle dec (radians T (lit 23.45))) then .error .valueError
  else
    let c := (-(T.tan lat)) * T.tan dec
    .ok (T.acos (pyMin (pyMax c (lit (-1))) (lit 1)))

/-- `_solar_declination` (eto.py:105-122) -/
def solarDeclination (T : Trig F) (doy : Nat) : Res F :=
  if !(1 ≤ doy && doy ≤ 366) then .error .valueError
  else .ok (lit 0.409 * T.sin (((lit 2 * T.pi / lit 365) * lit doy) - lit 1.39))

/-- `_daylight_hours` (eto.py:125-152) -/
def daylightHours (T : Trig F) (w : F) : Res F :=
  if !(fle (lit 0) w && fle w T.pi) then .error .valueError
  else .ok ((lit 24 / T.pi) * w)

/-- `_MONTH_DAYS_NONLEAP`, `_MONTH_DAYS_LEAP` (eto.py:39-40) -/
def monthDays (leap : Bool) : List Nat :=
  [31, if leap then 29 else 28, 31, 30, 31, 30, 31, 31, 30, 31, 30, 31]

/-- the inner loop over the `days` days of a month (eto.py:183-188), `doy` being the day of the year of the first -/
def sumDaylight (T : Trig F) (lat : F) : Nat → Nat → F → Res F
  | 0, _, acc => .ok acc
  | days + 1, doy, acc => do
    let dec ← solarDeclination T doy
    let w ← sunsetHourAngle T lat dec
    let h ← daylightHours T w
    sumDaylight T lat days (doy + 1) (acc + h)

/-- the loop over the months (eto.py:181-191) -/
def meanDaylightLoop (T : Trig F) (lat : F) : List Nat → Nat → Res (List F)
  | [], _ => .ok []
  | days :: rest, doy => do
    let s ← sumDaylight T lat days doy (lit 0)
    let tail ← meanDaylightLoop T lat rest (doy + days)
    pure (s / lit days :: tail)

/-- `_monthly_mean_daylight_hours` (eto.py:155-193) -/
def monthlyMeanDaylight (T : Trig F) (lat : F) (leap : Bool) : Res (List F) :=
  meanDaylightLoop T lat (monthDays leap) 1

/-- the negative temperatures set to zero (eto.py:246) -/
def zeroNegative (x : F) : F := if flt x (lit 0) then lit 0 else x

/-- the heat index of twelve calendar-month means (eto.py:250-253) -/
def heatIndex (T : Trig F) (data : List F) : F :=
  fsum ((List.range 12).map (fun j => T.pow (nanmean (stride 12 j data) / lit 5) (lit 1.514)))

/-- the exponent (eto.py:256) -/
def thornExponent (T : Trig F) (i : F) : F :=
  (lit 6.75e-07 * T.pow i (lit 3)) - (lit 7.71e-05 * T.pow i (lit 2)) + (lit 1.792e-02 * i) + lit 0.49239

/-- one month of the Thornthwaite equation (eto.py:273-278) -/
def thornMonth (T : Trig F) (i a dl days t : F) : F :=
  lit 16 * (dl / lit 12) * (days / lit 30) * T.pow (lit 10 * t / i) a

/-- value at position `k` of the years by months array: year `k / 12`, month `k % 12` (eto.py:264-278) -/
def thornAt (T : Trig F) (i a : F) (dlN dlL : List F) (startYear : Int) (k : Nat) (t : F) : F :=
  let leap := isLeap (startYear + ((k / 12 : Nat) : Int))
  let dl := (if leap then dlL else dlN).getD (k % 12) nan
  thornMonth T i a dl (lit ((monthDays leap).getD (k % 12) 0)) t

/-- `eto_thornthwaite` (eto.py:196-282), value level (the in-place write to the caller's array is in `Model/Alias`) -/
def etoThornthwaite (T : Trig F) (temps : Arr F) (latDeg : F) (startYear : Int) : Res (List F) := do
  let t2 ← reshapeTo2d temps 12
  let lat := radians T latDeg
  let data := t2.data.map zeroNegative
  let i := heatIndex T data
  let a := thornExponent T i
  let dlN ← monthlyMeanDaylight T lat false
  let dlL ← monthlyMeanDaylight T lat true
  pure ((data.zipIdx.map (fun q => thornAt T i a dlN dlL startYear q.2 q.1)).take temps.data.length)

/-- `pet` (indices.py:459-511). `lat = none` is Python's `None`; for an array of latitudes the first one is passed here (indices.py:493-494). -/
def pet (T : Trig F) (temps : Arr F) (lat : Option F) (startYear : Int) : Res (List F) :=
  if allNan temps.data then .ok temps.data
  else
    match lat with
    | none => .error .valueError
    | some x =>
      if !isNan x && (flt (lit (-90)) x && flt x (lit 90)) then etoThornthwaite T temps x startYear
      else .error .valueError

/-! ## Hargreaves -/

/-- `a[i, j]` of numpy with non-negative indices: IndexError for too few dimensions or out of range. For three or more dimensions the code would
get a sub-array; this is not reached with the shapes the function documents and is an error here. -/
def get2 (a : Arr F) (i j : Nat) : Res F :=
  match a.shape with
  | [n, c] => if i < n ∧ j < c then getIdx a.data (i * c + j) else .error .indexError
  | _ => .error .indexError

/-- truth value of `x != y` for an integer `n` and an array (eto.py:316): ValueError ("ambiguous") for more than one element; an empty
array is false (numpy before 2.2). -/
def sizeNeArray (n : Nat) (a : Arr F) : Res Bool :=
  match a.data with
  | [] => .ok false
  | [x] => .ok (!feq (lit n) x)
  | _ => .error .valueError

/-- truth value of `x != y` for two arrays where `a` has one element: broadcasting gives the shape of `b` -/
def oneNeArray (x : F) (b : Arr F) : Res Bool :=
  match b.data with
  | [] => .ok false
  | [y] => .ok (!feq x y)
  | _ => .error .valueError

/-- the comparison chain `tmin.size != tmax != tmean` (eto.py:316): `(tmin.size != tmax) and (tmax != tmean)` -/
def hargreavesSizeTest (tmin tmax tmean : Arr F) : Res Bool := do
  let b ← sizeNeArray tmin.data.length tmax
  if !b then .ok false
  else
    match tmax.data with
    | x :: _ => oneNeArray x tmean
    | [] => .ok false

/-- extraterrestrial radiation of a day (eto.py:336-350) -/
def etRadiation (T : Trig F) (lat : F) (doy : Nat) : Res F := do
  let dec ← solarDeclination T doy
  let w ← sunsetHourAngle T lat dec
  let dist := lit 1 + (lit 0.033 * T.cos ((lit 2 * T.pi / lit 365) * lit doy))
  let tmp1 := (lit 24 * lit 60) / T.pi
  let tmp2 := w * T.sin lat * T.sin dec
  let tmp3 := T.cos lat * T.cos dec * T.sin w
  pure (tmp1 * lit 0.0820 * dist * (tmp2 + tmp3))

/-- the Hargreaves equation (eto.py:354-357) -/
def hargreavesDay (T : Trig F) (ra tmin tmax tmean : F) : F :=
  lit 0.0023 * (tmean + lit 17.8) * T.pow (tmax - tmin) (lit 0.5) * lit 0.408 * ra

/-- one cell of the inner loop (eto.py:353-357) -/
def hargreavesCell (T : Trig F) (ra : F) (tmin tmax tmean : Arr F) (y d : Nat) : Res F := do
  let a ← get2 tmin y d
  let b ← get2 tmax y d
  let c ← get2 tmean y d
  pure (hargreavesDay T ra a b c)

/-- the double loop (eto.py:330-357); the columns are visited in order, each for all years. Returns the columns. -/
def hargreavesLoop (T : Trig F) (lat : F) (years : Nat) (tmin tmax tmean : Arr F) : List Nat → Res (List (List F))
  | [] => .ok []
  | doy :: rest => do
    let ra ← etRadiation T lat doy
    let col ← (List.range years).mapM (fun y => hargreavesCell T ra tmin tmax tmean y (doy - 1))
    let tail ← hargreavesLoop T lat years tmin tmax tmean rest
    pure (col :: tail)

/-- the C-order data of an array given by its columns -/
def fromColumns (years : Nat) (cols : List (List F)) : List F :=
  (List.range years).flatMap (fun y => cols.map (fun c => c.getD y nan))

/-- the body of `eto_hargreaves` after the size test (eto.py:321-360) -/
def hargreavesBody (T : Trig F) (tmin tmax tmean : Arr F) (latDeg : F) : Res (List F) := do
  let m2 ← reshapeTo2d tmean 366
  match m2.shape with
  | [years, days] => do
    let cols ← hargreavesLoop T (radians T latDeg) years tmin tmax m2 ((List.range days).map (· + 1))
    pure ((fromColumns years cols).take tmean.data.length)
  | _ => .error .valueError  -- not reachable

/-- `eto_hargreaves` (eto.py:291-360) -/
def etoHargreaves (T : Trig F) (tmin tmax tmean : Arr F) (latDeg : F) : Res (List F) := do
  let b ← hargreavesSizeTest tmin tmax tmean
  if b then .error .valueError
  else hargreavesBody T tmin tmax tmean latDeg

end
end CI
