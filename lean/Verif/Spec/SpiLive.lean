import Verif.Spec.Calendar
import Verif.Spec.SpiTool
import Verif.Model.SpiTool

/-!
# Specification of a usable input of the SPI tool
-/

namespace CI.Spec

/-- a run of the SPI tool in a new process on a grid of precipitation with at least one place: the latitudes and longitudes have units, there are no other coordinates than these and
the time, and the units of the precipitation are known (`mm` are the values in millimetres, `y0` is the first year) -/
structure SpiSource {F : Type} [FloatOps F] (lower : String → String) (yearOf : F → Int) (a : SpiArgs) (w : World F) (d : NcFile F) (x t lat lon : NcVar F) (A B N : Nat) (mm : List F) (y0 : Int) :
    Prop where
  input : SpiInput w.files a d x t lat lon A B N
  places : 0 < A ∧ 0 < B
  coords : ∀ p ∈ d, p.2.dims = [p.1] → p.1 ∈ ["lat", "lon", "time"]
  coordUnits : lat.units ≠ none ∧ lon.units ≠ none
  units : ∃ u, x.units = some u ∧ convertPrecip (lower u) x.data = .ok mm
  first : ∃ t0, t.data.head? = some t0 ∧ yearOf t0 = y0
  fresh : w.shared = fun _ => none

/-- such a run that does not load parameters; a file of parameters to be saved may be written -/
structure SpiUsable {F : Type} [FloatOps F] (lower : String → String) (yearOf : F → Int) (a : SpiArgs) (w : World F) (d : NcFile F) (x t lat lon : NcVar F) (A B N : Nat) (mm : List F) (y0 : Int) :
    Prop extends SpiSource lower yearOf a w d x t lat lon A B N mm y0 where
  load : a.loadParams = none
  save : ∀ f, a.saveParams = some f → w.files f = none ∨ a.overwrite = true

/-- such a run on monthly values -/
structure SpiReady {F : Type} [FloatOps F] (lower : String → String) (yearOf : F → Int) (a : SpiArgs) (w : World F) (d : NcFile F) (x t lat lon : NcVar F) (A B N : Nat) (mm : List F) (y0 : Int) :
    Prop extends SpiUsable lower yearOf a w d x t lat lon A B N mm y0 where
  monthly : a.periodicity = .monthly

/-- the times are the days of the `Y` whole years from `y0` on -/
structure WholeYears {F : Type} (yearOf : F → Int) (a : SpiArgs) (t : NcVar F) (N : Nat) (y0 : Int) (Y : Nat) : Prop where
  daily : a.periodicity = .daily
  last : ∃ t1, t.data.getLast? = some t1 ∧ yearOf t1 = y0 + Y - 1
  years : 1 ≤ Y
  whole : N = yearsLen y0 Y
  dates : 1 ≤ y0 ∧ y0 + Y - 1 ≤ 9999

/-- such a run on the days of the `Y` whole years from `y0` on -/
structure SpiDays {F : Type} [FloatOps F] (lower : String → String) (yearOf : F → Int) (a : SpiArgs) (w : World F) (d : NcFile F) (x t lat lon : NcVar F) (A B N : Nat) (mm : List F) (y0 : Int)
    (Y : Nat) : Prop extends SpiUsable lower yearOf a w d x t lat lon A B N mm y0, WholeYears yearOf a t N y0 Y

/-- a run on monthly values, or on the days of whole years, that loads the parameters `g` of all its `scales`: they are on the dimensions and places of the precipitation, with one
value for every calendar step, and complete -/
structure SpiLoads {F : Type} [FloatOps F] (lower : String → String) (yearOf : F → Int) (a : SpiArgs) (w : World F) (d : NcFile F) (x t lat lon : NcVar F) (A B N : Nat) (mm : List F) (y0 : Int)
    (scales : List Int) (g : NcFile F) : Prop extends SpiSource lower yearOf a w d x t lat lon A B N mm y0 where
  calendar : a.periodicity = .monthly ∨ ∃ Y, WholeYears yearOf a t N y0 Y
  load : ∃ f, a.loadParams = some f ∧ w.files f = some g
  save : a.saveParams = none
  parameters : ParameterFile g (decide (a.periodicity = .daily)) scales A B (if a.periodicity = .daily then 366 else 12)
  dimensions : ∀ q ∈ g, q.2.dims = [q.1] ∨ q.2.dims = ["lat", "lon", if a.periodicity = .daily then "day" else "month"]
  complete : ∀ s ∈ scales, ∀ v ∈ fitParameters, ∀ y, List.lookup (fittingName v s (decide (a.periodicity = .daily))) g = some y →
    y.data.length = A * (B * if a.periodicity = .daily then 366 else 12)

end CI.Spec
