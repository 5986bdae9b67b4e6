import Verif.Spec.Cli

/-!
# Specification of the inputs and outputs of the SPI tool
-/

namespace CI.Spec

/-- fitting parameters of both distributions -/
def fitParameters : List String := ["alpha", "beta", "skew", "loc", "scale", "prob_zero"]

/-- the precipitation input of a run of the SPI tool: variable `x` of the data set `d`, a grid (lat, lon, time) of `A` × `B` places with `N` time steps and its coordinates. The
variable has none of the reserved names. -/
structure SpiInput {F : Type} (fs : Files F) (a : SpiArgs) (d : NcFile F) (x t lat lon : NcVar F) (A B N : Nat) : Prop where
  file : ∃ f, a.netcdfPrecip = some f ∧ fs f = some d
  var : ∃ v, a.varNamePrecip = some v ∧ List.lookup v d = some x ∧ v ∉ ["time", "lat", "lon", "result_array"] ∧ ∀ p ∈ fitParameters, ∀ s daily, v ≠ fittingName p s daily
  grid : x.dims = ["lat", "lon", "time"] ∧ x.shape = [A, B, N] ∧ x.data.length = A * (B * N)
  time : List.lookup "time" d = some t ∧ t.dims = ["time"] ∧ t.data.length = N
  lat : List.lookup "lat" d = some lat ∧ lat.dims = ["lat"] ∧ lat.data.length = A
  lon : List.lookup "lon" d = some lon ∧ lon.dims = ["lon"] ∧ lon.data.length = B

/-- the documented variable of a scale and distribution, e.g. `spi_gamma_3_month` -/
def spiName (dist : Distribution) (scale : Int) (daily : Bool) : String := "spi_" ++ distName dist ++ "_" ++ toString scale ++ "_" ++ if daily then "day" else "month"

/-- the file of a scale and distribution is there, with the coordinates of the input and the variable on `A` × `B` places with `N` time steps, whose values at every place are
those of `expected` -/
def SpiHolds {F : Type} (fs : Files F) (base : String) (dist : Distribution) (scale : Int) (daily : Bool) (t lat lon : NcVar F) (A B N : Nat) (expected : Nat → Nat → Res (List F)) : Prop :=
  ∃ file y, fs (fileName base (spiName dist scale daily)) = some file ∧ List.lookup "lat" file = some lat ∧ List.lookup "lon" file = some lon ∧ List.lookup "time" file = some t ∧
    List.lookup (spiName dist scale daily) file = some y ∧ y.dims = ["lat", "lon", "time"] ∧ y.shape = [A, B, N] ∧
    y.data.length = A * (B * N) ∧ ∀ i < A, ∀ k < B, expected i k = .ok (seriesAt B N i k y.data)

/-- names of the parameters of a distribution -/
def parameterNames : Distribution → List String
  | .gamma => ["alpha", "beta"]
  | .pearson => ["prob_zero", "loc", "scale", "skew"]
  | .other => []

/-- the parameters for place (`i`, `k`) in a data set of parameters on `b` columns with `p` calendar steps -/
def parametersAt {F : Type} (g : NcFile F) (dist : Distribution) (scale : Int) (daily : Bool) (b p i k : Nat) : FitDict F :=
  (parameterNames dist).map (fun v => (v, (List.lookup (fittingName v scale daily) g).map (fun y => seriesAt b p i k y.data)))

/-- a data set of parameters: coordinates, and variables with documented names, none of them twice; the parameters of all `scales` are there, on `A` × `B` places with `p`
calendar steps -/
structure ParameterFile {F : Type} (g : NcFile F) (daily : Bool) (scales : List Int) (A B p : Nat) : Prop where
  entries : ∀ q ∈ g, q.2.dims = [q.1] ∨ ∃ s, ∃ v ∈ fitParameters, q.1 = fittingName v s daily
  once : (g.map Prod.fst).Nodup
  found : ∀ s ∈ scales, ∀ v ∈ fitParameters, ∃ y, List.lookup (fittingName v s daily) g = some y ∧ y.dims ≠ [fittingName v s daily] ∧ y.shape = [A, B, p]

end CI.Spec
