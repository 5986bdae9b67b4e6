import Verif.Props.Daily
import Verif.Props.SpiTool

/-!
# C68–C73: runs of the SPI tool on a concrete data set, and runs that never complete
-/

namespace CI.Props
open CI Spec

/-! ## A data set -/

/-- times in months from January 2000 on -/
def rainYear : Q → Int
  | .fin t => 2000 + (t / 12).floor
  | _ => 0

/-- two years of precipitation at two places, with zeros -/
def rainVar : NcVar Q := ⟨["lat", "lon", "time"], [1, 2, 24], some "mm", (List.range 48).map (fun i => .fin ((i * i % 7 : ℕ) : ℚ))⟩

def rainTime : NcVar Q := ⟨["time"], [24], none, (List.range 24).map (fun (i : ℕ) => .fin (i : ℚ))⟩
def rainLat : NcVar Q := ⟨["lat"], [1], some "degrees_north", [.fin 40]⟩
def rainLon : NcVar Q := ⟨["lon"], [2], some "degrees_east", [.fin 0, .fin 1]⟩

def rainData : NcFile Q := [("prcp", rainVar), ("lat", rainLat), ("lon", rainLon), ("time", rainTime)]

def rainWorld : World Q := ⟨fun f => if f = "p.nc" then some rainData else none, fun _ => none, []⟩

/-- a run with two workers and calibration years 2000 to 2001 -/
def rainRun (base : String) (scales : List Int) (save load : Option String) (w : World Q) : Res Unit × World Q :=
  spiMain toyExt rainYear id 2000 2001 base 2 (spiArgs scales save load) w

/-- the values of a variable -/
def outOf (w : World Q) (f v : String) : List Q := (((w.files f).bind (List.lookup v)).map NcVar.data).getD []

theorem rain_ne_fitting (p : String) (hp : p ∈ fitParameters) (s : Int) (daily : Bool) : "prcp" ≠ fittingName p s daily := by
  intro h
  have h := congrArg String.toList h
  simp only [fitParameters, List.mem_cons, List.not_mem_nil, or_false] at hp
  rcases hp with rfl | rfl | rfl | rfl | rfl | rfl <;> simp [fittingName, String.toList_append] at h

theorem rain_input (scales : List Int) (save load : Option String) : SpiInput rainWorld.files (spiArgs scales save load) rainData rainVar rainTime rainLat rainLon 1 2 24 where
  file := ⟨"p.nc", rfl, rfl⟩
  var := ⟨"prcp", rfl, rfl, by simp, rain_ne_fitting⟩
  grid := ⟨rfl, rfl, by simp [rainVar]⟩
  time := ⟨rfl, rfl, by simp [rainTime]⟩
  lat := ⟨rfl, rfl, rfl⟩
  lon := ⟨rfl, rfl, rfl⟩

theorem run_eq {x : Res Unit × World Q} (h : x.1 = .ok ()) : x = (.ok (), x.2) := by rw [← h]

/-- the state after a run for scales 1 and 3 that saves its parameters -/
def rainAfter : World Q := (rainRun "out" [1, 3] (some "fit.nc") none rainWorld).2

theorem rain_runs : rainRun "out" [1, 3] (some "fit.nc") none rainWorld = (.ok (), rainAfter) := run_eq (by decide +kernel)

/-- the precipitation of the first place -/
def rainSeries : List Q := seriesAt 2 24 0 0 rainVar.data

/-! ## C68 -/

/-- The run meets the hypotheses of `C68_monthly_partial`; scale 3 comes after scale 1. -/
example := C68_monthly_partial toyExt toyExt_nan rainYear id 2000 2001 "out" 2 (spiArgs [1, 3] (some "fit.nc") none) rainWorld rainAfter rfl rfl rfl rain_runs (rain_input _ _ _)
  (t0 := .fin 0) rfl (pre := [1]) (s := 3) (post := []) rfl (by simp) .pearson (.inr rfl) (by decide)

/-- **C68 is false.** A finished run on a grid of monthly precipitation in millimetres: the output for the gamma distribution and scale 1 differs, at the first place and the third
month, from the SPI of the precipitation of this place. -/
theorem C68_fails : ∃ (w' : World Q) (l out : List Q), rainRun "out" [1, 3] (some "fit.nc") none rainWorld = (.ok (), w') ∧
    spi toyExt (Arr.of1d rainSeries) 1 .gamma 2000 2000 2001 .monthly none = .ok l ∧ outOf w' "out_spi_gamma_1_month.nc" "spi_gamma_1_month" = out ∧
    l[2]? = some (.fin (309 / 100)) ∧ out[2]? = some (.fin (12 / 5)) := by
  refine ⟨_, (match spi toyExt (Arr.of1d rainSeries) 1 .gamma 2000 2000 2001 .monthly none with | .ok l => l | .error _ => []), _, rain_runs, ?_, rfl, ?_, ?_⟩
  · decide +kernel
  · decide +kernel
  · decide +kernel

/-- **C68 is false, scales.** The values for scale 3 depend on whether scale 1 is also requested. -/
theorem C68_scales_fails : (rainRun "out" [3] none none rainWorld).1 = .ok () ∧
    (outOf (rainRun "out" [3] none none rainWorld).2 "out_spi_gamma_3_month.nc" "spi_gamma_3_month")[2]? = some (.fin (8 / 3)) ∧
    (outOf rainAfter "out_spi_gamma_3_month.nc" "spi_gamma_3_month")[2]? = some .nan := by
  refine ⟨?_, ?_, ?_⟩ <;> decide +kernel

/-! ## C69 -/

/-- the same arguments in a new process, parameters loaded -/
def rainLoaded : World Q := (rainRun "again" [1, 3] none (some "fit.nc") { rainAfter with shared := fun _ => none }).2

theorem rain_loads : rainRun "again" [1, 3] none (some "fit.nc") { rainAfter with shared := fun _ => none } = (.ok (), rainLoaded) := run_eq (by decide +kernel)

theorem fileName_ne {f base v : String} (h : f.toList.head? ≠ base.toList.head?) (hb : base ≠ "") : f ≠ fileName base v := by
  rintro rfl
  apply h
  have : base.toList ≠ [] := by
    intro hc
    exact hb (String.toList_inj.1 (by rw [hc]; rfl))
  obtain ⟨c, l, hl⟩ := List.exists_cons_of_ne_nil this
  simp [fileName, String.toList_append, hl]

/-- The runs meet the hypotheses of `C69_partial`. -/
example := C69_partial toyExt toyExt_nan rainYear id 2000 2001 "out" "again" 2 2 (spiArgs [1, 3] (some "fit.nc") none) rainWorld rainAfter rainLoaded rfl rfl rfl rain_runs rain_loads
  (rain_input _ _ _) (by decide) (by decide) (t0 := .fin 0) (t1 := .fin 23) rfl (by decide +kernel) (pre := [1]) (s := 3) (post := []) rfl (by simp)
  (by rintro f hf; cases hf; exact ⟨by decide, fun s dist => fileName_ne (by decide) (by decide)⟩) (fun s dist => fileName_ne (by decide) (by decide)) .gamma (.inl rfl)

/-- **C69 is false.** A run saves its parameters, and a run with the same arguments loads them; for gamma and scale 1 the values differ. -/
theorem C69_fails : (outOf rainAfter "out_spi_gamma_1_month.nc" "spi_gamma_1_month")[2]? = some (.fin (12 / 5)) ∧
    (outOf rainLoaded "again_spi_gamma_1_month.nc" "spi_gamma_1_month")[2]? = some (.fin (309 / 100)) := by
  constructor <;> decide +kernel

/-! ## C73 -/

/-- The run meets the hypotheses of `C73_partial`. -/
example := C73_partial toyExt toyExt_nan rainYear id 2000 2001 "out" 2 (spiArgs [1, 3] (some "fit.nc") none) rainWorld rainAfter rfl rfl rain_runs
  (rain_input _ _ _) (by decide) (by decide) (t0 := .fin 0) (t1 := .fin 23) rfl (by decide +kernel) rfl (pre := []) (s := 1) (post := [3]) rfl (by simp)

/-- six years of precipitation at one place, with zeros -/
def longVar : NcVar Q := ⟨["lat", "lon", "time"], [1, 1, 72], some "mm", (List.range 72).map (fun i => .fin ((i * i % 7 : ℕ) : ℚ))⟩

def longWorld : World Q :=
  ⟨fun f => if f = "p.nc" then some [("prcp", longVar), ("lat", rainLat), ("lon", ⟨["lon"], [1], some "degrees_east", [.fin 0]⟩),
    ("time", ⟨["time"], [72], none, (List.range 72).map (fun (i : ℕ) => .fin (i : ℚ))⟩)] else none, fun _ => none, []⟩

def longRun : Res Unit × World Q := spiMain toyExt rainYear id 2000 2005 "out" 2 (spiArgs [1] (some "fit.nc") none) longWorld

/-- **C73 is false.** A finished run on six years of precipitation at one place: the saved probability of zero precipitation in January is 0; the one fitted to the precipitation of
the place is 1/6, because there is none in January of the first year. -/
theorem C73_fails : longRun.1 = .ok () ∧ (outOf longRun.2 "fit.nc" "prob_zero_1_month")[0]? = some (.fin 0) ∧ longVar.data[0]? = some (.fin 0) ∧
    ∃ fp l, fittedParameters toyExt .pearson (seriesAt 1 72 0 0 longVar.data) 1 2000 2000 2005 .monthly = .ok fp ∧ List.lookup "prob_zero" fp = some (some l) ∧
      l[0]? = some (.fin (1 / 6)) := by
  refine ⟨by decide +kernel, by decide +kernel, by decide +kernel,
    (match fittedParameters toyExt .pearson (seriesAt 1 72 0 0 longVar.data) 1 2000 2000 2005 .monthly with | .ok l => l | .error _ => []),
    (match fittedParameters toyExt .pearson (seriesAt 1 72 0 0 longVar.data) 1 2000 2000 2005 .monthly with
      | .ok l => (((List.lookup "prob_zero" l).getD none).getD []) | .error _ => []), ?_, ?_, ?_⟩ <;> decide +kernel

/-! ## C72 -/

/-- a file of parameters with its two columns, longitudes and values, in the other order -/
def swapColumns (g : NcFile Q) : NcFile Q :=
  g.map (fun p => if p.1 = "lon" then (p.1, { p.2 with data := p.2.data.reverse })
    else if p.2.dims = ["lat", "lon", "month"] then (p.1, { p.2 with data := p.2.data.drop 12 ++ p.2.data.take 12 }) else p)

/-- the saved parameters, with the columns in the other order, in a file of their own -/
def swappedWorld : World Q :=
  ⟨fun f => if f = "p.nc" then some rainData else if f = "swapped.nc" then (rainAfter.files "fit.nc").map swapColumns else rainAfter.files f, fun _ => none, []⟩

/-- **C72 is false.** The two files hold the same parameters for the same longitudes, in different order. Both runs finish, and their results differ: the parameters are taken by
position. -/
theorem C72_fails : outOf swappedWorld "fit.nc" "lon" = [.fin 0, .fin 1] ∧ outOf swappedWorld "swapped.nc" "lon" = [.fin 1, .fin 0] ∧
    (rainRun "again" [3] none (some "fit.nc") swappedWorld).1 = .ok () ∧ (rainRun "again" [3] none (some "swapped.nc") swappedWorld).1 = .ok () ∧
    (outOf (rainRun "again" [3] none (some "fit.nc") swappedWorld).2 "again_spi_gamma_3_month.nc" "spi_gamma_3_month")[2]? = some .nan ∧
    (outOf (rainRun "again" [3] none (some "swapped.nc") swappedWorld).2 "again_spi_gamma_3_month.nc" "spi_gamma_3_month")[2]? = some (.fin (8 / 3)) := by
  refine ⟨?_, ?_, ?_, ?_, ?_, ?_⟩ <;> decide +kernel

theorem rain_input_after : SpiInput rainAfter.files (spiArgs [1, 3] none (some "fit.nc")) rainData rainVar rainTime rainLat rainLon 1 2 24 where
  file := ⟨"p.nc", rfl, by
    rw [(saved_values toyExt_nan (a := spiArgs [1, 3] (some "fit.nc") none) rfl rfl rain_runs (rain_input _ _ _) (t0 := .fin 0) (t1 := .fin 23) rfl (by decide +kernel) (pre := [1])
      (s := 3) (post := []) rfl (by simp) (.inl rfl) (by decide)).2 "p.nc" (by decide) (fun s dist => fileName_ne (by decide) (by decide))]
    rfl⟩
  var := ⟨"prcp", rfl, rfl, by simp, rain_ne_fitting⟩
  grid := ⟨rfl, rfl, by simp [rainVar]⟩
  time := ⟨rfl, rfl, by simp [rainTime]⟩
  lat := ⟨rfl, rfl, rfl⟩
  lon := ⟨rfl, rfl, rfl⟩

/-- The run that loads the saved parameters meets the hypotheses of `C72_position`. -/
example : ∃ u mm, rainVar.units = some u ∧ convertPrecip u rainVar.data = .ok mm ∧ ∃ file, rainLoaded.files "again_spi_pearson_3_month.nc" = some file := by
  obtain ⟨_, _, g, _, _, hg, hpar, _⟩ := C73_partial toyExt toyExt_nan rainYear id 2000 2001 "out" 2 (spiArgs [1, 3] (some "fit.nc") none) rainWorld rainAfter rfl rfl rain_runs
    (rain_input _ _ _) (by decide) (by decide) (t0 := .fin 0) (t1 := .fin 23) rfl (by decide +kernel) rfl (pre := [1]) (s := 3) (post := []) rfl (by simp)
  obtain ⟨_, u, mm, h1, h2, file, _, h3, _⟩ := C72_position toyExt toyExt_nan rainYear id 2000 2001 "again" 2 (spiArgs [1, 3] none (some "fit.nc")) { rainAfter with shared := fun _ => none } rainLoaded
    rfl rfl rain_loads rain_input_after (t0 := .fin 0) (t1 := .fin 23) rfl (by decide +kernel) hg (pre := [1]) (s := 3) (post := []) rfl (by simp) hpar .pearson (.inr rfl) rfl
  exact ⟨u, mm, h1, h2, file, h3⟩

/-! ## C70: divisions and single time series -/

variable {F : Type} [FloatOps F]

/-- one scale is computed only for grids -/
theorem spiPair_grid {E : Ext F} {j : SpiJob} {u : String} {ds : Int} {d : NcFile F} {sd : Int × Distribution} {w w' : World F} (h : spiPair E j u ds d sd w = (.ok (), w')) :
    j.inputType = .grid := by
  unfold spiPair at h
  split at h
  · cases h
  next sh name new hcomp =>
  unfold spiCompute at hcomp
  obtain ⟨sh1, h1, hcomp⟩ := Res.bind_ok hcomp
  obtain ⟨sh2, h2, hcomp⟩ := Res.bind_ok hcomp
  unfold spiStage at h2
  obtain ⟨res, _, h2⟩ := Res.bind_ok h2
  obtain ⟨n0, _, h2⟩ := Res.bind_ok h2
  obtain ⟨chunks, _, h2⟩ := Res.bind_ok h2
  obtain ⟨vals, _, h2⟩ := Res.bind_ok h2
  obtain ⟨fits, _, h2⟩ := Res.bind_ok h2
  split at h2
  · cases h2
  split at h2
  · next hg _ => exact hg
  · cases h2

/-- **C70 is false, for all inputs.** The tool accepts divisions and single time series (`InputType`, `__spi__.py`:37-45, 85-94), but no run in a new process on such a variable with at
least one scale ever finishes, with or without loaded parameters. The model raises the exception of the workers at once for such input (see `fitStage`, `spiStage`), where the code
raises there or when it builds the output, so this theorem rests on that reading of the code; `C70_output_fails` does not. -/
theorem C70_fails (E : Ext F) (yearOf : F → Int) (lower : String → String) (cs ce : Int) (base : String) (wk : Nat) (a : SpiArgs) (w : World F) (_hnew : w.shared = fun _ => none)
    {f v : String} {d : NcFile F} {x : NcVar F} (hf : a.netcdfPrecip = some f) (hv : a.varNamePrecip = some v) (hd : w.files f = some d) (hx : List.lookup v d = some x)
    (hdims : x.dims ∈ [["division", "time"], ["time", "division"], ["time"]]) {s : Int} {ss : List Int} (hs : a.scales = some (s :: ss)) :
    ∀ w', spiMain E yearOf lower cs ce base wk a w ≠ (.ok (), w') := by
  intro w' h
  obtain ⟨it, f', u, d', fitting, ds, sh, g, w1, hval, hf', hu, hprep, hsc, hsave⟩ := spiMain_parts h
  obtain ⟨f2, v2, d2, x2, sc, e1, e2, e3, e4, e5, _, _⟩ := spiValidate_parts hval
  rw [hf] at e1
  cases e1
  rw [hv] at e2
  cases e2
  rw [hd] at e3
  cases e3
  rw [hx] at e4
  cases e4
  have hne : it ≠ .grid := by
    rintro rfl
    simp only [List.mem_cons, List.not_mem_nil, or_false] at hdims
    rcases hdims with hc | hc | hc <;> rw [hc] at e5 <;> revert e5 <;> decide
  rw [hs] at hsc
  simp only [Option.getD_some] at hsc
  unfold spiScales at hsc
  obtain ⟨_, w2, hp, _⟩ := SE.bind_ok hsc
  exact hne (spiPair_grid hp)

/-- **C70 is false, output.** Whatever values the workers put into the result array, and whatever the data set holds, the monthly output of a variable with fewer than three dimensions
cannot be built: the result array has the shape of the variable (`__spi__.py`:621-622). -/
theorem C70_output_fails (j : SpiJob) (d d' : NcFile F) (ds : Int) (x : NcVar F) (hper : j.per = .monthly) (hx : List.lookup j.var d = some x)
    (hdims : x.dims ∈ [["division", "time"], ["time", "division"], ["time"]]) (hwf : x.shape.length = x.dims.length) {shape : List Nat} (hshape : spiOutShape j d ds = .ok shape)
    (values : List F) (name : String) (new : NcFile F) : buildSpiGrid j.per ds d' name ⟨shape, values⟩ ≠ .ok new := by
  intro h
  unfold spiOutShape at hshape
  rw [hper] at hshape h
  simp only at hshape
  obtain ⟨x', hx', hshape⟩ := Res.bind_ok hshape
  have hx' := ncGet_ok hx'
  rw [hx] at hx'
  cases hx'
  cases hshape
  unfold buildSpiGrid at h
  obtain ⟨lat, _, h⟩ := Res.bind_ok h
  obtain ⟨lon, _, h⟩ := Res.bind_ok h
  obtain ⟨time, _, h⟩ := Res.bind_ok h
  obtain ⟨v, hv, h⟩ := Res.bind_ok h
  split at h
  swap
  · cases h
  next hc =>
  simp only [spiOutValues] at hv
  cases hv
  have hl := congrArg List.length hc.2.2.2.2
  simp only [List.length_cons, List.length_nil] at hl
  simp only [List.mem_cons, List.not_mem_nil, or_false] at hdims
  rcases hdims with e | e | e <;> rw [e] at hwf <;> simp only [List.length_cons, List.length_nil] at hwf <;> omega

/-- divisions of a state -/
def divisionWorld : World Q :=
  ⟨fun f => if f = "p.nc" then some [("prcp", ⟨["division", "time"], [2, 24], some "mm", rainVar.data⟩), ("division", ⟨["division"], [2], none, [.fin 101, .fin 102]⟩),
    ("lat", ⟨["division"], [2], none, [.fin 40, .fin 41]⟩), ("time", rainTime)] else none, fun _ => none, []⟩

/-- The arguments are accepted, and no run finishes. -/
example : spiValidateArgs divisionWorld.files (spiArgs [1, 3] none none) = .ok .divisions ∧
    ∀ w', spiMain toyExt rainYear id 2000 2001 "out" 2 (spiArgs [1, 3] none none) divisionWorld ≠ (.ok (), w') :=
  ⟨by decide +kernel, C70_fails toyExt rainYear id 2000 2001 "out" 2 _ divisionWorld rfl rfl rfl rfl rfl (by simp) rfl⟩

/-- a job on these divisions, with a data set that even has all coordinates of a grid -/
example := C70_output_fails (spiJob (spiArgs [1] none none) .divisions "p.nc" 2000 2001 "out" 2) [("prcp", ⟨["division", "time"], [2, 24], some "mm", rainVar.data⟩)] rainData 2000
  ⟨["division", "time"], [2, 24], some "mm", rainVar.data⟩ rfl rfl (by simp) rfl (shape := [2, 24]) rfl rainVar.data "spi_gamma_1_month"

/-! ## C71: daily records that end within a year -/

variable [FloatLaws F]

/-- whole years from the announced length -/
theorem whole_years {y : Int} {N K : Nat} (h : gregorianLengthAs366day N y = K * 366) : N = yearsLen y K := by
  obtain ⟨k, r, h1, h2⟩ := C03_all_lengths y N
  rw [h1, C03_announced y k r h2] at h
  have : yearLen (y + k) ≤ 366 := by unfold yearLen; split <;> omega
  have hk : k = K := by omega
  subst hk
  have : r = 0 := by omega
  subst this
  exact h1

theorem daily_whole {yearOf : F → Int} {x t lat lon : NcVar F} {A B N n : Nat} {mm : List F} {vals : Arr F} {t0 t1 : F} (ht0 : t.data.head? = some t0) (ht1 : t.data.getLast? = some t1)
    (hv : SpiValues yearOf .daily t A B N mm vals) (hs : vals.shape = [A, B, n]) (ht : t.data.length = N) (ha : lat.data.length = A) (hb : lon.data.length = B)
    (h : (SpiShape .daily x t lat lon (yearOf t0)).foldr (· * ·) 1 = A * (B * n)) : N = yearsLen (yearOf t0) (yearOf t1 - yearOf t0 + 1).toNat := by
  have hn := (values_prepared hv hs ht0 ht1).1 rfl
  simp only [SpiValues] at hv
  obtain ⟨_, _, _, _, _, hA, hB, _⟩ := hv
  simp only [SpiShape, List.foldr_cons, List.foldr_nil, ha, hb, ht] at h
  have h := Nat.eq_of_mul_eq_mul_left hB (Nat.eq_of_mul_eq_mul_left hA h)
  exact whole_years (by omega)

/-- **C71 is false, for all records.** If the number of daily values is not that of whole Gregorian years from the first year to the last year of the time coordinate, no run on a grid
finishes (parameters not loaded). -/
theorem C71_fails (E : Ext F) (hE : ExtNan E) (yearOf : F → Int) (lower : String → String) (cs ce : Int) (base : String) (wk : Nat) (a : SpiArgs) (w : World F)
    (hnew : w.shared = fun _ => none) (hload : a.loadParams = none) (hper : a.periodicity = .daily) {d : NcFile F} {x t lat lon : NcVar F} {A B N : Nat}
    (hin : SpiInput w.files a d x t lat lon A B N) {t0 t1 : F} (ht0 : t.data.head? = some t0) (ht1 : t.data.getLast? = some t1)
    {s : Int} {ss : List Int} (hs : a.scales = some (s :: ss)) (hpart : N ≠ yearsLen (yearOf t0) (yearOf t1 - yearOf t0 + 1).toNat) :
    ∀ w', spiMain E yearOf lower cs ce base wk a w ≠ (.ok (), w') := by
  intro w' h
  obtain ⟨pre, post, e1, e2⟩ := last_split (s :: ss) (List.mem_cons_self)
  obtain ⟨it, f, u, d', un, mm, vals, n, g, w1, hu, p1, p2, p3, p4, p5, p6, p7, p8, o1, o2, _, _, _, hsv, _, hl⟩ := spiRun_ok hE hnew hload h hin ht0 (hs.trans (congrArg some e1)) e2
  rw [hper] at p3 hl
  exact hpart (daily_whole ht0 ht1 p3 p4 hin.time.2.2 hin.lat.2.2 hin.lon.2.2 hl)

/-- **C71 is false, for all records**, with loaded parameters. -/
theorem C71_loading_fails (E : Ext F) (hE : ExtNan E) (yearOf : F → Int) (lower : String → String) (cs ce : Int) (base : String) (wk : Nat) (a : SpiArgs) (w : World F)
    (hnew : w.shared = fun _ => none) {pf : String} (hload : a.loadParams = some pf) (hper : a.periodicity = .daily) {d : NcFile F} {x t lat lon : NcVar F} {A B N : Nat}
    (hin : SpiInput w.files a d x t lat lon A B N) {t0 t1 : F} (ht0 : t.data.head? = some t0) (ht1 : t.data.getLast? = some t1) {g : NcFile F} (hg : w.files pf = some g) {A' B' p : Nat}
    {s : Int} {ss : List Int} (hs : a.scales = some (s :: ss)) (hpar : ParameterFile g true (s :: ss) A' B' p) (hpart : N ≠ yearsLen (yearOf t0) (yearOf t1 - yearOf t0 + 1).toNat) :
    ∀ w', spiMain E yearOf lower cs ce base wk a w ≠ (.ok (), w') := by
  intro w' h
  obtain ⟨pre, post, e1, e2⟩ := last_split (s :: ss) (List.mem_cons_self)
  have hu : a.periodicity.unit = .ok "day" := by rw [hper]; rfl
  obtain ⟨k1, k2⟩ := ParameterFile.fitNames hu (by rw [hper]; exact hpar)
  obtain ⟨it, f, d', un, mm, vals, n, g', w1, p1, p2, p3, p4, p5, p6, p7, p8, o1, o2, hsv, hl⟩ := spiLoad_ok hE hnew hload h hin ht0 hu hg k1 (hs.trans (congrArg some e1)) e2
    (fun s' hs' v hv => by obtain ⟨y, e1, e2, _⟩ := k2 s' (by rw [e1]; exact hs') v hv; exact ⟨y, e1, e2⟩)
  rw [hper] at p3 hl
  exact hpart (daily_whole ht0 ht1 p3 p4 hin.time.2.2 hin.lat.2.2 hin.lon.2.2 hl)

/-- 400 days from 1 January 2000 on -/
def dayTime : NcVar Q := ⟨["time"], [400], none, (List.range 400).map (fun (i : ℕ) => .fin (i : ℚ))⟩
def dayVar : NcVar Q := ⟨["lat", "lon", "time"], [1, 2, 400], some "mm", List.replicate 800 (.fin 1)⟩
def dayData : NcFile Q := [("prcp", dayVar), ("lat", rainLat), ("lon", rainLon), ("time", dayTime)]
def dayWorld : World Q := ⟨fun f => if f = "p.nc" then some dayData else none, fun _ => none, []⟩
def dayYear : Q → Int
  | .fin t => if t < 366 then 2000 else 2001
  | _ => 0

/-- The arguments are accepted, and no run finishes. -/
example : spiValidateArgs dayWorld.files { spiArgs [30] none none with periodicity := .daily } = .ok .grid ∧
    ∀ w', spiMain toyExt dayYear id 2000 2001 "out" 2 { spiArgs [30] none none with periodicity := .daily } dayWorld ≠ (.ok (), w') := by
  refine ⟨by decide +kernel, C71_fails toyExt toyExt_nan dayYear id 2000 2001 "out" 2 _ dayWorld rfl rfl rfl (d := dayData) (x := dayVar) (t := dayTime) (lat := rainLat) (lon := rainLon)
    (A := 1) (B := 2) (N := 400) ?_ (t0 := .fin 0) (t1 := .fin 399) rfl (by decide +kernel) rfl (by decide +kernel)⟩
  exact ⟨⟨"p.nc", rfl, rfl⟩, ⟨"prcp", rfl, rfl, by simp, rain_ne_fitting⟩, ⟨rfl, rfl, by simp only [dayVar, List.length_replicate]⟩, ⟨rfl, rfl, by simp only [dayTime, List.length_map, List.length_range]⟩, ⟨rfl, rfl, rfl⟩, ⟨rfl, rfl, rfl⟩⟩

end CI.Props
