import Verif.Props.CliCells
import Verif.Props.SpiToolRuns

/-!
# C93: the two command line tools write the same SPI
-/

namespace CI.Props
open CI Spec

section
variable {F : Type} [FloatOps F] [FloatLaws F]

/-- **C93, monthly** (`_partial`: false for places with dry months once scale 1 has been processed, see `C93_fails`). A finished run of the main tool and a finished run of the SPI
tool in a new process without loaded parameters, on the same grid of monthly precipitation, for the same scale, distribution and calibration years: at every place both have written the same
values, if the SPI tool has not processed scale 1 up to and including this scale, or there is no zero at the place. The numbers of workers, the other scales, the names of the output
files and the kind of request to the main tool do not matter. -/
theorem C93_monthly_partial (E : Ext F) (hE : ExtNan E) (T : Trig F) (yearOf : F → Int) (lower : String → String) (cs ce : Int) {d : NcFile F} {x t lat lon : NcVar F} {A B N : Nat}
    (cmp : CoordCmp F) (wk : Nat) (a : CliArgs) (w w' : World F) (hmain : processIndices (indexFunction E T cs ce) wk lower yearOf cmp a w = (.ok (), w'))
    (hi : a.index = "spi" ∨ a.index = "scaled") (hper : a.periodicity = .monthly) {f v : String} (hin : Input w.files a.outputFileBase a.netcdfPrecip a.varNamePrecip f v d x)
    (base : String) (wk2 : Nat) (b : SpiArgs) (z z' : World F) (hspi : spiMain E yearOf lower cs ce base wk2 b z = (.ok (), z')) (hnew : z.shared = fun _ => none)
    (hload : b.loadParams = none) (hper2 : b.periodicity = .monthly) (hin2 : SpiInput z.files b d x t lat lon A B N) (hN : 0 < N)
    (s : Int) (hs : s ∈ a.scales.getD []) {pre post : List Int} (hs2 : b.scales = some (pre ++ s :: post)) (hlast : s ∉ post)
    (dist : Distribution) (hd : dist = .gamma ∨ dist = .pearson) (hsave : b.saveParams ≠ some (fileName base (spiName dist s false))) :
    ∃ file y file2 y2, w'.files (fileName a.outputFileBase (Output.spi dist s.toNat).name) = some file ∧ ((Output.spi dist s.toNat).name, y) ∈ file ∧
      z'.files (fileName base (spiName dist s false)) = some file2 ∧ List.lookup (spiName dist s false) file2 = some y2 ∧ y.dims = y2.dims ∧ y.shape = y2.shape ∧
      ∃ u mm, x.units = some u ∧ convertPrecip (lower u) x.data = .ok mm ∧
        ∀ i < A, ∀ k < B, 1 ∉ pre ++ [s] ∨ (∀ v ∈ seriesAt B N i k mm, feq v (lit 0) = false) → seriesAt B N i k y.data = seriesAt B N i k y2.data := by
  have htl : t.data ≠ [] := by
    intro h
    have := hin2.time.2.2
    rw [h] at this
    simp at this
    omega
  obtain ⟨t0, ht0⟩ : ∃ t0, t.data.head? = some t0 := ⟨_, List.head?_eq_some_head htl⟩
  obtain ⟨t1, ht1⟩ : ∃ t1, t.data.getLast? = some t1 := ⟨_, List.getLast?_eq_some_getLast htl⟩
  obtain ⟨u, mm, h1, h2, file, y, h3, h4, h5, ⟨h6, h6'⟩, h7⟩ := C66_spi E hE T cs ce wk lower yearOf cmp a w w' hmain hi hin (A := A) (b := B) (n := N) (.inl ⟨hin2.grid.1, hin2.grid.2.1⟩)
    (y0 := yearOf t0) (y1 := yearOf t1) ⟨t, t0, t1, hin2.time.1, ht0, ht1, rfl, rfl⟩ s hs dist (Or.symm hd)
  obtain ⟨u2, mm2, g1, g2, file2, y2, g3, g4, g5, g6, g7, g8, g9, g10, g11⟩ := C68_monthly_partial E hE yearOf lower cs ce base wk2 b z z' hnew hload hper2 hspi hin2 ht0 hs2 hlast dist hd hsave
  rw [h1] at g1
  cases g1
  rw [h2] at g2
  cases g2
  refine ⟨file, y, file2, y2, h3, h4, g3, g7, ?_, ?_, u, mm, h1, h2, ?_⟩
  · rw [h5.1, g8, hin2.grid.1]
  · rw [h6, g9, hin2.grid.2.1]
  intro i hi' k hk hc
  have e1 := h7 i hi' k hk
  have e2 := g11 i hi' k hk
  dsimp only at e1 e2
  rw [toolSeries_plain hc] at e2
  rw [hper] at e1
  simp only [onSeries, preparedFor, prepared, restored, hin2.grid.1] at e1
  simp only [List.mem_cons, String.reduceEq, List.not_mem_nil, or_self, if_false, reduceCtorEq, bind, Except.bind] at e1
  rw [e2] at e1
  simp only [Except.ok.injEq] at e1
  exact e1.symm

/-- **C93, daily** (`_partial` as for monthly data). -/
theorem C93_daily_partial (E : Ext F) (hE : ExtNan E) (T : Trig F) (yearOf : F → Int) (lower : String → String) (cs ce : Int) {d : NcFile F} {x t lat lon : NcVar F} {A B N : Nat}
    (cmp : CoordCmp F) (wk : Nat) (a : CliArgs) (w w' : World F) (hmain : processIndices (indexFunction E T cs ce) wk lower yearOf cmp a w = (.ok (), w'))
    (hi : a.index = "spi" ∨ a.index = "scaled") (hper : a.periodicity = .daily) {f v : String} (hin : Input w.files a.outputFileBase a.netcdfPrecip a.varNamePrecip f v d x)
    (base : String) (wk2 : Nat) (b : SpiArgs) (z z' : World F) (hspi : spiMain E yearOf lower cs ce base wk2 b z = (.ok (), z')) (hnew : z.shared = fun _ => none)
    (hload : b.loadParams = none) (hper2 : b.periodicity = .daily) (hin2 : SpiInput z.files b d x t lat lon A B N) (hN : 0 < N)
    (s : Int) (hs : s ∈ a.scales.getD []) {pre post : List Int} (hs2 : b.scales = some (pre ++ s :: post)) (hlast : s ∉ post) (hpre : 1 ∉ pre ++ [s])
    (dist : Distribution) (hd : dist = .gamma ∨ dist = .pearson) (hsave : b.saveParams ≠ some (fileName base (spiName dist s true))) :
    ∃ file y file2 y2, w'.files (fileName a.outputFileBase (Output.spi dist s.toNat).name) = some file ∧ ((Output.spi dist s.toNat).name, y) ∈ file ∧
      z'.files (fileName base (spiName dist s true)) = some file2 ∧ List.lookup (spiName dist s true) file2 = some y2 ∧ y.dims = y2.dims ∧ y.shape = y2.shape ∧
      ∀ i < A, ∀ k < B, seriesAt B N i k y.data = seriesAt B N i k y2.data := by
  have htl : t.data ≠ [] := by
    intro h
    have := hin2.time.2.2
    rw [h] at this
    simp at this
    omega
  obtain ⟨t0, ht0⟩ : ∃ t0, t.data.head? = some t0 := ⟨_, List.head?_eq_some_head htl⟩
  obtain ⟨t1, ht1⟩ : ∃ t1, t.data.getLast? = some t1 := ⟨_, List.getLast?_eq_some_getLast htl⟩
  obtain ⟨u, mm, h1, h2, file, y, h3, h4, h5, ⟨h6, h6'⟩, h7⟩ := C66_spi E hE T cs ce wk lower yearOf cmp a w w' hmain hi hin (A := A) (b := B) (n := N) (.inl ⟨hin2.grid.1, hin2.grid.2.1⟩)
    (y0 := yearOf t0) (y1 := yearOf t1) ⟨t, t0, t1, hin2.time.1, ht0, ht1, rfl, rfl⟩ s hs dist (Or.symm hd)
  obtain ⟨u2, mm2, g1, g2, file2, y2, g3, g4, g5, g6, g7, g8, g9, g10, g11⟩ := C68_daily_partial E hE yearOf lower cs ce base wk2 b z z' hnew hload hper2 hspi hin2 ht0 ht1 hs2 hlast dist hd hsave
  rw [h1] at g1
  cases g1
  rw [h2] at g2
  cases g2
  refine ⟨file, y, file2, y2, h3, h4, g3, g7, ?_, ?_, ?_⟩
  · rw [h5.1, g8, hin2.grid.1]
  · rw [h6, g9, hin2.grid.2.1]
  intro i hi' k hk
  have e1 := h7 i hi' k hk
  have e2 := g11 i hi' k hk
  dsimp only at e1 e2
  rw [hper] at e1
  simp only [toolSeries_plain (Or.inl hpre)] at e2
  simp only [onSeries, preparedFor, prepared, restored, hin2.grid.1] at e1
  simp only [List.mem_cons, String.reduceEq, List.not_mem_nil, or_self, if_false, if_true] at e1
  rw [e2] at e1
  simp only [Except.ok.injEq] at e1
  exact e1.symm

end

/-- the main tool on the same data -/
def rainArgs (scales : List Int) : CliArgs :=
  { index := "spi", periodicity := .monthly, scales := some scales, netcdfPrecip := some "p.nc", varNamePrecip := some "prcp", netcdfTemp := none, varNameTemp := none,
    netcdfPet := none, varNamePet := none, netcdfAwc := none, varNameAwc := none, outputFileBase := "main" }

/-- stand-ins for the functions of the PET, which are not used for the SPI -/
def noTrig : Trig Q := ⟨id, id, id, id, fun x _ => x, .fin 3⟩

def rainMain (scales : List Int) : Res Unit × World Q :=
  processIndices (indexFunction toyExt noTrig 2000 2001) 3 id rainYear demoCmp (rainArgs scales) rainWorld

/-- **C93 is false with dry months and scale 1.** Both tools finish on the same data with the same years; for gamma and scale 1 the values of the third month at the first place differ. -/
theorem C93_fails : ∃ w' z' : World Q, rainMain [1, 3] = (.ok (), w') ∧ rainRun "out" [1, 3] none none rainWorld = (.ok (), z') ∧
    (outOf w' "main_spi_gamma_01.nc" "spi_gamma_01")[2]? = some (.fin (309 / 100)) ∧ (outOf z' "out_spi_gamma_1_month.nc" "spi_gamma_1_month")[2]? = some (.fin (12 / 5)) := by
  refine ⟨(rainMain [1, 3]).2, (rainRun "out" [1, 3] none none rainWorld).2, run_eq ?_, run_eq ?_, ?_, ?_⟩ <;> decide +kernel

/-- both runs meet the hypotheses of `C93_monthly_partial`: scale 3, which the main tool processes after scale 1 and the SPI tool alone -/
example := C93_monthly_partial toyExt toyExt_nan noTrig rainYear id 2000 2001 (d := rainData) (x := rainVar) demoCmp 3 (rainArgs [1, 3]) rainWorld (rainMain [1, 3]).2 (run_eq (by decide +kernel))
  (.inl rfl) rfl (f := "p.nc") (v := "prcp") ⟨rfl, rfl, rfl, rfl, by simp [rainVar], by decide, fun o => fileName_ne (by decide) (by decide)⟩
  "out" 2 (spiArgs [3] none none) rainWorld (rainRun "out" [3] none none rainWorld).2 (run_eq (by decide +kernel)) rfl rfl rfl (rain_input _ _ _) (by decide)
  3 (by decide) (pre := []) (post := []) rfl (by simp) .gamma (.inl rfl) (by decide)

end CI.Props
