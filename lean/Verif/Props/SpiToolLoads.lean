import Verif.Lemmas.SpiLoadLive
import Verif.Props.SpiToolDays
import Verif.Props.SpiToolYears
import Verif.Props.SpiToolRuns
import Verif.Props.SpiNoYears

/-!
# C128, C129: runs of the SPI tool with loaded parameters
-/

namespace CI.Props
open CI CI.Spec

variable {F : Type} [FloatOps F] [FloatLaws F]

omit [FloatLaws F] in
/-- the last time of an input -/
theorem last_time {lower : String → String} {yearOf : F → Int} {a : SpiArgs} {w : World F} {d : NcFile F} {x t lat lon : NcVar F} {A B N : Nat} {mm : List F} {y0 : Int}
    (h : SpiSource lower yearOf a w d x t lat lon A B N mm y0) : ∃ t0 t1, t.data.head? = some t0 ∧ yearOf t0 = y0 ∧ t.data.getLast? = some t1 := by
  obtain ⟨t0, ht0, e⟩ := h.first
  have hne : t.data ≠ [] := by rintro hc; rw [hc] at ht0; simp at ht0
  exact ⟨t0, t.data.getLast hne, ht0, e, List.getLast?_eq_some_getLast hne⟩

/-- **C128.** Every run of the SPI tool on monthly values or on the days of whole years that loads the parameters of all its scales (from 1 on) finishes, whatever the precipitation, the
values of the parameters and the calibration years. It writes exactly the documented files, in the order of the scales, gamma before Pearson, and no other file is changed. For every
scale the values at every place are the SPI with the parameters of that place in the file; the series is that of the place, with its zeros replaced by NaN if scale 1 was processed
before (for Pearson: before or with this scale). -/
theorem C128_loads (E : Ext F) (hE : ExtNan E) (yearOf : F → Int) (lower : String → String) (cs ce : Int) (base : String) (wk : Nat) (hwk : 1 ≤ wk) (a : SpiArgs) (w : World F)
    {d : NcFile F} {x t lat lon : NcVar F} {A B N : Nat} {mm : List F} {y0 : Int} {scales : List Int} {g : NcFile F} (h : SpiLoads lower yearOf a w d x t lat lon A B N mm y0 scales g)
    (hs : a.scales = some scales) (hpos : ∀ s ∈ scales, 1 ≤ s) :
    ∃ w', spiMain E yearOf lower cs ce base wk a w = (.ok (), w') ∧
      w'.written = w.written ++ (processingOrder scales).map (fun sd => (fileName base (spiName sd.2 sd.1 (decide (a.periodicity = .daily))), spiName sd.2 sd.1 (decide (a.periodicity = .daily)))) ∧
      (∀ f, (∀ sd ∈ processingOrder scales, f ≠ fileName base (spiName sd.2 sd.1 (decide (a.periodicity = .daily)))) → w'.files f = w.files f) ∧
      ∀ pre s post, scales = pre ++ s :: post → s ∉ post → ∀ dist, dist = .gamma ∨ dist = .pearson → ∀ t1, t.data.getLast? = some t1 →
        SpiHolds w'.files base dist s (decide (a.periodicity = .daily)) t lat lon A B N (fun i k => do
          let v ← prepared a.periodicity y0 (yearOf t1) (seriesAt B N i k mm)
          let out ← spi E (Arr.of1d (toolSeries a.periodicity (if dist = .gamma then pre else pre ++ [s]) v)) s dist y0 cs ce a.periodicity
            (some (parametersAt g dist s (decide (a.periodicity = .daily)) B (if a.periodicity = .daily then 366 else 12) i k))
          restored a.periodicity y0 out) := by
  obtain ⟨u, w', hu, hrun, hwr, hfr⟩ := spiRun_loads (cs := cs) (ce := ce) (base := base) hE hwk h hs hpos
  have hfile : ∀ sd ∈ processingOrder scales, spiOutFile base u sd.1 sd.2 = fileName base (spiName sd.2 sd.1 (decide (a.periodicity = .daily))) :=
    fun sd hsd => outFile_eq hu _ _ (order_dist scales sd hsd) _
  have hname : ∀ sd ∈ processingOrder scales, spiOutName sd.2 sd.1 u = spiName sd.2 sd.1 (decide (a.periodicity = .daily)) :=
    fun sd hsd => spiName_eq hu _ (order_dist scales sd hsd) _
  refine ⟨w', hrun, ?_, ?_, ?_⟩
  · rw [hwr, processingOrder_eq]
    congr 1
    apply List.map_congr_left
    intro sd hsd
    rw [hfile sd hsd, hname sd hsd]
  · intro f hf
    apply hfr
    intro s hs'
    have m : ∀ dist, dist = .gamma ∨ dist = .pearson → (s, dist) ∈ processingOrder scales := by
      intro dist hd
      rw [← processingOrder_eq]
      exact List.mem_flatMap.2 ⟨s, hs', by rcases hd with rfl | rfl <;> simp⟩
    have m1 := m .gamma (.inl rfl)
    have m2 := m .pearson (.inr rfl)
    have e1 := hfile _ m1
    have e2 := hfile _ m2
    simp only at e1 e2
    rw [e1, e2]
    exact ⟨hf (s, .gamma) m1, hf (s, .pearson) m2⟩
  · rintro pre s post rfl hlast dist hd t1 ht1
    obtain ⟨pf, hload, hg⟩ := h.load
    obtain ⟨t0, ht0, rfl⟩ := h.first
    obtain ⟨un, hun, hmm⟩ := h.units
    obtain ⟨_, u', mm', k1, k2, k3⟩ := C72_position E hE yearOf lower cs ce base wk a w w' h.fresh hload hrun h.input ht0 ht1 hg hs hlast h.parameters dist hd h.save
    rw [hun] at k1
    cases k1
    rw [hmm] at k2
    cases k2
    exact k3

/-- **C128, scale 0.** The check of the arguments lets scale 0 pass, but a run that loads parameters and has scale 0 among its scales does not finish if the (prepared) series of some
place has a value other than 0. -/
theorem C128_zero_fails (E : Ext F) (hE : ExtNan E) (yearOf : F → Int) (lower : String → String) (cs ce : Int) (base : String) (wk : Nat) (a : SpiArgs) (w : World F)
    {d : NcFile F} {x t lat lon : NcVar F} {A B N : Nat} {mm : List F} {y0 : Int} {scales : List Int} {g : NcFile F} (h : SpiLoads lower yearOf a w d x t lat lon A B N mm y0 scales g)
    (hs : a.scales = some scales) (hpos : ∀ s ∈ scales, 0 ≤ s) (h0 : 0 ∈ scales) {t1 : F} (ht1 : t.data.getLast? = some t1) {i k : Nat} (hi : i < A) (hk : k < B) {v : List F}
    (hv : prepared a.periodicity y0 (yearOf t1) (seriesAt B N i k mm) = .ok v) {z : F} (hz : z ∈ v) (hz1 : isNan z = false) (hz2 : feq z (lit 0) = false) :
    spiValidateArgs w.files a = .ok .grid ∧ ∀ w', spiMain E yearOf lower cs ce base wk a w ≠ (.ok (), w') := by
  constructor
  · obtain ⟨pf, hload, hg⟩ := h.load
    obtain ⟨f, hf, hfd⟩ := h.input.file
    have hunit : ∃ u, a.periodicity.unit = .ok u := by
      rcases h.calendar with hm | ⟨_, hy⟩
      · rw [hm]; exact ⟨_, rfl⟩
      · rw [hy.daily]; exact ⟨_, rfl⟩
    obtain ⟨u, hu⟩ := hunit
    exact (spi_accepts h.toSpiSource hs hpos (by unfold validateSave; rw [h.save]; rfl)
      (validateLoad_ok hload hg hs hu (fun s hs v hv => by obtain ⟨y, e, _⟩ := (ParameterFile.fitNames hu h.parameters).2 s hs v hv; exact ⟨y, e⟩)) hf hfd).1
  intro w' hrun
  obtain ⟨pre, post, rfl, hlast⟩ := last_split _ h0
  obtain ⟨pf, hload, hg⟩ := h.load
  obtain ⟨t0, ht0, rfl⟩ := h.first
  obtain ⟨un, hun, hmm⟩ := h.units
  obtain ⟨_, u', mm', k1, k2, file, y, _, _, _, _, _, _, _, _, k3⟩ := C72_position E hE yearOf lower cs ce base wk a w w' h.fresh hload hrun h.input ht0 ht1 hg hs hlast h.parameters .gamma (.inl rfl) h.save
  rw [hun] at k1
  cases k1
  rw [hmm] at k2
  cases k2
  have k4 := k3 i hi k hk
  dsimp only at k4
  rw [hv] at k4
  obtain ⟨out, k5, _⟩ := Res.bind_ok (show (spi E _ _ _ _ _ _ _ _ >>= _) = _ from k4)
  simp only [reduceIte] at k5
  have hmem : z ∈ toolSeries a.periodicity pre v := by
    unfold toolSeries
    split
    · exact List.mem_map.2 ⟨z, hz, by rw [hz2]; rfl⟩
    · exact hz
  generalize toolSeries a.periodicity pre v = l at hmem k5
  unfold spi at k5
  rw [if_pos (.inr rfl)] at k5
  have hall : allNan (Arr.of1d l).data = false := by
    unfold allNan
    rw [Bool.eq_false_iff]
    intro hc
    have := List.all_eq_true.1 hc z hmem
    rw [hz1] at this
    cases this
  rw [if_neg (by rw [hall]; simp)] at k5
  obtain ⟨m, _, k5⟩ := Res.bind_ok k5
  obtain ⟨sc, k6, _⟩ := Res.bind_ok k5
  rw [C07_bad_scale _ 0 (le_refl 0)] at k6
  cases k6

/-! ## C129: saved parameters can be loaded -/

/-- the saved file: dimensions and sizes -/
theorem saved_sizes {E : Ext F} (hE : ExtNan E) {yearOf : F → Int} {lower : String → String} {cs ce : Int} {base : String} {wk : Nat} {a : SpiArgs} {w w' : World F}
    (hnew : w.shared = fun _ => none) (hload : a.loadParams = none) (h : spiMain E yearOf lower cs ce base wk a w = (.ok (), w'))
    {d : NcFile F} {x t lat lon : NcVar F} {A B N : Nat} (hin : SpiInput w.files a d x t lat lon A B N) (hA : 0 < A) (hB : 0 < B)
    {t0 : F} (ht0 : t.data.head? = some t0) {pf : String} (hsave : a.saveParams = some pf) {scales : List Int} (hs : a.scales = some scales) {s : Int} (hmem : s ∈ scales) :
    ∃ u g, a.periodicity.unit = .ok u ∧ w'.files pf = some g ∧ (∀ q ∈ g, q.2.dims = [q.1] ∨ q.2.dims = ["lat", "lon", u]) ∧
      ∀ v ∈ fittingVariables, ∃ y, List.lookup (spiFitName u s v) g = some y ∧ y.data.length = A * (B * a.periodicity.steps) := by
  obtain ⟨pre, post, rfl, hlast⟩ := last_split _ hmem
  obtain ⟨it, f, u, d', un, mm, vals, n, g, w1, hu, _, _, _, _, _, _, _, _, _, _, o3, o4, hfit, hsv, _⟩ := spiRun_ok hE hnew hload h hin ht0 hs hlast
  obtain ⟨fg, fp⟩ := o3 hA hB
  refine ⟨u, g, hu, ?_, fun q hq => (hfit.1 q hq).imp id And.left, ?_⟩
  · unfold spiSave at hsv
    rw [show (spiJob a it f cs ce base wk).save = some pf from hsave] at hsv
    cases hsv
    simp [writeFile]
  · intro v hv
    obtain ⟨y, z, k1, k2, _, k4, _⟩ := o4 v hv
    refine ⟨z, k2, ?_⟩
    rw [k4]
    have hm : v ∈ distVars .gamma ∨ v ∈ distVars .pearson := by
      simp only [fittingVariables, List.mem_cons, List.not_mem_nil, or_false] at hv
      rcases hv with rfl | rfl | rfl | rfl | rfl | rfl <;> simp [distVars]
    rcases hm with hm | hm
    · obtain ⟨y', k6, k7, _⟩ := fg v hm
      rw [k1] at k6
      cases k6
      exact k7
    · obtain ⟨y', k6, k7, _⟩ := fp v hm
      rw [k1] at k6
      cases k6
      exact k7

/-- what is saved can be loaded -/
theorem saved_loads {E : Ext F} (hE : ExtNan E) {yearOf : F → Int} {lower : String → String} {cs ce : Int} {base : String} {wk : Nat} {a : SpiArgs} {w w' : World F}
    {d : NcFile F} {x t lat lon : NcVar F} {A B N : Nat} {mm : List F} {y0 : Int} (hin : SpiUsable lower yearOf a w d x t lat lon A B N mm y0)
    (hcal : a.periodicity = .monthly ∨ ∃ Y, Spec.WholeYears yearOf a t N y0 Y) {scales : List Int} (hs : a.scales = some scales) (hne : scales ≠ []) {pf : String} (hsave : a.saveParams = some pf)
    (h : spiMain E yearOf lower cs ce base wk a w = (.ok (), w'))
    (hkeep : ∀ f, a.netcdfPrecip = some f → f ≠ pf ∧ ∀ s dist, f ≠ fileName base (spiName dist s (decide (a.periodicity = .daily))))
    (hpf : ∀ s dist, pf ≠ fileName base (spiName dist s (decide (a.periodicity = .daily)))) :
    ∃ g, SpiLoads lower yearOf { a with saveParams := none, loadParams := some pf } { w' with shared := fun _ => none } d x t lat lon A B N mm y0 scales g := by
  obtain ⟨t0, t1, ht0, e0, ht1⟩ := last_time hin.toSpiSource
  obtain ⟨hA, hB⟩ := hin.places
  obtain ⟨s, hsm⟩ := List.exists_mem_of_ne_nil _ hne
  obtain ⟨pre, post, e1, hlast⟩ := last_split _ hsm
  have hs' := hs.trans (congrArg some e1)
  obtain ⟨_, hfr⟩ := saved_values hE hin.fresh hin.load h hin.input ht0 ht1 hs' hlast (dist := .gamma) (.inl rfl)
    (by rw [hsave]; intro hc; exact hpf s .gamma (Option.some.inj hc))
  obtain ⟨_, _, g, _, _, hg, hpar, _⟩ := saved_run hE hin.fresh hin.load h hin.input hA hB ht0 ht1 hsave hs' hlast
  rw [← e1] at hpar
  have hin2 : SpiInput ({ w' with shared := fun _ => none } : World F).files { a with saveParams := none, loadParams := some pf } d x t lat lon A B N := by
    obtain ⟨f, hf1, hf2⟩ := hin.input.file
    refine ⟨⟨f, hf1, ?_⟩, hin.input.var, hin.input.grid, hin.input.time, hin.input.lat, hin.input.lon⟩
    show w'.files f = some d
    rw [hfr f ?_ (hkeep f hf1).2, hf2]
    rw [hsave]
    intro hc
    exact (hkeep f hf1).1 (Option.some.inj hc).symm
  have hsteps : a.periodicity.steps = if a.periodicity = .daily then 366 else 12 := by
    rcases hcal with hm | ⟨_, hy⟩
    · rw [hm]; rfl
    · rw [hy.daily]; rfl
  have hunit : ∀ u, a.periodicity.unit = .ok u → u = if a.periodicity = .daily then "day" else "month" := by
    intro u hu
    rcases hcal with hm | ⟨_, hy⟩
    · rw [hm] at hu ⊢; cases hu; rfl
    · rw [hy.daily] at hu ⊢; cases hu; rfl
  refine ⟨g, ⟨hin2, hin.places, hin.coords, hin.coordUnits, hin.units, hin.first, rfl⟩, ?_, ⟨pf, rfl, hg⟩, rfl, ?_, ?_, ?_⟩
  · exact hcal.imp id (fun ⟨Y, hy⟩ => ⟨Y, hy.daily, hy.last, hy.years, hy.whole, hy.dates⟩)
  · show ParameterFile g (decide (a.periodicity = .daily)) scales A B (if a.periodicity = .daily then 366 else 12)
    rw [← hsteps]
    exact hpar
  · obtain ⟨u, g', hu, hg', hd, _⟩ := saved_sizes hE hin.fresh hin.load h hin.input hA hB ht0 hsave hs hsm
    rw [hg] at hg'
    cases hg'
    rw [hunit u hu] at hd
    exact hd
  · intro s' hs2 v hv y hy
    obtain ⟨u, g', hu, hg', _, hl⟩ := saved_sizes hE hin.fresh hin.load h hin.input hA hB ht0 hsave hs hs2
    rw [hg] at hg'
    cases hg'
    obtain ⟨y', k1, k2⟩ := hl v hv
    rw [fittingName_eq hu] at k1
    have hy' : List.lookup (fittingName v s' (decide (a.periodicity = .daily))) g = some y := hy
    rw [show List.lookup (fittingName v s' (decide (a.periodicity = .daily))) g = some y' from k1] at hy'
    cases hy'
    rw [k2, hsteps]

/-- **C129.** Saved parameters can always be loaded: if a run of the SPI tool on monthly values or on the days of whole years, with scales from 1 on, saves its parameters and finishes,
then every later run (in a new process) with the same arguments that loads them finishes too, whatever its calibration years, its name of the outputs and its number of workers. It
writes a file for every scale and distribution, and the values at a place are those of the first run: always for Pearson, for scales other than 1 and if scale 1 occurs before, and for
gamma and scale 1 if the series of the place has no zeros (otherwise not always, see `C69_fails`). -/
theorem C129_again (E : Ext F) (hE : ExtNan E) (yearOf : F → Int) (lower : String → String) (cs ce cs2 ce2 : Int) (base base2 : String) (wk wk2 : Nat) (hwk : 1 ≤ wk2) (a : SpiArgs)
    (w w' : World F) {d : NcFile F} {x t lat lon : NcVar F} {A B N : Nat} {mm : List F} {y0 : Int} (hin : SpiUsable lower yearOf a w d x t lat lon A B N mm y0)
    (hcal : a.periodicity = .monthly ∨ ∃ Y, Spec.WholeYears yearOf a t N y0 Y) {scales : List Int} (hs : a.scales = some scales) (hne : scales ≠ []) (hpos : ∀ s ∈ scales, 1 ≤ s)
    {pf : String} (hsave : a.saveParams = some pf) (h : spiMain E yearOf lower cs ce base wk a w = (.ok (), w'))
    (hkeep : ∀ f, a.netcdfPrecip = some f → f ≠ pf ∧ ∀ s dist, f ≠ fileName base (spiName dist s (decide (a.periodicity = .daily))))
    (hpf : ∀ s dist, pf ≠ fileName base (spiName dist s (decide (a.periodicity = .daily)))) :
    ∃ w'', spiMain E yearOf lower cs2 ce2 base2 wk2 { a with saveParams := none, loadParams := some pf } { w' with shared := fun _ => none } = (.ok (), w'') ∧
      w''.written = w'.written ++ (processingOrder scales).map (fun sd => (fileName base2 (spiName sd.2 sd.1 (decide (a.periodicity = .daily))), spiName sd.2 sd.1 (decide (a.periodicity = .daily)))) ∧
      ∀ pre s post, scales = pre ++ s :: post → s ∉ post → ∀ dist, dist = .gamma ∨ dist = .pearson → ∀ t1, t.data.getLast? = some t1 →
        ∃ file1 y1 file2 y2,
          w'.files (fileName base (spiName dist s (decide (a.periodicity = .daily)))) = some file1 ∧ List.lookup (spiName dist s (decide (a.periodicity = .daily))) file1 = some y1 ∧
          w''.files (fileName base2 (spiName dist s (decide (a.periodicity = .daily)))) = some file2 ∧ List.lookup (spiName dist s (decide (a.periodicity = .daily))) file2 = some y2 ∧
          y1.shape = [A, B, N] ∧ y2.shape = [A, B, N] ∧
          ∀ i < A, ∀ k < B, (dist = .pearson ∨ s ≠ 1 ∨ 1 ∈ pre ∨ ∀ v, prepared a.periodicity y0 (yearOf t1) (seriesAt B N i k mm) = .ok v → ∀ z ∈ v, feq z (lit 0) = false) →
            seriesAt B N i k y2.data = seriesAt B N i k y1.data := by
  obtain ⟨g, hl⟩ := saved_loads hE hin hcal hs hne hsave h hkeep hpf
  obtain ⟨w'', hrun, hwr, _⟩ := C128_loads E hE yearOf lower cs ce base2 wk2 hwk _ _ hl hs hpos
  refine ⟨w'', (C107_loaded E yearOf lower cs2 ce2 cs ce base2 wk2 _ rfl _).trans hrun, hwr, ?_⟩
  rintro pre s post rfl hlast dist hd t1 ht1
  obtain ⟨t0, ht0, rfl⟩ := hin.first
  obtain ⟨un, hun, hmm⟩ := hin.units
  obtain ⟨u, mm', file1, y1, file2, y2, k1, k2, k3⟩ := C69_partial E hE yearOf lower cs ce base base2 wk wk2 a w w' w'' hin.fresh hin.load hsave h hrun hin.input hin.places.1 hin.places.2 ht0 ht1 hs
    hlast hkeep hpf dist hd
  rw [hun] at k1
  cases k1
  rw [hmm] at k2
  cases k2
  exact ⟨file1, y1, file2, y2, k3⟩

/-! ## From the command line -/

/-- **C128 from the command line.** The documented command line of the SPI tool with `--load_params` (years given or not, any number of workers): the tool ends without exception, with
the files and values of `C128_loads`. -/
theorem C128_command (E : Ext F) (hE : ExtNan E) (toInt : String → Option Int) (ht : ∀ n : Int, toInt (toString n) = some n) (cpus : Nat) (lower : String → String) (yearOf : F → Int)
    (q : String → Bool) (c : SpiCommand) (hc : SpiWritable q c) (hcpu : 1 ≤ numberOfWorkers c.multiprocessing cpus) (w : World F) {d : NcFile F} {x t lat lon : NcVar F} {A B N : Nat} {mm : List F}
    {y0 : Int} {scales : List Int} {g : NcFile F} (h : SpiLoads lower yearOf c.args w d x t lat lon A B N mm y0 scales g) (hs : c.args.scales = some scales) (hpos : ∀ s ∈ scales, 1 ≤ s) :
    ∃ w', spiTool E toInt cpus lower yearOf (spiCommandLine q c) w = (.ended (.ok ()), w') ∧
      w'.written = w.written ++ (processingOrder scales).map (fun sd => (fileName c.outputFileBase (spiName sd.2 sd.1 (decide (c.args.periodicity = .daily))),
        spiName sd.2 sd.1 (decide (c.args.periodicity = .daily)))) ∧
      (∀ f, (∀ sd ∈ processingOrder scales, f ≠ fileName c.outputFileBase (spiName sd.2 sd.1 (decide (c.args.periodicity = .daily)))) → w'.files f = w.files f) ∧
      ∀ pre s post, scales = pre ++ s :: post → s ∉ post → ∀ dist, dist = .gamma ∨ dist = .pearson → ∀ t1, t.data.getLast? = some t1 → ∀ cs ce,
        SpiHolds w'.files c.outputFileBase dist s (decide (c.args.periodicity = .daily)) t lat lon A B N (fun i k => do
          let v ← prepared c.args.periodicity y0 (yearOf t1) (seriesAt B N i k mm)
          let out ← spi E (Arr.of1d (toolSeries c.args.periodicity (if dist = .gamma then pre else pre ++ [s]) v)) s dist y0 cs ce c.args.periodicity
            (some (parametersAt g dist s (decide (c.args.periodicity = .daily)) B (if c.args.periodicity = .daily then 366 else 12) i k))
          restored c.args.periodicity y0 out) := by
  have hl : c.args.loadParams.isSome := by obtain ⟨f, hf, _⟩ := h.load; rw [hf]; rfl
  obtain ⟨w', r1, r2, r3, _⟩ := C128_loads E hE yearOf lower 0 0 c.outputFileBase (numberOfWorkers c.multiprocessing cpus) hcpu c.args w h hs hpos
  refine ⟨w', ?_, r2, r3, ?_⟩
  · unfold spiTool
    rw [C105_spi toInt ht q c hc]
    simp only [C121_loaded E yearOf lower c.calibrationStart c.calibrationEnd 0 0 _ _ _ hl, r1]
  · intro pre s post e hlast dist hd t1 ht1 cs ce
    obtain ⟨w2, k1, _, _, k4⟩ := C128_loads E hE yearOf lower cs ce c.outputFileBase (numberOfWorkers c.multiprocessing cpus) hcpu c.args w h hs hpos
    rw [C107_loaded E yearOf lower cs ce 0 0 _ _ _ hl, r1] at k1
    cases k1
    exact k4 pre s post e hlast dist hd t1 ht1

/-- **C129 from the command line.** Two commands one after the other: the first one, with calibration years, saves its parameters and ends without exception; the second one has the same
arguments but loads them, with any or no calibration years, any name of the outputs and any number of workers. Then the second one ends without exception too, and its values are those of
the first one (for gamma and scale 1: at places without zeros). -/
theorem C129_commands (E : Ext F) (hE : ExtNan E) (toInt : String → Option Int) (ht : ∀ n : Int, toInt (toString n) = some n) (cpus : Nat) (lower : String → String) (yearOf : F → Int)
    (q q2 : String → Bool) (c c2 : SpiCommand) (hc : SpiWritable q c) (hc2 : SpiWritable q2 c2) (hcpu : 1 ≤ numberOfWorkers c2.multiprocessing cpus) {cs ce : Int} (hcs : c.calibrationStart = some cs)
    (hce : c.calibrationEnd = some ce) {pf : String} (hsave : c.args.saveParams = some pf) (hargs : c2.args = { c.args with saveParams := none, loadParams := some pf })
    (w w' : World F) {d : NcFile F} {x t lat lon : NcVar F} {A B N : Nat} {mm : List F} {y0 : Int} (hin : SpiUsable lower yearOf c.args w d x t lat lon A B N mm y0)
    (hcal : c.args.periodicity = .monthly ∨ ∃ Y, Spec.WholeYears yearOf c.args t N y0 Y) {scales : List Int} (hs : c.args.scales = some scales) (hne : scales ≠ []) (hpos : ∀ s ∈ scales, 1 ≤ s)
    (h : spiTool E toInt cpus lower yearOf (spiCommandLine q c) w = (.ended (.ok ()), w'))
    (hkeep : ∀ f, c.args.netcdfPrecip = some f → f ≠ pf ∧ ∀ s dist, f ≠ fileName c.outputFileBase (spiName dist s (decide (c.args.periodicity = .daily))))
    (hpf : ∀ s dist, pf ≠ fileName c.outputFileBase (spiName dist s (decide (c.args.periodicity = .daily)))) :
    ∃ w'', spiTool E toInt cpus lower yearOf (spiCommandLine q2 c2) { w' with shared := fun _ => none } = (.ended (.ok ()), w'') ∧
      w''.written = w'.written ++ (processingOrder scales).map (fun sd => (fileName c2.outputFileBase (spiName sd.2 sd.1 (decide (c.args.periodicity = .daily))),
        spiName sd.2 sd.1 (decide (c.args.periodicity = .daily)))) ∧
      ∀ pre s post, scales = pre ++ s :: post → s ∉ post → ∀ dist, dist = .gamma ∨ dist = .pearson → ∀ t1, t.data.getLast? = some t1 →
        ∃ file1 y1 file2 y2,
          w'.files (fileName c.outputFileBase (spiName dist s (decide (c.args.periodicity = .daily)))) = some file1 ∧
          List.lookup (spiName dist s (decide (c.args.periodicity = .daily))) file1 = some y1 ∧
          w''.files (fileName c2.outputFileBase (spiName dist s (decide (c.args.periodicity = .daily)))) = some file2 ∧
          List.lookup (spiName dist s (decide (c.args.periodicity = .daily))) file2 = some y2 ∧ y1.shape = [A, B, N] ∧ y2.shape = [A, B, N] ∧
          ∀ i < A, ∀ k < B, (dist = .pearson ∨ s ≠ 1 ∨ 1 ∈ pre ∨ ∀ v, prepared c.args.periodicity y0 (yearOf t1) (seriesAt B N i k mm) = .ok v → ∀ z ∈ v, feq z (lit 0) = false) →
            seriesAt B N i k y2.data = seriesAt B N i k y1.data := by
  unfold spiTool at h
  rw [C105_spi toInt ht q c hc] at h
  simp only [hcs, hce, spiMain_both] at h
  have h1 : spiMain E yearOf lower cs ce c.outputFileBase (numberOfWorkers c.multiprocessing cpus) c.args w = (.ok (), w') := by
    obtain ⟨e1, e2⟩ := Prod.ext_iff.1 h
    exact Prod.ext (Outcome.ended.inj e1) e2
  obtain ⟨w'', r1, r2⟩ := C129_again E hE yearOf lower cs ce 0 0 c.outputFileBase c2.outputFileBase _ (numberOfWorkers c2.multiprocessing cpus) hcpu c.args w w' hin hcal hs hne hpos hsave h1 hkeep hpf
  refine ⟨w'', ?_, r2⟩
  unfold spiTool
  rw [C105_spi toInt ht q2 c2 hc2]
  simp only [hargs, C121_loaded E yearOf lower c2.calibrationStart c2.calibrationEnd 0 0 _ _ { c.args with saveParams := none, loadParams := some pf } rfl, r1]

/-! ## Examples -/

/-- the monthly run of the other examples, which saves its parameters -/
theorem rain_usable : SpiUsable id rainYear (spiArgs [1, 3] (some "fit.nc") none) rainWorld rainData rainVar rainTime rainLat rainLon 1 2 24 rainVar.data 2000 where
  input := rain_input _ _ _
  places := by decide
  coords := by decide +kernel
  coordUnits := by decide
  units := ⟨"mm", rfl, by decide +kernel⟩
  first := ⟨.fin 0, by decide +kernel, by decide +kernel⟩
  fresh := rfl
  load := rfl
  save := by intro f hf; cases hf; left; decide

theorem rain_keep : ∀ f, (spiArgs [1, 3] (some "fit.nc") none).netcdfPrecip = some f → f ≠ "fit.nc" ∧ ∀ s dist,
    f ≠ fileName "out" (spiName dist s (decide ((spiArgs [1, 3] (some "fit.nc") none).periodicity = .daily))) := by
  intro f hf
  cases hf
  exact ⟨by decide, fun s dist => fileName_ne (by decide) (by decide)⟩

/-- C129 for it, with calibration years outside the record in the second run -/
example := C129_again toyExt toyExt_nan rainYear id 2000 2001 1900 1800 "out" "again" 2 3 (by decide) _ _ _ rain_usable (.inl rfl) (scales := [1, 3]) rfl (by decide) (by decide) rfl rain_runs rain_keep
  (fun s dist => fileName_ne (by decide) (by decide))

/-- C128 for it -/
example : ∃ g, SpiLoads id rainYear (spiArgs [1, 3] none (some "fit.nc")) { rainAfter with shared := fun _ => none } rainData rainVar rainTime rainLat rainLon 1 2 24 rainVar.data 2000 [1, 3] g :=
  saved_loads toyExt_nan rain_usable (.inl rfl) rfl (by decide) rfl rain_runs rain_keep (fun s dist => fileName_ne (by decide) (by decide))

/-- parameters of one scale, all of them 1 -/
def onesFile (s : Int) (daily : Bool) (B p : Nat) : NcFile Q :=
  fitParameters.map (fun v => (fittingName v s daily, ⟨["lat", "lon", if daily then "day" else "month"], [1, B, p], none, List.replicate (B * p) (.fin 1)⟩))

/-- a world with parameters of scale 0 -/
def zeroWorld : World Q := ⟨fun f => if f = "p.nc" then some rainData else if f = "zero.nc" then some (onesFile 0 false 2 12) else none, fun _ => none, []⟩

theorem ones_entries (s : Int) (daily : Bool) (B p : Nat) : ∀ q ∈ onesFile s daily B p, (∃ v ∈ fitParameters, q.1 = fittingName v s daily) ∧
    q.2.dims = ["lat", "lon", if daily then "day" else "month"] ∧ q.2.shape = [1, B, p] ∧ q.2.data.length = B * p := by
  intro q hq
  obtain ⟨v, hv, rfl⟩ := List.mem_map.1 hq
  exact ⟨⟨v, hv, rfl⟩, rfl, rfl, List.length_replicate⟩

theorem zero_loads : SpiLoads id rainYear (spiArgs [0] none (some "zero.nc")) zeroWorld rainData rainVar rainTime rainLat rainLon 1 2 24 rainVar.data 2000 [0] (onesFile 0 false 2 12) where
  input := by
    have h := rain_input [0] none (some "zero.nc")
    exact ⟨⟨"p.nc", rfl, rfl⟩, h.var, h.grid, h.time, h.lat, h.lon⟩
  places := by decide
  coords := by decide +kernel
  coordUnits := by decide
  units := ⟨"mm", rfl, by decide +kernel⟩
  first := ⟨.fin 0, by decide +kernel, by decide +kernel⟩
  fresh := rfl
  calendar := .inl rfl
  load := ⟨"zero.nc", rfl, rfl⟩
  save := rfl
  parameters := by
    refine ⟨fun q hq => .inr ⟨0, (ones_entries 0 false 2 12 q hq).1⟩, by decide +kernel, ?_⟩
    intro s hs
    obtain rfl : s = 0 := by simpa using hs
    intro v hv
    simp only [fitParameters, List.mem_cons, List.not_mem_nil, or_false] at hv
    rcases hv with rfl | rfl | rfl | rfl | rfl | rfl <;> exact ⟨_, rfl, by decide, rfl⟩
  dimensions := fun q hq => .inr (ones_entries 0 false 2 12 q hq).2.1
  complete := by
    intro s _ v _ y hy
    have := List.lookup_eq_some_iff.1 hy
    obtain ⟨l1, l2, e, _⟩ := this
    have hq : (fittingName v s (decide ((spiArgs [0] none (some "zero.nc")).periodicity = .daily)), y) ∈ onesFile 0 false 2 12 := by rw [e]; simp
    exact (ones_entries 0 false 2 12 _ hq).2.2.2

/-- C128 for it: the month with 1 mm is a value other than 0, so the run does not finish -/
example : spiValidateArgs zeroWorld.files (spiArgs [0] none (some "zero.nc")) = .ok .grid ∧
    ∀ w', spiMain toyExt rainYear id 2000 2001 "out" 2 (spiArgs [0] none (some "zero.nc")) zeroWorld ≠ (.ok (), w') :=
  C128_zero_fails toyExt toyExt_nan rainYear id 2000 2001 "out" 2 _ _ zero_loads rfl (by decide) (by decide) (t1 := .fin 23) (by decide +kernel) (i := 0) (k := 0) (by decide) (by decide) rfl
    (z := .fin 1) (by decide +kernel) (by decide +kernel) (by decide +kernel)

/-- the days of the year 2000 at two places, with zeros and missing values -/
def leapTime : NcVar Q := ⟨["time"], [366], none, (List.range 366).map (fun (i : ℕ) => .fin (i : ℚ))⟩
def leapVar : NcVar Q := ⟨["lat", "lon", "time"], [1, 2, 366], some "mm", (List.range 732).map (fun i => if i % 5 = 0 then .nan else .fin ((i * i % 7 : ℕ) : ℚ))⟩
def leapData : NcFile Q := [("prcp", leapVar), ("lat", rainLat), ("lon", rainLon), ("time", leapTime)]
def leapWorld : World Q := ⟨fun f => if f = "p.nc" then some leapData else if f = "ones.nc" then some (onesFile 30 true 2 366) else none, fun _ => none, []⟩

theorem leap_loads : SpiLoads id (fun _ => 2000) { spiArgs [30] none (some "ones.nc") with periodicity := .daily } leapWorld leapData leapVar leapTime rainLat rainLon 1 2 366 leapVar.data 2000 [30]
    (onesFile 30 true 2 366) where
  input := ⟨⟨"p.nc", rfl, rfl⟩, ⟨"prcp", rfl, rfl, by simp, rain_ne_fitting⟩, ⟨rfl, rfl, by simp [leapVar]⟩, ⟨rfl, rfl, by simp [leapTime]⟩, ⟨rfl, rfl, rfl⟩, ⟨rfl, rfl, rfl⟩⟩
  places := by decide
  coords := by decide +kernel
  coordUnits := by decide
  units := ⟨"mm", rfl, by decide +kernel⟩
  first := ⟨.fin 0, by decide +kernel, rfl⟩
  fresh := rfl
  calendar := .inr ⟨1, rfl, ⟨.fin 365, by decide +kernel, rfl⟩, le_rfl, by decide +kernel, by decide⟩
  load := ⟨"ones.nc", rfl, rfl⟩
  save := rfl
  parameters := by
    refine ⟨fun q hq => .inr ⟨30, (ones_entries 30 true 2 366 q hq).1⟩, by decide +kernel, ?_⟩
    intro s hs
    obtain rfl : s = 30 := by simpa using hs
    intro v hv
    simp only [fitParameters, List.mem_cons, List.not_mem_nil, or_false] at hv
    rcases hv with rfl | rfl | rfl | rfl | rfl | rfl <;> exact ⟨_, rfl, by decide, rfl⟩
  dimensions := fun q hq => .inr (ones_entries 30 true 2 366 q hq).2.1
  complete := by
    intro s _ v _ y hy
    obtain ⟨l1, l2, e, _⟩ := List.lookup_eq_some_iff.1 hy
    have hq : (fittingName v s (decide (Periodicity.daily = .daily)), y) ∈ onesFile 30 true 2 366 := by rw [e]; simp
    rw [(ones_entries 30 true 2 366 _ hq).2.2.2]
    rfl

/-- C128 on daily values: one year of calendar days is enough -/
example (cs ce : Int) : ∃ w', spiMain toyExt (fun _ => 2000) id cs ce "out" 2 { spiArgs [30] none (some "ones.nc") with periodicity := .daily } leapWorld = (.ok (), w') ∧
    w'.written = [("out_spi_gamma_30_day.nc", "spi_gamma_30_day"), ("out_spi_pearson_30_day.nc", "spi_pearson_30_day")] := by
  obtain ⟨w', h1, h2, _⟩ := C128_loads toyExt toyExt_nan (fun _ => 2000) id cs ce "out" 2 (by decide) _ _ leap_loads rfl (by decide)
  exact ⟨w', h1, h2.trans (by decide +kernel)⟩

/-- the two commands of the monthly example; the second one gives no calibration years -/
def saveCommand : SpiCommand := ⟨spiArgs [1, 3] (some "fit.nc") none, "out", some 2000, some 2001, .allButOne⟩
def loadCommand : SpiCommand := ⟨spiArgs [1, 3] none (some "fit.nc"), "again", none, none, .single⟩

theorem save_writable : SpiWritable (fun _ => false) saveCommand := by
  refine ⟨⟨rfl, rfl⟩, (by decide : Periodicity.monthly ≠ .other), ?_⟩
  intro p hp _ t ht
  simp only [saveCommand, spiArgs, List.mem_cons, List.not_mem_nil, or_false] at hp
  rcases hp with rfl | rfl | rfl | rfl | rfl <;> cases ht <;> exact .inl (by decide)

theorem load_writable : SpiWritable (fun _ => false) loadCommand := by
  refine ⟨⟨rfl, rfl⟩, (by decide : Periodicity.monthly ≠ .other), ?_⟩
  intro p hp _ t ht
  simp only [loadCommand, spiArgs, List.mem_cons, List.not_mem_nil, or_false] at hp
  rcases hp with rfl | rfl | rfl | rfl | rfl <;> cases ht <;> exact .inl (by decide)

theorem save_runs (toInt : String → Option Int) (ht : ∀ n : Int, toInt (toString n) = some n) :
    spiTool toyExt toInt 3 id rainYear (spiCommandLine (fun _ => false) saveCommand) rainWorld = (.ended (.ok ()), rainAfter) := by
  unfold spiTool
  rw [C105_spi toInt ht _ _ save_writable]
  simp only [show saveCommand.calibrationStart = some 2000 from rfl, show saveCommand.calibrationEnd = some 2001 from rfl, spiMain_both]
  rw [show spiMain toyExt rainYear id 2000 2001 saveCommand.outputFileBase (numberOfWorkers saveCommand.multiprocessing 3) saveCommand.args rainWorld = (.ok (), rainAfter) from rain_runs]

/-- C129 for them, on a machine with three CPUs: the second command ends without exception, and the Pearson values of scale 1 at both places are those of the first -/
example (toInt : String → Option Int) (ht : ∀ n : Int, toInt (toString n) = some n) :
    ∃ w'' file1 y1 file2 y2, spiTool toyExt toInt 3 id rainYear (spiCommandLine (fun _ => false) loadCommand) { rainAfter with shared := fun _ => none } = (.ended (.ok ()), w'') ∧
      rainAfter.files "out_spi_pearson_1_month.nc" = some file1 ∧ List.lookup "spi_pearson_1_month" file1 = some y1 ∧
      w''.files "again_spi_pearson_1_month.nc" = some file2 ∧ List.lookup "spi_pearson_1_month" file2 = some y2 ∧
      ∀ k < 2, seriesAt 2 24 0 k y2.data = seriesAt 2 24 0 k y1.data := by
  obtain ⟨w'', h1, _, h3⟩ := C129_commands toyExt toyExt_nan toInt ht 3 id rainYear (fun _ => false) (fun _ => false) saveCommand loadCommand save_writable load_writable (by decide) rfl rfl
    (pf := "fit.nc") rfl rfl rainWorld rainAfter rain_usable (.inl rfl) (scales := [1, 3]) rfl (by decide) (by decide) (save_runs toInt ht) rain_keep (fun s dist => fileName_ne (by decide) (by decide))
  obtain ⟨file1, y1, file2, y2, k1, k2, k3, k4, _, _, k7⟩ := h3 [] 1 [3] rfl (by decide) .pearson (.inr rfl) (.fin 23) (by decide +kernel)
  refine ⟨w'', file1, y1, file2, y2, h1, ?_, ?_, ?_, ?_, fun k hk => k7 0 (by decide) k hk (.inl rfl)⟩
  · rw [← k1]; rfl
  · rw [← k2]; rfl
  · rw [← k3]; rfl
  · rw [← k4]; rfl

end CI.Props
