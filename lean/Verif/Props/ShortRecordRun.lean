import Verif.Props.EndToEndTemp64

/-!
# C142, complete runs: the main tool always ends for records of at most three years
-/

namespace CI.Props

open CI FloatOps FloatLaws B64 Spec

variable {F : Type} [FloatOps F]

/-- **C142, a run for SPI.** In any arithmetic and with any calibration years, the documented command line for SPI of monthly precipitation of at most 36 months, any values at any place, ends without
exception; it has written exactly two files per scale, and changed no other file. -/
theorem C142_run_spi [FloatLaws F] (E : Ext F) (hE : ExtNan E) (T : Trig F) (toInt : String → Option Int) (ht : ∀ n : Int, toInt (toString n) = some n) (cpus : Nat) (lower : String → String)
    (yearOf : F → Int) (cmp : CoordCmp F) (j : String → Bool) (c : MainCommand) (hc : Writable j c) (hi : c.args.index = "spi") (cs ce : Int)
    (hcs : c.calibrationStart = some cs) (hce : c.calibrationEnd = some ce) (hcpu : 1 ≤ numberOfWorkers c.multiprocessing cpus) (w : World F) {f v : String} {d : NcFile F} {x : NcVar F}
    {A b n : Nat} {mm : List F} {y0 y1 : Int} (hM : Monthly lower yearOf c.args w f v d x A b n mm y0 y1) (hfresh : w.shared "result_array" = none)
    (scales : List Nat) (hs : c.args.scales = some (scales.map Int.ofNat)) (hsc : ∀ s ∈ scales, 1 ≤ s ∧ s ≤ n) (hn : n ≤ 36) :
    ∃ w', mainTool E T toInt cpus lower yearOf cmp (commandLine j c) w = (.ended (.ok ()), w') ∧ w'.written = w.written ++ entries c.args.outputFileBase (spiOutputs scales) ∧
      ∀ g, (∀ o ∈ spiOutputs scales, g ≠ fileName c.args.outputFileBase o.name) → w'.files g = w.files g := by
  classical
  have hdoc : documented c.args.index false scales = spiOutputs scales := by rw [hi]; rfl
  obtain ⟨it, hlay⟩ : ∃ it, IsLayout it x.shape A b n := by
    rcases hM.layout with ⟨_, h⟩ | ⟨_, h, hb⟩
    · exact ⟨.grid, .inl ⟨rfl, h⟩⟩
    · exact ⟨.divisions, .inr ⟨rfl, h, hb⟩⟩
  have hlen : ∀ i < A, ∀ k < b, (seriesAt b n i k mm).length = n := by
    intro i hi' k hk
    obtain ⟨u, hu, hcv⟩ := hM.units
    exact seriesAt_len hlay (by rw [convert_length.1 hcv]; exact hM.input.wf) hi' hk
  have hall : ∀ o ∈ spiOutputs scales, Computable E cs ce y0 mm A b n o := by
    intro o ho i hi' k hk
    have hl := hlen i hi' k hk
    obtain ⟨s, hs', hd⟩ : ∃ s ∈ scales, o = .spi .pearson s ∨ o = .spi .gamma s := by simpa [spiOutputs, eq_comm] using ho
    have key : ∀ dist, dist ≠ Distribution.other → ∃ r, resultFor E cs ce y0 (.spi dist s) (seriesAt b n i k mm) = .ok r := by
      intro dist hd'
      obtain ⟨r, hr, _⟩ := C142_spi E (seriesAt b n i k mm) s (hsc s hs').1 (by rw [hl]; exact (hsc s hs').2) dist hd' y0 cs ce .monthly (by decide) (by rw [hl]; exact hn)
      exact ⟨r, hr⟩
    rcases hd with rfl | rfl
    · exact key _ (by decide)
    · exact key _ (by decide)
  rw [C106_given E T toInt cpus lower yearOf cmp (commandLine j c) w c (C105_main toInt ht j c hc) cs ce hcs hce]
  obtain ⟨res, w', h1, h2, h3, _, h5⟩ := C113_run E hE T cs ce _ hcpu lower yearOf cmp c.args w (.inl hi) hM hfresh scales hs
  rw [hdoc] at h2 h3 h5
  have htake : (spiOutputs scales).takeWhile (fun o => @decide (Computable E cs ce y0 mm A b n o) (Classical.propDecidable _)) = spiOutputs scales := by
    rw [List.takeWhile_eq_self_iff]
    intro o ho
    exact decide_eq_true (hall o ho)
  rw [htake] at h3 h5
  rw [h1, h2.2 hall]
  exact ⟨w', rfl, h3, h5⟩

/-- **C142, a run for SPEI.** The same for SPEI with a PET file. -/
theorem C142_run_spei [FloatLaws F] (E : Ext F) (hE : ExtNan E) (T : Trig F) (toInt : String → Option Int) (ht : ∀ n : Int, toInt (toString n) = some n) (cpus : Nat) (lower : String → String)
    (yearOf : F → Int) (cmp : CoordCmp F) (j : String → Bool) (c : MainCommand) (hc : Writable j c) (hi : c.args.index = "spei") (cs ce : Int)
    (hcs : c.calibrationStart = some cs) (hce : c.calibrationEnd = some ce) (hcpu : 1 ≤ numberOfWorkers c.multiprocessing cpus) (w : World F) {f v fe ve : String} {d de : NcFile F}
    {x xe : NcVar F} {A b n : Nat} {mm pe : List F} {y0 y1 : Int} (hM : Monthly lower yearOf c.args w f v d x A b n mm y0 y1) (hP : PetFile lower cmp c.args w d x v fe ve de xe pe)
    (hfresh : w.shared "result_array" = none) (scales : List Nat) (hs : c.args.scales = some (scales.map Int.ofNat)) (hsc : ∀ s ∈ scales, 1 ≤ s ∧ s ≤ n) (hn : n ≤ 36) :
    ∃ w', mainTool E T toInt cpus lower yearOf cmp (commandLine j c) w = (.ended (.ok ()), w') ∧ w'.written = w.written ++ entries c.args.outputFileBase (speiOutputs scales) ∧
      ∀ g, (∀ o ∈ speiOutputs scales, g ≠ fileName c.args.outputFileBase o.name) → w'.files g = w.files g := by
  classical
  have hdoc : documented c.args.index true scales = speiOutputs scales := by rw [hi]; rfl
  obtain ⟨it, hlay⟩ : ∃ it, IsLayout it x.shape A b n := by
    rcases hM.layout with ⟨_, h⟩ | ⟨_, h, hb⟩
    · exact ⟨.grid, .inl ⟨rfl, h⟩⟩
    · exact ⟨.divisions, .inr ⟨rfl, h, hb⟩⟩
  have hlen : ∀ i < A, ∀ k < b, (seriesAt b n i k mm).length = n := by
    intro i hi' k hk
    obtain ⟨u, hu, hcv⟩ := hM.units
    exact seriesAt_len hlay (by rw [convert_length.1 hcv]; exact hM.input.wf) hi' hk
  have hlene : ∀ i < A, ∀ k < b, (seriesAt b n i k pe).length = n := by
    intro i hi' k hk
    obtain ⟨u, hu, hcv⟩ := hP.units
    exact seriesAt_len hlay (by rw [convert_length.2.2 hcv, ← hP.shape]; exact hP.input.wf) hi' hk
  have hall : ∀ o ∈ speiOutputs scales, Computable₂ E cs ce y0 mm pe A b n o := by
    intro o ho i hi' k hk
    have hl := hlen i hi' k hk
    have hle := hlene i hi' k hk
    obtain ⟨s, hs', hd⟩ : ∃ s ∈ scales, o = .spei .pearson s ∨ o = .spei .gamma s := by simpa [speiOutputs] using ho
    have key : ∀ dist, dist ≠ Distribution.other → ∃ r, resultFor₂ E cs ce y0 (.spei dist s) (seriesAt b n i k mm) (seriesAt b n i k pe) = .ok r := by
      intro dist hd'
      obtain ⟨r, hr, _⟩ := C142_spei E (seriesAt b n i k mm) (seriesAt b n i k pe) (by rw [hl, hle]) s (hsc s hs').1 (by rw [hl]; exact (hsc s hs').2) dist hd' .monthly (by decide) y0 cs ce
        (by rw [hl]; exact hn)
      exact ⟨r.data, by show (spei E _ _ s dist .monthly y0 cs ce none).map Arr.data = _; rw [hr]; rfl⟩
    rcases hd with rfl | rfl
    · exact key _ (by decide)
    · exact key _ (by decide)
  rw [C106_given E T toInt cpus lower yearOf cmp (commandLine j c) w c (C105_main toInt ht j c hc) cs ce hcs hce]
  obtain ⟨res, w', h1, h2, h3, _, h5⟩ := C116_run E hE T cs ce _ hcpu lower yearOf cmp c.args w (.inl hi) hM hP hfresh scales hs
  rw [hdoc] at h2 h3 h5
  have htake : (speiOutputs scales).takeWhile (fun o => @decide (Computable₂ E cs ce y0 mm pe A b n o) (Classical.propDecidable _)) = speiOutputs scales := by
    rw [List.takeWhile_eq_self_iff]
    intro o ho
    exact decide_eq_true (hall o ho)
  rw [htake] at h3 h5
  rw [h1, h2.2 hall]
  exact ⟨w', rfl, h3, h5⟩

theorem rain_writable : Writable (fun _ => false) ⟨demoArgs "spi" [1], some 1900, some 2050, .single, "none"⟩ := by
  refine ⟨rfl, ?_, (by decide : Periodicity.monthly ≠ .other), (by decide : "none" ∈ ["none", "input"]), ?_⟩
  · show "spi" ∈ _
    decide
  · intro p hp _ t ht
    simp only [demoArgs, List.mem_cons, List.not_mem_nil, or_false] at hp
    rcases hp with rfl | rfl | rfl | rfl | rfl | rfl | rfl | rfl | rfl <;> cases ht <;> exact .inl (by decide)

/-- C142 for fourteen months of rain: with calibration years outside the record the run ends and writes both files -/
example (T : Trig (B64 leftToRight)) (cmp : CoordCmp (B64 leftToRight)) (toInt : String → Option Int) (ht : ∀ n : Int, toInt (toString n) = some n) :
    ∃ w', mainTool nearIndex T toInt 1 id monthYear cmp (commandLine (fun _ => false) ⟨demoArgs "spi" [1], some 1900, some 2050, .single, "none"⟩) exWorld14 = (.ended (.ok ()), w') ∧
      w'.written = [("out_spi_pearson_01.nc", "spi_pearson_01"), ("out_spi_gamma_01.nc", "spi_gamma_01")] := by
  obtain ⟨w', h1, h2, _⟩ := C142_run_spi nearIndex nearIndex_nan T toInt ht 1 id monthYear cmp (fun _ => false) ⟨demoArgs "spi" [1], some 1900, some 2050, .single, "none"⟩ rain_writable rfl 1900 2050 rfl rfl
    (by decide) exWorld14 (ex_rain14 "spi") rfl [1] rfl (by decide) (by decide)
  refine ⟨w', h1, ?_⟩
  rw [h2]
  decide +kernel

end CI.Props
