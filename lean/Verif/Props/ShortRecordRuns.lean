import Verif.Props.ShortRecordRun
import Verif.Props.CliLiveDailySpei
import Verif.Props.SpiCommand
import Verif.Props.SpiToolDays
import Verif.Props.SpiToolLoads
import Verif.Props.EndToEndTemp64

/-!
# C142, further runs: SPEI from temperature, daily values, and the SPI tool
-/

namespace CI.Props

open CI FloatOps FloatLaws Spec

variable {F : Type} [FloatOps F]

/-! ## From temperature -/

/-- **C142, a run for SPEI from temperature.** In any arithmetic and with any calibration years, the documented command line for SPEI from monthly precipitation and temperature of at most 36 months ends
without exception exactly if evapotranspiration can be computed at every place; it has then written the file of evapotranspiration and two files per scale, and changed no other file. -/
theorem C142_run_temp [FloatLaws F] (E : Ext F) (hE : ExtNan E) (T : Trig F) (toInt : String → Option Int) (ht : ∀ n : Int, toInt (toString n) = some n) (cpus : Nat) (lower : String → String)
    (hlow : lower "millimeters" = "millimeters") (yearOf : F → Int) (cmp : CoordCmp F) (j : String → Bool) (c : MainCommand) (hc : Writable j c) (hi : c.args.index = "spei") (cs ce : Int)
    (hcs : c.calibrationStart = some cs) (hce : c.calibrationEnd = some ce) (hcpu : 1 ≤ numberOfWorkers c.multiprocessing cpus) (w : World F) {f v ft vt : String} {d dt : NcFile F}
    {x xt xl : NcVar F} {A b n : Nat} {mm cel : List F} {y0 y1 : Int} (hM : Monthly lower yearOf c.args w f v d x A b n mm y0 y1) (hT : MonthlyTemp lower yearOf c.args w ft vt dt xt xl A b n cel y0 y1)
    (hX : Matching cmp d x dt xt) (hfresh : w.shared "result_array" = none) (scales : List Nat) (hs : c.args.scales = some (scales.map Int.ofNat)) (hsc : ∀ s ∈ scales, 1 ≤ s ∧ s ≤ n) (hn : n ≤ 36) :
    ∃ res w', mainTool E T toInt cpus lower yearOf cmp (commandLine j c) w = (.ended res, w') ∧
      (res = .ok () ↔ ∀ i < A, ∀ k < b, ∃ e, pet T (Arr.of1d (seriesAt b n i k cel)) xl.data[i]? y0 = .ok e) ∧
      (res = .ok () → w'.written = w.written ++ entries c.args.outputFileBase (.pet :: speiOutputs scales) ∧
        ∀ g, (∀ o ∈ .pet :: speiOutputs scales, g ≠ fileName c.args.outputFileBase o.name) → w'.files g = w.files g) := by
  classical
  have hdoc : documented c.args.index false scales = .pet :: speiOutputs scales := by rw [hi]; rfl
  obtain ⟨it, hlay⟩ : ∃ it, IsLayout it x.shape A b n := by
    rcases hM.layout with ⟨_, h⟩ | ⟨_, h, hb⟩
    · exact ⟨.grid, .inl ⟨rfl, h⟩⟩
    · exact ⟨.divisions, .inr ⟨rfl, h, hb⟩⟩
  have hlen : ∀ i < A, ∀ k < b, (seriesAt b n i k mm).length = n := by
    intro i hi' k hk
    obtain ⟨u, hu, hcv⟩ := hM.units
    exact seriesAt_len hlay (by rw [convert_length.1 hcv]; exact hM.input.wf) hi' hk
  have hlent : ∀ i < A, ∀ k < b, (seriesAt b n i k cel).length = n := by
    intro i hi' k hk
    obtain ⟨u, hu, hcv⟩ := hT.units
    obtain ⟨it, hlay⟩ : ∃ it, IsLayout it xt.shape A b n := by
      rcases hT.layout with ⟨_, h⟩ | ⟨_, h, hb⟩
      · exact ⟨.grid, .inl ⟨rfl, h⟩⟩
      · exact ⟨.divisions, .inr ⟨rfl, h, hb⟩⟩
    exact seriesAt_len hlay (by rw [convert_length.2.1 hcv]; exact hT.input.wf) hi' hk
  have hall : (∀ i < A, ∀ k < b, ∃ e, pet T (Arr.of1d (seriesAt b n i k cel)) xl.data[i]? y0 = .ok e) →
      ∀ o ∈ .pet :: speiOutputs scales, Computable₃ E T cs ce y0 mm cel xl.data A b n o := by
    intro hp o ho i hi' k hk
    obtain ⟨e, he⟩ := hp i hi' k hk
    have hl := hlen i hi' k hk
    have hle : e.length = n := (pet_size T _ _ _ _ he).trans (hlent i hi' k hk)
    have key : ∀ s ∈ scales, ∀ dist, dist ≠ Distribution.other → ∃ r, resultFor₃ E T cs ce y0 xl.data[i]? (.spei dist s) (seriesAt b n i k mm) (seriesAt b n i k cel) = .ok r := by
      intro s hs' dist hd'
      obtain ⟨r, hr, _⟩ := C142_spei E (seriesAt b n i k mm) e (by rw [hl, hle]) s (hsc s hs').1 (by rw [hl]; exact (hsc s hs').2) dist hd' .monthly (by decide) y0 cs ce
        (by rw [hl]; exact hn)
      refine ⟨r.data, ?_⟩
      show (pet T _ _ y0).bind (fun e => (spei E _ (Arr.of1d e) s dist .monthly y0 cs ce none).map Arr.data) = _
      rw [he]
      show (spei E _ (Arr.of1d e) s dist .monthly y0 cs ce none).map Arr.data = _
      rw [hr]
      rfl
    rcases List.mem_cons.1 ho with rfl | ho
    · exact ⟨e, he⟩
    · obtain ⟨s, hs', hd⟩ : ∃ s ∈ scales, o = .spei .pearson s ∨ o = .spei .gamma s := by simpa [speiOutputs] using ho
      rcases hd with rfl | rfl
      · exact key s hs' _ (by decide)
      · exact key s hs' _ (by decide)
  rw [C106_given E T toInt cpus lower yearOf cmp (commandLine j c) w c (C105_main toInt ht j c hc) cs ce hcs hce]
  obtain ⟨res, w', h1, h2, h3, _, h5⟩ := C117_run E hE T cs ce _ hcpu lower hlow yearOf cmp c.args w (.inl hi) hM hT hX hfresh scales hs
  rw [hdoc] at h2 h3 h5
  rw [h1]
  refine ⟨res, w', rfl, ⟨fun h => h2.1 h .pet (by simp), fun h => h2.2 (hall h)⟩, fun h => ?_⟩
  have htake : (.pet :: speiOutputs scales).takeWhile (fun o => @decide (Computable₃ E T cs ce y0 mm cel xl.data A b n o) (Classical.propDecidable _)) = .pet :: speiOutputs scales := by
    rw [List.takeWhile_eq_self_iff]
    intro o ho
    exact decide_eq_true (h2.1 h o ho)
  rw [htake] at h3 h5
  exact ⟨h3, h5⟩

/-! ## Daily values -/

theorem day_series {lower : String → String} {yearOf : F → Int} {a : CliArgs} {w : World F} {f v : String} {d : NcFile F} {x : NcVar F} {A b n Y : Nat} {mm : List F} {y0 y1 : Int}
    (hM : DailyGrid lower yearOf a w f v d x A b n mm y0 y1 Y) : x.shape = [A, b, n] ∧ ∀ i < A, ∀ k < b, (place366 y0 Y (seriesAt b n i k mm)).length = Y * 366 := by
  obtain ⟨u, hu, hc⟩ := hM.ready.units
  have hsh : x.shape = [A, b, n] := by
    rcases hM.ready.layout with ⟨_, h⟩ | ⟨h, _⟩
    · exact h
    · rw [hM.grid] at h; simp at h
  refine ⟨hsh, fun i hi k hk => days366_length _ y0 Y ?_⟩
  rw [← hM.whole]
  exact seriesAt_len (.inl ⟨rfl, hsh⟩ : IsLayout .grid x.shape A b n) (by rw [convert_length.1 hc]; exact hM.ready.input.wf) hi hk

/-- **C142, a daily run for SPI.** The same for SPI of daily precipitation of at most three whole years on a grid. -/
theorem C142_run_daily [FloatLaws F] (E : Ext F) (hE : ExtNan E) (T : Trig F) (toInt : String → Option Int) (ht : ∀ n : Int, toInt (toString n) = some n) (cpus : Nat) (lower : String → String)
    (yearOf : F → Int) (cmp : CoordCmp F) (j : String → Bool) (c : MainCommand) (hc : Writable j c) (hi : c.args.index = "spi") (cs ce : Int)
    (hcs : c.calibrationStart = some cs) (hce : c.calibrationEnd = some ce) (hcpu : 1 ≤ numberOfWorkers c.multiprocessing cpus) (w : World F) {f v : String} {d : NcFile F} {x : NcVar F}
    {A b n Y : Nat} {mm : List F} {y0 y1 : Int} (hM : DailyGrid lower yearOf c.args w f v d x A b n mm y0 y1 Y) (hfresh : w.shared "result_array" = none)
    (scales : List Nat) (hs : c.args.scales = some (scales.map Int.ofNat)) (hsc : ∀ s ∈ scales, 1 ≤ s ∧ s ≤ Y * 366) (hn : Y ≤ 3) :
    ∃ w', mainTool E T toInt cpus lower yearOf cmp (commandLine j c) w = (.ended (.ok ()), w') ∧ w'.written = w.written ++ entries c.args.outputFileBase (spiOutputs scales) ∧
      ∀ g, (∀ o ∈ spiOutputs scales, g ≠ fileName c.args.outputFileBase o.name) → w'.files g = w.files g := by
  classical
  have hdoc : documented c.args.index false scales = spiOutputs scales := by rw [hi]; rfl
  have hall : ∀ o ∈ spiOutputs scales, ComputableDaily E cs ce y0 Y mm A b n o := by
    intro o ho i hi' k hk
    have hl : (place366 y0 Y (seriesAt b n i k mm)).length = Y * 366 := (day_series hM).2 i hi' k hk
    obtain ⟨s, hs', hd⟩ : ∃ s ∈ scales, o = .spi .pearson s ∨ o = .spi .gamma s := by simpa [spiOutputs, eq_comm] using ho
    have key : ∀ dist, dist ≠ Distribution.other → ∃ r, resultDaily E cs ce y0 Y (.spi dist s) (seriesAt b n i k mm) = .ok r := by
      intro dist hd'
      obtain ⟨r, hr, _⟩ := C142_spi E (place366 y0 Y (seriesAt b n i k mm)) s (hsc s hs').1 (by rw [hl]; exact (hsc s hs').2) dist hd' y0 cs ce .daily (by decide)
        (by rw [hl]; exact Nat.mul_le_mul_right 366 hn)
      exact ⟨calendarDays y0 Y r, by unfold resultDaily; simp only []; rw [hr]; rfl⟩
    rcases hd with rfl | rfl
    · exact key _ (by decide)
    · exact key _ (by decide)
  rw [C106_given E T toInt cpus lower yearOf cmp (commandLine j c) w c (C105_main toInt ht j c hc) cs ce hcs hce]
  obtain ⟨res, w', h1, h2, h3, _, h5⟩ := C122_run E hE T cs ce _ hcpu lower yearOf cmp c.args w (.inl hi) hM hfresh scales hs
  rw [hdoc] at h2 h3 h5
  have htake : (spiOutputs scales).takeWhile (fun o => @decide (ComputableDaily E cs ce y0 Y mm A b n o) (Classical.propDecidable _)) = spiOutputs scales := by
    rw [List.takeWhile_eq_self_iff]
    intro o ho
    exact decide_eq_true (hall o ho)
  rw [htake] at h3 h5
  rw [h1, h2.2 hall]
  exact ⟨w', rfl, h3, h5⟩

/-- **C142, a daily run for SPEI.** The same for SPEI of daily precipitation of at most three whole years on a grid, with a daily PET file. -/
theorem C142_run_daily_spei [FloatLaws F] (E : Ext F) (hE : ExtNan E) (T : Trig F) (toInt : String → Option Int) (ht : ∀ n : Int, toInt (toString n) = some n) (cpus : Nat) (lower : String → String)
    (yearOf : F → Int) (cmp : CoordCmp F) (j : String → Bool) (c : MainCommand) (hc : Writable j c) (hi : c.args.index = "spei") (cs ce : Int)
    (hcs : c.calibrationStart = some cs) (hce : c.calibrationEnd = some ce) (hcpu : 1 ≤ numberOfWorkers c.multiprocessing cpus) (w : World F) {f v fe ve : String} {d de : NcFile F} {x xe : NcVar F}
    {A b n Y : Nat} {mm pe : List F} {y0 y1 : Int} (hM : DailyGrid lower yearOf c.args w f v d x A b n mm y0 y1 Y) (hP : PetFile lower cmp c.args w d x v fe ve de xe pe) (hfresh : w.shared "result_array" = none)
    (scales : List Nat) (hs : c.args.scales = some (scales.map Int.ofNat)) (hsc : ∀ s ∈ scales, 1 ≤ s ∧ s ≤ Y * 366) (hn : Y ≤ 3) :
    ∃ w', mainTool E T toInt cpus lower yearOf cmp (commandLine j c) w = (.ended (.ok ()), w') ∧ w'.written = w.written ++ entries c.args.outputFileBase (speiOutputs scales) ∧
      ∀ g, (∀ o ∈ speiOutputs scales, g ≠ fileName c.args.outputFileBase o.name) → w'.files g = w.files g := by
  classical
  have hdoc : documented c.args.index true scales = speiOutputs scales := by rw [hi]; rfl
  have hall : ∀ o ∈ speiOutputs scales, ComputableDaily₂ E cs ce y0 Y mm pe A b n o := by
    intro o ho i hi' k hk
    have hl : (place366 y0 Y (seriesAt b n i k mm)).length = Y * 366 := (day_series hM).2 i hi' k hk
    have hle : (place366 y0 Y (seriesAt b n i k pe)).length = Y * 366 := by
      obtain ⟨u, hu, hcv⟩ := hP.units
      refine days366_length _ y0 Y ?_
      rw [← hM.whole]
      exact seriesAt_len (.inl ⟨rfl, (day_series hM).1⟩ : IsLayout .grid x.shape A b n) (by rw [convert_length.2.2 hcv, ← hP.shape]; exact hP.input.wf) hi' hk
    obtain ⟨s, hs', hd⟩ : ∃ s ∈ scales, o = .spei .pearson s ∨ o = .spei .gamma s := by simpa [speiOutputs] using ho
    have key : ∀ dist, dist ≠ Distribution.other → ∃ r, resultDaily₂ E cs ce y0 Y (.spei dist s) (seriesAt b n i k mm) (seriesAt b n i k pe) = .ok r := by
      intro dist hd'
      obtain ⟨r, hr, _⟩ := C142_spei E (place366 y0 Y (seriesAt b n i k mm)) (place366 y0 Y (seriesAt b n i k pe)) (by rw [hl, hle]) s (hsc s hs').1 (by rw [hl]; exact (hsc s hs').2) dist hd' .daily (by decide) y0 cs ce
        (by rw [hl]; exact Nat.mul_le_mul_right 366 hn)
      exact ⟨calendarDays y0 Y r.data, by unfold resultDaily₂; simp only []; rw [hr]; rfl⟩
    rcases hd with rfl | rfl
    · exact key _ (by decide)
    · exact key _ (by decide)
  rw [C106_given E T toInt cpus lower yearOf cmp (commandLine j c) w c (C105_main toInt ht j c hc) cs ce hcs hce]
  obtain ⟨res, w', h1, h2, h3, _, h5⟩ := C124_run E hE T cs ce _ hcpu lower yearOf cmp c.args w (.inl hi) hM hP hfresh scales hs
  rw [hdoc] at h2 h3 h5
  have htake : (speiOutputs scales).takeWhile (fun o => @decide (ComputableDaily₂ E cs ce y0 Y mm pe A b n o) (Classical.propDecidable _)) = speiOutputs scales := by
    rw [List.takeWhile_eq_self_iff]
    intro o ho
    exact decide_eq_true (hall o ho)
  rw [htake] at h3 h5
  rw [h1, h2.2 hall]
  exact ⟨w', rfl, h3, h5⟩

/-! ## The SPI tool -/

/-- the tool's fit of a short record is total -/
theorem fitted_short [FloatLaws F] (E : Ext F) (l : List F) (k : ℕ) (h1 : 1 ≤ k) (h2 : k ≤ l.length) (dist : Distribution) (hd : dist ≠ .other) (ds cs ce : ℤ) (per : Periodicity) (hper : per ≠ .other)
    (h3 : l.length ≤ 3 * per.steps) : ∃ fp, fittedParameters E dist l k ds cs ce per = .ok fp := by
  have hx : ∃ x, scaleValues (Arr.of1d l) k per = .ok x ∧ (x = Arr.of1d l ∧ allNan l = true ∨ ∃ n data, x = ⟨[n, per.steps], data⟩ ∧ data.length = n * per.steps ∧ n ≤ 3) := by
    unfold scaleValues
    rw [if_pos (show (Arr.of1d l).shape.length = 2 ∨ (Arr.of1d l).shape.length = 1 from Or.inr rfl)]
    cases hn : allNan l with
    | true => exact ⟨Arr.of1d l, by rw [if_pos (show allNan (Arr.of1d l).data = true from hn)]; rfl, .inl ⟨rfl, rfl⟩⟩
    | false =>
      rw [if_neg (by rw [show (Arr.of1d l).data = l from rfl, hn]; simp)]
      obtain ⟨m, hm⟩ : ∃ m, amin (Arr.of1d l).data = .ok m := by
        cases l with
        | nil => simp at h2; omega
        | cons a l =>
          show ∃ m, (if (a :: l).any isNan then _ else _) = _
          split
          · exact ⟨_, rfl⟩
          · exact ⟨_, rfl⟩
      rw [hm]
      simp only [bind, Except.bind]
      generalize hg : (if flt m (lit 0) = true then (Arr.of1d l).data.map (npClipMin (lit 0)) else (Arr.of1d l).data) = data
      have hlen : data.length = l.length := by
        rw [← hg]
        split <;> simp [Arr.of1d]
      obtain ⟨s, hs, hsl, _⟩ := C07_windows_partial data k h1 (by rw [hlen]; exact h2)
      obtain ⟨n, hr, hl⟩ := reshapeValues_total s per hper
      rw [hs]
      refine ⟨_, ?_, .inr ⟨n, _, rfl, hl, short_years n (by rw [← hl, List.length_append, List.length_replicate]) (steps_pos per hper) (by rw [hsl, hlen]; exact h3)⟩⟩
      rw [← hr]
      cases per with
      | other => exact absurd rfl hper
      | monthly => rfl
      | daily => rfl
  obtain ⟨x, hx, hc⟩ := hx
  unfold fittedParameters
  rw [hx]
  simp only [bind, Except.bind]
  cases dist with
  | other => exact absurd rfl hd
  | gamma =>
    suffices ∃ ab, gammaParameters E x ds cs ce per = .ok ab by
      obtain ⟨ab, h⟩ := this
      simp only [h]
      exact ⟨_, rfl⟩
    have hall : ∀ x : Arr F, allNan x.data = true → ∃ ab, gammaParameters E x ds cs ce per = .ok ab := by
      intro x h
      unfold gammaParameters
      rw [if_pos h]
      cases per with
      | other => exact absurd rfl hper
      | monthly => exact ⟨_, rfl⟩
      | daily => exact ⟨_, rfl⟩
    rcases hc with ⟨rfl, hn⟩ | ⟨n, data, rfl, _, _⟩
    · exact hall _ hn
    · cases hn : allNan data with
      | true => exact hall _ hn
      | false => exact ⟨_, gammaParameters_2d E n _ _ ds cs ce per (steps_12_366 per hper) hn⟩
  | pearson =>
    suffices ∃ ps, pearsonParameters (lmomentsFit E) x ds cs ce per = .ok ps by
      obtain ⟨ps, h⟩ := this
      simp only [h]
      exact ⟨_, rfl⟩
    obtain ⟨n, data, hr, hl, hn⟩ : ∃ n data, reshapeValues x per = .ok ⟨[n, per.steps], data⟩ ∧ data.length = n * per.steps ∧ n ≤ 3 := by
      rcases hc with ⟨rfl, _⟩ | ⟨n, data, rfl, hl, hn⟩
      · obtain ⟨n, hr, hl⟩ := reshapeValues_total l per hper
        exact ⟨n, _, hr, hl, short_years n (by rw [← hl, List.length_append, List.length_replicate]) (steps_pos per hper) h3⟩
      · exact ⟨n, data, by
          cases per with
          | other => exact absurd rfl hper
          | monthly => rfl
          | daily => rfl, hl, hn⟩
    unfold pearsonParameters
    rw [hr]
    obtain ⟨ps, hps⟩ := pearsonFits_short (lmomentsFit E) n per.steps data hl hn ds cs ce
    refine ⟨ps, ?_⟩
    simp only [bind, Except.bind]
    rw [show validateValuesShape (⟨[n, per.steps], data⟩ : Arr F) = .ok per.steps from if_pos (steps_12_366 per hper)]
    exact hps


/-- **C142, the SPI tool.** In any arithmetic and with any calibration years, the documented command line of the SPI tool, for monthly precipitation of at most 36 months, any values at any place, ends
without exception; it has written exactly two files per scale and the fitting parameters if asked for, and changed no other file. -/
theorem C142_tool [FloatLaws F] (E : Ext F) (hE : ExtNan E) (toInt : String → Option Int) (ht : ∀ n : Int, toInt (toString n) = some n) (cpus : Nat) (lower : String → String)
    (yearOf : F → Int) (j : String → Bool) (c : SpiCommand) (hc : SpiWritable j c) (cs ce : Int) (hcs : c.calibrationStart = some cs) (hce : c.calibrationEnd = some ce)
    (hcpu : 1 ≤ numberOfWorkers c.multiprocessing cpus) (w : World F) {d : NcFile F} {x t lat lon : NcVar F} {A B N : Nat} {mm : List F} {y0 : Int}
    (h : SpiReady lower yearOf c.args w d x t lat lon A B N mm y0) (scales : List Nat) (hs : c.args.scales = some (scales.map Int.ofNat)) (hsc : ∀ s ∈ scales, 1 ≤ s ∧ s ≤ N) (hn : N ≤ 36) :
    ∃ w', spiTool E toInt cpus lower yearOf (spiCommandLine j c) w = (.ended (.ok ()), w') ∧
      w'.written = w.written ++ monthlySpiFiles c.outputFileBase scales ++ (c.args.saveParams.map (fun f => (f, ""))).toList ∧
      ∀ f, (∀ p ∈ monthlySpiFiles c.outputFileBase scales, f ≠ p.1) → c.args.saveParams ≠ some f → w'.files f = w.files f := by
  have hpos : ∀ s ∈ scales.map Int.ofNat, 0 ≤ s := by
    intro s hs'
    obtain ⟨n, _, rfl⟩ := List.mem_map.1 hs'
    exact Int.natCast_nonneg n
  have hlen : ∀ i < A, ∀ k < B, (seriesAt B N i k mm).length = N := by
    intro i hi k hk
    obtain ⟨u, hu, hcv⟩ := h.units
    have := seriesAt_len (.inl ⟨rfl, h.input.grid.2.1⟩ : IsLayout .grid x.shape A B N) (by rw [convert_length.1 hcv, h.input.grid.2.1]; simpa using h.input.grid.2.2) hi hk
    exact this
  have hser : ∀ done (l : List F), (toolSeries .monthly done l).length = l.length := by
    intro done l
    unfold toolSeries
    split
    · rw [List.length_map]
    · rfl
  have hall : ∀ pre sd post, processingOrder (scales.map Int.ofNat) = pre ++ sd :: post → Feasible E cs ce y0 A B N mm pre sd := by
    intro pre sd post e i hi k hk
    have hm : sd ∈ processingOrder (scales.map Int.ofNat) := by rw [e]; simp
    obtain ⟨s, hs', hsd⟩ := List.mem_map.1 (order_mem hm)
    have hd : sd.2 ≠ .other := by rcases order_dist _ sd hm with e | e <;> rw [e] <;> simp
    have hl := hlen i hi k hk
    obtain ⟨s1, s2⟩ := hsc s hs'
    rw [← hsd]
    refine ⟨fitted_short E _ s s1 (by rw [hser, hl]; exact s2) sd.2 hd y0 cs ce _ (by decide) (by rw [hser, hl]; exact hn), ?_⟩
    obtain ⟨out, ho, _⟩ := C142_spi E (toolSeries .monthly ((pre ++ [sd]).map Prod.fst) (seriesAt B N i k mm)) s s1 (by rw [hser, hl]; exact s2) sd.2 hd y0 cs ce .monthly (by decide)
      (by rw [hser, hl]; exact hn)
    exact ⟨out, ho⟩
  obtain ⟨res, w', good, rest, r1, r2, _, r4, r5, r6, _, r8⟩ :=
    C118_run E hE yearOf lower cs ce c.outputFileBase (numberOfWorkers c.multiprocessing cpus) hcpu c.args w h hs hpos
  have hrest : rest = [] := by
    cases rest with
    | nil => rfl
    | cons sd post => exact absurd (hall good sd post r2) (r4 sd post rfl)
  have hfin := r5.2 hrest
  subst hfin hrest
  rw [List.append_nil] at r2
  subst r2
  rw [if_pos rfl, order_files] at r6
  refine ⟨w', ?_, r6, ?_⟩
  · unfold spiTool
    rw [C105_spi toInt ht j c hc]
    simp only [hcs, hce, spiMain_both, r1]
  · intro f hf hf'
    refine r8 f (fun sd hsd e => hf (fileName c.outputFileBase (spiName sd.2 sd.1 false), spiName sd.2 sd.1 false) ?_ e) (fun _ => hf')
    rw [← order_files]
    exact List.mem_map.2 ⟨sd, hsd, rfl⟩

/-- **C142, the SPI tool on daily values.** The same for the days of at most three whole years. -/
theorem C142_tool_daily [FloatLaws F] (E : Ext F) (hE : ExtNan E) (toInt : String → Option Int) (ht : ∀ n : Int, toInt (toString n) = some n) (cpus : Nat) (lower : String → String)
    (yearOf : F → Int) (j : String → Bool) (c : SpiCommand) (hc : SpiWritable j c) (cs ce : Int) (hcs : c.calibrationStart = some cs) (hce : c.calibrationEnd = some ce)
    (hcpu : 1 ≤ numberOfWorkers c.multiprocessing cpus) (w : World F) {d : NcFile F} {x t lat lon : NcVar F} {A B N Y : Nat} {mm : List F} {y0 : Int}
    (h : SpiDays lower yearOf c.args w d x t lat lon A B N mm y0 Y) (scales : List Nat) (hs : c.args.scales = some (scales.map Int.ofNat)) (hsc : ∀ s ∈ scales, 1 ≤ s ∧ s ≤ Y * 366) (hn : Y ≤ 3) :
    ∃ w', spiTool E toInt cpus lower yearOf (spiCommandLine j c) w = (.ended (.ok ()), w') ∧
      w'.written = w.written ++ dailySpiFiles c.outputFileBase scales ++ (c.args.saveParams.map (fun f => (f, ""))).toList ∧
      ∀ f, (∀ p ∈ dailySpiFiles c.outputFileBase scales, f ≠ p.1) → c.args.saveParams ≠ some f → w'.files f = w.files f := by
  have hpos : ∀ s ∈ scales.map Int.ofNat, 0 ≤ s := by
    intro s hs'
    obtain ⟨n, _, rfl⟩ := List.mem_map.1 hs'
    exact Int.natCast_nonneg n
  have hlen : ∀ i < A, ∀ k < B, (place366 y0 Y (seriesAt B N i k mm)).length = Y * 366 := by
    intro i hi k hk
    obtain ⟨u, hu, hcv⟩ := h.units
    have := seriesAt_len (.inl ⟨rfl, h.input.grid.2.1⟩ : IsLayout .grid x.shape A B N) (by rw [convert_length.1 hcv, h.input.grid.2.1]; simpa using h.input.grid.2.2) hi hk
    exact days366_length _ y0 Y (this.trans h.whole)
  have hser : ∀ done (l : List F), (toolSeries .daily done l).length = l.length := by
    intro done l
    unfold toolSeries
    split
    · rw [List.length_map]
    · rfl
  have hall : ∀ pre sd post, processingOrder (scales.map Int.ofNat) = pre ++ sd :: post → FeasibleDays E cs ce y0 Y A B N mm pre sd := by
    intro pre sd post e i hi k hk
    have hm : sd ∈ processingOrder (scales.map Int.ofNat) := by rw [e]; simp
    obtain ⟨s, hs', hsd⟩ := List.mem_map.1 (order_mem hm)
    have hd : sd.2 ≠ .other := by rcases order_dist _ sd hm with e | e <;> rw [e] <;> simp
    have hl := hlen i hi k hk
    obtain ⟨s1, s2⟩ := hsc s hs'
    rw [← hsd]
    refine ⟨fitted_short E _ s s1 (by rw [hser, hl]; exact s2) sd.2 hd y0 cs ce _ (by decide) (by rw [hser, hl]; exact Nat.mul_le_mul_right 366 hn), ?_⟩
    obtain ⟨out, ho, _⟩ := C142_spi E (toolSeries .daily ((pre ++ [sd]).map Prod.fst) (place366 y0 Y (seriesAt B N i k mm))) s s1 (by rw [hser, hl]; exact s2) sd.2 hd y0 cs ce .daily (by decide)
      (by rw [hser, hl]; exact Nat.mul_le_mul_right 366 hn)
    exact ⟨out, ho⟩
  obtain ⟨res, w', good, rest, r1, r2, _, r4, r5, r6, _, r8⟩ :=
    C126_run E hE yearOf lower cs ce c.outputFileBase (numberOfWorkers c.multiprocessing cpus) hcpu c.args w h hs hpos
  have hrest : rest = [] := by
    cases rest with
    | nil => rfl
    | cons sd post => exact absurd (hall good sd post r2) (r4 sd post rfl)
  have hfin := r5.2 hrest
  subst hfin hrest
  rw [List.append_nil] at r2
  subst r2
  rw [if_pos rfl, order_day_files] at r6
  refine ⟨w', ?_, r6, ?_⟩
  · unfold spiTool
    rw [C105_spi toInt ht j c hc]
    simp only [hcs, hce, spiMain_both, r1]
  · intro f hf hf'
    refine r8 f (fun sd hsd e => hf (fileName c.outputFileBase (spiName sd.2 sd.1 true), spiName sd.2 sd.1 true) ?_ e) (fun _ => hf')
    rw [← order_day_files]
    exact List.mem_map.2 ⟨sd, hsd, rfl⟩

/-! ## Cases: fourteen months, and the leap year 2000 at two places with days missing, with calibration years outside the record -/

/-- C142 from temperature: the run ends exactly if evapotranspiration can be computed -/
example (T : Trig (B64 leftToRight)) (cmp : CoordCmp (B64 leftToRight)) (hcmp : ∀ l, cmp.close l l = .ok true ∧ cmp.equal l l = true) (toInt : String → Option Int)
    (ht : ∀ n : Int, toInt (toString n) = some n) (e : List (B64 leftToRight)) (he : pet T (Arr.of1d exTemps.data) (some (lit 45.5)) 2000 = .ok e) :
    ∃ w', mainTool nearIndex T toInt 1 id monthYear cmp (commandLine (fun _ => false) (warmCommand "spei" (some 1900) (some 2050))) exWorld14 = (.ended (.ok ()), w') ∧
      w'.written = [("out_pet_thornthwaite.nc", "pet_thornthwaite"), ("out_spei_pearson_01.nc", "spei_pearson_01"), ("out_spei_gamma_01.nc", "spei_gamma_01")] := by
  obtain ⟨res, w', h1, h2, h3⟩ := C142_run_temp nearIndex nearIndex_nan T toInt ht 1 id rfl monthYear cmp (fun _ => false) (warmCommand "spei" (some 1900) (some 2050)) (warm_writable (by decide) _ _) rfl
    1900 2050 rfl rfl (by decide) exWorld14 (ex_rain14 "spei") (ex_temp14 "spei") (ex_matching14 cmp hcmp) rfl [1] rfl (by decide) (by decide)
  have hok : res = .ok () := h2.2 (by
    intro i hi k hk
    obtain rfl : i = 0 := by omega
    obtain rfl : k = 0 := by omega
    exact ⟨e, he⟩)
  subst hok
  refine ⟨w', h1, (h3 rfl).1.trans ?_⟩
  decide +kernel

def leapPet : NcVar Q := ⟨["lat", "lon", "time"], [1, 2, 366], some "mm", (List.range 732).map (fun i => if i % 9 = 0 then .nan else .fin ((i % 4 : ℕ) : ℚ))⟩
def leapPetData : NcFile Q := [("pet", leapPet), ("lat", rainLat), ("lon", rainLon), ("time", leapTime)]
def leapPetWorld : World Q := ⟨fun f => if f = "p.nc" then some leapData else if f = "e.nc" then some leapPetData else none, fun _ => none, []⟩

theorem leap_daily (a : CliArgs) (ha : a = dailyArgs "spi" [1, 30] ∨ a = dayPetArgs "spei") :
    DailyGrid id (fun _ => 2000) a leapPetWorld "p.nc" "prcp" leapData leapVar 1 2 366 leapVar.data 2000 2000 1 := by
  refine ⟨⟨⟨?_, ?_, rfl, rfl, by simp [leapVar], by decide, ?_⟩, .inl ⟨rfl, rfl⟩, by decide, ?_, ?_, ⟨leapTime, .fin ((0 : ℕ) : ℚ), .fin ((365 : ℕ) : ℚ), rfl, ?_, ?_, rfl, rfl⟩, ⟨"mm", rfl, ?_⟩⟩, rfl, by decide, ?_, by decide,
    by decide, by decide⟩
  · rcases ha with rfl | rfl <;> rfl
  · rcases ha with rfl | rfl <;> rfl
  · rcases ha with rfl | rfl <;> exact demo_notOutput _ (by decide)
  · intro c hc
    rcases (show c = "lat" ∨ c = "lon" ∨ c = "time" by simpa [leapVar] using hc) with rfl | rfl | rfl
    · exact ⟨_, rfl⟩
    · exact ⟨_, rfl⟩
    · exact ⟨_, rfl⟩
  · intro h
    exact absurd h (by simp [leapVar])
  · simp [leapTime, List.head?_range]
  · simp [leapTime, List.getLast?_range]
  · unfold convertPrecip
    rw [if_pos (by decide)]
  · rcases ha with rfl | rfl <;> rfl

theorem leap_pet (cmp : CoordCmp Q) (hcmp : ∀ l, cmp.close l l = .ok true ∧ cmp.equal l l = true) :
    PetFile id cmp (dayPetArgs "spei") leapPetWorld leapData leapVar "prcp" "e.nc" "pet" leapPetData leapPet leapPet.data := by
  refine ⟨⟨rfl, rfl, rfl, rfl, by simp [leapPet], by decide, demo_notOutput _ (by decide)⟩, rfl, rfl, by decide, .inl rfl, ?_, fun c _ y _ => hcmp y.data, ?_, ⟨"mm", rfl, ?_⟩, rfl⟩
  · intro c hc
    rcases (show c = "lat" ∨ c = "lon" ∨ c = "time" by simpa [leapVar] using hc) with rfl | rfl | rfl
    · exact ⟨_, _, rfl, rfl, rfl⟩
    · exact ⟨_, _, rfl, rfl, rfl⟩
    · exact ⟨_, _, rfl, rfl, rfl⟩
  · intro c x y h1 h2 h3 h4
    simp only [leapData, leapPetData, List.mem_cons, Prod.mk.injEq, List.not_mem_nil, or_false] at h1 h2
    rcases h1 with ⟨rfl, rfl⟩ | ⟨rfl, rfl⟩ | ⟨rfl, rfl⟩ | ⟨rfl, rfl⟩
    · exact absurd h3 (by simp [leapVar])
    all_goals
      rcases h2 with ⟨e, rfl⟩ | ⟨e, rfl⟩ | ⟨e, rfl⟩ | ⟨e, rfl⟩
      · exact absurd e (by decide)
      all_goals first | exact absurd e (by decide) | rfl
  · unfold convertPet
    rw [if_pos (by decide)]

theorem leap_writable : Writable (fun _ => false) ⟨dailyArgs "spi" [1, 30], some 1900, some 2050, .single, "none"⟩ := by
  refine ⟨rfl, ?_, (by decide : Periodicity.daily ≠ .other), (by decide : "none" ∈ ["none", "input"]), ?_⟩
  · show "spi" ∈ _
    decide
  · intro p hp _ t ht
    simp only [dailyArgs, demoArgs, List.mem_cons, List.not_mem_nil, or_false] at hp
    rcases hp with rfl | rfl | rfl | rfl | rfl | rfl | rfl | rfl | rfl <;> cases ht <;> exact .inl (by decide)

theorem leap_pet_writable : Writable (fun _ => false) ⟨dayPetArgs "spei", some 1900, some 2050, .single, "none"⟩ := by
  refine ⟨rfl, ?_, (by decide : Periodicity.daily ≠ .other), (by decide : "none" ∈ ["none", "input"]), ?_⟩
  · show "spei" ∈ _
    decide
  · intro p hp _ t ht
    simp only [dayPetArgs, dailyArgs, demoArgs, List.mem_cons, List.not_mem_nil, or_false] at hp
    rcases hp with rfl | rfl | rfl | rfl | rfl | rfl | rfl | rfl | rfl <;> cases ht <;> exact .inl (by decide)

/-- C142 for the days of the year 2000: four files -/
example (E : Ext Q) (hE : ExtNan E) (T : Trig Q) (cmp : CoordCmp Q) (toInt : String → Option Int) (ht : ∀ n : Int, toInt (toString n) = some n) :
    ∃ w', mainTool E T toInt 1 id (fun _ => 2000) cmp (commandLine (fun _ => false) ⟨dailyArgs "spi" [1, 30], some 1900, some 2050, .single, "none"⟩) leapPetWorld = (.ended (.ok ()), w') ∧
      w'.written = [("out_spi_pearson_01.nc", "spi_pearson_01"), ("out_spi_gamma_01.nc", "spi_gamma_01"), ("out_spi_pearson_30.nc", "spi_pearson_30"), ("out_spi_gamma_30.nc", "spi_gamma_30")] := by
  obtain ⟨w', h1, h2, _⟩ := C142_run_daily E hE T toInt ht 1 id (fun _ => 2000) cmp (fun _ => false) ⟨dailyArgs "spi" [1, 30], some 1900, some 2050, .single, "none"⟩ leap_writable rfl 1900 2050 rfl rfl
    (by decide) leapPetWorld (leap_daily _ (.inl rfl)) rfl [1, 30] rfl (by decide) (by decide)
  refine ⟨w', h1, h2.trans ?_⟩
  decide +kernel

/-- and for SPEI with a PET file -/
example (E : Ext Q) (hE : ExtNan E) (T : Trig Q) (cmp : CoordCmp Q) (hcmp : ∀ l, cmp.close l l = .ok true ∧ cmp.equal l l = true) (toInt : String → Option Int)
    (ht : ∀ n : Int, toInt (toString n) = some n) :
    ∃ w', mainTool E T toInt 1 id (fun _ => 2000) cmp (commandLine (fun _ => false) ⟨dayPetArgs "spei", some 1900, some 2050, .single, "none"⟩) leapPetWorld = (.ended (.ok ()), w') ∧
      w'.written = [("out_spei_pearson_01.nc", "spei_pearson_01"), ("out_spei_gamma_01.nc", "spei_gamma_01")] := by
  obtain ⟨w', h1, h2, _⟩ := C142_run_daily_spei E hE T toInt ht 1 id (fun _ => 2000) cmp (fun _ => false) ⟨dayPetArgs "spei", some 1900, some 2050, .single, "none"⟩ leap_pet_writable rfl 1900 2050 rfl rfl
    (by decide) leapPetWorld (leap_daily _ (.inr rfl)) (leap_pet cmp hcmp) rfl [1] rfl (by decide) (by decide)
  refine ⟨w', h1, h2.trans ?_⟩
  decide +kernel

/-- C142 for the SPI tool and two years of monthly precipitation at two places: four files and the fitting parameters -/
example (E : Ext Q) (hE : ExtNan E) (toInt : String → Option Int) (ht : ∀ n : Int, toInt (toString n) = some n) :
    ∃ w', spiTool E toInt 3 id rainYear (spiCommandLine (fun _ => false) saveCommand) rainWorld = (.ended (.ok ()), w') ∧
      w'.written = monthlySpiFiles "out" [1, 3] ++ [("fit.nc", "")] := by
  obtain ⟨w', h1, h2, _⟩ := C142_tool E hE toInt ht 3 id rainYear (fun _ => false) saveCommand save_writable 2000 2001 rfl rfl (by decide) rainWorld
    (rain_ready [1, 3] (some "fit.nc") (by
      intro f hf
      cases hf
      decide)) [1, 3] rfl (by decide) (by decide)
  exact ⟨w', h1, h2.trans rfl⟩

theorem leap_days : SpiDays id (fun _ => 2000) (dayArgs [1, 30]) leapWorld leapData leapVar leapTime rainLat rainLon 1 2 366 leapVar.data 2000 1 where
  input := ⟨⟨"p.nc", rfl, rfl⟩, ⟨"prcp", rfl, rfl, by simp, rain_ne_fitting⟩, ⟨rfl, rfl, by simp [leapVar]⟩, ⟨rfl, rfl, by simp [leapTime]⟩, ⟨rfl, rfl, rfl⟩, ⟨rfl, rfl, rfl⟩⟩
  places := by decide
  coords := by
    intro p hp
    simp only [leapData, List.mem_cons, List.not_mem_nil, or_false] at hp
    rcases hp with rfl | rfl | rfl | rfl <;> simp [leapVar]
  coordUnits := ⟨by simp [rainLat], by simp [rainLon]⟩
  units := ⟨"mm", rfl, by unfold convertPrecip; rw [if_pos (by decide)]⟩
  first := ⟨.fin ((0 : ℕ) : ℚ), by simp [leapTime, List.head?_range], rfl⟩
  last := ⟨.fin ((365 : ℕ) : ℚ), by simp [leapTime, List.getLast?_range], rfl⟩
  years := by decide
  whole := by decide
  dates := by decide
  daily := rfl
  fresh := rfl
  load := rfl
  save := by intro f hf; cases hf

def leapCommand : SpiCommand := ⟨dayArgs [1, 30], "out", some 1900, some 2050, .single⟩

theorem leap_command : SpiWritable (fun _ => false) leapCommand := by
  refine ⟨⟨rfl, rfl⟩, (by decide : Periodicity.daily ≠ .other), ?_⟩
  intro p hp _ t ht
  simp only [leapCommand, dayArgs, List.mem_cons, List.not_mem_nil, or_false] at hp
  rcases hp with rfl | rfl | rfl | rfl | rfl <;> cases ht <;> exact .inl (by decide)

/-- and for the days of the year 2000 -/
example (E : Ext Q) (hE : ExtNan E) (toInt : String → Option Int) (ht : ∀ n : Int, toInt (toString n) = some n) :
    ∃ w', spiTool E toInt 1 id (fun _ => 2000) (spiCommandLine (fun _ => false) leapCommand) leapWorld = (.ended (.ok ()), w') ∧ w'.written = dailySpiFiles "out" [1, 30] := by
  obtain ⟨w', h1, h2, _⟩ := C142_tool_daily E hE toInt ht 1 id (fun _ => 2000) (fun _ => false) leapCommand leap_command 1900 2050 rfl rfl (by decide) leapWorld leap_days [1, 30] rfl (by decide) (by decide)
  exact ⟨w', h1, h2.trans rfl⟩

end CI.Props
