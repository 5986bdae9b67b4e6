import Verif.Props.EndToEndSpei64
import Verif.Props.ShortRecord

/-!
# C140, temperature: SPEI with the evapotranspiration from temperature, from the command line to the files in binary64 arithmetic
-/

namespace CI.Props

open CI FloatOps FloatLaws B64 Spec Spec.McKee

variable {σ : SumOrder}

open Classical in
/-- **C140, from temperature.** The documented command line for SPEI of monthly precipitation and temperature (no PET file), in IEEE float64 arithmetic, for rows strictly between the poles: there are values
`pe` at every place that are Thornthwaite's for its temperatures in the sense of `PetValues64`; the tool ends without exception exactly if the Pearson index of the precipitation and `pe` can be
computed at every place; then it has written exactly the PET file, which holds `pe`, and two files per scale, changed no other file, and the gamma files hold the gamma SPEI of the precipitation and `pe`
in the sense of `GammaBalance64`. -/
theorem C140_temp (E : Ext (B64 σ)) (hE : ExtNan E) (hA : Accurate E) (G : ℝ → ℝ → ℝ → ℝ) (Φ : ℝ → ℝ) (η δ : ℝ) (hI : IndexNear E G Φ η δ) (T : Trig (B64 σ)) (hT : TrigNear T) (hPw : PowNear T)
    (toInt : String → Option Int) (ht : ∀ n : Int, toInt (toString n) = some n) (cpus : Nat) (lower : String → String) (hlow : lower "millimeters" = "millimeters")
    (yearOf : B64 σ → Int) (cmp : CoordCmp (B64 σ)) (j : String → Bool) (c : MainCommand) (hc : Writable j c) (hi : c.args.index = "spei") (cs ce : Int)
    (hcs : c.calibrationStart = some cs) (hce : c.calibrationEnd = some ce) (hcpu : 1 ≤ numberOfWorkers c.multiprocessing cpus) (w : World (B64 σ)) {f v ft vt : String} {d dt : NcFile (B64 σ)}
    {x xt xl : NcVar (B64 σ)} {A b n : Nat} {mm cel : List (B64 σ)} {y0 y1 : Int} (hM : Monthly lower yearOf c.args w f v d x A b n mm y0 y1)
    (hTm : MonthlyTemp lower yearOf c.args w ft vt dt xt xl A b n cel y0 y1) (hX : Matching cmp d x dt xt) (φ : ℕ → ℚ)
    (hφ : ∀ i < A, ∃ l, xl.data[i]? = some l ∧ ext l = .fin (φ i) ∧ -90 < φ i ∧ φ i < 90)
    (hfresh : w.shared "result_array" = none) (scales : List Nat) (hs : c.args.scales = some (scales.map Int.ofNat)) (hsc : ∀ s ∈ scales, 1 ≤ s ∧ s ≤ n) (c1 : y0 ≤ cs) (c2 : cs ≤ ce)
    (c3 : ce < y0 + yearsOf n 12) :
    ∃ pe : ℕ → ℕ → List (B64 σ), (∀ i < A, ∀ k < b, PetValues64 (seriesAt b n i k cel) (φ i) y0 (pe i k)) ∧
    ∃ res w', mainTool E T toInt cpus lower yearOf cmp (commandLine j c) w = (.ended res, w') ∧
      (res = .ok () ↔ ∀ s ∈ scales, ∀ i < A, ∀ k < b, ∃ r, spei E (Arr.of1d (seriesAt b n i k mm)) (Arr.of1d (pe i k)) s .pearson .monthly y0 cs ce none = .ok r) ∧
      (res = .ok () → w'.written = w.written ++ entries c.args.outputFileBase (.pet :: speiOutputs scales) ∧
        (∀ g, (∀ o ∈ .pet :: speiOutputs scales, g ≠ fileName c.args.outputFileBase o.name) → w'.files g = w.files g) ∧
        FileHolds w'.files (c.args.outputFileBase ++ "_pet_thornthwaite.nc") "pet_thornthwaite" dt xt A b n (fun i k out => out = pe i k) ∧
        ∀ s ∈ scales, FileHolds w'.files (c.args.outputFileBase ++ "_" ++ ("spei_gamma_" ++ twoDigits s) ++ ".nc") ("spei_gamma_" ++ twoDigits s) d x A b n
          (fun i k out => GammaBalance64 G Φ η δ (seriesAt b n i k mm) (pe i k) s y0 cs ce out)) := by
  have hdoc : documented c.args.index false scales = .pet :: speiOutputs scales := by rw [hi]; rfl
  have hmo : ∀ o, o ∈ speiOutputs scales ↔ ∃ s ∈ scales, o = .spei .pearson s ∨ o = .spei .gamma s := by
    intro o
    simp [speiOutputs]
  obtain ⟨it, hlay⟩ : ∃ it, IsLayout it x.shape A b n := by
    rcases hM.layout with ⟨_, h⟩ | ⟨_, h, hb⟩
    · exact ⟨.grid, .inl ⟨rfl, h⟩⟩
    · exact ⟨.divisions, .inr ⟨rfl, h, hb⟩⟩
  have hlen : ∀ i < A, ∀ k < b, (seriesAt b n i k mm).length = n := by
    intro i hi' k hk
    obtain ⟨u, hu, hcv⟩ := hM.units
    exact seriesAt_len hlay (by rw [convert_length.1 hcv]; exact hM.input.wf) hi' hk
  have hlent : ∀ i < A, ∀ k < b, (seriesAt b n i k cel).length = n := by
    intro i hi' k hk
    obtain ⟨u, hu, hcv⟩ := hTm.units
    exact seriesAt_len hlay (by rw [convert_length.2.1 hcv, ← hX.shape]; exact hTm.input.wf) hi' hk
  have hpet : ∀ i k, ∃ out, i < A → k < b → pet T (Arr.of1d (seriesAt b n i k cel)) xl.data[i]? y0 = .ok out ∧ PetValues64 (seriesAt b n i k cel) (φ i) y0 out := by
    intro i k
    by_cases hi' : i < A
    · obtain ⟨l, l1, l2, l3, l4⟩ := hφ i hi'
      rw [l1]
      obtain ⟨out, ho⟩ := pet_values64 hT hPw (seriesAt b n i k cel) l _ l2 l3 l4 y0
      exact ⟨out, fun _ _ => ho⟩
    · exact ⟨[], fun h => absurd h hi'⟩
  choose pe hpe using hpet
  have hlene : ∀ i < A, ∀ k < b, (pe i k).length = n := by
    intro i hi' k hk
    rw [(hpe i k hi' hk).2.1, hlent i hi' k hk]
  have hmap : ∀ i < A, ∀ k < b, ∀ dist (s : ℕ), resultFor₃ E T cs ce y0 xl.data[i]? (.spei dist s) (seriesAt b n i k mm) (seriesAt b n i k cel) =
      (spei E (Arr.of1d (seriesAt b n i k mm)) (Arr.of1d (pe i k)) s dist .monthly y0 cs ce none).map Arr.data := by
    intro i hi' k hk dist s
    unfold resultFor₃
    simp only [bind, Except.bind]
    rw [(hpe i k hi' hk).1]
  have hex : ∀ i < A, ∀ k < b, ∀ dist (s : ℕ), (∃ r, resultFor₃ E T cs ce y0 xl.data[i]? (.spei dist s) (seriesAt b n i k mm) (seriesAt b n i k cel) = .ok r) ↔
      ∃ r, spei E (Arr.of1d (seriesAt b n i k mm)) (Arr.of1d (pe i k)) s dist .monthly y0 cs ce none = .ok r := by
    intro i hi' k hk dist s
    rw [hmap i hi' k hk]
    generalize spei E (Arr.of1d (seriesAt b n i k mm)) (Arr.of1d (pe i k)) s dist .monthly y0 cs ce none = q
    cases q with
    | error err =>
      constructor
      · rintro ⟨r, hr⟩
        cases hr
      · rintro ⟨r, hr⟩
        cases hr
    | ok r => exact ⟨fun _ => ⟨r, rfl⟩, fun _ => ⟨_, rfl⟩⟩
  refine ⟨pe, fun i hi' k hk => (hpe i k hi' hk).2, ?_⟩
  rw [C106_given E T toInt cpus lower yearOf cmp (commandLine j c) w c (C105_main toInt ht j c hc) cs ce hcs hce]
  obtain ⟨res, w', h1, h2, h3, h4, h5⟩ := C117_run E hE T cs ce _ hcpu lower hlow yearOf cmp c.args w (.inl hi) hM hTm hX hfresh scales hs
  rw [hdoc] at h2 h3 h4 h5
  rw [h1]
  refine ⟨res, w', rfl, ?_, fun hok => ?_⟩
  · rw [h2]
    constructor
    · intro h s hs' i hi' k hk
      exact (hex i hi' k hk _ _).1 (h _ (List.mem_cons_of_mem _ ((hmo _).2 ⟨s, hs', .inl rfl⟩)) i hi' k hk)
    · intro h o ho i hi' k hk
      rcases List.mem_cons.1 ho with rfl | ho
      · exact ⟨_, (hpe i k hi' hk).1⟩
      obtain ⟨s, hs', rfl | rfl⟩ := (hmo o).1 ho
      · exact (hex i hi' k hk _ _).2 (h s hs' i hi' k hk)
      · exact (hex i hi' k hk _ _).2 (spei_gamma_total E _ _ (by rw [hlen i hi' k hk, hlene i hi' k hk]) s (by exact_mod_cast (hsc s hs').1) .monthly (by simp) y0 cs ce)
  · have hall := h2.1 hok
    have htake : (Output.pet :: speiOutputs scales).takeWhile (fun o => decide (Computable₃ E T cs ce y0 mm cel xl.data A b n o)) = .pet :: speiOutputs scales := by
      rw [List.takeWhile_eq_self_iff]
      intro o ho
      exact decide_eq_true (hall o ho)
    rw [htake] at h3 h4 h5
    refine ⟨h3, h5, ?_, fun s hs' => ?_⟩
    · have hname : fileName c.args.outputFileBase "pet_thornthwaite" = c.args.outputFileBase ++ "_pet_thornthwaite.nc" := by
        unfold fileName
        rw [String.append_assoc, String.append_assoc]
        rfl
      obtain ⟨file, y, g1, g2, ⟨g3, g4⟩, ⟨g5, _⟩, g6⟩ := h4 .pet (by simp)
      rw [if_pos rfl] at g3 g4 g5
      refine ⟨file, y, by rw [← hname]; exact g1, g2, g3, g5, g4, fun i hi' k hk => ?_⟩
      have hr : pet T (Arr.of1d (seriesAt b n i k cel)) xl.data[i]? y0 = .ok (seriesAt b n i k y.data) := g6 i hi' k hk
      rw [(hpe i k hi' hk).1] at hr
      exact (Except.ok.inj hr).symm
    · obtain ⟨file, y, g1, g2, ⟨g3, g4⟩, ⟨g5, _⟩, g6⟩ := h4 (.spei .gamma s) (List.mem_cons_of_mem _ ((hmo _).2 ⟨s, hs', .inr rfl⟩))
      rw [if_neg (by simp)] at g3 g4 g5
      have hn : (Output.spei .gamma s).name = "spei_gamma_" ++ twoDigits s := rfl
      rw [hn] at g1 g2
      refine ⟨file, y, g1, g2, g3, g5, g4, fun i hi' k hk => ?_⟩
      have hl := hlen i hi' k hk
      have hr := g6 i hi' k hk
      beta_reduce at hr ⊢
      rw [hmap i hi' k hk] at hr
      cases ho : spei E (Arr.of1d (seriesAt b n i k mm)) (Arr.of1d (pe i k)) s .gamma .monthly y0 cs ce none with
      | error err => rw [ho] at hr; cases hr
      | ok o =>
        rw [ho] at hr
        rw [← Except.ok.inj hr]
        exact gamma_balance64 E hE hA G Φ η δ hI _ _ (by rw [hl, hlene i hi' k hk]) s (hsc s hs').1 (by rw [hl]; exact (hsc s hs').2) y0 cs ce c1 c2 (by rw [hl]; exact c3) o ho

/-! ## A concrete run -/

def exRain14 : NcVar (B64 leftToRight) := ⟨["lat", "lon", "time"], [1, 1, 14], some "mm", fiveRain64.take 14⟩

def exRainFile14 : NcFile (B64 leftToRight) := [("prcp", exRain14), ("lat", ⟨["lat"], [1], none, [lit 45.5]⟩), ("lon", ⟨["lon"], [1], none, [lit 0]⟩), ("time", exTime 14)]

def exWorld14 : World (B64 leftToRight) := ⟨fun g => if g = "p.nc" then some exRainFile14 else if g = "t.nc" then some exTempFile else none, fun _ => none, []⟩

def exTempVar : NcVar (B64 leftToRight) := ⟨["lat", "lon", "time"], [1, 1, 14], some "celsius", exTemps.data⟩

theorem ex_temp14 (index : String) : MonthlyTemp id monthYear (demoArgs index [1]) exWorld14 "t.nc" "tavg" exTempFile exTempVar ⟨["lat"], [1], none, [lit 45.5]⟩ 1 1 14 exTemps.data 2000 2001 := by
  have h := ex_temp index
  exact ⟨⟨rfl, rfl, rfl, rfl, rfl, by decide, demo_notOutput _ (by decide)⟩, h.layout, h.places, h.lat, h.lats, h.divisions, h.years, h.units, rfl, rfl⟩

theorem ex_rain14 (index : String) : Monthly id monthYear (demoArgs index [1]) exWorld14 "p.nc" "prcp" exRainFile14 exRain14 1 1 14 (fiveRain64.take 14) 2000 2001 := by
  refine ⟨⟨rfl, rfl, rfl, rfl, rfl, by decide, demo_notOutput _ (by decide)⟩, .inl ⟨rfl, rfl⟩, by decide, ?_, ?_, ⟨exTime 14, lit ((0 : ℕ) : ℚ), lit ((13 : ℕ) : ℚ), rfl, rfl, rfl, ?_, ?_⟩, ⟨"mm", rfl, ?_⟩, rfl⟩
  · intro c hc
    rcases (show c = "lat" ∨ c = "lon" ∨ c = "time" by simpa [exRain14] using hc) with rfl | rfl | rfl
    · exact ⟨_, rfl⟩
    · exact ⟨_, rfl⟩
    · exact ⟨_, rfl⟩
  · intro h
    exact absurd h (by simp [exRain14])
  · decide +kernel
  · decide +kernel
  · unfold convertPrecip
    rw [if_pos (by decide)]
    rfl

theorem ex_matching14 (cmp : CoordCmp (B64 leftToRight)) (hcmp : ∀ l, cmp.close l l = .ok true ∧ cmp.equal l l = true) : Matching cmp exRainFile14 exRain14 exTempFile exTempVar := by
  refine ⟨rfl, rfl, ?_, fun c _ y _ => hcmp y.data, ?_, ?_⟩
  · intro c hc
    rcases (show c = "lat" ∨ c = "lon" ∨ c = "time" by simpa [exRain14] using hc) with rfl | rfl | rfl
    · exact ⟨_, _, rfl, rfl, rfl⟩
    · exact ⟨_, _, rfl, rfl, rfl⟩
    · exact ⟨_, _, rfl, rfl, rfl⟩
  · intro c x y h1 h2 h3 h4
    simp only [exRainFile14, exTempFile, List.mem_cons, Prod.mk.injEq, List.not_mem_nil, or_false] at h1 h2
    rcases h1 with ⟨rfl, rfl⟩ | ⟨rfl, rfl⟩ | ⟨rfl, rfl⟩ | ⟨rfl, rfl⟩
    · exact absurd h3 (by simp [exRain14])
    all_goals
      rcases h2 with ⟨e, rfl⟩ | ⟨e, rfl⟩ | ⟨e, rfl⟩ | ⟨e, rfl⟩
      · exact absurd e (by decide)
      all_goals first | exact absurd e (by decide) | rfl
  · intro y
    constructor
    · simp [exRainFile14, Output.name]
    · simp [exTempFile, Output.name]

/-- C140 for fourteen months of rain and temperature: the run ends without exception (C142), and the PET file and the gamma file belong together -/
example (cmp : CoordCmp (B64 leftToRight)) (hcmp : ∀ l, cmp.close l l = .ok true ∧ cmp.equal l l = true) (toInt : String → Option Int) (ht : ∀ n : Int, toInt (toString n) = some n) :
    ∃ pe w' file y fileE yE, PetValues64 exTemps.data 45.5 2000 pe ∧
      mainTool nearIndex (nearTrig nearPow) toInt 1 id monthYear cmp (commandLine (fun _ => false) (warmCommand "spei" (some 2000) (some 2001))) exWorld14 = (.ended (.ok ()), w') ∧
      w'.files "out_pet_thornthwaite.nc" = some fileE ∧ ("pet_thornthwaite", yE) ∈ fileE ∧ seriesAt 1 14 0 0 yE.data = pe ∧
      w'.files "out_spei_gamma_01.nc" = some file ∧ ("spei_gamma_01", y) ∈ file ∧
      GammaBalance64 (fun v _ b => v / (v + b)) (fun p => 6 * p - 3) (1 / 2 ^ 50) (1 / 2 ^ 50) (fiveRain64.take 14) pe 1 2000 2000 2001 (seriesAt 1 14 0 0 y.data) := by
  have hser : seriesAt 1 14 0 0 (fiveRain64.take 14) = fiveRain64.take 14 := rfl
  have hsert : seriesAt 1 14 0 0 exTemps.data = exTemps.data := rfl
  obtain ⟨pe, hpe, res, w', h1, h2, h3⟩ := C140_temp nearIndex nearIndex_nan ⟨nearExt_accurate.log, nearExt_accurate.sqrt⟩ _ _ _ _ nearIndex_near (nearTrig nearPow) (nearTrig_near _) nearPow_near toInt ht 1 id rfl
    monthYear cmp (fun _ => false) (warmCommand "spei" (some 2000) (some 2001)) (warm_writable (by decide) _ _) rfl 2000 2001 rfl rfl (by decide) exWorld14 (ex_rain14 "spei") (ex_temp14 "spei")
    (ex_matching14 cmp hcmp) (fun _ => 45.5) (by
      intro i hi
      obtain rfl : i = 0 := by omega
      exact ⟨lit 45.5, rfl, by decide +kernel, by norm_num, by norm_num⟩) rfl [1] rfl (by decide) le_rfl (by norm_num) (by norm_num [yearsOf])
  have hp0 := hpe 0 (by decide) 0 (by decide)
  rw [hsert] at hp0
  have hok : res = .ok () := h2.2 (by
    intro s hs i hi k hk
    obtain rfl : s = 1 := by simpa using hs
    obtain rfl : i = 0 := by omega
    obtain rfl : k = 0 := by omega
    rw [hser]
    obtain ⟨r, hr, _⟩ := C142_spei nearIndex (fiveRain64.take 14) (pe 0 0) (by rw [hp0.1]; rfl) 1 le_rfl (by decide) .pearson (by decide) .monthly (by decide) 2000 2000 2001 (by decide)
    exact ⟨r, hr⟩)
  obtain ⟨_, _, ⟨fileE, yE, e1, e2, _, _, _, e6⟩, h4⟩ := h3 hok
  obtain ⟨file, y, g1, g2, _, _, _, g6⟩ := h4 1 (by decide)
  have hn : "spei_gamma_" ++ twoDigits 1 = "spei_gamma_01" := by decide +kernel
  rw [hn] at g1 g2
  have := g6 0 (by decide) 0 (by decide)
  beta_reduce at this
  rw [hser] at this
  rw [hok] at h1
  exact ⟨pe 0 0, w', file, y, fileE, yE, hp0, h1, e1, e2, e6 0 (by decide) 0 (by decide), g1, g2, this⟩

end CI.Props
