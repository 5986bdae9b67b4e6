import Verif.Props.CliLiveDailySpei
import Verif.Props.EndToEndScaled

/-!
# C125 for all scaled indices: daily values, from the command line to the values in the files
-/

namespace CI.Props
open CI FloatOps FloatLaws Spec Spec.McKee

/-- the five files of every scale for days of `Y` years from `ds` on: SPI and SPEI for both distributions and the percentage of normal, each computed in years of 366 days. `p i k` and `e i k` are the daily
precipitation and evapotranspiration of a place, in millimetres. -/
def ScaledDailyFiles (G : ℝ → ℝ → ℝ → ℝ) (P : ℝ → ℝ → ℝ → ℝ → ℝ) (Φ : ℝ → ℝ) (fs : Files (Fl ℝ)) (base : String) (d : NcFile (Fl ℝ)) (x : NcVar (Fl ℝ)) (A b n Y : Nat)
    (p e : Nat → Nat → List (Option ℝ)) (scales : List Nat) (ds cs ce : ℤ) : Prop :=
  ∀ s ∈ scales,
    FileHolds fs (base ++ "_" ++ ("spi_gamma_" ++ twoDigits s) ++ ".nc") ("spi_gamma_" ++ twoDigits s) d x A b n
      (fun i k out => OfDays (fun q r => GammaIndexOf 366 G Φ q s ds cs ce r) ds Y (p i k) out) ∧
    FileHolds fs (base ++ "_" ++ ("spi_pearson_" ++ twoDigits s) ++ ".nc") ("spi_pearson_" ++ twoDigits s) d x A b n
      (fun i k out => OfDays (fun q r => PearsonIndexOf 366 P Φ q s ds cs ce r) ds Y (p i k) out) ∧
    FileHolds fs (base ++ "_" ++ ("spei_gamma_" ++ twoDigits s) ++ ".nc") ("spei_gamma_" ++ twoDigits s) d x A b n
      (fun i k out => OfDays (fun q r => BalanceGamma 366 G Φ q s ds cs ce r) ds Y (waterBalance (p i k) (e i k)) out) ∧
    FileHolds fs (base ++ "_" ++ ("spei_pearson_" ++ twoDigits s) ++ ".nc") ("spei_pearson_" ++ twoDigits s) d x A b n
      (fun i k out => OfDays (fun q r => BalancePearson 366 P Φ q s ds cs ce r) ds Y (waterBalance (p i k) (e i k)) out) ∧
    FileHolds fs (base ++ "_" ++ ("pnp_" ++ twoDigits s) ++ ".nc") ("pnp_" ++ twoDigits s) d x A b n
      (fun i k out => OfDays (fun q r => NormalRatioOf 366 q s ds cs ce r) ds Y (p i k) out)

/-- **C125, all scaled indices.** The documented command line for all scaled indices of daily precipitation of whole calendar years on a grid and a daily PET file (any files, names, scales, calibration years
inside the record, numbers of workers, separate values or `=`), in exact arithmetic, for precipitation that is not negative, a daily water balance not below −999.9995 mm and Pearson fits of precipitation and
balance at all places, scales and calendar days (else no run finishes, C124): the tool ends without exception, writes exactly five files per scale (SPI and SPEI for both distributions, percentage of normal),
changes no other file, and at every place the value in these files for a day is the index for that calendar day, computed in years of 366 days. -/
theorem C125_scaled (E : Ext (Fl ℝ)) (hE : ExtNan E) (hR : ExtReal E) (G : ℝ → ℝ → ℝ → ℝ) (P : ℝ → ℝ → ℝ → ℝ → ℝ) (Φ : ℝ → ℝ)
    (hG : ∀ v a b, 0 < v → 0 < a → 0 < b → E.gammaCdf (.fin v) (.fin a) (.fin b) = .fin (G v a b) ∧ 0 < G v a b ∧ G v a b < 1)
    (hPc : ∀ v sk loc sc, 0 < v → 0 < sc → Pearson3.Inside loc sc sk v →
      E.pearson3Cdf (.fin v) (.fin sk) (.fin loc) (.fin sc) = .fin (P v sk loc sc) ∧ 0 < P v sk loc sc ∧ P v sk loc sc < 1)
    (hloc : ∀ v sk loc sc c, 0 < sc → P (v + c) sk (loc + c) sc = P v sk loc sc)
    (hΦ : ∀ q, 0 < q → q < 1 → E.normPpf (.fin q) = .fin (Φ q))
    (T : Trig (Fl ℝ)) (toInt : String → Option Int) (ht : ∀ n : Int, toInt (toString n) = some n) (cpus : Nat) (lower : String → String)
    (yearOf : Fl ℝ → Int) (cmp : CoordCmp (Fl ℝ)) (j : String → Bool) (c : MainCommand) (hc : Writable j c) (hi : c.args.index = "scaled") (cs ce : Int)
    (hcs : c.calibrationStart = some cs) (hce : c.calibrationEnd = some ce) (hcpu : 1 ≤ numberOfWorkers c.multiprocessing cpus) (w : World (Fl ℝ)) {f v fe ve : String} {d de : NcFile (Fl ℝ)}
    {x xe : NcVar (Fl ℝ)} {A b n Y : Nat} {vals pet : List (Option ℝ)} {y0 y1 : Int} (hM : DailyGrid lower yearOf c.args w f v d x A b n (vals.map toFl) y0 y1 Y)
    (hP : PetFile lower cmp c.args w d x v fe ve de xe (pet.map toFl)) (hfresh : w.shared "result_array" = none)
    (hpos : ∀ u, some u ∈ vals → 0 ≤ u) (hbal : Balanced b n A vals pet) (scales : List Nat) (hs : c.args.scales = some (scales.map Int.ofNat)) (hsc : ∀ s ∈ scales, 1 ≤ s ∧ s ≤ Y * 366)
    (c1 : y0 ≤ cs) (c2 : cs ≤ ce) (c3 : ce ≤ y1)
    (hfit : ∀ s ∈ scales, ∀ i < A, ∀ k < b, ∀ m < 366, ¬ UnfitDay (days366 optMean y0 Y (seriesAt b n i k vals)) s m y0 cs ce ∧
      ¬ UnfitStep 366 (days366 optMean y0 Y (waterBalance (seriesAt b n i k vals) (seriesAt b n i k pet))) s m y0 cs ce) :
    ∃ w', mainTool E T toInt cpus lower yearOf cmp (commandLine j c) w = (.ended (.ok ()), w') ∧
      w'.written = w.written ++ entries c.args.outputFileBase (spiOutputs scales ++ speiOutputs scales ++ pnpOutputs scales) ∧
      (∀ g, (∀ o ∈ spiOutputs scales ++ speiOutputs scales ++ pnpOutputs scales, g ≠ fileName c.args.outputFileBase o.name) → w'.files g = w.files g) ∧
      ScaledDailyFiles G P Φ w'.files c.args.outputFileBase d x A b n Y (fun i k => seriesAt b n i k vals) (fun i k => seriesAt b n i k pet) scales y0 cs ce := by
  have hmem : ∀ i k u, some u ∈ seriesAt b n i k vals → 0 ≤ u := fun i k u hu => hpos u (List.mem_of_mem_drop (List.mem_of_mem_take hu))
  have c3' : ce < y0 + Y := by have := hM.years.1; omega
  have c4 : (ce - cs + 1) * 12 ≤ ((Y * 366 : ℕ) : ℤ) := by push_cast; omega
  have hdoc : documented c.args.index true scales = spiOutputs scales ++ speiOutputs scales ++ pnpOutputs scales := by
    rw [hi]
    show spiOutputs scales ++ petOutputs true ++ speiOutputs scales ++ pnpOutputs scales = _
    simp [petOutputs]
  have hmo := mem_scaled hi scales
  have hall : ∀ o ∈ documented c.args.index true scales, ComputableDaily₂ E cs ce y0 Y (vals.map toFl) (pet.map toFl) A b n o := by
    intro o ho i hi' k hk
    obtain ⟨s, hs', ho⟩ := (hmo o).1 ho
    obtain ⟨r1, r2⟩ := resultDaily_spei E hR (seriesAt b n i k vals) (seriesAt b n i k pet) (hmem i k) (hbal i hi' k hk) y0 Y (day_length hM hi' hk) (pet_day_length hM hP hi' hk) s (hsc s hs').1
      (hsc s hs').2 cs ce c1 c2 c3'
    obtain ⟨r3, r4⟩ := resultDaily_spi E hR (seriesAt b n i k vals) (hmem i k) y0 Y (day_length hM hi' hk) s (hsc s hs').1 (hsc s hs').2 cs ce c1 c2 c3'
    rw [seriesAt_toFl, seriesAt_toFl]
    rcases ho with rfl | rfl | rfl | rfl | rfl
    · exact r3.2 (fun m hm => (hfit s hs' i hi' k hk m hm).1)
    · exact r4
    · exact r1.2 (fun m hm => (hfit s hs' i hi' k hk m hm).2)
    · exact r2
    · exact (resultDaily_pnp E _ s y0 cs ce Y (by rw [List.length_map]; exact day_length hM hi' hk)).2 ⟨c1, c4, .inr (hsc s hs')⟩
  obtain ⟨w', h1, h2, h3, h4⟩ := daily_of_line₂ E hE T toInt ht cpus lower yearOf cmp j c hc (.inr hi) cs ce hcs hce hcpu w hM hP hfresh scales hs hall
  refine ⟨w', h1, by rw [← hdoc]; exact h2, by rw [← hdoc]; exact h3, fun s hs' => ?_⟩
  have hspi : ∀ dist, ∀ i < A, ∀ k < b, ∀ out, resultDaily₂ E cs ce y0 Y (.spi dist s) ((seriesAt b n i k vals).map toFl) ((seriesAt b n i k pet).map toFl) = .ok out →
      ∃ r, spi E (Arr.of1d ((days366 optMean y0 Y (seriesAt b n i k vals)).map toFl)) s dist y0 cs ce .daily none = .ok r ∧ out = calendarDays y0 Y r := by
    intro dist i _ k _ out h
    unfold resultDaily₂ resultDaily at h
    simp only [place366_toFl] at h
    obtain ⟨r, r1, r2⟩ := Res.bind_ok h
    cases r2
    exact ⟨r, r1, rfl⟩
  have hspei : ∀ dist, ∀ i < A, ∀ k < b, ∀ out, resultDaily₂ E cs ce y0 Y (.spei dist s) ((seriesAt b n i k vals).map toFl) ((seriesAt b n i k pet).map toFl) = .ok out →
      ∃ r, spei E (Arr.of1d ((days366 optMean y0 Y (seriesAt b n i k vals)).map toFl)) (Arr.of1d ((days366 optMean y0 Y (seriesAt b n i k pet)).map toFl)) s dist .daily y0 cs ce none = .ok r ∧
        out = calendarDays y0 Y r.data := by
    intro dist i _ k _ out h
    unfold resultDaily₂ at h
    simp only [place366_toFl] at h
    obtain ⟨r, r1, r2⟩ := Res.bind_ok h
    cases r2
    exact ⟨r, r1, rfl⟩
  have hlen : ∀ i < A, ∀ k < b, s ≤ (days366 optMean y0 Y (seriesAt b n i k vals)).length ∧ ce < y0 + yearsOf (days366 optMean y0 Y (seriesAt b n i k vals)).length Periodicity.daily.steps ∧
      (days366 optMean y0 Y (seriesAt b n i k vals)).length = (days366 optMean y0 Y (seriesAt b n i k pet)).length ∧
      waterBalance (days366 optMean y0 Y (seriesAt b n i k vals)) (days366 optMean y0 Y (seriesAt b n i k pet)) = days366 optMean y0 Y (waterBalance (seriesAt b n i k vals) (seriesAt b n i k pet)) := by
    intro i hi' k hk
    rw [days366_len y0 Y _ (day_length hM hi' hk), days366_len y0 Y _ (pet_day_length hM hP hi' hk)]
    exact ⟨(hsc s hs').2, by rw [show Periodicity.daily.steps = 366 from rfl, yearsOf_days]; exact c3', rfl,
      waterBalance_days366 y0 Y _ _ (by rw [day_length hM hi' hk, pet_day_length hM hP hi' hk])⟩
  refine ⟨?_, ?_, ?_, ?_, ?_⟩
  · refine FileHolds.mono (h4 (.spi .gamma s) ((hmo _).2 ⟨s, hs', by simp⟩)) (fun i hi' k hk out ho => ?_)
    obtain ⟨r, r1, r2⟩ := hspi .gamma i hi' k hk _ ho
    obtain ⟨l1, l2, _, _⟩ := hlen i hi' k hk
    exact ⟨r, gammaIndexOf_of E hE hR G Φ hG hΦ _ (days366_nonneg Y y0 _ (hmem i k)) s (hsc s hs').1 l1 y0 cs ce c1 c2 .daily (.inr rfl) l2 _ r1, r2⟩
  · refine FileHolds.mono (h4 (.spi .pearson s) ((hmo _).2 ⟨s, hs', by simp⟩)) (fun i hi' k hk out ho => ?_)
    obtain ⟨r, r1, r2⟩ := hspi .pearson i hi' k hk _ ho
    obtain ⟨l1, l2, _, _⟩ := hlen i hi' k hk
    exact ⟨r, pearsonIndexOf_of E hE hR P Φ hPc hΦ _ (days366_nonneg Y y0 _ (hmem i k)) s (hsc s hs').1 l1 y0 cs ce c1 c2 .daily (.inr rfl) l2 _ r1, r2⟩
  · refine FileHolds.mono (h4 (.spei .gamma s) ((hmo _).2 ⟨s, hs', by simp⟩)) (fun i hi' k hk out ho => ?_)
    obtain ⟨r, r1, r2⟩ := hspei .gamma i hi' k hk _ ho
    obtain ⟨l1, l2, l3, l4⟩ := hlen i hi' k hk
    have := balanceGamma_of E hE hR _ _ (days366_nonneg Y y0 _ (hmem i k)) l3 (by rw [l4]; exact days366_bound _ y0 Y _ (hbal i hi' k hk)) s (hsc s hs').1 l1 .daily (by decide) y0 cs ce c1 c2 l2 G Φ hG hΦ r r1
    rw [l4] at this
    exact ⟨r.data, this, r2⟩
  · refine FileHolds.mono (h4 (.spei .pearson s) ((hmo _).2 ⟨s, hs', by simp⟩)) (fun i hi' k hk out ho => ?_)
    obtain ⟨r, r1, r2⟩ := hspei .pearson i hi' k hk _ ho
    obtain ⟨l1, l2, l3, l4⟩ := hlen i hi' k hk
    have := balancePearson_of E hE hR _ _ (days366_nonneg Y y0 _ (hmem i k)) l3 (by rw [l4]; exact days366_bound _ y0 Y _ (hbal i hi' k hk)) s (hsc s hs').1 l1 .daily (by decide) y0 cs ce c1 c2 l2 P Φ hPc hloc
      hΦ r r1
    rw [l4] at this
    exact ⟨r.data, this, r2⟩
  · refine FileHolds.mono (h4 (.pnp s) ((hmo _).2 ⟨s, hs', by simp⟩)) (fun i hi' k hk out hr => ?_)
    obtain ⟨l1, _, _, _⟩ := hlen i hi' k hk
    unfold resultDaily₂ resultDaily at hr
    simp only [place366_toFl] at hr
    obtain ⟨r, r1, r2⟩ := Res.bind_ok hr
    have hlen := days366_len y0 Y _ (day_length hM hi' hk)
    split at r2
    · exact ⟨r, normalRatioOf_of _ s (hsc s hs').1 l1 y0 cs ce c1 c2 (by rw [hlen]; exact c4) .daily (by decide) _ r1, (Except.ok.inj r2).symm⟩
    · cases r2

/-! ## A concrete run: 0, 1, 2, 4 and 8 mm of precipitation on all days of the years 2000 to 2004, and 3 mm of evapotranspiration -/

/-- five files; in `out_pnp_01.nc` the value of 15 January 2003 is 4 mm divided by the mean 3 mm of the five days, and in `out_spi_gamma_01.nc` it is the index of 4 mm with the share 1/5 of dry days -/
example (T : Trig (Fl ℝ)) (cmp : CoordCmp (Fl ℝ)) (hcmp : ∀ l, cmp.close l l = .ok true ∧ cmp.equal l l = true) (toInt : String → Option Int) (ht : ∀ n : Int, toInt (toString n) = some n) :
    ∃ w' file y file' y', mainTool sigmoidExt T toInt 1 id fiveYear cmp (commandLine (fun _ => false) (dayPetCommand "scaled")) (dayPetWorld levels) = (.ended (.ok ()), w') ∧
      w'.written = [("out_spi_pearson_01.nc", "spi_pearson_01"), ("out_spi_gamma_01.nc", "spi_gamma_01"), ("out_spei_pearson_01.nc", "spei_pearson_01"), ("out_spei_gamma_01.nc", "spei_gamma_01"),
        ("out_pnp_01.nc", "pnp_01")] ∧
      w'.files "out_pnp_01.nc" = some file ∧ ("pnp_01", y) ∈ file ∧ y.data[366 + 365 + 365 + 14]? = some (.fin (4 / 3)) ∧
      w'.files "out_spi_gamma_01.nc" = some file' ∧ ("spi_gamma_01", y') ∈ file' ∧
      y'.data[366 + 365 + 365 + 14]? = some (.fin (clamp (index (fun v a b => gammaP a (v / b)) (fun q => 8 * (q - 1 / 2)) (1 / 5) [0, 1, 2, 4, 8] 4))) := by
  obtain ⟨w', h1, h2, _, h4⟩ := C125_scaled sigmoidExt sigmoidExt_nan sigmoidExt_real (fun v a b => gammaP a (v / b)) sigmoid (fun q => 8 * (q - 1 / 2)) realExt_G (by
      intro v sk loc sc _ hsc _
      refine ⟨?_, sigmoid_range v sk loc sc⟩
      show (if sc = 0 then Fl.nan else Fl.fin (sigmoid v 0 loc sc)) = _
      rw [if_neg hsc.ne']
      rfl) (by
      intro v sk loc sc c _
      unfold sigmoid
      rw [add_sub_add_right_eq_sub]) realExt_Φ T toInt ht 1 id fiveYear cmp (fun _ => false) (dayPetCommand "scaled") (dayPet_writable (by decide)) rfl 2000 2004 rfl rfl (by decide) (dayPetWorld levels)
    (dayPet_daily levels "scaled") (dayPet_pet levels "scaled" cmp hcmp) rfl levels_nonneg (dayPet_balanced _ levels_ge) [1] rfl (by decide) le_rfl (by norm_num) le_rfl
    (fun s hs i hi k hk c hc => ⟨levels_fit s hs i hi k hk c hc, dayPet_fit s hs i hi k hk c hc⟩)
  obtain ⟨⟨file', y', g1', g2', _, _, _, g6'⟩, _, _, _, ⟨file, y, g1, g2, _, _, _, g6⟩⟩ := h4 1 (by decide)
  have hn : "pnp_" ++ twoDigits 1 = "pnp_01" := by decide +kernel
  have hn' : "spi_gamma_" ++ twoDigits 1 = "spi_gamma_01" := by decide +kernel
  rw [hn] at g1 g2
  rw [hn'] at g1' g2'
  have hl : (days366 optMean 2000 5 (yearVals levels)).length = 1830 := days366_len 2000 5 _ (by rw [yearVals_length]; decide)
  have e2 : ((2000 : ℤ) - 2000).toNat = 0 := rfl
  have e3 : ((2004 : ℤ) - 2000 + 1).toNat = 5 := rfl
  have e5 : 1112 % 366 = 14 := rfl
  have hlv : levels (1112 / 366) = 4 := by norm_num [levels]
  refine ⟨w', file, y, file', y', h1, ?_, ?_, g2, ?_, ?_, g2', ?_⟩
  · rw [h2]
    show [] ++ entries "out" (spiOutputs [1] ++ speiOutputs [1] ++ pnpOutputs [1]) = _
    decide +kernel
  · rw [← g1]
    rfl
  · obtain ⟨r, hg, hr⟩ := g6 0 (by decide) 0 (by decide)
    beta_reduce at hg
    rw [year_series] at hg
    have hser : seriesAt 1 1827 0 0 y.data = y.data.take 1827 := rfl
    have hv := hg.2 1112 (by rw [hl]; omega)
    have hrl : r.length = 5 * 366 := by rw [hg.1, hl]
    have hm : mean [0, 1, 2, 4, 8] = 3 := by unfold mean; norm_num
    have hsam := sample_levels 14 (by omega)
    have hacc := accum_year levels 1112 (by omega)
    rw [hlv] at hacc
    rw [e2, e3, e5] at hv
    clear hl
    generalize days366 optMean 2000 5 (yearVals levels) = L at hv hsam hacc
    rw [hsam, hacc] at hv
    have hc := calendarDays_get 5 2000 r 3 14 (by omega) (by omega) hrl
    rw [← hr, show yearsLen 2000 3 + 14 = 366 + 365 + 365 + 14 by decide, show 3 * 366 + 14 = 1112 from rfl, hv, hser, List.getElem?_take_of_lt (by omega)] at hc
    rw [hc, hm]
    norm_num
  · rw [← g1']
    rfl
  · obtain ⟨r, hg, hr⟩ := g6' 0 (by decide) 0 (by decide)
    beta_reduce at hg
    rw [year_series] at hg
    have hser : seriesAt 1 1827 0 0 y'.data = y'.data.take 1827 := rfl
    have hv := (hg.2 1112 (by rw [hl]; omega)).2.2 4 (by rw [accum_year _ 1112 (by omega), hlv]) (by norm_num)
    have hy : yearsOf 1830 366 = 5 := by norm_num [yearsOf]
    rw [hl, hy, e2, e3, e5, sample_levels 14 (by omega)] at hv
    have hd : dry [(0 : ℝ), 1, 2, 4, 8] = 1 := by
      norm_num [dry]
    have := hv ⟨1, by norm_num [wet], 2, by norm_num [wet], by norm_num⟩
    rw [hd] at this
    have hc := calendarDays_get 5 2000 r 3 14 (by omega) (by omega) (by rw [hg.1, hl])
    rw [← hr, show yearsLen 2000 3 + 14 = 366 + 365 + 365 + 14 by decide, show 3 * 366 + 14 = 1112 from rfl, this, hser, List.getElem?_take_of_lt (by omega)] at hc
    rw [hc]
    norm_num

end CI.Props
