import Verif.Props.EndToEndPet

/-!
# C117 exactly and C114 for all scaled indices: from the command line to the values in the files
-/

namespace CI.Props

open CI FloatOps FloatLaws Spec Spec.McKee

/-! ## Specification -/

/-- the five files of every scale: SPI and SPEI for both distributions and the percentage of normal. `p i k` and `e i k` are the precipitation and the evapotranspiration of a place, in millimetres. -/
def ScaledFiles (G : ℝ → ℝ → ℝ → ℝ) (P : ℝ → ℝ → ℝ → ℝ → ℝ) (Φ : ℝ → ℝ) (fs : Files (Fl ℝ)) (base : String) (d : NcFile (Fl ℝ)) (x : NcVar (Fl ℝ)) (A b n : Nat)
    (p e : Nat → Nat → List (Option ℝ)) (scales : List Nat) (ds cs ce : ℤ) : Prop :=
  ∀ s ∈ scales,
    FileHolds fs (base ++ "_" ++ ("spi_gamma_" ++ twoDigits s) ++ ".nc") ("spi_gamma_" ++ twoDigits s) d x A b n (fun i k out => GammaIndex G Φ (p i k) s ds cs ce out) ∧
    FileHolds fs (base ++ "_" ++ ("spi_pearson_" ++ twoDigits s) ++ ".nc") ("spi_pearson_" ++ twoDigits s) d x A b n (fun i k out => PearsonIndex P Φ (p i k) s ds cs ce out) ∧
    FileHolds fs (base ++ "_" ++ ("spei_gamma_" ++ twoDigits s) ++ ".nc") ("spei_gamma_" ++ twoDigits s) d x A b n (fun i k out => SpeiGamma G Φ (p i k) (e i k) s ds cs ce out) ∧
    FileHolds fs (base ++ "_" ++ ("spei_pearson_" ++ twoDigits s) ++ ".nc") ("spei_pearson_" ++ twoDigits s) d x A b n (fun i k out => SpeiPearson P Φ (p i k) (e i k) s ds cs ce out) ∧
    FileHolds fs (base ++ "_" ++ ("pnp_" ++ twoDigits s) ++ ".nc") ("pnp_" ++ twoDigits s) d x A b n (fun i k out => NormalRatio (p i k) s ds cs ce out)

/-! ## The results of a place -/

theorem FileHolds.mono {F : Type} {fs : Files F} {g name : String} {d : NcFile F} {x : NcVar F} {A b n : Nat} {Q Q' : Nat → Nat → List F → Prop} (h : FileHolds fs g name d x A b n Q)
    (hq : ∀ i < A, ∀ k < b, ∀ out, Q i k out → Q' i k out) : FileHolds fs g name d x A b n Q' := by
  obtain ⟨file, y, g1, g2, g3, g4, g5, g6⟩ := h
  exact ⟨file, y, g1, g2, g3, g4, g5, fun i hi k hk => hq i hi k hk _ (g6 i hi k hk)⟩

/-- when all five results of a place exist -/
theorem scaled_results (E : Ext (Fl ℝ)) (hE : ExtNan E) (hR : ExtReal E) (p e : List (Option ℝ)) (hp : ∀ a, some a ∈ p → 0 ≤ a) (hl : p.length = e.length)
    (hb : ∀ a, some a ∈ waterBalance p e → -999.9995 ≤ a) (s : ℕ) (h1 : 1 ≤ s) (h2 : s ≤ p.length) (ds cs ce : ℤ) (c1 : ds ≤ cs) (c2 : cs ≤ ce) (c3 : ce < ds + yearsOf p.length 12)
    (c4 : (ce - cs + 1) * 12 ≤ p.length) :
    ((∃ r, resultFor₂ E cs ce ds (.spi .pearson s) (p.map toFl) (e.map toFl) = .ok r) ↔ ∀ c < 12, ¬ Unfit p s c ds cs ce) ∧
    (∃ r, resultFor₂ E cs ce ds (.spi .gamma s) (p.map toFl) (e.map toFl) = .ok r) ∧
    ((∃ r, resultFor₂ E cs ce ds (.spei .pearson s) (p.map toFl) (e.map toFl) = .ok r) ↔ ∀ c < 12, ¬ UnfitBalance p e s c ds cs ce) ∧
    (∃ r, resultFor₂ E cs ce ds (.spei .gamma s) (p.map toFl) (e.map toFl) = .ok r) ∧
    ∃ r, resultFor₂ E cs ce ds (.pnp s) (p.map toFl) (e.map toFl) = .ok r := by
  obtain ⟨r1, r2⟩ := resultFor_spi E hR p hp s h1 h2 ds cs ce c1 c2 c3
  obtain ⟨r3, r4⟩ := resultFor_spei E hE hR p e hp hl hb s h1 h2 ds cs ce c1 c2 c3
  exact ⟨r1, r2, r3, r4, (resultFor_pnp E _ s ds cs ce).2 ⟨c1, by rw [List.length_map]; exact c4, .inr (by rw [List.length_map]; exact ⟨h1, h2⟩)⟩⟩

/-- the files are right if they hold the results of the places -/
theorem scaled_files (E : Ext (Fl ℝ)) (hE : ExtNan E) (hR : ExtReal E) (G : ℝ → ℝ → ℝ → ℝ) (P : ℝ → ℝ → ℝ → ℝ → ℝ) (Φ : ℝ → ℝ)
    (hG : ∀ v a b, 0 < v → 0 < a → 0 < b → E.gammaCdf (.fin v) (.fin a) (.fin b) = .fin (G v a b) ∧ 0 < G v a b ∧ G v a b < 1)
    (hPc : ∀ v sk loc sc, 0 < v → 0 < sc → Pearson3.Inside loc sc sk v →
      E.pearson3Cdf (.fin v) (.fin sk) (.fin loc) (.fin sc) = .fin (P v sk loc sc) ∧ 0 < P v sk loc sc ∧ P v sk loc sc < 1)
    (hloc : ∀ v sk loc sc c, 0 < sc → P (v + c) sk (loc + c) sc = P v sk loc sc)
    (hΦ : ∀ q, 0 < q → q < 1 → E.normPpf (.fin q) = .fin (Φ q)) {fs : Files (Fl ℝ)} {base : String} {d : NcFile (Fl ℝ)} {x : NcVar (Fl ℝ)} {A b n : Nat} {p e : Nat → Nat → List (Option ℝ)}
    {scales : List Nat} {ds cs ce : ℤ} (hp : ∀ i < A, ∀ k < b, ∀ a, some a ∈ p i k → 0 ≤ a) (hl : ∀ i < A, ∀ k < b, (p i k).length = n ∧ (p i k).length = (e i k).length)
    (hb : ∀ i < A, ∀ k < b, ∀ a, some a ∈ waterBalance (p i k) (e i k) → -999.9995 ≤ a) (hsc : ∀ s ∈ scales, 1 ≤ s ∧ s ≤ n) (c1 : ds ≤ cs) (c2 : cs ≤ ce) (c3 : ce < ds + yearsOf n 12)
    (c4 : (ce - cs + 1) * 12 ≤ n)
    (h : ∀ s ∈ scales, ∀ o ∈ [Output.spi .gamma s, .spi .pearson s, .spei .gamma s, .spei .pearson s, .pnp s], FileHolds fs (fileName base o.name) o.name d x A b n
      (fun i k l => resultFor₂ E cs ce ds o ((p i k).map toFl) ((e i k).map toFl) = .ok l)) : ScaledFiles G P Φ fs base d x A b n p e scales ds cs ce := by
  have hspei : ∀ dist s i k l, resultFor₂ E cs ce ds (.spei dist s) ((p i k).map toFl) ((e i k).map toFl) = .ok l →
      ∃ o, spei E (Arr.of1d ((p i k).map toFl)) (Arr.of1d ((e i k).map toFl)) s dist .monthly ds cs ce none = .ok o ∧ l = o.data := by
    intro dist s i k l hr
    unfold resultFor₂ at hr
    simp only at hr
    cases ho : spei E (Arr.of1d ((p i k).map toFl)) (Arr.of1d ((e i k).map toFl)) s dist .monthly ds cs ce none with
    | error err => rw [ho] at hr; cases hr
    | ok o =>
      rw [ho] at hr
      exact ⟨o, rfl, (Except.ok.inj hr).symm⟩
  intro s hs
  obtain ⟨s1, s2⟩ := hsc s hs
  have hlen : ∀ i < A, ∀ k < b, s ≤ (p i k).length ∧ ce < ds + yearsOf (p i k).length 12 ∧ (ce - cs + 1) * 12 ≤ ((p i k).length : ℤ) := by
    intro i hi k hk
    rw [(hl i hi k hk).1]
    exact ⟨s2, c3, c4⟩
  refine ⟨?_, ?_, ?_, ?_, ?_⟩
  · refine FileHolds.mono (h s hs (.spi .gamma s) (by simp)) (fun i hi k hk out ho => ?_)
    obtain ⟨l1, l2, l3⟩ := hlen i hi k hk
    exact gammaIndex_of E hE hR G Φ hG hΦ _ (hp i hi k hk) s s1 l1 ds cs ce c1 c2 l2 _ ho
  · refine FileHolds.mono (h s hs (.spi .pearson s) (by simp)) (fun i hi k hk out ho => ?_)
    obtain ⟨l1, l2, l3⟩ := hlen i hi k hk
    exact pearsonIndex_of E hE hR P Φ hPc hΦ _ (hp i hi k hk) s s1 l1 ds cs ce c1 c2 l2 _ ho
  · refine FileHolds.mono (h s hs (.spei .gamma s) (by simp)) (fun i hi k hk out ho => ?_)
    obtain ⟨l1, l2, l3⟩ := hlen i hi k hk
    obtain ⟨o, hr, rfl⟩ := hspei _ _ _ _ _ ho
    exact speiGamma_of E hE hR G Φ hG hΦ _ _ (hp i hi k hk) (hl i hi k hk).2 (hb i hi k hk) s s1 l1 ds cs ce c1 c2 l2 o hr
  · refine FileHolds.mono (h s hs (.spei .pearson s) (by simp)) (fun i hi k hk out ho => ?_)
    obtain ⟨l1, l2, l3⟩ := hlen i hi k hk
    obtain ⟨o, hr, rfl⟩ := hspei _ _ _ _ _ ho
    exact speiPearson_of E hE hR P Φ hPc hloc hΦ _ _ (hp i hi k hk) (hl i hi k hk).2 (hb i hi k hk) s s1 l1 ds cs ce c1 c2 l2 o hr
  · refine FileHolds.mono (h s hs (.pnp s) (by simp)) (fun i hi k hk out hr => ?_)
    obtain ⟨l1, l2, l3⟩ := hlen i hi k hk
    unfold resultFor₂ resultFor at hr
    simp only [bind, Except.bind] at hr
    cases hpn : percentageOfNormal ((p i k).map toFl) (some (s : Int)) ds cs ce .monthly with
    | error er => rw [hpn] at hr; cases hr
    | ok r =>
      rw [hpn] at hr
      simp only at hr
      split at hr
      · cases hr
        exact normalRatio_of _ s s1 l1 ds cs ce c1 c2 l3 _ hpn
      · cases hr

/-! ## With a PET file -/

/-- **C114, all scaled indices with a PET file.** The documented command line for all scaled indices of monthly precipitation and a PET file (any files, names, scales, calibration years inside the record,
numbers of workers, separate values or `=`), in exact arithmetic, for precipitation that is not negative, a water balance not below −999.9995 mm and Pearson fits of precipitation and balance at all places,
scales and months (else no run finishes, C116): the tool ends without exception, writes exactly five files per scale (SPI and SPEI for both distributions, percentage of normal), changes no other file, and
at every place the values in these files are the indices of that place. -/
theorem C114_scaled (E : Ext (Fl ℝ)) (hE : ExtNan E) (hR : ExtReal E) (G : ℝ → ℝ → ℝ → ℝ) (P : ℝ → ℝ → ℝ → ℝ → ℝ) (Φ : ℝ → ℝ)
    (hG : ∀ v a b, 0 < v → 0 < a → 0 < b → E.gammaCdf (.fin v) (.fin a) (.fin b) = .fin (G v a b) ∧ 0 < G v a b ∧ G v a b < 1)
    (hPc : ∀ v sk loc sc, 0 < v → 0 < sc → Pearson3.Inside loc sc sk v →
      E.pearson3Cdf (.fin v) (.fin sk) (.fin loc) (.fin sc) = .fin (P v sk loc sc) ∧ 0 < P v sk loc sc ∧ P v sk loc sc < 1)
    (hloc : ∀ v sk loc sc c, 0 < sc → P (v + c) sk (loc + c) sc = P v sk loc sc)
    (hΦ : ∀ q, 0 < q → q < 1 → E.normPpf (.fin q) = .fin (Φ q))
    (T : Trig (Fl ℝ)) (toInt : String → Option Int) (ht : ∀ n : Int, toInt (toString n) = some n) (cpus : Nat) (lower : String → String)
    (yearOf : Fl ℝ → Int) (cmp : CoordCmp (Fl ℝ)) (j : String → Bool) (c : MainCommand) (hc : Writable j c) (hi : c.args.index = "scaled") (cs ce : Int)
    (hcs : c.calibrationStart = some cs) (hce : c.calibrationEnd = some ce) (hcpu : 1 ≤ numberOfWorkers c.multiprocessing cpus) (w : World (Fl ℝ)) {f v fe ve : String} {d de : NcFile (Fl ℝ)}
    {x xe : NcVar (Fl ℝ)} {A b n : Nat} {vals pet : List (Option ℝ)} {y0 y1 : Int} (hM : Monthly lower yearOf c.args w f v d x A b n (vals.map toFl) y0 y1)
    (hP : PetFile lower cmp c.args w d x v fe ve de xe (pet.map toFl)) (hfresh : w.shared "result_array" = none)
    (hpos : ∀ u, some u ∈ vals → 0 ≤ u) (hbal : Balanced b n A vals pet) (scales : List Nat) (hs : c.args.scales = some (scales.map Int.ofNat)) (hsc : ∀ s ∈ scales, 1 ≤ s ∧ s ≤ n) (c1 : y0 ≤ cs)
    (c2 : cs ≤ ce) (c3 : ce < y0 + yearsOf n 12) (c4 : (ce - cs + 1) * 12 ≤ n)
    (hfit : ∀ s ∈ scales, ∀ i < A, ∀ k < b, ∀ m < 12, ¬ Unfit (seriesAt b n i k vals) s m y0 cs ce ∧ ¬ UnfitBalance (seriesAt b n i k vals) (seriesAt b n i k pet) s m y0 cs ce) :
    ∃ w', mainTool E T toInt cpus lower yearOf cmp (commandLine j c) w = (.ended (.ok ()), w') ∧
      w'.written = w.written ++ entries c.args.outputFileBase (spiOutputs scales ++ speiOutputs scales ++ pnpOutputs scales) ∧
      (∀ g, (∀ o ∈ spiOutputs scales ++ speiOutputs scales ++ pnpOutputs scales, g ≠ fileName c.args.outputFileBase o.name) → w'.files g = w.files g) ∧
      ScaledFiles G P Φ w'.files c.args.outputFileBase d x A b n (fun i k => seriesAt b n i k vals) (fun i k => seriesAt b n i k pet) scales y0 cs ce := by
  have hmem : ∀ i k u, some u ∈ seriesAt b n i k vals → 0 ≤ u := fun i k u hu => hpos u (List.mem_of_mem_drop (List.mem_of_mem_take hu))
  have hpl : ∀ i < A, ∀ k < b, (seriesAt b n i k vals).length = n ∧ (seriesAt b n i k vals).length = (seriesAt b n i k pet).length := fun i hi' k hk =>
    ⟨place_length hM hi' hk, by rw [place_length hM hi' hk, pet_length hM hP hi' hk]⟩
  have hdoc : documented c.args.index true scales = spiOutputs scales ++ speiOutputs scales ++ pnpOutputs scales := by
    rw [hi]
    show spiOutputs scales ++ petOutputs true ++ speiOutputs scales ++ pnpOutputs scales = _
    simp [petOutputs]
  have hmo := mem_scaled hi scales
  have hall : ∀ o ∈ documented c.args.index true scales, Computable₂ E cs ce y0 (vals.map toFl) (pet.map toFl) A b n o := by
    intro o ho i hi' k hk
    obtain ⟨s, hs', ho⟩ := (hmo o).1 ho
    obtain ⟨hl, he⟩ := hpl i hi' k hk
    rw [seriesAt_toFl, seriesAt_toFl]
    obtain ⟨r1, r2, r3, r4, r5⟩ := scaled_results E hE hR (seriesAt b n i k vals) (seriesAt b n i k pet) (hmem i k) he (hbal i hi' k hk) s (hsc s hs').1 (by rw [hl]; exact (hsc s hs').2) y0 cs ce c1 c2
      (by rw [hl]; exact c3) (by rw [hl]; exact c4)
    rcases ho with rfl | rfl | rfl | rfl | rfl
    · exact r1.2 (fun m hm => (hfit s hs' i hi' k hk m hm).1)
    · exact r2
    · exact r3.2 (fun m hm => (hfit s hs' i hi' k hk m hm).2)
    · exact r4
    · exact r5
  obtain ⟨w', h1, h2, h3, h4⟩ := run_of_line₂ E hE T toInt ht cpus lower yearOf cmp j c hc (.inr hi) cs ce hcs hce hcpu w hM hP hfresh scales hs hall
  refine ⟨w', h1, by rw [← hdoc]; exact h2, by rw [← hdoc]; exact h3, ?_⟩
  refine scaled_files E hE hR G P Φ hG hPc hloc hΦ (fun i _ k _ => hmem i k) hpl hbal hsc c1 c2 c3 c4 (fun s hs' o ho => h4 o ((hmo o).2 ⟨s, hs', ?_⟩))
  simp only [List.mem_cons, List.not_mem_nil, or_false] at ho
  tauto

/-! ## With temperature -/

/-- the outputs of a run for all scaled indices from temperature -/
theorem mem_scaled_temp {index : String} (hi : index = "scaled") (scales : List Nat) (o : Output) : o ∈ documented index false scales ↔
    o = .pet ∨ ∃ s ∈ scales, o = .spi .pearson s ∨ o = .spi .gamma s ∨ o = .spei .pearson s ∨ o = .spei .gamma s ∨ o = .pnp s := by
  rw [← mem_scaled hi scales o]
  subst hi
  show o ∈ spiOutputs scales ++ petOutputs false ++ speiOutputs scales ++ pnpOutputs scales ↔ o = .pet ∨ o ∈ spiOutputs scales ++ petOutputs true ++ speiOutputs scales ++ pnpOutputs scales
  simp only [petOutputs, List.mem_append, if_true, if_false, List.mem_cons, List.not_mem_nil, or_false, Bool.false_eq_true]
  tauto

/-- the results from temperature are those with the evapotranspiration of the record -/
theorem resultFor₃_scaled (E : Ext (Fl ℝ)) {T : Trig (Fl ℝ)} (hT : TrigReal T) (cs ce y0 : Int) (φ : ℝ) (h1 : -90 < φ) (h2 : φ < 90) (o : Output) (ho : o ≠ .pet) (l : List (Fl ℝ)) (t : List (Option ℝ)) :
    resultFor₃ E T cs ce y0 (some (.fin φ)) o l (t.map toFl) = resultFor₂ E cs ce y0 o l ((petRecord t φ y0).map toFl) := by
  cases o with
  | pet => exact absurd rfl ho
  | spei dist s => exact resultFor₃_spei E hT cs ce y0 φ h1 h2 dist s l t
  | spi _ _ => rfl
  | pnp _ => rfl

/-- **C117, exactly, all scaled indices.** In exact arithmetic, for precipitation that is not negative, rows strictly between the poles, a water balance not below −999.9995 mm, scales between 1 and the length
of the record and a calibration period inside the record: the run for all scaled indices from precipitation and temperature ends without exception exactly if no calendar month of any place at any scale has
an unfit calibration sample, neither of the accumulated precipitation nor of the accumulated water balance. -/
theorem C117_scaled_exact (E : Ext (Fl ℝ)) (hE : ExtNan E) (hR : ExtReal E) (T : Trig (Fl ℝ)) (hT : TrigReal T) (cs ce : Int) (wk : Nat) (hwk : 1 ≤ wk) (lower : String → String)
    (hlow : lower "millimeters" = "millimeters") (yearOf : Fl ℝ → Int) (cmp : CoordCmp (Fl ℝ)) (a : CliArgs) (w : World (Fl ℝ)) (hi : a.index = "scaled") {f v ft vt : String} {d dt : NcFile (Fl ℝ)}
    {x xt xl : NcVar (Fl ℝ)} {A b n : Nat} {vals temps : List (Option ℝ)} {y0 y1 : Int} (hM : Monthly lower yearOf a w f v d x A b n (vals.map toFl) y0 y1)
    (hTm : MonthlyTemp lower yearOf a w ft vt dt xt xl A b n (temps.map toFl) y0 y1) (hX : Matching cmp d x dt xt) (φ : ℕ → ℝ) (hφ : ∀ i < A, xl.data[i]? = some (.fin (φ i)) ∧ -90 < φ i ∧ φ i < 90)
    (hpos : ∀ u, some u ∈ vals → 0 ≤ u) (hbal : BalancedTemp b n A vals temps φ y0) (hfresh : w.shared "result_array" = none) (scales : List Nat)
    (hs : a.scales = some (scales.map Int.ofNat)) (hsc : ∀ s ∈ scales, 1 ≤ s ∧ s ≤ n) (c1 : y0 ≤ cs) (c2 : cs ≤ ce) (c3 : ce < y0 + yearsOf n 12) (c4 : (ce - cs + 1) * 12 ≤ n) :
    (∃ w', processIndices (indexFunction E T cs ce) wk lower yearOf cmp a w = (.ok (), w')) ↔
      ∀ s ∈ scales, ∀ i < A, ∀ k < b, ∀ c < 12,
        ¬ Unfit (seriesAt b n i k vals) s c y0 cs ce ∧ ¬ UnfitBalance (seriesAt b n i k vals) (petRecord (seriesAt b n i k temps) (φ i) y0) s c y0 cs ce := by
  obtain ⟨res, w', h1, h2, _⟩ := C117_run E hE T cs ce wk hwk lower hlow yearOf cmp a w (.inr hi) hM hTm hX hfresh scales hs
  have hmem : ∀ i k u, some u ∈ seriesAt b n i k vals → 0 ≤ u := fun i k u hu => hpos u (List.mem_of_mem_drop (List.mem_of_mem_take hu))
  have hpl : ∀ s ∈ scales, ∀ i (hi' : i < A) k (hk : k < b), _ := fun s hs' i hi' k hk =>
    scaled_results E hE hR (seriesAt b n i k vals) (petRecord (seriesAt b n i k temps) (φ i) y0) (hmem i k) (by rw [place_length hM hi' hk, petRecord_length, temp_length hTm hi' hk]) (hbal i hi' k hk) s
      (hsc s hs').1 (by rw [place_length hM hi' hk]; exact (hsc s hs').2) y0 cs ce c1 c2 (by rw [place_length hM hi' hk]; exact c3) (by rw [place_length hM hi' hk]; exact c4)
  have hconv : ∀ i < A, ∀ k < b, ∀ o, o ≠ .pet → resultFor₃ E T cs ce y0 xl.data[i]? o (seriesAt b n i k (vals.map toFl)) (seriesAt b n i k (temps.map toFl)) =
      resultFor₂ E cs ce y0 o ((seriesAt b n i k vals).map toFl) ((petRecord (seriesAt b n i k temps) (φ i) y0).map toFl) := by
    intro i hi' k hk o ho
    rw [seriesAt_toFl, seriesAt_toFl, (hφ i hi').1]
    exact resultFor₃_scaled E hT cs ce y0 (φ i) (hφ i hi').2.1 (hφ i hi').2.2 o ho _ _
  rw [h1]
  have hdoc := mem_scaled_temp hi scales
  constructor
  · rintro ⟨w'', he⟩ s hs' i hi' k hk c hc
    have hok : res = .ok () := (Prod.mk.injEq _ _ _ _ ▸ he).1
    have t1 := h2.1 hok (.spi .pearson s) ((hdoc _).2 (.inr ⟨s, hs', by simp⟩)) i hi' k hk
    have t2 := h2.1 hok (.spei .pearson s) ((hdoc _).2 (.inr ⟨s, hs', by simp⟩)) i hi' k hk
    rw [hconv i hi' k hk _ (by simp)] at t1 t2
    exact ⟨(hpl s hs' i hi' k hk).1.1 t1 c hc, (hpl s hs' i hi' k hk).2.2.1.1 t2 c hc⟩
  · intro h
    refine ⟨w', ?_⟩
    rw [h2.2]
    intro o ho i hi' k hk
    rcases (hdoc o).1 ho with rfl | ⟨s, hs', ho⟩
    · refine ⟨(petRecord (seriesAt b n i k temps) (φ i) y0).map toFl, ?_⟩
      show CI.pet T (Arr.of1d (seriesAt b n i k (temps.map toFl))) xl.data[i]? y0 = _
      rw [seriesAt_toFl, (hφ i hi').1]
      exact pet_record hT _ _ (hφ i hi').2.1 (hφ i hi').2.2 y0
    · obtain ⟨r1, r2, r3, r4, r5⟩ := hpl s hs' i hi' k hk
      rw [hconv i hi' k hk o (by rcases ho with rfl | rfl | rfl | rfl | rfl <;> simp)]
      rcases ho with rfl | rfl | rfl | rfl | rfl
      · exact r1.2 (fun c hc => (h s hs' i hi' k hk c hc).1)
      · exact r2
      · exact r3.2 (fun c hc => (h s hs' i hi' k hk c hc).2)
      · exact r4
      · exact r5

/-- **C114, all scaled indices from temperature.** The documented command line for all scaled indices of monthly precipitation and temperature, under the same conditions: the tool ends without exception,
writes exactly `BASE_pet_thornthwaite.nc` and five files per scale, changes no other file, and at every place the values in these files are Thornthwaite's evapotranspiration, the indices of the
precipitation, those of the water balance with that evapotranspiration, and the ratio to normal. -/
theorem C114_scaled_temp (E : Ext (Fl ℝ)) (hE : ExtNan E) (hR : ExtReal E) (G : ℝ → ℝ → ℝ → ℝ) (P : ℝ → ℝ → ℝ → ℝ → ℝ) (Φ : ℝ → ℝ)
    (hG : ∀ v a b, 0 < v → 0 < a → 0 < b → E.gammaCdf (.fin v) (.fin a) (.fin b) = .fin (G v a b) ∧ 0 < G v a b ∧ G v a b < 1)
    (hPc : ∀ v sk loc sc, 0 < v → 0 < sc → Pearson3.Inside loc sc sk v →
      E.pearson3Cdf (.fin v) (.fin sk) (.fin loc) (.fin sc) = .fin (P v sk loc sc) ∧ 0 < P v sk loc sc ∧ P v sk loc sc < 1)
    (hloc : ∀ v sk loc sc c, 0 < sc → P (v + c) sk (loc + c) sc = P v sk loc sc)
    (hΦ : ∀ q, 0 < q → q < 1 → E.normPpf (.fin q) = .fin (Φ q))
    (T : Trig (Fl ℝ)) (hT : TrigReal T) (toInt : String → Option Int) (ht : ∀ n : Int, toInt (toString n) = some n) (cpus : Nat) (lower : String → String) (hlow : lower "millimeters" = "millimeters")
    (yearOf : Fl ℝ → Int) (cmp : CoordCmp (Fl ℝ)) (j : String → Bool) (c : MainCommand) (hc : Writable j c) (hi : c.args.index = "scaled") (cs ce : Int)
    (hcs : c.calibrationStart = some cs) (hce : c.calibrationEnd = some ce) (hcpu : 1 ≤ numberOfWorkers c.multiprocessing cpus) (w : World (Fl ℝ)) {f v ft vt : String} {d dt : NcFile (Fl ℝ)}
    {x xt xl : NcVar (Fl ℝ)} {A b n : Nat} {vals temps : List (Option ℝ)} {y0 y1 : Int} (hM : Monthly lower yearOf c.args w f v d x A b n (vals.map toFl) y0 y1)
    (hTm : MonthlyTemp lower yearOf c.args w ft vt dt xt xl A b n (temps.map toFl) y0 y1) (hX : Matching cmp d x dt xt) (φ : ℕ → ℝ)
    (hφ : ∀ i < A, xl.data[i]? = some (.fin (φ i)) ∧ -90 < φ i ∧ φ i < 90) (hfresh : w.shared "result_array" = none)
    (hpos : ∀ u, some u ∈ vals → 0 ≤ u) (hbal : BalancedTemp b n A vals temps φ y0) (scales : List Nat) (hs : c.args.scales = some (scales.map Int.ofNat)) (hsc : ∀ s ∈ scales, 1 ≤ s ∧ s ≤ n) (c1 : y0 ≤ cs)
    (c2 : cs ≤ ce) (c3 : ce < y0 + yearsOf n 12) (c4 : (ce - cs + 1) * 12 ≤ n)
    (hfit : ∀ s ∈ scales, ∀ i < A, ∀ k < b, ∀ m < 12,
      ¬ Unfit (seriesAt b n i k vals) s m y0 cs ce ∧ ¬ UnfitBalance (seriesAt b n i k vals) (petRecord (seriesAt b n i k temps) (φ i) y0) s m y0 cs ce) :
    ∃ w', mainTool E T toInt cpus lower yearOf cmp (commandLine j c) w = (.ended (.ok ()), w') ∧
      w'.written = w.written ++ entries c.args.outputFileBase (spiOutputs scales ++ [.pet] ++ speiOutputs scales ++ pnpOutputs scales) ∧
      (∀ g, (∀ o ∈ spiOutputs scales ++ [.pet] ++ speiOutputs scales ++ pnpOutputs scales, g ≠ fileName c.args.outputFileBase o.name) → w'.files g = w.files g) ∧
      FileHolds w'.files (c.args.outputFileBase ++ "_pet_thornthwaite.nc") "pet_thornthwaite" dt xt A b n (fun i k out => out = (petRecord (seriesAt b n i k temps) (φ i) y0).map toFl) ∧
      ScaledFiles G P Φ w'.files c.args.outputFileBase d x A b n (fun i k => seriesAt b n i k vals) (fun i k => petRecord (seriesAt b n i k temps) (φ i) y0) scales y0 cs ce := by
  have hmem : ∀ i k u, some u ∈ seriesAt b n i k vals → 0 ≤ u := fun i k u hu => hpos u (List.mem_of_mem_drop (List.mem_of_mem_take hu))
  have hpl : ∀ i < A, ∀ k < b, (seriesAt b n i k vals).length = n ∧ (seriesAt b n i k vals).length = (petRecord (seriesAt b n i k temps) (φ i) y0).length := fun i hi' k hk =>
    ⟨place_length hM hi' hk, by rw [place_length hM hi' hk, petRecord_length, temp_length hTm hi' hk]⟩
  have hdoc : documented c.args.index false scales = spiOutputs scales ++ [.pet] ++ speiOutputs scales ++ pnpOutputs scales := by rw [hi]; rfl
  have hmo := mem_scaled_temp hi scales
  have hpet : ∀ i < A, ∀ k < b, CI.pet T (Arr.of1d (seriesAt b n i k (temps.map toFl))) xl.data[i]? y0 = .ok ((petRecord (seriesAt b n i k temps) (φ i) y0).map toFl) := by
    intro i hi' k _
    rw [(hφ i hi').1, seriesAt_toFl]
    exact pet_record hT _ _ (hφ i hi').2.1 (hφ i hi').2.2 y0
  have hconv : ∀ i < A, ∀ k < b, ∀ o, o ≠ .pet → resultFor₃ E T cs ce y0 xl.data[i]? o (seriesAt b n i k (vals.map toFl)) (seriesAt b n i k (temps.map toFl)) =
      resultFor₂ E cs ce y0 o ((seriesAt b n i k vals).map toFl) ((petRecord (seriesAt b n i k temps) (φ i) y0).map toFl) := by
    intro i hi' k hk o ho
    rw [seriesAt_toFl, seriesAt_toFl, (hφ i hi').1]
    exact resultFor₃_scaled E hT cs ce y0 (φ i) (hφ i hi').2.1 (hφ i hi').2.2 o ho _ _
  have hend := (C117_scaled_exact E hE hR T hT cs ce _ hcpu lower hlow yearOf cmp c.args w hi hM hTm hX φ hφ hpos hbal hfresh scales hs hsc c1 c2 c3 c4).2 hfit
  rw [C106_given E T toInt cpus lower yearOf cmp (commandLine j c) w c (C105_main toInt ht j c hc) cs ce hcs hce]
  obtain ⟨res, w', h1, h2, h3, h4, h5⟩ := C117_run E hE T cs ce _ hcpu lower hlow yearOf cmp c.args w (.inr hi) hM hTm hX hfresh scales hs
  have hok : res = .ok () := by
    obtain ⟨w'', he⟩ := hend
    rw [h1] at he
    exact (Prod.mk.injEq _ _ _ _ ▸ he).1
  have hall := h2.1 hok
  have htake : (documented c.args.index false scales).takeWhile (fun o => @decide (Computable₃ E T cs ce y0 (vals.map toFl) (temps.map toFl) xl.data A b n o) (Classical.propDecidable _)) =
      documented c.args.index false scales := by
    rw [List.takeWhile_eq_self_iff]
    intro o ho
    exact @decide_eq_true _ (Classical.propDecidable _) (hall o ho)
  rw [htake] at h3 h4 h5
  rw [h1]
  refine ⟨w', by rw [hok], by rw [← hdoc]; exact h3, by rw [← hdoc]; exact h5, ?_, ?_⟩
  · have hname : fileName c.args.outputFileBase "pet_thornthwaite" = c.args.outputFileBase ++ "_pet_thornthwaite.nc" := by
      unfold fileName
      rw [String.append_assoc, String.append_assoc]
      rfl
    obtain ⟨file, y, g1, g2, ⟨g3, g4⟩, ⟨g5, _⟩, g6⟩ := h4 .pet ((hmo _).2 (.inl rfl))
    rw [if_pos rfl] at g3 g4 g5
    refine ⟨file, y, by rw [← hname]; exact g1, g2, g3, g5, g4, fun i hi' k hk => ?_⟩
    have := g6 i hi' k hk
    beta_reduce at this
    have e : resultFor₃ E T cs ce y0 xl.data[i]? .pet (seriesAt b n i k (vals.map toFl)) (seriesAt b n i k (temps.map toFl)) = CI.pet T (Arr.of1d (seriesAt b n i k (temps.map toFl))) xl.data[i]? y0 := rfl
    rw [e, hpet i hi' k hk] at this
    exact (Except.ok.inj this).symm
  · refine scaled_files E hE hR G P Φ hG hPc hloc hΦ (fun i _ k _ => hmem i k) hpl hbal hsc c1 c2 c3 c4 (fun s hs' o ho => ?_)
    have hne : o ≠ .pet := by
      rintro rfl
      simp at ho
    obtain ⟨file, y, g1, g2, ⟨g3, g4⟩, ⟨g5, _⟩, g6⟩ := h4 o ((hmo o).2 (.inr ⟨s, hs', by simp only [List.mem_cons, List.not_mem_nil, or_false] at ho; tauto⟩))
    rw [if_neg hne] at g3 g4 g5
    refine ⟨file, y, g1, g2, g3, g5, g4, fun i hi' k hk => ?_⟩
    have hr := g6 i hi' k hk
    beta_reduce at hr
    rwa [hconv i hi' k hk o hne] at hr

/-! ## A concrete run: the files of C114 for SPEI from temperature -/

theorem warm_scaled_writable : Writable (fun _ => false) (warmCommand "scaled" (some 2000) (some 2004)) := by
  refine ⟨rfl, by decide, (by decide : Periodicity.monthly ≠ .other), (by decide : "none" ∈ ["none", "input"]), ?_⟩
  intro p hp _ t ht
  simp only [warmCommand, demoArgs, List.mem_cons, List.not_mem_nil, or_false] at hp
  rcases hp with rfl | rfl | rfl | rfl | rfl | rfl | rfl | rfl | rfl <;> cases ht <;> exact .inl (by decide)

theorem warm_scaled_fit : ∀ s ∈ [1], ∀ i < 1, ∀ k < 1, ∀ m < 12,
    ¬ Unfit (seriesAt 1 60 i k steps5) s m 2000 2000 2004 ∧ ¬ UnfitBalance (seriesAt 1 60 i k steps5) (petRecord (seriesAt 1 60 i k warm5) ((fun _ => 40 : ℕ → ℝ) i) 2000) s m 2000 2000 2004 := by
  intro s hs i hi k hk m hm
  obtain rfl : s = 1 := by simpa using hs
  obtain rfl : i = 0 := by omega
  obtain rfl : k = 0 := by omega
  rw [solo_series, warm_series]
  exact ⟨solo_fit m hm, warm5_fit m hm⟩

/-- C117 for these files: the run for all scaled indices ends -/
example (cmp : CoordCmp (Fl ℝ)) (hcmp : ∀ l, cmp.close l l = .ok true ∧ cmp.equal l l = true) :
    ∃ w', processIndices (indexFunction sigmoidExt realTrig 2000 2004) 2 id pairYear cmp (demoArgs "scaled" [1]) warmWorld = (.ok (), w') :=
  (C117_scaled_exact sigmoidExt sigmoidExt_nan sigmoidExt_real realTrig realTrig_real 2000 2004 2 (by decide) id rfl pairYear cmp (demoArgs "scaled" [1]) warmWorld rfl (warm_monthly _) (warm_temp _)
    (warm_matching cmp hcmp) (fun _ => 40) warm_lat steps5_nonneg warm_balanced rfl [1] rfl (by decide) le_rfl (by norm_num) (by norm_num [yearsOf]) (by norm_num)).2 warm_scaled_fit

theorem sigmoid_P : ∀ v sk loc sc, 0 < v → 0 < sc → Pearson3.Inside loc sc sk v →
    sigmoidExt.pearson3Cdf (.fin v) (.fin sk) (.fin loc) (.fin sc) = .fin (sigmoid v sk loc sc) ∧ 0 < sigmoid v sk loc sc ∧ sigmoid v sk loc sc < 1 := by
  intro v sk loc sc _ hsc _
  refine ⟨?_, sigmoid_range v sk loc sc⟩
  show (if sc = 0 then Fl.nan else Fl.fin (sigmoid v 0 loc sc)) = _
  rw [if_neg hsc.ne']
  rfl

theorem sigmoid_loc : ∀ v sk loc sc c : ℝ, 0 < sc → sigmoid (v + c) sk (loc + c) sc = sigmoid v sk loc sc := by
  intro v sk loc sc c _
  unfold sigmoid
  rw [add_sub_add_right_eq_sub]

/-- C114 for this line: six files; the ratio to normal of January 2003 is 4 mm over the mean 3 mm of the five Januaries -/
example (cmp : CoordCmp (Fl ℝ)) (hcmp : ∀ l, cmp.close l l = .ok true ∧ cmp.equal l l = true) (toInt : String → Option Int) (ht : ∀ n : Int, toInt (toString n) = some n) :
    ∃ w' file y, mainTool sigmoidExt realTrig toInt 1 id pairYear cmp (commandLine (fun _ => false) (warmCommand "scaled" (some 2000) (some 2004))) warmWorld = (.ended (.ok ()), w') ∧
      w'.written = [("out_spi_pearson_01.nc", "spi_pearson_01"), ("out_spi_gamma_01.nc", "spi_gamma_01"), ("out_pet_thornthwaite.nc", "pet_thornthwaite"),
        ("out_spei_pearson_01.nc", "spei_pearson_01"), ("out_spei_gamma_01.nc", "spei_gamma_01"), ("out_pnp_01.nc", "pnp_01")] ∧
      w'.files "out_pnp_01.nc" = some file ∧ ("pnp_01", y) ∈ file ∧ y.data[36]? = some (.fin (4 / 3)) := by
  obtain ⟨w', h1, h2, _, _, h4⟩ := C114_scaled_temp sigmoidExt sigmoidExt_nan sigmoidExt_real (fun v a b => gammaP a (v / b)) sigmoid (fun q => 8 * (q - 1 / 2)) realExt_G sigmoid_P sigmoid_loc realExt_Φ
      realTrig realTrig_real toInt ht 1 id rfl pairYear cmp (fun _ => false) (warmCommand "scaled" (some 2000) (some 2004)) warm_scaled_writable rfl 2000 2004 rfl rfl (by decide) warmWorld
      (warm_monthly "scaled") (warm_temp "scaled") (warm_matching cmp hcmp) (fun _ => 40) warm_lat rfl steps5_nonneg warm_balanced [1] rfl (by decide) le_rfl (by norm_num) (by norm_num [yearsOf])
      (by norm_num) warm_scaled_fit
  obtain ⟨_, _, _, _, file, y, g1, g2, _, g4, _, g6⟩ := h4 1 (by decide)
  have hn : "pnp_" ++ twoDigits 1 = "pnp_01" := by decide +kernel
  rw [hn] at g1 g2
  refine ⟨w', file, y, h1, ?_, ?_, g2, ?_⟩
  · rw [h2]
    show [] ++ entries "out" (spiOutputs [1] ++ [.pet] ++ speiOutputs [1] ++ pnpOutputs [1]) = _
    decide +kernel
  · rw [← g1]
    rfl
  · have hg := g6 0 (by decide) 0 (by decide)
    beta_reduce at hg
    rw [solo_series] at hg
    have hv := hg.2 36 (by rw [steps5_length]; norm_num)
    have e2 : ((2000 : ℤ) - 2000).toNat = 0 := rfl
    have e3 : ((2004 : ℤ) - 2000 + 1).toNat = 5 := rfl
    have e5 : 36 % 12 = 0 := rfl
    have hm : mean [0, 1, 2, 4, 8] = 3 := by unfold mean; norm_num
    rw [e2, e3, e5, sample_steps5 0 (by omega), accum_steps5 36 (by omega), take60 y.data 36 (by norm_num)] at hv
    rw [hv, hm]
    norm_num

/-- C114 with a PET file: five files, with the same ratio to normal -/
example (T : Trig (Fl ℝ)) (cmp : CoordCmp (Fl ℝ)) (hcmp : ∀ l, cmp.close l l = .ok true ∧ cmp.equal l l = true) (toInt : String → Option Int) (ht : ∀ n : Int, toInt (toString n) = some n) :
    ∃ w' file y, mainTool sigmoidExt T toInt 1 id pairYear cmp (commandLine (fun _ => false) (duoCommand "scaled")) duoWorld = (.ended (.ok ()), w') ∧
      w'.written = [("out_spi_pearson_01.nc", "spi_pearson_01"), ("out_spi_gamma_01.nc", "spi_gamma_01"), ("out_spei_pearson_01.nc", "spei_pearson_01"), ("out_spei_gamma_01.nc", "spei_gamma_01"),
        ("out_pnp_01.nc", "pnp_01")] ∧ w'.files "out_pnp_01.nc" = some file ∧ ("pnp_01", y) ∈ file ∧ y.data[36]? = some (.fin (4 / 3)) := by
  obtain ⟨w', h1, h2, _, h4⟩ := C114_scaled sigmoidExt sigmoidExt_nan sigmoidExt_real (fun v a b => gammaP a (v / b)) sigmoid (fun q => 8 * (q - 1 / 2)) realExt_G sigmoid_P sigmoid_loc realExt_Φ
    T toInt ht 1 id pairYear cmp (fun _ => false) (duoCommand "scaled") (duo_writable (by decide)) rfl 2000 2004 rfl rfl (by decide) duoWorld
    (duo_monthly "scaled") (duo_pet "scaled" cmp hcmp) rfl steps5_nonneg duo_balanced [1] rfl (by decide) le_rfl (by norm_num) (by norm_num [yearsOf]) (by norm_num) (by
      intro s hs i hi k hk m hm
      obtain rfl : s = 1 := by simpa using hs
      obtain rfl : i = 0 := by omega
      obtain rfl : k = 0 := by omega
      rw [solo_series, flat_series]
      exact ⟨solo_fit m hm, duo_fit m hm⟩)
  obtain ⟨_, _, _, _, file, y, g1, g2, _, g4, _, g6⟩ := h4 1 (by decide)
  have hn : "pnp_" ++ twoDigits 1 = "pnp_01" := by decide +kernel
  rw [hn] at g1 g2
  refine ⟨w', file, y, h1, ?_, ?_, g2, ?_⟩
  · rw [h2]
    show [] ++ entries "out" (spiOutputs [1] ++ speiOutputs [1] ++ pnpOutputs [1]) = _
    decide +kernel
  · rw [← g1]
    rfl
  · have hg := g6 0 (by decide) 0 (by decide)
    beta_reduce at hg
    rw [solo_series] at hg
    have hv := hg.2 36 (by rw [steps5_length]; norm_num)
    have e2 : ((2000 : ℤ) - 2000).toNat = 0 := rfl
    have e3 : ((2004 : ℤ) - 2000 + 1).toNat = 5 := rfl
    have e5 : 36 % 12 = 0 := rfl
    have hm : mean [0, 1, 2, 4, 8] = 3 := by unfold mean; norm_num
    rw [e2, e3, e5, sample_steps5 0 (by omega), accum_steps5 36 (by omega), take60 y.data 36 (by norm_num)] at hv
    rw [hv, hm]
    norm_num

end CI.Props
