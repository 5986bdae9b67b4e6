import Verif.Props.CliLivePet
import Verif.Props.CliYears
import Verif.Props.EndToEndSpei
import Verif.Props.Eto

/-!
# C117 exactly, and C114 for PET and for SPEI from temperature: from the command line to the values in the files
-/

namespace CI.Props

open CI FloatOps FloatLaws Spec Spec.McKee

/-! ## Specification -/

open Classical in
/-- what the tool makes of the temperatures `t` (from January of year `y` on) at latitude `φ` in degrees: Thornthwaite's equation for every month with a temperature, no value for the others; but no value
for any month if some calendar month never has a temperature or if no temperature is above freezing (both against C30) -/
noncomputable def petRecord (t : List (Option ℝ)) (φ : ℝ) (y : ℤ) : List (Option ℝ) :=
  if (∀ j < 12, monthValues t j ≠ []) ∧ ∃ a : ℝ, some a ∈ t ∧ 0 < a then t.zipIdx.map (fun q => q.1.map (thornthwaite t (φ * (Real.pi / 180)) y q.2)) else List.replicate t.length none

theorem petRecord_length (t : List (Option ℝ)) (φ : ℝ) (y : ℤ) : (petRecord t φ y).length = t.length := by
  unfold petRecord
  split <;> simp

/-! ## PET of a record -/

theorem missing_of_gap {t : List (Option ℝ)} {j : ℕ} (h : monthValues t j = []) (i : ℕ) : t[i * 12 + j]? = none ∨ t[i * 12 + j]? = some none := by
  by_cases hi : i < t.length
  · unfold monthValues at h
    rw [List.filterMap_eq_nil_iff] at h
    have := h i (List.mem_range.2 hi)
    rw [Option.map_eq_none_iff] at this
    cases ht : t[i * 12 + j]? with
    | none => exact .inl rfl
    | some o =>
      rw [ht] at this
      cases o with
      | none => exact .inr rfl
      | some a => cases this
  · left
    rw [List.getElem?_eq_none_iff]
    omega

theorem all_missing {t : List (Option ℝ)} (h : ¬ ∃ a : ℝ, some a ∈ t) : t = List.replicate t.length none := by
  rw [List.eq_replicate_iff]
  refine ⟨rfl, fun o ho => ?_⟩
  cases o with
  | none => rfl
  | some a => exact absurd ⟨a, ho⟩ h

theorem allNan_replicate (n : ℕ) : allNan ((List.replicate n (none : Option ℝ)).map toFl) = true := by
  rw [List.map_replicate]
  unfold allNan
  rw [List.all_eq_true]
  intro z hz
  rw [List.eq_of_mem_replicate hz]
  rfl

/-- PET of any record of temperatures strictly between the poles -/
theorem pet_record {T : Trig (Fl ℝ)} (hT : TrigReal T) (t : List (Option ℝ)) (φ : ℝ) (h1 : -90 < φ) (h2 : φ < 90) (y : ℤ) :
    pet T (Arr.of1d (t.map toFl)) (some (.fin φ)) y = .ok ((petRecord t φ y).map toFl) := by
  have hr := reshapeTo2d_of1d (t.map toFl) 12 (by norm_num)
  unfold petRecord
  by_cases hne : ∃ a : ℝ, some a ∈ t
  · by_cases hmon : ∀ j < 12, monthValues t j ≠ []
    · by_cases hpos : ∃ a : ℝ, some a ∈ t ∧ 0 < a
      · rw [if_pos ⟨hmon, hpos⟩, C30_formula hT _ _ t rfl hr φ h1 h2 y hmon hpos, List.map_map]
        rfl
      · rw [if_neg (fun h => hpos h.2), C30_frozen_fails hT _ _ t rfl hr φ h1 h2 y hmon (fun a ha => not_lt.1 (fun h => hpos ⟨a, ha, h⟩)), List.map_replicate]
        rfl
    · rw [if_neg (fun h => hmon h.1), List.map_replicate]
      push Not at hmon
      obtain ⟨j, hj, hg⟩ := hmon
      exact C30_gap_fails hT _ _ t rfl hr φ h1 h2 y hne j hj (missing_of_gap hg)
  · rw [if_neg (fun h => hne ⟨h.2.choose, h.2.choose_spec.1⟩), ← all_missing hne]
    unfold pet
    rw [if_pos]
    · rfl
    · rw [all_missing hne]
      exact allNan_replicate _

/-- for which latitudes there is a result -/
theorem pet_exists_iff {T : Trig (Fl ℝ)} (hT : TrigReal T) (t : List (Option ℝ)) (lat : Option (Fl ℝ)) (y : ℤ) :
    (∃ r, pet T (Arr.of1d (t.map toFl)) lat y = .ok r) ↔ (∃ φ : ℝ, lat = some (.fin φ) ∧ -90 < φ ∧ φ < 90) ∨ ∀ a : ℝ, some a ∉ t := by
  by_cases hne : ∃ a : ℝ, some a ∈ t
  · obtain ⟨a, ha⟩ := hne
    have hn := notAllNan (Arr.of1d (t.map toFl)) t rfl a ha
    obtain ⟨k1, k2⟩ := C31_partial hT (Arr.of1d (t.map toFl)) lat y hn ⟨_, reshapeTo2d_of1d _ 12 (by norm_num)⟩
    constructor
    · rintro ⟨r, hr⟩
      left
      by_contra hc
      rw [k2 hc] at hr
      cases hr
    · rintro (h | h)
      · exact k1 h
      · exact absurd ha (h a)
  · refine ⟨fun _ => .inr (fun a ha => hne ⟨a, ha⟩), fun _ => ⟨t.map toFl, ?_⟩⟩
    unfold pet
    rw [if_pos]
    · rfl
    · show allNan (t.map toFl) = true
      rw [all_missing hne]
      exact allNan_replicate _

/-! ## PET -/

/-- **C117, exactly, PET.** In exact arithmetic the run for PET ends without exception exactly if every row of the grid (every division) that has any temperature lies strictly between the poles. -/
theorem C117_pet_exact (E : Ext (Fl ℝ)) (T : Trig (Fl ℝ)) (hT : TrigReal T) (cs ce : Int) (wk : Nat) (hwk : 1 ≤ wk) (lower : String → String) (yearOf : Fl ℝ → Int) (cmp : CoordCmp (Fl ℝ)) (a : CliArgs)
    (w : World (Fl ℝ)) (hi : a.index = "pet") {f v : String} {d : NcFile (Fl ℝ)} {x xl : NcVar (Fl ℝ)} {A b n : Nat} {temps : List (Option ℝ)} {y0 y1 : Int}
    (hM : MonthlyTemp lower yearOf a w f v d x xl A b n (temps.map toFl) y0 y1) (hfresh : w.shared "result_array" = none) :
    (∃ w', processIndices (indexFunction E T cs ce) wk lower yearOf cmp a w = (.ok (), w')) ↔
      ∀ i < A, (∃ φ : ℝ, xl.data[i]? = some (.fin φ) ∧ -90 < φ ∧ φ < 90) ∨ ∀ k < b, ∀ u : ℝ, some u ∉ seriesAt b n i k temps := by
  obtain ⟨res, w', h1, h2, _⟩ := C117_pet E T cs ce wk hwk lower yearOf cmp a w hi hM hfresh
  rw [h1]
  have e : (∃ w'', (res, w') = (.ok (), w'')) ↔ res = .ok () := by
    constructor
    · rintro ⟨w'', h⟩
      exact (Prod.mk.injEq _ _ _ _ ▸ h).1
    · rintro rfl
      exact ⟨w', rfl⟩
  rw [e, h2]
  refine forall_congr' (fun i => forall_congr' (fun hi' => ?_))
  have key : ∀ k, (∃ r, pet T (Arr.of1d (seriesAt b n i k (temps.map toFl))) xl.data[i]? y0 = .ok r) ↔
      (∃ φ : ℝ, xl.data[i]? = some (.fin φ) ∧ -90 < φ ∧ φ < 90) ∨ ∀ u : ℝ, some u ∉ seriesAt b n i k temps := by
    intro k
    rw [seriesAt_toFl]
    exact pet_exists_iff hT _ _ _
  constructor
  · intro h
    by_cases hl : ∃ φ : ℝ, xl.data[i]? = some (.fin φ) ∧ -90 < φ ∧ φ < 90
    · exact .inl hl
    · exact .inr (fun k hk => ((key k).1 (h k hk)).resolve_left hl)
  · intro h k hk
    refine (key k).2 ?_
    rcases h with h | h
    · exact .inl h
    · exact .inr (h k hk)

/-- **C114, PET.** The documented command line for PET from monthly temperature (any files, names, numbers of workers, separate values or `=`, with or without calibration years), in exact arithmetic, for
rows strictly between the poles: the tool ends without exception, writes exactly the file `BASE_pet_thornthwaite.nc`, changes no other file, and at every place the values are Thornthwaite's for the
temperatures of that place in degrees Celsius and its latitude. -/
theorem C114_pet (E : Ext (Fl ℝ)) (T : Trig (Fl ℝ)) (hT : TrigReal T) (toInt : String → Option Int) (ht : ∀ n : Int, toInt (toString n) = some n) (cpus : Nat) (lower : String → String)
    (yearOf : Fl ℝ → Int) (cmp : CoordCmp (Fl ℝ)) (j : String → Bool) (c : MainCommand) (hc : Writable j c) (hi : c.args.index = "pet") (hcpu : 1 ≤ numberOfWorkers c.multiprocessing cpus)
    (w : World (Fl ℝ)) {f v : String} {d : NcFile (Fl ℝ)} {x xl : NcVar (Fl ℝ)} {A b n : Nat} {temps : List (Option ℝ)} {y0 y1 : Int}
    (hM : MonthlyTemp lower yearOf c.args w f v d x xl A b n (temps.map toFl) y0 y1) (hfresh : w.shared "result_array" = none) (φ : ℕ → ℝ)
    (hφ : ∀ i < A, xl.data[i]? = some (.fin (φ i)) ∧ -90 < φ i ∧ φ i < 90) :
    ∃ w', mainTool E T toInt cpus lower yearOf cmp (commandLine j c) w = (.ended (.ok ()), w') ∧
      w'.written = w.written ++ [(c.args.outputFileBase ++ "_pet_thornthwaite.nc", "pet_thornthwaite")] ∧
      (∀ g, g ≠ c.args.outputFileBase ++ "_pet_thornthwaite.nc" → w'.files g = w.files g) ∧
      FileHolds w'.files (c.args.outputFileBase ++ "_pet_thornthwaite.nc") "pet_thornthwaite" d x A b n (fun i k out => out = (petRecord (seriesAt b n i k temps) (φ i) y0).map toFl) := by
  have hname : fileName c.args.outputFileBase "pet_thornthwaite" = c.args.outputFileBase ++ "_pet_thornthwaite.nc" := by
    unfold fileName
    rw [String.append_assoc, String.append_assoc]
    rfl
  obtain ⟨res, w', h1, h2, h3, _, h4⟩ := C117_pet E T 0 0 _ hcpu lower yearOf cmp c.args w hi hM hfresh
  have hall : ∀ i < A, ∀ k < b, pet T (Arr.of1d (seriesAt b n i k (temps.map toFl))) xl.data[i]? y0 = .ok ((petRecord (seriesAt b n i k temps) (φ i) y0).map toFl) := by
    intro i hi' k _
    rw [(hφ i hi').1, seriesAt_toFl]
    exact pet_record hT _ _ (hφ i hi').2.1 (hφ i hi').2.2 y0
  have hok := h2.2 (fun i hi' k hk => ⟨_, hall i hi' k hk⟩)
  obtain ⟨k1, file, y, g1, g2, ⟨g3, g4⟩, ⟨g5, _⟩, g6⟩ := h3 hok
  rw [hname] at k1 h4
  refine ⟨w', ?_, k1, h4, file, y, by rw [← hname]; exact g1, g2, g3, g5, g4, fun i hi' k hk => ?_⟩
  · unfold mainTool
    rw [C105_main toInt ht j c hc]
    dsimp only
    rw [C106_pet E T _ lower yearOf cmp c.args hi c.calibrationStart c.calibrationEnd 0 0 w, h1, hok]
  · have := g6 i hi' k hk
    beta_reduce at this
    rw [hall i hi' k hk] at this
    exact (Except.ok.inj this).symm

/-! ## SPEI from temperature -/

/-- the water balance with the computed PET lies at every place above the offset -/
def BalancedTemp (b n A : Nat) (vals temps : List (Option ℝ)) (φ : ℕ → ℝ) (y0 : ℤ) : Prop :=
  ∀ i < A, ∀ k < b, ∀ u, some u ∈ waterBalance (seriesAt b n i k vals) (petRecord (seriesAt b n i k temps) (φ i) y0) → -999.9995 ≤ u

theorem temp_length {lower : String → String} {yearOf : Fl ℝ → Int} {a : CliArgs} {w : World (Fl ℝ)} {f v : String} {d : NcFile (Fl ℝ)} {x xl : NcVar (Fl ℝ)} {A b n : Nat}
    {temps : List (Option ℝ)} {y0 y1 : Int} (hM : MonthlyTemp lower yearOf a w f v d x xl A b n (temps.map toFl) y0 y1) {i k : Nat}
    (hi : i < A) (hk : k < b) : (seriesAt b n i k temps).length = n := by
  obtain ⟨u, hu, hc⟩ := hM.units
  obtain ⟨it, hl⟩ : ∃ it, IsLayout it x.shape A b n := by
    rcases hM.layout with ⟨_, h⟩ | ⟨_, h, hb⟩
    · exact ⟨.grid, .inl ⟨rfl, h⟩⟩
    · exact ⟨.divisions, .inr ⟨rfl, h, hb⟩⟩
  have := seriesAt_len hl (by rw [convert_length.2.1 hc]; exact hM.input.wf) hi hk
  rw [seriesAt_toFl, List.length_map] at this
  exact this

/-- SPEI from temperature is SPEI with the PET of the record -/
theorem resultFor₃_spei (E : Ext (Fl ℝ)) {T : Trig (Fl ℝ)} (hT : TrigReal T) (cs ce y0 : Int) (φ : ℝ) (h1 : -90 < φ) (h2 : φ < 90) (dist : Distribution) (s : ℕ) (l : List (Fl ℝ)) (t : List (Option ℝ)) :
    resultFor₃ E T cs ce y0 (some (.fin φ)) (.spei dist s) l (t.map toFl) = resultFor₂ E cs ce y0 (.spei dist s) l ((petRecord t φ y0).map toFl) := by
  unfold resultFor₃ resultFor₂
  simp only [pet_record hT t φ h1 h2 y0, bind, Except.bind]

/-- **C117, exactly, SPEI.** In exact arithmetic, for precipitation that is not negative, rows strictly between the poles, a water balance not below −999.9995 mm, scales between 1 and the length of the
record and a calibration period inside the record: the run for SPEI from precipitation and temperature ends without exception exactly if no calendar month of any place at any scale has a calibration
sample of the accumulated water balance (at least four) of which all but one are equal. -/
theorem C117_spei_exact (E : Ext (Fl ℝ)) (hE : ExtNan E) (hR : ExtReal E) (T : Trig (Fl ℝ)) (hT : TrigReal T) (cs ce : Int) (wk : Nat) (hwk : 1 ≤ wk) (lower : String → String)
    (hlow : lower "millimeters" = "millimeters") (yearOf : Fl ℝ → Int) (cmp : CoordCmp (Fl ℝ)) (a : CliArgs) (w : World (Fl ℝ)) (hi : a.index = "spei") {f v ft vt : String} {d dt : NcFile (Fl ℝ)}
    {x xt xl : NcVar (Fl ℝ)} {A b n : Nat} {vals temps : List (Option ℝ)} {y0 y1 : Int} (hM : Monthly lower yearOf a w f v d x A b n (vals.map toFl) y0 y1)
    (hTm : MonthlyTemp lower yearOf a w ft vt dt xt xl A b n (temps.map toFl) y0 y1) (hX : Matching cmp d x dt xt) (φ : ℕ → ℝ) (hφ : ∀ i < A, xl.data[i]? = some (.fin (φ i)) ∧ -90 < φ i ∧ φ i < 90)
    (hpos : ∀ u, some u ∈ vals → 0 ≤ u) (hbal : BalancedTemp b n A vals temps φ y0) (hfresh : w.shared "result_array" = none) (scales : List Nat)
    (hs : a.scales = some (scales.map Int.ofNat)) (hsc : ∀ s ∈ scales, 1 ≤ s ∧ s ≤ n) (c1 : y0 ≤ cs) (c2 : cs ≤ ce) (c3 : ce < y0 + yearsOf n 12) :
    (∃ w', processIndices (indexFunction E T cs ce) wk lower yearOf cmp a w = (.ok (), w')) ↔
      ∀ s ∈ scales, ∀ i < A, ∀ k < b, ∀ c < 12, ¬ UnfitBalance (seriesAt b n i k vals) (petRecord (seriesAt b n i k temps) (φ i) y0) s c y0 cs ce := by
  obtain ⟨res, w', h1, h2, _⟩ := C117_run E hE T cs ce wk hwk lower hlow yearOf cmp a w (.inl hi) hM hTm hX hfresh scales hs
  have hmem : ∀ i k u, some u ∈ seriesAt b n i k vals → 0 ≤ u := fun i k u hu => hpos u (List.mem_of_mem_drop (List.mem_of_mem_take hu))
  have hpl : ∀ s ∈ scales, ∀ i (hi' : i < A) k (hk : k < b), _ := fun s hs' i hi' k hk =>
    resultFor_spei E hE hR (seriesAt b n i k vals) (petRecord (seriesAt b n i k temps) (φ i) y0) (hmem i k) (by rw [place_length hM hi' hk, petRecord_length, temp_length hTm hi' hk]) (hbal i hi' k hk) s
      (hsc s hs').1 (by rw [place_length hM hi' hk]; exact (hsc s hs').2) y0 cs ce c1 c2 (by rw [place_length hM hi' hk]; exact c3)
  have hconv : ∀ i < A, ∀ k < b, ∀ dist s, resultFor₃ E T cs ce y0 xl.data[i]? (.spei dist s) (seriesAt b n i k (vals.map toFl)) (seriesAt b n i k (temps.map toFl)) =
      resultFor₂ E cs ce y0 (.spei dist s) ((seriesAt b n i k vals).map toFl) ((petRecord (seriesAt b n i k temps) (φ i) y0).map toFl) := by
    intro i hi' k hk dist s
    rw [seriesAt_toFl, seriesAt_toFl, (hφ i hi').1]
    exact resultFor₃_spei E hT cs ce y0 (φ i) (hφ i hi').2.1 (hφ i hi').2.2 dist s _ _
  rw [h1]
  have hdoc : ∀ o, o ∈ documented a.index false scales ↔ o = .pet ∨ ∃ s ∈ scales, o = .spei .pearson s ∨ o = .spei .gamma s := by
    intro o
    rw [hi]
    show o ∈ petOutputs false ++ speiOutputs scales ↔ _
    simp [petOutputs, speiOutputs]
  constructor
  · rintro ⟨w'', he⟩ s hs' i hi' k hk
    have hok : res = .ok () := (Prod.mk.injEq _ _ _ _ ▸ he).1
    refine ((hpl s hs' i hi' k hk).1).1 ?_
    have := h2.1 hok (.spei .pearson s) ((hdoc _).2 (.inr ⟨s, hs', .inl rfl⟩)) i hi' k hk
    rwa [hconv i hi' k hk] at this
  · intro h
    refine ⟨w', ?_⟩
    rw [h2.2]
    intro o ho i hi' k hk
    rcases (hdoc o).1 ho with rfl | ⟨s, hs', rfl | rfl⟩
    · refine ⟨(petRecord (seriesAt b n i k temps) (φ i) y0).map toFl, ?_⟩
      show pet T (Arr.of1d (seriesAt b n i k (temps.map toFl))) xl.data[i]? y0 = _
      rw [seriesAt_toFl, (hφ i hi').1]
      exact pet_record hT _ _ (hφ i hi').2.1 (hφ i hi').2.2 y0
    · rw [hconv i hi' k hk]
      exact (hpl s hs' i hi' k hk).1.2 (h s hs' i hi' k hk)
    · rw [hconv i hi' k hk]
      exact (hpl s hs' i hi' k hk).2

/-- **C114, SPEI from temperature.** The documented command line for SPEI of monthly precipitation and temperature (any files, names, scales, calibration years inside the record, numbers of workers, separate
values or `=`), in exact arithmetic, for precipitation that is not negative, rows strictly between the poles, a water balance not below −999.9995 mm and Pearson fits at all places, scales and months
(else no run finishes, C117): the tool ends without exception, writes exactly `BASE_pet_thornthwaite.nc` and two files per scale, changes no other file, and at every place the values in these files are
Thornthwaite's evapotranspiration and the indices of the accumulated water balance with it. -/
theorem C114_spei_temp (E : Ext (Fl ℝ)) (hE : ExtNan E) (hR : ExtReal E) (G : ℝ → ℝ → ℝ → ℝ) (P : ℝ → ℝ → ℝ → ℝ → ℝ) (Φ : ℝ → ℝ)
    (hG : ∀ v a b, 0 < v → 0 < a → 0 < b → E.gammaCdf (.fin v) (.fin a) (.fin b) = .fin (G v a b) ∧ 0 < G v a b ∧ G v a b < 1)
    (hPc : ∀ v sk loc sc, 0 < v → 0 < sc → Pearson3.Inside loc sc sk v →
      E.pearson3Cdf (.fin v) (.fin sk) (.fin loc) (.fin sc) = .fin (P v sk loc sc) ∧ 0 < P v sk loc sc ∧ P v sk loc sc < 1)
    (hloc : ∀ v sk loc sc c, 0 < sc → P (v + c) sk (loc + c) sc = P v sk loc sc)
    (hΦ : ∀ q, 0 < q → q < 1 → E.normPpf (.fin q) = .fin (Φ q))
    (T : Trig (Fl ℝ)) (hT : TrigReal T) (toInt : String → Option Int) (ht : ∀ n : Int, toInt (toString n) = some n) (cpus : Nat) (lower : String → String) (hlow : lower "millimeters" = "millimeters")
    (yearOf : Fl ℝ → Int) (cmp : CoordCmp (Fl ℝ)) (j : String → Bool) (c : MainCommand) (hc : Writable j c) (hi : c.args.index = "spei") (cs ce : Int)
    (hcs : c.calibrationStart = some cs) (hce : c.calibrationEnd = some ce) (hcpu : 1 ≤ numberOfWorkers c.multiprocessing cpus) (w : World (Fl ℝ)) {f v ft vt : String} {d dt : NcFile (Fl ℝ)}
    {x xt xl : NcVar (Fl ℝ)} {A b n : Nat} {vals temps : List (Option ℝ)} {y0 y1 : Int} (hM : Monthly lower yearOf c.args w f v d x A b n (vals.map toFl) y0 y1)
    (hTm : MonthlyTemp lower yearOf c.args w ft vt dt xt xl A b n (temps.map toFl) y0 y1) (hX : Matching cmp d x dt xt) (φ : ℕ → ℝ)
    (hφ : ∀ i < A, xl.data[i]? = some (.fin (φ i)) ∧ -90 < φ i ∧ φ i < 90) (hfresh : w.shared "result_array" = none)
    (hpos : ∀ u, some u ∈ vals → 0 ≤ u) (hbal : BalancedTemp b n A vals temps φ y0) (scales : List Nat) (hs : c.args.scales = some (scales.map Int.ofNat)) (hsc : ∀ s ∈ scales, 1 ≤ s ∧ s ≤ n) (c1 : y0 ≤ cs)
    (c2 : cs ≤ ce) (c3 : ce < y0 + yearsOf n 12)
    (hfit : ∀ s ∈ scales, ∀ i < A, ∀ k < b, ∀ m < 12, ¬ UnfitBalance (seriesAt b n i k vals) (petRecord (seriesAt b n i k temps) (φ i) y0) s m y0 cs ce) :
    ∃ w', mainTool E T toInt cpus lower yearOf cmp (commandLine j c) w = (.ended (.ok ()), w') ∧
      w'.written = w.written ++ entries c.args.outputFileBase (.pet :: speiOutputs scales) ∧
      (∀ g, (∀ o ∈ .pet :: speiOutputs scales, g ≠ fileName c.args.outputFileBase o.name) → w'.files g = w.files g) ∧
      FileHolds w'.files (c.args.outputFileBase ++ "_pet_thornthwaite.nc") "pet_thornthwaite" dt xt A b n (fun i k out => out = (petRecord (seriesAt b n i k temps) (φ i) y0).map toFl) ∧
      ∀ s ∈ scales,
        FileHolds w'.files (c.args.outputFileBase ++ "_" ++ ("spei_gamma_" ++ twoDigits s) ++ ".nc") ("spei_gamma_" ++ twoDigits s) d x A b n
          (fun i k out => SpeiGamma G Φ (seriesAt b n i k vals) (petRecord (seriesAt b n i k temps) (φ i) y0) s y0 cs ce out) ∧
        FileHolds w'.files (c.args.outputFileBase ++ "_" ++ ("spei_pearson_" ++ twoDigits s) ++ ".nc") ("spei_pearson_" ++ twoDigits s) d x A b n
          (fun i k out => SpeiPearson P Φ (seriesAt b n i k vals) (petRecord (seriesAt b n i k temps) (φ i) y0) s y0 cs ce out) := by
  have hmem : ∀ i k u, some u ∈ seriesAt b n i k vals → 0 ≤ u := fun i k u hu => hpos u (List.mem_of_mem_drop (List.mem_of_mem_take hu))
  have hdoc : documented c.args.index false scales = .pet :: speiOutputs scales := by rw [hi]; rfl
  have hmo : ∀ o, o ∈ speiOutputs scales ↔ ∃ s ∈ scales, o = .spei .pearson s ∨ o = .spei .gamma s := by
    intro o
    simp [speiOutputs]
  have hpl : ∀ i < A, ∀ k < b, (seriesAt b n i k vals).length = n ∧ (seriesAt b n i k vals).length = (petRecord (seriesAt b n i k temps) (φ i) y0).length := fun i hi' k hk =>
    ⟨place_length hM hi' hk, by rw [place_length hM hi' hk, petRecord_length, temp_length hTm hi' hk]⟩
  have hpet : ∀ i < A, ∀ k < b, pet T (Arr.of1d (seriesAt b n i k (temps.map toFl))) xl.data[i]? y0 = .ok ((petRecord (seriesAt b n i k temps) (φ i) y0).map toFl) := by
    intro i hi' k _
    rw [(hφ i hi').1, seriesAt_toFl]
    exact pet_record hT _ _ (hφ i hi').2.1 (hφ i hi').2.2 y0
  have hconv : ∀ i < A, ∀ k < b, ∀ dist s, resultFor₃ E T cs ce y0 xl.data[i]? (.spei dist s) (seriesAt b n i k (vals.map toFl)) (seriesAt b n i k (temps.map toFl)) =
      resultFor₂ E cs ce y0 (.spei dist s) ((seriesAt b n i k vals).map toFl) ((petRecord (seriesAt b n i k temps) (φ i) y0).map toFl) := by
    intro i hi' k hk dist s
    rw [seriesAt_toFl, seriesAt_toFl, (hφ i hi').1]
    exact resultFor₃_spei E hT cs ce y0 (φ i) (hφ i hi').2.1 (hφ i hi').2.2 dist s _ _
  have hall : ∀ o ∈ documented c.args.index false scales, Computable₃ E T cs ce y0 (vals.map toFl) (temps.map toFl) xl.data A b n o := by
    rw [hdoc]
    intro o ho i hi' k hk
    rcases List.mem_cons.1 ho with rfl | ho
    · exact ⟨_, hpet i hi' k hk⟩
    obtain ⟨s, hs', ho⟩ := (hmo o).1 ho
    obtain ⟨hl, he⟩ := hpl i hi' k hk
    obtain ⟨r1, r2⟩ := resultFor_spei E hE hR (seriesAt b n i k vals) (petRecord (seriesAt b n i k temps) (φ i) y0) (hmem i k) he (hbal i hi' k hk) s (hsc s hs').1 (by rw [hl]; exact (hsc s hs').2) y0 cs ce
      c1 c2 (by rw [hl]; exact c3)
    rcases ho with rfl | rfl
    · rw [hconv i hi' k hk]
      exact r1.2 (hfit s hs' i hi' k hk)
    · rw [hconv i hi' k hk]
      exact r2
  rw [C106_given E T toInt cpus lower yearOf cmp (commandLine j c) w c (C105_main toInt ht j c hc) cs ce hcs hce]
  obtain ⟨res, w', h1, h2, h3, h4, h5⟩ := C117_run E hE T cs ce _ hcpu lower hlow yearOf cmp c.args w (.inl hi) hM hTm hX hfresh scales hs
  have htake : (documented c.args.index false scales).takeWhile (fun o => @decide (Computable₃ E T cs ce y0 (vals.map toFl) (temps.map toFl) xl.data A b n o) (Classical.propDecidable _)) =
      documented c.args.index false scales := by
    rw [List.takeWhile_eq_self_iff]
    intro o ho
    exact @decide_eq_true _ (Classical.propDecidable _) (hall o ho)
  rw [htake, hdoc] at h3 h4 h5
  rw [h1]
  have hspei : ∀ dist s, Output.spei dist s ∈ speiOutputs scales → ∃ file y, w'.files (fileName c.args.outputFileBase (Output.spei dist s).name) = some file ∧ ((Output.spei dist s).name, y) ∈ file ∧ y.dims = x.dims ∧ y.shape = x.shape ∧
      Carries d file ∧ ∀ i < A, ∀ k < b, ∃ o, spei E (Arr.of1d ((seriesAt b n i k vals).map toFl)) (Arr.of1d ((petRecord (seriesAt b n i k temps) (φ i) y0).map toFl)) s dist .monthly y0 cs ce none = .ok o ∧
        seriesAt b n i k y.data = o.data := by
    intro dist s ho
    obtain ⟨file, y, g1, g2, ⟨g3, g4⟩, ⟨g5, _⟩, g6⟩ := h4 (.spei dist s) (List.mem_cons_of_mem _ ho)
    rw [if_neg (by simp)] at g3 g4 g5
    refine ⟨file, y, g1, g2, g3, g5, g4, fun i hi' k hk => ?_⟩
    have hr := g6 i hi' k hk
    beta_reduce at hr
    rw [hconv i hi' k hk] at hr
    unfold resultFor₂ at hr
    simp only at hr
    cases ho : spei E (Arr.of1d ((seriesAt b n i k vals).map toFl)) (Arr.of1d ((petRecord (seriesAt b n i k temps) (φ i) y0).map toFl)) s dist .monthly y0 cs ce none with
    | error err => rw [ho] at hr; cases hr
    | ok o =>
      rw [ho] at hr
      exact ⟨o, rfl, (Except.ok.inj hr).symm⟩
  refine ⟨w', by rw [h2.2 hall], h3, h5, ?_, fun s hs' => ⟨?_, ?_⟩⟩
  · have hname : fileName c.args.outputFileBase "pet_thornthwaite" = c.args.outputFileBase ++ "_pet_thornthwaite.nc" := by
      unfold fileName
      rw [String.append_assoc, String.append_assoc]
      rfl
    obtain ⟨file, y, g1, g2, ⟨g3, g4⟩, ⟨g5, _⟩, g6⟩ := h4 .pet (by simp)
    rw [if_pos rfl] at g3 g4 g5
    refine ⟨file, y, by rw [← hname]; exact g1, g2, g3, g5, g4, fun i hi' k hk => ?_⟩
    have := g6 i hi' k hk
    beta_reduce at this
    have e : resultFor₃ E T cs ce y0 xl.data[i]? .pet (seriesAt b n i k (vals.map toFl)) (seriesAt b n i k (temps.map toFl)) = pet T (Arr.of1d (seriesAt b n i k (temps.map toFl))) xl.data[i]? y0 := rfl
    rw [e, hpet i hi' k hk] at this
    exact (Except.ok.inj this).symm
  · obtain ⟨file, y, g1, g2, g3, g4, g5, g6⟩ := hspei .gamma s ((hmo _).2 ⟨s, hs', .inr rfl⟩)
    refine ⟨file, y, g1, g2, g3, g4, g5, fun i hi' k hk => ?_⟩
    obtain ⟨hl, he⟩ := hpl i hi' k hk
    obtain ⟨o, ho, hy⟩ := g6 i hi' k hk
    beta_reduce
    rw [hy]
    exact speiGamma_of E hE hR G Φ hG hΦ _ _ (hmem i k) he (hbal i hi' k hk) s (hsc s hs').1 (by rw [hl]; exact (hsc s hs').2) y0 cs ce c1 c2 (by rw [hl]; exact c3) o ho
  · obtain ⟨file, y, g1, g2, g3, g4, g5, g6⟩ := hspei .pearson s ((hmo _).2 ⟨s, hs', .inl rfl⟩)
    refine ⟨file, y, g1, g2, g3, g4, g5, fun i hi' k hk => ?_⟩
    obtain ⟨hl, he⟩ := hpl i hi' k hk
    obtain ⟨o, ho, hy⟩ := g6 i hi' k hk
    rw [hy]
    exact speiPearson_of E hE hR P Φ hPc hloc hΦ _ _ (hmem i k) he (hbal i hi' k hk) s (hsc s hs').1 (by rw [hl]; exact (hsc s hs').2) y0 cs ce c1 c2 (by rw [hl]; exact c3) o ho

/-! ## A concrete run: the precipitation of C114 and temperatures of 0 degrees Celsius in all months, missing in every July but 2001, there 5 degrees, at 40 degrees north -/

noncomputable def warm5 : List (Option ℝ) := (List.range 60).map (fun i : ℕ => if i % 12 = 6 then (if i = 18 then some 5 else none) else some 0)

theorem warm5_get (i : ℕ) (hi : i < 60) : warm5[i]? = some (if i % 12 = 6 then (if i = 18 then some 5 else none) else some 0) := by
  unfold warm5
  rw [List.getElem?_map, List.getElem?_range hi]
  rfl

theorem warm5_length : warm5.length = 60 := by simp [warm5]

theorem warm5_beyond (i : ℕ) (hi : 60 ≤ i) : warm5[i]? = none := by
  rw [List.getElem?_eq_none_iff, warm5_length]
  exact hi

theorem july (a : ℝ) : (List.range 60).filterMap (fun y : ℕ => if y = 1 then some a else none) = [a] := by rfl

theorem warm5_july : monthValues warm5 6 = [5] := by
  unfold monthValues
  rw [warm5_length, ← july 5]
  apply List.filterMap_congr
  intro y _
  by_cases h : y * 12 + 6 < 60
  · rw [warm5_get _ h, if_pos (by omega)]
    by_cases hy : y = 1
    · subst hy
      simp
    · rw [if_neg (by omega), if_neg hy]
      rfl
  · rw [warm5_beyond _ (by omega), if_neg (by omega)]
    rfl

theorem warm5_month (j : ℕ) (hj : j < 12) (h6 : j ≠ 6) : Spec.mean (monthValues warm5 j) = 0 ∧ monthValues warm5 j ≠ [] := by
  constructor
  · unfold Spec.mean
    rw [List.sum_eq_zero, zero_div]
    intro x hx
    unfold monthValues at hx
    obtain ⟨y, _, hy⟩ := List.mem_filterMap.1 hx
    by_cases h : y * 12 + j < 60
    · rw [warm5_get _ h, if_neg (by omega)] at hy
      simpa using hy.symm
    · rw [warm5_beyond _ (by omega)] at hy
      cases hy
  · refine List.ne_nil_of_mem (a := 0) (List.mem_filterMap.2 ⟨0, List.mem_range.2 (by rw [warm5_length]; norm_num), ?_⟩)
    rw [warm5_get _ (by omega), if_neg (by omega)]
    simp

theorem warm5_heat : heat warm5 = 1 := by
  unfold heat
  have h : ∀ j < 12, (Spec.mean (monthValues warm5 j) / 5) ^ (1.514 : ℝ) = if j = 6 then 1 else 0 := by
    intro j hj
    by_cases h6 : j = 6
    · subst h6
      rw [warm5_july, if_pos rfl]
      unfold Spec.mean
      norm_num
    · rw [(warm5_month j hj h6).1, if_neg h6, zero_div, Real.zero_rpow (by norm_num)]
  rw [List.map_congr_left (g := fun j => if j = 6 then (1 : ℝ) else 0) (fun j hj => h j (List.mem_range.1 hj))]
  simp [List.range_succ]

/-- the evapotranspiration of July 2001 -/
noncomputable def julyPet : ℝ := 16 * (meanHours (40 * (Real.pi / 180)) 31 182 / 12) * (31 / 30) * 50 ^ expo 1

theorem expo_one : 0 < expo 1 ∧ expo 1 < 3 / 4 := by
  unfold expo
  norm_num

theorem julyPet_range : 0 ≤ julyPet ∧ julyPet ≤ 992 := by
  have h := meanHours_range (40 * (Real.pi / 180)) 31 182 (by norm_num)
  have h50 : (50 : ℝ) ^ expo 1 ≤ 30 := by
    refine (Real.rpow_le_rpow_of_exponent_le (by norm_num) expo_one.2.le).trans ?_
    have h4 : ((50 : ℝ) ^ (3 / 4 : ℝ)) ^ (4 : ℕ) = 50 ^ (3 : ℕ) := by
      rw [← Real.rpow_natCast, ← Real.rpow_mul (by norm_num), ← Real.rpow_natCast]
      norm_num
    rw [← pow_le_pow_iff_left₀ (by positivity) (by norm_num) (by norm_num : (4 : ℕ) ≠ 0), h4]
    norm_num
  have h0 : (0 : ℝ) ≤ 50 ^ expo 1 := by positivity
  unfold julyPet
  constructor
  · have := h.1
    positivity
  · have a1 : 16 * (meanHours (40 * (Real.pi / 180)) 31 182 / 12) * (31 / 30) ≤ 16 * (24 / 12) * (31 / 30 : ℝ) := by linarith [h.2]
    have a2 : 0 ≤ 16 * (meanHours (40 * (Real.pi / 180)) 31 182 / 12) * (31 / 30) := by linarith [h.1]
    calc _ ≤ 16 * (24 / 12) * (31 / 30 : ℝ) * 30 := mul_le_mul a1 h50 h0 (by norm_num)
      _ = 992 := by norm_num

theorem warm5_pet : petRecord warm5 40 2000 = (List.range 60).map (fun i : ℕ => if i % 12 = 6 then (if i = 18 then some julyPet else none) else some 0) := by
  have hmon : ∀ j < 12, monthValues warm5 j ≠ [] := by
    intro j hj
    by_cases h6 : j = 6
    · subst h6
      rw [warm5_july]
      simp
    · exact (warm5_month j hj h6).2
  unfold petRecord
  rw [if_pos ⟨hmon, 5, List.mem_of_getElem? (warm5_get 18 (by norm_num)), by norm_num⟩]
  apply List.ext_getElem?
  intro i
  by_cases hi : i < 60
  · rw [List.getElem?_map, List.getElem?_zipIdx, warm5_get i hi, List.getElem?_map, List.getElem?_range hi]
    simp only [Option.map_some, Nat.zero_add]
    by_cases h6 : i % 12 = 6
    · rw [if_pos h6, if_pos h6]
      by_cases h18 : i = 18
      · subst h18
        rw [if_pos rfl, if_pos rfl]
        simp only [Option.map_some]
        unfold thornthwaite julyPet
        rw [warm5_heat]
        have e1 : mdays (2000 + ((18 / 12 : ℕ) : ℤ)) (18 % 12) = 31 := by decide +kernel
        have e2 : firstDay (2000 + ((18 / 12 : ℕ) : ℤ)) (18 % 12) = 182 := by decide +kernel
        rw [e1, e2]
        norm_num
      · rw [if_neg h18, if_neg h18]
        rfl
    · rw [if_neg h6, if_neg h6]
      simp only [Option.map_some]
      unfold thornthwaite
      rw [warm5_heat, max_self, mul_zero, zero_div, Real.zero_rpow expo_one.1.ne', mul_zero]
  · rw [List.getElem?_eq_none (by simp [warm5]; omega), List.getElem?_eq_none (by simp; omega)]

theorem warm5_balance : waterBalance steps5 (petRecord warm5 40 2000) =
    (List.range 60).map (fun i : ℕ => if i % 12 = 6 then (if i = 18 then some (1 - julyPet) else none) else some (if i < 12 then 0 else 2 ^ (i / 12 - 1) : ℝ)) := by
  rw [warm5_pet]
  unfold waterBalance steps5
  rw [List.zipWith_map, List.zipWith_self]
  apply List.map_congr_left
  intro i _
  by_cases h6 : i % 12 = 6
  · simp only [if_pos h6]
    by_cases h18 : i = 18
    · subst h18
      simp
    · simp [if_neg h18]
  · simp [if_neg h6]

theorem accum_unit (x : List (Option ℝ)) (t : ℕ) : accum x 1 t = x[t]?.join := by
  unfold accum
  by_cases ht : t < x.length
  · have hd : (x.drop (t + 1 - 1)).take 1 = [x[t]] := by
      rw [Nat.add_sub_cancel, List.drop_eq_getElem_cons ht]; rfl
    simp only [hd]
    rw [List.getElem?_eq_getElem ht]
    cases hx : x[t] with
    | none => rw [if_neg (by simp)]; rfl
    | some a => rw [if_pos ⟨by omega, ht, by simp⟩]; simp
  · rw [if_neg (fun h => ht h.2.1), List.getElem?_eq_none (by omega)]
    rfl

theorem warm5_accum (t : ℕ) (ht : t < 60) : accum (waterBalance steps5 (petRecord warm5 40 2000)) 1 t =
    if t % 12 = 6 then (if t = 18 then some (1 - julyPet) else none) else some (if t < 12 then 0 else 2 ^ (t / 12 - 1) : ℝ) := by
  rw [accum_unit, warm5_balance, List.getElem?_map, List.getElem?_range ht]
  rfl

theorem warm5_sample (c : ℕ) (hc : c < 12) : sample (waterBalance steps5 (petRecord warm5 40 2000)) 1 12 c 0 5 = if c = 6 then [1 - julyPet] else [0, 1, 2, 4, 8] := by
  unfold sample
  rw [show List.range 5 = [0, 1, 2, 3, 4] from rfl]
  simp only [List.filterMap_cons, List.filterMap_nil]
  rw [warm5_accum _ (by omega), warm5_accum _ (by omega), warm5_accum _ (by omega), warm5_accum _ (by omega), warm5_accum _ (by omega)]
  have d : ∀ y, ((0 + y) * 12 + c) / 12 = y := by omega
  have d' : ∀ y, ((0 + y) * 12 + c) % 12 = c := by omega
  simp only [d, d']
  by_cases h6 : c = 6
  · subst h6
    norm_num
  · simp only [if_neg h6]
    rw [if_pos (by omega), if_neg (by omega), if_neg (by omega), if_neg (by omega), if_neg (by omega)]
    norm_num

theorem warm5_fit (m : ℕ) (hm : m < 12) : ¬ UnfitBalance steps5 (petRecord warm5 40 2000) 1 m 2000 2000 2004 := by
  rintro ⟨h4, h⟩
  have e2 : ((2000 : ℤ) - 2000).toNat = 0 := rfl
  have e3 : ((2004 : ℤ) - 2000 + 1).toNat = 5 := rfl
  rw [e2, e3, warm5_sample m hm] at h4 h
  by_cases h6 : m = 6
  · rw [if_pos h6] at h4
    simp at h4
  · rw [if_neg h6] at h
    exact not_allButOne_steps5 h

noncomputable def warmVar : NcVar (Fl ℝ) := ⟨["lat", "lon", "time"], [1, 1, 60], some "celsius", warm5.map toFl⟩

noncomputable def warmFile : NcFile (Fl ℝ) :=
  [("tavg", warmVar), ("lat", ⟨["lat"], [1], none, [.fin 40]⟩), ("lon", ⟨["lon"], [1], none, [.fin 0]⟩), ("time", ⟨["time"], [60], none, (List.range 60).map (fun i : ℕ => .fin (i : ℝ))⟩)]

noncomputable def warmWorld : World (Fl ℝ) := ⟨fun g => if g = "p.nc" then some soloFile else if g = "t.nc" then some warmFile else none, fun _ => none, []⟩

theorem warm_monthly (index : String) : Monthly id pairYear (demoArgs index [1]) warmWorld "p.nc" "prcp" soloFile soloVar 1 1 60 (steps5.map toFl) 2000 2004 := by
  have h := solo_monthly index [1]
  exact ⟨⟨rfl, rfl, rfl, rfl, h.input.wf, h.input.reserved, h.input.notOutput⟩, h.layout, h.places, h.coords, h.lats, h.years, h.units, rfl⟩

theorem warm_temp (index : String) : MonthlyTemp id pairYear (demoArgs index [1]) warmWorld "t.nc" "tavg" warmFile warmVar ⟨["lat"], [1], none, [.fin 40]⟩ 1 1 60 (warm5.map toFl) 2000 2004 := by
  refine ⟨⟨rfl, rfl, rfl, rfl, by simp [warmVar, warm5_length], by decide, demo_notOutput _ (by decide)⟩, .inl ⟨rfl, rfl⟩, by decide, rfl, rfl, ?_, ⟨_, .fin ((0 : ℕ) : ℝ), .fin ((59 : ℕ) : ℝ), rfl, rfl, rfl, ?_, ?_⟩,
    ⟨"celsius", rfl, ?_⟩, rfl, rfl⟩
  · intro h
    exact absurd h (by simp [warmVar])
  · simp [pairYear]
  · show 2000 + ⌊((59 : ℕ) : ℝ) / 12⌋ = 2004
    have : ⌊((59 : ℕ) : ℝ) / 12⌋ = 4 := by
      rw [Int.floor_eq_iff]
      norm_num
    rw [this]
    norm_num
  · unfold convertTemp
    rw [if_pos (by decide)]
    rfl

theorem warm_matching (cmp : CoordCmp (Fl ℝ)) (hcmp : ∀ l, cmp.close l l = .ok true ∧ cmp.equal l l = true) : Matching cmp soloFile soloVar warmFile warmVar := by
  refine ⟨rfl, rfl, ?_, fun c _ y _ => hcmp y.data, ?_, ?_⟩
  · intro c hc
    rcases (show c = "lat" ∨ c = "lon" ∨ c = "time" by simpa [soloVar] using hc) with rfl | rfl | rfl
    · exact ⟨_, _, rfl, rfl, rfl⟩
    · exact ⟨_, _, rfl, rfl, rfl⟩
    · exact ⟨_, _, rfl, rfl, rfl⟩
  · intro c x y h1 h2 h3 h4
    simp only [soloFile, warmFile, List.mem_cons, Prod.mk.injEq, List.not_mem_nil, or_false] at h1 h2
    rcases h1 with ⟨rfl, rfl⟩ | ⟨rfl, rfl⟩ | ⟨rfl, rfl⟩ | ⟨rfl, rfl⟩
    · exact absurd h3 (by simp [soloVar])
    all_goals
      rcases h2 with ⟨e, rfl⟩ | ⟨e, rfl⟩ | ⟨e, rfl⟩ | ⟨e, rfl⟩
      · exact absurd e (by decide)
      all_goals first | rfl | exact absurd e (by decide)
  · intro y
    constructor
    · simp [soloFile, Output.name]
    · simp [warmFile, Output.name]

theorem warm_series : seriesAt 1 60 0 0 warm5 = warm5 := by
  unfold seriesAt
  rw [List.take_of_length_le] <;> simp [warm5]

theorem warm_balanced : BalancedTemp 1 60 1 steps5 warm5 (fun _ => 40) 2000 := by
  intro i hi k hk u hu
  obtain rfl : i = 0 := by omega
  obtain rfl : k = 0 := by omega
  rw [solo_series, warm_series, warm5_balance] at hu
  obtain ⟨t, _, ht⟩ := List.mem_map.1 hu
  split at ht
  · split at ht
    · rw [Option.some.injEq] at ht
      rw [← ht]
      linarith [julyPet_range.2]
    · cases ht
  · rw [Option.some.injEq] at ht
    rw [← ht]
    split
    · norm_num
    · have : (0 : ℝ) ≤ 2 ^ (t / 12 - 1) := by positivity
      linarith

theorem warm_lat : ∀ i < 1, (⟨["lat"], [1], none, [.fin 40]⟩ : NcVar (Fl ℝ)).data[i]? = some (.fin ((fun _ => 40 : ℕ → ℝ) i)) ∧ -90 < (fun _ => 40 : ℕ → ℝ) i ∧ (fun _ => 40 : ℕ → ℝ) i < 90 := by
  intro i hi
  obtain rfl : i = 0 := by omega
  exact ⟨rfl, by norm_num, by norm_num⟩

/-- the command lines: PET without calibration years, SPEI with them -/
def warmCommand (index : String) (cs ce : Option Int) : MainCommand := ⟨demoArgs index [1], cs, ce, .single, "none"⟩

theorem warm_writable {index : String} (hi : index ∈ ["spei", "pet"]) (cs ce : Option Int) : Writable (fun _ => false) (warmCommand index cs ce) := by
  refine ⟨rfl, ?_, (by decide : Periodicity.monthly ≠ .other), (by decide : "none" ∈ ["none", "input"]), ?_⟩
  · show index ∈ _
    rcases (show index = "spei" ∨ index = "pet" by simpa using hi) with rfl | rfl <;> decide
  · intro p hp _ t ht
    simp only [warmCommand, demoArgs, List.mem_cons, List.not_mem_nil, or_false] at hp
    rcases hp with rfl | rfl | rfl | rfl | rfl | rfl | rfl | rfl | rfl <;> cases ht <;> exact .inl (by decide)

/-- C117 for these files: the runs for PET and SPEI end -/
example (cmp : CoordCmp (Fl ℝ)) (hcmp : ∀ l, cmp.close l l = .ok true ∧ cmp.equal l l = true) :
    (∃ w', processIndices (indexFunction sigmoidExt realTrig 2000 2004) 2 id pairYear cmp (demoArgs "pet" [1]) warmWorld = (.ok (), w')) ∧
      ∃ w', processIndices (indexFunction sigmoidExt realTrig 2000 2004) 2 id pairYear cmp (demoArgs "spei" [1]) warmWorld = (.ok (), w') := by
  constructor
  · exact (C117_pet_exact sigmoidExt realTrig realTrig_real 2000 2004 2 (by decide) id pairYear cmp (demoArgs "pet" [1]) warmWorld rfl (warm_temp _) rfl).2
      (fun i hi => .inl ⟨40, (warm_lat i hi).1, by norm_num, by norm_num⟩)
  · refine (C117_spei_exact sigmoidExt sigmoidExt_nan sigmoidExt_real realTrig realTrig_real 2000 2004 2 (by decide) id rfl pairYear cmp (demoArgs "spei" [1]) warmWorld rfl (warm_monthly _) (warm_temp _)
      (warm_matching cmp hcmp) (fun _ => 40) warm_lat steps5_nonneg warm_balanced rfl [1] rfl (by decide) le_rfl (by norm_num) (by norm_num [yearsOf])).2 ?_
    intro s hs i hi k hk c hc
    obtain rfl : s = 1 := by simpa using hs
    obtain rfl : i = 0 := by omega
    obtain rfl : k = 0 := by omega
    rw [solo_series, warm_series]
    exact warm5_fit c hc

theorem take60 {F : Type} (l : List F) (i : ℕ) (hi : i < 60) : (seriesAt 1 60 0 0 l)[i]? = l[i]? := by
  show (l.take 60)[i]? = _
  rw [List.getElem?_take_of_lt hi]

/-- C114 for the line of PET, without calibration years: the file `out_pet_thornthwaite.nc` has 0 in January 2000, nothing in July 2000 and Thornthwaite's value in July 2001 -/
example (cmp : CoordCmp (Fl ℝ)) (toInt : String → Option Int) (ht : ∀ n : Int, toInt (toString n) = some n) :
    ∃ w' file y, mainTool sigmoidExt realTrig toInt 1 id pairYear cmp (commandLine (fun _ => false) (warmCommand "pet" none none)) warmWorld = (.ended (.ok ()), w') ∧
      w'.files "out_pet_thornthwaite.nc" = some file ∧ ("pet_thornthwaite", y) ∈ file ∧ y.data[0]? = some (.fin 0) ∧ y.data[6]? = some .nan ∧ y.data[18]? = some (.fin julyPet) := by
  obtain ⟨w', h1, _, _, file, y, g1, g2, _, _, _, g6⟩ := C114_pet sigmoidExt realTrig realTrig_real toInt ht 1 id pairYear cmp (fun _ => false) (warmCommand "pet" none none)
    (warm_writable (by decide) none none) rfl (by decide) warmWorld (warm_temp "pet") rfl (fun _ => 40) warm_lat
  have hg := g6 0 (by decide) 0 (by decide)
  beta_reduce at hg
  rw [warm_series, warm5_pet] at hg
  have hv : ∀ i < 60, y.data[i]? = some (toFl (if i % 12 = 6 then (if i = 18 then some julyPet else none) else some 0)) := by
    intro i hi
    rw [← take60 y.data i hi, hg, List.getElem?_map, List.getElem?_map, List.getElem?_range hi]
    rfl
  refine ⟨w', file, y, h1, g1, g2, ?_, ?_, ?_⟩
  · rw [hv 0 (by norm_num)]
    rfl
  · rw [hv 6 (by norm_num)]
    rfl
  · rw [hv 18 (by norm_num)]
    rfl

/-- C114 for the line of SPEI from temperature: the PET file as well, and in January 2003 the index of the balance 4 mm - 0 mm, raised by 1000 mm like the five balances of the Januaries -/
example (cmp : CoordCmp (Fl ℝ)) (hcmp : ∀ l, cmp.close l l = .ok true ∧ cmp.equal l l = true) (toInt : String → Option Int) (ht : ∀ n : Int, toInt (toString n) = some n) :
    ∃ w' file y, mainTool sigmoidExt realTrig toInt 1 id pairYear cmp (commandLine (fun _ => false) (warmCommand "spei" (some 2000) (some 2004))) warmWorld = (.ended (.ok ()), w') ∧
      w'.written = [("out_pet_thornthwaite.nc", "pet_thornthwaite"), ("out_spei_pearson_01.nc", "spei_pearson_01"), ("out_spei_gamma_01.nc", "spei_gamma_01")] ∧
      w'.files "out_spei_gamma_01.nc" = some file ∧ ("spei_gamma_01", y) ∈ file ∧
      y.data[36]? = some (.fin (clamp (8 * (gammaP (shape [1000, 1001, 1002, 1004, 1008]) (1004 / scale [1000, 1001, 1002, 1004, 1008]) - 1 / 2)))) := by
  obtain ⟨w', h1, h2, _, _, h4⟩ := C114_spei_temp sigmoidExt sigmoidExt_nan sigmoidExt_real (fun v a b => gammaP a (v / b)) sigmoid (fun q => 8 * (q - 1 / 2)) realExt_G (by
      intro v sk loc sc _ hsc _
      refine ⟨?_, sigmoid_range v sk loc sc⟩
      show (if sc = 0 then Fl.nan else Fl.fin (sigmoid v 0 loc sc)) = _
      rw [if_neg hsc.ne']
      rfl) (by
      intro v sk loc sc c _
      unfold sigmoid
      rw [add_sub_add_right_eq_sub]) realExt_Φ realTrig realTrig_real toInt ht 1 id rfl pairYear cmp (fun _ => false) (warmCommand "spei" (some 2000) (some 2004))
      (warm_writable (by decide) _ _) rfl 2000 2004 rfl rfl (by decide) warmWorld (warm_monthly "spei") (warm_temp "spei") (warm_matching cmp hcmp)
      (fun _ => 40) warm_lat rfl steps5_nonneg warm_balanced [1] rfl (by decide) le_rfl (by norm_num) (by norm_num [yearsOf]) (by
      intro s hs i hi k hk m hm
      obtain rfl : s = 1 := by simpa using hs
      obtain rfl : i = 0 := by omega
      obtain rfl : k = 0 := by omega
      rw [solo_series, warm_series]
      exact warm5_fit m hm)
  obtain ⟨⟨file, y, g1, g2, _, g4, _, g6⟩, _⟩ := h4 1 (by decide)
  have hn : "spei_gamma_" ++ twoDigits 1 = "spei_gamma_01" := by decide +kernel
  rw [hn] at g1 g2
  refine ⟨w', file, y, h1, ?_, ?_, g2, ?_⟩
  · rw [h2]
    show [] ++ entries "out" (.pet :: speiOutputs [1]) = _
    decide +kernel
  · rw [← g1]
    rfl
  · have hg := g6 0 (by decide) 0 (by decide)
    beta_reduce at hg
    rw [solo_series, warm_series] at hg
    have hv := hg.2.2 36 4 (by rw [warm5_accum 36 (by omega)]; norm_num)
    have e2 : ((2000 : ℤ) - 2000).toNat = 0 := rfl
    have e3 : ((2004 : ℤ) - 2000 + 1).toNat = 5 := rfl
    have e5 : 36 % 12 = 0 := rfl
    rw [e2, e3, e5, warm5_sample 0 (by omega), if_neg (by decide)] at hv
    have hl : ([0, 1, 2, 4, 8] : List ℝ).map (· + ((1 : ℕ) : ℝ) * 1000) = [1000, 1001, 1002, 1004, 1008] := by norm_num
    simp only [hl] at hv
    have := hv ⟨1000, by simp, 1001, by simp, by norm_num⟩
    rw [take60 y.data 36 (by norm_num)] at this
    rw [this]
    norm_num

end CI.Props
