import Verif.Props.EndToEndPet
import Verif.Props.Float64Accum
import Verif.Props.Float64Units

/-!
# C138, C139: from the command line to the values in the files, in binary64 arithmetic

C114 does this in exact arithmetic. Here the whole run of the main tool is one of float64 numbers, and the values in the files are compared with the published formulas.
-/

namespace CI.Props

open CI FloatOps FloatLaws B64 Spec Spec.McKee

variable {σ : SumOrder}

/-! ## Specification -/

/-- the values `out` are Thornthwaite's for the temperatures `x` (from January of year `y` on) at `φ` degrees latitude: one per month; missing where the temperature is, exactly 0 at or below
freezing, never negative, and elsewhere next to the formula (at latitudes up to 60 degrees, for temperatures as in C134, if every calendar month has a temperature and one is above freezing) -/
def PetValues64 (x : List (B64 σ)) (φ : ℚ) (y : ℤ) (out : List (B64 σ)) : Prop :=
  out.length = x.length ∧ ∀ t : List (Option ℝ), t = x.map real64 → (∀ v ∈ x, Temp v) → |φ| ≤ 60 → x.length ≤ 12 * 2 ^ 20 → (∀ j < 12, monthValues t j ≠ []) → (∃ a : ℝ, some a ∈ t ∧ 0 < a) →
    (∀ m : ℕ, t[m]? = some none → out[m]? = some B64.nan) ∧
    ∀ (m : ℕ) (a : ℝ), t[m]? = some (some a) → ∃ v b, out[m]? = some v ∧ ext v = .fin b ∧ 0 ≤ b ∧ (a ≤ 0 → b = 0) ∧
      |(b : ℝ) - thornthwaite t (φ * (Real.pi / 180)) y m a| ≤ thornthwaite t (φ * (Real.pi / 180)) y m a * ((((x.length + 11) / 12 : ℕ) + 20) / 2 ^ 36)

/-- the values `out` are the gamma SPI of the monthly precipitation `x` (from January of year `ds` on) at scale `k` with calibration years `cs` to `ce`: the accumulations are the moving sums up to `k`
units of 2^-52, and where the accumulation `v` is positive the value is the clamped normal quantile of a probability next to the mixed probability of `v` for parameters next to Thom's estimates,
as in C135 (for precipitation as there, if the positive accumulations of the calendar month in the calibration years are not almost equal) -/
def GammaIndex64 (G : ℝ → ℝ → ℝ → ℝ) (Φ : ℝ → ℝ) (η δ : ℝ) (x : List (B64 σ)) (k : ℕ) (ds cs ce : ℤ) (out : List (B64 σ)) : Prop :=
  (∀ v ∈ x, StepAmount v) → (∃ v ∈ x, isNan v = false) → x.length ≤ 2 ^ 40 →
    out.length = x.length ∧ ∃ acc : List (Option ℝ), acc.length = x.length ∧
      (∀ t < x.length, match accum (x.map real64) k t with
        | none => acc[t]? = some none
        | some a => ∃ v : ℝ, acc[t]? = some (some v) ∧ |v - a| ≤ a * (k / 2 ^ 52)) ∧
      ∀ (t : ℕ) (v : ℝ), acc[t]? = some (some v) → 0 < v → ∀ (n m : ℕ) (s : List ℝ) (q : ℝ), n = yearsOf x.length 12 → (m : ℤ) = ce - cs + 1 →
        s = wet (sample acc 1 12 (t % 12) (cs - ds).toNat m) → q = (dry (sample acc 1 12 (t % 12) 0 n) : ℝ) / n →
        ∀ (L : ℚ) (ε : ℝ), 1 ≤ L → L ≤ 1000 → (∀ a ∈ s, |Real.log a| ≤ L) → ε = (L + 1) * (m + 7) / 2 ^ 51 → 8 * ε ≤ Spec.McKee.gap s →
        ∃ (w : B64 σ) (z α β P : ℝ), out[t]? = some w ∧ (∃ zq : ℚ, ext w = .fin zq ∧ z = zq) ∧
          |α - shape s| ≤ shape s * (2 * (ε / Spec.McKee.gap s) + 1 / 2 ^ 48) ∧ |β - scale s| ≤ scale s * (4 * (ε / Spec.McKee.gap s) + (m + 2) / 2 ^ 51 + 1 / 2 ^ 47) ∧
          0 ≤ P ∧ P ≤ 1 ∧ |P - (q + (1 - q) * G v α β)| ≤ η + 3 / 2 ^ 51 ∧
          (0 < P → P < 1 → |z - clamp (Φ P)| ≤ δ + 1 / 2 ^ 50) ∧ (P = 0 → |z - -3.09| ≤ 1 / 2 ^ 50) ∧ (P = 1 → |z - 3.09| ≤ 1 / 2 ^ 50)

/-- the values `out` are the percentage of normal of the monthly precipitation `x`: next to that in exact arithmetic (which C28 and C114 relate to the formula) -/
def NormalRatio64 (x : List (B64 σ)) (k : ℕ) (ds cs ce : ℤ) (out : List (B64 σ)) : Prop :=
  (∀ v ∈ x, Rain v) → k ≤ 2 ^ 40 → ce - cs + 1 ≤ 2 ^ 40 → ∃ out' : List (Fl ℚ), percentageOfNormal (x.map ext) (some k) ds cs ce .monthly = .ok out' ∧
    out.length = out'.length ∧ ∀ (i : ℕ) (a : B64 σ) (b : Fl ℚ), out[i]? = some a → out'[i]? = some b → Agree (3 * k + 2 * (ce - cs + 1).toNat + 3) a b

/-! ## PET -/

theorem pet_values64 {T : Trig (B64 σ)} (hT : TrigNear T) (hP : PowNear T) (x : List (B64 σ)) (l : B64 σ) (φ : ℚ) (hl : ext l = .fin φ) (h1 : -90 < φ) (h2 : φ < 90) (y : ℤ) :
    ∃ out, pet T (Arr.of1d x) (some l) y = .ok out ∧ PetValues64 x φ y out := by
  have hr := reshapeTo2d_of1d x 12 (by norm_num)
  obtain ⟨out, ho, hlen⟩ := C133_pet T hT.toTrigBounds (Arr.of1d x) _ hr l φ hl h1 h2 y
  refine ⟨out, ho, hlen, ?_⟩
  rintro t rfl htemp hq hn hmon hpos
  have hN : (x ++ List.replicate (padCount x.length 12) (nan : B64 σ)).length = (x.length + 11) / 12 * 12 := by
    rw [List.length_append, List.length_replicate]
    unfold padCount
    split <;> omega
  have hN2 : (x.length + 11) / 12 ≤ 2 ^ 20 := by omega
  obtain ⟨o1, p1, _, p2, p3⟩ := C134_pet T hT hP (Arr.of1d x) _ hr _ hN hN2 htemp _ rfl l φ hl hq y hmon hpos
  obtain ⟨o2, q1, _, q2⟩ := C134_uniform T hT hP (Arr.of1d x) _ hr _ hN hN2 htemp _ rfl l φ hl hq y hmon hpos
  rw [ho] at p1 q1
  cases p1
  cases q1
  refine ⟨p2, fun m a ha => ?_⟩
  obtain ⟨v, b, b1, b2, b3, _⟩ := p3 m a ha
  obtain ⟨v', b', c1, c2, c3, c4⟩ := q2 m a ha
  rw [b1] at c1
  cases c1
  rw [b2] at c2
  cases c2
  exact ⟨v, b, b1, b2, c3, b3, c4⟩

/-- **C138.** The documented command line for PET from monthly temperature (any files, names, numbers of workers, separate values or `=`, with or without calibration years), in IEEE float64
arithmetic, for rows strictly between the poles and any temperatures, also missing or infinite: the tool ends without exception, writes exactly the file `BASE_pet_thornthwaite.nc`, changes no other
file, and at every place the values are Thornthwaite's in the sense of `PetValues64`. -/
theorem C138_pet (E : Ext (B64 σ)) (T : Trig (B64 σ)) (hT : TrigNear T) (hP : PowNear T) (toInt : String → Option Int) (ht : ∀ n : Int, toInt (toString n) = some n) (cpus : Nat) (lower : String → String)
    (yearOf : B64 σ → Int) (cmp : CoordCmp (B64 σ)) (j : String → Bool) (c : MainCommand) (hc : Writable j c) (hi : c.args.index = "pet") (hcpu : 1 ≤ numberOfWorkers c.multiprocessing cpus)
    (w : World (B64 σ)) {f v : String} {d : NcFile (B64 σ)} {x xl : NcVar (B64 σ)} {A b n : Nat} {cel : List (B64 σ)} {y0 y1 : Int}
    (hM : MonthlyTemp lower yearOf c.args w f v d x xl A b n cel y0 y1) (hfresh : w.shared "result_array" = none) (φ : ℕ → ℚ)
    (hφ : ∀ i < A, ∃ l, xl.data[i]? = some l ∧ ext l = .fin (φ i) ∧ -90 < φ i ∧ φ i < 90) :
    ∃ w', mainTool E T toInt cpus lower yearOf cmp (commandLine j c) w = (.ended (.ok ()), w') ∧
      w'.written = w.written ++ [(c.args.outputFileBase ++ "_pet_thornthwaite.nc", "pet_thornthwaite")] ∧
      (∀ g, g ≠ c.args.outputFileBase ++ "_pet_thornthwaite.nc" → w'.files g = w.files g) ∧
      FileHolds w'.files (c.args.outputFileBase ++ "_pet_thornthwaite.nc") "pet_thornthwaite" d x A b n (fun i k out => PetValues64 (seriesAt b n i k cel) (φ i) y0 out) := by
  have hname : fileName c.args.outputFileBase "pet_thornthwaite" = c.args.outputFileBase ++ "_pet_thornthwaite.nc" := by
    unfold fileName
    rw [String.append_assoc, String.append_assoc]
    rfl
  obtain ⟨res, w', h1, h2, h3, _, h4⟩ := C117_pet E T 0 0 _ hcpu lower yearOf cmp c.args w hi hM hfresh
  have hall : ∀ i < A, ∀ k < b, ∃ out, pet T (Arr.of1d (seriesAt b n i k cel)) xl.data[i]? y0 = .ok out ∧ PetValues64 (seriesAt b n i k cel) (φ i) y0 out := by
    intro i hi' k _
    obtain ⟨l, l1, l2, l3, l4⟩ := hφ i hi'
    rw [l1]
    exact pet_values64 hT hP _ l _ l2 l3 l4 y0
  have hok := h2.2 (fun i hi' k hk => by obtain ⟨out, ho, _⟩ := hall i hi' k hk; exact ⟨out, ho⟩)
  obtain ⟨k1, file, y, g1, g2, ⟨g3, g4⟩, ⟨g5, _⟩, g6⟩ := h3 hok
  rw [hname] at k1 h4
  refine ⟨w', ?_, k1, h4, file, y, by rw [← hname]; exact g1, g2, g3, g5, g4, fun i hi' k hk => ?_⟩
  · unfold mainTool
    rw [C105_main toInt ht j c hc]
    dsimp only
    rw [C106_pet E T _ lower yearOf cmp c.args hi c.calibrationStart c.calibrationEnd 0 0 w, h1, hok]
  · have := g6 i hi' k hk
    beta_reduce at this ⊢
    obtain ⟨out, o1, o2⟩ := hall i hi' k hk
    rw [o1] at this
    cases this
    exact o2

/-! ## SPI -/

theorem gamma_index64 (E : Ext (B64 σ)) (hE : ExtNan E) (hA : Accurate E) (G : ℝ → ℝ → ℝ → ℝ) (Φ : ℝ → ℝ) (η δ : ℝ) (hI : IndexNear E G Φ η δ) (x : List (B64 σ)) (k : ℕ) (h1 : 1 ≤ k)
    (h2 : k ≤ x.length) (ds cs ce : ℤ) (c1 : ds ≤ cs) (c2 : cs ≤ ce) (c3 : ce < ds + yearsOf x.length 12) (out : List (B64 σ))
    (ho : spi E (Arr.of1d x) k .gamma ds cs ce .monthly none = .ok out) : GammaIndex64 G Φ η δ x k ds cs ce out := by
  intro hx hsome hxl
  obtain ⟨acc, ha, hl, hm⟩ := C135_accumulations x hx k h1 h2 (h2.trans hxl)
  obtain ⟨m, hm0⟩ := Int.eq_ofNat_of_zero_le (show 0 ≤ ce - cs + 1 by omega)
  obtain ⟨out', o1, o2, o3⟩ := C135_spi E hE hA G Φ η δ hI x hx k h1 h2 .monthly (by simp) ds cs ce c1 c2 c3 hsome acc ha m hm0.symm hxl
  rw [ho] at o1
  cases o1
  refine ⟨o2, acc.map real64, by rw [List.length_map, hl], fun t ht => ?_, ?_⟩
  · have := hm t ht
    cases hac : accum (x.map real64) k t with
    | none =>
      rw [hac] at this
      simp only at this ⊢
      rw [List.getElem?_map, this]
      rfl
    | some a =>
      rw [hac] at this
      obtain ⟨v, v1, _, v2⟩ := this
      exact ⟨v, v1, v2⟩
  · intro t v hv hv0 n m' s q hn hm' hs hq
    have : m' = m := by omega
    subst this
    exact o3 t v hv hv0 n s q hn hs hq

open Classical in
/-- **C139, SPI.** The documented command line for SPI of monthly precipitation, in IEEE float64 arithmetic: whenever the tool ends without exception, it has written exactly two files per scale and changed
no other file, and at every place the values in the gamma files are the gamma SPI of the precipitation of that place in the sense of `GammaIndex64`. It ends so exactly if the Pearson index can be
computed at every place. -/
theorem C139_spi (E : Ext (B64 σ)) (hE : ExtNan E) (hA : Accurate E) (G : ℝ → ℝ → ℝ → ℝ) (Φ : ℝ → ℝ) (η δ : ℝ) (hI : IndexNear E G Φ η δ) (T : Trig (B64 σ))
    (toInt : String → Option Int) (ht : ∀ n : Int, toInt (toString n) = some n) (cpus : Nat) (lower : String → String)
    (yearOf : B64 σ → Int) (cmp : CoordCmp (B64 σ)) (j : String → Bool) (c : MainCommand) (hc : Writable j c) (hi : c.args.index = "spi") (cs ce : Int)
    (hcs : c.calibrationStart = some cs) (hce : c.calibrationEnd = some ce) (hcpu : 1 ≤ numberOfWorkers c.multiprocessing cpus) (w : World (B64 σ)) {f v : String} {d : NcFile (B64 σ)} {x : NcVar (B64 σ)}
    {A b n : Nat} {mm : List (B64 σ)} {y0 y1 : Int} (hM : Monthly lower yearOf c.args w f v d x A b n mm y0 y1) (hfresh : w.shared "result_array" = none)
    (scales : List Nat) (hs : c.args.scales = some (scales.map Int.ofNat)) (hsc : ∀ s ∈ scales, 1 ≤ s ∧ s ≤ n) (c1 : y0 ≤ cs) (c2 : cs ≤ ce) (c3 : ce < y0 + yearsOf n 12) :
    ∃ res w', mainTool E T toInt cpus lower yearOf cmp (commandLine j c) w = (.ended res, w') ∧
      (res = .ok () ↔ ∀ s ∈ scales, ∀ i < A, ∀ k < b, ∃ r, spi E (Arr.of1d (seriesAt b n i k mm)) s .pearson y0 cs ce .monthly none = .ok r) ∧
      (res = .ok () → w'.written = w.written ++ entries c.args.outputFileBase (spiOutputs scales) ∧
        (∀ g, (∀ o ∈ spiOutputs scales, g ≠ fileName c.args.outputFileBase o.name) → w'.files g = w.files g) ∧
        ∀ s ∈ scales, FileHolds w'.files (c.args.outputFileBase ++ "_" ++ ("spi_gamma_" ++ twoDigits s) ++ ".nc") ("spi_gamma_" ++ twoDigits s) d x A b n
          (fun i k out => GammaIndex64 G Φ η δ (seriesAt b n i k mm) s y0 cs ce out)) := by
  have hdoc : documented c.args.index false scales = spiOutputs scales := by rw [hi]; rfl
  have hmo : ∀ o, o ∈ spiOutputs scales ↔ ∃ s ∈ scales, o = .spi .pearson s ∨ o = .spi .gamma s := by
    intro o
    simp [spiOutputs, eq_comm]
  have hlen : ∀ i < A, ∀ k < b, (seriesAt b n i k mm).length = n := by
    intro i hi' k hk
    obtain ⟨u, hu, hcv⟩ := hM.units
    obtain ⟨it, hl⟩ : ∃ it, IsLayout it x.shape A b n := by
      rcases hM.layout with ⟨_, h⟩ | ⟨_, h, hb⟩
      · exact ⟨.grid, .inl ⟨rfl, h⟩⟩
      · exact ⟨.divisions, .inr ⟨rfl, h, hb⟩⟩
    exact seriesAt_len hl (by rw [convert_length.1 hcv]; exact hM.input.wf) hi' hk
  have hgam : ∀ s ∈ scales, Computable E cs ce y0 mm A b n (.spi .gamma s) := by
    intro s hs' i hi' k hk
    by_cases hdata : ∃ v ∈ seriesAt b n i k mm, isNan v = false
    · obtain ⟨r, hr, _⟩ := C10_gamma E (Arr.of1d (seriesAt b n i k mm)) s y0 cs ce .monthly (Or.inl rfl) (by simp) (by exact_mod_cast (hsc s hs').1) hdata
      exact ⟨r, hr⟩
    · refine ⟨seriesAt b n i k mm, ?_⟩
      show spi E (Arr.of1d (seriesAt b n i k mm)) s .gamma y0 cs ce .monthly none = _
      unfold spi
      rw [if_pos (show (Arr.of1d (seriesAt b n i k mm)).shape.length = 2 ∨ (Arr.of1d (seriesAt b n i k mm)).shape.length = 1 from Or.inr rfl), if_pos]
      · rfl
      · show allNan (seriesAt b n i k mm) = true
        unfold allNan
        rw [List.all_eq_true]
        intro v hv
        by_contra hc
        exact hdata ⟨v, hv, by simpa using hc⟩
  rw [C106_given E T toInt cpus lower yearOf cmp (commandLine j c) w c (C105_main toInt ht j c hc) cs ce hcs hce]
  obtain ⟨res, w', h1, h2, h3, h4, h5⟩ := C113_run E hE T cs ce _ hcpu lower yearOf cmp c.args w (.inl hi) hM hfresh scales hs
  rw [hdoc] at h2 h3 h4 h5
  rw [h1]
  refine ⟨res, w', rfl, ?_, fun hok => ?_⟩
  · rw [h2]
    constructor
    · intro h s hs'
      exact h _ ((hmo _).2 ⟨s, hs', .inl rfl⟩)
    · intro h o ho
      obtain ⟨s, hs', rfl | rfl⟩ := (hmo o).1 ho
      · exact h s hs'
      · exact hgam s hs'
  · have hall := h2.1 hok
    have htake : (spiOutputs scales).takeWhile (fun o => decide (Computable E cs ce y0 mm A b n o)) = spiOutputs scales := by
      rw [List.takeWhile_eq_self_iff]
      intro o ho
      exact decide_eq_true (hall o ho)
    rw [htake] at h3 h4 h5
    refine ⟨h3, h5, fun s hs' => ?_⟩
    obtain ⟨file, y, g1, g2, ⟨g3, g4⟩, ⟨g5, _⟩, g6⟩ := h4 (.spi .gamma s) ((hmo _).2 ⟨s, hs', .inr rfl⟩)
    have hn : (Output.spi .gamma s).name = "spi_gamma_" ++ twoDigits s := rfl
    rw [hn] at g1 g2
    refine ⟨file, y, g1, g2, g3, g5, g4, fun i hi' k hk => ?_⟩
    have hl := hlen i hi' k hk
    exact gamma_index64 E hE hA G Φ η δ hI _ s (hsc s hs').1 (by rw [hl]; exact (hsc s hs').2) y0 cs ce c1 c2 (by rw [hl]; exact c3) _ (g6 i hi' k hk)

/-! ## Percentage of normal -/

open Classical in
/-- **C139, percentage of normal.** The documented command line for the percentage of normal, in IEEE float64 arithmetic: the tool ends without exception, writes one file per scale, changes no other file,
and at every place the values are the percentage of normal in the sense of `NormalRatio64`. -/
theorem C139_pnp (E : Ext (B64 σ)) (hE : ExtNan E) (T : Trig (B64 σ)) (toInt : String → Option Int) (ht : ∀ n : Int, toInt (toString n) = some n) (cpus : Nat) (lower : String → String)
    (yearOf : B64 σ → Int) (cmp : CoordCmp (B64 σ)) (j : String → Bool) (c : MainCommand) (hc : Writable j c) (hi : c.args.index = "pnp") (cs ce : Int)
    (hcs : c.calibrationStart = some cs) (hce : c.calibrationEnd = some ce) (hcpu : 1 ≤ numberOfWorkers c.multiprocessing cpus) (w : World (B64 σ)) {f v : String} {d : NcFile (B64 σ)} {x : NcVar (B64 σ)}
    {A b n : Nat} {mm : List (B64 σ)} {y0 y1 : Int} (hM : Monthly lower yearOf c.args w f v d x A b n mm y0 y1) (hfresh : w.shared "result_array" = none)
    (scales : List Nat) (hs : c.args.scales = some (scales.map Int.ofNat)) (hsc : ∀ s ∈ scales, 1 ≤ s ∧ s ≤ n) (c1 : y0 ≤ cs) (c2 : cs ≤ ce) (c4 : (ce - cs + 1) * 12 ≤ n) :
    ∃ w', mainTool E T toInt cpus lower yearOf cmp (commandLine j c) w = (.ended (.ok ()), w') ∧
      w'.written = w.written ++ entries c.args.outputFileBase (pnpOutputs scales) ∧
      (∀ g, (∀ o ∈ pnpOutputs scales, g ≠ fileName c.args.outputFileBase o.name) → w'.files g = w.files g) ∧
      ∀ s ∈ scales, FileHolds w'.files (c.args.outputFileBase ++ "_" ++ ("pnp_" ++ twoDigits s) ++ ".nc") ("pnp_" ++ twoDigits s) d x A b n
          (fun i k out => NormalRatio64 (seriesAt b n i k mm) s y0 cs ce out) := by
  have hdoc : documented c.args.index false scales = pnpOutputs scales := by rw [hi]; rfl
  have hmo : ∀ o, o ∈ pnpOutputs scales ↔ ∃ s ∈ scales, o = .pnp s := by
    intro o
    simp [pnpOutputs, eq_comm]
  have hlen : ∀ i < A, ∀ k < b, (seriesAt b n i k mm).length = n := by
    intro i hi' k hk
    obtain ⟨u, hu, hcv⟩ := hM.units
    obtain ⟨it, hl⟩ : ∃ it, IsLayout it x.shape A b n := by
      rcases hM.layout with ⟨_, h⟩ | ⟨_, h, hb⟩
      · exact ⟨.grid, .inl ⟨rfl, h⟩⟩
      · exact ⟨.divisions, .inr ⟨rfl, h, hb⟩⟩
    exact seriesAt_len hl (by rw [convert_length.1 hcv]; exact hM.input.wf) hi' hk
  have hall : ∀ o ∈ pnpOutputs scales, Computable E cs ce y0 mm A b n o := by
    intro o ho i hi' k hk
    obtain ⟨s, hs', rfl⟩ := (hmo o).1 ho
    have hl := hlen i hi' k hk
    exact (resultFor_pnp E _ s y0 cs ce).2 ⟨c1, by rw [hl]; exact c4, .inr (by rw [hl]; exact hsc s hs')⟩
  rw [C106_given E T toInt cpus lower yearOf cmp (commandLine j c) w c (C105_main toInt ht j c hc) cs ce hcs hce]
  obtain ⟨res, w', h1, h2, h3, h4, h5⟩ := C113_run E hE T cs ce _ hcpu lower yearOf cmp c.args w (.inr hi) hM hfresh scales hs
  rw [hdoc] at h2 h3 h4 h5
  have htake : (pnpOutputs scales).takeWhile (fun o => decide (Computable E cs ce y0 mm A b n o)) = pnpOutputs scales := by
    rw [List.takeWhile_eq_self_iff]
    intro o ho
    exact decide_eq_true (hall o ho)
  rw [htake] at h3 h4 h5
  rw [h1]
  refine ⟨w', by rw [h2.2 hall], h3, h5, fun s hs' => ?_⟩
  obtain ⟨file, y, g1, g2, ⟨g3, g4⟩, ⟨g5, _⟩, g6⟩ := h4 (.pnp s) ((hmo _).2 ⟨s, hs', rfl⟩)
  have hn : (Output.pnp s).name = "pnp_" ++ twoDigits s := rfl
  rw [hn] at g1 g2
  refine ⟨file, y, g1, g2, g3, g5, g4, fun i hi' k hk => ?_⟩
  have hl := hlen i hi' k hk
  have hr := g6 i hi' k hk
  intro hx hk40 hY
  obtain ⟨o1, o2, p1, p2, p3, p4⟩ := C98_pnp (seriesAt b n i k mm) hx s (hsc s hs').1 hk40 (by
      intro h
      rw [h, List.length_nil] at hl
      have := hsc s hs'
      omega) .monthly (by simp) y0 cs ce c1 c2 (by rw [hl]; exact c4) hY
  refine ⟨o2, p2, ?_⟩
  unfold resultFor at hr
  simp only [bind, Except.bind] at hr
  rw [p1] at hr
  simp only at hr
  split at hr
  · cases hr
    exact ⟨p3, p4⟩
  · cases hr

/-! ## Concrete runs -/

/-- months since January 2000 -/
def monthYear : B64 leftToRight → Int := fun v => match ext v with
  | .fin q => 2000 + ⌊q / 12⌋
  | _ => 0

def exTime (n : ℕ) : NcVar (B64 leftToRight) := ⟨["time"], [n], none, (List.range n).map (fun i : ℕ => lit (i : ℚ))⟩

/-- the temperatures of C134 at 45.5 degrees -/
def exTempFile : NcFile (B64 leftToRight) :=
  [("tavg", ⟨["lat", "lon", "time"], [1, 1, 14], some "celsius", exTemps.data⟩), ("lat", ⟨["lat"], [1], none, [lit 45.5]⟩), ("lon", ⟨["lon"], [1], none, [lit 0]⟩), ("time", exTime 14)]

/-- five years of rain -/
def exRainFile : NcFile (B64 leftToRight) :=
  [("prcp", ⟨["lat", "lon", "time"], [1, 1, 60], some "mm", fiveRain64⟩), ("lat", ⟨["lat"], [1], none, [lit 45.5]⟩), ("lon", ⟨["lon"], [1], none, [lit 0]⟩), ("time", exTime 60)]

def exWorld : World (B64 leftToRight) := ⟨fun g => if g = "p.nc" then some exRainFile else if g = "t.nc" then some exTempFile else none, fun _ => none, []⟩

theorem ex_temp (index : String) : MonthlyTemp id monthYear (demoArgs index [1]) exWorld "t.nc" "tavg" exTempFile ⟨["lat", "lon", "time"], [1, 1, 14], some "celsius", exTemps.data⟩
    ⟨["lat"], [1], none, [lit 45.5]⟩ 1 1 14 exTemps.data 2000 2001 := by
  refine ⟨⟨rfl, rfl, rfl, rfl, rfl, by decide, demo_notOutput _ (by decide)⟩, .inl ⟨rfl, rfl⟩, by decide, rfl, rfl, ?_, ⟨exTime 14, lit ((0 : ℕ) : ℚ), lit ((13 : ℕ) : ℚ), rfl, rfl, rfl, ?_, ?_⟩, ⟨"celsius", rfl, ?_⟩, rfl, rfl⟩
  · intro h
    exact absurd h (by simp)
  · decide +kernel
  · decide +kernel
  · unfold convertTemp
    rw [if_pos (by decide)]

theorem ex_rain (index : String) : Monthly id monthYear (demoArgs index [1]) exWorld "p.nc" "prcp" exRainFile ⟨["lat", "lon", "time"], [1, 1, 60], some "mm", fiveRain64⟩ 1 1 60 fiveRain64 2000 2004 := by
  refine ⟨⟨rfl, rfl, rfl, rfl, rfl, by decide, demo_notOutput _ (by decide)⟩, .inl ⟨rfl, rfl⟩, by decide, ?_, ?_, ⟨exTime 60, lit ((0 : ℕ) : ℚ), lit ((59 : ℕ) : ℚ), rfl, rfl, rfl, ?_, ?_⟩, ⟨"mm", rfl, ?_⟩, rfl⟩
  · intro c hc
    rcases (show c = "lat" ∨ c = "lon" ∨ c = "time" by simpa using hc) with rfl | rfl | rfl
    · exact ⟨_, rfl⟩
    · exact ⟨_, rfl⟩
    · exact ⟨_, rfl⟩
  · intro h
    exact absurd h (by simp)
  · decide +kernel
  · decide +kernel
  · unfold convertPrecip
    rw [if_pos (by decide)]

/-- C138 for the line of PET without calibration years and that file: one output file, one value per month -/
example (E : Ext (B64 leftToRight)) (cmp : CoordCmp (B64 leftToRight)) (toInt : String → Option Int) (ht : ∀ n : Int, toInt (toString n) = some n) :
    ∃ w' file y, mainTool E (nearTrig nearPow) toInt 1 id monthYear cmp (commandLine (fun _ => false) (warmCommand "pet" none none)) exWorld = (.ended (.ok ()), w') ∧
      w'.files "out_pet_thornthwaite.nc" = some file ∧ ("pet_thornthwaite", y) ∈ file ∧ y.shape = [1, 1, 14] ∧ PetValues64 exTemps.data 45.5 2000 (seriesAt 1 14 0 0 y.data) := by
  obtain ⟨w', h1, _, _, file, y, g1, g2, _, g4, _, g6⟩ := C138_pet E (nearTrig nearPow) (nearTrig_near _) nearPow_near toInt ht 1 id monthYear cmp (fun _ => false) (warmCommand "pet" none none)
    (warm_writable (by decide) none none) rfl (by decide) exWorld (ex_temp "pet") rfl (fun _ => 45.5) (by
      intro i hi
      obtain rfl : i = 0 := by omega
      exact ⟨lit 45.5, rfl, by decide +kernel, by norm_num, by norm_num⟩)
  exact ⟨w', file, y, h1, g1, g2, g4, g6 0 (by decide) 0 (by decide)⟩

/-- C139 for the lines of SPI and of the percentage of normal and that rain -/
example (T : Trig (B64 leftToRight)) (cmp : CoordCmp (B64 leftToRight)) (toInt : String → Option Int) (ht : ∀ n : Int, toInt (toString n) = some n) :
    (∃ res w', mainTool nearIndex T toInt 1 id monthYear cmp (commandLine (fun _ => false) (soloCommand "spi")) exWorld = (.ended res, w') ∧
      (res = .ok () → ∃ file y, w'.files "out_spi_gamma_01.nc" = some file ∧ ("spi_gamma_01", y) ∈ file ∧
        GammaIndex64 (fun v _ b => v / (v + b)) (fun p => 6 * p - 3) (1 / 2 ^ 50) (1 / 2 ^ 50) fiveRain64 1 2000 2000 2004 (seriesAt 1 60 0 0 y.data))) ∧
    ∃ w' file y, mainTool nearIndex T toInt 1 id monthYear cmp (commandLine (fun _ => false) (soloCommand "pnp")) exWorld = (.ended (.ok ()), w') ∧
      w'.files "out_pnp_01.nc" = some file ∧ ("pnp_01", y) ∈ file ∧ NormalRatio64 fiveRain64 1 2000 2000 2004 (seriesAt 1 60 0 0 y.data) := by
  have hser : seriesAt 1 60 0 0 fiveRain64 = fiveRain64 := rfl
  constructor
  · obtain ⟨res, w', h1, _, h3⟩ := C139_spi nearIndex nearIndex_nan ⟨nearExt_accurate.log, nearExt_accurate.sqrt⟩ _ _ _ _ nearIndex_near T toInt ht 1 id monthYear cmp (fun _ => false) (soloCommand "spi") (solo_writable (by decide)) rfl
      2000 2004 rfl rfl (by decide) exWorld (ex_rain "spi") rfl [1] rfl (by decide) le_rfl (by norm_num) (by norm_num [yearsOf])
    refine ⟨res, w', h1, fun hok => ?_⟩
    obtain ⟨_, _, h4⟩ := h3 hok
    obtain ⟨file, y, g1, g2, _, _, _, g6⟩ := h4 1 (by decide)
    have hn : "spi_gamma_" ++ twoDigits 1 = "spi_gamma_01" := by decide +kernel
    rw [hn] at g1 g2
    have := g6 0 (by decide) 0 (by decide)
    beta_reduce at this
    rw [hser] at this
    exact ⟨file, y, g1, g2, this⟩
  · obtain ⟨w', h1, _, _, h4⟩ := C139_pnp nearIndex nearIndex_nan T toInt ht 1 id monthYear cmp (fun _ => false) (soloCommand "pnp") (solo_writable (by decide)) rfl
      2000 2004 rfl rfl (by decide) exWorld (ex_rain "pnp") rfl [1] rfl (by decide) le_rfl (by norm_num) (by norm_num)
    obtain ⟨file, y, g1, g2, _, _, _, g6⟩ := h4 1 (by decide)
    have hn : "pnp_" ++ twoDigits 1 = "pnp_01" := by decide +kernel
    rw [hn] at g1 g2
    have := g6 0 (by decide) 0 (by decide)
    beta_reduce at this
    rw [hser] at this
    exact ⟨w', file, y, h1, g1, g2, this⟩

end CI.Props
