import Verif.Props.CliLive
import Verif.Props.CliYears
import Verif.Props.Pnp
import Mathlib.Data.List.TakeWhile

/-!
# C114: from the command line to the published index in the files
-/

namespace CI.Props

open CI FloatOps FloatLaws Spec Spec.McKee

/-! ## Specification -/

/-- the published gamma index of the record `x` at time scale `k`, calibration years `cs` to `ce`, record from year `ds`: no value where there is no accumulation or the accumulation is zero (where
the published index has one), else the published index with the share of zeros of the whole record, if the sample has two different positive values -/
def GammaIndex (G : ℝ → ℝ → ℝ → ℝ) (Φ : ℝ → ℝ) (x : List (Option ℝ)) (k : ℕ) (ds cs ce : ℤ) (out : List (Fl ℝ)) : Prop :=
  out.length = x.length ∧ ∀ t < x.length,
    (accum x k t = none → out[t]? = some .nan) ∧ (accum x k t = some 0 → out[t]? = some .nan) ∧
    ∀ v, accum x k t = some v → 0 < v →
      let s := sample x k 12 (t % 12) (cs - ds).toNat (ce - cs + 1).toNat
      (∃ a ∈ wet s, ∃ b ∈ wet s, a ≠ b) →
      out[t]? = some (.fin (clamp (index G Φ ((dry (sample x k 12 (t % 12) 0 (yearsOf x.length 12)) : ℝ) / yearsOf x.length 12) s v)))

/-- the Pearson index of the record: no value where there is no accumulation, else the normal quantile of the mixed probability for the Pearson distribution with the L-moments of the sample
of the calendar month, if it has at least four positive values, for accumulations inside the distribution -/
def PearsonIndex (P : ℝ → ℝ → ℝ → ℝ → ℝ) (Φ : ℝ → ℝ) (x : List (Option ℝ)) (k : ℕ) (ds cs ce : ℤ) (out : List (Fl ℝ)) : Prop :=
  out.length = x.length ∧ (∀ t < x.length, accum x k t = none → out[t]? = some .nan) ∧
    ∀ c < 12, let s := sample x k 12 c (cs - ds).toNat (ce - cs + 1).toNat
      4 ≤ (wet s).length →
      ∃ sc sk, 0 < sc ∧ Pearson3.lscale sc sk = pairDiff s / (s.length * (s.length - 1)) / 2 ∧
        ∀ t v, t % 12 = c → accum x k t = some v → 0.0005 ≤ v → Pearson3.Inside (mean s) sc sk v →
          out[t]? = some (.fin (clamp (Φ (zeroShare s + (1 - zeroShare s) * P v sk (mean s) sc))))

/-- the percentage of normal of the record: no value where there is no accumulation or the accumulations of the calendar month in the calibration years have no positive mean, else the ratio of
the accumulation to that mean -/
def NormalRatio (x : List (Option ℝ)) (k : ℕ) (ds cs ce : ℤ) (out : List (Fl ℝ)) : Prop :=
  out.length = x.length ∧ ∀ t < x.length, out[t]? = some (
    match accum x k t with
    | none => .nan
    | some v => if 0 < mean (sample x k 12 (t % 12) (cs - ds).toNat (ce - cs + 1).toNat) then .fin (v / mean (sample x k 12 (t % 12) (cs - ds).toNat (ce - cs + 1).toNat)) else .nan)

/-- the file `g` is there, with the coordinates of the input `d`, and has a variable `name` with dimensions and shape of the input variable `x`, whose series at every place (`i`, `k`) satisfies `Q i k` -/
def FileHolds {F : Type} (fs : Files F) (g name : String) (d : NcFile F) (x : NcVar F) (A b n : Nat) (Q : Nat → Nat → List F → Prop) : Prop :=
  ∃ file y, fs g = some file ∧ (name, y) ∈ file ∧ y.dims = x.dims ∧ y.shape = x.shape ∧ Carries d file ∧ ∀ i < A, ∀ k < b, Q i k (seriesAt b n i k y.data)

/-! ## The index of a record -/

/-- where there is no accumulation the window begins before the record or has a missing value -/
theorem accum_none {x : List (Option ℝ)} {k t : ℕ} (ht : t < x.length) (h : accum x k t = none) :
    (t : Int) + 1 < (k : Int) ∨ ∃ q : Nat, (q : Int) < (k : Int) ∧ q ≤ t ∧ (x.map toFl)[t - q]? = some nan := by
  by_cases hk : t + 1 < k
  · exact .inl (by omega)
  right
  unfold accum at h
  simp only at h
  by_cases hall : ((x.drop (t + 1 - k)).take k).all Option.isSome = true
  · rw [if_pos ⟨by omega, ht, hall⟩] at h
    cases h
  · obtain ⟨o, ho, hn⟩ : ∃ o ∈ (x.drop (t + 1 - k)).take k, ¬ o.isSome = true := by
      by_contra hcon
      push Not at hcon
      exact hall (List.all_eq_true.2 hcon)
    obtain ⟨q, hq, hqo⟩ := List.getElem_of_mem ho
    rw [List.length_take, List.length_drop] at hq
    rw [List.getElem_take, List.getElem_drop] at hqo
    refine ⟨k - 1 - q, by omega, by omega, ?_⟩
    have hidx : t - (k - 1 - q) = t + 1 - k + q := by omega
    rw [hidx, List.getElem?_map, List.getElem?_eq_getElem (by omega), hqo]
    cases o with
    | none => rfl
    | some a => exact absurd rfl hn

theorem accum_missing {x : List (Option ℝ)} (hx : ¬ ∃ a, some a ∈ x) (k t : ℕ) (h1 : 1 ≤ k) : accum x k t = none := by
  unfold accum
  simp only []
  rw [if_neg]
  rintro ⟨e1, e2, e3⟩
  have hne : (x.drop (t + 1 - k)).take k ≠ [] := by
    rw [← List.length_pos_iff, List.length_take, List.length_drop]
    omega
  obtain ⟨o, ho⟩ := List.exists_mem_of_ne_nil _ hne
  obtain ⟨v, rfl⟩ := Option.isSome_iff_exists.1 (List.all_eq_true.1 e3 o ho)
  exact hx ⟨v, List.mem_of_mem_drop (List.mem_of_mem_take ho)⟩

theorem missing_get {x : List (Option ℝ)} (hx : ¬ ∃ a, some a ∈ x) {t : ℕ} (ht : t < x.length) : (x.map toFl)[t]? = some .nan := by
  rw [List.getElem?_map, List.getElem?_eq_getElem ht]
  cases h : x[t] with
  | none => rfl
  | some a => exact absurd ⟨a, h ▸ List.getElem_mem ht⟩ hx

theorem gammaIndex_of (E : Ext (Fl ℝ)) (hE : ExtNan E) (hR : ExtReal E) (G : ℝ → ℝ → ℝ → ℝ) (Φ : ℝ → ℝ)
    (hG : ∀ v a b, 0 < v → 0 < a → 0 < b → E.gammaCdf (.fin v) (.fin a) (.fin b) = .fin (G v a b) ∧ 0 < G v a b ∧ G v a b < 1)
    (hΦ : ∀ q, 0 < q → q < 1 → E.normPpf (.fin q) = .fin (Φ q))
    (x : List (Option ℝ)) (hx : ∀ a, some a ∈ x → 0 ≤ a) (k : ℕ) (h1 : 1 ≤ k) (h2 : k ≤ x.length) (ds cs ce : ℤ) (c1 : ds ≤ cs) (c2 : cs ≤ ce) (c3 : ce < ds + yearsOf x.length 12)
    (out : List (Fl ℝ)) (h : spi E (Arr.of1d (x.map toFl)) k .gamma ds cs ce .monthly none = .ok out) : GammaIndex G Φ x k ds cs ce out := by
  by_cases hs : ∃ a, some a ∈ x
  · obtain ⟨out', ho, hl, hv⟩ := C84_value E hE hR G Φ hG hΦ x hx k h1 h2 .monthly (by simp) ds cs ce c1 c2 c3 hs
    rw [h] at ho
    cases ho
    have hnn : ∃ v ∈ (Arr.of1d (x.map toFl)).data, isNan v = false := by
      obtain ⟨a, ha⟩ := hs
      exact ⟨toFl (some a), List.mem_map.2 ⟨_, ha, rfl⟩, rfl⟩
    refine ⟨hl, fun t ht => ⟨fun hn => ?_, fun h0 => C84_fails E hE x hx k h1 h2 .monthly ds cs ce out h t h0, ?_⟩⟩
    rotate_left
    · intro v hv1 hv2 s hw
      exact hv t v hv1 hv2 hw
    exact C11_missing E hE _ _ _ ds cs ce .monthly none out hnn h t (by simpa [Arr.of1d] using ht) (accum_none ht hn)
  · rw [spi_missing E x hs k .gamma ds cs ce .monthly] at h
    cases h
    refine ⟨by simp, fun t ht => ⟨fun _ => missing_get hs ht, fun _ => missing_get hs ht, fun v hv => ?_⟩⟩
    rw [accum_missing hs k t h1] at hv
    cases hv

theorem pearsonIndex_of (E : Ext (Fl ℝ)) (hE : ExtNan E) (hR : ExtReal E) (P : ℝ → ℝ → ℝ → ℝ → ℝ) (Φ : ℝ → ℝ)
    (hP : ∀ v sk loc sc, 0 < v → 0 < sc → Pearson3.Inside loc sc sk v →
      E.pearson3Cdf (.fin v) (.fin sk) (.fin loc) (.fin sc) = .fin (P v sk loc sc) ∧ 0 < P v sk loc sc ∧ P v sk loc sc < 1)
    (hΦ : ∀ q, 0 < q → q < 1 → E.normPpf (.fin q) = .fin (Φ q))
    (x : List (Option ℝ)) (hx : ∀ a, some a ∈ x → 0 ≤ a) (k : ℕ) (h1 : 1 ≤ k) (h2 : k ≤ x.length) (ds cs ce : ℤ) (c1 : ds ≤ cs) (c2 : cs ≤ ce) (c3 : ce < ds + yearsOf x.length 12)
    (out : List (Fl ℝ)) (h : spi E (Arr.of1d (x.map toFl)) k .pearson ds cs ce .monthly none = .ok out) : PearsonIndex P Φ x k ds cs ce out := by
  by_cases hs : ∃ a, some a ∈ x
  · have hnn : ∃ v ∈ (Arr.of1d (x.map toFl)).data, isNan v = false := by
      obtain ⟨a, ha⟩ := hs
      exact ⟨toFl (some a), List.mem_map.2 ⟨_, ha, rfl⟩, rfl⟩
    refine ⟨?_, fun t ht hn => ?_, ?_⟩
    · rcases C10_pearson_partial E (Arr.of1d (x.map toFl)) k ds cs ce .monthly (.inl rfl) (.inl rfl) (by exact_mod_cast h1) hnn with ⟨out', ho, hl⟩ | he
      · rw [h] at ho
        cases ho
        simpa [Arr.of1d] using hl
      · rw [h] at he
        cases he
    · exact C11_missing E hE _ _ _ ds cs ce .monthly none out hnn h t (by simpa [Arr.of1d] using ht) (accum_none ht hn)
    · intro c hc s h4
      exact C85_value E hE hR P Φ hP hΦ x hx k h1 h2 .monthly ds cs ce c1 c2 c3 hs out h c hc h4
  · rw [spi_missing E x hs k .pearson ds cs ce .monthly] at h
    cases h
    refine ⟨by simp, fun t ht _ => missing_get hs ht, ?_⟩
    intro c hc s h4
    have : s = [] := sample_missing x hs k 12 c _ _ h1
    rw [this] at h4
    simp [wet] at h4

theorem normalRatio_of (x : List (Option ℝ)) (k : ℕ) (h1 : 1 ≤ k) (h2 : k ≤ x.length) (ds cs ce : ℤ) (c1 : ds ≤ cs) (c2 : cs ≤ ce) (c4 : (ce - cs + 1) * 12 ≤ x.length)
    (out : List (Fl ℝ)) (h : percentageOfNormal (x.map toFl) (some (k : Int)) ds cs ce .monthly = .ok out) : NormalRatio x k ds cs ce out := by
  have hne : x.map toFl ≠ [] := by
    rw [← List.length_pos_iff, List.length_map]
    omega
  obtain ⟨sums, out', hs, ho, hl, hv⟩ := C28_ratio (x.map toFl) k ds cs ce .monthly (by simp) h1 hne c1 c2 (by simpa using c4)
  rw [h] at ho
  cases ho
  obtain ⟨s, e1, e2, e3⟩ := scaled_toFl x k h1 h2
  rw [hs] at e1
  cases e1
  have hget : ∀ t, t < x.length → sums[t]? = some (toFl (accum x k t)) := by
    intro t ht
    have := e3 0
    rw [List.replicate_zero, List.append_nil] at this
    rw [this, List.getElem?_map, List.getElem?_range (by omega)]
    rfl
  have hpast : ∀ t, x.length ≤ t → sums[t]? = none ∧ accum x k t = none := by
    intro t ht
    refine ⟨List.getElem?_eq_none (by omega), ?_⟩
    unfold accum
    simp only []
    rw [if_neg]
    omega
  have hmean : ∀ c, nanmean (calendarStepValues sums 12 c ds cs ce) =
      (let q := sample x k 12 c (cs - ds).toNat (ce - cs + 1).toNat
       if q = [] then Fl.nan else .fin (q.sum / q.length)) := by
    intro c
    apply nanmean_fin
    unfold calendarStepValues sample
    generalize List.range (ce - cs + 1).toNat = l
    induction l with
    | nil => rfl
    | cons y l ih =>
      rw [List.filterMap_cons, List.filterMap_cons]
      by_cases hb : ((cs - ds).toNat + y) * 12 + c < x.length
      · rw [hget _ hb]
        simp only []
        cases ha : accum x k (((cs - ds).toNat + y) * 12 + c) with
        | none =>
          rw [List.filter_cons, if_neg (show ¬ (!isNan (toFl none)) = true by decide), ih]
        | some v =>
          rw [List.filter_cons, if_pos (show (!isNan (toFl (some v))) = true from rfl), ih]
          rfl
      · rw [(hpast _ (by omega)).1, (hpast _ (by omega)).2]
        exact ih
  refine ⟨by rw [hl, e2], fun t ht => ?_⟩
  rw [hv t _ (hget t ht)]
  simp only [pnpSteps, hmean]
  congr 1
  by_cases hq : sample x k 12 (t % 12) (cs - ds).toNat (ce - cs + 1).toNat = []
  · rw [hq]
    simp only [if_true]
    have h0 : ¬ 0 < mean [] := by simp [mean]
    rw [if_neg (by rw [show (Fl.nan : Fl ℝ) = nan from rfl]; simp)]
    cases accum x k t with
    | none => rfl
    | some v => simp only [if_neg h0]; rfl
  · rw [if_neg hq]
    have hm : mean (sample x k 12 (t % 12) (cs - ds).toNat (ce - cs + 1).toNat) =
      (sample x k 12 (t % 12) (cs - ds).toNat (ce - cs + 1).toNat).sum / (sample x k 12 (t % 12) (cs - ds).toNat (ce - cs + 1).toNat).length := rfl
    rw [← hm]
    generalize mean (sample x k 12 (t % 12) (cs - ds).toNat (ce - cs + 1).toNat) = m
    by_cases hp : 0 < m
    · rw [if_pos (by rw [Fl.lit_def, Fl.flt_fin]; simpa using hp)]
      cases accum x k t with
      | none => rfl
      | some v =>
        simp only [if_pos hp]
        show Fl.div (.fin v) (.fin m) = _
        rw [Fl.div, if_neg hp.ne']
    · rw [if_neg (by rw [Fl.lit_def, Fl.flt_fin]; simpa using hp)]
      cases accum x k t with
      | none => rfl
      | some v => simp only [if_neg hp]; rfl

/-! ## The run -/

open Classical in
/-- what is known of the run of a command line -/
theorem run_of_line (E : Ext (Fl ℝ)) (hE : ExtNan E) (T : Trig (Fl ℝ)) (toInt : String → Option Int) (ht : ∀ n : Int, toInt (toString n) = some n) (cpus : Nat) (lower : String → String)
    (yearOf : Fl ℝ → Int) (cmp : CoordCmp (Fl ℝ)) (j : String → Bool) (c : MainCommand) (hc : Writable j c) (hi : c.args.index = "spi" ∨ c.args.index = "pnp") (cs ce : Int)
    (hcs : c.calibrationStart = some cs) (hce : c.calibrationEnd = some ce) (hcpu : 1 ≤ numberOfWorkers c.multiprocessing cpus) (w : World (Fl ℝ)) {f v : String} {d : NcFile (Fl ℝ)} {x : NcVar (Fl ℝ)}
    {A b n : Nat} {vals : List (Option ℝ)} {y0 y1 : Int} (hM : Monthly lower yearOf c.args w f v d x A b n (vals.map toFl) y0 y1) (hfresh : w.shared "result_array" = none) (scales : List Nat)
    (hs : c.args.scales = some (scales.map Int.ofNat)) (hall : ∀ o ∈ documented c.args.index false scales, Computable E cs ce y0 (vals.map toFl) A b n o) :
    ∃ w', mainTool E T toInt cpus lower yearOf cmp (commandLine j c) w = (.ended (.ok ()), w') ∧
      w'.written = w.written ++ entries c.args.outputFileBase (documented c.args.index false scales) ∧
      (∀ g, (∀ o ∈ documented c.args.index false scales, g ≠ fileName c.args.outputFileBase o.name) → w'.files g = w.files g) ∧
      ∀ o ∈ documented c.args.index false scales, FileHolds w'.files (fileName c.args.outputFileBase o.name) o.name d x A b n
        (fun i k l => resultFor E cs ce y0 o ((seriesAt b n i k vals).map toFl) = .ok l) := by
  rw [C106_given E T toInt cpus lower yearOf cmp (commandLine j c) w c (C105_main toInt ht j c hc) cs ce hcs hce]
  obtain ⟨res, w', h1, h2, h3, h4, h5⟩ := C113_run E hE T cs ce _ hcpu lower yearOf cmp c.args w hi hM hfresh scales hs
  have htake : (documented c.args.index false scales).takeWhile (fun o => decide (Computable E cs ce y0 (vals.map toFl) A b n o)) = documented c.args.index false scales := by
    rw [List.takeWhile_eq_self_iff]
    intro o ho
    exact decide_eq_true (hall o ho)
  rw [htake] at h3 h4 h5
  rw [h1]
  refine ⟨w', by rw [h2.2 hall], h3, h5, fun o ho => ?_⟩
  obtain ⟨file, y, g1, g2, ⟨g3, g4⟩, ⟨g5, _⟩, g6⟩ := h4 o ho
  exact ⟨file, y, g1, g2, g3, g5, g4, fun i hi k hk => by
    have := g6 i hi k hk
    beta_reduce at this ⊢
    rwa [seriesAt_toFl] at this⟩

/-- the places of the input have as many steps as the time axis -/
theorem place_length {lower : String → String} {yearOf : Fl ℝ → Int} {a : CliArgs} {w : World (Fl ℝ)} {f v : String} {d : NcFile (Fl ℝ)} {x : NcVar (Fl ℝ)} {A b n : Nat} {vals : List (Option ℝ)}
    {y0 y1 : Int} (hM : Monthly lower yearOf a w f v d x A b n (vals.map toFl) y0 y1) {i k : Nat} (hi : i < A) (hk : k < b) : (seriesAt b n i k vals).length = n := by
  obtain ⟨u, hu, hc⟩ := hM.units
  obtain ⟨it, hl⟩ : ∃ it, IsLayout it x.shape A b n := by
    rcases hM.layout with ⟨_, h⟩ | ⟨_, h, hb⟩
    · exact ⟨.grid, .inl ⟨rfl, h⟩⟩
    · exact ⟨.divisions, .inr ⟨rfl, h, hb⟩⟩
  have := seriesAt_len hl (by rw [convert_length.1 hc]; exact hM.input.wf) hi hk
  rw [seriesAt_toFl, List.length_map] at this
  exact this

/-- **C114, SPI.** The documented command line for SPI of monthly precipitation (any files, names, scales, calibration years inside the record, numbers of workers, separate values or `=`), in exact
arithmetic, for precipitation that is not negative and has a Pearson fit at all places, scales and months (else no run finishes, C113): the tool ends without exception, writes exactly two
files per scale, `BASE_spi_gamma_NN.nc` and `BASE_spi_pearson_NN.nc`, changes no other file, and at every place the values in these files are the published index of the precipitation of
that place, in millimetres. -/
theorem C114_spi (E : Ext (Fl ℝ)) (hE : ExtNan E) (hR : ExtReal E) (G : ℝ → ℝ → ℝ → ℝ) (P : ℝ → ℝ → ℝ → ℝ → ℝ) (Φ : ℝ → ℝ)
    (hG : ∀ v a b, 0 < v → 0 < a → 0 < b → E.gammaCdf (.fin v) (.fin a) (.fin b) = .fin (G v a b) ∧ 0 < G v a b ∧ G v a b < 1)
    (hP : ∀ v sk loc sc, 0 < v → 0 < sc → Pearson3.Inside loc sc sk v →
      E.pearson3Cdf (.fin v) (.fin sk) (.fin loc) (.fin sc) = .fin (P v sk loc sc) ∧ 0 < P v sk loc sc ∧ P v sk loc sc < 1)
    (hΦ : ∀ q, 0 < q → q < 1 → E.normPpf (.fin q) = .fin (Φ q))
    (T : Trig (Fl ℝ)) (toInt : String → Option Int) (ht : ∀ n : Int, toInt (toString n) = some n) (cpus : Nat) (lower : String → String)
    (yearOf : Fl ℝ → Int) (cmp : CoordCmp (Fl ℝ)) (j : String → Bool) (c : MainCommand) (hc : Writable j c) (hi : c.args.index = "spi") (cs ce : Int)
    (hcs : c.calibrationStart = some cs) (hce : c.calibrationEnd = some ce) (hcpu : 1 ≤ numberOfWorkers c.multiprocessing cpus) (w : World (Fl ℝ)) {f v : String} {d : NcFile (Fl ℝ)} {x : NcVar (Fl ℝ)}
    {A b n : Nat} {vals : List (Option ℝ)} {y0 y1 : Int} (hM : Monthly lower yearOf c.args w f v d x A b n (vals.map toFl) y0 y1) (hfresh : w.shared "result_array" = none)
    (hpos : ∀ u, some u ∈ vals → 0 ≤ u) (scales : List Nat) (hs : c.args.scales = some (scales.map Int.ofNat)) (hsc : ∀ s ∈ scales, 1 ≤ s ∧ s ≤ n) (c1 : y0 ≤ cs) (c2 : cs ≤ ce)
    (c3 : ce < y0 + yearsOf n 12) (hfit : ∀ s ∈ scales, ∀ i < A, ∀ k < b, ∀ m < 12, ¬ Unfit (seriesAt b n i k vals) s m y0 cs ce) :
    ∃ w', mainTool E T toInt cpus lower yearOf cmp (commandLine j c) w = (.ended (.ok ()), w') ∧
      w'.written = w.written ++ entries c.args.outputFileBase (spiOutputs scales) ∧
      (∀ g, (∀ o ∈ spiOutputs scales, g ≠ fileName c.args.outputFileBase o.name) → w'.files g = w.files g) ∧
      ∀ s ∈ scales,
        FileHolds w'.files (c.args.outputFileBase ++ "_" ++ ("spi_gamma_" ++ twoDigits s) ++ ".nc") ("spi_gamma_" ++ twoDigits s) d x A b n
          (fun i k out => GammaIndex G Φ (seriesAt b n i k vals) s y0 cs ce out) ∧
        FileHolds w'.files (c.args.outputFileBase ++ "_" ++ ("spi_pearson_" ++ twoDigits s) ++ ".nc") ("spi_pearson_" ++ twoDigits s) d x A b n
          (fun i k out => PearsonIndex P Φ (seriesAt b n i k vals) s y0 cs ce out) := by
  have hmem : ∀ i k u, some u ∈ seriesAt b n i k vals → 0 ≤ u := fun i k u hu => hpos u (List.mem_of_mem_drop (List.mem_of_mem_take hu))
  have hdoc : documented c.args.index false scales = spiOutputs scales := by rw [hi]; rfl
  have hmo : ∀ o, o ∈ spiOutputs scales ↔ ∃ s ∈ scales, o = .spi .pearson s ∨ o = .spi .gamma s := by
    intro o
    simp [spiOutputs, eq_comm]
  have hall : ∀ o ∈ documented c.args.index false scales, Computable E cs ce y0 (vals.map toFl) A b n o := by
    rw [hdoc]
    intro o ho i hi' k hk
    obtain ⟨s, hs', ho⟩ := (hmo o).1 ho
    have hl := place_length hM hi' hk
    obtain ⟨r1, r2⟩ := resultFor_spi E hR (seriesAt b n i k vals) (hmem i k) s (hsc s hs').1 (by rw [hl]; exact (hsc s hs').2) y0 cs ce c1 c2 (by rw [hl]; exact c3)
    rw [seriesAt_toFl]
    rcases ho with rfl | rfl
    · exact r1.2 (hfit s hs' i hi' k hk)
    · exact r2
  obtain ⟨w', h1, h2, h3, h4⟩ := run_of_line E hE T toInt ht cpus lower yearOf cmp j c hc (.inl hi) cs ce hcs hce hcpu w hM hfresh scales hs hall
  rw [hdoc] at h2 h3 h4
  refine ⟨w', h1, h2, h3, fun s hs' => ⟨?_, ?_⟩⟩
  · obtain ⟨file, y, g1, g2, g3, g4, g5, g6⟩ := h4 (.spi .gamma s) ((hmo _).2 ⟨s, hs', .inr rfl⟩)
    have hn : (Output.spi .gamma s).name = "spi_gamma_" ++ twoDigits s := rfl
    rw [hn] at g1 g2
    refine ⟨file, y, g1, g2, g3, g4, g5, fun i hi' k hk => ?_⟩
    have hl := place_length hM hi' hk
    exact gammaIndex_of E hE hR G Φ hG hΦ _ (hmem i k) s (hsc s hs').1 (by rw [hl]; exact (hsc s hs').2) y0 cs ce c1 c2 (by rw [hl]; exact c3) _ (g6 i hi' k hk)
  · obtain ⟨file, y, g1, g2, g3, g4, g5, g6⟩ := h4 (.spi .pearson s) ((hmo _).2 ⟨s, hs', .inl rfl⟩)
    have hn : (Output.spi .pearson s).name = "spi_pearson_" ++ twoDigits s := rfl
    rw [hn] at g1 g2
    refine ⟨file, y, g1, g2, g3, g4, g5, fun i hi' k hk => ?_⟩
    have hl := place_length hM hi' hk
    exact pearsonIndex_of E hE hR P Φ hP hΦ _ (hmem i k) s (hsc s hs').1 (by rw [hl]; exact (hsc s hs').2) y0 cs ce c1 c2 (by rw [hl]; exact c3) _ (g6 i hi' k hk)

/-- **C114, percentage of normal.** The same for the percentage of normal: one file per scale, whose values are the accumulation divided by the mean accumulation of the calendar month in the
calibration years, for any precipitation and any calibration years that begin in the record and are not longer than it. -/
theorem C114_pnp (E : Ext (Fl ℝ)) (hE : ExtNan E) (T : Trig (Fl ℝ)) (toInt : String → Option Int) (ht : ∀ n : Int, toInt (toString n) = some n) (cpus : Nat) (lower : String → String)
    (yearOf : Fl ℝ → Int) (cmp : CoordCmp (Fl ℝ)) (j : String → Bool) (c : MainCommand) (hc : Writable j c) (hi : c.args.index = "pnp") (cs ce : Int)
    (hcs : c.calibrationStart = some cs) (hce : c.calibrationEnd = some ce) (hcpu : 1 ≤ numberOfWorkers c.multiprocessing cpus) (w : World (Fl ℝ)) {f v : String} {d : NcFile (Fl ℝ)} {x : NcVar (Fl ℝ)}
    {A b n : Nat} {vals : List (Option ℝ)} {y0 y1 : Int} (hM : Monthly lower yearOf c.args w f v d x A b n (vals.map toFl) y0 y1) (hfresh : w.shared "result_array" = none)
    (scales : List Nat) (hs : c.args.scales = some (scales.map Int.ofNat)) (hsc : ∀ s ∈ scales, 1 ≤ s ∧ s ≤ n) (c1 : y0 ≤ cs) (c2 : cs ≤ ce)
    (c4 : (ce - cs + 1) * 12 ≤ n) :
    ∃ w', mainTool E T toInt cpus lower yearOf cmp (commandLine j c) w = (.ended (.ok ()), w') ∧
      w'.written = w.written ++ entries c.args.outputFileBase (pnpOutputs scales) ∧
      (∀ g, (∀ o ∈ pnpOutputs scales, g ≠ fileName c.args.outputFileBase o.name) → w'.files g = w.files g) ∧
      ∀ s ∈ scales, FileHolds w'.files (c.args.outputFileBase ++ "_" ++ ("pnp_" ++ twoDigits s) ++ ".nc") ("pnp_" ++ twoDigits s) d x A b n
          (fun i k out => NormalRatio (seriesAt b n i k vals) s y0 cs ce out) := by
  have hdoc : documented c.args.index false scales = pnpOutputs scales := by rw [hi]; rfl
  have hmo : ∀ o, o ∈ pnpOutputs scales ↔ ∃ s ∈ scales, o = .pnp s := by
    intro o
    simp [pnpOutputs, eq_comm]
  have hall : ∀ o ∈ documented c.args.index false scales, Computable E cs ce y0 (vals.map toFl) A b n o := by
    rw [hdoc]
    intro o ho i hi' k hk
    obtain ⟨s, hs', rfl⟩ := (hmo o).1 ho
    have hl := place_length hM hi' hk
    rw [seriesAt_toFl]
    exact (resultFor_pnp E _ s y0 cs ce).2 ⟨c1, by rw [List.length_map, hl]; exact c4, .inr (by rw [List.length_map, hl]; exact hsc s hs')⟩
  obtain ⟨w', h1, h2, h3, h4⟩ := run_of_line E hE T toInt ht cpus lower yearOf cmp j c hc (.inr hi) cs ce hcs hce hcpu w hM hfresh scales hs hall
  rw [hdoc] at h2 h3 h4
  refine ⟨w', h1, h2, h3, fun s hs' => ?_⟩
  obtain ⟨file, y, g1, g2, g3, g4, g5, g6⟩ := h4 (.pnp s) ((hmo _).2 ⟨s, hs', rfl⟩)
  have hn : (Output.pnp s).name = "pnp_" ++ twoDigits s := rfl
  rw [hn] at g1 g2
  refine ⟨file, y, g1, g2, g3, g4, g5, fun i hi' k hk => ?_⟩
  have hl := place_length hM hi' hk
  have hr := g6 i hi' k hk
  unfold resultFor at hr
  simp only [bind, Except.bind] at hr
  cases hp : percentageOfNormal ((seriesAt b n i k vals).map toFl) (some (s : Int)) y0 cs ce .monthly with
  | error e => rw [hp] at hr; cases hr
  | ok r =>
    rw [hp] at hr
    simp only at hr
    split at hr
    · cases hr
      exact normalRatio_of _ s (hsc s hs').1 (by rw [hl]; exact (hsc s hs').2) y0 cs ce c1 c2 (by rw [hl]; exact c4) _ hp
    · cases hr

/-! ## A concrete run: one place with 0, 1, 2, 4 and 8 mm in every month of the years 2000 to 2004 -/

noncomputable def soloVar : NcVar (Fl ℝ) := ⟨["lat", "lon", "time"], [1, 1, 60], some "mm", steps5.map toFl⟩

noncomputable def soloFile : NcFile (Fl ℝ) :=
  [("prcp", soloVar), ("lat", ⟨["lat"], [1], none, [.fin 40]⟩), ("lon", ⟨["lon"], [1], none, [.fin 0]⟩), ("time", ⟨["time"], [60], none, (List.range 60).map (fun i : ℕ => .fin (i : ℝ))⟩)]

noncomputable def soloWorld : World (Fl ℝ) := ⟨fun g => if g = "p.nc" then some soloFile else none, fun _ => none, []⟩

theorem solo_monthly (index : String) (scales : List Int) : Monthly id pairYear (demoArgs index scales) soloWorld "p.nc" "prcp" soloFile soloVar 1 1 60 (steps5.map toFl) 2000 2004 := by
  refine ⟨⟨rfl, rfl, rfl, rfl, ?_, by decide, demo_notOutput _ (by decide)⟩, .inl ⟨rfl, rfl⟩, by decide, ?_, ?_, ⟨_, .fin ((0 : ℕ) : ℝ), .fin ((59 : ℕ) : ℝ), rfl, rfl, rfl, ?_, ?_⟩, ⟨"mm", rfl, ?_⟩, rfl⟩
  · simp [soloVar, steps5]
  · intro c hc
    rcases (show c = "lat" ∨ c = "lon" ∨ c = "time" by simpa [soloVar] using hc) with rfl | rfl | rfl
    · exact ⟨_, rfl⟩
    · exact ⟨_, rfl⟩
    · exact ⟨_, rfl⟩
  · intro h
    exact absurd h (by simp [soloVar])
  · simp [pairYear]
  · show 2000 + ⌊((59 : ℕ) : ℝ) / 12⌋ = 2004
    have : ⌊((59 : ℕ) : ℝ) / 12⌋ = 4 := by
      rw [Int.floor_eq_iff]
      norm_num
    rw [this]
    norm_num
  · unfold convertPrecip
    rw [if_pos (by decide)]
    rfl

theorem solo_series : seriesAt 1 60 0 0 steps5 = steps5 := by
  unfold seriesAt
  rw [List.take_of_length_le] <;> simp [steps5]

/-- the command line of the run -/
def soloCommand (index : String) : MainCommand := ⟨demoArgs index [1], some 2000, some 2004, .single, "none"⟩

theorem solo_writable {index : String} (hi : index ∈ ["spi", "pnp"]) : Writable (fun _ => false) (soloCommand index) := by
  refine ⟨rfl, ?_, (by decide : Periodicity.monthly ≠ .other), (by decide : "none" ∈ ["none", "input"]), ?_⟩
  · show index ∈ _
    rcases (show index = "spi" ∨ index = "pnp" by simpa using hi) with rfl | rfl <;> decide
  · intro p hp _ t ht
    simp only [soloCommand, demoArgs, List.mem_cons, List.not_mem_nil, or_false] at hp
    rcases hp with rfl | rfl | rfl | rfl | rfl | rfl | rfl | rfl | rfl <;> cases ht <;> exact .inl (by decide)

/-- the line is the one of the documentation -/
example : commandLine (fun _ => false) (soloCommand "spi") =
    ["--index", "spi", "--periodicity", "monthly", "--scales", "1", "--calibration_start_year", "2000", "--calibration_end_year", "2004", "--netcdf_precip", "p.nc", "--var_name_precip", "prcp",
      "--netcdf_temp", "t.nc", "--var_name_temp", "tavg", "--output_file_base", "out", "--multiprocessing", "single", "--chunksizes", "none"] := by decide +kernel

theorem solo_fit (m : ℕ) (hm : m < 12) : ¬ Unfit steps5 1 m 2000 2000 2004 := by
  rintro ⟨_, h⟩
  have e2 : ((2000 : ℤ) - 2000).toNat = 0 := rfl
  have e3 : ((2004 : ℤ) - 2000 + 1).toNat = 5 := rfl
  rw [e2, e3, sample_steps5 m hm] at h
  exact not_allButOne_steps5 h

/-- C114 for that line: the file `out_spi_gamma_01.nc` has the published index of 4 mm, with the probability of zero 1/5, in January 2003 -/
example (T : Trig (Fl ℝ)) (cmp : CoordCmp (Fl ℝ)) (toInt : String → Option Int) (ht : ∀ n : Int, toInt (toString n) = some n) :
    ∃ w' file y, mainTool realExt T toInt 1 id pairYear cmp (commandLine (fun _ => false) (soloCommand "spi")) soloWorld = (.ended (.ok ()), w') ∧
      w'.written = [("out_spi_pearson_01.nc", "spi_pearson_01"), ("out_spi_gamma_01.nc", "spi_gamma_01")] ∧ w'.files "out_spi_gamma_01.nc" = some file ∧ ("spi_gamma_01", y) ∈ file ∧
      y.shape = [1, 1, 60] ∧
      y.data[36]? = some (.fin (clamp (index (fun v a b => gammaP a (v / b)) (fun q => 8 * (q - 1 / 2)) (1 / 5) [0, 1, 2, 4, 8] 4))) := by
  obtain ⟨w', h1, h2, _, h4⟩ := C114_spi realExt realExt_nan realExt_real (fun v a b => gammaP a (v / b)) (fun v _ _ _ => v / (v + 1)) (fun q => 8 * (q - 1 / 2)) realExt_G (by
      intro v sk loc sc hv _ _
      refine ⟨?_, by positivity, by rw [div_lt_one (by linarith)]; linarith⟩
      show (if v ≤ 0 then Fl.fin 0 else Fl.fin (v / (v + 1))) = _
      rw [if_neg (by linarith)]) realExt_Φ T toInt ht 1 id pairYear cmp (fun _ => false) (soloCommand "spi") (solo_writable (by decide)) rfl 2000 2004 rfl rfl (by decide) soloWorld
    (solo_monthly "spi" [1]) rfl steps5_nonneg [1] rfl (by decide) le_rfl (by norm_num) (by norm_num [yearsOf]) (by
      intro s hs i hi k hk m hm
      obtain rfl : s = 1 := by simpa using hs
      obtain rfl : i = 0 := by omega
      obtain rfl : k = 0 := by omega
      rw [solo_series]
      exact solo_fit m hm)
  obtain ⟨⟨file, y, g1, g2, _, g4, _, g6⟩, _⟩ := h4 1 (by decide)
  have hn : "spi_gamma_" ++ twoDigits 1 = "spi_gamma_01" := by decide +kernel
  rw [hn] at g1 g2
  refine ⟨w', file, y, h1, ?_, ?_, g2, g4, ?_⟩
  · rw [h2]
    show [] ++ entries "out" (spiOutputs [1]) = _
    decide +kernel
  · rw [← g1]
    rfl
  · have hg := g6 0 (by decide) 0 (by decide)
    beta_reduce at hg
    rw [solo_series] at hg
    have hser : seriesAt 1 60 0 0 y.data = y.data.take 60 := rfl
    have hv := (hg.2 36 (by rw [steps5_length]; norm_num)).2.2 4 (by rw [accum_steps5 36 (by omega)]; norm_num) (by norm_num)
    have e2 : ((2000 : ℤ) - 2000).toNat = 0 := rfl
    have e3 : ((2004 : ℤ) - 2000 + 1).toNat = 5 := rfl
    have e4 : yearsOf steps5.length 12 = 5 := by rw [steps5_length]; norm_num [yearsOf]
    have e5 : 36 % 12 = 0 := rfl
    rw [e2, e3, e4, e5, sample_steps5 0 (by omega)] at hv
    simp only [wet_steps5] at hv
    have := hv ⟨1, by simp, 2, by simp, by norm_num⟩
    rw [hser, List.getElem?_take_of_lt (by omega)] at this
    rw [this]
    have hd : dry [0, 1, 2, 4, 8] = 1 := by unfold dry; norm_num
    rw [hd]
    norm_num

/-- C114 for the percentage of normal of the same place: 4 mm of 3 mm in January 2003 -/
example (T : Trig (Fl ℝ)) (cmp : CoordCmp (Fl ℝ)) (toInt : String → Option Int) (ht : ∀ n : Int, toInt (toString n) = some n) :
    ∃ w' file y, mainTool realExt T toInt 1 id pairYear cmp (commandLine (fun _ => false) (soloCommand "pnp")) soloWorld = (.ended (.ok ()), w') ∧
      w'.files "out_pnp_01.nc" = some file ∧ ("pnp_01", y) ∈ file ∧ y.data[36]? = some (.fin (4 / 3)) := by
  obtain ⟨w', h1, _, _, h4⟩ := C114_pnp realExt realExt_nan T toInt ht 1 id pairYear cmp (fun _ => false) (soloCommand "pnp") (solo_writable (by decide)) rfl 2000 2004 rfl rfl (by decide) soloWorld
    (solo_monthly "pnp" [1]) rfl [1] rfl (by decide) le_rfl (by norm_num) (by norm_num)
  obtain ⟨file, y, g1, g2, _, _, _, g6⟩ := h4 1 (by decide)
  have hn : "pnp_" ++ twoDigits 1 = "pnp_01" := by decide +kernel
  rw [hn] at g1 g2
  refine ⟨w', file, y, h1, ?_, g2, ?_⟩
  · rw [← g1]
    rfl
  · have hg := g6 0 (by decide) 0 (by decide)
    beta_reduce at hg
    rw [solo_series] at hg
    have hser : seriesAt 1 60 0 0 y.data = y.data.take 60 := rfl
    have hv := hg.2 36 (by rw [steps5_length]; norm_num)
    have e2 : ((2000 : ℤ) - 2000).toNat = 0 := rfl
    have e3 : ((2004 : ℤ) - 2000 + 1).toNat = 5 := rfl
    have e5 : 36 % 12 = 0 := rfl
    have hm : mean [0, 1, 2, 4, 8] = 3 := by unfold mean; norm_num
    rw [e2, e3, e5, sample_steps5 0 (by omega), accum_steps5 36 (by omega), hser, List.getElem?_take_of_lt (by omega)] at hv
    rw [hv, hm]
    norm_num

end CI.Props
