import Verif.Props.CliLiveSpei
import Verif.Props.EndToEnd
import Verif.Props.SpeiValue

/-!
# C116 exactly, and C114 for SPEI: from the command line to the index of the water balance in the files
-/

namespace CI.Props

open CI FloatOps FloatLaws Spec Spec.McKee

/-! ## Specification -/

/-- the month `c` of the water balance of precipitation `p` and evapotranspiration `e` is one for which the Pearson fit fails: at least four accumulated balances in the calibration years, and all but
one are the same -/
def UnfitBalance (p e : List (Option ℝ)) (k c : ℕ) (ds cs ce : ℤ) : Prop :=
  4 ≤ (sample (waterBalance p e) k 12 c (cs - ds).toNat (ce - cs + 1).toNat).length ∧ AllButOne (sample (waterBalance p e) k 12 c (cs - ds).toNat (ce - cs + 1).toNat)

/-- the Pearson index of the accumulated water balance: no value where there is no accumulation, else the normal quantile of the probability for the Pearson distribution with the L-moments of the
balances of the calendar month in the calibration years (at least four), for balances inside the distribution -/
def SpeiPearson (P : ℝ → ℝ → ℝ → ℝ → ℝ) (Φ : ℝ → ℝ) (p e : List (Option ℝ)) (k : ℕ) (ds cs ce : ℤ) (out : List (Fl ℝ)) : Prop :=
  out.length = p.length ∧ (∀ t < p.length, accum (waterBalance p e) k t = none → out[t]? = some .nan) ∧
    ∀ c < 12, let s := sample (waterBalance p e) k 12 c (cs - ds).toNat (ce - cs + 1).toNat
      4 ≤ s.length →
      ∃ sc sk, 0 < sc ∧ Pearson3.lscale sc sk = pairDiff s / (s.length * (s.length - 1)) / 2 ∧
        ∀ t v, t % 12 = c → accum (waterBalance p e) k t = some v → Pearson3.Inside (mean s) sc sk v → out[t]? = some (.fin (clamp (Φ (P v sk (mean s) sc))))

/-- the gamma index of the accumulated water balance raised by 1000 mm per month -/
def SpeiGamma (G : ℝ → ℝ → ℝ → ℝ) (Φ : ℝ → ℝ) (p e : List (Option ℝ)) (k : ℕ) (ds cs ce : ℤ) (out : List (Fl ℝ)) : Prop :=
  out.length = p.length ∧ (∀ t < p.length, accum (waterBalance p e) k t = none → out[t]? = some .nan) ∧
    ∀ t v, accum (waterBalance p e) k t = some v →
      let s := (sample (waterBalance p e) k 12 (t % 12) (cs - ds).toNat (ce - cs + 1).toNat).map (· + (k : ℝ) * 1000)
      (∃ a ∈ s, ∃ b ∈ s, a ≠ b) → out[t]? = some (.fin (clamp (Φ (G (v + k * 1000) (shape s) (scale s)))))

/-! ## The index of a record -/

/-- without any balance there is a result, without any value -/
theorem spei_missing (E : Ext (Fl ℝ)) (p e : List (Option ℝ)) (hp : ∀ a, some a ∈ p → 0 ≤ a) (hl : p.length = e.length) (hs : ¬ ∃ a, some a ∈ waterBalance p e) (k : ℕ) (h1 : 1 ≤ k) (h2 : k ≤ p.length)
    (dist : Distribution) (hd : dist = .pearson ∨ dist = .gamma) (per : Periodicity) (ds cs ce : ℤ) :
    ∃ out, spei E (Arr.of1d (p.map toFl)) (Arr.of1d (e.map toFl)) k dist per ds cs ce none = .ok out ∧ out.data.length = p.length ∧ ∀ t < p.length, out.data[t]? = some .nan := by
  by_cases hall : allNan (Arr.of1d (p.map toFl)).data = true
  · refine ⟨Arr.of1d (p.map toFl), ?_, by simp [Arr.of1d], fun t ht => ?_⟩
    · unfold spei
      rw [if_pos hall]
    · have hx : ¬ ∃ a, some a ∈ p := by
        rintro ⟨a, ha⟩
        unfold allNan at hall
        have := List.all_eq_true.1 hall (toFl (some a)) (List.mem_map.2 ⟨_, ha, rfl⟩)
        exact absurd this (by rw [show isNan (toFl (some a)) = false from rfl]; decide)
      exact missing_get hx ht
  have hlen : (waterBalance p e).length = p.length := waterBalance_length p e hl
  obtain ⟨s, e1, e2, e3⟩ := scaled_toFl (raised 1000 (waterBalance p e)) k h1 (by rw [raised_length, hlen]; exact h2)
  rw [raised_length, hlen] at e2 e3
  have hnone : ¬ ∃ a, some a ∈ raised 1000 (waterBalance p e) := by
    rintro ⟨a, ha⟩
    exact hs ⟨_, raised_mem.1 ha⟩
  have e4 : s = List.replicate p.length nan := by
    have := e3 0
    rw [List.replicate_zero, List.append_nil] at this
    rw [this, List.eq_replicate_iff]
    refine ⟨by simp, fun y hy => ?_⟩
    obtain ⟨t, _, rfl⟩ := List.mem_map.1 hy
    rw [accum_missing hnone k t h1]
    rfl
  have hnan : allNan (Arr.of1d s).data = true := by
    rw [e4]
    unfold allNan
    rw [List.all_eq_true]
    intro v hv
    rw [List.eq_of_mem_replicate hv]
    exact isNan_nan
  have hclip : ∀ x ∈ p.map toFl, flt x (lit 0) = false := by
    intro v hv
    obtain ⟨o, ho, rfl⟩ := List.mem_map.1 hv
    cases o with
    | none => exact (by rw [show toFl none = nan from rfl]; simp : flt (toFl none) (lit 0) = false)
    | some a =>
      show flt (Fl.fin a) _ = false
      rw [Fl.lit_def, Fl.flt_fin]
      simpa using hp a ho
  have hne : p.map toFl ≠ [] := by
    intro h
    apply hall
    show allNan (p.map toFl) = true
    rw [h]
    rfl
  obtain ⟨m, hm⟩ : ∃ m, amin (p.map toFl) = .ok m := by
    unfold amin
    cases h : p.map toFl with
    | nil => exact absurd h hne
    | cons a l =>
      simp only []
      split <;> exact ⟨_, rfl⟩
  have hpc : (if flt m (lit 0) then (p.map toFl).map (npClipMin (lit 0)) else p.map toFl) = p.map toFl := by
    split
    · refine (List.map_congr_left (fun v hv => ?_)).trans (List.map_id _)
      unfold npClipMin
      split
      · rfl
      · rw [if_neg (by rw [hclip v hv]; decide)]; rfl
    · rfl
  refine ⟨Arr.of1d (clipFlattenTruncate (Arr.of1d s) p.length), ?_, ?_, fun t ht => ?_⟩
  · unfold spei
    rw [if_neg hall, if_neg (by simp [Arr.of1d, hl])]
    have hd1 : ∀ l : List (Fl ℝ), (Arr.of1d l).data = l := fun _ => rfl
    have hn : normFitdict (none : Option (FitDict (Fl ℝ))) = none := rfl
    simp only [hn, hd1, hm, bind, Except.bind, hpc, List.length_map]
    have hb : List.zipWith (fun a b => (a - b) + lit 1000) (p.map toFl) (e.map toFl) = (raised 1000 (waterBalance p e)).map toFl := balance_toFl p e
    rw [hb, e1]
    rcases hd with rfl | rfl
    · simp only [getPearsonArgs, transformFittedPearson, pure, Except.pure, Option.isNone, Bool.and_true, Bool.or_true, Bool.not_true, Bool.and_false, Bool.false_eq_true, if_false, hd1]
      rw [hd1] at hnan
      rw [if_pos hnan]
    · simp only [getGammaArgs, transformFittedGamma, pure, Except.pure, hd1]
      rw [hd1] at hnan
      rw [if_pos hnan]
  · simp [clipFlattenTruncate, Arr.of1d, e4]
  · rw [e4]
    simp [clipFlattenTruncate, Arr.of1d, ht]
    rfl

/-- no value where there is no accumulated balance -/
theorem spei_no_accum (E : Ext (Fl ℝ)) (hE : ExtNan E) (p e : List (Option ℝ)) (hp : ∀ a, some a ∈ p → 0 ≤ a) (hl : p.length = e.length) (hb : ∀ a, some a ∈ waterBalance p e → -1000 ≤ a)
    (hs : ∃ a, some a ∈ waterBalance p e) (k : ℕ) (dist : Distribution) (ds cs ce : ℤ) (out : Arr (Fl ℝ))
    (h : spei E (Arr.of1d (p.map toFl)) (Arr.of1d (e.map toFl)) k dist .monthly ds cs ce none = .ok out) (t : ℕ) (ht : t < p.length) (hn : accum (waterBalance p e) k t = none) :
    out.data[t]? = some .nan := by
  rw [spei_raised E p e hp hl hb hs k dist .monthly (by simp) ds cs ce] at h
  cases hsp : spi E (Arr.of1d ((raised 1000 (waterBalance p e)).map toFl)) k dist ds cs ce .monthly none with
  | error err => rw [hsp] at h; cases h
  | ok o =>
    rw [hsp] at h
    cases h
    have hlen : (raised 1000 (waterBalance p e)).length = p.length := by rw [raised_length, waterBalance_length p e hl]
    have hx : ∃ v ∈ (Arr.of1d ((raised 1000 (waterBalance p e)).map toFl)).data, isNan v = false := by
      obtain ⟨a, ha⟩ := hs
      exact ⟨toFl (some (a + 1000)), List.mem_map.2 ⟨_, raised_mem.2 (by rwa [add_sub_cancel_right]), rfl⟩, rfl⟩
    refine C11_missing E hE _ _ _ ds cs ce .monthly none o hx hsp t (by simpa [Arr.of1d, hlen] using ht) (accum_none (by rw [hlen]; exact ht) ?_)
    rw [accum_raised, hn]
    rfl

/-- the Pearson SPEI of a record -/
theorem speiPearson_of (E : Ext (Fl ℝ)) (hE : ExtNan E) (hR : ExtReal E) (P : ℝ → ℝ → ℝ → ℝ → ℝ) (Φ : ℝ → ℝ)
    (hP : ∀ v sk loc sc, 0 < v → 0 < sc → Pearson3.Inside loc sc sk v →
      E.pearson3Cdf (.fin v) (.fin sk) (.fin loc) (.fin sc) = .fin (P v sk loc sc) ∧ 0 < P v sk loc sc ∧ P v sk loc sc < 1)
    (hloc : ∀ v sk loc sc c, 0 < sc → P (v + c) sk (loc + c) sc = P v sk loc sc)
    (hΦ : ∀ q, 0 < q → q < 1 → E.normPpf (.fin q) = .fin (Φ q))
    (p e : List (Option ℝ)) (hp : ∀ a, some a ∈ p → 0 ≤ a) (hl : p.length = e.length) (hb : ∀ a, some a ∈ waterBalance p e → -999.9995 ≤ a)
    (k : ℕ) (h1 : 1 ≤ k) (h2 : k ≤ p.length) (ds cs ce : ℤ) (c1 : ds ≤ cs) (c2 : cs ≤ ce) (c3 : ce < ds + yearsOf p.length 12)
    (out : Arr (Fl ℝ)) (h : spei E (Arr.of1d (p.map toFl)) (Arr.of1d (e.map toFl)) k .pearson .monthly ds cs ce none = .ok out) : SpeiPearson P Φ p e k ds cs ce out.data := by
  by_cases hs : ∃ a, some a ∈ waterBalance p e
  · have hlen := spei_size E hE _ _ _ _ _ _ _ _ _ _ h
    refine ⟨by simpa [Arr.of1d] using hlen, fun t ht hn => ?_, fun c hc => C115_pearson E hE hR P Φ hP hloc hΦ p e hp hl hb hs k h1 h2 .monthly (by decide) ds cs ce c1 c2 c3 out h c hc⟩
    exact spei_no_accum E hE p e hp hl (fun a ha => by linarith [hb a ha]) hs k .pearson ds cs ce out h t ht hn
  · obtain ⟨out', g1, g2, g3⟩ := spei_missing E p e hp hl hs k h1 h2 .pearson (.inl rfl) .monthly ds cs ce
    rw [h] at g1
    cases g1
    refine ⟨g2, fun t ht _ => g3 t ht, ?_⟩
    intro c hc s h4
    have : s = [] := sample_missing _ hs k 12 c _ _ h1
    rw [this] at h4
    simp at h4

/-- the gamma SPEI of a record -/
theorem speiGamma_of (E : Ext (Fl ℝ)) (hE : ExtNan E) (hR : ExtReal E) (G : ℝ → ℝ → ℝ → ℝ) (Φ : ℝ → ℝ)
    (hG : ∀ v a b, 0 < v → 0 < a → 0 < b → E.gammaCdf (.fin v) (.fin a) (.fin b) = .fin (G v a b) ∧ 0 < G v a b ∧ G v a b < 1)
    (hΦ : ∀ q, 0 < q → q < 1 → E.normPpf (.fin q) = .fin (Φ q))
    (p e : List (Option ℝ)) (hp : ∀ a, some a ∈ p → 0 ≤ a) (hl : p.length = e.length) (hb : ∀ a, some a ∈ waterBalance p e → -999.9995 ≤ a)
    (k : ℕ) (h1 : 1 ≤ k) (h2 : k ≤ p.length) (ds cs ce : ℤ) (c1 : ds ≤ cs) (c2 : cs ≤ ce) (c3 : ce < ds + yearsOf p.length 12)
    (out : Arr (Fl ℝ)) (h : spei E (Arr.of1d (p.map toFl)) (Arr.of1d (e.map toFl)) k .gamma .monthly ds cs ce none = .ok out) : SpeiGamma G Φ p e k ds cs ce out.data := by
  by_cases hs : ∃ a, some a ∈ waterBalance p e
  · obtain ⟨out', g1, g2, g3⟩ := C115_gamma E hE hR G Φ hG hΦ p e hp hl (fun a ha => by linarith [hb a ha]) hs k h1 h2 .monthly (by simp) ds cs ce c1 c2 c3
    rw [h] at g1
    cases g1
    exact ⟨g2, fun t ht hn => spei_no_accum E hE p e hp hl (fun a ha => by linarith [hb a ha]) hs k .gamma ds cs ce out h t ht hn, g3⟩
  · obtain ⟨out', g1, g2, g3⟩ := spei_missing E p e hp hl hs k h1 h2 .gamma (.inr rfl) .monthly ds cs ce
    rw [h] at g1
    cases g1
    refine ⟨g2, fun t ht _ => g3 t ht, ?_⟩
    intro t v hv
    rw [accum_missing hs k t h1] at hv
    cases hv

/-- when the SPEI of a record can be computed -/
theorem resultFor_spei (E : Ext (Fl ℝ)) (hE : ExtNan E) (hR : ExtReal E) (p e : List (Option ℝ)) (hp : ∀ a, some a ∈ p → 0 ≤ a) (hl : p.length = e.length)
    (hb : ∀ a, some a ∈ waterBalance p e → -999.9995 ≤ a) (k : ℕ) (h1 : 1 ≤ k) (h2 : k ≤ p.length) (ds cs ce : ℤ) (c1 : ds ≤ cs) (c2 : cs ≤ ce) (c3 : ce < ds + yearsOf p.length 12) :
    ((∃ r, resultFor₂ E cs ce ds (.spei .pearson k) (p.map toFl) (e.map toFl) = .ok r) ↔ ∀ c < 12, ¬ UnfitBalance p e k c ds cs ce) ∧
      ∃ r, resultFor₂ E cs ce ds (.spei .gamma k) (p.map toFl) (e.map toFl) = .ok r := by
  have lift : ∀ dist, (∃ out, spei E (Arr.of1d (p.map toFl)) (Arr.of1d (e.map toFl)) k dist .monthly ds cs ce none = .ok out) →
      ∃ r, resultFor₂ E cs ce ds (.spei dist k) (p.map toFl) (e.map toFl) = .ok r := by
    rintro dist ⟨out, ho⟩
    exact ⟨out.data, by unfold resultFor₂; simp only [ho]; rfl⟩
  by_cases hs : ∃ a, some a ∈ waterBalance p e
  · refine ⟨⟨?_, fun h => lift .pearson ?_⟩, lift .gamma ?_⟩
    · rintro ⟨r, hr⟩ c hc ⟨u1, u2⟩
      have := (C115_refused E hR p e hp hl hb hs k h1 h2 .monthly (by simp) ds cs ce c1 c2 c3).2 ⟨c, hc, u1, u2⟩
      unfold resultFor₂ at hr
      simp only [this] at hr
      cases hr
    · obtain ⟨out, ho, _⟩ := C115_defined E hR p e hp hl hb hs k h1 h2 .monthly (by simp) ds cs ce c1 c2 c3 (fun c hc u1 u2 => h c hc ⟨u1, u2⟩)
      exact ⟨out, ho⟩
    · have hx : ∃ v ∈ (Arr.of1d ((raised 1000 (waterBalance p e)).map toFl)).data, isNan v = false := by
        obtain ⟨a, ha⟩ := hs
        exact ⟨toFl (some (a + 1000)), List.mem_map.2 ⟨_, raised_mem.2 (by rwa [add_sub_cancel_right]), rfl⟩, rfl⟩
      obtain ⟨out, ho, _⟩ := C10_gamma E (Arr.of1d ((raised 1000 (waterBalance p e)).map toFl)) k ds cs ce .monthly (.inl rfl) (.inl rfl) (by exact_mod_cast h1) hx
      rw [spei_raised E p e hp hl (fun a ha => by linarith [hb a ha]) hs k .gamma .monthly (by simp) ds cs ce, ho]
      exact ⟨_, rfl⟩
  · refine ⟨⟨fun _ c hc hbad => ?_, fun _ => lift .pearson ?_⟩, lift .gamma ?_⟩
    · have := hbad.1
      rw [sample_missing _ hs k 12 c _ _ h1] at this
      simp at this
    · obtain ⟨out, ho, _⟩ := spei_missing E p e hp hl hs k h1 h2 .pearson (.inl rfl) .monthly ds cs ce
      exact ⟨out, ho⟩
    · obtain ⟨out, ho, _⟩ := spei_missing E p e hp hl hs k h1 h2 .gamma (.inr rfl) .monthly ds cs ce
      exact ⟨out, ho⟩

/-! ## C116 exactly -/

/-- the places of the PET file have as many steps as the time axis -/
theorem pet_length {lower : String → String} {yearOf : Fl ℝ → Int} {cmp : CoordCmp (Fl ℝ)} {a : CliArgs} {w : World (Fl ℝ)} {f v fe ve : String} {d de : NcFile (Fl ℝ)} {x xe : NcVar (Fl ℝ)} {A b n : Nat}
    {mm : List (Fl ℝ)} {pet : List (Option ℝ)} {y0 y1 : Int} (hM : Monthly lower yearOf a w f v d x A b n mm y0 y1) (hP : PetFile lower cmp a w d x v fe ve de xe (pet.map toFl)) {i k : Nat}
    (hi : i < A) (hk : k < b) : (seriesAt b n i k pet).length = n := by
  obtain ⟨u, hu, hc⟩ := hP.units
  obtain ⟨it, hl⟩ : ∃ it, IsLayout it xe.shape A b n := by
    rw [hP.shape]
    rcases hM.layout with ⟨_, h⟩ | ⟨_, h, hb⟩
    · exact ⟨.grid, .inl ⟨rfl, h⟩⟩
    · exact ⟨.divisions, .inr ⟨rfl, h, hb⟩⟩
  have := seriesAt_len hl (by rw [convert_length.2.2 hc]; exact hP.input.wf) hi hk
  rw [seriesAt_toFl, List.length_map] at this
  exact this

/-- the water balance of the grid lies at every place above the offset -/
def Balanced (b n A : Nat) (vals pet : List (Option ℝ)) : Prop :=
  ∀ i < A, ∀ k < b, ∀ u, some u ∈ waterBalance (seriesAt b n i k vals) (seriesAt b n i k pet) → -999.9995 ≤ u

/-- **C116, exactly, SPEI.** In exact arithmetic, for precipitation that is not negative, a water balance not below −999.9995 mm, scales between 1 and the length of the record and a calibration period
inside the record: the run for SPEI ends without exception exactly if no calendar month of any place at any scale has a calibration sample of the accumulated water balance (at least four) of which all
but one are equal. -/
theorem C116_spei_exact (E : Ext (Fl ℝ)) (hE : ExtNan E) (hR : ExtReal E) (T : Trig (Fl ℝ)) (cs ce : Int) (wk : Nat) (hwk : 1 ≤ wk) (lower : String → String) (yearOf : Fl ℝ → Int) (cmp : CoordCmp (Fl ℝ))
    (a : CliArgs) (w : World (Fl ℝ)) (hi : a.index = "spei") {f v fe ve : String} {d de : NcFile (Fl ℝ)} {x xe : NcVar (Fl ℝ)} {A b n : Nat} {vals pet : List (Option ℝ)} {y0 y1 : Int}
    (hM : Monthly lower yearOf a w f v d x A b n (vals.map toFl) y0 y1) (hP : PetFile lower cmp a w d x v fe ve de xe (pet.map toFl)) (hpos : ∀ u, some u ∈ vals → 0 ≤ u)
    (hbal : Balanced b n A vals pet) (hfresh : w.shared "result_array" = none) (scales : List Nat)
    (hs : a.scales = some (scales.map Int.ofNat)) (hsc : ∀ s ∈ scales, 1 ≤ s ∧ s ≤ n) (c1 : y0 ≤ cs) (c2 : cs ≤ ce) (c3 : ce < y0 + yearsOf n 12) :
    (∃ w', processIndices (indexFunction E T cs ce) wk lower yearOf cmp a w = (.ok (), w')) ↔
      ∀ s ∈ scales, ∀ i < A, ∀ k < b, ∀ c < 12, ¬ UnfitBalance (seriesAt b n i k vals) (seriesAt b n i k pet) s c y0 cs ce := by
  obtain ⟨res, w', h1, h2, _⟩ := C116_run E hE T cs ce wk hwk lower yearOf cmp a w (.inl hi) hM hP hfresh scales hs
  have hmem : ∀ i k u, some u ∈ seriesAt b n i k vals → 0 ≤ u := fun i k u hu => hpos u (List.mem_of_mem_drop (List.mem_of_mem_take hu))
  have hpl : ∀ s ∈ scales, ∀ i (hi' : i < A) k (hk : k < b), _ := fun s hs' i hi' k hk =>
    resultFor_spei E hE hR (seriesAt b n i k vals) (seriesAt b n i k pet) (hmem i k) (by rw [place_length hM hi' hk, pet_length hM hP hi' hk]) (hbal i hi' k hk) s (hsc s hs').1
      (by rw [place_length hM hi' hk]; exact (hsc s hs').2) y0 cs ce c1 c2 (by rw [place_length hM hi' hk]; exact c3)
  rw [h1]
  have hdoc : ∀ o, o ∈ documented a.index true scales ↔ ∃ s ∈ scales, o = .spei .pearson s ∨ o = .spei .gamma s := by
    intro o
    rw [hi]
    show o ∈ speiOutputs scales ↔ _
    simp [speiOutputs]
  constructor
  · rintro ⟨w'', hw⟩
    have := h2.1 (Prod.ext_iff.1 hw).1
    intro s hs' i hi' k hk
    have := this (.spei .pearson s) ((hdoc _).2 ⟨s, hs', .inl rfl⟩) i hi' k hk
    rw [seriesAt_toFl, seriesAt_toFl] at this
    exact (hpl s hs' i hi' k hk).1.1 this
  · intro h
    have hall : ∀ o ∈ documented a.index true scales, Computable₂ E cs ce y0 (vals.map toFl) (pet.map toFl) A b n o := by
      intro o ho i hi' k hk
      obtain ⟨s, hs', rfl | rfl⟩ := (hdoc o).1 ho
      · rw [seriesAt_toFl, seriesAt_toFl]
        exact (hpl s hs' i hi' k hk).1.2 (h s hs' i hi' k hk)
      · rw [seriesAt_toFl, seriesAt_toFl]
        exact (hpl s hs' i hi' k hk).2
    exact ⟨w', by rw [h2.2 hall]⟩

/-- the outputs of a run for all scaled indices -/
theorem mem_scaled {index : String} (hi : index = "scaled") (scales : List Nat) (o : Output) : o ∈ documented index true scales ↔
    ∃ s ∈ scales, o = .spi .pearson s ∨ o = .spi .gamma s ∨ o = .spei .pearson s ∨ o = .spei .gamma s ∨ o = .pnp s := by
  subst hi
  have : documented "scaled" true scales = spiOutputs scales ++ petOutputs true ++ speiOutputs scales ++ pnpOutputs scales := rfl
  have hpet : petOutputs true = [] := rfl
  rw [this, hpet, List.append_nil]
  simp only [List.mem_append, spiOutputs, speiOutputs, pnpOutputs, List.mem_flatMap, List.mem_map, List.mem_cons, List.not_mem_nil, or_false]
  constructor
  · rintro ((⟨s, hs, h | h⟩ | ⟨s, hs, h | h⟩) | ⟨s, hs, h⟩) <;> exact ⟨s, hs, by simp [h]⟩
  · rintro ⟨s, hs, h | h | h | h | h⟩
    · exact .inl (.inl ⟨s, hs, .inl h⟩)
    · exact .inl (.inl ⟨s, hs, .inr h⟩)
    · exact .inl (.inr ⟨s, hs, .inl h⟩)
    · exact .inl (.inr ⟨s, hs, .inr h⟩)
    · exact .inr ⟨s, hs, h.symm⟩

/-- **C116, exactly, all scaled indices.** Under the same conditions the run for all scaled indices (SPI, SPEI, percentage of normal) ends without exception exactly if, in addition, the Pearson fit of
the precipitation itself is possible everywhere. -/
theorem C116_scaled_exact (E : Ext (Fl ℝ)) (hE : ExtNan E) (hR : ExtReal E) (T : Trig (Fl ℝ)) (cs ce : Int) (wk : Nat) (hwk : 1 ≤ wk) (lower : String → String) (yearOf : Fl ℝ → Int) (cmp : CoordCmp (Fl ℝ))
    (a : CliArgs) (w : World (Fl ℝ)) (hi : a.index = "scaled") {f v fe ve : String} {d de : NcFile (Fl ℝ)} {x xe : NcVar (Fl ℝ)} {A b n : Nat} {vals pet : List (Option ℝ)} {y0 y1 : Int}
    (hM : Monthly lower yearOf a w f v d x A b n (vals.map toFl) y0 y1) (hP : PetFile lower cmp a w d x v fe ve de xe (pet.map toFl)) (hpos : ∀ u, some u ∈ vals → 0 ≤ u)
    (hbal : Balanced b n A vals pet) (hfresh : w.shared "result_array" = none) (scales : List Nat)
    (hs : a.scales = some (scales.map Int.ofNat)) (hsc : ∀ s ∈ scales, 1 ≤ s ∧ s ≤ n) (c1 : y0 ≤ cs) (c2 : cs ≤ ce) (c3 : ce < y0 + yearsOf n 12) (c4 : (ce - cs + 1) * 12 ≤ n) :
    (∃ w', processIndices (indexFunction E T cs ce) wk lower yearOf cmp a w = (.ok (), w')) ↔
      ∀ s ∈ scales, ∀ i < A, ∀ k < b, ∀ c < 12, ¬ Unfit (seriesAt b n i k vals) s c y0 cs ce ∧ ¬ UnfitBalance (seriesAt b n i k vals) (seriesAt b n i k pet) s c y0 cs ce := by
  obtain ⟨res, w', h1, h2, _⟩ := C116_run E hE T cs ce wk hwk lower yearOf cmp a w (.inr hi) hM hP hfresh scales hs
  have hmem : ∀ i k u, some u ∈ seriesAt b n i k vals → 0 ≤ u := fun i k u hu => hpos u (List.mem_of_mem_drop (List.mem_of_mem_take hu))
  have hpl : ∀ s ∈ scales, ∀ i (hi' : i < A) k (hk : k < b), _ := fun s hs' i hi' k hk =>
    resultFor_spei E hE hR (seriesAt b n i k vals) (seriesAt b n i k pet) (hmem i k) (by rw [place_length hM hi' hk, pet_length hM hP hi' hk]) (hbal i hi' k hk) s (hsc s hs').1
      (by rw [place_length hM hi' hk]; exact (hsc s hs').2) y0 cs ce c1 c2 (by rw [place_length hM hi' hk]; exact c3)
  have hpl' : ∀ s ∈ scales, ∀ i (hi' : i < A) k (hk : k < b), _ := fun s hs' i hi' k hk =>
    resultFor_spi E hR (seriesAt b n i k vals) (hmem i k) s (hsc s hs').1 (by rw [place_length hM hi' hk]; exact (hsc s hs').2) y0 cs ce c1 c2 (by rw [place_length hM hi' hk]; exact c3)
  rw [h1]
  have hdoc := mem_scaled hi scales
  constructor
  · rintro ⟨w'', hw⟩
    have := h2.1 (Prod.ext_iff.1 hw).1
    intro s hs' i hi' k hk c hc
    have t1 := this (.spei .pearson s) ((hdoc _).2 ⟨s, hs', by simp⟩) i hi' k hk
    have t2 := this (.spi .pearson s) ((hdoc _).2 ⟨s, hs', by simp⟩) i hi' k hk
    rw [seriesAt_toFl, seriesAt_toFl] at t1 t2
    exact ⟨(hpl' s hs' i hi' k hk).1.1 t2 c hc, (hpl s hs' i hi' k hk).1.1 t1 c hc⟩
  · intro h
    have hall : ∀ o ∈ documented a.index true scales, Computable₂ E cs ce y0 (vals.map toFl) (pet.map toFl) A b n o := by
      intro o ho i hi' k hk
      rw [seriesAt_toFl, seriesAt_toFl]
      obtain ⟨s, hs', rfl | rfl | rfl | rfl | rfl⟩ := (hdoc o).1 ho
      · exact (hpl' s hs' i hi' k hk).1.2 (fun c hc => (h s hs' i hi' k hk c hc).1)
      · exact (hpl' s hs' i hi' k hk).2
      · exact (hpl s hs' i hi' k hk).1.2 (fun c hc => (h s hs' i hi' k hk c hc).2)
      · exact (hpl s hs' i hi' k hk).2
      · exact (resultFor_pnp E _ s y0 cs ce).2 ⟨c1, by rw [List.length_map, place_length hM hi' hk]; exact c4, .inr (by rw [List.length_map, place_length hM hi' hk]; exact hsc s hs')⟩
    exact ⟨w', by rw [h2.2 hall]⟩

/-! ## C114 for SPEI -/

open Classical in
/-- what is known of the run of a command line with a PET file -/
theorem run_of_line₂ (E : Ext (Fl ℝ)) (hE : ExtNan E) (T : Trig (Fl ℝ)) (toInt : String → Option Int) (ht : ∀ n : Int, toInt (toString n) = some n) (cpus : Nat) (lower : String → String)
    (yearOf : Fl ℝ → Int) (cmp : CoordCmp (Fl ℝ)) (j : String → Bool) (c : MainCommand) (hc : Writable j c) (hi : c.args.index = "spei" ∨ c.args.index = "scaled") (cs ce : Int)
    (hcs : c.calibrationStart = some cs) (hce : c.calibrationEnd = some ce) (hcpu : 1 ≤ numberOfWorkers c.multiprocessing cpus) (w : World (Fl ℝ)) {f v fe ve : String} {d de : NcFile (Fl ℝ)}
    {x xe : NcVar (Fl ℝ)} {A b n : Nat} {vals pet : List (Option ℝ)} {y0 y1 : Int} (hM : Monthly lower yearOf c.args w f v d x A b n (vals.map toFl) y0 y1)
    (hP : PetFile lower cmp c.args w d x v fe ve de xe (pet.map toFl)) (hfresh : w.shared "result_array" = none) (scales : List Nat)
    (hs : c.args.scales = some (scales.map Int.ofNat)) (hall : ∀ o ∈ documented c.args.index true scales, Computable₂ E cs ce y0 (vals.map toFl) (pet.map toFl) A b n o) :
    ∃ w', mainTool E T toInt cpus lower yearOf cmp (commandLine j c) w = (.ended (.ok ()), w') ∧
      w'.written = w.written ++ entries c.args.outputFileBase (documented c.args.index true scales) ∧
      (∀ g, (∀ o ∈ documented c.args.index true scales, g ≠ fileName c.args.outputFileBase o.name) → w'.files g = w.files g) ∧
      ∀ o ∈ documented c.args.index true scales, FileHolds w'.files (fileName c.args.outputFileBase o.name) o.name d x A b n
        (fun i k l => resultFor₂ E cs ce y0 o ((seriesAt b n i k vals).map toFl) ((seriesAt b n i k pet).map toFl) = .ok l) := by
  rw [C106_given E T toInt cpus lower yearOf cmp (commandLine j c) w c (C105_main toInt ht j c hc) cs ce hcs hce]
  obtain ⟨res, w', h1, h2, h3, h4, h5⟩ := C116_run E hE T cs ce _ hcpu lower yearOf cmp c.args w hi hM hP hfresh scales hs
  have htake : (documented c.args.index true scales).takeWhile (fun o => decide (Computable₂ E cs ce y0 (vals.map toFl) (pet.map toFl) A b n o)) = documented c.args.index true scales := by
    rw [List.takeWhile_eq_self_iff]
    intro o ho
    exact decide_eq_true (hall o ho)
  rw [htake] at h3 h4 h5
  rw [h1]
  refine ⟨w', by rw [h2.2 hall], h3, h5, fun o ho => ?_⟩
  obtain ⟨file, y, g1, g2, ⟨g3, g4⟩, ⟨g5, _⟩, g6⟩ := h4 o ho
  exact ⟨file, y, g1, g2, g3, g5, g4, fun i hi k hk => by
    have := g6 i hi k hk
    beta_reduce at this ⊢
    rwa [seriesAt_toFl, seriesAt_toFl] at this⟩

/-- **C114, SPEI.** The documented command line for SPEI of monthly precipitation and a PET file (any files, names, scales, calibration years inside the record, numbers of workers, separate values or
`=`), in exact arithmetic, for precipitation that is not negative, a water balance not below −999.9995 mm and Pearson fits at all places, scales and months (else no run finishes, C116): the tool
ends without exception, writes exactly two files per scale, `BASE_spei_gamma_NN.nc` and `BASE_spei_pearson_NN.nc`, changes no other file, and at every place the values in these files are the
indices of the accumulated water balance of that place, in millimetres. -/
theorem C114_spei (E : Ext (Fl ℝ)) (hE : ExtNan E) (hR : ExtReal E) (G : ℝ → ℝ → ℝ → ℝ) (P : ℝ → ℝ → ℝ → ℝ → ℝ) (Φ : ℝ → ℝ)
    (hG : ∀ v a b, 0 < v → 0 < a → 0 < b → E.gammaCdf (.fin v) (.fin a) (.fin b) = .fin (G v a b) ∧ 0 < G v a b ∧ G v a b < 1)
    (hPc : ∀ v sk loc sc, 0 < v → 0 < sc → Pearson3.Inside loc sc sk v →
      E.pearson3Cdf (.fin v) (.fin sk) (.fin loc) (.fin sc) = .fin (P v sk loc sc) ∧ 0 < P v sk loc sc ∧ P v sk loc sc < 1)
    (hloc : ∀ v sk loc sc c, 0 < sc → P (v + c) sk (loc + c) sc = P v sk loc sc)
    (hΦ : ∀ q, 0 < q → q < 1 → E.normPpf (.fin q) = .fin (Φ q))
    (T : Trig (Fl ℝ)) (toInt : String → Option Int) (ht : ∀ n : Int, toInt (toString n) = some n) (cpus : Nat) (lower : String → String)
    (yearOf : Fl ℝ → Int) (cmp : CoordCmp (Fl ℝ)) (j : String → Bool) (c : MainCommand) (hc : Writable j c) (hi : c.args.index = "spei") (cs ce : Int)
    (hcs : c.calibrationStart = some cs) (hce : c.calibrationEnd = some ce) (hcpu : 1 ≤ numberOfWorkers c.multiprocessing cpus) (w : World (Fl ℝ)) {f v fe ve : String} {d de : NcFile (Fl ℝ)}
    {x xe : NcVar (Fl ℝ)} {A b n : Nat} {vals pet : List (Option ℝ)} {y0 y1 : Int} (hM : Monthly lower yearOf c.args w f v d x A b n (vals.map toFl) y0 y1)
    (hP : PetFile lower cmp c.args w d x v fe ve de xe (pet.map toFl)) (hfresh : w.shared "result_array" = none)
    (hpos : ∀ u, some u ∈ vals → 0 ≤ u) (hbal : Balanced b n A vals pet) (scales : List Nat) (hs : c.args.scales = some (scales.map Int.ofNat)) (hsc : ∀ s ∈ scales, 1 ≤ s ∧ s ≤ n) (c1 : y0 ≤ cs)
    (c2 : cs ≤ ce) (c3 : ce < y0 + yearsOf n 12)
    (hfit : ∀ s ∈ scales, ∀ i < A, ∀ k < b, ∀ m < 12, ¬ UnfitBalance (seriesAt b n i k vals) (seriesAt b n i k pet) s m y0 cs ce) :
    ∃ w', mainTool E T toInt cpus lower yearOf cmp (commandLine j c) w = (.ended (.ok ()), w') ∧
      w'.written = w.written ++ entries c.args.outputFileBase (speiOutputs scales) ∧
      (∀ g, (∀ o ∈ speiOutputs scales, g ≠ fileName c.args.outputFileBase o.name) → w'.files g = w.files g) ∧
      ∀ s ∈ scales,
        FileHolds w'.files (c.args.outputFileBase ++ "_" ++ ("spei_gamma_" ++ twoDigits s) ++ ".nc") ("spei_gamma_" ++ twoDigits s) d x A b n
          (fun i k out => SpeiGamma G Φ (seriesAt b n i k vals) (seriesAt b n i k pet) s y0 cs ce out) ∧
        FileHolds w'.files (c.args.outputFileBase ++ "_" ++ ("spei_pearson_" ++ twoDigits s) ++ ".nc") ("spei_pearson_" ++ twoDigits s) d x A b n
          (fun i k out => SpeiPearson P Φ (seriesAt b n i k vals) (seriesAt b n i k pet) s y0 cs ce out) := by
  have hmem : ∀ i k u, some u ∈ seriesAt b n i k vals → 0 ≤ u := fun i k u hu => hpos u (List.mem_of_mem_drop (List.mem_of_mem_take hu))
  have hdoc : documented c.args.index true scales = speiOutputs scales := by rw [hi]; rfl
  have hmo : ∀ o, o ∈ speiOutputs scales ↔ ∃ s ∈ scales, o = .spei .pearson s ∨ o = .spei .gamma s := by
    intro o
    simp [speiOutputs]
  have hpl : ∀ i < A, ∀ k < b, (seriesAt b n i k vals).length = n ∧ (seriesAt b n i k vals).length = (seriesAt b n i k pet).length := fun i hi' k hk =>
    ⟨place_length hM hi' hk, by rw [place_length hM hi' hk, pet_length hM hP hi' hk]⟩
  have hall : ∀ o ∈ documented c.args.index true scales, Computable₂ E cs ce y0 (vals.map toFl) (pet.map toFl) A b n o := by
    rw [hdoc]
    intro o ho i hi' k hk
    obtain ⟨s, hs', ho⟩ := (hmo o).1 ho
    obtain ⟨hl, he⟩ := hpl i hi' k hk
    obtain ⟨r1, r2⟩ := resultFor_spei E hE hR (seriesAt b n i k vals) (seriesAt b n i k pet) (hmem i k) he (hbal i hi' k hk) s (hsc s hs').1 (by rw [hl]; exact (hsc s hs').2) y0 cs ce c1 c2 (by rw [hl]; exact c3)
    rw [seriesAt_toFl, seriesAt_toFl]
    rcases ho with rfl | rfl
    · exact r1.2 (hfit s hs' i hi' k hk)
    · exact r2
  obtain ⟨w', h1, h2, h3, h4⟩ := run_of_line₂ E hE T toInt ht cpus lower yearOf cmp j c hc (.inl hi) cs ce hcs hce hcpu w hM hP hfresh scales hs hall
  rw [hdoc] at h2 h3 h4
  refine ⟨w', h1, h2, h3, fun s hs' => ⟨?_, ?_⟩⟩
  · obtain ⟨file, y, g1, g2, g3, g4, g5, g6⟩ := h4 (.spei .gamma s) ((hmo _).2 ⟨s, hs', .inr rfl⟩)
    have hn : (Output.spei .gamma s).name = "spei_gamma_" ++ twoDigits s := rfl
    rw [hn] at g1 g2
    refine ⟨file, y, g1, g2, g3, g4, g5, fun i hi' k hk => ?_⟩
    obtain ⟨hl, he⟩ := hpl i hi' k hk
    have hr := g6 i hi' k hk
    beta_reduce at hr ⊢
    unfold resultFor₂ at hr
    simp only at hr
    cases ho : spei E (Arr.of1d ((seriesAt b n i k vals).map toFl)) (Arr.of1d ((seriesAt b n i k pet).map toFl)) s .gamma .monthly y0 cs ce none with
    | error err => rw [ho] at hr; cases hr
    | ok o =>
      rw [ho] at hr
      rw [← Except.ok.inj hr]
      exact speiGamma_of E hE hR G Φ hG hΦ _ _ (hmem i k) he (hbal i hi' k hk) s (hsc s hs').1 (by rw [hl]; exact (hsc s hs').2) y0 cs ce c1 c2 (by rw [hl]; exact c3) o ho
  · obtain ⟨file, y, g1, g2, g3, g4, g5, g6⟩ := h4 (.spei .pearson s) ((hmo _).2 ⟨s, hs', .inl rfl⟩)
    have hn : (Output.spei .pearson s).name = "spei_pearson_" ++ twoDigits s := rfl
    rw [hn] at g1 g2
    refine ⟨file, y, g1, g2, g3, g4, g5, fun i hi' k hk => ?_⟩
    obtain ⟨hl, he⟩ := hpl i hi' k hk
    have hr := g6 i hi' k hk
    beta_reduce at hr ⊢
    unfold resultFor₂ at hr
    simp only at hr
    cases ho : spei E (Arr.of1d ((seriesAt b n i k vals).map toFl)) (Arr.of1d ((seriesAt b n i k pet).map toFl)) s .pearson .monthly y0 cs ce none with
    | error err => rw [ho] at hr; cases hr
    | ok o =>
      rw [ho] at hr
      rw [← Except.ok.inj hr]
      exact speiPearson_of E hE hR P Φ hPc hloc hΦ _ _ (hmem i k) he (hbal i hi' k hk) s (hsc s hs').1 (by rw [hl]; exact (hsc s hs').2) y0 cs ce c1 c2 (by rw [hl]; exact c3) o ho

/-! ## A concrete run: 0, 1, 2, 4 and 8 mm of precipitation and 3 mm of evapotranspiration in every month of the years 2000 to 2004 -/

noncomputable def flatVar : NcVar (Fl ℝ) := ⟨["lat", "lon", "time"], [1, 1, 60], some "mm", flatPet.map toFl⟩

noncomputable def flatFile : NcFile (Fl ℝ) :=
  [("pet", flatVar), ("lat", ⟨["lat"], [1], none, [.fin 40]⟩), ("lon", ⟨["lon"], [1], none, [.fin 0]⟩), ("time", ⟨["time"], [60], none, (List.range 60).map (fun i : ℕ => .fin (i : ℝ))⟩)]

noncomputable def duoWorld : World (Fl ℝ) := ⟨fun g => if g = "p.nc" then some soloFile else if g = "e.nc" then some flatFile else none, fun _ => none, []⟩

/-- the arguments: a PET file instead of the temperature -/
def duoArgs (index : String) : CliArgs := { demoArgs index [1] with netcdfTemp := none, varNameTemp := none, netcdfPet := some "e.nc", varNamePet := some "pet" }

theorem duo_monthly (index : String) : Monthly id pairYear (duoArgs index) duoWorld "p.nc" "prcp" soloFile soloVar 1 1 60 (steps5.map toFl) 2000 2004 := by
  have h := solo_monthly index [1]
  exact ⟨⟨rfl, rfl, rfl, rfl, h.input.wf, h.input.reserved, h.input.notOutput⟩, h.layout, h.places, h.coords, h.lats, h.years, h.units, rfl⟩

theorem duo_pet (index : String) (cmp : CoordCmp (Fl ℝ)) (hcmp : ∀ l, cmp.close l l = .ok true ∧ cmp.equal l l = true) :
    PetFile id cmp (duoArgs index) duoWorld soloFile soloVar "prcp" "e.nc" "pet" flatFile flatVar (flatPet.map toFl) := by
  refine ⟨⟨rfl, rfl, rfl, rfl, by simp [flatVar, flatPet], by decide, demo_notOutput _ (by decide)⟩, rfl, rfl, by decide, .inl rfl, ?_, fun c _ y _ => hcmp y.data, ?_, ⟨"mm", rfl, ?_⟩, rfl⟩
  · intro c hc
    rcases (show c = "lat" ∨ c = "lon" ∨ c = "time" by simpa [soloVar] using hc) with rfl | rfl | rfl
    · exact ⟨_, _, rfl, rfl, rfl⟩
    · exact ⟨_, _, rfl, rfl, rfl⟩
    · exact ⟨_, _, rfl, rfl, rfl⟩
  · intro c x y h1 h2 h3 h4
    simp only [soloFile, flatFile, List.mem_cons, Prod.mk.injEq, List.not_mem_nil, or_false] at h1 h2
    rcases h1 with ⟨rfl, rfl⟩ | ⟨rfl, rfl⟩ | ⟨rfl, rfl⟩ | ⟨rfl, rfl⟩
    · exact absurd h3 (by simp [soloVar])
    all_goals
      rcases h2 with ⟨e, rfl⟩ | ⟨e, rfl⟩ | ⟨e, rfl⟩ | ⟨e, rfl⟩
      · exact absurd e (by decide)
      all_goals first | rfl | exact absurd e (by decide)
  · unfold convertPet
    rw [if_pos (by decide)]
    rfl

/-- the command line of the run -/
def duoCommand (index : String) : MainCommand := ⟨duoArgs index, some 2000, some 2004, .single, "none"⟩

theorem duo_writable {index : String} (hi : index ∈ ["spei", "scaled"]) : Writable (fun _ => false) (duoCommand index) := by
  refine ⟨rfl, ?_, (by decide : Periodicity.monthly ≠ .other), (by decide : "none" ∈ ["none", "input"]), ?_⟩
  · show index ∈ _
    rcases (show index = "spei" ∨ index = "scaled" by simpa using hi) with rfl | rfl <;> decide
  · intro p hp _ t ht
    simp only [duoCommand, duoArgs, demoArgs, List.mem_cons, List.not_mem_nil, or_false] at hp
    rcases hp with rfl | rfl | rfl | rfl | rfl | rfl | rfl | rfl | rfl <;> cases ht <;> exact .inl (by decide)

theorem flat_series : seriesAt 1 60 0 0 flatPet = flatPet := by
  unfold seriesAt
  rw [List.take_of_length_le] <;> simp [flatPet]

theorem duo_balanced : Balanced 1 60 1 steps5 flatPet := by
  intro i hi k hk u hu
  obtain rfl : i = 0 := by omega
  obtain rfl : k = 0 := by omega
  rw [solo_series, flat_series, balance_steps5] at hu
  have := steps5_nonneg _ (raised_mem.1 hu)
  linarith

theorem sample_balance (c : ℕ) (hc : c < 12) : sample (waterBalance steps5 flatPet) 1 12 c 0 5 = [0, 1, 2, 4, 8].map (· + ((1 : ℕ) : ℝ) * -3) := by
  rw [balance_steps5, sample_raised, sample_steps5 c hc]

theorem duo_fit (m : ℕ) (hm : m < 12) : ¬ UnfitBalance steps5 flatPet 1 m 2000 2000 2004 := by
  rintro ⟨_, h⟩
  have e2 : ((2000 : ℤ) - 2000).toNat = 0 := rfl
  have e3 : ((2004 : ℤ) - 2000 + 1).toNat = 5 := rfl
  rw [e2, e3, sample_balance m hm, allButOne_raised] at h
  exact not_allButOne_steps5 h

/-- C116 for these files: the runs for SPEI and for all scaled indices end -/
example (T : Trig (Fl ℝ)) (cmp : CoordCmp (Fl ℝ)) (hcmp : ∀ l, cmp.close l l = .ok true ∧ cmp.equal l l = true) :
    (∃ w', processIndices (indexFunction sigmoidExt T 2000 2004) 2 id pairYear cmp (duoArgs "spei") duoWorld = (.ok (), w')) ∧
      ∃ w', processIndices (indexFunction sigmoidExt T 2000 2004) 2 id pairYear cmp (duoArgs "scaled") duoWorld = (.ok (), w') := by
  constructor
  · refine (C116_spei_exact sigmoidExt sigmoidExt_nan sigmoidExt_real T 2000 2004 2 (by decide) id pairYear cmp (duoArgs "spei") duoWorld rfl (duo_monthly _) (duo_pet _ cmp hcmp) steps5_nonneg duo_balanced
      rfl [1] rfl (by decide) le_rfl (by norm_num) (by norm_num [yearsOf])).2 ?_
    intro s hs i hi k hk c hc
    obtain rfl : s = 1 := by simpa using hs
    obtain rfl : i = 0 := by omega
    obtain rfl : k = 0 := by omega
    rw [solo_series, flat_series]
    exact duo_fit c hc
  · refine (C116_scaled_exact sigmoidExt sigmoidExt_nan sigmoidExt_real T 2000 2004 2 (by decide) id pairYear cmp (duoArgs "scaled") duoWorld rfl (duo_monthly _) (duo_pet _ cmp hcmp) steps5_nonneg
      duo_balanced rfl [1] rfl (by decide) le_rfl (by norm_num) (by norm_num [yearsOf]) (by norm_num)).2 ?_
    intro s hs i hi k hk c hc
    obtain rfl : s = 1 := by simpa using hs
    obtain rfl : i = 0 := by omega
    obtain rfl : k = 0 := by omega
    rw [solo_series, flat_series]
    exact ⟨solo_fit c hc, duo_fit c hc⟩

/-- C114 for the line of SPEI: the file `out_spei_gamma_01.nc` has in January 2003 the index of the balance 1 mm, raised by 1000 mm like the five balances of the Januaries -/
example (T : Trig (Fl ℝ)) (cmp : CoordCmp (Fl ℝ)) (hcmp : ∀ l, cmp.close l l = .ok true ∧ cmp.equal l l = true) (toInt : String → Option Int) (ht : ∀ n : Int, toInt (toString n) = some n) :
    ∃ w' file y, mainTool sigmoidExt T toInt 1 id pairYear cmp (commandLine (fun _ => false) (duoCommand "spei")) duoWorld = (.ended (.ok ()), w') ∧
      w'.written = [("out_spei_pearson_01.nc", "spei_pearson_01"), ("out_spei_gamma_01.nc", "spei_gamma_01")] ∧ w'.files "out_spei_gamma_01.nc" = some file ∧ ("spei_gamma_01", y) ∈ file ∧
      y.data[36]? = some (.fin (clamp (8 * (gammaP (shape [997, 998, 999, 1001, 1005]) (1001 / scale [997, 998, 999, 1001, 1005]) - 1 / 2)))) := by
  obtain ⟨w', h1, h2, _, h4⟩ := C114_spei sigmoidExt sigmoidExt_nan sigmoidExt_real (fun v a b => gammaP a (v / b)) sigmoid (fun q => 8 * (q - 1 / 2)) realExt_G (by
      intro v sk loc sc _ hsc _
      refine ⟨?_, sigmoid_range v sk loc sc⟩
      show (if sc = 0 then Fl.nan else Fl.fin (sigmoid v 0 loc sc)) = _
      rw [if_neg hsc.ne']
      rfl) (by
      intro v sk loc sc c _
      unfold sigmoid
      rw [add_sub_add_right_eq_sub]) realExt_Φ T toInt ht 1 id pairYear cmp (fun _ => false) (duoCommand "spei") (duo_writable (by decide)) rfl 2000 2004 rfl rfl (by decide) duoWorld
    (duo_monthly "spei") (duo_pet "spei" cmp hcmp) rfl steps5_nonneg duo_balanced [1] rfl (by decide) le_rfl (by norm_num) (by norm_num [yearsOf]) (by
      intro s hs i hi k hk m hm
      obtain rfl : s = 1 := by simpa using hs
      obtain rfl : i = 0 := by omega
      obtain rfl : k = 0 := by omega
      rw [solo_series, flat_series]
      exact duo_fit m hm)
  obtain ⟨⟨file, y, g1, g2, _, g4, _, g6⟩, _⟩ := h4 1 (by decide)
  have hn : "spei_gamma_" ++ twoDigits 1 = "spei_gamma_01" := by decide +kernel
  rw [hn] at g1 g2
  refine ⟨w', file, y, h1, ?_, ?_, g2, ?_⟩
  · rw [h2]
    show [] ++ entries "out" (speiOutputs [1]) = _
    decide +kernel
  · rw [← g1]
    rfl
  · have hg := g6 0 (by decide) 0 (by decide)
    beta_reduce at hg
    rw [solo_series, flat_series] at hg
    have hser : seriesAt 1 60 0 0 y.data = y.data.take 60 := rfl
    have hv := hg.2.2 36 1 (by rw [balance_steps5, accum_raised, accum_steps5 36 (by omega)]; norm_num)
    have e2 : ((2000 : ℤ) - 2000).toNat = 0 := rfl
    have e3 : ((2004 : ℤ) - 2000 + 1).toNat = 5 := rfl
    have e5 : 36 % 12 = 0 := rfl
    rw [e2, e3, e5, sample_balance 0 (by omega)] at hv
    have hl : ([0, 1, 2, 4, 8].map (· + ((1 : ℕ) : ℝ) * -3)).map (· + ((1 : ℕ) : ℝ) * 1000) = [997, 998, 999, 1001, 1005] := by norm_num
    simp only [hl] at hv
    have := hv ⟨997, by simp, 998, by simp, by norm_num⟩
    rw [hser, List.getElem?_take_of_lt (by omega)] at this
    rw [this]
    norm_num

end CI.Props
