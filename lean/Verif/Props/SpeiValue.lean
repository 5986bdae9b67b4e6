import Verif.Props.Spei
import Verif.Props.McKeePearson
import Verif.Props.SpeiMissing

/-!
# C115: the Pearson SPEI is the standardised climatic water balance
-/

namespace CI.Props

open CI FloatOps FloatLaws Spec Spec.McKee

/-! ## Specification -/

/-- climatic water balance: precipitation minus evapotranspiration, missing if one of them is -/
noncomputable def waterBalance (p e : List (Option ℝ)) : List (Option ℝ) := List.zipWith (fun a b => a.bind (fun u => b.map (fun v => u - v))) p e

/-! ## Raising all values by the same amount -/

/-- all values raised by `c` -/
noncomputable def raised (c : ℝ) (x : List (Option ℝ)) : List (Option ℝ) := x.map (Option.map (· + c))

theorem raised_mem {c a : ℝ} {x : List (Option ℝ)} : some a ∈ raised c x ↔ some (a - c) ∈ x := by
  unfold raised
  rw [List.mem_map]
  constructor
  · rintro ⟨o, ho, h⟩
    cases o with
    | none => cases h
    | some b =>
      rw [Option.map_some, Option.some.injEq] at h
      rw [← h, add_sub_cancel_right]
      exact ho
  · intro h
    exact ⟨_, h, by rw [Option.map_some, sub_add_cancel]⟩

theorem sum_raised (c : ℝ) (l : List (Option ℝ)) (h : l.all Option.isSome = true) : ((l.map (Option.map (· + c))).filterMap id).sum = (l.filterMap id).sum + l.length * c := by
  induction l with
  | nil => simp
  | cons o l ih =>
    rw [List.all_cons, Bool.and_eq_true] at h
    obtain ⟨a, rfl⟩ := Option.isSome_iff_exists.1 h.1
    have e : ((some a :: l).map (Option.map (· + c))).filterMap id = (a + c) :: (l.map (Option.map (· + c))).filterMap id := rfl
    have e' : (some a :: l).filterMap id = a :: l.filterMap id := rfl
    rw [e, e', List.sum_cons, List.sum_cons, ih h.2, List.length_cons]
    push_cast
    ring

theorem accum_raised (c : ℝ) (x : List (Option ℝ)) (k t : ℕ) : accum (raised c x) k t = (accum x k t).map (· + k * c) := by
  unfold accum raised
  simp only [List.length_map, ← List.map_drop, ← List.map_take]
  have hall : ∀ l : List (Option ℝ), (l.map (Option.map (· + c))).all Option.isSome = l.all Option.isSome := by
    intro l
    induction l with
    | nil => rfl
    | cons o l ih => simp [List.all_cons, ih]
  rw [hall]
  split
  · next h =>
    rw [sum_raised c _ h.2.2, Option.map_some, List.length_take, List.length_drop]
    congr 3
    have : min k (x.length - (t + 1 - k)) = k := by omega
    rw [this]
  · rfl

theorem sample_raised (c : ℝ) (x : List (Option ℝ)) (k p j a m : ℕ) : sample (raised c x) k p j a m = (sample x k p j a m).map (· + k * c) := by
  unfold sample
  rw [List.map_filterMap]
  congr 1
  funext y
  rw [accum_raised]

theorem mean_raised (c : ℝ) (s : List ℝ) (h : s ≠ []) : mean (s.map (· + c)) = mean s + c := by
  unfold mean
  have : (s.map (· + c)).sum = s.sum + s.length * c := by
    clear h
    induction s with
    | nil => simp
    | cons a s ih =>
      simp only [List.map_cons, List.sum_cons, List.length_cons, ih]
      push_cast
      ring
  rw [this, List.length_map]
  have hl : (s.length : ℝ) ≠ 0 := by
    rw [Nat.cast_ne_zero]
    simpa using h
  field_simp

theorem pairDiff_raised (c : ℝ) (s : List ℝ) : pairDiff (s.map (· + c)) = pairDiff s := by
  unfold pairDiff
  rw [List.map_map]
  congr 1
  apply List.map_congr_left
  intro a _
  simp only [Function.comp, List.map_map]
  congr 1
  apply List.map_congr_left
  intro b _
  simp

theorem inside_raised (c loc sc sk v : ℝ) : Pearson3.Inside (loc + c) sc sk (v + c) ↔ Pearson3.Inside loc sc sk v := by
  unfold Pearson3.Inside
  constructor
  · rintro ⟨h1, h2⟩
    exact ⟨fun h => by linarith [h1 h], fun h => by linarith [h2 h]⟩
  · rintro ⟨h1, h2⟩
    exact ⟨fun h => by linarith [h1 h], fun h => by linarith [h2 h]⟩

theorem allButOne_raised (c : ℝ) (s : List ℝ) : AllButOne (s.map (· + c)) ↔ AllButOne s := by
  have key : ∀ (c : ℝ) (s : List ℝ), AllButOne s → AllButOne (s.map (· + c)) := by
    rintro c s ⟨a, d, h⟩
    refine ⟨a + c, d + c, ?_⟩
    have := h.map (· + c)
    rw [List.map_cons, List.map_replicate] at this
    rw [List.length_map]
    exact this
  refine ⟨fun h => ?_, key c s⟩
  have := key (-c) _ h
  rw [List.map_map] at this
  have e : ((· + -c) ∘ (· + c)) = (id : ℝ → ℝ) := by
    funext x
    simp
  rwa [e, List.map_id] at this

/-- the values that `spei` standardises -/
theorem balance_toFl (p e : List (Option ℝ)) : balance (p.map toFl) (e.map toFl) = (raised 1000 (waterBalance p e)).map toFl := by
  unfold balance raised waterBalance
  induction p generalizing e with
  | nil => rfl
  | cons a p ih =>
    cases e with
    | nil => rfl
    | cons b e =>
      simp only [List.map_cons, List.zipWith_cons_cons]
      rw [ih]
      congr 1
      cases a with
      | none => cases b <;> rfl
      | some a =>
        cases b with
        | none => rfl
        | some b =>
          show (Fl.fin a - Fl.fin b) + lit 1000 = Fl.fin (a - b + 1000)
          rw [Fl.fin_sub, Fl.lit_def, Fl.fin_add]
          norm_num

/-! ## C115 -/

/-- `spei` of precipitation that is not negative and of a balance that is at least -1000 is `spi` of the raised balance -/
theorem spei_raised (E : Ext (Fl ℝ)) (p e : List (Option ℝ)) (hp : ∀ a, some a ∈ p → 0 ≤ a) (hl : p.length = e.length) (hb : ∀ a, some a ∈ waterBalance p e → -1000 ≤ a)
    (hs : ∃ a, some a ∈ waterBalance p e) (k : ℕ) (dist : Distribution) (per : Periodicity) (hper : per ≠ .other) (ds cs ce : ℤ) :
    spei E (Arr.of1d (p.map toFl)) (Arr.of1d (e.map toFl)) k dist per ds cs ce none =
      (spi E (Arr.of1d ((raised 1000 (waterBalance p e)).map toFl)) k dist ds cs ce per none).map Arr.of1d := by
  have h := C89_partial E (Arr.of1d (p.map toFl)) (Arr.of1d (e.map toFl)) k dist per ds cs ce none (by simpa [Arr.of1d] using hl) (by
      intro v hv
      obtain ⟨o, ho, rfl⟩ := List.mem_map.1 hv
      cases o with
      | none => exact (by rw [show toFl none = nan from rfl]; simp : flt (toFl none) (lit 0) = false)
      | some a =>
        show flt (Fl.fin a) _ = false
        rw [Fl.lit_def, Fl.flt_fin]
        simpa using hp a ho) (by
      have : balance (Arr.of1d (p.map toFl)).data (Arr.of1d (e.map toFl)).data = (raised 1000 (waterBalance p e)).map toFl := balance_toFl p e
      rw [this]
      intro v hv
      obtain ⟨o, ho, rfl⟩ := List.mem_map.1 hv
      cases o with
      | none => exact (by rw [show toFl none = nan from rfl]; simp : flt (toFl none) (lit 0) = false)
      | some a =>
        show flt (Fl.fin a) _ = false
        rw [Fl.lit_def, Fl.flt_fin]
        have := hb _ (raised_mem.1 ho)
        simp only [Rat.cast_zero, decide_eq_false_iff_not, not_lt]
        linarith) (by
      have : balance (Arr.of1d (p.map toFl)).data (Arr.of1d (e.map toFl)).data = (raised 1000 (waterBalance p e)).map toFl := balance_toFl p e
      rw [this]
      obtain ⟨a, ha⟩ := hs
      exact ⟨toFl (some (a + 1000)), List.mem_map.2 ⟨_, raised_mem.2 (by rwa [add_sub_cancel_right]), rfl⟩, rfl⟩) hper
  have e1 : balance (Arr.of1d (p.map toFl)).data (Arr.of1d (e.map toFl)).data = (raised 1000 (waterBalance p e)).map toFl := balance_toFl p e
  rw [e1] at h
  exact h

theorem waterBalance_length (p e : List (Option ℝ)) (hl : p.length = e.length) : (waterBalance p e).length = p.length := by
  unfold waterBalance
  rw [List.length_zipWith]
  omega

theorem raised_length (c : ℝ) (x : List (Option ℝ)) : (raised c x).length = x.length := List.length_map _

/-- an accumulation is the sum of values of the record -/
theorem accum_split {x : List (Option ℝ)} {k t : ℕ} {v : ℝ} (h1 : 1 ≤ k) (h : accum x k t = some v) : ∃ (a : ℝ) (l : List ℝ), some a ∈ x ∧ (∀ y ∈ l, some y ∈ x) ∧ v = a + l.sum := by
  unfold accum at h
  simp only at h
  split at h
  · next hc =>
    rw [Option.some.injEq] at h
    have hlen : 0 < ((x.drop (t + 1 - k)).take k).length := by
      rw [List.length_take, List.length_drop]; omega
    have hm : ∀ o ∈ (x.drop (t + 1 - k)).take k, o ∈ x := fun o ho => List.mem_of_mem_drop (List.mem_of_mem_take ho)
    have hall := hc.2.2
    generalize (x.drop (t + 1 - k)).take k = l at hlen hm hall h
    cases l with
    | nil => simp at hlen
    | cons o l =>
      obtain ⟨a, rfl⟩ := Option.isSome_iff_exists.1 (List.all_eq_true.1 hall o List.mem_cons_self)
      refine ⟨a, l.filterMap id, hm _ List.mem_cons_self, fun y hy => hm _ (List.mem_cons_of_mem _ (by simpa using hy)), ?_⟩
      rw [← h]
      show (a :: l.filterMap id).sum = _
      rw [List.sum_cons]
  · cases h

/-- accumulations of values that have a lower bound -/
theorem accum_pos {x : List (Option ℝ)} {k t : ℕ} {v b : ℝ} (h1 : 1 ≤ k) (hb0 : 0 ≤ b) (hx : ∀ a, some a ∈ x → b ≤ a) (h : accum x k t = some v) : b ≤ v := by
  obtain ⟨a, l, ha, hl, rfl⟩ := accum_split h1 h
  have : 0 ≤ l.sum := List.sum_nonneg (fun y hy => hb0.trans (hx y (hl y hy)))
  linarith [hx a ha]

theorem sample_ge {x : List (Option ℝ)} {k p c a m : ℕ} {b : ℝ} (h1 : 1 ≤ k) (hb0 : 0 ≤ b) (hx : ∀ a, some a ∈ x → b ≤ a) : ∀ v ∈ sample x k p c a m, b ≤ v := by
  intro v hv
  obtain ⟨y, _, h⟩ := List.mem_filterMap.1 hv
  exact accum_pos h1 hb0 hx h

theorem wet_all {s : List ℝ} (h : ∀ v ∈ s, 0 < v) : wet s = s := List.filter_eq_self.2 (fun v hv => by simpa using h v hv)

theorem dry_none {s : List ℝ} (h : ∀ v ∈ s, 0 < v) : dry s = 0 := by
  unfold dry
  rw [List.countP_eq_zero]
  intro v hv
  simpa using (h v hv).ne'

/-- **C115, Pearson.** In exact arithmetic, for every record of precipitation (not negative) and evapotranspiration with missing values, whose balance is always above -1000 (-999.9995): where `spei` with
the Pearson distribution gives a result, it is the normal quantile of the probability of the accumulated balance in the Pearson distribution with mean, L-scale (and skew) of the accumulated
balances of the calendar step in the calibration years, between -3.09 and 3.09. The 1000 that the code adds has no influence. (`P` is the distribution function, a location family.) -/
theorem C115_pearson (E : Ext (Fl ℝ)) (hE : ExtNan E) (hR : ExtReal E) (P : ℝ → ℝ → ℝ → ℝ → ℝ) (Φ : ℝ → ℝ)
    (hP : ∀ v sk loc sc, 0 < v → 0 < sc → Pearson3.Inside loc sc sk v →
      E.pearson3Cdf (.fin v) (.fin sk) (.fin loc) (.fin sc) = .fin (P v sk loc sc) ∧ 0 < P v sk loc sc ∧ P v sk loc sc < 1)
    (hloc : ∀ v sk loc sc c, 0 < sc → P (v + c) sk (loc + c) sc = P v sk loc sc)
    (hΦ : ∀ q, 0 < q → q < 1 → E.normPpf (.fin q) = .fin (Φ q))
    (p e : List (Option ℝ)) (hp : ∀ a, some a ∈ p → 0 ≤ a) (hl : p.length = e.length) (hb : ∀ a, some a ∈ waterBalance p e → -999.9995 ≤ a) (hs : ∃ a, some a ∈ waterBalance p e)
    (k : ℕ) (h1 : 1 ≤ k) (h2 : k ≤ p.length) (per : Periodicity) (hper : per ≠ .other) (ds cs ce : ℤ) (c1 : ds ≤ cs) (c2 : cs ≤ ce) (c3 : ce < ds + yearsOf p.length per.steps)
    (out : Arr (Fl ℝ)) (h : spei E (Arr.of1d (p.map toFl)) (Arr.of1d (e.map toFl)) k .pearson per ds cs ce none = .ok out) (c : ℕ) (hc : c < per.steps) :
    let s := sample (waterBalance p e) k per.steps c (cs - ds).toNat (ce - cs + 1).toNat
    4 ≤ s.length →
    ∃ sc sk, 0 < sc ∧ Pearson3.lscale sc sk = pairDiff s / (s.length * (s.length - 1)) / 2 ∧
      ∀ t v, t % per.steps = c → accum (waterBalance p e) k t = some v → Pearson3.Inside (mean s) sc sk v →
        out.data[t]? = some (.fin (clamp (Φ (P v sk (mean s) sc)))) := by
  intro s h4
  rw [spei_raised E p e hp hl (fun a ha => by linarith [hb a ha]) hs k .pearson per hper ds cs ce] at h
  have hx : ∀ a, some a ∈ raised 1000 (waterBalance p e) → 0.0005 ≤ a := by
    intro a ha
    have := hb _ (raised_mem.1 ha)
    linarith
  have hlen : (raised 1000 (waterBalance p e)).length = p.length := by rw [raised_length, waterBalance_length p e hl]
  cases hspi : spi E (Arr.of1d ((raised 1000 (waterBalance p e)).map toFl)) k .pearson ds cs ce per none with
  | error err => rw [hspi] at h; cases h
  | ok o =>
    rw [hspi] at h
    cases h
    have hv := C85_value E hE hR P Φ hP hΦ _ (fun a ha => by linarith [hx a ha]) k h1 (by rw [hlen]; exact h2) per ds cs ce c1 c2 (by rw [hlen]; exact c3) (by
      obtain ⟨a, ha⟩ := hs
      exact ⟨a + 1000, raised_mem.2 (by rwa [add_sub_cancel_right])⟩) o hspi c hc
    have hpos : ∀ v ∈ sample (raised 1000 (waterBalance p e)) k per.steps c (cs - ds).toNat (ce - cs + 1).toNat, 0 < v := by
      intro v hv
      have := sample_ge h1 (by norm_num) hx v hv
      linarith
    have hsam : sample (raised 1000 (waterBalance p e)) k per.steps c (cs - ds).toNat (ce - cs + 1).toNat = s.map (· + (k : ℝ) * 1000) := sample_raised _ _ _ _ _ _ _
    rw [hsam] at hv hpos
    simp only [wet_all hpos, List.length_map] at hv
    obtain ⟨sc, sk, g1, g2, g3⟩ := hv h4
    have hne : s ≠ [] := by
      intro h0
      rw [h0] at h4
      simp at h4
    have hz : zeroShare (s.map (· + (k : ℝ) * 1000)) = 0 := by
      unfold zeroShare
      rw [dry_none hpos]
      simp
    rw [hz, mean_raised _ _ hne] at g3
    rw [pairDiff_raised] at g2
    refine ⟨sc, sk, g1, g2, fun t v ht hacc hin => ?_⟩
    have ha : accum (raised 1000 (waterBalance p e)) k t = some (v + k * 1000) := by rw [accum_raised, hacc]; rfl
    have := g3 t _ ht ha (accum_pos h1 (by norm_num) hx ha) ((inside_raised _ _ _ _ _).2 hin)
    rw [hloc _ _ _ _ _ g1] at this
    show o[t]? = _
    rw [this, zero_add, sub_zero, one_mul]

/-- **C115, gamma.** With the gamma distribution the 1000 stays: the result is the published gamma index of the balance raised by 1000 per accumulated step (all accumulations are then positive, the
probability of zero is 0). It depends on the 1000 (`C90_gamma_spei_fails`). -/
theorem C115_gamma (E : Ext (Fl ℝ)) (hE : ExtNan E) (hR : ExtReal E) (G : ℝ → ℝ → ℝ → ℝ) (Φ : ℝ → ℝ)
    (hG : ∀ v a b, 0 < v → 0 < a → 0 < b → E.gammaCdf (.fin v) (.fin a) (.fin b) = .fin (G v a b) ∧ 0 < G v a b ∧ G v a b < 1)
    (hΦ : ∀ q, 0 < q → q < 1 → E.normPpf (.fin q) = .fin (Φ q))
    (p e : List (Option ℝ)) (hp : ∀ a, some a ∈ p → 0 ≤ a) (hl : p.length = e.length) (hb : ∀ a, some a ∈ waterBalance p e → -1000 < a) (hs : ∃ a, some a ∈ waterBalance p e)
    (k : ℕ) (h1 : 1 ≤ k) (h2 : k ≤ p.length) (per : Periodicity) (hper : per ≠ .other) (ds cs ce : ℤ) (c1 : ds ≤ cs) (c2 : cs ≤ ce) (c3 : ce < ds + yearsOf p.length per.steps) :
    ∃ out, spei E (Arr.of1d (p.map toFl)) (Arr.of1d (e.map toFl)) k .gamma per ds cs ce none = .ok out ∧ out.data.length = p.length ∧
      ∀ t v, accum (waterBalance p e) k t = some v →
        let s := (sample (waterBalance p e) k per.steps (t % per.steps) (cs - ds).toNat (ce - cs + 1).toNat).map (· + (k : ℝ) * 1000)
        (∃ a ∈ s, ∃ b ∈ s, a ≠ b) → out.data[t]? = some (.fin (clamp (Φ (G (v + k * 1000) (shape s) (scale s))))) := by
  rw [spei_raised E p e hp hl (fun a ha => (hb a ha).le) hs k .gamma per hper ds cs ce]
  have hx : ∀ a, some a ∈ raised 1000 (waterBalance p e) → 0 < a := by
    intro a ha
    have := hb _ (raised_mem.1 ha)
    linarith
  have hlen : (raised 1000 (waterBalance p e)).length = p.length := by rw [raised_length, waterBalance_length p e hl]
  obtain ⟨o, h3, h4, h5⟩ := C84_value E hE hR G Φ hG hΦ (raised 1000 (waterBalance p e)) (fun a ha => (hx a ha).le) k h1 (by rw [hlen]; exact h2) per hper ds cs ce c1 c2 (by rw [hlen]; exact c3) (by
      obtain ⟨a, ha⟩ := hs
      exact ⟨a + 1000, raised_mem.2 (by rwa [add_sub_cancel_right])⟩)
  refine ⟨Arr.of1d o, by rw [h3]; rfl, by rw [← hlen]; exact h4, ?_⟩
  intro t v hacc s hne
  have hpos : ∀ {t v}, accum (raised 1000 (waterBalance p e)) k t = some v → 0 < v := by
    intro t v h
    obtain ⟨a, l, ha, hl, rfl⟩ := accum_split h1 h
    have : 0 ≤ l.sum := List.sum_nonneg (fun y hy => (hx y (hl y hy)).le)
    linarith [hx a ha]
  have hspos : ∀ c a m, ∀ v ∈ sample (raised 1000 (waterBalance p e)) k per.steps c a m, 0 < v := by
    intro c a m v hv
    obtain ⟨y, _, h⟩ := List.mem_filterMap.1 hv
    exact hpos h
  have ha : accum (raised 1000 (waterBalance p e)) k t = some (v + k * 1000) := by rw [accum_raised, hacc]; rfl
  have hv := h5 t _ ha (hpos ha)
  simp only [wet_all (hspos _ _ _), dry_none (hspos _ _ _)] at hv
  have hsam : sample (raised 1000 (waterBalance p e)) k per.steps (t % per.steps) (cs - ds).toNat (ce - cs + 1).toNat = s := sample_raised _ _ _ _ _ _ _
  rw [hsam] at hv
  have := hv hne
  show o[t]? = _
  rw [this]
  unfold index
  rw [wet_all (by rw [← hsam]; exact hspos _ _ _)]
  simp

/-- **C115, when it is refused.** The Pearson SPEI is refused (ValueError) exactly if some calendar step has at least four accumulated balances in the calibration years and all but one are equal. -/
theorem C115_refused (E : Ext (Fl ℝ)) (hR : ExtReal E) (p e : List (Option ℝ)) (hp : ∀ a, some a ∈ p → 0 ≤ a) (hl : p.length = e.length)
    (hb : ∀ a, some a ∈ waterBalance p e → -999.9995 ≤ a) (hs : ∃ a, some a ∈ waterBalance p e)
    (k : ℕ) (h1 : 1 ≤ k) (h2 : k ≤ p.length) (per : Periodicity) (hper : per ≠ .other) (ds cs ce : ℤ) (c1 : ds ≤ cs) (c2 : cs ≤ ce) (c3 : ce < ds + yearsOf p.length per.steps) :
    spei E (Arr.of1d (p.map toFl)) (Arr.of1d (e.map toFl)) k .pearson per ds cs ce none = .error .valueError ↔
      ∃ c, c < per.steps ∧ 4 ≤ (sample (waterBalance p e) k per.steps c (cs - ds).toNat (ce - cs + 1).toNat).length ∧
        AllButOne (sample (waterBalance p e) k per.steps c (cs - ds).toNat (ce - cs + 1).toNat) := by
  rw [spei_raised E p e hp hl (fun a ha => by linarith [hb a ha]) hs k .pearson per hper ds cs ce]
  have hx : ∀ a, some a ∈ raised 1000 (waterBalance p e) → 0.0005 ≤ a := by
    intro a ha
    have := hb _ (raised_mem.1 ha)
    linarith
  have hlen : (raised 1000 (waterBalance p e)).length = p.length := by rw [raised_length, waterBalance_length p e hl]
  have key := C10_pearson_exact E hR (raised 1000 (waterBalance p e)) (fun a ha => by linarith [hx a ha]) k h1 (by rw [hlen]; exact h2) per hper ds cs ce c1 c2 (by rw [hlen]; exact c3) (by
      obtain ⟨a, ha⟩ := hs
      exact ⟨a + 1000, raised_mem.2 (by rwa [add_sub_cancel_right])⟩)
  have hmap : ∀ r : Res (List (Fl ℝ)), r.map Arr.of1d = .error .valueError ↔ r = .error .valueError := by
    intro r
    cases r with
    | error e => exact ⟨fun h => (by cases h; rfl), fun h => (by cases h; rfl)⟩
    | ok o => exact ⟨fun h => (by cases h), fun h => (by cases h)⟩
  rw [hmap, key]
  apply exists_congr
  intro c
  have hpos : ∀ v ∈ sample (raised 1000 (waterBalance p e)) k per.steps c (cs - ds).toNat (ce - cs + 1).toNat, 0 < v := by
    intro v hv
    have := sample_ge h1 (by norm_num) hx v hv
    linarith
  rw [wet_all hpos, sample_raised, List.length_map, allButOne_raised]

/-- **C115, when it is defined.** In all other cases there is one value per time step. -/
theorem C115_defined (E : Ext (Fl ℝ)) (hR : ExtReal E) (p e : List (Option ℝ)) (hp : ∀ a, some a ∈ p → 0 ≤ a) (hl : p.length = e.length)
    (hb : ∀ a, some a ∈ waterBalance p e → -999.9995 ≤ a) (hs : ∃ a, some a ∈ waterBalance p e)
    (k : ℕ) (h1 : 1 ≤ k) (h2 : k ≤ p.length) (per : Periodicity) (hper : per ≠ .other) (ds cs ce : ℤ) (c1 : ds ≤ cs) (c2 : cs ≤ ce) (c3 : ce < ds + yearsOf p.length per.steps)
    (hfit : ∀ c < per.steps, 4 ≤ (sample (waterBalance p e) k per.steps c (cs - ds).toNat (ce - cs + 1).toNat).length →
      ¬ AllButOne (sample (waterBalance p e) k per.steps c (cs - ds).toNat (ce - cs + 1).toNat)) :
    ∃ out, spei E (Arr.of1d (p.map toFl)) (Arr.of1d (e.map toFl)) k .pearson per ds cs ce none = .ok out ∧ out.data.length = p.length := by
  have href := C115_refused E hR p e hp hl hb hs k h1 h2 per hper ds cs ce c1 c2 c3
  have hno : ¬ ∃ c, c < per.steps ∧ 4 ≤ (sample (waterBalance p e) k per.steps c (cs - ds).toNat (ce - cs + 1).toNat).length ∧
      AllButOne (sample (waterBalance p e) k per.steps c (cs - ds).toNat (ce - cs + 1).toNat) := by
    rintro ⟨c, hc, h4, h5⟩
    exact hfit c hc h4 h5
  rw [← href] at hno
  rw [spei_raised E p e hp hl (fun a ha => by linarith [hb a ha]) hs k .pearson per hper ds cs ce] at hno ⊢
  have hlen : (raised 1000 (waterBalance p e)).length = p.length := by rw [raised_length, waterBalance_length p e hl]
  rcases C10_pearson_partial E (Arr.of1d ((raised 1000 (waterBalance p e)).map toFl)) k ds cs ce per (.inl rfl) (by cases per with | other => exact absurd rfl hper | monthly => exact .inl rfl | daily => exact .inr rfl)
      (by exact_mod_cast h1) (by
        obtain ⟨a, ha⟩ := hs
        exact ⟨toFl (some (a + 1000)), List.mem_map.2 ⟨_, raised_mem.2 (by rwa [add_sub_cancel_right]), rfl⟩, rfl⟩) with ⟨out, ho, hol⟩ | he
  · refine ⟨Arr.of1d out, by rw [ho]; rfl, ?_⟩
    show out.length = _
    rw [hol, ← hlen]
    simp [Arr.of1d]
  · rw [he] at hno
    exact absurd rfl hno

/-! ## A concrete case: 0, 1, 2, 4 and 8 mm in every month of five years, 3 mm of evapotranspiration -/

/-- a distribution function of the standardised value, the same for all skews -/
noncomputable def sigmoid (v : ℝ) (_ : ℝ) (loc sc : ℝ) : ℝ := 1 / 2 + (v - loc) / sc / (2 * (1 + |(v - loc) / sc|))

noncomputable def sigmoidExt : Ext (Fl ℝ) := { realExt with
  pearson3Cdf := fun x _ loc scale => match x, loc, scale with
    | .fin x, .fin l, .fin s => if s = 0 then .nan else .fin (sigmoid x 0 l s)
    | _, _, _ => .nan }

theorem sigmoidExt_nan : ExtNan sigmoidExt where
  log_nan := rfl
  gammaCdf_nan := by intro a s; rfl
  gammaCdf_nan_shape := realExt_nan.gammaCdf_nan_shape
  pearson3Cdf_nan := by intro a b c; rfl
  normPpf_nan := rfl

theorem sigmoidExt_real : ExtReal sigmoidExt where
  log_pos := realExt_real.log_pos
  sqrt_nonneg := realExt_real.sqrt_nonneg
  exp_fin := realExt_real.exp_fin
  lgamma_pos := realExt_real.lgamma_pos
  pi_eq := rfl
  gammaCdf_scale := realExt_real.gammaCdf_scale
  gammaCdf_nan_scale := realExt_real.gammaCdf_nan_scale

theorem sigmoid_range (v sk loc sc : ℝ) : 0 < sigmoid v sk loc sc ∧ sigmoid v sk loc sc < 1 := by
  unfold sigmoid
  generalize (v - loc) / sc = z
  have hd : 0 < 2 * (1 + |z|) := by positivity
  have h1 : z / (2 * (1 + |z|)) < 1 / 2 := by
    rw [div_lt_iff₀ hd]
    linarith [le_abs_self z]
  have h2 : -(1 / 2) < z / (2 * (1 + |z|)) := by
    rw [lt_div_iff₀ hd]
    linarith [neg_abs_le z]
  constructor <;> linarith

noncomputable def flatPet : List (Option ℝ) := List.replicate 60 (some 3)

theorem balance_steps5 : waterBalance steps5 flatPet = raised (-3) steps5 := by
  have : flatPet = (List.range 60).map (fun _ => some (3 : ℝ)) := by simp [flatPet]
  unfold waterBalance raised
  rw [this]
  unfold steps5
  rw [List.zipWith_map, List.map_map, List.zipWith_self]
  apply List.map_congr_left
  intro i _
  simp [sub_eq_add_neg]

/-- January 2003 has a balance of 1 mm; the mean of the Januaries is 0 -/
example : ∃ out, spei sigmoidExt (Arr.of1d (steps5.map toFl)) (Arr.of1d (flatPet.map toFl)) (1 : ℕ) .pearson .monthly 2000 2000 2004 none = .ok out ∧
    ∃ sc sk, 0 < sc ∧ Pearson3.lscale sc sk = pairDiff [0, 1, 2, 4, 8] / (5 * (5 - 1)) / 2 ∧
      (Pearson3.Inside 0 sc sk 1 → out.data[36]? = some (.fin (clamp (8 * (sigmoid 1 sk 0 sc - 1 / 2))))) := by
  have hb : ∀ a, some a ∈ waterBalance steps5 flatPet → -999.9995 ≤ a := by
    intro a ha
    rw [balance_steps5] at ha
    have := steps5_nonneg _ (raised_mem.1 ha)
    linarith
  have hs : ∃ a, some a ∈ waterBalance steps5 flatPet := by
    rw [balance_steps5]
    exact ⟨-3, raised_mem.2 (List.mem_map.2 ⟨0, by simp, by norm_num⟩)⟩
  have hl : steps5.length = flatPet.length := by rw [steps5_length]; simp [flatPet]
  have hk : (1 : ℕ) ≤ steps5.length := by rw [steps5_length]; norm_num
  have c3 : (2004 : ℤ) < 2000 + yearsOf steps5.length Periodicity.monthly.steps := by rw [steps5_length]; norm_num [yearsOf, Periodicity.steps]
  have e2 : ((2000 : ℤ) - 2000).toNat = 0 := rfl
  have e3 : ((2004 : ℤ) - 2000 + 1).toNat = 5 := rfl
  have e5 : Periodicity.monthly.steps = 12 := rfl
  have hsam : ∀ c < 12, sample (waterBalance steps5 flatPet) 1 12 c 0 5 = [0, 1, 2, 4, 8].map (· + ((1 : ℕ) : ℝ) * -3) := by
    intro c hc
    rw [balance_steps5, sample_raised, sample_steps5 c hc]
  obtain ⟨out, ho, _⟩ := C115_defined sigmoidExt sigmoidExt_real steps5 flatPet steps5_nonneg hl hb hs 1 le_rfl hk .monthly (by simp) 2000 2000 2004 le_rfl (by norm_num) c3 (by
    intro c hc _
    rw [e2, e3, e5, hsam c hc, allButOne_raised]
    exact not_allButOne_steps5)
  refine ⟨out, ho, ?_⟩
  have hv := C115_pearson sigmoidExt sigmoidExt_nan sigmoidExt_real sigmoid (fun q => 8 * (q - 1 / 2)) (by
      intro v sk loc sc _ hsc _
      refine ⟨?_, sigmoid_range v sk loc sc⟩
      show (if sc = 0 then Fl.nan else Fl.fin (sigmoid v 0 loc sc)) = _
      rw [if_neg hsc.ne']
      rfl) (by
      intro v sk loc sc c _
      unfold sigmoid
      rw [add_sub_add_right_eq_sub]) realExt_Φ steps5 flatPet steps5_nonneg hl hb hs 1 le_rfl hk .monthly (by simp) 2000 2000 2004 le_rfl (by norm_num) c3 out ho 0 (by decide)
  rw [e2, e3, e5, hsam 0 (by omega)] at hv
  obtain ⟨sc, sk, g1, g2, g3⟩ := hv (by simp)
  have hm : mean ([0, 1, 2, 4, 8].map (· + ((1 : ℕ) : ℝ) * -3)) = 0 := by
    rw [mean_raised _ _ (by simp)]
    unfold mean
    norm_num
  rw [pairDiff_raised] at g2
  rw [hm] at g3
  refine ⟨sc, sk, g1, by rw [g2]; norm_num, fun hin => ?_⟩
  refine g3 36 1 rfl ?_ hin
  rw [balance_steps5, accum_raised, accum_steps5 36 (by omega)]
  norm_num

end CI.Props
