import Verif.Props.Pnp
import Verif.Props.SpiFit
import Verif.Spec.RealExt

/-!
# C22, C23: gamma parameters and the unit of precipitation (exact real arithmetic)
-/

namespace CI.Props

/-- a positive number or missing -/
def PosOrNan (v : Fl ℝ) : Prop := v = .nan ∨ ∃ a : ℝ, 0 < a ∧ v = .fin a

/-- a non-negative number or missing: precipitation -/
def NonnegOrNan (v : Fl ℝ) : Prop := v = .nan ∨ ∃ a : ℝ, 0 ≤ a ∧ v = .fin a

theorem filter_posOrNan (l : List (Fl ℝ)) (h : ∀ v ∈ l, PosOrNan v) (f : Fl ℝ → Fl ℝ) (g : ℝ → ℝ) (hf : f .nan = .nan)
    (hg : ∀ a, 0 < a → f (.fin a) = .fin (g a)) :
    ∃ q : List ℝ, (∀ a ∈ q, 0 < a) ∧ l.filter (fun v => !isNan v) = q.map Fl.fin ∧
      (l.map f).filter (fun v => !isNan v) = (q.map g).map Fl.fin := by
  induction l with
  | nil => exact ⟨[], by simp, rfl, rfl⟩
  | cons a l ih =>
    obtain ⟨q, hpos, hq, hq'⟩ := ih (fun v hv => h v (List.mem_cons_of_mem _ hv))
    rcases h a (by simp) with rfl | ⟨b, hb, rfl⟩
    · refine ⟨q, hpos, by rw [List.filter_cons_of_neg (by simp), hq], ?_⟩
      rw [List.map_cons, hf, List.filter_cons_of_neg (by simp), hq']
    · refine ⟨b :: q, ?_, by rw [List.filter_cons_of_pos (by simp), hq, List.map_cons], ?_⟩
      · intro x hx
        rcases List.mem_cons.1 hx with rfl | hx
        · exact hb
        · exact hpos x hx
      · rw [List.map_cons, hg b hb, List.filter_cons_of_pos (by simp), hq', List.map_cons, List.map_cons]

/-- arithmetic mean -/
noncomputable def mean (q : List ℝ) : ℝ := q.sum / q.length

/-- log of the mean minus mean of the logs -/
noncomputable def logGap (q : List ℝ) : ℝ := Real.log (mean q) - mean (q.map Real.log)

/-- Thom's estimate of the gamma shape -/
noncomputable def thomAlpha (q : List ℝ) : ℝ := (1 + Real.sqrt (1 + 4 * logGap q / 3)) / (4 * logGap q)

theorem fin_injective : Function.Injective (Fl.fin : ℝ → Fl ℝ) := by intro a b h; cases h; rfl

theorem mean_pos (q : List ℝ) (hpos : ∀ a ∈ q, 0 < a) (hq : q ≠ []) : 0 < mean q := by
  have hl : (0 : ℝ) < q.length := by
    have := List.length_pos_iff.2 hq
    exact_mod_cast this
  exact div_pos (List.sum_pos q hpos hq) hl

/-- Jensen's inequality for the logarithm, with the equality case -/
theorem logGap_nonneg (q : List ℝ) (hpos : ∀ a ∈ q, 0 < a) (hq : q ≠ []) :
    0 ≤ logGap q ∧ (logGap q = 0 ↔ ∀ a ∈ q, ∀ b ∈ q, a = b) := by
  have hm := mean_pos q hpos hq
  have hl : (0 : ℝ) < q.length := by
    have := List.length_pos_iff.2 hq
    exact_mod_cast this
  -- every summand
  have hterm : ∀ a ∈ q, 0 ≤ a / mean q - 1 - Real.log (a / mean q) := by
    intro a ha
    have := Real.log_le_sub_one_of_pos (div_pos (hpos a ha) hm)
    linarith
  have hsum : (q.map (fun a => a / mean q - 1 - Real.log (a / mean q))).sum = q.length * logGap q := by
    have h1 : ∀ l : List ℝ, (∀ a ∈ l, 0 < a) → (l.map (fun a => a / mean q - 1 - Real.log (a / mean q))).sum =
        l.sum / mean q - l.length + l.length * Real.log (mean q) - (l.map Real.log).sum := by
      intro l hl
      induction l with
      | nil => simp
      | cons a l ih =>
        rw [List.map_cons, List.sum_cons, ih (fun b hb => hl b (List.mem_cons_of_mem _ hb)),
          Real.log_div (ne_of_gt (hl a (by simp))) (ne_of_gt hm)]
        simp only [List.sum_cons, List.map_cons, List.length_cons, Nat.cast_add, Nat.cast_one]
        ring
    rw [h1 q hpos]
    have h2 : q.sum / mean q = q.length := by
      unfold mean at *
      have : q.sum ≠ 0 := by intro h; rw [h] at hm; simp at hm
      field_simp
    rw [h2]
    unfold logGap
    have h3 : mean (q.map Real.log) = (q.map Real.log).sum / q.length := by unfold mean; rw [List.length_map]
    rw [h3]
    field_simp
    ring
  have hnn : 0 ≤ (q.map (fun a => a / mean q - 1 - Real.log (a / mean q))).sum := by
    apply List.sum_nonneg
    intro v hv
    obtain ⟨a, ha, rfl⟩ := List.mem_map.1 hv
    exact hterm a ha
  refine ⟨?_, ?_, ?_⟩
  · rw [hsum] at hnn
    exact nonneg_of_mul_nonneg_right hnn hl
  · intro h0
    rw [h0, mul_zero] at hsum
    have hall : ∀ a ∈ q, a = mean q := by
      intro a ha
      by_contra hne
      have hlt : 0 < a / mean q - 1 - Real.log (a / mean q) := by
        have := Real.log_lt_sub_one_of_pos (div_pos (hpos a ha) hm) (by
          intro h; rw [div_eq_one_iff_eq (ne_of_gt hm)] at h; exact hne h)
        linarith
      have := List.single_le_sum (l := q.map (fun a => a / mean q - 1 - Real.log (a / mean q))) (by
        intro v hv
        obtain ⟨b, hb, rfl⟩ := List.mem_map.1 hv
        exact hterm b hb) _ (List.mem_map.2 ⟨a, ha, rfl⟩)
      linarith
    intro a ha b hb
    rw [hall a ha, hall b hb]
  · intro hall
    obtain ⟨a, q', rfl⟩ := List.exists_cons_of_ne_nil hq
    have hrep : a :: q' = List.replicate (q'.length + 1) a := by
      rw [List.eq_replicate_iff]
      exact ⟨by simp, fun b hb => hall b hb a (by simp)⟩
    have hn : ((q'.length : ℝ) + 1) ≠ 0 := by positivity
    unfold logGap mean
    rw [hrep, List.map_replicate]
    simp only [List.sum_replicate, List.length_replicate, nsmul_eq_mul, Nat.cast_add, Nat.cast_one]
    rw [mul_div_cancel_left₀ _ hn, mul_div_cancel_left₀ _ hn, sub_self]

/-- the column fit in exact arithmetic -/
theorem gammaFitCol_real (E : Ext (Fl ℝ)) (hE : ExtNan E) (hR : ExtReal E) (col : List (Fl ℝ))
    (h : ∀ v ∈ col, PosOrNan v) :
    ∃ q : List ℝ, (∀ a ∈ q, 0 < a) ∧ col.filter (fun v => !isNan v) = q.map Fl.fin ∧
      gammaFitCol E col =
        if q = [] then (.nan, .nan)
        else if logGap q = 0 then (.pinf, .fin 0)
        else (.fin (thomAlpha q), .fin (mean q / thomAlpha q)) := by
  obtain ⟨q, hpos, hq, hq'⟩ := filter_posOrNan col h E.log Real.log hE.log_nan hR.log_pos
  refine ⟨q, hpos, hq, ?_⟩
  have h1 := nanmean_fin col q hq
  have h2 := nanmean_fin _ _ hq'
  by_cases hq0 : q = []
  · rw [if_pos hq0]
    rw [if_pos hq0] at h1
    unfold gammaFitCol
    simp only [h1]
    rw [show (Fl.nan : Fl ℝ) = nan from rfl, hE.log_nan]
    simp
  · rw [if_neg hq0]
    rw [if_neg hq0] at h1
    rw [if_neg (by simp [hq0])] at h2
    have hm : 0 < q.sum / q.length := mean_pos q hpos hq0
    have hgap := (logGap_nonneg q hpos hq0).1
    have ha : E.log (nanmean col) - nanmean (col.map E.log) = .fin (logGap q) := by
      rw [h1, h2, hR.log_pos _ hm, Fl.fin_sub]; rfl
    have hsq : E.sqrt (lit 1 + lit 4 * (Fl.fin (logGap q)) / lit 3) = .fin (Real.sqrt (1 + 4 * logGap q / 3)) := by
      simp only [Fl.lit_def, Fl.fin_mul]
      rw [Fl.fin_div_of_ne _ _ (by norm_num), Fl.fin_add]
      push_cast
      rw [hR.sqrt_nonneg _ (by positivity)]
    unfold gammaFitCol
    simp only [ha, hsq]
    by_cases h0 : logGap q = 0
    · rw [if_pos h0, h0]
      simp only [Fl.lit_def, Fl.fin_mul, Fl.fin_add, Fl.fin_div]
      have : (1 + Real.sqrt (1 + 4 * 0 / 3) : ℝ) = 2 := by norm_num
      push_cast
      rw [this, h1]
      simp only [mul_zero, if_true]
      have : (Fl.infSign (2 : ℝ)) = .pinf := by simp [Fl.infSign]
      rw [this]
      rfl
    · rw [if_neg h0]
      have h4 : (4 * logGap q) ≠ 0 := by simpa using h0
      have hpos' : 0 < logGap q := lt_of_le_of_ne hgap (Ne.symm h0)
      have hal : 0 < thomAlpha q := by unfold thomAlpha; positivity
      have e1 : ((lit 1 : Fl ℝ) + Fl.fin (Real.sqrt (1 + 4 * logGap q / 3))) / (lit 4 * Fl.fin (logGap q)) =
          .fin (thomAlpha q) := by
        simp only [Fl.lit_def, Fl.fin_mul, Fl.fin_add]
        push_cast
        rw [Fl.fin_div_of_ne _ _ h4]; rfl
      rw [e1, h1, Fl.fin_div_of_ne _ _ (ne_of_gt hal)]
      rfl

/-! ## C23 -/

/-- positive numbers among the values -/
noncomputable def positives (l : List (Fl ℝ)) : List (Fl ℝ) := l.filter (fun v => flt (lit 0) v)

theorem zeroToNan_posOrNan (v : Fl ℝ) (h : NonnegOrNan v) : PosOrNan (zeroToNan v) := by
  rcases h with rfl | ⟨a, ha, rfl⟩
  · left; rfl
  · unfold zeroToNan
    rw [Fl.lit_def, Fl.feq_fin]
    by_cases h0 : a = 0
    · left; simp [h0]; rfl
    · right
      refine ⟨a, lt_of_le_of_ne ha (Ne.symm h0), ?_⟩
      simp [h0]

theorem positives_eq (l : List (Fl ℝ)) (h : ∀ v ∈ l, NonnegOrNan v) :
    (l.map zeroToNan).filter (fun v => !isNan v) = positives l := by
  induction l with
  | nil => rfl
  | cons a l ih =>
    have ih := ih (fun v hv => h v (List.mem_cons_of_mem _ hv))
    unfold positives at *
    rw [List.map_cons]
    rcases h a (by simp) with rfl | ⟨b, hb, rfl⟩
    · rw [List.filter_cons_of_neg (by rw [← Fl.nan_def, zeroToNan_nan]; simp), List.filter_cons_of_neg (by rw [← Fl.nan_def]; simp), ih]
    · by_cases h0 : b = 0
      · subst h0
        rw [List.filter_cons_of_neg (by simp [zeroToNan, Fl.lit_def]), List.filter_cons_of_neg (by simp [Fl.lit_def]), ih]
      · have : zeroToNan (Fl.fin b) = .fin b := by simp [zeroToNan, Fl.lit_def, h0]
        have hb' := lt_of_le_of_ne hb (Ne.symm h0)
        rw [this, List.filter_cons_of_pos (by simp), List.filter_cons_of_pos (by simp [Fl.lit_def, hb']), ih]

/-- **C23.** `gamma_parameters` on years x calendar steps of precipitation (non-negative or missing): for every calendar
step, let `q` be the positive calibration values. If they are not all equal, alpha and beta are positive numbers with
`alpha * beta` the mean of `q` (and alpha is Thom's estimate); if they are all equal, alpha is infinite and beta is 0;
if there is none, both are missing. -/
theorem C23_parameters (E : Ext (Fl ℝ)) (hE : ExtNan E) (hR : ExtReal E) (n : Nat) (data : List (Fl ℝ))
    (ds cs ce : Int) (per : Periodicity) (hper : per ≠ .other) (hdata : ∀ v ∈ data, NonnegOrNan v) :
    ∃ al be, gammaParameters E ⟨[n, per.steps], data⟩ ds cs ce per = .ok (al, be) ∧
      al.length = per.steps ∧ be.length = per.steps ∧
      ∀ j, j < per.steps → ∃ q : List ℝ,
        positives (stride per.steps j (calibrationValues data n per.steps ds cs ce)) = q.map Fl.fin ∧
        ((∃ a ∈ q, ∃ b ∈ q, a ≠ b) → ∃ α β : ℝ, al[j]? = some (.fin α) ∧ be[j]? = some (.fin β) ∧ 0 < α ∧ 0 < β ∧
          α * β = mean q ∧ α = thomAlpha q) ∧
        (q ≠ [] → (∀ a ∈ q, ∀ b ∈ q, a = b) → al[j]? = some .pinf ∧ be[j]? = some (.fin 0)) ∧
        (q = [] → al[j]? = some .nan ∧ be[j]? = some .nan) := by
  refine ⟨_, _, gammaParameters_fits E hE n data ds cs ce per hper, by simp [gammaFits_length],
    by simp [gammaFits_length], ?_⟩
  intro j hj
  have hcol : ∀ v ∈ stride per.steps j (calibrationValues (data.map zeroToNan) n per.steps ds cs ce), PosOrNan v := by
    intro v hv
    have := mem_calibrationValues _ _ _ _ _ _ _ (mem_of_mem_stride _ _ _ _ hv)
    obtain ⟨w, hw, rfl⟩ := List.mem_map.1 this
    exact zeroToNan_posOrNan w (hdata w hw)
  obtain ⟨q, hpos, hq, hfit⟩ := gammaFitCol_real E hE hR _ hcol
  have hget : (gammaFits E n per.steps data ds cs ce)[j]? = some (gammaFitCol E
      (stride per.steps j (calibrationValues (data.map zeroToNan) n per.steps ds cs ce))) := by
    unfold gammaFits
    rw [List.getElem?_map, List.getElem?_range hj]; rfl
  refine ⟨q, ?_, ?_, ?_, ?_⟩
  · rw [← hq, calibrationValues_map, stride_map]
    symm
    apply positives_eq
    intro v hv
    exact hdata v (mem_calibrationValues _ _ _ _ _ _ _ (mem_of_mem_stride _ _ _ _ hv))
  · rintro ⟨a, ha, b, hb, hab⟩
    have hq0 : q ≠ [] := by rintro rfl; simp at ha
    have hgap := logGap_nonneg q hpos hq0
    have hne : logGap q ≠ 0 := fun h => hab (hgap.2.1 h a ha b hb)
    rw [if_neg hq0, if_neg hne] at hfit
    have hp : 0 < logGap q := lt_of_le_of_ne hgap.1 (Ne.symm hne)
    have hal : 0 < thomAlpha q := by unfold thomAlpha; positivity
    have hm := mean_pos q hpos hq0
    refine ⟨thomAlpha q, mean q / thomAlpha q, ?_, ?_, hal, div_pos hm hal, ?_, rfl⟩
    · rw [List.getElem?_map, hget, hfit]; rfl
    · rw [List.getElem?_map, hget, hfit]; rfl
    · field_simp
  · intro hq0 hall
    have hgap := logGap_nonneg q hpos hq0
    rw [if_neg hq0, if_pos (hgap.2.2 hall)] at hfit
    exact ⟨by rw [List.getElem?_map, hget, hfit]; rfl, by rw [List.getElem?_map, hget, hfit]; rfl⟩
  · intro hq0
    rw [if_pos hq0] at hfit
    exact ⟨by rw [List.getElem?_map, hget, hfit]; rfl, by rw [List.getElem?_map, hget, hfit]; rfl⟩

/-- **C23.** When the positive calibration values of a calendar step are all equal, every index value of the step is
missing. Assumed of scipy: the gamma distribution function with scale 0 is missing. -/
theorem C23_equal_index (E : Ext (Fl ℝ)) (hE : ExtNan E) (hR : ExtReal E) (hscale : ∀ x a, E.gammaCdf x a (.fin 0) = .nan)
    (n : Nat) (data : List (Fl ℝ)) (ds cs ce : Int) (per : Periodicity) (hper : per ≠ .other)
    (hlen : data.length = n * per.steps) (hdata : ∀ v ∈ data, NonnegOrNan v) (t : Arr (Fl ℝ))
    (ht : transformFittedGamma E ⟨[n, per.steps], data⟩ ds cs ce per none none = .ok t) (j : Nat)
    (hall : ∀ a ∈ positives (stride per.steps j (calibrationValues data n per.steps ds cs ce)),
      ∀ b ∈ positives (stride per.steps j (calibrationValues data n per.steps ds cs ce)), a = b)
    (i : Nat) (hi : i < data.length) (hij : i % per.steps = j) : t.data[i]? = some .nan := by
  subst hij
  rw [gamma_value E hE n data ds cs ce per none none t hper hlen ht i _ (List.getElem?_eq_getElem hi)]
  have hm : i % per.steps < per.steps := Nat.mod_lt _ (steps_pos per hper)
  obtain ⟨al, be, hgp, _, _, hcols⟩ := C23_parameters E hE hR n data ds cs ce per hper hdata
  rw [gammaParameters_fits E hE n data ds cs ce per hper] at hgp
  injection hgp with hgp
  injection hgp with h1 h2
  obtain ⟨q, hq, _, heq, hnil⟩ := hcols _ hm
  have hget : (gammaFits E n per.steps data ds cs ce)[i % per.steps]? = some (gammaFitCol E
      (stride per.steps (i % per.steps) (calibrationValues (data.map zeroToNan) n per.steps ds cs ce))) := by
    unfold gammaFits
    rw [List.getElem?_map, List.getElem?_range hm]; rfl
  rw [← h1, ← h2, List.getElem?_map, List.getElem?_map, hget] at heq hnil
  simp only [Option.map_some, Option.some.injEq] at heq hnil
  unfold gammaParamAt gammaTransform1
  simp only
  by_cases hq0 : q = []
  · rw [(hnil hq0).1]
    rw [show (Fl.nan : Fl ℝ) = nan from rfl, hE.gammaCdf_nan_shape]
    simp [hE.normPpf_nan]
  · have := heq hq0 (by
      intro a ha b hb
      apply fin_injective
      exact hall _ (by rw [hq]; exact List.mem_map.2 ⟨a, ha, rfl⟩) _ (by rw [hq]; exact List.mem_map.2 ⟨b, hb, rfl⟩))
    rw [this.2, hscale]
    rw [show (Fl.nan : Fl ℝ) = nan from rfl]
    simp [hE.normPpf_nan]

/-! ## C22 -/

theorem mulc_posOrNan (c : ℝ) (hc : 0 < c) (v : Fl ℝ) (h : PosOrNan v) : PosOrNan (Fl.fin c * v) := by
  rcases h with rfl | ⟨a, ha, rfl⟩
  · left; rfl
  · right; exact ⟨c * a, by positivity, rfl⟩

theorem mean_mulc (c : ℝ) (q : List ℝ) : mean (q.map (c * ·)) = c * mean q := by
  unfold mean
  rw [List.sum_map_mul_left, List.map_id', List.length_map, mul_div_assoc]

theorem logGap_mulc (c : ℝ) (hc : 0 < c) (q : List ℝ) (hpos : ∀ a ∈ q, 0 < a) (hq : q ≠ []) :
    logGap (q.map (c * ·)) = logGap q := by
  have hm := mean_pos q hpos hq
  have hl : (0 : ℝ) < q.length := by
    have := List.length_pos_iff.2 hq
    exact_mod_cast this
  have hlogs : ∀ l : List ℝ, (∀ a ∈ l, 0 < a) → ((l.map (c * ·)).map Real.log).sum =
      l.length * Real.log c + (l.map Real.log).sum := by
    intro l hl
    induction l with
    | nil => simp
    | cons a l ih =>
      simp only [List.map_cons, List.sum_cons, List.length_cons]
      rw [ih (fun b hb => hl b (List.mem_cons_of_mem _ hb)), Real.log_mul (ne_of_gt hc) (ne_of_gt (hl a (by simp)))]
      push_cast; ring
  unfold logGap
  rw [mean_mulc, Real.log_mul (ne_of_gt hc) (ne_of_gt hm)]
  unfold mean
  rw [hlogs q hpos]
  simp only [List.length_map]
  field_simp
  ring

/-- the column fit of rescaled data -/
theorem gammaFitCol_mulc (E : Ext (Fl ℝ)) (hE : ExtNan E) (hR : ExtReal E) (c : ℝ) (hc : 0 < c) (col : List (Fl ℝ))
    (h : ∀ v ∈ col, PosOrNan v) :
    gammaFitCol E (col.map (Fl.fin c * ·)) = ((gammaFitCol E col).1, Fl.fin c * (gammaFitCol E col).2) := by
  obtain ⟨q, hpos, hq, hfit⟩ := gammaFitCol_real E hE hR col h
  obtain ⟨q', hpos', hq', hfit'⟩ := gammaFitCol_real E hE hR (col.map (Fl.fin c * ·)) (by
    intro v hv
    obtain ⟨w, hw, rfl⟩ := List.mem_map.1 hv
    exact mulc_posOrNan c hc w (h w hw))
  obtain ⟨q'', _, hq1, hq2⟩ := filter_posOrNan col h (Fl.fin c * ·) (c * ·) rfl (fun a _ => rfl)
  have e1 : q'' = q := by
    rw [hq] at hq1
    exact ((List.map_injective_iff.2 fin_injective) hq1).symm
  subst e1
  have e2 : q' = q''.map (c * ·) := by
    rw [hq'] at hq2
    exact (List.map_injective_iff.2 fin_injective) hq2
  subst e2
  rw [hfit, hfit']
  by_cases h0 : q'' = []
  · subst h0; rfl
  · rw [if_neg h0, if_neg (by simpa using h0), logGap_mulc c hc q'' hpos h0]
    by_cases hg : logGap q'' = 0
    · rw [if_pos hg, if_pos hg]
      simp
    · rw [if_neg hg, if_neg hg]
      have : thomAlpha (q''.map (c * ·)) = thomAlpha q'' := by unfold thomAlpha; rw [logGap_mulc c hc q'' hpos h0]
      rw [this, mean_mulc, Fl.fin_mul, mul_div_assoc]

theorem mulc_feq_zero (c : ℝ) (hc : 0 < c) (v : Fl ℝ) (h : NonnegOrNan v) : feq (Fl.fin c * v) (lit 0) = feq v (lit 0) := by
  rcases h with rfl | ⟨a, _, rfl⟩
  · rfl
  · simp [Fl.lit_def, ne_of_gt hc]

theorem mulc_zeroToNan (c : ℝ) (hc : 0 < c) (v : Fl ℝ) (h : NonnegOrNan v) :
    zeroToNan (Fl.fin c * v) = Fl.fin c * zeroToNan v := by
  unfold zeroToNan
  rw [mulc_feq_zero c hc v h]
  split
  · rfl
  · rfl

theorem gammaFits_mulc (E : Ext (Fl ℝ)) (hE : ExtNan E) (hR : ExtReal E) (c : ℝ) (hc : 0 < c) (n p : Nat)
    (data : List (Fl ℝ)) (ds cs ce : Int) (hdata : ∀ v ∈ data, NonnegOrNan v) :
    gammaFits E n p (data.map (Fl.fin c * ·)) ds cs ce =
      (gammaFits E n p data ds cs ce).map (fun f => (f.1, Fl.fin c * f.2)) := by
  unfold gammaFits
  have hmm : ∀ g : Nat → Fl ℝ × Fl ℝ, ((List.range p).map g).map (fun f => (f.1, Fl.fin c * f.2)) =
      (List.range p).map (fun j => ((g j).1, Fl.fin c * (g j).2)) := fun g => by rw [List.map_map]; rfl
  rw [hmm]
  apply List.map_congr_left
  intro j _
  have hz : (data.map (Fl.fin c * ·)).map zeroToNan = (data.map zeroToNan).map (Fl.fin c * ·) := by
    rw [List.map_map, List.map_map]
    apply List.map_congr_left
    intro v hv
    exact mulc_zeroToNan c hc v (hdata v hv)
  rw [hz, calibrationValues_map, stride_map, gammaFitCol_mulc E hE hR c hc]
  intro v hv
  have := mem_calibrationValues _ _ _ _ _ _ _ (mem_of_mem_stride _ _ _ _ hv)
  obtain ⟨w, hw, rfl⟩ := List.mem_map.1 this
  exact zeroToNan_posOrNan w (hdata w hw)

/-- **C22.** With precipitation in another unit (all values multiplied by `c > 0`) the gamma shapes are unchanged and
the gamma scales are multiplied by `c`. -/
theorem C22_parameters (E : Ext (Fl ℝ)) (hE : ExtNan E) (hR : ExtReal E) (c : ℝ) (hc : 0 < c) (n : Nat)
    (data : List (Fl ℝ)) (ds cs ce : Int) (per : Periodicity) (hper : per ≠ .other)
    (hdata : ∀ v ∈ data, NonnegOrNan v) :
    ∃ al be, gammaParameters E ⟨[n, per.steps], data⟩ ds cs ce per = .ok (al, be) ∧
      gammaParameters E ⟨[n, per.steps], data.map (Fl.fin c * ·)⟩ ds cs ce per = .ok (al, be.map (Fl.fin c * ·)) := by
  refine ⟨_, _, gammaParameters_fits E hE n data ds cs ce per hper, ?_⟩
  rw [gammaParameters_fits E hE n _ ds cs ce per hper, gammaFits_mulc E hE hR c hc n _ data ds cs ce hdata]
  simp only [List.map_map]
  rfl

theorem allNan_mulc (c : ℝ) (hc : 0 < c) (l : List (Fl ℝ)) : allNan (l.map (Fl.fin c * ·)) = allNan l := by
  unfold allNan
  rw [List.all_map]
  congr 1
  funext v
  exact mulc_isNan c hc v

theorem mulc_allNan_id (c : ℝ) (l : List (Fl ℝ)) (h : allNan l = true) : l.map (Fl.fin c * ·) = l := by
  unfold allNan at h
  rw [List.all_eq_true] at h
  conv_rhs => rw [← List.map_id l]
  apply List.map_congr_left
  intro v hv
  rw [(FloatLaws.isNan_iff v).1 (h v hv)]
  rfl

/-- the gamma transform of rescaled data -/
theorem gamma_mulc (E : Ext (Fl ℝ)) (hE : ExtNan E) (hR : ExtReal E) (c : ℝ) (hc : 0 < c) (n : Nat)
    (data : List (Fl ℝ)) (ds cs ce : Int) (per : Periodicity) (hper : per ≠ .other) (hlen : data.length = n * per.steps)
    (hdata : ∀ v ∈ data, NonnegOrNan v) :
    transformFittedGamma E ⟨[n, per.steps], data.map (Fl.fin c * ·)⟩ ds cs ce per none none =
      transformFittedGamma E ⟨[n, per.steps], data⟩ ds cs ce per none none := by
  cases hn : allNan data with
  | true => rw [mulc_allNan_id c data hn]
  | false =>
    have hn' : allNan (data.map (Fl.fin c * ·)) = false := by rw [allNan_mulc c hc, hn]
    have hl1 : ((gammaFits E n per.steps data ds cs ce).map Prod.fst).length = per.steps := by
      rw [List.length_map, gammaFits_length]
    have hl2 : ((gammaFits E n per.steps data ds cs ce).map Prod.snd).length = per.steps := by
      rw [List.length_map, gammaFits_length]
    have hl3 : ((gammaFits E n per.steps (data.map (Fl.fin c * ·)) ds cs ce).map Prod.fst).length = per.steps := by
      rw [List.length_map, gammaFits_length]
    have hl4 : ((gammaFits E n per.steps (data.map (Fl.fin c * ·)) ds cs ce).map Prod.snd).length = per.steps := by
      rw [List.length_map, gammaFits_length]
    rw [transformFittedGamma_fit E n _ data ds cs ce per none none _ _ _ _ (steps_12_366 per hper) hn (Or.inl rfl)
        (innerGamma_fits E hE n data ds cs ce per hper) (bcast_length _ _ hl1) (bcast_length _ _ hl2),
      transformFittedGamma_fit E n _ _ ds cs ce per none none _ _ _ _ (steps_12_366 per hper) hn' (Or.inl rfl)
        (innerGamma_fits E hE n _ ds cs ce per hper) (bcast_length _ _ hl3) (bcast_length _ _ hl4)]
    congr 2
    apply List.ext_getElem?
    intro i
    by_cases hi : i < data.length
    · obtain ⟨α', β', ha', hb', hv'⟩ := gammaOut_getElem? E n per.steps (data.map (Fl.fin c * ·)) _ _ (by simpa using hlen)
        hl3 hl4 i (Fl.fin c * data[i]) (by rw [List.getElem?_map, List.getElem?_eq_getElem hi]; rfl)
      obtain ⟨α, β, ha, hb, hv⟩ := gammaOut_getElem? E n per.steps data _ _ hlen hl1 hl2 i data[i]
        (List.getElem?_eq_getElem hi)
      rw [hv, hv']
      have hd := hdata data[i] (List.getElem_mem hi)
      rw [gammaFits_mulc E hE hR c hc n _ data ds cs ce hdata, List.map_map] at ha' hb'
      rw [List.getElem?_map] at ha ha' hb hb'
      have hm : i % per.steps < per.steps := Nat.mod_lt _ (steps_pos per hper)
      have hfit : ∃ f, (gammaFits E n per.steps data ds cs ce)[i % per.steps]? = some f ∧
          f = gammaFitCol E (stride per.steps (i % per.steps) (calibrationValues (data.map zeroToNan) n per.steps ds cs ce)) := by
        refine ⟨_, ?_, rfl⟩
        unfold gammaFits
        rw [List.getElem?_map, List.getElem?_range hm]; rfl
      obtain ⟨f, hf, hfeq⟩ := hfit
      rw [hf] at ha ha' hb hb'
      simp only [Option.map_some, Option.some.injEq, Function.comp] at ha ha' hb hb'
      subst ha ha' hb hb'
      have hbeta : f.2 = .nan ∨ ∃ b, f.2 = .fin b := by
        obtain ⟨q, _, _, hq⟩ := gammaFitCol_real E hE hR (stride per.steps (i % per.steps)
          (calibrationValues (data.map zeroToNan) n per.steps ds cs ce)) (by
            intro v hv
            have := mem_calibrationValues _ _ _ _ _ _ _ (mem_of_mem_stride _ _ _ _ hv)
            obtain ⟨w, hw, rfl⟩ := List.mem_map.1 this
            exact zeroToNan_posOrNan w (hdata w hw))
        rw [hfeq, hq]
        split
        · left; rfl
        · split
          · right; exact ⟨_, rfl⟩
          · right; exact ⟨_, rfl⟩
      have hp0 : p0Col n (stride per.steps (i % per.steps) (data.map (Fl.fin c * ·))) =
          p0Col n (stride per.steps (i % per.steps) data) := by
        unfold p0Col
        rw [stride_map, List.countP_map]
        congr 3
        apply List.countP_congr
        intro v hv
        simp only [Function.comp]
        rw [mulc_feq_zero c hc v (hdata v (mem_of_mem_stride _ _ _ _ hv))]
      rw [hp0, mulc_zeroToNan c hc _ hd]
      unfold gammaTransform1
      congr 4
      rcases zeroToNan_posOrNan _ hd with h0 | ⟨a, ha, h0⟩
      · rw [h0]
        show E.gammaCdf nan _ _ = E.gammaCdf nan _ _
        rw [hE.gammaCdf_nan, hE.gammaCdf_nan]
      · rw [h0]
        rcases hbeta with hb | ⟨b, hb⟩
        · rw [hb]
          show E.gammaCdf _ _ .nan = _
          rw [hR.gammaCdf_nan_scale, hR.gammaCdf_nan_scale]
        · rw [hb, Fl.fin_mul, Fl.fin_mul, hR.gammaCdf_scale c a b _ hc]
    · have h1 := gammaOut_length E n per.steps data _ _ hlen hl1 hl2
      have h2 := gammaOut_length E n per.steps (data.map (Fl.fin c * ·)) _ _ (by simpa using hlen) hl3 hl4
      rw [List.getElem?_eq_none (by omega), List.getElem?_eq_none (by omega)]

theorem sumToScale_nonneg (x s : List (Fl ℝ)) (k : Int) (h : ∀ v ∈ x, NonnegOrNan v) (hs : sumToScale x k = .ok s) :
    ∀ v ∈ s, NonnegOrNan v := by
  have hsum : ∀ l : List (Fl ℝ), (∀ v ∈ l, NonnegOrNan v) → NonnegOrNan (fsum l) := by
    intro l hl
    show NonnegOrNan (l.foldr Fl.add (.fin 0))
    induction l with
    | nil => exact Or.inr ⟨0, le_refl _, rfl⟩
    | cons a l ih =>
      rw [List.foldr_cons]
      rcases hl a (by simp) with rfl | ⟨b, hb, rfl⟩
      · left; rfl
      · rcases ih (fun v hv => hl v (List.mem_cons_of_mem _ hv)) with h' | ⟨d, hd, h'⟩
        · left; rw [h']; rfl
        · right; rw [h']; exact ⟨b + d, by positivity, rfl⟩
  unfold sumToScale at hs
  split at hs
  · cases hs; exact h
  · unfold convolveOnes at hs
    split at hs
    · cases hs
    · have key : ∀ r : List (Fl ℝ), ((.ok r : Res (List (Fl ℝ))) >>= fun slidingSums =>
          pure (List.replicate (k - 1).toNat nan ++ slidingSums)) = Except.ok s → (∀ v ∈ r, NonnegOrNan v) →
          ∀ v ∈ s, NonnegOrNan v := by
        intro r hr hall v hv
        simp only [bind, Except.bind, pure, Except.pure, Except.ok.injEq] at hr
        rw [← hr] at hv
        rcases List.mem_append.1 hv with hv | hv
        · left; exact (List.mem_replicate.1 hv).2
        · exact hall v hv
      simp only at hs
      split at hs
      · refine key _ hs ?_
        intro v hv
        obtain ⟨t, _, rfl⟩ := List.mem_map.1 hv
        apply hsum
        intro w hw
        exact h w (List.mem_of_mem_drop (List.mem_of_mem_take hw))
      · refine key _ hs ?_
        intro v hv
        rw [(List.mem_replicate.1 hv).2]
        exact hsum x h

/-- **C22.** The gamma SPI does not depend on the unit: for every series of non-negative or missing values (1-D or 2-D), every
`c > 0`, scale, calibration period and periodicity, `spi` of the series times `c` is `spi` of the series (exact arithmetic;
also when the call raises). -/
theorem C22_spi (E : Ext (Fl ℝ)) (hE : ExtNan E) (hR : ExtReal E) (c : ℝ) (hc : 0 < c) (values : Arr (Fl ℝ))
    (scale ds cs ce : Int) (per : Periodicity) (hdata : ∀ v ∈ values.data, NonnegOrNan v) :
    spi E ⟨values.shape, values.data.map (Fl.fin c * ·)⟩ scale .gamma ds cs ce per none =
      spi E values scale .gamma ds cs ce per none := by
  obtain ⟨shape, data⟩ := values
  simp only at *
  by_cases hdim : shape.length = 2 ∨ shape.length = 1
  swap
  · unfold spi; rw [if_neg hdim, if_neg hdim]
  cases hn : allNan data with
  | true => rw [mulc_allNan_id c data hn]
  | false =>
    have hn' : allNan (data.map (Fl.fin c * ·)) = false := by rw [allNan_mulc c hc, hn]
    have hnn : ∀ v : Fl ℝ, NonnegOrNan v → flt v (lit 0) = false := by
      rintro v (rfl | ⟨a, ha, rfl⟩)
      · rfl
      · rw [Fl.lit_def, Fl.flt_fin]; simpa using ha
    have hdata' : ∀ v ∈ data.map (Fl.fin c * ·), NonnegOrNan v := by
      intro v hv
      obtain ⟨w, hw, rfl⟩ := List.mem_map.1 hv
      rcases hdata w hw with rfl | ⟨a, ha, rfl⟩
      · left; rfl
      · right; exact ⟨c * a, by positivity, rfl⟩
    rw [spi_eq E _ scale .gamma ds cs ce per none hdim hn', spi_eq E _ scale .gamma ds cs ce per none hdim hn]
    simp only
    rw [clipNeg_id _ (fun v hv => hnn v (hdata v hv)), clipNeg_id _ (fun v hv => hnn v (hdata' v hv)),
      mulc_sumToScale c hc]
    cases hs : sumToScale data scale with
    | error e => rfl
    | ok s =>
      simp only [Except.map, bind, Except.bind]
      by_cases hper : per = .other
      · subst hper; rfl
      · obtain ⟨n, h1, h2⟩ := reshapeValues_total s per hper
        obtain ⟨n', h1', h2'⟩ := reshapeValues_total (s.map (Fl.fin c * ·)) per hper
        have hpad : s.map (Fl.fin c * ·) ++ List.replicate (padCount (s.map (Fl.fin c * ·)).length per.steps) nan =
            (s ++ List.replicate (padCount s.length per.steps) nan).map (Fl.fin c * ·) := by
          rw [List.map_append, List.map_replicate, List.length_map]
          rfl
        have hnn' : n' = n := by
          rw [hpad, List.length_map, h2] at h2'
          exact (Nat.eq_of_mul_eq_mul_right (steps_pos per hper) h2').symm
        subst hnn'
        rw [h1, h1', hpad]
        simp only [distTransform, getGammaArgs, bind, Except.bind]
        rw [gamma_mulc E hE hR c hc n' _ ds cs ce per hper h2]
        · rw [List.length_map]
        · intro v hv
          rcases List.mem_append.1 hv with hv | hv
          · exact sumToScale_nonneg data s scale hdata hs v hv
          · left; exact (List.mem_replicate.1 hv).2

/-! ## Concrete cases -/

/-- two years of monthly precipitation: 0, 1, ..., 22 and a missing last month -/
noncomputable def twoYears : List (Fl ℝ) := (List.range 23).map (fun (i : Nat) => Fl.fin (i : ℝ)) ++ [Fl.nan]

theorem twoYears_nonneg : ∀ v ∈ twoYears, NonnegOrNan v := by
  intro v hv
  rcases List.mem_append.1 hv with hv | hv
  · obtain ⟨i, _, rfl⟩ := List.mem_map.1 hv
    exact Or.inr ⟨(i : ℝ), Nat.cast_nonneg i, rfl⟩
  · left; simpa using hv

/-- C22 on two years of data with a zero and a missing month, converted from inches to millimeters -/
example : spi realExt ⟨[24], twoYears.map (Fl.fin (25.4 : ℝ) * ·)⟩ 3 .gamma 2000 2000 2001 .monthly none =
    spi realExt ⟨[24], twoYears⟩ 3 .gamma 2000 2000 2001 .monthly none :=
  C22_spi realExt realExt_nan realExt_real 25.4 (by norm_num) ⟨[24], twoYears⟩ 3 2000 2000 2001 .monthly twoYears_nonneg

/-- the values of February (step 1) of these two years: 1 and 13 -/
theorem twoYears_feb : stride 12 1 (calibrationValues twoYears 2 12 2000 2000 2001) = [Fl.fin ((1 : ℕ) : ℝ), Fl.fin ((13 : ℕ) : ℝ)] := by
  have : calibrationValues twoYears 2 12 2000 2000 2001 = twoYears := rfl
  rw [this]
  rfl

/-- C23 in February of these two years: the parameters are positive and their product is the mean 7 -/
example : ∃ al be : List (Fl ℝ), gammaParameters realExt ⟨[2, 12], twoYears⟩ 2000 2000 2001 .monthly = .ok (al, be) ∧
    ∃ α β : ℝ, al[1]? = some (.fin α) ∧ be[1]? = some (.fin β) ∧ 0 < α ∧ 0 < β ∧ α * β = 7 := by
  obtain ⟨al, be, h, _, _, hcol⟩ := C23_parameters realExt realExt_nan realExt_real 2 twoYears 2000 2000 2001 .monthly
    (by decide) twoYears_nonneg
  refine ⟨al, be, h, ?_⟩
  obtain ⟨q, hq, h1, _, _⟩ := hcol 1 (by decide)
  have hq' : q = [1, 13] := by
    have e : positives (stride Periodicity.monthly.steps 1 (calibrationValues twoYears 2 Periodicity.monthly.steps 2000 2000 2001)) =
        ([1, 13] : List ℝ).map Fl.fin := by
      show positives (stride 12 1 (calibrationValues twoYears 2 12 2000 2000 2001)) = _
      rw [twoYears_feb]
      simp [positives, Fl.lit_def]
    rw [e] at hq
    exact ((List.map_injective_iff.2 (fun a b hab => by injection hab)) hq).symm
  subst hq'
  obtain ⟨α, β, ha, hb, ha0, hb0, hab, _⟩ := h1 ⟨1, by simp, 13, by simp, by norm_num⟩
  exact ⟨α, β, ha, hb, ha0, hb0, by rw [hab]; unfold mean; norm_num⟩

/-- the scale-0 assumption of `C23_equal_index` holds of `realExt` -/
example : ∀ x a, realExt.gammaCdf x a (.fin 0) = .nan := by
  intro x a
  cases x <;> cases a <;> simp [realExt]

end CI.Props
