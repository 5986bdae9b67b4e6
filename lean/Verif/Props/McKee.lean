import Verif.Props.Gamma
import Verif.Props.Arrays
import Verif.Spec.McKee
import Verif.Spec.Thornthwaite

/-!
# C84: the gamma SPI and the published definition (exact real arithmetic)
-/

namespace CI.Props
open Spec (toFl)
open Spec.McKee

theorem isNan_toFl (o : Option ℝ) : isNan (toFl o) = o.isNone := by cases o <;> rfl

theorem fsum_toFl (w : List (Option ℝ)) : fsum (w.map toFl) = toFl (if w.all Option.isSome then some (w.filterMap id).sum else none) := by
  show (w.map toFl).foldr Fl.add (.fin 0) = _
  induction w with
  | nil => simp [toFl]
  | cons o w ih =>
    rw [List.map_cons, List.foldr_cons, ih]
    cases o with
    | none => rfl
    | some a =>
      by_cases h : w.all Option.isSome = true
      · rw [if_pos h, if_pos (by simpa using h)]
        simp only [List.filterMap_cons, id, List.sum_cons]
        rfl
      · rw [if_neg h, if_neg (by simpa using h)]
        rfl

/-- the accumulated series, padded to whole years, is the accumulation of the specification -/
theorem scaled_toFl (x : List (Option ℝ)) (k : ℕ) (h1 : 1 ≤ k) (h2 : k ≤ x.length) :
    ∃ s, sumToScale (x.map toFl) k = .ok s ∧ s.length = x.length ∧
      ∀ m, s ++ List.replicate m (nan : Fl ℝ) = (List.range (x.length + m)).map (fun t => toFl (accum x k t)) := by
  obtain ⟨s, hs, hl, ha, hb, _⟩ := C07_windows_partial (x.map toFl) k h1 (by simpa using h2)
  rw [List.length_map] at hl
  refine ⟨s, hs, hl, ?_⟩
  intro m
  apply List.ext_getElem?
  intro i
  rw [List.getElem?_map]
  by_cases hi : i < x.length + m
  · rw [List.getElem?_range hi, Option.map_some]
    by_cases hx : i < x.length
    · rw [List.getElem?_append_left (by omega)]
      by_cases hk : i + 1 < k
      · rw [ha i hk]
        unfold accum
        simp only
        rw [if_neg (by omega)]
        rfl
      · rw [hb i (by omega) (by simpa using hx)]
        have hacc : toFl (accum x k i) = fsum (slice (x.map toFl) (i + 1 - k) (i + 1)) := by
          rw [slice_map, fsum_toFl]
          unfold accum slice
          have e : i + 1 - (i + 1 - k) = k := by omega
          rw [e]
          simp only
          congr 1
          by_cases hw : ((x.drop (i + 1 - k)).take k).all Option.isSome = true
          · rw [if_pos ⟨by omega, hx, hw⟩, if_pos hw]
          · rw [if_neg (fun h => hw h.2.2), if_neg hw]
        rw [hacc]
        split
        · next h =>
          subst h
          rw [List.getElem?_map, List.getElem?_eq_getElem hx, Option.map_some, slice_map]
          unfold slice
          have e : i + 1 - (i + 1 - 1) = 1 := by omega
          rw [e, Nat.add_sub_cancel, List.drop_eq_getElem_cons hx]
          congr 1
          show _ = Fl.add (toFl x[i]) (.fin 0)
          cases x[i] <;> simp [toFl, Fl.add]
        · rfl
    · rw [List.getElem?_append_right (by omega), List.getElem?_replicate, if_pos (by omega)]
      unfold accum
      simp only
      rw [if_neg (by omega)]
      rfl
  · rw [List.getElem?_eq_none (by simp; omega), List.getElem?_eq_none (by simp; omega)]
    rfl

theorem stride_slice_range {α : Type} (f : ℕ → α) (n p c a m : ℕ) (hc : c < p) (hm : a + m ≤ n) :
    stride p c (slice ((List.range (n * p)).map f) (a * p) ((a + m) * p)) = (List.range m).map (fun y => f ((a + y) * p + c)) := by
  have hle : (a + m) * p ≤ n * p := Nat.mul_le_mul_right _ hm
  have hlen : (slice ((List.range (n * p)).map f) (a * p) ((a + m) * p)).length = m * p := by
    rw [slice_length _ _ _ (Nat.mul_le_mul_right _ (by omega)) (by simpa using hle), ← Nat.sub_mul, Nat.add_sub_cancel_left]
  apply List.ext_getElem?
  intro y
  rw [stride_getElem? p c _ hc]
  by_cases hy : y < m
  · have h1 : (y + 1) * p ≤ m * p := Nat.mul_le_mul_right _ hy
    have h2 : (y + 1) * p = y * p + p := by ring
    have h3 : (a + m) * p = a * p + m * p := by ring
    rw [slice_getElem? _ _ _ _ (by omega), List.getElem?_map, List.getElem?_map, List.getElem?_range hy, List.getElem?_range (by omega)]
    simp only [Option.map_some]
    congr 2
    ring
  · have h1 : m * p ≤ y * p := Nat.mul_le_mul_right _ (by omega)
    rw [List.getElem?_eq_none (by omega), List.getElem?_eq_none (by simpa using hy)]

theorem countP_toFl (f : ℕ → Option ℝ) (l : List ℕ) :
    (l.map (fun y => toFl (f y))).countP (fun v => feq v (lit 0)) = dry (l.filterMap f) := by
  unfold dry
  induction l with
  | nil => rfl
  | cons y l ih =>
    rw [List.map_cons, List.countP_cons, ih]
    cases hy : f y with
    | none =>
      rw [List.filterMap_cons_none hy]
      have : feq (toFl none) (lit 0 : Fl ℝ) = false := by rw [show toFl none = nan from rfl]; simp
      simp [this]
    | some a =>
      rw [List.filterMap_cons_some hy, List.countP_cons]
      have : feq (toFl (some a)) (lit 0 : Fl ℝ) = decide (a = 0) := by
        show feq (Fl.fin a) _ = _
        rw [Fl.lit_def, Fl.feq_fin]; simp
      rw [this]

theorem positives_toFl (f : ℕ → Option ℝ) (l : List ℕ) :
    positives (l.map (fun y => toFl (f y))) = (wet (l.filterMap f)).map Fl.fin := by
  unfold positives wet
  induction l with
  | nil => rfl
  | cons y l ih =>
    rw [List.map_cons]
    cases hy : f y with
    | none =>
      rw [List.filterMap_cons_none hy, List.filter_cons_of_neg (by rw [show toFl none = nan from rfl]; simp), ih]
    | some a =>
      rw [List.filterMap_cons_some hy]
      have : flt (lit 0) (toFl (some a)) = decide (0 < a) := by
        show flt _ (Fl.fin a) = _
        rw [Fl.lit_def, Fl.flt_fin]; simp
      by_cases ha : 0 < a
      · rw [List.filter_cons_of_pos (by rw [this]; simpa using ha), List.filter_cons_of_pos (by simpa using ha), ih, List.map_cons]; rfl
      · rw [List.filter_cons_of_neg (by rw [this]; simpa using ha), List.filter_cons_of_neg (by simpa using ha), ih]

theorem accum_nonneg (x : List (Option ℝ)) (hx : ∀ a, some a ∈ x → 0 ≤ a) (k t : ℕ) (v : ℝ) (h : accum x k t = some v) : 0 ≤ v := by
  unfold accum at h
  dsimp only at h
  split at h
  · cases h
    apply List.sum_nonneg
    intro a ha
    obtain ⟨o, ho, e⟩ := List.mem_filterMap.1 ha
    simp only [id] at e
    subst e
    exact hx a (List.mem_of_mem_drop (List.mem_of_mem_take ho))
  · cases h

theorem toFl_nonnegOrNan (o : Option ℝ) (h : ∀ a, o = some a → 0 ≤ a) : NonnegOrNan (toFl o) := by
  cases o with
  | none => exact Or.inl rfl
  | some a => exact Or.inr ⟨a, h a rfl, rfl⟩

theorem npClip_clamp (z : ℝ) : npClip (lit (-3.09)) (lit 3.09) (Fl.fin z) = .fin (clamp z) := by
  unfold npClip clamp
  rw [Fl.lit_def, Fl.lit_def, Fl.flt_fin, Fl.flt_fin]
  have e1 : (((-3.09 : ℚ)) : ℝ) = -3.09 := by norm_num
  have e2 : (((3.09 : ℚ)) : ℝ) = 3.09 := by norm_num
  rw [e1, e2]
  simp only [decide_eq_true_eq, Fl.isNan_fin, Bool.false_eq_true, if_false]
  split
  · next h => rw [max_eq_left (le_trans (min_le_right _ _) h.le)]
  · next h =>
    split
    · next h' => rw [min_eq_left h'.le, max_eq_right (by norm_num)]
    · next h' => rw [min_eq_right (not_lt.1 h'), max_eq_right (not_lt.1 h)]

/-- number of years, the last one possibly incomplete -/
def yearsOf (len p : ℕ) : ℕ := (len + p - 1) / p

/-- **C84 (value).** What the gamma SPI is, for every precipitation record with missing values, every scale up to the length of the record, every calibration
period inside the record: at a step with a positive accumulation the index is the published one for Thom's estimates from the calibration years, but with
the probability of zero taken as the number of zero accumulations in the whole record divided by the number of years of the record. (The positive
accumulations of the calendar step in the calibration years must not be all equal, see C23.) -/
theorem C84_value (E : Ext (Fl ℝ)) (hE : ExtNan E) (hR : ExtReal E) (G : ℝ → ℝ → ℝ → ℝ) (Φ : ℝ → ℝ)
    (hG : ∀ v a b, 0 < v → 0 < a → 0 < b → E.gammaCdf (.fin v) (.fin a) (.fin b) = .fin (G v a b) ∧ 0 < G v a b ∧ G v a b < 1)
    (hΦ : ∀ q, 0 < q → q < 1 → E.normPpf (.fin q) = .fin (Φ q))
    (x : List (Option ℝ)) (hx : ∀ a, some a ∈ x → 0 ≤ a) (k : ℕ) (h1 : 1 ≤ k) (h2 : k ≤ x.length) (per : Periodicity) (hper : per ≠ .other)
    (ds cs ce : ℤ) (c1 : ds ≤ cs) (c2 : cs ≤ ce) (c3 : ce < ds + yearsOf x.length per.steps) (hsome : ∃ a, some a ∈ x) :
    ∃ out, spi E (Arr.of1d (x.map toFl)) k .gamma ds cs ce per none = .ok out ∧ out.length = x.length ∧
      ∀ t v, accum x k t = some v → 0 < v →
        let c := t % per.steps
        let n := yearsOf x.length per.steps
        let s := sample x k per.steps c (cs - ds).toNat (ce - cs + 1).toNat
        (∃ a ∈ wet s, ∃ b ∈ wet s, a ≠ b) →
        out[t]? = some (.fin (clamp (index G Φ ((dry (sample x k per.steps c 0 n) : ℝ) / n) s v))) := by
  have hnn : ∃ v ∈ (Arr.of1d (x.map toFl)).data, isNan v = false := by
    obtain ⟨a, ha⟩ := hsome
    exact ⟨toFl (some a), List.mem_map.2 ⟨_, ha, rfl⟩, rfl⟩
  have hp := steps_pos per hper
  obtain ⟨out, ho, hl⟩ := C10_gamma E (Arr.of1d (x.map toFl)) k ds cs ce per (Or.inl rfl)
    (by cases per <;> simp_all) (by exact_mod_cast h1) hnn
  refine ⟨out, ho, by simpa [Arr.of1d] using hl, ?_⟩
  intro t v hv hv0 c n s htwo
  have htx : t < x.length := by
    unfold accum at hv
    dsimp only at hv
    split at hv
    · next h => exact h.2.1
    · cases hv
  obtain ⟨_, s', n', tr, hs', hlen, htr, hout⟩ := spi_point E _ _ _ _ _ _ _ _ _ (allNan_false hnn) ho
  have hclip : clipNeg (Arr.of1d (x.map toFl)).data = x.map toFl := by
    apply clipNeg_id
    intro w hw
    obtain ⟨o, ho, rfl⟩ := List.mem_map.1 hw
    cases o with
    | none => rw [show toFl none = nan from rfl]; simp
    | some a =>
      show flt (Fl.fin a) _ = false
      rw [Fl.lit_def, Fl.flt_fin]
      simpa using hx a ho
  rw [hclip] at hs'
  obtain ⟨s'', e1, e2, e3⟩ := scaled_toFl x k h1 h2
  rw [e1] at hs'
  cases hs'
  rw [e3] at htr hlen
  rw [e2] at htr hlen
  have hdata : x.length + padCount x.length per.steps = n' * per.steps := by simpa using hlen
  have hnn' : n' = n := by
    show n' = (x.length + per.steps - 1) / per.steps
    have := padCount_lt x.length per.steps hp
    symm
    rw [Nat.div_eq_iff hp]
    constructor
    · omega
    · have : n' * per.steps + per.steps = (n' + 1) * per.steps := by ring
      omega
  subst hnn'
  rw [hdata] at htr
  generalize hd : (List.range (n * per.steps)).map (fun t => toFl (accum x k t)) = data at htr
  have hdl : data.length = n * per.steps := by rw [← hd]; simp
  have hcp : c < per.steps := Nat.mod_lt _ hp
  have htn : t < n * per.steps := by omega
  have hget : data[t]? = some (.fin v) := by
    rw [← hd, List.getElem?_map, List.getElem?_range htn, Option.map_some, hv]; rfl
  have hcol : stride per.steps c (calibrationValues data n per.steps ds cs ce) =
      (List.range (ce - cs + 1).toNat).map (fun y => toFl (accum x k (((cs - ds).toNat + y) * per.steps + c))) := by
    have c3' : ce < ds + n := c3
    rw [calibrationValues_within data n _ ds cs ce c1 (by omega) (by omega), ← hd]
    have : (ce + 1 - ds).toNat = (cs - ds).toNat + (ce - cs + 1).toNat := by omega
    rw [this, stride_slice_range _ _ _ _ _ _ hcp (by omega)]
  have hcol0 : stride per.steps c data = (List.range n).map (fun y => toFl (accum x k ((0 + y) * per.steps + c))) := by
    rw [← stride_slice_range (fun t => toFl (accum x k t)) n per.steps c 0 n hcp (by omega), hd]
    congr 1
    unfold slice
    simp [hdl]
  have htr' : transformFittedGamma E ⟨[n, per.steps], data⟩ ds cs ce per none none = .ok tr := htr
  rw [hout t (by simpa [Arr.of1d] using htx), gamma_value E hE n data ds cs ce per none none tr hper hdl htr' t _ hget]
  have hz : zeroToNan (Fl.fin v) = .fin v := by
    unfold zeroToNan
    rw [Fl.lit_def, Fl.feq_fin, if_neg (by simpa using hv0.ne')]
  have hpar : gammaParamAt E n per.steps data ds cs ce none none c = (.fin (shape (wet s)), .fin (scale (wet s))) ∧ 0 < shape (wet s) ∧ 0 < scale (wet s) := by
    have hpn : ∀ w ∈ stride per.steps c (calibrationValues (data.map zeroToNan) n per.steps ds cs ce), PosOrNan w := by
      intro w hw
      have := mem_calibrationValues _ _ _ _ _ _ _ (mem_of_mem_stride _ _ _ _ hw)
      obtain ⟨u, hu, rfl⟩ := List.mem_map.1 this
      apply zeroToNan_posOrNan
      rw [← hd] at hu
      obtain ⟨i, _, rfl⟩ := List.mem_map.1 hu
      exact toFl_nonnegOrNan _ (fun a ha => accum_nonneg x hx k i a ha)
    obtain ⟨q, hpos, hq, hfit⟩ := gammaFitCol_real E hE hR _ hpn
    have hqs : q = wet s := by
      rw [calibrationValues_map, stride_map, positives_eq, hcol, positives_toFl] at hq
      · have := List.map_injective_iff.2 fin_injective hq
        exact this.symm
      · intro w hw
        rw [hcol] at hw
        obtain ⟨y, _, rfl⟩ := List.mem_map.1 hw
        exact toFl_nonnegOrNan _ (fun a ha => accum_nonneg x hx k _ a ha)
    subst hqs
    obtain ⟨a, ha, b, hb, hab⟩ := htwo
    have hq0 : wet s ≠ [] := List.ne_nil_of_mem ha
    have hgap := logGap_nonneg (wet s) hpos hq0
    have hne : logGap (wet s) ≠ 0 := fun h => hab (hgap.2.1 h a ha b hb)
    have hgp : 0 < logGap (wet s) := lt_of_le_of_ne hgap.1 (Ne.symm hne)
    rw [if_neg hq0, if_neg hne] at hfit
    have hsh : shape (wet s) = thomAlpha (wet s) := by
      show 1 / (4 * logGap (wet s)) * (1 + Real.sqrt (1 + 4 * logGap (wet s) / 3)) = _
      unfold thomAlpha
      rw [one_div, inv_mul_eq_div]
    have hal : 0 < thomAlpha (wet s) := by unfold thomAlpha; positivity
    refine ⟨?_, by rw [hsh]; exact hal, ?_⟩
    · show gammaFitCol E _ = _
      rw [hfit, hsh]
      unfold scale
      rw [hsh]; rfl
    · unfold scale
      rw [hsh]
      exact div_pos (mean_pos (wet s) hpos hq0) hal
  obtain ⟨hpar, hsh, hsc⟩ := hpar
  have hn0 : 0 < n := by
    rcases Nat.eq_zero_or_pos n with h0 | h0
    · rw [h0] at htn; omega
    · exact h0
  have hnr : (0 : ℝ) < n := by exact_mod_cast hn0
  set z := dry (sample x k per.steps c 0 n) with hzdef
  have hp0 : p0Col n (stride per.steps c data) = .fin ((z : ℝ) / n) := by
    unfold p0Col
    rw [hcol0, countP_toFl, Fl.lit_def, Fl.lit_def, Fl.fin_div_of_ne _ _ (by simpa using hn0.ne')]
    simp only [Rat.cast_natCast, hzdef]
    rfl
  -- the step itself is not zero, so there are fewer zeros than years
  have hzn : z < n := by
    have hmem : v ∈ sample x k per.steps c 0 n := by
      refine List.mem_filterMap.2 ⟨t / per.steps, ?_, ?_⟩
      · rw [List.mem_range, Nat.div_lt_iff_lt_mul hp]; exact htn
      · rw [Nat.zero_add, Nat.div_add_mod' t per.steps]; exact hv
    have h3 : (sample x k per.steps c 0 n).length ≤ n := by
      unfold sample
      exact le_trans (List.length_filterMap_le _ _) (by simp)
    have h4 : z < (sample x k per.steps c 0 n).length := by
      rw [hzdef]
      unfold dry
      rw [List.countP_lt_length_iff]
      exact ⟨v, hmem, by simpa using hv0.ne'⟩
    omega
  have hz1 : (z : ℝ) / n < 1 := by
    rw [div_lt_one hnr]; exact_mod_cast hzn
  have hz0 : 0 ≤ (z : ℝ) / n := by positivity
  show Option.map _ (some (gammaTransform1 E (p0Col n (stride per.steps c data)) (gammaParamAt E n per.steps data ds cs ce none none c).1
    (gammaParamAt E n per.steps data ds cs ce none none c).2 (zeroToNan (Fl.fin v)))) = _
  rw [hpar, hp0, hz, Option.map_some]
  unfold gammaTransform1
  obtain ⟨g1, g2, g3⟩ := hG v _ _ hv0 hsh hsc
  rw [g1, show (lit 1 : Fl ℝ) = .fin 1 by rw [Fl.lit_def]; norm_num, Fl.fin_sub, Fl.fin_mul, Fl.fin_add]
  have hq1 : 0 < (z : ℝ) / n + (1 - (z : ℝ) / n) * G v (shape (wet s)) (scale (wet s)) := by
    have := mul_pos (sub_pos.2 hz1) g2; linarith
  have hq2 : (z : ℝ) / n + (1 - (z : ℝ) / n) * G v (shape (wet s)) (scale (wet s)) < 1 := by
    have := mul_lt_mul_of_pos_left g3 (sub_pos.2 hz1); linarith
  rw [hΦ _ hq1 hq2, npClip_clamp]
  rfl

/-- **C84 (`_partial`: false for zero accumulations, see `C84_fails`, and when the share of zeros in the record differs from that in the calibration
years).** At a step with a positive accumulation the index is the published one, if the number of zeros of the calendar step in the record, divided by the
number of years, is the share of zeros among the accumulations of the calibration years. -/
theorem C84_partial (E : Ext (Fl ℝ)) (hE : ExtNan E) (hR : ExtReal E) (G : ℝ → ℝ → ℝ → ℝ) (Φ : ℝ → ℝ)
    (hG : ∀ v a b, 0 < v → 0 < a → 0 < b → E.gammaCdf (.fin v) (.fin a) (.fin b) = .fin (G v a b) ∧ 0 < G v a b ∧ G v a b < 1)
    (hΦ : ∀ q, 0 < q → q < 1 → E.normPpf (.fin q) = .fin (Φ q))
    (x : List (Option ℝ)) (hx : ∀ a, some a ∈ x → 0 ≤ a) (k : ℕ) (h1 : 1 ≤ k) (h2 : k ≤ x.length) (per : Periodicity) (hper : per ≠ .other)
    (ds cs ce : ℤ) (c1 : ds ≤ cs) (c2 : cs ≤ ce) (c3 : ce < ds + yearsOf x.length per.steps) (hsome : ∃ a, some a ∈ x) :
    ∃ out, spi E (Arr.of1d (x.map toFl)) k .gamma ds cs ce per none = .ok out ∧ out.length = x.length ∧
      ∀ t v, accum x k t = some v → 0 < v →
        let s := sample x k per.steps (t % per.steps) (cs - ds).toNat (ce - cs + 1).toNat
        (∃ a ∈ wet s, ∃ b ∈ wet s, a ≠ b) →
        (dry (sample x k per.steps (t % per.steps) 0 (yearsOf x.length per.steps)) : ℝ) / yearsOf x.length per.steps = zeroShare s →
        out[t]? = some (.fin (clamp (index G Φ (zeroShare s) s v))) := by
  obtain ⟨out, ho, hl, hv⟩ := C84_value E hE hR G Φ hG hΦ x hx k h1 h2 per hper ds cs ce c1 c2 c3 hsome
  refine ⟨out, ho, hl, ?_⟩
  intro t v ht hv0 s h2 hq
  rw [hv t v ht hv0 h2]
  simp only [hq]
  rfl

/-- **C84 is false** for zero accumulations, in every record: the index is missing, whereas the published index is the normal quantile of the probability
of zero (`G` is 0 at 0). -/
theorem C84_fails (E : Ext (Fl ℝ)) (hE : ExtNan E) (x : List (Option ℝ)) (hx : ∀ a, some a ∈ x → 0 ≤ a) (k : ℕ) (h1 : 1 ≤ k) (h2 : k ≤ x.length)
    (per : Periodicity) (ds cs ce : ℤ) (out : List (Fl ℝ)) (h : spi E (Arr.of1d (x.map toFl)) k .gamma ds cs ce per none = .ok out)
    (t : ℕ) (ht : accum x k t = some 0) : out[t]? = some .nan := by
  have htx : t < x.length ∧ ∃ a, some a ∈ x := by
    unfold accum at ht
    dsimp only at ht
    split at ht
    · next hc =>
      refine ⟨hc.2.1, ?_⟩
      have hlen : 0 < ((x.drop (t + 1 - k)).take k).length := by
        rw [List.length_take, List.length_drop]; omega
      obtain ⟨o, ho⟩ := List.exists_mem_of_length_pos hlen
      have := List.all_eq_true.1 hc.2.2 o ho
      cases o with
      | none => cases this
      | some a => exact ⟨a, List.mem_of_mem_drop (List.mem_of_mem_take ho)⟩
    · cases ht
  obtain ⟨htx, a, ha⟩ := htx
  have hnn : ∃ v ∈ (Arr.of1d (x.map toFl)).data, isNan v = false := ⟨toFl (some a), List.mem_map.2 ⟨_, ha, rfl⟩, rfl⟩
  obtain ⟨hper, s', n, tr, hs', hlen, htr, hout⟩ := spi_point E _ _ _ _ _ _ _ _ _ (allNan_false hnn) h
  have hclip : clipNeg (Arr.of1d (x.map toFl)).data = x.map toFl := by
    apply clipNeg_id
    intro w hw
    obtain ⟨o, ho, rfl⟩ := List.mem_map.1 hw
    cases o with
    | none => rw [show toFl none = nan from rfl]; simp
    | some a =>
      show flt (Fl.fin a) _ = false
      rw [Fl.lit_def, Fl.flt_fin]
      simpa using hx a ho
  rw [hclip] at hs'
  obtain ⟨s'', e1, e2, e3⟩ := scaled_toFl x k h1 h2
  rw [e1] at hs'
  cases hs'
  rw [e3] at htr hlen
  rw [e2] at htr hlen
  have htr' : transformFittedGamma E ⟨[n, per.steps], _⟩ ds cs ce per none none = .ok tr := htr
  have hget : ((List.range (x.length + padCount x.length per.steps)).map (fun t => toFl (accum x k t)))[t]? = some (.fin 0) := by
    rw [List.getElem?_map, List.getElem?_range (by omega), Option.map_some, ht]; rfl
  rw [hout t (by simpa [Arr.of1d] using htx), gamma_value E hE n _ ds cs ce per none none tr hper hlen htr' t _ hget]
  have hz : zeroToNan (Fl.fin (0 : ℝ)) = nan := by
    unfold zeroToNan
    rw [Fl.lit_def, Fl.feq_fin, if_pos (by simp)]
  rw [hz, gammaTransform1_nan E hE, Option.map_some, npClip_nan]
  rfl

/-! ## A concrete case: the incomplete gamma function, three years of months 0, 1, 2, ... -/

theorem gammaP_range (a x : ℝ) (ha : 0 < a) (hx : 0 < x) : 0 < gammaP a x ∧ gammaP a x < 1 := by
  have hint := Real.GammaIntegral_convergent ha
  have hcomm : ∀ t : ℝ, Real.exp (-t) * t ^ (a - 1) = t ^ (a - 1) * Real.exp (-t) := fun t => mul_comm _ _
  simp only [hcomm] at hint
  have hG := Real.Gamma_eq_integral ha
  simp only [hcomm] at hG
  have h0 : ∀ t ∈ Set.Ioi (0 : ℝ), 0 < t ^ (a - 1) * Real.exp (-t) := by
    intro t ht
    exact mul_pos (Real.rpow_pos_of_pos ht _) (Real.exp_pos _)
  have hIoc : MeasureTheory.IntegrableOn (fun t : ℝ => t ^ (a - 1) * Real.exp (-t)) (Set.Ioc 0 x) := hint.mono_set Set.Ioc_subset_Ioi_self
  have hIoi : MeasureTheory.IntegrableOn (fun t : ℝ => t ^ (a - 1) * Real.exp (-t)) (Set.Ioi x) := hint.mono_set (Set.Ioi_subset_Ioi hx.le)
  have hsplit : Real.Gamma a = (∫ t in (0 : ℝ)..x, t ^ (a - 1) * Real.exp (-t)) + ∫ t in Set.Ioi x, t ^ (a - 1) * Real.exp (-t) := by
    rw [hG, intervalIntegral.integral_of_le hx.le, ← MeasureTheory.setIntegral_union (Set.Ioc_disjoint_Ioi le_rfl) measurableSet_Ioi hIoc hIoi,
      Set.Ioc_union_Ioi_eq_Ioi hx.le]
  have hp1 : 0 < ∫ t in (0 : ℝ)..x, t ^ (a - 1) * Real.exp (-t) := by
    apply intervalIntegral.intervalIntegral_pos_of_pos_on
    · rw [intervalIntegrable_iff_integrableOn_Ioc_of_le hx.le]; exact hIoc
    · intro t ht; exact h0 t ht.1
    · exact hx
  have hp2 : 0 < ∫ t in Set.Ioi x, t ^ (a - 1) * Real.exp (-t) := by
    have hsub : Set.Ioc x (x + 1) ⊆ Set.Ioi x := Set.Ioc_subset_Ioi_self
    have hle : ∫ t in Set.Ioc x (x + 1), t ^ (a - 1) * Real.exp (-t) ≤ ∫ t in Set.Ioi x, t ^ (a - 1) * Real.exp (-t) := by
      apply MeasureTheory.setIntegral_mono_set hIoi
      · filter_upwards [MeasureTheory.self_mem_ae_restrict (measurableSet_Ioi (a := x))] with t ht
        exact (h0 t (lt_trans hx ht)).le
      · exact hsub.eventuallyLE
    refine lt_of_lt_of_le ?_ hle
    rw [← intervalIntegral.integral_of_le (by linarith)]
    apply intervalIntegral.intervalIntegral_pos_of_pos_on
    · rw [intervalIntegrable_iff_integrableOn_Ioc_of_le (by linarith)]; exact hIoi.mono_set hsub
    · intro t ht; exact h0 t (lt_trans hx ht.1)
    · linarith
  have hGp := Real.Gamma_pos_of_pos ha
  unfold gammaP
  refine ⟨div_pos hp1 hGp, ?_⟩
  rw [div_lt_one hGp]
  linarith

theorem realExt_G (v a b : ℝ) (hv : 0 < v) (ha : 0 < a) (hb : 0 < b) :
    realExt.gammaCdf (.fin v) (.fin a) (.fin b) = .fin (gammaP a (v / b)) ∧ 0 < gammaP a (v / b) ∧ gammaP a (v / b) < 1 := by
  refine ⟨?_, gammaP_range a _ ha (div_pos hv hb)⟩
  show (if 0 < a ∧ 0 < b then Fl.fin (if v ≤ 0 then 0 else gammaP a (v / b)) else .nan) = _
  rw [if_pos ⟨ha, hb⟩, if_neg (by linarith)]

theorem realExt_Φ (q : ℝ) (h0 : 0 < q) (h1 : q < 1) : realExt.normPpf (.fin q) = .fin (8 * (q - 1 / 2)) := by
  show (if 0 ≤ q ∧ q ≤ 1 then Fl.fin (8 * (q - 1 / 2)) else .nan) = _
  rw [if_pos ⟨h0.le, h1.le⟩]

/-- three years of months with precipitation 0, 1, 2, ... -/
noncomputable def ramp : List (Option ℝ) := (List.range 36).map (fun i : ℕ => some (i : ℝ))

theorem accum_ramp (t : ℕ) (ht : t < 36) : accum ramp 1 t = some (t : ℝ) := by
  unfold accum
  have hl : ramp.length = 36 := by simp [ramp]
  have hg : ramp[t]'(by omega) = some (t : ℝ) := by simp [ramp]
  have hd : (ramp.drop (t + 1 - 1)).take 1 = [some (t : ℝ)] := by
    rw [Nat.add_sub_cancel, List.drop_eq_getElem_cons (by omega), hg]; rfl
  simp only [hd]
  rw [if_pos ⟨by omega, by omega, by simp⟩]
  simp

/-- January of the second year (12 mm; the sample is 0, 12, 24, the probability of zero 1/3): the published index. The first January gets no index. -/
example : ∃ out, spi realExt (Arr.of1d (ramp.map toFl)) (1 : ℕ) .gamma 2000 2000 2002 .monthly none = .ok out ∧ out[0]? = some .nan ∧
    out[12]? = some (.fin (clamp (index (fun v a b => gammaP a (v / b)) (fun q => 8 * (q - 1 / 2)) (1 / 3) [0, 12, 24] 12))) := by
  have hx : ∀ a, some a ∈ ramp → 0 ≤ a := by
    intro a ha
    obtain ⟨i, _, h⟩ := List.mem_map.1 ha
    cases h
    positivity
  have hl : ramp.length = 36 := by simp [ramp]
  obtain ⟨out, ho, _, hv⟩ := C84_partial realExt realExt_nan realExt_real (fun v a b => gammaP a (v / b)) (fun q => 8 * (q - 1 / 2))
    realExt_G realExt_Φ ramp hx 1 le_rfl (by omega) .monthly (by simp) 2000 2000 2002 le_rfl (by norm_num) (by rw [hl]; norm_num [yearsOf, Periodicity.steps])
    ⟨0, List.mem_map.2 ⟨0, by simp, by norm_num⟩⟩
  refine ⟨out, ho, C84_fails realExt realExt_nan ramp hx 1 le_rfl (by omega) .monthly 2000 2000 2002 out ho 0 (by simpa using accum_ramp 0 (by omega)), ?_⟩
  have hs : sample ramp 1 12 0 0 3 = [0, 12, 24] := by
    unfold sample
    rw [show List.range 3 = [0, 1, 2] from rfl]
    simp only [List.filterMap_cons, List.filterMap_nil]
    rw [accum_ramp _ (by omega), accum_ramp _ (by omega), accum_ramp _ (by omega)]
    norm_num
  have hz : zeroShare [0, 12, 24] = 1 / 3 := by
    unfold zeroShare dry; norm_num
  have hw : wet [0, 12, 24] = [12, 24] := by
    unfold wet; norm_num
  have h12 := hv 12 12 (by simpa using accum_ramp 12 (by omega)) (by norm_num)
  rw [hl] at h12
  have e1 : (12 % Periodicity.monthly.steps) = 0 := rfl
  have e2 : ((2000 : ℤ) - 2000).toNat = 0 := rfl
  have e3 : ((2002 : ℤ) - 2000 + 1).toNat = 3 := rfl
  have e4 : yearsOf 36 Periodicity.monthly.steps = 3 := rfl
  have e5 : Periodicity.monthly.steps = 12 := rfl
  rw [e1, e2, e3, e4, e5, hs] at h12
  simp only [hz, hw] at h12
  apply h12
  · exact ⟨12, by simp, 24, by simp, by norm_num⟩
  · unfold dry; norm_num

end CI.Props
