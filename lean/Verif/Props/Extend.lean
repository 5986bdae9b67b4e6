import Verif.Props.SpiFit
import Verif.Props.Pnp

/-!
# C88: appending new data

A record `x` is extended by further values `y` (the usual monthly update). The calibration years lie in the complete
years of `x`. Generic float type where possible.
-/

namespace CI.Props

variable {F : Type} [FloatOps F]

/-! ## The accumulated values -/

/-- accumulated values of a prefix -/
theorem sumToScale_append (x y : List F) (k : Nat) (h1 : 1 ≤ k) (hk : k ≤ x.length) :
    ∃ s s', sumToScale x k = .ok s ∧ sumToScale (x ++ y) k = .ok s' ∧ s.length = x.length ∧
      s'.length = x.length + y.length ∧ ∀ i, i < x.length → s'[i]? = s[i]? := by
  unfold sumToScale
  by_cases e : (k : Int) = 1
  · rw [if_pos e, if_pos e]
    exact ⟨x, x ++ y, rfl, rfl, rfl, by simp, fun i hi => List.getElem?_append_left hi⟩
  · have hx : x ≠ [] := by rintro rfl; simp at hk; omega
    rw [if_neg e, if_neg e]
    unfold convolveOnes
    have g1 : ¬ ((k : Int) ≤ 0 ∨ x = []) := by rintro (h | h); omega; exact hx h
    have g2 : ¬ ((k : Int) ≤ 0 ∨ x ++ y = []) := by
      rintro (h | h)
      · omega
      · exact hx (List.append_eq_nil_iff.1 h).1
    have g3 : k ≤ (x ++ y).length := by rw [List.length_append]; omega
    simp only [bind, Except.bind, pure, Except.pure, Int.toNat_natCast, if_neg g1, if_neg g2, if_pos hk, if_pos g3]
    have e1 : ((k : Int) - 1).toNat = k - 1 := by omega
    refine ⟨_, _, rfl, rfl, ?_, ?_, ?_⟩
    · simp [e1]; omega
    · simp [e1]; omega
    · intro i hi
      rw [e1, List.getElem?_append, List.getElem?_append]
      simp only [List.length_replicate]
      split
      · rfl
      · rename_i h
        rw [List.getElem?_map, List.getElem?_map, List.getElem?_range (by simp; omega), List.getElem?_range (by omega)]
        simp only [Option.map_some, Option.some.injEq]
        congr 1
        apply slice_congr
        intro j _ hj
        exact List.getElem?_append_left (by omega)

/-! ## Percentage of normal -/

/-- **C88 (percentage of normal).** Appending values to a record does not change the percentage of normal of the earlier
steps, for every scale up to the length of the record and calibration years that lie within it. -/
theorem C88_pnp (x y : List F) (k : Nat) (ds cs ce : Int) (per : Periodicity) (hper : per ≠ .other) (h1 : 1 ≤ k)
    (hk : k ≤ x.length) (hds : ds ≤ cs) (hce : cs ≤ ce) (hfull : (ce - ds + 1) * pnpSteps per ≤ x.length) :
    ∃ out out', percentageOfNormal x (some k) ds cs ce per = .ok out ∧
      percentageOfNormal (x ++ y) (some k) ds cs ce per = .ok out' ∧ out = out'.take x.length := by
  have hx : x ≠ [] := by rintro rfl; simp at hk; omega
  have h12 : (12 : Int) ≤ pnpSteps per := by cases per <;> simp_all [pnpSteps]
  have hspan : (ce - cs + 1) * 12 ≤ x.length := by
    have : (ce - cs + 1) * 12 ≤ (ce - ds + 1) * pnpSteps per := by
      calc (ce - cs + 1) * 12 ≤ (ce - ds + 1) * 12 := by omega
        _ ≤ (ce - ds + 1) * pnpSteps per := Int.mul_le_mul_of_nonneg_left h12 (by omega)
    omega
  obtain ⟨s, out, hs, ho, hl, hv⟩ := C28_ratio x k ds cs ce per hper h1 hx hds hce hspan
  obtain ⟨s', out', hs', ho', hl', hv'⟩ := C28_ratio (x ++ y) k ds cs ce per hper h1 (by simp [hx]) hds hce
    (by simp only [List.length_append]; push_cast; omega)
  obtain ⟨t, t', ht, ht', htl, htl', hag⟩ := sumToScale_append x y k h1 hk
  rw [hs] at ht; cases ht
  rw [hs'] at ht'; cases ht'
  refine ⟨out, out', ho, ho', ?_⟩
  have hp := pnpSteps_pos per hper
  have hcal : ∀ j, j < pnpSteps per →
      calendarStepValues s (pnpSteps per) j ds cs ce = calendarStepValues s' (pnpSteps per) j ds cs ce := by
    intro j hj
    unfold calendarStepValues
    apply List.filterMap_congr
    intro z hz
    have hz := List.mem_range.1 hz
    refine (hag _ ?_).symm
    have a1 : (cs - ds).toNat + z + 1 ≤ (ce - ds + 1).toNat := by omega
    have a2 : ((cs - ds).toNat + z) * pnpSteps per + j < (ce - ds + 1).toNat * pnpSteps per :=
      calc ((cs - ds).toNat + z) * pnpSteps per + j < ((cs - ds).toNat + z) * pnpSteps per + pnpSteps per := by omega
        _ = ((cs - ds).toNat + z + 1) * pnpSteps per := by ring
        _ ≤ _ := Nat.mul_le_mul_right _ a1
    have a3 : (((ce - ds + 1).toNat * pnpSteps per : Nat) : Int) ≤ x.length := by
      push_cast; rw [Int.toNat_of_nonneg (by omega)]; exact hfull
    have a3 : (ce - ds + 1).toNat * pnpSteps per ≤ x.length := by exact_mod_cast a3
    omega
  apply List.ext_getElem?
  intro i
  by_cases hi : i < x.length
  · rw [List.getElem?_take_of_lt hi]
    have hsi : s[i]? = some s[i] := List.getElem?_eq_getElem (by omega)
    rw [hv i _ hsi, hv' i _ ((hag i hi).trans hsi), hcal _ (Nat.mod_lt _ hp)]
  · rw [List.getElem?_eq_none (by omega), List.getElem?_eq_none (by simp; omega)]

/-! ## SPI, Pearson -/

theorem calib_append {α : Type} (s s' : List α) (n n' p m : Nat) (ds cs ce : Int) (h1 : ds ≤ cs) (h2 : cs ≤ ce)
    (hfull : (ce - ds + 1) * p ≤ m) (hn : ce < ds + n) (hn' : ce < ds + n') (hag : ∀ i, i < m → s'[i]? = s[i]?) :
    calibrationValues s' n' p ds cs ce = calibrationValues s n p ds cs ce := by
  rw [calibrationValues_within s n p ds cs ce h1 (by omega) (by omega),
    calibrationValues_within s' n' p ds cs ce h1 (by omega) (by omega)]
  apply slice_congr
  intro i _ hi
  apply hag
  have a3 : (((ce + 1 - ds).toNat * p : Nat) : Int) ≤ m := by
    push_cast; rw [Int.toNat_of_nonneg (by omega)]
    have : ce + 1 - ds = ce - ds + 1 := by ring
    rw [this]; exact hfull
  have a3 : (ce + 1 - ds).toNat * p ≤ m := by exact_mod_cast a3
  omega

section laws
variable [FloatLaws F]

theorem timeStep_missing (fit : List F → Res (F × F × F)) (col : List F) (h : ∀ v ∈ col, v = nan) :
    calculateTimeStepParams fit col = .ok ⟨lit 0, lit 0, lit 0, lit 0⟩ := by
  have h0 : col.countP (fun v => !isNan v) = 0 := by
    rw [List.countP_eq_zero]; intro v hv; rw [h v hv]; simp
  unfold calculateTimeStepParams countZerosAndNonMissings
  simp only [h0]
  rw [if_pos (by omega)]

/-- the Pearson transform of an array and of a longer one that starts with it -/
theorem pearson_extend (E : Ext F) (hE : ExtNan E) (n n' m : Nat) (a a' : List F) (ds cs ce : Int) (per : Periodicity)
    (hper : per ≠ .other) (ha : a.length = n * per.steps) (ha' : a'.length = n' * per.steps) (hm : m ≤ a.length)
    (hm' : m ≤ a'.length) (h1 : ds ≤ cs) (h2 : cs ≤ ce) (hfull : (ce - ds + 1) * per.steps ≤ m)
    (hag : ∀ i, i < m → a'[i]? = a[i]?) :
    (∃ t t', transformFittedPearson E (lmomentsFit E) ⟨[n, per.steps], a⟩ ds cs ce per ⟨none, none, none, none⟩ = .ok t ∧
      transformFittedPearson E (lmomentsFit E) ⟨[n', per.steps], a'⟩ ds cs ce per ⟨none, none, none, none⟩ = .ok t' ∧
      ∀ i, i < m → t'.data[i]? = t.data[i]?) ∨
    (∃ e, transformFittedPearson E (lmomentsFit E) ⟨[n, per.steps], a⟩ ds cs ce per ⟨none, none, none, none⟩ = .error e ∧
      transformFittedPearson E (lmomentsFit E) ⟨[n', per.steps], a'⟩ ds cs ce per ⟨none, none, none, none⟩ = .error e) := by
  have hp := steps_pos per hper
  have years : ∀ k : Nat, m ≤ k * per.steps → ce < ds + k := by
    intro k hk
    have a1 : (ce - ds + 1) * (per.steps : Int) ≤ (k : Int) * per.steps := by
      have : (m : Int) ≤ (k : Int) * per.steps := by exact_mod_cast hk
      omega
    have := Int.le_of_mul_le_mul_right a1 (by exact_mod_cast hp)
    omega
  have hc := calib_append a a' n n' per.steps m ds cs ce h1 h2 hfull (years n (by omega)) (years n' (by omega)) hag
  have hfits : pearsonFits (lmomentsFit E) n' per.steps a' ds cs ce = pearsonFits (lmomentsFit E) n per.steps a ds cs ce := by
    unfold pearsonFits; rw [hc]
  have total : ∀ (k : Nat) (b : List F), allNan b = true → ∃ ps, pearsonFits (lmomentsFit E) k per.steps b ds cs ce = .ok ps := by
    intro k b hb
    apply mapM_ok
    intro j _
    refine ⟨_, timeStep_missing _ _ ?_⟩
    intro v hv
    obtain ⟨i, hi⟩ := List.mem_iff_getElem?.1 (mem_calibrationValues b k per.steps ds cs ce v (mem_of_mem_stride _ _ _ _ hv))
    exact eq_nan_of_allNan b hb i v hi
  have early : ∀ (k : Nat) (b : List F), allNan b = true →
      transformFittedPearson E (lmomentsFit E) ⟨[k, per.steps], b⟩ ds cs ce per ⟨none, none, none, none⟩ = .ok ⟨[k, per.steps], b⟩ := by
    intro k b hb
    simp [transformFittedPearson, hb]
  have values : ∀ t t', transformFittedPearson E (lmomentsFit E) ⟨[n, per.steps], a⟩ ds cs ce per ⟨none, none, none, none⟩ = .ok t →
      transformFittedPearson E (lmomentsFit E) ⟨[n', per.steps], a'⟩ ds cs ce per ⟨none, none, none, none⟩ = .ok t' →
      ∀ i, i < m → t'.data[i]? = t.data[i]? := by
    intro t t' ht ht' i hi
    have hx : a[i]? = some a[i] := List.getElem?_eq_getElem (by omega)
    have hx' := (hag i hi).trans hx
    generalize a[i] = v at hx hx'
    rcases pearson_value E hE _ n a ds cs ce per _ t hper ha ht i v hx with ⟨g, hb⟩ | ⟨q, hq, hb⟩
    · have hv := eq_nan_of_allNan a g i v hx
      subst hv
      rcases pearson_value E hE _ n' a' ds cs ce per _ t' hper ha' ht' i nan hx' with ⟨_, hd⟩ | ⟨q', _, hd⟩
      · rw [hb, hd]
      · rw [hb, hd, pearsonTransform1_nan E hE]
    · rcases pearson_value E hE _ n' a' ds cs ce per _ t' hper ha' ht' i v hx' with ⟨g, hd⟩ | ⟨q', hq', hd⟩
      · have hv := eq_nan_of_allNan a' g i v hx'
        subst hv
        rw [hb, hd, pearsonTransform1_nan E hE]
      · unfold pearsonParamAt at hq hq'
        simp only at hq hq'
        rw [hc, hq] at hq'
        cases hq'
        rw [hb, hd]
  cases hf : pearsonFits (lmomentsFit E) n per.steps a ds cs ce with
  | ok ps =>
    left
    have ok1 : ∃ t, transformFittedPearson E (lmomentsFit E) ⟨[n, per.steps], a⟩ ds cs ce per ⟨none, none, none, none⟩ = .ok t := by
      cases hn : allNan a with
      | true => exact ⟨_, early n a hn⟩
      | false => rw [transformFittedPearson_fit E _ n _ a ds cs ce per hper rfl hn, hf]; exact ⟨_, rfl⟩
    have ok2 : ∃ t, transformFittedPearson E (lmomentsFit E) ⟨[n', per.steps], a'⟩ ds cs ce per ⟨none, none, none, none⟩ = .ok t := by
      cases hn : allNan a' with
      | true => exact ⟨_, early n' a' hn⟩
      | false => rw [transformFittedPearson_fit E _ n' _ a' ds cs ce per hper rfl hn, hfits, hf]; exact ⟨_, rfl⟩
    obtain ⟨t, ht⟩ := ok1
    obtain ⟨t', ht'⟩ := ok2
    exact ⟨t, t', ht, ht', values t t' ht ht'⟩
  | error e =>
    right
    have n1 : allNan a = false := by
      cases hn : allNan a with
      | false => rfl
      | true => obtain ⟨ps, h⟩ := total n a hn; rw [hf] at h; cases h
    have n2 : allNan a' = false := by
      cases hn : allNan a' with
      | false => rfl
      | true => obtain ⟨ps, h⟩ := total n' a' hn; rw [hfits, hf] at h; cases h
    refine ⟨e, ?_, ?_⟩
    · rw [transformFittedPearson_fit E _ n _ a ds cs ce per hper rfl n1, hf]
    · rw [transformFittedPearson_fit E _ n' _ a' ds cs ce per hper rfl n2, hfits, hf]

/-- **C88 (Pearson SPI).** Appending values to a record of precipitation that is nowhere negative does not change the
Pearson SPI of the earlier steps: the call for the shorter record gives exactly the first values of the call for the
extended record (or both raise the same exception). Every scale up to the length of the record, calibration
years within its complete years. -/
theorem C88_pearson (E : Ext F) (hE : ExtNan E) (x y : List F) (k : Nat) (ds cs ce : Int) (per : Periodicity)
    (hper : per ≠ .other) (h1 : 1 ≤ k) (hk : k ≤ x.length) (hds : ds ≤ cs) (hce : cs ≤ ce)
    (hfull : (ce - ds + 1) * per.steps ≤ x.length) (hneg : ∀ v ∈ x ++ y, flt v (lit 0) = false)
    (hx : ∃ v ∈ x, isNan v = false) :
    spi E (Arr.of1d x) k .pearson ds cs ce per none =
      (spi E (Arr.of1d (x ++ y)) k .pearson ds cs ce per none).map (·.take x.length) := by
  have hx' : ∃ v ∈ x ++ y, isNan v = false := by obtain ⟨v, hv, h⟩ := hx; exact ⟨v, by simp [hv], h⟩
  obtain ⟨s, s', hs, hs', hl, hl', hag⟩ := sumToScale_append x y k h1 hk
  obtain ⟨n, hr, hrl⟩ := reshapeValues_total s per hper
  obtain ⟨n', hr', hrl'⟩ := reshapeValues_total s' per hper
  have e1 : clipNeg x = x := clipNeg_id x (fun v hv => hneg v (by simp [hv]))
  have e2 : clipNeg (x ++ y) = x ++ y := clipNeg_id _ hneg
  rw [spi_eq E (Arr.of1d x) k .pearson ds cs ce per none (Or.inr rfl) (allNan_false hx),
    spi_eq E (Arr.of1d (x ++ y)) k .pearson ds cs ce per none (Or.inr rfl) (allNan_false hx')]
  simp only [Arr.of1d] at hr hr' ⊢
  rw [e1, e2, hs, hs']
  simp only [bind, Except.bind, hr, hr', pure, Except.pure]
  have key := pearson_extend E hE n n' x.length _ _ ds cs ce per hper hrl hrl' (by simp; omega) (by simp; omega) hds hce hfull
    (by
      intro i hi
      rw [List.getElem?_append_left (by omega), List.getElem?_append_left (by omega)]
      exact hag i hi)
  have d : ∀ a : Arr F, distTransform E a .pearson ds cs ce per none =
      transformFittedPearson E (lmomentsFit E) a ds cs ce per ⟨none, none, none, none⟩ := fun a => rfl
  rw [d, d]
  rcases key with ⟨t, t', ht, ht', hv⟩ | ⟨e, ht, ht'⟩
  · rw [ht, ht']
    simp only [Except.map]
    congr 1
    apply List.ext_getElem?
    intro i
    unfold clipFlattenTruncate
    by_cases hi : i < x.length
    · rw [List.getElem?_take_of_lt hi, List.getElem?_take_of_lt hi, List.getElem?_take_of_lt (by simp; omega),
        List.getElem?_map, List.getElem?_map, hv i hi]
    · rw [List.getElem?_eq_none (by simp; omega), List.getElem?_eq_none (by simp; omega)]
  · rw [ht, ht']; rfl

/-! ## SPI, gamma -/

/-- share of zeros of calendar step `j` (of `p`) in the whole series `s`: zeros divided by the number of years begun -/
def zeroShare (s : List F) (p j : Nat) : F :=
  lit (s.zipIdx.countP (fun q => q.2 % p == j && feq q.1 (lit 0))) / lit ((s.length + p - 1) / p : Nat)

theorem zeroShare_eq (s : List F) (n p j : Nat) (hp : 0 < p)
    (hl : (s ++ List.replicate (padCount s.length p) (nan : F)).length = n * p) :
    p0Col n (stride p j (s ++ List.replicate (padCount s.length p) nan)) = zeroShare s p j := by
  have hpad := padCount_lt s.length p hp
  have hn : (s.length + p - 1) / p = n := by
    rw [List.length_append, List.length_replicate] at hl
    apply Nat.div_eq_of_lt_le
    · omega
    · rw [Nat.succ_mul]; omega
  unfold p0Col zeroShare stride
  rw [hn, List.zipIdx_append, List.filter_append, List.map_append, List.countP_append]
  have h0 : List.countP (fun x => feq x (lit 0)) (List.map Prod.fst (List.filter (fun q => q.2 % p == j)
      ((List.replicate (padCount s.length p) (nan : F)).zipIdx (0 + s.length)))) = 0 := by
    rw [List.countP_eq_zero]
    intro v hv
    obtain ⟨q, hq, rfl⟩ := List.mem_map.1 hv
    have := (List.mem_zipIdx (List.mem_filter.1 hq).1).2.2
    rw [List.getElem_replicate] at this
    rw [this]; simp
  rw [h0, Nat.add_zero, List.countP_map, List.countP_filter]
  congr 3
  apply List.countP_congr
  intro q _
  simp [and_comm]

/-- **C88 (gamma SPI, partial).** Full statement: appending values does not change the earlier values. That is false for
the gamma SPI (`C88_gamma_fails`, `C88_gamma_given_fails`), because the probability of zero is taken over the
whole record. It holds wherever the share of zeros of the calendar step stays the same; for fitted and for given
parameters. -/
theorem C88_gamma_partial (E : Ext F) (hE : ExtNan E) (x y : List F) (k : Nat) (ds cs ce : Int) (per : Periodicity)
    (fp : Option (FitDict F)) (s s' out out' : List F)
    (h1 : 1 ≤ k) (hk : k ≤ x.length) (hds : ds ≤ cs) (hce : cs ≤ ce)
    (hfull : (ce - ds + 1) * per.steps ≤ x.length) (hneg : ∀ v ∈ x ++ y, flt v (lit 0) = false)
    (hx : ∃ v ∈ x, isNan v = false)
    (hs : sumToScale x k = .ok s) (hs' : sumToScale (x ++ y) k = .ok s')
    (ho : spi E (Arr.of1d x) k .gamma ds cs ce per fp = .ok out)
    (ho' : spi E (Arr.of1d (x ++ y)) k .gamma ds cs ce per fp = .ok out') (i : Nat) (hi : i < x.length)
    (hshare : zeroShare s per.steps (i % per.steps) = zeroShare s' per.steps (i % per.steps)) :
    out[i]? = out'[i]? := by
  have hx' : ∃ v ∈ x ++ y, isNan v = false := by obtain ⟨v, hv, h⟩ := hx; exact ⟨v, by simp [hv], h⟩
  obtain ⟨hper, r, n, t, hr, hrl, ht, hout⟩ := spi_point E _ _ _ _ _ _ _ _ _ (allNan_false hx) ho
  obtain ⟨_, r', n', t', hr', hrl', ht', hout'⟩ := spi_point E _ _ _ _ _ _ _ _ _ (allNan_false hx') ho'
  have e1 : clipNeg x = x := clipNeg_id x (fun v hv => hneg v (by simp [hv]))
  have e2 : clipNeg (x ++ y) = x ++ y := clipNeg_id _ hneg
  simp only [Arr.of1d] at hr hr' hout hout'
  rw [e1, hs] at hr; cases hr
  rw [e2, hs'] at hr'; cases hr'
  obtain ⟨r, r', hr, hr', hl, hl', hag⟩ := sumToScale_append x y k h1 hk
  rw [hs] at hr; cases hr
  rw [hs'] at hr'; cases hr'
  have hp := steps_pos per hper
  rw [hout i hi, hout' i (by simp; omega)]
  congr 1
  have hag' : ∀ i, i < x.length → (s' ++ List.replicate (padCount s'.length per.steps) (nan : F))[i]? =
      (s ++ List.replicate (padCount s.length per.steps) (nan : F))[i]? := by
    intro i hi
    rw [List.getElem?_append_left (by omega), List.getElem?_append_left (by omega)]
    exact hag i hi
  have years : ∀ k : Nat, x.length ≤ k * per.steps → ce < ds + k := by
    intro k hk
    have a1 : (ce - ds + 1) * (per.steps : Int) ≤ (k : Int) * per.steps := by
      have : (x.length : Int) ≤ (k : Int) * per.steps := by exact_mod_cast hk
      omega
    have := Int.le_of_mul_le_mul_right a1 (by exact_mod_cast hp)
    omega
  have hc := calib_append _ _ n n' per.steps x.length ds cs ce hds hce hfull
    (years n (by rw [← hrl]; simp; omega)) (years n' (by rw [← hrl']; simp; omega)) hag'
  unfold distTransform at ht ht'
  simp only [bind, Except.bind] at ht ht'
  cases hg : getGammaArgs fp with
  | error e => rw [hg] at ht; cases ht
  | ok ab =>
    rw [hg] at ht ht'
    have hv : (s ++ List.replicate (padCount s.length per.steps) (nan : F))[i]? = some s[i] := by
      rw [List.getElem?_append_left (by omega)]; exact List.getElem?_eq_getElem (by omega)
    rw [gamma_value E hE n _ ds cs ce per _ _ t hper hrl ht i _ hv,
      gamma_value E hE n' _ ds cs ce per _ _ t' hper hrl' ht' i _ ((hag' i hi).trans hv),
      zeroShare_eq s n _ _ hp hrl, zeroShare_eq s' n' _ _ hp hrl', hshare]
    have hpar : gammaParamAt E n per.steps (s ++ List.replicate (padCount s.length per.steps) nan) ds cs ce ab.1 ab.2 (i % per.steps) =
        gammaParamAt E n' per.steps (s' ++ List.replicate (padCount s'.length per.steps) nan) ds cs ce ab.1 ab.2 (i % per.steps) := by
      unfold gammaParamAt
      split
      · rfl
      · rw [calibrationValues_map, calibrationValues_map, hc]
    rw [hpar]

end laws

/-- one more year: January without rain, the other months as in the first year -/
def nextYear : List (Fl ℚ) := .fin 0 :: (five1.take 12).drop 1

/-- **C88 is false for the gamma SPI**: a year whose January is dry is appended to five years of data; the
calibration years are the same five years; the SPI of the first January changes. -/
theorem C88_gamma_fails :
    (spi toyExt (Arr.of1d five1) 1 .gamma 1990 1990 1994 .monthly none).toOption.map (·[0]?) ≠
      (spi toyExt (Arr.of1d (five1 ++ nextYear)) 1 .gamma 1990 1990 1994 .monthly none).toOption.map (·[0]?) := by
  decide +kernel

/-- ... also if the gamma parameters are given -/
theorem C88_gamma_given_fails :
    let fp : FitDict (Fl ℚ) := [("alpha", some (List.replicate 12 (.fin 2))), ("beta", some (List.replicate 12 (.fin 3)))]
    (spi toyExt (Arr.of1d five1) 1 .gamma 1990 1990 1994 .monthly (some fp)).toOption.map (·[0]?) ≠
      (spi toyExt (Arr.of1d (five1 ++ nextYear)) 1 .gamma 1990 1990 1994 .monthly (some fp)).toOption.map (·[0]?) := by
  decide +kernel

/-- five years with a negative June in the first year -/
def fiveNegRecord : List (Fl ℚ) := ((((five1.set 5 (.fin (-3))).set 17 (.fin 1)).set 29 (.fin 1)).set 41 (.fin 2)).set 53 (.fin 30)

/-- **C88 is false for the Pearson SPI of a record with a negative value**: appending one missing month
(`np.amin` becomes NaN, so nothing is clipped any more) changes the SPI of June of another year. -/
theorem C88_missing_fails :
    (spi toyExt (Arr.of1d fiveNegRecord) 1 .pearson 1990 1990 1994 .monthly none).toOption.map (·[17]?) ≠
      (spi toyExt (Arr.of1d (fiveNegRecord ++ [.nan])) 1 .pearson 1990 1990 1994 .monthly none).toOption.map (·[17]?) := by
  decide +kernel

example : okAnd (spi toyExt (Arr.of1d fiveNegRecord) 1 .pearson 1990 1990 1994 .monthly none) (fun o => o.length == 60) = true ∧
  okAnd (spi toyExt (Arr.of1d (fiveNegRecord ++ [.nan])) 1 .pearson 1990 1990 1994 .monthly none) (fun o => o.length == 61) = true := by decide +kernel

/-- a record that meets the hypotheses of `C88_pearson`, `C88_pnp` and `C88_gamma_partial` (scale 3; the appended year
leaves the share of zeros of every calendar step at zero) -/
example : (∀ v ∈ five1 ++ nextYear, flt v (lit 0) = false) ∧ (1994 - 1990 + 1) * (Periodicity.monthly.steps : Int) ≤ five1.length ∧
    okAnd (spi toyExt (Arr.of1d (five1 ++ nextYear)) 3 .pearson 1990 1990 1994 .monthly none)
      (fun o => o.any (fun v => !isNan v && decide (v ≠ .fin 0))) = true ∧
    okAnd (percentageOfNormal (five1 ++ nextYear) (some 3) 1990 1990 1994 .monthly) (fun o => o.length == 72) = true ∧
    okAnd (sumToScale five1 3) (fun s => okAnd (sumToScale (five1 ++ nextYear) 3) (fun s' =>
      (List.range 12).all (fun j => decide (zeroShare s 12 j = zeroShare s' 12 j)))) = true := by
  decide +kernel

end CI.Props
