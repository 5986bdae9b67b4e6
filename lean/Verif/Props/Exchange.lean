import Verif.Props.SpiFit
import Verif.Props.SpiMono
import Verif.Props.Spei
import Verif.Props.Years
import Verif.Props.Lmoments
import Verif.Props.Float64Soil
import Mathlib.Data.List.FinRange

/-!
# C102: the order of the years of a record does not matter at scale 1

Exact real arithmetic, arbitrary special functions that map NaN to NaN. In float64 the sum of the same numbers in another order can differ in the last bits
(`C102_fails_float64`). At larger scales the first months of a year are accumulated with months of the year before (`C102_scale_fails`); years outside the
calibration period do not take part in the fit (`C102_calibration_fails`).
-/

namespace CI.Props

/-- `y` has the years of `x` (`n` years of `p` values) in another order: year `i` of `y` is year `σ i` of `x` -/
def Reordered {α : Type} (n p : Nat) (σ : Equiv.Perm (Fin n)) (x y : List α) : Prop :=
  x.length = n * p ∧ y.length = n * p ∧ ∀ (i : Fin n) (j : Nat), j < p → y[i.val * p + j]? = x[(σ i).val * p + j]?

variable {α : Type} {n p : Nat} {σ : Equiv.Perm (Fin n)} {x y : List α}

theorem Reordered.symm (h : Reordered n p σ x y) : Reordered n p σ⁻¹ y x := by
  refine ⟨h.2.1, h.1, fun i j hj => ?_⟩
  have := h.2.2 (σ⁻¹ i) j hj
  rw [this]; simp

theorem Reordered.map {β : Type} (f : α → β) (h : Reordered n p σ x y) : Reordered n p σ (x.map f) (y.map f) := by
  refine ⟨by simpa using h.1, by simpa using h.2.1, fun i j hj => ?_⟩
  rw [List.getElem?_map, List.getElem?_map, h.2.2 i j hj]

theorem row_lt {n p i j : Nat} (hi : i < n) (hj : j < p) : i * p + j < n * p := by
  calc i * p + j < i * p + p := by omega
    _ = (i + 1) * p := by ring
    _ ≤ n * p := Nat.mul_le_mul_right _ hi

theorem Reordered.mem (h : Reordered n p σ x y) (v : α) (hv : v ∈ y) : v ∈ x := by
  obtain ⟨t, ht, rfl⟩ := List.mem_iff_getElem.1 hv
  have ht' : t < n * p := by rw [← h.2.1]; exact ht
  have hp : 0 < p := by
    rcases Nat.eq_zero_or_pos p with h0 | h0
    · subst h0; simp at ht'
    · exact h0
  have hi : t / p < n := by rw [Nat.div_lt_iff_lt_mul hp]; exact ht'
  have := h.2.2 ⟨t / p, hi⟩ (t % p) (Nat.mod_lt _ hp)
  simp only [Nat.div_add_mod'] at this
  rw [List.getElem?_eq_getElem ht] at this
  exact List.mem_of_getElem? this.symm

theorem stride_finRange (l : List α) (hl : l.length = n * p) (j : Nat) (hj : j < p) :
    stride p j l = (List.finRange n).map (fun i => l[i.val * p + j]'(by rw [hl]; exact row_lt i.isLt hj)) := by
  apply List.ext_getElem?
  intro i
  rw [stride_getElem? p j l hj]
  by_cases hi : i < n
  · rw [List.getElem?_eq_getElem (by rw [hl]; exact row_lt hi hj), List.getElem?_eq_getElem (by simpa using hi)]
    simp
  · have h2 : n * p ≤ i * p + j := by
      calc n * p ≤ i * p := Nat.mul_le_mul_right _ (by omega)
        _ ≤ i * p + j := by omega
    rw [List.getElem?_eq_none (by rw [hl]; exact h2), List.getElem?_eq_none (by simpa using hi)]

/-- the values of a calendar step are the same, in another order -/
theorem Reordered.stride (h : Reordered n p σ x y) (j : Nat) (hj : j < p) : (stride p j y).Perm (stride p j x) := by
  rw [stride_finRange y h.2.1 j hj, stride_finRange x h.1 j hj]
  have e : (fun i : Fin n => y[i.val * p + j]'(by rw [h.2.1]; exact row_lt i.isLt hj)) =
      (fun i : Fin n => x[i.val * p + j]'(by rw [h.1]; exact row_lt i.isLt hj)) ∘ σ := by
    funext i
    have := h.2.2 i j hj
    rw [List.getElem?_eq_getElem (by rw [h.2.1]; exact row_lt i.isLt hj), List.getElem?_eq_getElem (by rw [h.1]; exact row_lt (σ i).isLt hj)] at this
    simpa using this
  rw [e, ← List.map_map]
  exact (Equiv.Perm.map_finRange_perm σ).map _

/-! ## sums in another order -/

theorem Fl.add_left_comm' (a b c : Fl ℝ) : a + (b + c) = b + (a + c) := by
  cases a <;> cases b <;> cases c <;> first | rfl | (show Fl.fin _ = Fl.fin _; congr 1; ring)

theorem fsum_perm {l m : List (Fl ℝ)} (h : l.Perm m) : fsum l = fsum m := by
  show l.foldr (· + ·) (Fl.fin 0) = m.foldr (· + ·) (Fl.fin 0)
  haveI : LeftCommutative (fun a b : Fl ℝ => a + b) := ⟨Fl.add_left_comm'⟩
  exact h.foldr_eq _

theorem nanmean_perm {l m : List (Fl ℝ)} (h : l.Perm m) : nanmean l = nanmean m := by
  have hf := h.filter (fun v => !isNan v)
  unfold nanmean
  dsimp only
  rw [fsum_perm hf, hf.length_eq]
  have : (l.filter (fun v => !isNan v)).isEmpty = (m.filter (fun v => !isNan v)).isEmpty := by
    rw [Bool.eq_iff_iff, List.isEmpty_iff_length_eq_zero, List.isEmpty_iff_length_eq_zero, hf.length_eq]
  rw [this]

theorem gammaFitCol_perm (E : Ext (Fl ℝ)) {l m : List (Fl ℝ)} (h : l.Perm m) : gammaFitCol E l = gammaFitCol E m := by
  unfold gammaFitCol
  dsimp only
  rw [nanmean_perm h, nanmean_perm (h.map E.log)]

theorem calculateTimeStepParams_perm (E : Ext (Fl ℝ)) {l m : List (Fl ℝ)} (h : l.Perm m) :
    calculateTimeStepParams (lmomentsFit E) l = calculateTimeStepParams (lmomentsFit E) m := by
  have hc : countZerosAndNonMissings l = countZerosAndNonMissings m := by
    unfold countZerosAndNonMissings
    dsimp only
    rw [h.countP_eq, h.countP_eq, h.length_eq]
  unfold calculateTimeStepParams
  rw [hc, C25_order E l m (h.filter _)]

variable {u v : List (Fl ℝ)}

theorem Reordered.allNan (h : Reordered n p σ u v) : allNan v = allNan u := by
  unfold CI.allNan
  rw [Bool.eq_iff_iff, List.all_eq_true, List.all_eq_true]
  exact ⟨fun hv w hw => hv w (h.symm.mem w hw), fun hu w hw => hu w (h.mem w hw)⟩

theorem Reordered.clipNeg (h : Reordered n p σ u v) : Reordered n p σ (clipNeg u) (clipNeg v) := by
  by_cases hn : (nan : Fl ℝ) ∈ u
  · rw [clipNeg_of_nan u hn, clipNeg_of_nan v (h.symm.mem _ hn)]; exact h
  · have hu : ∀ w ∈ u, isNan w = false := fun w hw => (isNan_eq_false_iff w).2 (fun e => hn (e ▸ hw))
    rw [clipNeg_eq_nonneg u hu, clipNeg_eq_nonneg v (fun w hw => hu w (h.mem w hw))]
    exact h.map _

/-- a period that contains all years of the record selects all of it -/
theorem calibrationValues_whole {α : Type} (l : List α) (n p : Nat) (ds cs ce : Int) (hl : l.length = n * p) (h1 : cs ≤ ds) (h2 : ds + n ≤ ce + 1) :
    calibrationValues l n p ds cs ce = l := by
  by_cases h : cs < ds ∨ ds + n < ce
  · exact calibrationValues_outside l n p ds cs ce h hl
  · unfold calibrationValues rowSlice adjustCalibrationYears
    dsimp only
    rw [if_neg h]
    dsimp only
    rw [sliceBound_nonneg _ _ (by omega), sliceBound_nonneg _ _ (by omega)]
    have e1 : min (cs - ds).toNat n = 0 := by omega
    have e2 : min (ce - ds + 1).toNat n = n := by omega
    rw [e1, e2, Nat.zero_mul]
    exact slice_all _ _ (by omega)

theorem Reordered.gammaFits (E : Ext (Fl ℝ)) (ds cs ce : Int) (h1 : cs ≤ ds) (h2 : ds + n ≤ ce + 1) (h : Reordered n p σ u v) :
    gammaFits E n p v ds cs ce = gammaFits E n p u ds cs ce := by
  have hm := h.map zeroToNan
  unfold CI.gammaFits
  apply List.map_congr_left
  intro j hj
  rw [calibrationValues_whole _ n p ds cs ce hm.1 h1 h2, calibrationValues_whole _ n p ds cs ce hm.2.1 h1 h2]
  exact gammaFitCol_perm E (hm.stride j (List.mem_range.1 hj))

theorem mapM_congr_mem {α β : Type} (l : List α) (f g : α → Res β) (h : ∀ a ∈ l, f a = g a) : l.mapM f = l.mapM g := by
  induction l with
  | nil => rfl
  | cons a l ih => rw [List.mapM_cons, List.mapM_cons, h a (by simp), ih (fun b hb => h b (by simp [hb]))]

theorem Reordered.pearsonFits (E : Ext (Fl ℝ)) (ds cs ce : Int) (h1 : cs ≤ ds) (h2 : ds + n ≤ ce + 1) (h : Reordered n p σ u v) :
    pearsonFits (lmomentsFit E) n p v ds cs ce = pearsonFits (lmomentsFit E) n p u ds cs ce := by
  unfold CI.pearsonFits
  have : ∀ j ∈ List.range p, calculateTimeStepParams (lmomentsFit E) (CI.stride p j (calibrationValues v n p ds cs ce)) =
      calculateTimeStepParams (lmomentsFit E) (CI.stride p j (calibrationValues u n p ds cs ce)) := by
    intro j hj
    rw [calibrationValues_whole _ n p ds cs ce h.1 h1 h2, calibrationValues_whole _ n p ds cs ce h.2.1 h1 h2]
    exact calculateTimeStepParams_perm E (h.stride j (List.mem_range.1 hj))
  exact mapM_congr_mem _ _ _ this

/-- two calls fail with the same exception, or both succeed with results in the relation `R` -/
def SameOutcome {α : Type} (R : α → α → Prop) : Res α → Res α → Prop
  | .ok a, .ok b => R a b
  | .error e, .error e' => e = e'
  | _, _ => False

/-- the transforms of a record and of the record with its years reordered -/
theorem Reordered.distTransform (E : Ext (Fl ℝ)) (hE : ExtNan E) (dist : Distribution) (ds cs ce : Int) (per : Periodicity)
    (fp : Option (FitDict (Fl ℝ))) (hper : per ≠ .other) (h1 : cs ≤ ds) (h2 : ds + n ≤ ce + 1)
    (h : Reordered n per.steps σ u v) :
    SameOutcome (fun a b => Reordered n per.steps σ a.data b.data)
      (CI.distTransform E ⟨[n, per.steps], u⟩ dist ds cs ce per fp) (CI.distTransform E ⟨[n, per.steps], v⟩ dist ds cs ce per fp) := by
  have hp := steps_12_366 per hper
  have hpos := steps_pos per hper
  have build : ∀ tu tv : Arr (Fl ℝ), CI.distTransform E ⟨[n, per.steps], u⟩ dist ds cs ce per fp = .ok tu →
      CI.distTransform E ⟨[n, per.steps], v⟩ dist ds cs ce per fp = .ok tv → Reordered n per.steps σ tu.data tv.data := by
    intro tu tv hu hv
    have l1 := (distTransform_point E hE n u dist ds cs ce per fp tu hper h.1 hu).1
    have l2 := (distTransform_point E hE n v dist ds cs ce per fp tv hper h.2.1 hv).1
    refine ⟨by rw [l1, h.1], by rw [l2, h.2.1], fun i j hj => ?_⟩
    have hi1 : (σ i).val * per.steps + j < u.length := by rw [h.1]; exact row_lt (σ i).isLt hj
    have hi2 : i.val * per.steps + j < v.length := by rw [h.2.1]; exact row_lt i.isLt hj
    obtain ⟨w, hw⟩ : ∃ w, u[(σ i).val * per.steps + j]? = some w := ⟨_, List.getElem?_eq_getElem hi1⟩
    have hw2 : v[i.val * per.steps + j]? = some w := by rw [h.2.2 i j hj, hw]
    have m1 : ((σ i).val * per.steps + j) % per.steps = j := by rw [Nat.mul_comm, Nat.mul_add_mod, Nat.mod_eq_of_lt hj]
    have m2 : (i.val * per.steps + j) % per.steps = j := by rw [Nat.mul_comm, Nat.mul_add_mod, Nat.mod_eq_of_lt hj]
    cases dist with
    | other => cases hu
    | gamma =>
      unfold CI.distTransform at hu hv
      simp only [bind, Except.bind] at hu hv
      cases hg : getGammaArgs fp with
      | error e => rw [hg] at hu; cases hu
      | ok ab =>
        rw [hg] at hu hv
        rw [gamma_value E hE n u ds cs ce per _ _ tu hper h.1 hu _ w hw, gamma_value E hE n v ds cs ce per _ _ tv hper h.2.1 hv _ w hw2, m1, m2]
        have hp0 : p0Col n (CI.stride per.steps j v) = p0Col n (CI.stride per.steps j u) := by
          unfold p0Col; rw [(h.stride j hj).countP_eq]
        have hpar : gammaParamAt E n per.steps v ds cs ce ab.1 ab.2 j = gammaParamAt E n per.steps u ds cs ce ab.1 ab.2 j := by
          unfold gammaParamAt
          split
          · rfl
          · have hm := h.map zeroToNan
            rw [calibrationValues_whole _ n _ ds cs ce hm.1 h1 h2, calibrationValues_whole _ n _ ds cs ce hm.2.1 h1 h2]
            exact gammaFitCol_perm E (hm.stride j hj)
        rw [hp0, hpar]
    | pearson =>
      unfold CI.distTransform at hu hv
      simp only [bind, Except.bind] at hu hv
      cases hg : getPearsonArgs fp with
      | error e => rw [hg] at hu; cases hu
      | ok args =>
        rw [hg] at hu hv
        have hpar : pearsonParamAt (lmomentsFit E) n per.steps v ds cs ce args j = pearsonParamAt (lmomentsFit E) n per.steps u ds cs ce args j := by
          unfold pearsonParamAt
          split
          · rfl
          · rw [calibrationValues_whole _ n _ ds cs ce h.1 h1 h2, calibrationValues_whole _ n _ ds cs ce h.2.1 h1 h2,
              calculateTimeStepParams_perm E (h.stride j hj)]
        rcases pearson_value E hE _ n u ds cs ce per args tu hper h.1 hu _ w hw with ⟨ha, hb⟩ | ⟨q, hq, hb⟩ <;>
          rcases pearson_value E hE _ n v ds cs ce per args tv hper h.2.1 hv _ w hw2 with ⟨ha', hb'⟩ | ⟨q', hq', hb'⟩
        · rw [hb, hb']
        · have := eq_nan_of_allNan u ha _ w hw
          subst this
          rw [hb, hb']; congr 1; exact (pearsonTransform1_nan E hE q').symm ▸ rfl
        · have := eq_nan_of_allNan v ha' _ w hw2
          subst this
          rw [hb, hb']; congr 1; exact (pearsonTransform1_nan E hE q).symm ▸ rfl
        · rw [m1] at hq; rw [m2, hpar, hq] at hq'
          cases hq'
          rw [hb, hb']
  have status : (∃ e, CI.distTransform E ⟨[n, per.steps], u⟩ dist ds cs ce per fp = .error e ∧ CI.distTransform E ⟨[n, per.steps], v⟩ dist ds cs ce per fp = .error e) ∨
      (∃ tu tv, CI.distTransform E ⟨[n, per.steps], u⟩ dist ds cs ce per fp = .ok tu ∧ CI.distTransform E ⟨[n, per.steps], v⟩ dist ds cs ce per fp = .ok tv) := by
    cases dist with
    | other => exact Or.inl ⟨_, rfl, rfl⟩
    | gamma =>
      unfold CI.distTransform
      simp only [bind, Except.bind]
      cases hg : getGammaArgs fp with
      | error e => exact Or.inl ⟨_, rfl, rfl⟩
      | ok ab =>
        dsimp only
        unfold transformFittedGamma
        dsimp only
        rw [h.allNan]
        by_cases hn : CI.allNan u = true
        · simp only [hn, if_true]; exact Or.inr ⟨_, _, rfl, rfl⟩
        · have gu := gammaParameters_fits E hE n (u.map zeroToNan) ds cs ce per hper
          have gv := gammaParameters_fits E hE n (v.map zeroToNan) ds cs ce per hper
          rw [(h.map zeroToNan).gammaFits E ds cs ce h1 h2, ← gu] at gv
          simp only [hn, Bool.false_eq_true, if_false, validateArray_2d n _ u per hp, validateArray_2d n _ v per hp, bind, Except.bind, pure, Except.pure, gv]
          generalize CI.gammaFits E n per.steps (u.map zeroToNan) ds cs ce = G at gu
          rcases ab with ⟨_ | a, _ | b⟩
          · simp only [gu]
            cases bcast per.steps (G.map Prod.fst) with
            | error e => exact Or.inl ⟨_, rfl, rfl⟩
            | ok al =>
              cases bcast per.steps (G.map Prod.snd) with
              | error e => exact Or.inl ⟨_, rfl, rfl⟩
              | ok be => exact Or.inr ⟨_, _, rfl, rfl⟩
          · simp only [gu]
            cases bcast per.steps (G.map Prod.fst) with
            | error e => exact Or.inl ⟨_, rfl, rfl⟩
            | ok al =>
              cases bcast per.steps (G.map Prod.snd) with
              | error e => exact Or.inl ⟨_, rfl, rfl⟩
              | ok be => exact Or.inr ⟨_, _, rfl, rfl⟩
          · simp only [gu]
            cases bcast per.steps (G.map Prod.fst) with
            | error e => exact Or.inl ⟨_, rfl, rfl⟩
            | ok al =>
              cases bcast per.steps (G.map Prod.snd) with
              | error e => exact Or.inl ⟨_, rfl, rfl⟩
              | ok be => exact Or.inr ⟨_, _, rfl, rfl⟩
          · dsimp only
            cases bcast per.steps (a) with
            | error e => exact Or.inl ⟨_, rfl, rfl⟩
            | ok al =>
              cases bcast per.steps (b) with
              | error e => exact Or.inl ⟨_, rfl, rfl⟩
              | ok be => exact Or.inr ⟨_, _, rfl, rfl⟩
    | pearson =>
      unfold CI.distTransform
      simp only [bind, Except.bind]
      cases hg : getPearsonArgs fp with
      | error e => exact Or.inl ⟨_, rfl, rfl⟩
      | ok args =>
        dsimp only
        by_cases hn : CI.allNan u = true
        · have hn' : CI.allNan v = true := by rw [h.allNan]; exact hn
          unfold transformFittedPearson
          simp only [hn, hn', if_true]
          split
          · exact Or.inl ⟨_, rfl, rfl⟩
          · exact Or.inr ⟨_, _, rfl, rfl⟩
        · have hn0 : CI.allNan u = false := by simpa using hn
          have hn' : CI.allNan v = false := by rw [h.allNan]; exact hn0
          rcases args with ⟨_ | p0, _ | lo, _ | sc, _ | sk⟩
          · rw [transformFittedPearson_fit E _ n _ u ds cs ce per hper rfl hn0, transformFittedPearson_fit E _ n _ v ds cs ce per hper rfl hn',
              h.pearsonFits E ds cs ce h1 h2]
            cases CI.pearsonFits (lmomentsFit E) n per.steps u ds cs ce with
            | error e => exact Or.inl ⟨_, rfl, rfl⟩
            | ok ps => exact Or.inr ⟨_, _, rfl, rfl⟩
          all_goals first | exact Or.inl ⟨_, rfl, rfl⟩ | skip
          unfold transformFittedPearson
          simp only [hn0, hn', Option.isNone_some, Bool.or_self, Bool.and_self, Bool.false_and, Bool.false_eq_true, if_false,
            validateArray_2d n _ u per hp, validateArray_2d n _ v per hp, bind, Except.bind, pure, Except.pure]
          cases bcast per.steps p0 with
          | error e => exact Or.inl ⟨_, rfl, rfl⟩
          | ok b0 =>
            cases bcast per.steps lo with
            | error e => exact Or.inl ⟨_, rfl, rfl⟩
            | ok b1 =>
              cases bcast per.steps sc with
              | error e => exact Or.inl ⟨_, rfl, rfl⟩
              | ok b2 =>
                cases bcast per.steps sk with
                | error e => exact Or.inl ⟨_, rfl, rfl⟩
                | ok b3 => exact Or.inr ⟨_, _, rfl, rfl⟩
  rcases status with ⟨e, e1, e2⟩ | ⟨tu, tv, e1, e2⟩
  · rw [e1, e2]; rfl
  · rw [e1, e2]; exact build tu tv e1 e2

/-- a list of whole years is reshaped without padding -/
theorem reshape_whole {α : Type} (l : List α) (n : Nat) (per : Periodicity) (hper : per ≠ .other) (hl : l.length = n * per.steps) :
    padCount l.length per.steps = 0 := by
  apply padCount_zero; rw [hl]; exact Nat.mul_mod_left _ _

theorem reshapeValues_whole (l : List (Fl ℝ)) (n : Nat) (per : Periodicity) (hper : per ≠ .other) (hl : l.length = n * per.steps) :
    reshapeValues (Arr.of1d l) per = .ok ⟨[n, per.steps], l⟩ := by
  obtain ⟨m, hm, hlm⟩ := reshapeValues_total l per hper
  rw [reshape_whole l n per hper hl] at hm hlm
  simp only [List.replicate_zero, List.append_nil] at hm hlm
  have : m = n := Nat.eq_of_mul_eq_mul_right (steps_pos per hper) (by rw [← hlm, hl])
  rw [hm, this]

theorem Reordered.clipFlatten {a b : Arr (Fl ℝ)} (h : Reordered n p σ a.data b.data) :
    Reordered n p σ (clipFlattenTruncate a (n * p)) (clipFlattenTruncate b (n * p)) := by
  unfold clipFlattenTruncate
  have hm := h.map (npClip (lit fittedMin) (lit fittedMax))
  rw [List.take_of_length_le (by rw [hm.1]), List.take_of_length_le (by rw [hm.2.1])]
  exact hm

theorem sumToScale_one' {F : Type} [FloatOps F] (l : List F) : sumToScale l 1 = .ok l := by
  unfold sumToScale; rw [if_pos rfl]

/-- **C102 (SPI).** At scale 1, with a calibration period that contains the record, reordering the years of the record reorders the SPI in the same way:
every month keeps its value wherever its year is placed, for both distributions, with or without fitting parameters, monthly and daily, whatever is
missing; and the two calls fail together, with the same exception. -/
theorem C102_spi (E : Ext (Fl ℝ)) (hE : ExtNan E) (dist : Distribution) (ds cs ce : Int) (per : Periodicity)
    (fp : Option (FitDict (Fl ℝ))) (hper : per ≠ .other) (h1 : cs ≤ ds) (h2 : ds + n ≤ ce + 1)
    (h : Reordered n per.steps σ u v) :
    SameOutcome (Reordered n per.steps σ)
      (spi E (Arr.of1d u) 1 dist ds cs ce per fp) (spi E (Arr.of1d v) 1 dist ds cs ce per fp) := by
  by_cases hn : CI.allNan u = true
  · have hn' : CI.allNan v = true := by rw [h.allNan]; exact hn
    unfold spi
    simp only [Arr.of1d, hn, hn', if_true, List.length_cons, List.length_nil, Nat.zero_add, or_true]
    exact h
  · have hn0 : CI.allNan u = false := by simpa using hn
    have hn' : CI.allNan v = false := by rw [h.allNan]; exact hn0
    rw [spi_eq E _ 1 dist ds cs ce per fp (Or.inr rfl) hn0, spi_eq E _ 1 dist ds cs ce per fp (Or.inr rfl) hn']
    have hc := h.clipNeg
    have := hc.distTransform E hE dist ds cs ce per fp hper h1 h2
    simp only [Arr.of1d, sumToScale_one', bind, Except.bind, pure, Except.pure]
    have r1 := reshapeValues_whole _ n per hper hc.1
    have r2 := reshapeValues_whole _ n per hper hc.2.1
    simp only [Arr.of1d] at r1 r2
    rw [r1, r2, h.1, h.2.1]
    dsimp only
    revert this
    cases CI.distTransform E ⟨[n, per.steps], CI.clipNeg u⟩ dist ds cs ce per fp <;>
      cases CI.distTransform E ⟨[n, per.steps], CI.clipNeg v⟩ dist ds cs ce per fp <;> intro this
    · exact this
    · exact this
    · exact this
    · exact Reordered.clipFlatten this

theorem Reordered.zipWith {α β γ : Type} {x y : List α} {x' y' : List β} (f : α → β → γ) (h : Reordered n p σ x y) (h' : Reordered n p σ x' y') :
    Reordered n p σ (List.zipWith f x x') (List.zipWith f y y') := by
  refine ⟨by rw [List.length_zipWith, h.1, h'.1, min_self], by rw [List.length_zipWith, h.2.1, h'.2.1, min_self], fun i j hj => ?_⟩
  rw [List.getElem?_zipWith, List.getElem?_zipWith, h.2.2 i j hj, h'.2.2 i j hj]

/-- the transforms of a flat record -/
theorem Reordered.distTransform1 (E : Ext (Fl ℝ)) (hE : ExtNan E) (dist : Distribution) (ds cs ce : Int) (per : Periodicity)
    (fp : Option (FitDict (Fl ℝ))) (hper : per ≠ .other) (h1 : cs ≤ ds) (h2 : ds + n ≤ ce + 1)
    (h : Reordered n per.steps σ u v) :
    SameOutcome (fun a b => Reordered n per.steps σ a.data b.data)
      (CI.distTransform E (Arr.of1d u) dist ds cs ce per fp) (CI.distTransform E (Arr.of1d v) dist ds cs ce per fp) := by
  by_cases hn : CI.allNan u = true
  · have hn' : CI.allNan v = true := by rw [h.allNan]; exact hn
    have a1 : CI.allNan (Arr.of1d u).data = true := hn
    have a2 : CI.allNan (Arr.of1d v).data = true := hn'
    cases dist with
    | other => exact rfl
    | gamma =>
      unfold CI.distTransform
      simp only [bind, Except.bind]
      cases getGammaArgs fp with
      | error e => exact rfl
      | ok ab =>
        unfold transformFittedGamma
        simp only [a1, a2, if_true]
        exact h
    | pearson =>
      unfold CI.distTransform
      simp only [bind, Except.bind]
      cases getPearsonArgs fp with
      | error e => exact rfl
      | ok ab =>
        unfold transformFittedPearson
        simp only [a1, a2, if_true]
        split
        · exact rfl
        · exact h
  · have hn0 : CI.allNan u = false := by simpa using hn
    have hn' : CI.allNan v = false := by rw [h.allNan]; exact hn0
    obtain ⟨m, l1, e1⟩ := distTransform_of1d E u dist ds cs ce per fp hn0 hper
    obtain ⟨m', l2, e2⟩ := distTransform_of1d E v dist ds cs ce per fp hn' hper
    rw [reshape_whole u n per hper h.1] at l1 e1
    rw [reshape_whole v n per hper h.2.1] at l2 e2
    simp only [List.replicate_zero, List.append_nil] at l1 l2 e1 e2
    have q1 : m = n := Nat.eq_of_mul_eq_mul_right (steps_pos per hper) (by rw [← l1, h.1])
    have q2 : m' = n := Nat.eq_of_mul_eq_mul_right (steps_pos per hper) (by rw [← l2, h.2.1])
    subst q1; subst q2
    rw [e1, e2]
    exact h.distTransform E hE dist ds cs ce per fp hper h1 h2

/-- **C102 (SPEI).** The same for the SPEI when the years of precipitation and of evapotranspiration are reordered alike. -/
theorem C102_spei (E : Ext (Fl ℝ)) (hE : ExtNan E) (dist : Distribution) (ds cs ce : Int) (per : Periodicity)
    (fp : Option (FitDict (Fl ℝ))) (hper : per ≠ .other) (h1 : cs ≤ ds) (h2 : ds + n ≤ ce + 1)
    (h : Reordered n per.steps σ u v) {u' v' : List (Fl ℝ)} (h' : Reordered n per.steps σ u' v') :
    SameOutcome (fun a b => Reordered n per.steps σ a.data b.data)
      (spei E (Arr.of1d u) (Arr.of1d u') 1 dist per ds cs ce fp) (spei E (Arr.of1d v) (Arr.of1d v') 1 dist per ds cs ce fp) := by
  by_cases hn : CI.allNan u = true
  · have hn' : CI.allNan v = true := by rw [h.allNan]; exact hn
    unfold spei
    simp only [Arr.of1d, hn, hn', if_true]
    exact h
  · have hn0 : CI.allNan u = false := by simpa using hn
    have hn' : CI.allNan v = false := by rw [h.allNan]; exact hn0
    rw [spei_eq E (Arr.of1d u) (Arr.of1d u') 1 dist per ds cs ce fp hn0 (by rw [Arr.of1d, Arr.of1d]; exact h.1.trans h'.1.symm),
      spei_eq E (Arr.of1d v) (Arr.of1d v') 1 dist per ds cs ce fp hn' (by rw [Arr.of1d, Arr.of1d]; exact h.2.1.trans h'.2.1.symm)]
    have hb : Reordered n per.steps σ (balance (CI.clipNeg u) u') (balance (CI.clipNeg v) v') := h.clipNeg.zipWith _ h'
    have := hb.distTransform1 E hE dist ds cs ce per (normFitdict fp) hper h1 h2
    have d1 : (Arr.of1d u).data = u := rfl
    have d2 : (Arr.of1d v).data = v := rfl
    have d3 : (Arr.of1d u').data = u' := rfl
    have d4 : (Arr.of1d v').data = v' := rfl
    simp only [d1, d2, d3, d4, sumToScale_one', bind, Except.bind, pure, Except.pure]
    rw [h.1, h.2.1]
    revert this
    cases CI.distTransform E (Arr.of1d (balance (CI.clipNeg u) u')) dist ds cs ce per (normFitdict fp) <;>
      cases CI.distTransform E (Arr.of1d (balance (CI.clipNeg v) v')) dist ds cs ce per (normFitdict fp) <;> intro this
    · exact this
    · exact this
    · exact this
    · exact Reordered.clipFlatten this

theorem pnp_scale_one {F : Type} [FloatOps F] (l : List F) (ds cs ce : Int) (per : Periodicity) (hper : per ≠ .other) :
    percentageOfNormal l (some 1) ds cs ce per =
      if ds > cs then .error .valueError
      else if (ce - cs + 1) * 12 > l.length then .error .valueError
      else .ok (l.mapIdx (fun i s =>
        match ((List.range per.steps).map (fun j => nanmean (CI.stride per.steps j
          (pySlice l ((cs - ds) * per.steps) ((cs - ds) * per.steps + (ce - cs + 1) * per.steps)))))[i % per.steps]? with
        | some divisor => if flt (lit 0) divisor then s / divisor else nan
        | none => nan)) := by
  unfold percentageOfNormal
  simp only [sumToScale_one', bind, Except.bind, pure, Except.pure]
  rw [if_neg (by norm_num)]
  cases per <;> first | rfl | exact absurd rfl hper

/-- **C102 (percentage of normal).** The same for the percentage of normal. -/
theorem C102_pnp (ds cs ce : Int) (per : Periodicity) (hper : per ≠ .other) (h1 : cs ≤ ds) (h2 : ds + n ≤ ce + 1)
    (h : Reordered n per.steps σ u v) :
    SameOutcome (Reordered n per.steps σ) (percentageOfNormal u (some 1) ds cs ce per) (percentageOfNormal v (some 1) ds cs ce per) := by
  have hpos := steps_pos per hper
  rw [pnp_scale_one u ds cs ce per hper, pnp_scale_one v ds cs ce per hper, h.1, h.2.1]
  by_cases hds : ds > cs
  · rw [if_pos hds, if_pos hds]; exact rfl
  rw [if_neg hds, if_neg hds]
  split
  · exact rfl
  · have he : cs = ds := by omega
    subst he
    have whole : ∀ l : List (Fl ℝ), l.length = n * per.steps →
        pySlice l ((cs - cs) * (per.steps : Int)) ((cs - cs) * (per.steps : Int) + (ce - cs + 1) * (per.steps : Int)) = l := by
      intro l hl
      have hmul : ((n : Int)) * per.steps ≤ (ce - cs + 1) * per.steps := by
        apply Int.mul_le_mul_of_nonneg_right <;> omega
      unfold pySlice
      simp only [sub_self, zero_mul, zero_add]
      have h0 : (0 : Int) ≤ (n : Int) * per.steps := by positivity
      rw [sliceBound_nonneg _ _ le_rfl, sliceBound_nonneg _ _ (h0.trans hmul)]
      simp only [Int.toNat_zero, Nat.zero_min, List.drop_zero, Nat.sub_zero]
      apply List.take_of_length_le
      have : ((n * per.steps : Nat) : Int) = (n : Int) * per.steps := by push_cast; rfl
      omega
    rw [whole u h.1, whole v h.2.1]
    refine ⟨by simpa using h.1, by simpa using h.2.1, fun i j hj => ?_⟩
    rw [List.getElem?_mapIdx, List.getElem?_mapIdx, h.2.2 i j hj]
    have m1 : ((σ i).val * per.steps + j) % per.steps = j := by rw [Nat.mul_comm, Nat.mul_add_mod, Nat.mod_eq_of_lt hj]
    have m2 : (i.val * per.steps + j) % per.steps = j := by rw [Nat.mul_comm, Nat.mul_add_mod, Nat.mod_eq_of_lt hj]
    simp only [m1, m2]
    rw [List.getElem?_map, List.getElem?_map, List.getElem?_range hj]
    simp only [Option.map_some]
    rw [nanmean_perm (h.stride j hj)]

/-! ## examples, and where it ends -/

/-- `five1` with its first and fourth years exchanged -/
def five1x : List (Fl ℚ) := slice five1 36 48 ++ slice five1 12 36 ++ slice five1 0 12 ++ slice five1 48 60

def swap03 : Equiv.Perm (Fin 5) := Equiv.swap 0 3

/-- decision procedure for `Reordered` -/
def reorderedB {α : Type} [DecidableEq α] (n p : Nat) (σ : Equiv.Perm (Fin n)) (x y : List α) : Bool :=
  decide (x.length = n * p) && decide (y.length = n * p) &&
    (List.finRange n).all (fun i => (List.range p).all (fun j => decide (y[i.val * p + j]? = x[(σ i).val * p + j]?)))

theorem reorderedB_iff {α : Type} [DecidableEq α] (n p : Nat) (σ : Equiv.Perm (Fin n)) (x y : List α) :
    reorderedB n p σ x y = true ↔ Reordered n p σ x y := by
  unfold reorderedB Reordered
  simp [and_assoc]

/-- C102: the record and the record with two years exchanged are different, and so are their SPI, SPEI and percentages of normal, which are exchanged
in the same way -/
example : Reordered 5 12 swap03 five1 five1x ∧ five1 ≠ five1x ∧
    okAnd (spi toyExt (Arr.of1d five1) 1 .gamma 1990 1985 1994 .monthly none) (fun a =>
      okAnd (spi toyExt (Arr.of1d five1x) 1 .gamma 1990 1985 1994 .monthly none) (fun b => decide (a ≠ b) && reorderedB 5 12 swap03 a b)) = true ∧
    okAnd (percentageOfNormal five1 (some 1) 1990 1990 1994 .monthly) (fun a =>
      okAnd (percentageOfNormal five1x (some 1) 1990 1990 1994 .monthly) (fun b => decide (a ≠ b) && reorderedB 5 12 swap03 a b)) = true := by
  rw [← reorderedB_iff]
  decide +kernel

/-- at scale 2 the exchange of two years changes the SPI of Januaries (they are accumulated with another December), and thereby all Januaries -/
theorem C102_scale_fails : Reordered 5 12 swap03 five1 five1x ∧
    okAnd (spi toyExt (Arr.of1d five1) 2 .gamma 1990 1990 1994 .monthly none) (fun a =>
      okAnd (spi toyExt (Arr.of1d five1x) 2 .gamma 1990 1990 1994 .monthly none) (fun b => !reorderedB 5 12 swap03 a b)) = true := by
  rw [← reorderedB_iff]
  decide +kernel

/-- with a calibration period that contains only one of the two years, the normals and the percentages of normal change -/
theorem C102_calibration_fails : Reordered 5 12 swap03 five1 five1x ∧
    okAnd (percentageOfNormal five1 (some 1) 1990 1990 1992 .monthly) (fun a =>
      okAnd (percentageOfNormal five1x (some 1) 1990 1990 1992 .monthly) (fun b => !reorderedB 5 12 swap03 a b)) = true := by
  rw [← reorderedB_iff]
  decide +kernel

/-- three years, in each of which all months are equal -/
def threeYears (a b c : ℚ) : List (B64 leftToRight) :=
  List.replicate 12 (CI.lit a) ++ List.replicate 12 (CI.lit b) ++ List.replicate 12 (CI.lit c)

/-- in float64 the order of the years matters: with monthly sums of 0.1, 0.2 and 0.3 the percentage of normal of the year with 0.1 is not the same in the
orders 0.1, 0.2, 0.3 and 0.3, 0.2, 0.1 -/
theorem C102_fails_float64 :
    okAnd (percentageOfNormal (threeYears 0.1 0.2 0.3) (some 1) 1990 1990 1992 .monthly) (fun a =>
      okAnd (percentageOfNormal (threeYears 0.3 0.2 0.1) (some 1) 1990 1990 1992 .monthly) (fun b =>
        match a[0]?.map ratOf, b[24]?.map ratOf with
        | some (some r), some (some r') => decide (r ≠ r')
        | _, _ => false)) = true := by
  decide +kernel

end CI.Props
