import Verif.Props.Lmoments
import Verif.Props.Gamma
import Verif.Props.Spei

/-!
# C90: change of unit and of datum (Pearson)

Exact arithmetic. `PearsonFamily` says of the Pearson III distribution function only that it is a location-scale family.
-/

namespace CI.Props
open Fl

/-- the Pearson III distribution function is a location-scale family, undefined (NaN) for scale 0 -/
structure PearsonFamily (E : Ext (Fl ℝ)) : Prop where
  affine : ∀ a b x skew loc scale : ℝ, 0 < a → 0 < scale →
    E.pearson3Cdf (.fin (a * x + b)) (.fin skew) (.fin (a * loc + b)) (.fin (a * scale)) = E.pearson3Cdf (.fin x) (.fin skew) (.fin loc) (.fin scale)
  zero_scale : ∀ x skew loc, E.pearson3Cdf x skew loc (.fin 0) = .nan

/-- the change of unit and datum -/
noncomputable def aff (a b : ℝ) (v : Fl ℝ) : Fl ℝ := .fin a * v + .fin b

/-- the value is missing, or stays on its side of the two thresholds of the code: 0 and 0.0005 -/
def Kept (a b : ℝ) (v : Fl ℝ) : Prop :=
  v = .nan ∨ ∃ x : ℝ, v = .fin x ∧ (x = 0 ↔ a * x + b = 0) ∧ (x < 0.0005 ↔ a * x + b < 0.0005)

theorem Kept.finOrNan {a b : ℝ} {v : Fl ℝ} (h : Kept a b v) : FinOrNan v := by
  rcases h with h | ⟨x, h, _⟩
  · exact Or.inl h
  · exact Or.inr ⟨x, h⟩

theorem aff_fin (a b x : ℝ) : aff a b (.fin x) = .fin (a * x + b) := by
  unfold aff; rw [fin_mul, fin_add]

theorem aff_nan (a b : ℝ) : aff a b .nan = .nan := rfl

theorem isNan_aff (a b : ℝ) (v : Fl ℝ) (h : FinOrNan v) : isNan (aff a b v) = isNan v := by
  rcases h with rfl | ⟨x, rfl⟩
  · rfl
  · rw [aff_fin]; rfl

theorem allNan_aff (a b : ℝ) (l : List (Fl ℝ)) (h : ∀ v ∈ l, FinOrNan v) : allNan (l.map (aff a b)) = allNan l := by
  unfold allNan
  induction l with
  | nil => rfl
  | cons v l ih =>
    rw [List.map_cons, List.all_cons, List.all_cons, ih (fun w hw => h w (by simp [hw])), isNan_aff a b v (h v (by simp))]

/-- how the parameters of a calendar step change -/
def ParamRel (a b : ℝ) (q q' : PearsonParams (Fl ℝ)) : Prop :=
  (q = ⟨lit 0, lit 0, lit 0, lit 0⟩ ∧ q' = q) ∨
  ∃ (p0 : Fl ℝ) (loc scale skew : ℝ), 0 < scale ∧ q = ⟨p0, .fin loc, .fin scale, .fin skew⟩ ∧ q' = ⟨p0, .fin (a * loc + b), .fin (a * scale), .fin skew⟩

theorem ParamRel.p0 {a b : ℝ} {q q' : PearsonParams (Fl ℝ)} (h : ParamRel a b q q') : q'.probZero = q.probZero := by
  rcases h with ⟨_, rfl⟩ | ⟨p0, loc, scale, skew, _, rfl, rfl⟩ <;> rfl

theorem counts_aff (a b : ℝ) (col : List (Fl ℝ)) (h : ∀ v ∈ col, Kept a b v) :
    countZerosAndNonMissings (col.map (aff a b)) = countZerosAndNonMissings col := by
  unfold countZerosAndNonMissings
  rw [List.length_map, List.countP_map, List.countP_map]
  simp only [Prod.mk.injEq]
  constructor
  · congr 1
    apply List.countP_congr
    intro v hv
    simp only [Function.comp]
    rcases h v hv with rfl | ⟨x, rfl, h0, _⟩
    · rfl
    · rw [aff_fin, lit_def, feq_fin, feq_fin]
      simp only [Rat.cast_zero, Bool.not_eq_true', decide_eq_false_iff_not]
      rw [h0]
  · apply List.countP_congr
    intro v hv
    simp only [Function.comp]
    rw [isNan_aff a b v (h v hv).finOrNan]

/-- two results: the same error, or related values -/
inductive ResRel {α : Type} (R : α → α → Prop) : Res α → Res α → Prop
  | error (e : PyErr) : ResRel R (.error e) (.error e)
  | ok (x y : α) : R x y → ResRel R (.ok x) (.ok y)

theorem timeStep_aff (E : Ext (Fl ℝ)) (hR : ExtReal E) (a b : ℝ) (ha : 0 < a) (col : List (Fl ℝ)) (h : ∀ v ∈ col, Kept a b v) :
    ResRel (ParamRel a b) (calculateTimeStepParams (lmomentsFit E) col) (calculateTimeStepParams (lmomentsFit E) (col.map (aff a b))) := by
  have hv : ∀ v ∈ col, FinOrNan v := fun v hv => (h v hv).finOrNan
  have hfit := C25_affine E hR col hv a b ha
  have hmap : col.map (fun v => Fl.fin a * v + Fl.fin b) = col.map (aff a b) := rfl
  rw [hmap] at hfit
  unfold calculateTimeStepParams
  rw [counts_aff a b col h]
  simp only
  split
  · exact .ok _ _ (Or.inl ⟨rfl, rfl⟩)
  · rename_i h4
    split
    · rw [hfit]
      obtain ⟨q, hq⟩ := sample_exists col hv
      have h4' : 4 ≤ q.length := by
        rw [← countP_finite col q hq]
        simp only [countZerosAndNonMissings] at h4
        omega
      cases hf : lmomentsFit E col with
      | error e => exact .error e
      | ok r =>
        have hab : ¬ AllButOne q := fun hab => by rw [((C24_fit E hR col q hq h4').1).2 hab] at hf; cases hf
        obtain ⟨loc, scale, skew, hr, hpos⟩ := (C24_fit E hR col q hq h4').2 hab
        rw [hf] at hr
        cases hr
        refine .ok _ _ (Or.inr ⟨_, loc, scale, skew, hpos, rfl, ?_⟩)
        simp only [fin_mul, fin_add]
    · exact .ok _ _ (Or.inl ⟨rfl, rfl⟩)

theorem mapM_rel {α β : Type} (R : β → β → Prop) (f g : α → Res β) (l : List α) (h : ∀ x ∈ l, ResRel R (f x) (g x)) :
    ResRel (List.Forall₂ R) (l.mapM f) (l.mapM g) := by
  induction l with
  | nil => exact .ok _ _ .nil
  | cons x l ih =>
    rw [List.mapM_cons, List.mapM_cons]
    have h1 := h x (by simp)
    have h2 := ih (fun y hy => h y (by simp [hy]))
    generalize f x = fx at *
    generalize g x = gx at *
    cases h1 with
    | error e => exact .error e
    | ok y y' hy =>
      generalize l.mapM f = lf at *
      generalize l.mapM g = lg at *
      cases h2 with
      | error e => exact .error e
      | ok ys ys' hys => exact .ok _ _ (.cons hy hys)

theorem minimum_aff (a b loc scale skew : ℝ) (hk : skew ≠ 0) :
    ∃ m : ℝ, minimumPossible (Fl.fin skew) (.fin loc) (.fin scale) = .fin m ∧
      minimumPossible (Fl.fin skew) (.fin (a * loc + b)) (.fin (a * scale)) = .fin (a * m + b) := by
  have hk2 : skew * skew ≠ 0 := mul_ne_zero hk hk
  refine ⟨loc - (4 / (skew * skew) * scale * skew) / 2, ?_, ?_⟩
  · unfold minimumPossible
    simp only [lit_def, fin_mul, fin_div_of_ne _ _ hk2, fin_div_of_ne _ _ (show ((2 : ℚ) : ℝ) ≠ 0 by norm_num), fin_sub]
    norm_num
  · unfold minimumPossible
    simp only [lit_def, fin_mul, fin_div_of_ne _ _ hk2, fin_div_of_ne _ _ (show ((2 : ℚ) : ℝ) ≠ 0 by norm_num), fin_sub, Fl.fin.injEq]
    push_cast
    ring

theorem minimum_zero (loc scale : ℝ) : minimumPossible (Fl.fin 0) (.fin loc) (.fin scale) = (.nan : Fl ℝ) := by
  have h1 : (Fl.fin (4 : ℝ)) / (Fl.fin 0) = (.pinf : Fl ℝ) := by
    show Fl.div _ _ = _
    simp [Fl.div, Fl.infSign]
  have h2 : (Fl.pinf : Fl ℝ) * .fin scale * .fin 0 = .nan := by
    show Fl.mul (Fl.infSign scale) (.fin 0) = _
    unfold Fl.infSign
    split
    · rfl
    · split <;> simp [Fl.mul, Fl.infSign, Fl.neg]
  unfold minimumPossible
  simp only [lit_def, fin_mul, mul_zero]
  have e4 : (((4 : ℚ)) : ℝ) = 4 := by norm_num
  rw [e4, h1, h2]
  rfl

/-- a value and its parameters in the new unit have the same probability -/
theorem prob_aff (E : Ext (Fl ℝ)) (hE : ExtNan E) (hP : PearsonFamily E) (a b : ℝ) (ha : 0 < a) (v : Fl ℝ) (hv : Kept a b v) (q q' : PearsonParams (Fl ℝ))
    (hq : ParamRel a b q q') : pearsonProb1 E q' (aff a b v) = pearsonProb1 E q v := by
  rcases hv with rfl | ⟨x, rfl, _, h5⟩
  · rw [aff_nan]
    have key : ∀ q : PearsonParams (Fl ℝ), pearsonProb1 E q .nan = .nan := by
      intro q
      have hc : E.pearson3Cdf .nan q.skew q.loc q.scale = .nan := hE.pearson3Cdf_nan _ _ _
      have f1 : ∀ y : Fl ℝ, fle (.nan : Fl ℝ) y = false := fun y => by cases y <;> rfl
      have f2 : ∀ y : Fl ℝ, fle y (.nan : Fl ℝ) = false := fun y => by cases y <;> rfl
      have f3 : ∀ y : Fl ℝ, flt (.nan : Fl ℝ) y = false := fun y => by cases y <;> rfl
      unfold pearsonProb1
      simp only [hc, f1, f2, f3, Bool.false_and, Bool.false_eq_true, if_false]
    rw [key, key]
  · rw [aff_fin]
    have h5' : flt (Fl.fin (a * x + b)) (lit 0.0005) = flt (Fl.fin x) (lit 0.0005) := by
      rw [lit_def, flt_fin, flt_fin]
      have e5 : (((0.0005 : ℚ)) : ℝ) = 0.0005 := by norm_num
      rw [e5]
      exact decide_eq_decide.2 h5.symm
    have f1 : ∀ y : Fl ℝ, fle (.nan : Fl ℝ) y = false := fun y => by cases y <;> rfl
    have f2 : ∀ y : Fl ℝ, fle y (.nan : Fl ℝ) = false := fun y => by cases y <;> rfl
    rcases hq with ⟨rfl, rfl⟩ | ⟨p0, loc, scale, skew, hs, rfl, rfl⟩
    · have e0 : (lit 0 : Fl ℝ) = .fin 0 := by rw [lit_def]; norm_num
      unfold pearsonProb1
      simp only [h5', e0, minimum_zero, hP.zero_scale, f1, f2, Bool.false_and, Bool.false_eq_true, if_false]
    · unfold pearsonProb1
      simp only [h5', hP.affine a b x skew loc scale ha hs]
      by_cases hk : skew = 0
      · subst hk
        simp only [minimum_zero, f1, f2, Bool.false_and, Bool.false_eq_true, if_false]
      · obtain ⟨m, hm, hm'⟩ := minimum_aff a b loc scale skew hk
        have g1 : fle (Fl.fin (a * x + b)) (Fl.fin (a * m + b)) = fle (Fl.fin x) (Fl.fin m) := by
          rw [fle_fin, fle_fin]
          apply decide_eq_decide.2
          constructor
          · intro h; by_contra hc; nlinarith
          · intro h; nlinarith
        have g2 : fle (Fl.fin (a * m + b)) (Fl.fin (a * x + b)) = fle (Fl.fin m) (Fl.fin x) := by
          rw [fle_fin, fle_fin]
          apply decide_eq_decide.2
          constructor
          · intro h; by_contra hc; nlinarith
          · intro h; nlinarith
        simp only [hm, hm', g1, g2]

theorem tile_rel {α : Type} (R : α → α → Prop) (n : Nat) (x y : List α) (h : List.Forall₂ R x y) : List.Forall₂ R (tile n x) (tile n y) := by
  induction n with
  | zero => exact .nil
  | succ n ih => rw [tile_succ, tile_succ]; exact List.rel_append h ih

theorem pearsonFit_aff (E : Ext (Fl ℝ)) (hE : ExtNan E) (hP : PearsonFamily E) (a b : ℝ) (ha : 0 < a) (data : List (Fl ℝ)) (hd : ∀ v ∈ data, Kept a b v)
    (ps ps' : List (PearsonParams (Fl ℝ))) (h : List.Forall₂ (ParamRel a b) ps ps') (hn : allNan data = false) :
    pearsonFit E (data.map (aff a b)) ps' = pearsonFit E data ps := by
  have hn' : allNan (data.map (aff a b)) = false := by rw [allNan_aff a b _ (fun v hv => (hd v hv).finOrNan), hn]
  have h1 : ∀ (ps ps' : List (PearsonParams (Fl ℝ))), List.Forall₂ (ParamRel a b) ps ps' → ∀ data : List (Fl ℝ), (∀ v ∈ data, Kept a b v) →
      List.zipWith (fun x q => pearsonProb1 E q x) (data.map (aff a b)) ps' = List.zipWith (fun x q => pearsonProb1 E q x) data ps := by
    intro ps ps' h
    induction h with
    | nil => intro data _; simp
    | cons hq _ ih =>
      intro data hd
      cases data with
      | nil => rfl
      | cons v data =>
        rw [List.map_cons, List.zipWith_cons_cons, List.zipWith_cons_cons, ih data (fun w hw => hd w (by simp [hw])),
          prob_aff E hE hP a b ha v (hd v (by simp)) _ _ hq]
  have h2 : ∀ (ps ps' : List (PearsonParams (Fl ℝ))), List.Forall₂ (ParamRel a b) ps ps' → ∀ w : List (Fl ℝ),
      List.zipWith (fun v q => E.normPpf (npClip (lit 0) (lit 1) (q.probZero + (lit 1 - q.probZero) * v))) w ps' =
      List.zipWith (fun v (q : PearsonParams (Fl ℝ)) => E.normPpf (npClip (lit 0) (lit 1) (q.probZero + (lit 1 - q.probZero) * v))) w ps := by
    intro ps ps' h
    induction h with
    | nil => intro w; simp
    | cons hq _ ih =>
      intro w
      cases w with
      | nil => rfl
      | cons v w => rw [List.zipWith_cons_cons, List.zipWith_cons_cons, ih w, hq.p0]
  unfold pearsonFit
  rw [hn, hn']
  simp only [Bool.false_eq_true, if_false]
  rw [h1 ps ps' h data hd]
  split
  · rfl
  · exact h2 ps ps' h _

/-- **C90 (transform).** The Pearson transform of an array in another unit and with another zero point (`a v + b`, `a > 0`) is that of the original array, if every value
stays on its side of the thresholds 0 and 0.0005; also when the fit raises. -/
theorem C90_transform (E : Ext (Fl ℝ)) (hE : ExtNan E) (hR : ExtReal E) (hP : PearsonFamily E) (a b : ℝ) (ha : 0 < a) (n : Nat) (data : List (Fl ℝ))
    (ds cs ce : Int) (per : Periodicity) (hper : per ≠ .other) (hd : ∀ v ∈ data, Kept a b v) :
    transformFittedPearson E (lmomentsFit E) ⟨[n, per.steps], data.map (aff a b)⟩ ds cs ce per ⟨none, none, none, none⟩ =
      transformFittedPearson E (lmomentsFit E) ⟨[n, per.steps], data⟩ ds cs ce per ⟨none, none, none, none⟩ := by
  have hfin : ∀ v ∈ data, FinOrNan v := fun v hv => (hd v hv).finOrNan
  cases hn : allNan data with
  | true =>
    have hid : data.map (aff a b) = data := by
      conv_rhs => rw [← List.map_id data]
      apply List.map_congr_left
      intro v hv
      unfold allNan at hn
      rw [List.all_eq_true] at hn
      rw [(FloatLaws.isNan_iff v).1 (hn v hv)]
      rfl
    rw [hid]
  | false =>
    have hn' : allNan (data.map (aff a b)) = false := by rw [allNan_aff a b _ hfin, hn]
    rw [transformFittedPearson_fit E _ n _ _ ds cs ce per hper rfl hn', transformFittedPearson_fit E _ n _ _ ds cs ce per hper rfl hn]
    have hrel : ResRel (List.Forall₂ (ParamRel a b)) (pearsonFits (lmomentsFit E) n per.steps data ds cs ce)
        (pearsonFits (lmomentsFit E) n per.steps (data.map (aff a b)) ds cs ce) := by
      unfold pearsonFits
      apply mapM_rel
      intro j _
      rw [calibrationValues_map, stride_map]
      apply timeStep_aff E hR a b ha
      intro v hv
      exact hd v (mem_calibrationValues _ _ _ _ _ _ _ (mem_of_mem_stride _ _ _ _ hv))
    generalize pearsonFits (lmomentsFit E) n per.steps data ds cs ce = r at *
    generalize pearsonFits (lmomentsFit E) n per.steps (data.map (aff a b)) ds cs ce = r' at *
    cases hrel with
    | error e => rfl
    | ok ps ps' h =>
      simp only
      rw [pearsonFit_aff E hE hP a b ha data hd _ _ (tile_rel _ n _ _ h) hn]

/-- a value that is missing, zero before and after the change, or at least 0.0005 before and after -/
def Clear (a b : ℝ) (v : Fl ℝ) : Prop :=
  v = .nan ∨ ∃ y : ℝ, v = .fin y ∧ ((y = 0 ∧ a * y + b = 0) ∨ (0.0005 ≤ y ∧ 0.0005 ≤ a * y + b))

theorem Clear.kept {a b : ℝ} {v : Fl ℝ} (h : Clear a b v) : Kept a b v := by
  rcases h with h | ⟨y, h, ⟨h1, h2⟩ | ⟨h1, h2⟩⟩
  · exact Or.inl h
  · refine Or.inr ⟨y, h, ⟨fun _ => h2, fun _ => h1⟩, ?_⟩
    rw [h2, h1]
  · refine Or.inr ⟨y, h, ?_, ?_⟩
    · constructor
      · intro h; exfalso; rw [h] at h1; norm_num at h1
      · intro h; exfalso; rw [h] at h2; norm_num at h2
    · constructor
      · intro h; exact absurd h (not_lt.2 h1)
      · intro h; exact absurd h (not_lt.2 h2)

theorem Clear.finOrNan {a b : ℝ} {v : Fl ℝ} (h : Clear a b v) : FinOrNan v := h.kept.finOrNan

theorem Clear.nonneg {a b : ℝ} {v : Fl ℝ} (h : Clear a b v) : flt v (lit 0) = false ∧ flt (aff a b v) (lit 0) = false := by
  rcases h with rfl | ⟨y, rfl, h⟩
  · exact ⟨rfl, rfl⟩
  · rw [aff_fin, lit_def, flt_fin, flt_fin]
    simp only [Rat.cast_zero, decide_eq_false_iff_not, not_lt]
    rcases h with ⟨h1, h2⟩ | ⟨h1, h2⟩
    · rw [h2, h1]; exact ⟨le_refl _, le_refl _⟩
    · norm_num at h1 h2
      constructor <;> linarith

theorem sum_aff (a b : ℝ) (l : List (Fl ℝ)) (h : ∀ v ∈ l, Clear a b v) :
    fsum (l.map (aff a b)) = aff a (l.length * b) (fsum l) ∧ Clear a (l.length * b) (fsum l) := by
  show (l.map (aff a b)).foldr Fl.add (.fin 0) = aff a _ (l.foldr Fl.add (.fin 0)) ∧ Clear a _ (l.foldr Fl.add (.fin 0))
  induction l with
  | nil =>
    simp only [List.map_nil, List.foldr_nil, List.length_nil, Nat.cast_zero, zero_mul]
    refine ⟨by rw [aff_fin]; simp, Or.inr ⟨0, rfl, Or.inl ⟨rfl, by simp⟩⟩⟩
  | cons v l ih =>
    obtain ⟨h1, h2⟩ := ih (fun w hw => h w (by simp [hw]))
    simp only [List.map_cons, List.foldr_cons, h1]
    rcases h v (by simp) with rfl | ⟨y, rfl, hy⟩
    · exact ⟨rfl, Or.inl rfl⟩
    · rcases h2 with h2 | ⟨z, h2, hz⟩
      · rw [h2]; exact ⟨rfl, Or.inl rfl⟩
      · rw [h2]
        have e : Fl.add (.fin y) (.fin z) = (.fin (y + z) : Fl ℝ) := rfl
        rw [e, aff_fin, aff_fin, aff_fin]
        have e2 : a * (y + z) + ((l.length + 1 : ℕ) : ℝ) * b = (a * y + b) + (a * z + l.length * b) := by push_cast; ring
        rw [List.length_cons]
        refine ⟨?_, Or.inr ⟨y + z, rfl, ?_⟩⟩
        · rw [e2]; rfl
        · rw [e2]
          rcases hy with ⟨y1, y2⟩ | ⟨y1, y2⟩ <;> rcases hz with ⟨z1, z2⟩ | ⟨z1, z2⟩
          · left; exact ⟨by rw [y1, z1, add_zero], by rw [y2, z2, add_zero]⟩
          · right; rw [y2, y1]; exact ⟨by linarith, by linarith⟩
          · right; rw [z2, z1]; exact ⟨by linarith, by linarith⟩
          · right; norm_num at y1 y2 z1 z2 ⊢; exact ⟨by linarith, by linarith⟩

/-- sliding sums in another unit -/
theorem sumToScale_aff (a b : ℝ) (x : List (Fl ℝ)) (k : Int) (h : ∀ v ∈ x, Clear a b v) (hk : k ≤ x.length ∨ b = 0) :
    sumToScale (x.map (aff a b)) k = (sumToScale x k).map (List.map (aff a (k * b))) ∧
      ∀ s, sumToScale x k = .ok s → ∀ v ∈ s, Clear a (k * b) v := by
  unfold sumToScale
  by_cases h1 : k = 1
  · subst h1
    simp only [if_true, Int.cast_one, one_mul]
    refine ⟨rfl, ?_⟩
    intro s hs
    cases hs
    exact h
  · rw [if_neg h1, if_neg h1]
    unfold convolveOnes
    by_cases h2 : k ≤ 0 ∨ x = []
    · have h2' : k ≤ 0 ∨ x.map (aff a b) = [] := by simpa using h2
      rw [if_pos h2, if_pos h2']
      exact ⟨rfl, fun s hs => by cases hs⟩
    · have h2' : ¬ (k ≤ 0 ∨ x.map (aff a b) = []) := by simpa using h2
      rw [if_neg h2, if_neg h2']
      rw [not_or, not_le] at h2
      obtain ⟨hk0, hx⟩ := h2
      have hkk : ((k.toNat : ℕ) : ℝ) = k := by
        have := Int.toNat_of_nonneg hk0.le
        exact_mod_cast this
      simp only [List.length_map]
      have hnan : Clear a (k * b) nan := Or.inl rfl
      by_cases h3 : k.toNat ≤ x.length
      · rw [if_pos h3, if_pos h3]
        have key : ∀ t ∈ List.range (x.length - k.toNat + 1),
            fsum (slice (x.map (aff a b)) t (t + k.toNat)) = aff a (k * b) (fsum (slice x t (t + k.toNat))) ∧
            Clear a (k * b) (fsum (slice x t (t + k.toNat))) := by
          intro t ht
          rw [List.mem_range] at ht
          have hl : (slice x t (t + k.toNat)).length = k.toNat := by rw [slice_length']; omega
          have hm : slice (x.map (aff a b)) t (t + k.toNat) = (slice x t (t + k.toNat)).map (aff a b) := by
            unfold slice; rw [List.map_take, List.map_drop]
          have := sum_aff a b (slice x t (t + k.toNat)) (fun v hv => h v (List.mem_of_mem_drop (List.mem_of_mem_take hv)))
          rw [hl, hkk] at this
          rw [hm]
          exact this
        simp only [bind, Except.bind, pure, Except.pure, Except.map]
        constructor
        · rw [List.map_append, List.map_replicate, List.map_map]
          congr 2
          exact List.map_congr_left (fun t ht => (key t ht).1)
        · intro s hs
          cases hs
          intro v hv
          rcases List.mem_append.1 hv with hv | hv
          · rw [(List.mem_replicate.1 hv).2]; exact hnan
          · obtain ⟨t, ht, rfl⟩ := List.mem_map.1 hv
            exact (key t ht).2
      · rw [if_neg h3, if_neg h3]
        have hb : b = 0 := by
          rcases hk with hk | hk
          · omega
          · exact hk
        subst hb
        obtain ⟨k1, k2⟩ := sum_aff a 0 x h
        simp only [mul_zero] at k1 k2 ⊢
        simp only [bind, Except.bind, pure, Except.pure, Except.map]
        constructor
        · rw [List.map_append, List.map_replicate, List.map_replicate, k1]
          rfl
        · intro s hs
          cases hs
          intro v hv
          rcases List.mem_append.1 hv with hv | hv
          · rw [(List.mem_replicate.1 hv).2]; exact Or.inl rfl
          · rw [(List.mem_replicate.1 hv).2]; exact k2

/-- **C90 (series).** The Pearson SPI of a series in another unit and with another zero point is that of the original series, if every value is missing, zero before and after, or at least
0.0005 before and after; also when the computation raises. -/
theorem C90_series_partial (E : Ext (Fl ℝ)) (hE : ExtNan E) (hR : ExtReal E) (hP : PearsonFamily E) (a b : ℝ) (ha : 0 < a) (shape : List Nat) (x : List (Fl ℝ))
    (k ds cs ce : Int) (per : Periodicity) (h : ∀ v ∈ x, Clear a b v) (hk : k ≤ x.length ∨ b = 0) :
    spi E ⟨shape, x.map (aff a b)⟩ k .pearson ds cs ce per none = spi E ⟨shape, x⟩ k .pearson ds cs ce per none := by
  have hfin : ∀ v ∈ x, FinOrNan v := fun v hv => (h v hv).finOrNan
  by_cases hdim : shape.length = 2 ∨ shape.length = 1
  swap
  · unfold spi; rw [if_neg hdim, if_neg hdim]
  cases hn : allNan x with
  | true =>
    have hid : x.map (aff a b) = x := by
      conv_rhs => rw [← List.map_id x]
      apply List.map_congr_left
      intro v hv
      unfold allNan at hn
      rw [List.all_eq_true] at hn
      rw [(FloatLaws.isNan_iff v).1 (hn v hv)]
      rfl
    rw [hid]
  | false =>
    have hn' : allNan (x.map (aff a b)) = false := by rw [allNan_aff a b _ hfin, hn]
    rw [spi_eq E _ k .pearson ds cs ce per none hdim hn', spi_eq E _ k .pearson ds cs ce per none hdim hn]
    simp only
    rw [clipNeg_id _ (fun v hv => (h v hv).nonneg.1), clipNeg_id (x.map (aff a b)) (by
      intro v hv
      obtain ⟨w, hw, rfl⟩ := List.mem_map.1 hv
      exact (h w hw).nonneg.2)]
    obtain ⟨h1, h2⟩ := sumToScale_aff a b x k h hk
    rw [h1]
    cases hs : sumToScale x k with
    | error e => rfl
    | ok s =>
      have h3 := h2 s hs
      simp only [Except.map, bind, Except.bind]
      by_cases hper : per = .other
      · subst hper; rfl
      · obtain ⟨n, hr, hl⟩ := reshapeValues_total s per hper
        obtain ⟨n', hr', hl'⟩ := reshapeValues_total (s.map (aff a (k * b))) per hper
        have hpad : s.map (aff a (k * b)) ++ List.replicate (padCount (s.map (aff a (k * b))).length per.steps) nan =
            (s ++ List.replicate (padCount s.length per.steps) nan).map (aff a (k * b)) := by
          rw [List.map_append, List.map_replicate, List.length_map]; rfl
        rw [hpad] at hr' hl'
        have hnn : n' = n := by
          rw [List.length_map, hl] at hl'
          exact (Nat.eq_of_mul_eq_mul_right (steps_pos per hper) hl').symm
        subst hnn
        rw [hr, hr', List.length_map]
        simp only [distTransform, getPearsonArgs, bind, Except.bind]
        rw [C90_transform E hE hR hP a (k * b) ha n' _ ds cs ce per hper (by
          intro v hv
          rcases List.mem_append.1 hv with hv | hv
          · exact (h3 v hv).kept
          · rw [(List.mem_replicate.1 hv).2]; exact Or.inl rfl)]

/-- **C90 (SPI).** The Pearson SPI does not depend on the unit: for every series of values that are missing, zero, or at least 0.0005 in both units, `spi` of the series times `c` is `spi` of
the series. -/
theorem C90_spi_partial (E : Ext (Fl ℝ)) (hE : ExtNan E) (hR : ExtReal E) (hP : PearsonFamily E) (c : ℝ) (hc : 0 < c) (values : Arr (Fl ℝ))
    (k ds cs ce : Int) (per : Periodicity)
    (h : ∀ v ∈ values.data, v = .nan ∨ ∃ y : ℝ, v = .fin y ∧ (y = 0 ∨ (0.0005 ≤ y ∧ 0.0005 ≤ c * y))) :
    spi E ⟨values.shape, values.data.map (Fl.fin c * ·)⟩ k .pearson ds cs ce per none = spi E values k .pearson ds cs ce per none := by
  have hmap : values.data.map (Fl.fin c * ·) = values.data.map (aff c 0) := by
    apply List.map_congr_left
    intro v hv
    rcases h v hv with rfl | ⟨y, rfl, _⟩
    · rfl
    · rw [aff_fin, fin_mul, add_zero]
  rw [hmap]
  refine C90_series_partial E hE hR hP c 0 hc values.shape values.data k ds cs ce per ?_ (Or.inr rfl)
  intro v hv
  rcases h v hv with h | ⟨y, h, hy⟩
  · exact Or.inl h
  · refine Or.inr ⟨y, h, ?_⟩
    rcases hy with hy | hy
    · left; rw [hy]; simp
    · right; rw [add_zero]; exact hy

/-- a series whose numbers are all at least 0.0005 -/
def Above (l : List (Fl ℝ)) : Prop := ∀ v ∈ l, v = .nan ∨ ∃ y : ℝ, v = .fin y ∧ 0.0005 ≤ y

theorem Above.nonneg {l : List (Fl ℝ)} (h : Above l) : ∀ v ∈ l, flt v (lit 0) = false := by
  intro v hv
  rcases h v hv with rfl | ⟨y, rfl, hy⟩
  · rfl
  · rw [lit_def, flt_fin]
    simp only [Rat.cast_zero, decide_eq_false_iff_not, not_lt]
    norm_num at hy
    linarith

/-- `spei` of two data sets whose balances are related by a change of unit and datum -/
theorem spei_aff (E : Ext (Fl ℝ)) (hE : ExtNan E) (hR : ExtReal E) (hP : PearsonFamily E) (a b : ℝ) (ha : 0 < a) (p e p' e' : Arr (Fl ℝ))
    (k ds cs ce : Int) (per : Periodicity) (hper : per ≠ .other) (hl : p.data.length = e.data.length) (hl' : p'.data.length = e'.data.length)
    (hp : ∀ v ∈ p.data, flt v (lit 0) = false) (hp' : ∀ v ∈ p'.data, flt v (lit 0) = false)
    (hA : Above (balance p.data e.data)) (hA' : Above (balance p'.data e'.data)) (hn : ∃ v ∈ balance p.data e.data, isNan v = false)
    (hrel : balance p'.data e'.data = (balance p.data e.data).map (aff a b)) (hk : k ≤ p.data.length) :
    spei E p' e' k .pearson per ds cs ce none = spei E p e k .pearson per ds cs ce none := by
  have hclear : ∀ v ∈ balance p.data e.data, Clear a b v := by
    intro v hv
    rcases hA v hv with h | ⟨y, rfl, hy⟩
    · exact Or.inl h
    · refine Or.inr ⟨y, rfl, Or.inr ⟨hy, ?_⟩⟩
      have hm : aff a b (.fin y) ∈ balance p'.data e'.data := by rw [hrel]; exact List.mem_map_of_mem hv
      rcases hA' _ hm with h | ⟨z, hz, hz'⟩
      · rw [aff_fin] at h; cases h
      · rw [aff_fin] at hz; cases hz; exact hz'
  have hn' : ∃ v ∈ balance p'.data e'.data, isNan v = false := by
    obtain ⟨v, hv, h⟩ := hn
    refine ⟨aff a b v, by rw [hrel]; exact List.mem_map_of_mem hv, ?_⟩
    rw [isNan_aff a b v (hclear v hv).finOrNan, h]
  rw [C89_partial E p' e' k .pearson per ds cs ce none hl' hp' hA'.nonneg hn' hper,
    C89_partial E p e k .pearson per ds cs ce none hl hp hA.nonneg hn hper, hrel]
  have hnf : normFitdict (none : Option (FitDict (Fl ℝ))) = none := rfl
  rw [hnf]
  have hlen : ((balance p.data e.data).map (aff a b)).length = (balance p.data e.data).length := List.length_map _
  have := C90_series_partial E hE hR hP a b ha [(balance p.data e.data).length] (balance p.data e.data) k ds cs ce per hclear
    (Or.inl (by rw [balance_length _ _ hl]; exact hk))
  unfold Arr.of1d
  rw [hlen, this]

theorem balance_map (p e : List (Fl ℝ)) (f g : Fl ℝ → Fl ℝ) (a b : ℝ) (hp : ∀ v ∈ p, FinOrNan v) (he : ∀ v ∈ e, FinOrNan v)
    (hfg : ∀ x y : ℝ, (f (.fin x) - g (.fin y)) + lit 1000 = aff a b ((.fin x - .fin y) + lit 1000))
    (hf : f .nan = .nan) (hg : ∀ x : ℝ, (f (.fin x) - g .nan : Fl ℝ) = .nan) : balance (p.map f) (e.map g) = (balance p e).map (aff a b) := by
  unfold balance
  induction p generalizing e with
  | nil => simp
  | cons x p ih =>
    cases e with
    | nil => simp
    | cons y e =>
      simp only [List.map_cons, List.zipWith_cons_cons]
      rw [ih e (fun v hv => hp v (by simp [hv])) (fun v hv => he v (by simp [hv]))]
      congr 1
      rcases hp x (by simp) with rfl | ⟨x, rfl⟩
      · rw [hf]; rfl
      · rcases he y (by simp) with rfl | ⟨y, rfl⟩
        · rw [hg]; rfl
        · exact hfg x y

/-- **C90 (SPEI, unit).** The Pearson SPEI does not depend on the unit: multiplying precipitation and evapotranspiration by `c > 0` changes nothing, as long as the balance plus 1000 is at least 0.0005
in both units. -/
theorem C90_spei_unit_partial (E : Ext (Fl ℝ)) (hE : ExtNan E) (hR : ExtReal E) (hP : PearsonFamily E) (c : ℝ) (hc : 0 < c) (p e : Arr (Fl ℝ))
    (k ds cs ce : Int) (per : Periodicity) (hper : per ≠ .other) (hl : p.data.length = e.data.length)
    (hp : ∀ v ∈ p.data, NonnegOrNan v) (he : ∀ v ∈ e.data, FinOrNan v)
    (hA : Above (balance p.data e.data)) (hA' : Above (balance (p.data.map (Fl.fin c * ·)) (e.data.map (Fl.fin c * ·))))
    (hn : ∃ v ∈ balance p.data e.data, isNan v = false) (hk : k ≤ p.data.length) :
    spei E ⟨p.shape, p.data.map (Fl.fin c * ·)⟩ ⟨e.shape, e.data.map (Fl.fin c * ·)⟩ k .pearson per ds cs ce none = spei E p e k .pearson per ds cs ce none := by
  have hnn : ∀ c : ℝ, 0 < c → ∀ v : Fl ℝ, NonnegOrNan v → flt (Fl.fin c * v) (lit 0) = false := by
    rintro c hc v (rfl | ⟨x, hx, rfl⟩)
    · rfl
    · rw [fin_mul, lit_def, flt_fin]; simp only [Rat.cast_zero, decide_eq_false_iff_not, not_lt]; positivity
  refine spei_aff E hE hR hP c (1000 * (1 - c)) hc p e _ _ k ds cs ce per hper hl (by simpa using hl) ?_ ?_ hA hA' hn ?_ hk
  · rintro v hv
    rcases hp v hv with rfl | ⟨x, hx, rfl⟩
    · rfl
    · rw [lit_def, flt_fin]; simpa using hx
  · intro v hv
    obtain ⟨w, hw, rfl⟩ := List.mem_map.1 hv
    exact hnn c hc w (hp w hw)
  · refine balance_map p.data e.data _ _ c _ ?_ he ?_ rfl (fun x => rfl)
    · intro v hv
      rcases hp v hv with h | ⟨x, _, h⟩
      · exact Or.inl h
      · exact Or.inr ⟨x, h⟩
    · intro x y
      rw [fin_mul, fin_mul, fin_sub, fin_sub, lit_def, fin_add, fin_add, aff_fin]
      congr 1
      push_cast
      ring

/-- **C90 (SPEI, constant PET error).** Adding the same amount `d` to every evapotranspiration value does not change the Pearson SPEI, as long as the balance plus 1000 is at least
0.0005 in both data sets. -/
theorem C90_spei_shift_partial (E : Ext (Fl ℝ)) (hE : ExtNan E) (hR : ExtReal E) (hP : PearsonFamily E) (d : ℝ) (p e : Arr (Fl ℝ))
    (k ds cs ce : Int) (per : Periodicity) (hper : per ≠ .other) (hl : p.data.length = e.data.length)
    (hp : ∀ v ∈ p.data, NonnegOrNan v) (he : ∀ v ∈ e.data, FinOrNan v)
    (hA : Above (balance p.data e.data)) (hA' : Above (balance p.data (e.data.map (· + Fl.fin d))))
    (hn : ∃ v ∈ balance p.data e.data, isNan v = false) (hk : k ≤ p.data.length) :
    spei E p ⟨e.shape, e.data.map (· + Fl.fin d)⟩ k .pearson per ds cs ce none = spei E p e k .pearson per ds cs ce none := by
  have hp0 : ∀ v ∈ p.data, flt v (lit 0) = false := by
    intro v hv
    rcases hp v hv with rfl | ⟨x, hx, rfl⟩
    · rfl
    · rw [lit_def, flt_fin]; simpa using hx
  refine spei_aff E hE hR hP 1 (-d) one_pos p e p _ k ds cs ce per hper hl (by simpa using hl) hp0 hp0 hA hA' hn ?_ hk
  have := balance_map p.data e.data id (· + Fl.fin d) 1 (-d) (by
    intro v hv
    rcases hp v hv with h | ⟨x, _, h⟩
    · exact Or.inl h
    · exact Or.inr ⟨x, h⟩) he (by
    intro x y
    simp only [id]
    rw [fin_add, fin_sub, fin_sub, lit_def, fin_add, fin_add, aff_fin]
    congr 1
    ring) rfl (fun x => rfl)
  rwa [List.map_id] at this

/-- an instance: a Pearson distribution function that is a function of `(x - loc) / scale` -/
noncomputable def locScaleExt : Ext (Fl ℝ) := { realExt with
  pearson3Cdf := fun x _ loc scale => match x, loc, scale with
    | .fin x, .fin l, .fin s => if s = 0 then .nan else .fin (if (x - l) / s ≤ -1 then 0 else 1 - 1 / ((x - l) / s + 2))
    | _, _, _ => .nan }

theorem locScaleExt_nan : ExtNan locScaleExt where
  log_nan := rfl
  gammaCdf_nan := by intro a s; rfl
  gammaCdf_nan_shape := realExt_nan.gammaCdf_nan_shape
  pearson3Cdf_nan := by intro a b c; rfl
  normPpf_nan := rfl

theorem locScaleExt_real : ExtReal locScaleExt where
  log_pos := realExt_real.log_pos
  sqrt_nonneg := realExt_real.sqrt_nonneg
  exp_fin := realExt_real.exp_fin
  lgamma_pos := realExt_real.lgamma_pos
  pi_eq := rfl
  gammaCdf_scale := realExt_real.gammaCdf_scale
  gammaCdf_nan_scale := realExt_real.gammaCdf_nan_scale

theorem locScaleExt_family : PearsonFamily locScaleExt where
  affine := by
    intro a b x skew loc scale ha hs
    simp only [locScaleExt]
    have h1 : a * scale ≠ 0 := (mul_pos ha hs).ne'
    have h2 : (a * x + b - (a * loc + b)) / (a * scale) = (x - loc) / scale := by
      rw [show a * x + b - (a * loc + b) = a * (x - loc) by ring, mul_div_mul_left _ _ ha.ne']
    rw [if_neg h1, if_neg hs.ne', h2]
  zero_scale := by
    intro x skew loc
    cases x <;> cases loc <;> simp [locScaleExt]

/-- the hypotheses of `C90_spi_partial` are met: a record with a missing month, dry months and months of 1, 2, ... mm, in inches -/
example : let c : ℝ := 1 / 25.4
    0 < c ∧ ∀ v ∈ twoYears, v = .nan ∨ ∃ y : ℝ, v = .fin y ∧ (y = 0 ∨ (0.0005 ≤ y ∧ 0.0005 ≤ c * y)) := by
  refine ⟨by norm_num, ?_⟩
  intro v hv
  rcases List.mem_append.1 hv with hv | hv
  · obtain ⟨i, _, rfl⟩ := List.mem_map.1 hv
    refine Or.inr ⟨i, rfl, ?_⟩
    rcases Nat.eq_zero_or_pos i with rfl | hi
    · left; simp
    · right
      have : (1 : ℝ) ≤ i := by exact_mod_cast hi
      norm_num
      constructor <;> linarith
  · left; simpa using hv

/-- the hypotheses of `C90_spei_unit_partial` and `C90_spei_shift_partial` are met: the same record against an evapotranspiration of 100 mm; 2.54 cm are an inch, and 5 mm are added -/
example : let e := List.replicate 24 (Fl.fin (100 : ℝ))
    (∀ v ∈ twoYears, NonnegOrNan v) ∧ (∀ v ∈ e, FinOrNan v) ∧ Above (balance twoYears e) ∧
    Above (balance (twoYears.map (Fl.fin 2.54 * ·)) (e.map (Fl.fin 2.54 * ·))) ∧ Above (balance twoYears (e.map (· + Fl.fin 5))) ∧
    ∃ v ∈ balance twoYears e, isNan v = false := by
  intro e
  have key : ∀ (f g : Fl ℝ → Fl ℝ), (∀ y : ℝ, 0 ≤ y → ∃ z : ℝ, f (.fin y) - g (.fin 100) + lit 1000 = .fin z ∧ 0.0005 ≤ z) → f .nan = .nan →
      Above (balance (twoYears.map f) (e.map g)) := by
    intro f g h hf v hv
    unfold balance at hv
    rw [List.mem_iff_getElem?] at hv
    obtain ⟨i, hi⟩ := hv
    rw [List.getElem?_zipWith] at hi
    split at hi
    · rename_i a b ha hb
      simp only [Option.some.injEq] at hi
      obtain ⟨a', ha', rfl⟩ := List.mem_map.1 (List.mem_of_getElem? ha)
      obtain ⟨b', hb', rfl⟩ := List.mem_map.1 (List.mem_of_getElem? hb)
      have hb2 : b' = .fin 100 := (List.mem_replicate.1 hb').2
      subst hb2
      rw [← hi]
      rcases twoYears_nonneg a' ha' with rfl | ⟨y, hy, rfl⟩
      · left; rw [hf]; rfl
      · right
        obtain ⟨z, hz, hz'⟩ := h y hy
        exact ⟨z, hz, hz'⟩
    · cases hi
  refine ⟨twoYears_nonneg, ?_, ?_, ?_, ?_, ?_⟩
  · intro v hv; exact Or.inr ⟨100, (List.mem_replicate.1 hv).2⟩
  · have := key id id (by
      intro y hy
      refine ⟨y - 100 + 1000, ?_, by norm_num; linarith⟩
      simp only [id]; rw [fin_sub, lit_def, fin_add]; norm_num) rfl
    simpa using this
  · apply key _ _ _ rfl
    intro y hy
    refine ⟨2.54 * y - 2.54 * 100 + 1000, ?_, by norm_num; linarith⟩
    rw [fin_mul, fin_mul, fin_sub, lit_def, fin_add]; norm_num
  · have := key id (· + Fl.fin 5) (by
      intro y hy
      refine ⟨y - 105 + 1000, ?_, by norm_num; linarith⟩
      simp only [id]; rw [fin_add, fin_sub, lit_def, fin_add]; norm_num) rfl
    simpa using this
  · refine ⟨Fl.fin ((0 : ℕ) : ℝ) - Fl.fin 100 + lit 1000, ?_, rfl⟩
    unfold balance twoYears
    rw [List.mem_iff_getElem?]
    exact ⟨0, rfl⟩

/-- **C90 needs the threshold**: the code treats a value below 0.0005 (in whatever unit) as dry. For a month whose calibration sample has no zeros, 0.0004 gets the probability 0.0005
of the code whatever the fitted distribution says; in a unit ten times smaller the same amount gets the fitted probability. -/
theorem C90_trace_fails : ∃ (E : Ext (Fl ℝ)) (p0 loc scale skew x : ℝ), ExtNan E ∧ ExtReal E ∧ PearsonFamily E ∧ 0 < x ∧ 0 < scale ∧
    pearsonProb1 E ⟨.fin p0, .fin loc, .fin scale, .fin skew⟩ (.fin x) = .fin 0.0005 ∧
    pearsonProb1 E ⟨.fin p0, .fin (10 * loc), .fin (10 * scale), .fin skew⟩ (.fin (10 * x)) = E.pearson3Cdf (.fin x) (.fin skew) (.fin loc) (.fin scale) ∧
    E.pearson3Cdf (.fin x) (.fin skew) (.fin loc) (.fin scale) = .fin (1 - 1 / 1.8004) := by
  have hval : locScaleExt.pearson3Cdf (.fin 0.0004) (.fin 2) (.fin 0.2) (.fin 1) = .fin (1 - 1 / 1.8004) := by
    simp only [locScaleExt]
    norm_num
  refine ⟨locScaleExt, 0, 0.2, 1, 2, 0.0004, locScaleExt_nan, locScaleExt_real, locScaleExt_family, by norm_num, by norm_num, ?_, ?_, hval⟩
  · unfold pearsonProb1 minimumPossible
    simp only [lit_def, fin_mul, fin_sub, fin_div_of_ne, fle_fin, flt_fin, feq_fin]
    norm_num
  · rw [← locScaleExt_family.affine 10 0 0.0004 2 0.2 1 (by norm_num) (by norm_num)]
    have hm : minimumPossible (Fl.fin (2 : ℝ)) (.fin (10 * 0.2)) (.fin (10 * 1)) = .fin (-8) := by
      unfold minimumPossible
      dsimp only
      rw [lit_def, lit_def, fin_mul, fin_div_of_ne _ _ (by norm_num), fin_mul, fin_mul, fin_div_of_ne _ _ (by norm_num), fin_sub]
      norm_num
    unfold pearsonProb1
    simp only [hm, lit_def, fle_fin, flt_fin]
    norm_num

/-- Thom's shape determines the gap between the logarithm of the mean and the mean of the logarithms -/
theorem thomAlpha_inj (q q' : List ℝ) (h : 0 < logGap q) (h' : 0 < logGap q') (he : thomAlpha q = thomAlpha q') : logGap q = logGap q' := by
  have key : ∀ A : ℝ, 0 < A → (1 + Real.sqrt (1 + 4 * A / 3)) / (4 * A) = 1 / (3 * (Real.sqrt (1 + 4 * A / 3) - 1)) ∧ 1 < Real.sqrt (1 + 4 * A / 3) := by
    intro A hA
    have h1 : 1 < Real.sqrt (1 + 4 * A / 3) := by
      rw [Real.lt_sqrt (by norm_num)]
      linarith
    refine ⟨?_, h1⟩
    have hs : Real.sqrt (1 + 4 * A / 3) ^ 2 = 1 + 4 * A / 3 := Real.sq_sqrt (by linarith)
    generalize Real.sqrt (1 + 4 * A / 3) = r at h1 hs ⊢
    have h2 : 3 * (r - 1) ≠ 0 := by intro h0; linarith
    rw [div_eq_div_iff (by linarith) h2]
    linear_combination 3 * hs
  obtain ⟨k1, k2⟩ := key _ h
  obtain ⟨k1', k2'⟩ := key _ h'
  unfold thomAlpha at he
  rw [k1, k1'] at he
  have h3 := one_div_one_div (3 * (Real.sqrt (1 + 4 * logGap q / 3) - 1))
  rw [he, one_div_one_div] at h3
  have h4 : Real.sqrt (1 + 4 * logGap q / 3) = Real.sqrt (1 + 4 * logGap q' / 3) := by linarith
  have h5 := Real.sqrt_inj (by linarith : (0:ℝ) ≤ 1 + 4 * logGap q / 3) (by linarith : (0:ℝ) ≤ 1 + 4 * logGap q' / 3) |>.1 h4
  linarith

/-- **C90 is false of the gamma SPEI**: the offset 1000 has no unit. With precipitation 0 and 3000 and no evapotranspiration the fitted shape changes when both are expressed in a unit
half as large. -/
theorem C90_gamma_spei_fails (E : Ext (Fl ℝ)) (hE : ExtNan E) (hR : ExtReal E) :
    let p : List (Fl ℝ) := [.fin 0, .fin 3000]
    let e : List (Fl ℝ) := [.fin 0, .fin 0]
    (gammaFitCol E (balance (p.map (Fl.fin 2 * ·)) (e.map (Fl.fin 2 * ·)))).1 ≠ (gammaFitCol E (balance p e)).1 := by
  intro p e
  have hb : balance p e = [.fin 1000, .fin 4000] := by
    simp only [balance, p, e, List.zipWith_cons_cons, List.zipWith_nil_left, fin_sub, lit_def, fin_add]
    norm_num
  have hb' : balance (p.map (Fl.fin 2 * ·)) (e.map (Fl.fin 2 * ·)) = [.fin 1000, .fin 7000] := by
    simp only [balance, p, e, List.map_cons, List.map_nil, List.zipWith_cons_cons, List.zipWith_nil_left, fin_mul, fin_sub, lit_def, fin_add]
    norm_num
  have hfit : ∀ x y : ℝ, 0 < x → 0 < y → x ≠ y → (gammaFitCol E [.fin x, .fin y]).1 = .fin (thomAlpha [x, y]) ∧ 0 < logGap [x, y] := by
    intro x y hx hy hxy
    have hpos : ∀ v ∈ [Fl.fin x, Fl.fin y], PosOrNan v := by
      intro v hv
      simp only [List.mem_cons, List.not_mem_nil, or_false] at hv
      rcases hv with rfl | rfl
      · exact Or.inr ⟨x, hx, rfl⟩
      · exact Or.inr ⟨y, hy, rfl⟩
    obtain ⟨q, hq, hq', h⟩ := gammaFitCol_real E hE hR _ hpos
    have hqe : q = [x, y] := by
      apply List.map_injective_iff.2 fin_injective
      rw [← hq']
      rfl
    subst hqe
    obtain ⟨h1, h2⟩ := logGap_nonneg [x, y] hq (by simp)
    have h3 : logGap [x, y] ≠ 0 := by
      intro h0
      exact hxy (h2.1 h0 x (by simp) y (by simp))
    rw [h, if_neg (by simp), if_neg h3]
    exact ⟨rfl, lt_of_le_of_ne h1 (Ne.symm h3)⟩
  obtain ⟨f1, g1⟩ := hfit 1000 4000 (by norm_num) (by norm_num) (by norm_num)
  obtain ⟨f2, g2⟩ := hfit 1000 7000 (by norm_num) (by norm_num) (by norm_num)
  rw [hb, hb', f1, f2]
  intro h
  have h4 := thomAlpha_inj _ _ g2 g1 (fin_injective h)
  have gap : ∀ y : ℝ, 0 < y → 2 * logGap [1000, y] = Real.log (((1000 + y) / 2) ^ 2 / (1000 * y)) := by
    intro y hy
    rw [Real.log_div (by positivity) (by positivity), Real.log_pow, Real.log_mul (by norm_num) hy.ne']
    simp only [logGap, mean, List.map_cons, List.map_nil, List.sum_cons, List.sum_nil, List.length_cons, List.length_nil]
    norm_num
    ring
  have h5 : Real.log ((((1000 : ℝ) + 7000) / 2) ^ 2 / (1000 * 7000)) = Real.log ((((1000 : ℝ) + 4000) / 2) ^ 2 / (1000 * 4000)) := by
    rw [← gap 7000 (by norm_num), ← gap 4000 (by norm_num), h4]
  have h6 := Real.log_injOn_pos (by simp only [Set.mem_Ioi]; norm_num) (by simp only [Set.mem_Ioi]; norm_num) h5
  norm_num at h6

end CI.Props
