import Verif.Lemmas.PalmerRun
import Mathlib.Tactic.FieldSimp

/-!
# Numbers of the spell machine: signs, finiteness, probability
-/

namespace CI

section laws
variable {F : Type} [FloatOps F] [L : FloatLaws F]

theorem zero_le_pyMax (x : F) : fle (lit 0) (pyMax (lit 0) x) = true := by
  unfold pyMax
  split
  · next h => exact fle_of_flt h
  · exact L.fle_refl _ (L.lit_ne_nan 0)

theorem pyMin_le_zero (x : F) : fle (pyMin (lit 0) x) (lit 0) = true := by
  unfold pyMin
  split
  · next h => exact fle_of_flt h
  · exact L.fle_refl _ (L.lit_ne_nan 0)

/-- signs of the incipient indices and the upper bound of the probability -/
def Month.Signs (m : Month F) : Prop :=
  fle (lit 0) m.px1 = true ∧ fle m.px2 (lit 0) = true ∧ flt (lit 100) m.ppr = false

theorem eval200_signs (x1 x2 z ppr px3 pv : F) (h : flt (lit 100) ppr = false) : (eval200 x1 x2 z ppr px3 pv).Signs := by
  have h1 := zero_le_pyMax (lit 0.897 * x1 + z / lit 3)
  have h2 := pyMin_le_zero (lit 0.897 * x2 + z / lit 3)
  have h0 : fle (lit 0 : F) (lit 0) = true := L.fle_refl _ (L.lit_ne_nan 0)
  unfold eval200 Month.Signs
  simp only
  split
  · exact ⟨h0, h0, h⟩
  · split
    · exact ⟨h1, h0, h⟩
    · split
      · exact ⟨h1, h2, h⟩
      · split <;> exact ⟨h1, h2, h⟩

theorem zero_not_gt_hundred : flt (lit 100 : F) (lit 0) = false :=
  not_flt_of_fle (L.lit_mono 0 100 (by norm_num))

theorem eval210_signs (x3 z : F) : (eval210 x3 z).Signs := by
  have h0 : fle (lit 0 : F) (lit 0) = true := L.fle_refl _ (L.lit_ne_nan 0)
  exact ⟨h0, h0, zero_not_gt_hundred⟩

theorem eval190_signs (v pro x1 x2 x3 z pv ze : F) : (eval190 v pro x1 x2 x3 z pv ze).Signs := by
  unfold eval190
  simp only
  generalize (if feq pro (lit 100) then ze else ze + v) = q
  split
  · exact eval200_signs _ _ _ _ _ _ (flt_irrefl _)
  · next h =>
    refine eval200_signs _ _ _ _ _ _ ?_
    rw [← Bool.not_eq_true]
    intro hc
    exact h (fle_of_flt hc)

theorem monthEval_signs (v pro x1 x2 x3 z : F) : (monthEval v pro x1 x2 x3 z).Signs := by
  have h170 : (eval170 v pro x1 x2 x3 z).Signs := by
    unfold eval170; simp only; split
    · exact eval210_signs _ _
    · exact eval190_signs _ _ _ _ _ _ _ _
  have h180 : (eval180 v pro x1 x2 x3 z).Signs := by
    unfold eval180; simp only; split
    · exact eval210_signs _ _
    · exact eval190_signs _ _ _ _ _ _ _ _
  unfold monthEval
  split
  · split
    · exact eval200_signs _ _ _ _ _ _ zero_not_gt_hundred
    · split
      · split
        · exact eval210_signs _ _
        · exact h170
      · split
        · split
          · exact eval210_signs _ _
          · exact h180
        · exact h170
  · split
    · exact h170
    · split
      · exact h180
      · exact h170

/-- a property of every decision holds of every month -/
theorem months_all (P : Month F → Prop) (hP : ∀ v pro x1 x2 x3 z, P (monthEval v pro x1 x2 x3 z)) (zs : List F) :
    ∀ m ∈ months zs, P m := by
  have key : ∀ (zs : List F) v pro x1 x2 x3, ∀ m ∈ monthsFrom v pro x1 x2 x3 zs, P m := by
    intro zs
    induction zs with
    | nil => intro v pro x1 x2 x3 m hm; simp [monthsFrom] at hm
    | cons z zs ih =>
      intro v pro x1 x2 x3 m hm
      simp only [monthsFrom, List.mem_cons] at hm
      rcases hm with rfl | hm
      · exact hP _ _ _ _ _ _
      · exact ih _ _ _ _ _ m hm
  exact key zs _ _ _ _ _

end laws

section cells
variable {F : Type} [FloatOps F]

/-- the entries of a completed record are its months -/
theorem mem_cells (zs : List F) (cells : List (Cell F)) (h : spellCells zs = .ok cells) (c : Cell F) (hc : c ∈ cells) :
    ∃ m ∈ months zs, SameNumbers m.cell c ∧ ∀ ml, (months zs).getLast? = some ml → Final ml.cell c := by
  have hs : ¬ Stuck zs := by
    intro hc
    rw [spellCells_error zs hc] at h
    cases h
  obtain ⟨cells', h1, h2, h3⟩ := spellCells_spec zs hs
  rw [h] at h1
  cases h1
  obtain ⟨j, hj, hjc⟩ := List.mem_iff_getElem.1 hc
  have hjm : j < (months zs).length := by rw [months_length]; omega
  obtain ⟨c', hc', hs', hf⟩ := h3 j _ (List.getElem?_eq_getElem hjm)
  rw [List.getElem?_eq_getElem hj, hjc] at hc'
  cases hc'
  exact ⟨_, List.getElem_mem hjm, hs', hf⟩

end cells

/-! ## Exact arithmetic -/

section field
variable {K : Type} [Field K] [LinearOrder K] [IsStrictOrderedRing K]
open Fl

omit [IsStrictOrderedRing K] in
theorem pyMax_fin (a b : K) : pyMax (fin a) (fin b) = fin (max a b) := by
  unfold pyMax
  rw [flt_fin]
  by_cases h : a < b
  · rw [if_pos (by simpa using h), max_eq_right h.le]
  · rw [if_neg (by simpa using h), max_eq_left (not_lt.1 h)]

omit [IsStrictOrderedRing K] in
theorem pyMin_fin (a b : K) : pyMin (fin a) (fin b) = fin (min a b) := by
  unfold pyMin
  rw [flt_fin]
  by_cases h : b < a
  · rw [if_pos (by simpa using h), min_eq_right h.le]
  · rw [if_neg (by simpa using h), min_eq_left (not_lt.1 h)]

/-- a finite number -/
def IsFin (x : Fl K) : Prop := ∃ a, x = fin a

theorem isFin_lit (q : ℚ) : IsFin (lit q : Fl K) := ⟨_, rfl⟩

theorem step_fin (x z : K) : (lit 0.897 * fin x + fin z / lit 3 : Fl K) = fin (0.897 * x + z / 3) := by
  rw [lit_def, lit_def, fin_mul, fin_div_of_ne _ _ (by norm_num), fin_add]
  norm_num

/-- a month with finite indices -/
structure Month.Fin (m : Month (Fl K)) : Prop where
  px1 : IsFin m.px1
  px2 : IsFin m.px2
  px3 : IsFin m.px3
  pv : IsFin m.pv
  ppr : m.ppr ≠ .nan

theorem eval200_fin (x1 x2 z : K) (ppr px3 pv : Fl K) (h1 : ppr ≠ .nan) (h2 : IsFin px3) (h3 : IsFin pv) :
    (eval200 (fin x1) (fin x2) (fin z) ppr px3 pv).Fin := by
  unfold eval200
  rw [step_fin, step_fin, lit_def, pyMax_fin, pyMin_fin]
  have hz : IsFin (fin ((0 : ℚ) : K)) := ⟨_, rfl⟩
  simp only
  split
  · exact ⟨hz, hz, ⟨_, rfl⟩, h3, h1⟩
  · split
    · exact ⟨⟨_, rfl⟩, hz, ⟨_, rfl⟩, h3, h1⟩
    · split
      · exact ⟨⟨_, rfl⟩, ⟨_, rfl⟩, h2, h3, h1⟩
      · split <;> exact ⟨⟨_, rfl⟩, ⟨_, rfl⟩, h2, h3, h1⟩

theorem eval210_fin (x3 z : K) : (eval210 (fin x3) (fin z)).Fin := by
  unfold eval210
  rw [step_fin]
  exact ⟨⟨_, rfl⟩, ⟨_, rfl⟩, ⟨_, rfl⟩, ⟨_, rfl⟩, by intro h; cases h⟩

theorem ratio_ne_nan (a b : K) (ha : a ≠ 0) : (fin a / fin b) * lit 100 ≠ (Fl.nan : Fl K) := by
  rw [lit_def, fin_div]
  split
  · unfold infSign
    rw [if_neg ha]
    have h100 : ((100 : ℚ) : K) ≠ 0 := by norm_num
    have h100' : (0 : K) < ((100 : ℚ) : K) := by norm_num
    split
    · show Fl.mul .pinf (.fin _) ≠ _
      simp only [Fl.mul, infSign, if_neg h100, if_pos h100']
      intro h; cases h
    · show Fl.mul .ninf (.fin _) ≠ _
      simp only [Fl.mul, infSign, if_neg h100, if_pos h100', Fl.neg]
      intro h; cases h
  · intro h; cases h

theorem eval190_fin (v x1 x2 x3 z pv ze : K) (pro : Fl K) (hpv : pv ≠ 0) :
    (eval190 (fin v) pro (fin x1) (fin x2) (fin x3) (fin z) (fin pv) (fin ze)).Fin := by
  unfold eval190
  simp only
  have hq : IsFin (if feq pro (lit 100) then fin ze else fin ze + fin v) := by
    split
    · exact ⟨_, rfl⟩
    · exact ⟨_, rfl⟩
  obtain ⟨q, hq⟩ := hq
  rw [hq, step_fin]
  split
  · exact eval200_fin _ _ _ _ _ _ (by intro h; cases h) ⟨_, rfl⟩ ⟨_, rfl⟩
  · exact eval200_fin _ _ _ _ _ _ (ratio_ne_nan pv q hpv) ⟨_, rfl⟩ ⟨_, rfl⟩

omit [IsStrictOrderedRing K] in
theorem pv170 (z v : K) : (fin z - lit 0.15) + pyMin (fin v) (lit 0) = fin (z - ((0.15 : ℚ) : K) + min v 0) := by
  rw [lit_def, lit_def, pyMin_fin, fin_sub, fin_add, Rat.cast_zero]

omit [IsStrictOrderedRing K] in
theorem pv180 (z v : K) : (fin z + lit 0.15) + pyMax (fin v) (lit 0) = fin (z + ((0.15 : ℚ) : K) + max v 0) := by
  rw [lit_def, lit_def, pyMax_fin, fin_add, fin_add, Rat.cast_zero]

theorem eval170_fin (v x1 x2 x3 z : K) (pro : Fl K) :
    (eval170 (fin v) pro (fin x1) (fin x2) (fin x3) (fin z)).Fin := by
  unfold eval170
  simp only [pv170]
  split
  · exact eval210_fin _ _
  · next h =>
    refine eval190_fin _ _ _ _ _ _ _ _ ?_
    intro hc
    rw [hc, lit_def, fle_fin] at h
    simp at h

theorem eval180_fin (v x1 x2 x3 z : K) (pro : Fl K) :
    (eval180 (fin v) pro (fin x1) (fin x2) (fin x3) (fin z)).Fin := by
  unfold eval180
  simp only [pv180]
  split
  · exact eval210_fin _ _
  · next h =>
    rw [lit_def, lit_def, fin_mul, fin_sub]
    refine eval190_fin _ _ _ _ _ _ _ _ ?_
    intro hc
    rw [hc, lit_def, fle_fin] at h
    simp at h

theorem monthEval_fin (v x1 x2 x3 z : K) (pro : Fl K) :
    (monthEval (fin v) pro (fin x1) (fin x2) (fin x3) (fin z)).Fin := by
  unfold monthEval
  split
  · split
    · exact eval200_fin _ _ _ _ _ _ (by intro h; cases h) ⟨_, rfl⟩ ⟨_, rfl⟩
    · split
      · split
        · exact eval210_fin _ _
        · exact eval170_fin _ _ _ _ _ _
      · split
        · split
          · exact eval210_fin _ _
          · exact eval180_fin _ _ _ _ _ _
        · exact eval170_fin _ _ _ _ _ _
  · split
    · exact eval170_fin _ _ _ _ _ _
    · split
      · exact eval180_fin _ _ _ _ _ _
      · exact eval170_fin _ _ _ _ _ _

theorem months_fin (zs : List K) : ∀ m ∈ months (zs.map Fl.fin), m.Fin := by
  have key : ∀ (zs : List K) (v x1 x2 x3 : K) (pro : Fl K),
      ∀ m ∈ monthsFrom (fin v) pro (fin x1) (fin x2) (fin x3) (zs.map Fl.fin), m.Fin := by
    intro zs
    induction zs with
    | nil => intro v x1 x2 x3 pro m hm; simp [monthsFrom] at hm
    | cons z zs ih =>
      intro v x1 x2 x3 pro m hm
      simp only [List.map_cons, monthsFrom, List.mem_cons] at hm
      have hf := monthEval_fin v x1 x2 x3 z pro
      rcases hm with rfl | hm
      · exact hf
      · obtain ⟨⟨a, ha⟩, ⟨b, hb⟩, ⟨c, hc⟩, ⟨d, hd⟩, _⟩ := hf
        rw [ha, hb, hc, hd] at hm
        exact ih _ _ _ _ _ m hm
  exact key zs _ _ _ _ _

/-! ### The probability -/

/-- the established index is not in the band where the code's denominator has the wrong sign -/
def Clear (x : K) : Prop := ¬ (0.5 < |x| ∧ |x| ≤ 1.5 / 2.691)

/-- invariant of the variables `v`, `pro`, `x3` -/
def ProbInv (v pro x3 : Fl K) : Prop :=
  ∃ a p x : K, v = fin a ∧ pro = fin p ∧ x3 = fin x ∧
    ((p = 0 ∧ a = 0) ∨ p = 100 ∨ (0 < p ∧ p < 100 ∧ ((0.55 < x ∧ a < 0) ∨ (x < -0.55 ∧ 0 < a))))

theorem eval200_fields {F : Type} [FloatOps F] (x1 x2 z ppr px3 pv : F) :
    (eval200 x1 x2 z ppr px3 pv).ppr = ppr ∧ (eval200 x1 x2 z ppr px3 pv).pv = pv ∧
      (feq px3 (lit 0) = false → (eval200 x1 x2 z ppr px3 pv).px3 = px3) := by
  unfold eval200
  simp only
  split
  · next h => exact ⟨rfl, rfl, fun hc => by rw [hc, Bool.and_false] at h; cases h⟩
  · split
    · next h => exact ⟨rfl, rfl, fun hc => by rw [hc, Bool.and_false] at h; cases h⟩
    · split
      · exact ⟨rfl, rfl, fun _ => rfl⟩
      · split <;> exact ⟨rfl, rfl, fun _ => rfl⟩

/-- the probability of a month and the invariant for the next month -/
def StepProb (m : Month (Fl K)) : Prop := ProbInv m.pv m.ppr m.px3 ∧ ∃ p, m.ppr = fin p ∧ 0 ≤ p ∧ p ≤ 100

theorem stepProb_zero (x1 x2 z : K) : StepProb (eval200 (fin x1) (fin x2) (fin z) (lit 0) (lit 0) (lit 0) : Month (Fl K)) := by
  obtain ⟨h1, h2, _⟩ := eval200_fields (F := Fl K) (fin x1) (fin x2) (fin z) (lit 0) (lit 0) (lit 0)
  obtain ⟨c, hc⟩ := (eval200_fin x1 x2 z (lit 0) (lit 0) (lit 0) (by intro h; cases h) ⟨_, rfl⟩ ⟨_, rfl⟩).px3
  refine ⟨⟨0, 0, c, by rw [h2, lit_def, Rat.cast_zero], by rw [h1, lit_def, Rat.cast_zero], hc, Or.inl ⟨rfl, rfl⟩⟩, 0,
    by rw [h1, lit_def, Rat.cast_zero], le_refl _, by norm_num⟩

theorem stepProb_hundred (x1 x2 z pv : K) :
    StepProb (eval200 (fin x1) (fin x2) (fin z) (lit 100) (lit 0) (fin pv) : Month (Fl K)) := by
  obtain ⟨h1, h2, _⟩ := eval200_fields (F := Fl K) (fin x1) (fin x2) (fin z) (lit 100) (lit 0) (fin pv)
  obtain ⟨c, hc⟩ := (eval200_fin x1 x2 z (lit 100) (lit 0) (fin pv) (by intro h; cases h) ⟨_, rfl⟩ ⟨_, rfl⟩).px3
  have h100 : (lit 100 : Fl K) = fin 100 := by rw [lit_def]; norm_num
  exact ⟨⟨pv, 100, c, h2, by rw [h1, h100], hc, Or.inr (Or.inl rfl)⟩, 100, by rw [h1, h100], by norm_num, le_refl _⟩

theorem stepProb_210 (x3 z : K) : StepProb (eval210 (fin x3) (fin z) : Month (Fl K)) := by
  unfold eval210
  rw [step_fin]
  refine ⟨⟨0, 0, _, by rw [lit_def, Rat.cast_zero], by rw [lit_def, Rat.cast_zero], rfl, Or.inl ⟨rfl, rfl⟩⟩, 0, by rw [lit_def, Rat.cast_zero],
    le_refl _, by norm_num⟩

/-- a probability strictly between 0 and 100 with an established index away from zero -/
theorem stepProb_mid (x1 x2 z p px3 pv : K) (h0 : 0 < p) (h1 : p < 100)
    (h : (0.55 < px3 ∧ pv < 0) ∨ (px3 < -0.55 ∧ 0 < pv)) :
    StepProb (eval200 (fin x1) (fin x2) (fin z) (fin p) (fin px3) (fin pv) : Month (Fl K)) := by
  obtain ⟨e1, e2, e3⟩ := eval200_fields (F := Fl K) (fin x1) (fin x2) (fin z) (fin p) (fin px3) (fin pv)
  have hne : px3 ≠ 0 := by
    rcases h with h | h
    · have := h.1
      intro hc; rw [hc] at this; norm_num at this
    · have := h.1
      intro hc; rw [hc] at this; norm_num at this
  have e4 := e3 (by rw [lit_def, feq_fin]; simpa using hne)
  exact ⟨⟨pv, p, px3, e2, e1, e4, Or.inr (Or.inr ⟨h0, h1, h⟩)⟩, p, e1, h0.le, h1.le⟩

theorem ratio_fin (pv q : K) (hq : q ≠ 0) : (fin pv / fin q) * lit 100 = (fin (pv / q * 100) : Fl K) := by
  rw [fin_div_of_ne _ _ hq, lit_def, fin_mul]
  norm_num

/-- abatement of a wet spell -/
theorem stepProb_170 (v p x1 x2 x3 z : K) (hx : 1.5 / 2.691 < x3) (hv : p = 100 ∨ v ≤ 0) :
    StepProb (eval170 (fin v) (fin p) (fin x1) (fin x2) (fin x3) (fin z)) := by
  unfold eval170
  simp only [pv170]
  have h15 : ((0.15 : ℚ) : K) = 0.15 := by norm_num
  rw [h15]
  split
  · exact stepProb_210 _ _
  · next hpv =>
    have hpv : z - 0.15 + min v 0 < 0 := by
      rw [lit_def, fle_fin, Rat.cast_zero] at hpv
      simpa using hpv
    have hze : (lit (-2.691) * fin x3 + lit 1.5 : Fl K) = fin (-2.691 * x3 + 1.5) := by
      rw [lit_def, lit_def, fin_mul, fin_add]; norm_num
    rw [hze]
    have hzen : -2.691 * x3 + 1.5 < 0 := by
      rw [div_lt_iff₀ (by norm_num)] at hx
      linarith
    unfold eval190
    simp only
    have hq : ∃ q : K, (if feq (fin p) (lit 100) then fin (-2.691 * x3 + 1.5) else fin (-2.691 * x3 + 1.5) + fin v) = (fin q : Fl K) ∧
        q < 0 ∧ q - min v 0 ≥ -2.691 * x3 + 1.5 := by
      have h100 : (lit 100 : Fl K) = fin 100 := by rw [lit_def]; norm_num
      rw [h100, feq_fin]
      by_cases hp : p = 100
      · refine ⟨-2.691 * x3 + 1.5, by simp [hp], hzen, ?_⟩
        have : min v 0 ≤ 0 := min_le_right _ _
        linarith
      · have hv' := hv.resolve_left hp
        refine ⟨-2.691 * x3 + 1.5 + v, by simp [hp], by linarith, ?_⟩
        rw [min_eq_left hv']
        linarith
    obtain ⟨q, hq1, hq2, hq3⟩ := hq
    rw [hq1, ratio_fin _ _ hq2.ne]
    split
    · exact stepProb_hundred _ _ _ _
    · next hr =>
      rw [lit_def, fle_fin] at hr
      have hr : (z - 0.15 + min v 0) / q * 100 < 100 := by
        have : ((100 : ℚ) : K) = 100 := by norm_num
        rw [this] at hr
        simpa using hr
      rw [step_fin]
      have hpos : 0 < (z - 0.15 + min v 0) / q := div_pos_of_neg_of_neg hpv hq2
      refine stepProb_mid _ _ _ _ _ _ (by positivity) hr (Or.inl ⟨?_, hpv⟩)
      have h1 : (z - 0.15 + min v 0) / q < 1 := by linarith
      rw [div_lt_one_of_neg hq2] at h1
      linarith

/-- abatement of a drought -/
theorem stepProb_180 (v p x1 x2 x3 z : K) (hx : x3 < -(1.5 / 2.691)) (hv : p = 100 ∨ 0 ≤ v) :
    StepProb (eval180 (fin v) (fin p) (fin x1) (fin x2) (fin x3) (fin z)) := by
  unfold eval180
  simp only [pv180]
  have h15 : ((0.15 : ℚ) : K) = 0.15 := by norm_num
  rw [h15]
  split
  · exact stepProb_210 _ _
  · next hpv =>
    have hpv : 0 < z + 0.15 + max v 0 := by
      rw [lit_def, fle_fin, Rat.cast_zero] at hpv
      simpa using hpv
    have hze : (lit (-2.691) * fin x3 - lit 1.5 : Fl K) = fin (-2.691 * x3 - 1.5) := by
      rw [lit_def, lit_def, fin_mul, fin_sub]; norm_num
    rw [hze]
    have hzen : 0 < -2.691 * x3 - 1.5 := by
      have : 1.5 / 2.691 < -x3 := by linarith
      rw [div_lt_iff₀ (by norm_num)] at this
      linarith
    unfold eval190
    simp only
    have hq : ∃ q : K, (if feq (fin p) (lit 100) then fin (-2.691 * x3 - 1.5) else fin (-2.691 * x3 - 1.5) + fin v) = (fin q : Fl K) ∧
        0 < q ∧ q - max v 0 ≤ -2.691 * x3 - 1.5 := by
      have h100 : (lit 100 : Fl K) = fin 100 := by rw [lit_def]; norm_num
      rw [h100, feq_fin]
      by_cases hp : p = 100
      · refine ⟨-2.691 * x3 - 1.5, by simp [hp], hzen, ?_⟩
        have : 0 ≤ max v 0 := le_max_right _ _
        linarith
      · have hv' := hv.resolve_left hp
        refine ⟨-2.691 * x3 - 1.5 + v, by simp [hp], by linarith, ?_⟩
        rw [max_eq_left hv']
        linarith
    obtain ⟨q, hq1, hq2, hq3⟩ := hq
    rw [hq1, ratio_fin _ _ hq2.ne']
    split
    · exact stepProb_hundred _ _ _ _
    · next hr =>
      rw [lit_def, fle_fin] at hr
      have hr : (z + 0.15 + max v 0) / q * 100 < 100 := by
        have : ((100 : ℚ) : K) = 100 := by norm_num
        rw [this] at hr
        simpa using hr
      rw [step_fin]
      have hpos : 0 < (z + 0.15 + max v 0) / q := div_pos hpv hq2
      refine stepProb_mid _ _ _ _ _ _ (by positivity) hr (Or.inr ⟨?_, hpv⟩)
      have h1 : (z + 0.15 + max v 0) / q < 1 := by linarith
      rw [div_lt_one hq2] at h1
      linarith

theorem monthEval_prob (v pro x3 : Fl K) (x1 x2 z : K) (h : ProbInv v pro x3) (hc : ∀ x, x3 = fin x → Clear x) :
    StepProb (monthEval v pro (fin x1) (fin x2) x3 (fin z)) := by
  obtain ⟨a, p, x, rfl, rfl, rfl, hinv⟩ := h
  have hcl := hc x rfl
  have h100 : (lit 100 : Fl K) = fin 100 := by rw [lit_def]; norm_num
  have h0 : (lit 0 : Fl K) = fin 0 := by rw [lit_def]; norm_num
  have h5 : (lit 0.5 : Fl K) = fin 0.5 := by rw [lit_def]; norm_num
  have h5' : (lit (-0.5) : Fl K) = fin (-0.5) := by rw [lit_def]; norm_num
  unfold monthEval
  by_cases hp : p = 100 ∨ p = 0
  · rw [if_pos (by rw [h100, h0, feq_fin, feq_fin]; simpa using hp)]
    have ha : p = 100 ∨ a = 0 := by
      rcases hinv with h | h | h
      · exact Or.inr h.2
      · exact Or.inl h
      · rcases hp with hp | hp
        · exact Or.inl hp
        · exact absurd h.1 (by rw [hp]; exact lt_irrefl _)
    by_cases hband : -0.5 ≤ x ∧ x ≤ 0.5
    · rw [if_pos (by rw [h5, h5', fle_fin, fle_fin]; simpa using hband)]
      exact stepProb_zero _ _ _
    · rw [if_neg (by rw [h5, h5', fle_fin, fle_fin]; simpa using hband)]
      by_cases hw : 0.5 < x
      · rw [if_pos (by rw [h5, flt_fin]; simpa using hw)]
        split
        · exact stepProb_210 _ _
        · refine stepProb_170 _ _ _ _ _ _ ?_ (ha.imp_right (fun h => h.le))
          by_contra hcon
          have hpos : 0 < x := lt_trans (by norm_num) hw
          refine hcl ⟨?_, ?_⟩
          · rwa [abs_of_pos hpos]
          · rw [abs_of_pos hpos]; exact not_lt.1 hcon
      · rw [if_neg (by rw [h5, flt_fin]; simpa using hw)]
        have hd : x < -0.5 := by
          by_contra hcon
          exact hband ⟨not_lt.1 hcon, not_lt.1 hw⟩
        rw [if_pos (by rw [h5', flt_fin]; simpa using hd)]
        split
        · exact stepProb_210 _ _
        · refine stepProb_180 _ _ _ _ _ _ ?_ (ha.imp_right (fun h => h.ge))
          by_contra hcon
          have hneg : x < 0 := lt_trans hd (by norm_num)
          refine hcl ⟨?_, ?_⟩
          · rw [abs_of_neg hneg]; linarith
          · rw [abs_of_neg hneg]; linarith [not_lt.1 hcon]
  · rw [if_neg (by rw [h100, h0, feq_fin, feq_fin]; simpa using hp)]
    have hmid : (0.55 < x ∧ a < 0) ∨ (x < -0.55 ∧ 0 < a) := by
      rcases hinv with h | h | h
      · exact absurd (Or.inr h.1) hp
      · exact absurd (Or.inl h) hp
      · exact h.2.2
    rcases hmid with ⟨hx, hv⟩ | ⟨hx, hv⟩
    · have hpos : 0 < x := lt_trans (by norm_num) hx
      rw [if_pos (by rw [h0, flt_fin]; simpa using hpos)]
      refine stepProb_170 _ _ _ _ _ _ ?_ (Or.inr hv.le)
      by_contra hcon
      refine hcl ⟨?_, ?_⟩
      · rw [abs_of_pos hpos]; exact lt_trans (by norm_num) hx
      · rw [abs_of_pos hpos]; exact not_lt.1 hcon
    · have hneg : x < 0 := lt_trans hx (by norm_num)
      rw [if_neg (by rw [h0, flt_fin]; simpa using hneg.le), if_pos (by rw [h0, fle_fin]; simpa using hneg.le)]
      refine stepProb_180 _ _ _ _ _ _ ?_ (Or.inr hv.le)
      by_contra hcon
      refine hcl ⟨?_, ?_⟩
      · rw [abs_of_neg hneg]; norm_num at hx ⊢; linarith
      · rw [abs_of_neg hneg]; linarith [not_lt.1 hcon]

theorem months_prob (zs : List K) (h : ∀ m ∈ months (zs.map Fl.fin), ∀ x, m.px3 = fin x → Clear x) :
    ∀ m ∈ months (zs.map Fl.fin), ∃ p, m.ppr = fin p ∧ 0 ≤ p ∧ p ≤ 100 := by
  have key : ∀ (zs : List K) (v pro x3 : Fl K) (x1 x2 : K), ProbInv v pro x3 → (∀ x, x3 = fin x → Clear x) →
      (∀ m ∈ monthsFrom v pro (fin x1) (fin x2) x3 (zs.map Fl.fin), ∀ x, m.px3 = fin x → Clear x) →
      ∀ m ∈ monthsFrom v pro (fin x1) (fin x2) x3 (zs.map Fl.fin), ∃ p, m.ppr = fin p ∧ 0 ≤ p ∧ p ≤ 100 := by
    intro zs
    induction zs with
    | nil => intro v pro x3 x1 x2 _ _ _ m hm; simp [monthsFrom] at hm
    | cons z zs ih =>
      intro v pro x3 x1 x2 hinv hcl hall m hm
      have hstep := monthEval_prob v pro x3 x1 x2 z hinv hcl
      simp only [List.map_cons, monthsFrom, List.mem_cons] at hm hall
      rcases hm with rfl | hm
      · exact hstep.2
      · obtain ⟨a, p, x, rfl, rfl, rfl, _⟩ := hinv
        obtain ⟨⟨b1, hb1⟩, ⟨b2, hb2⟩, _⟩ := monthEval_fin a x1 x2 x z (fin p)
        rw [hb1, hb2] at hm hall
        exact ih _ _ _ b1 b2 hstep.1 (hall _ (Or.inl rfl)) (fun m hm => hall m (Or.inr hm)) m hm
  refine key zs _ _ _ _ _ ⟨0, 0, 0, ?_, ?_, ?_, Or.inl ⟨rfl, rfl⟩⟩ ?_ h
  · rw [lit_def, Rat.cast_zero]
  · rw [lit_def, Rat.cast_zero]
  · rw [lit_def, Rat.cast_zero]
  · intro x hx
    rw [lit_def, Rat.cast_zero] at hx
    cases hx
    rintro ⟨h1, _⟩
    rw [abs_zero] at h1
    norm_num at h1

end field

end CI
