import Verif.Lemmas.PalmerNum
import Verif.Spec.PalmerMirror
import Mathlib.Algebra.Order.Group.MinMax
import Mathlib.Tactic.Ring
import Mathlib.Tactic.Linarith

/-!
# The spell machine on a record and on its negative
-/

namespace CI.Mirror
open Fl

variable {K : Type} [Field K] [LinearOrder K] [IsStrictOrderedRing K]

/-! ## One month -/

/-- the incipient wet index of the next month -/
def up (x z : K) : K := max 0 (0.897 * x + z / 3)

/-- the incipient dry index of the next month -/
def down (x z : K) : K := min 0 (0.897 * x + z / 3)

theorem up_neg (x z : K) : up (-x) (-z) = -down x z := by
  unfold up down
  rw [show 0.897 * -x + -z / 3 = -(0.897 * x + z / 3) by ring, ← neg_zero, max_neg_neg, neg_zero]

theorem down_neg (x z : K) : down (-x) (-z) = -up x z := by
  unfold up down
  rw [show 0.897 * -x + -z / 3 = -(0.897 * x + z / 3) by ring, ← neg_zero, min_neg_neg, neg_zero]

theorem up_nonneg (x z : K) : 0 ≤ up x z := le_max_left _ _
theorem down_nonpos (x z : K) : down x z ≤ 0 := min_le_left _ _

theorem lit0 : (lit 0 : Fl K) = fin 0 := by rw [lit_def, Rat.cast_zero]
theorem lit1 : (lit 1 : Fl K) = fin 1 := by rw [lit_def, Rat.cast_one]
theorem litm1 : (lit (-1) : Fl K) = fin (-1) := by rw [lit_def]; norm_num
theorem lit100 : (lit 100 : Fl K) = fin 100 := by rw [lit_def]; norm_num

theorem eval200_K (x1 x2 z q y w : K) :
    eval200 (fin x1) (fin x2) (fin z) (fin q) (fin y) (fin w) =
      if 1 ≤ up x1 z ∧ y = 0 then ⟨fin q, fin 0, fin 0, fin (up x1 z), fin (up x1 z), fin w, .choose 1⟩
      else if down x2 z ≤ -1 ∧ y = 0 then ⟨fin q, fin (up x1 z), fin 0, fin (down x2 z), fin (down x2 z), fin w, .choose 2⟩
      else if y = 0 ∧ up x1 z = 0 then ⟨fin q, fin (up x1 z), fin (down x2 z), fin y, fin (down x2 z), fin w, .choose 2⟩
      else if y = 0 ∧ down x2 z = 0 then ⟨fin q, fin (up x1 z), fin (down x2 z), fin y, fin (up x1 z), fin w, .choose 1⟩
      else ⟨fin q, fin (up x1 z), fin (down x2 z), fin y, fin y, fin w, .wait⟩ := by
  unfold eval200
  rw [step_fin, step_fin, lit0, pyMax_fin, pyMin_fin, lit1, litm1]
  simp only [fle_fin, feq_fin, ← Bool.decide_and, decide_eq_true_eq]
  rfl

/-- at the beginning of a drought no incipient wet index is left -/
def NoneLeft (m : Month (Fl K)) : Prop :=
  (m.ppr = fin 0 ∨ m.ppr = fin 100) → (∃ x, x < 0 ∧ m.px3 = fin x) → m.px1 = fin 0

/-- two months with wet and dry exchanged; if both incipient indices are zero the code always decides for the dry side -/
structure Mir (m m' : Month (Fl K)) : Prop where
  ppr : m'.ppr = m.ppr
  px1 : m'.px1 = -m.px2
  px2 : m'.px2 = -m.px1
  px3 : m'.px3 = -m.px3
  x : m'.x = -m.x
  pv : m'.pv = -m.pv
  dec : (m.dec = .accept ∧ m'.dec = .accept) ∨ (m.dec = .wait ∧ m'.dec = .wait) ∨ (m.dec = .choose 1 ∧ m'.dec = .choose 2) ∨
    (m.dec = .choose 2 ∧ m'.dec = .choose 1) ∨
    (m.dec = .choose 2 ∧ m'.dec = .choose 2 ∧ m.px1 = fin 0 ∧ m.px2 = fin 0 ∧ m.x = fin 0)

theorem eval200_mir (x1 x2 z q y w : K) (hy : y = 0 → (q = 0 ∨ q = 100) ∧ ¬ (1 ≤ up x1 z ∧ down x2 z ≤ -1))
    (hl : NoneLeft (eval200 (fin x1) (fin x2) (fin z) (fin q) (fin y) (fin w)))
    (hl' : NoneLeft (eval200 (fin (-x2)) (fin (-x1)) (fin (-z)) (fin q) (fin (-y)) (fin (-w)))) :
    Mir (eval200 (fin x1) (fin x2) (fin z) (fin q) (fin y) (fin w))
      (eval200 (fin (-x2)) (fin (-x1)) (fin (-z)) (fin q) (fin (-y)) (fin (-w))) := by
  rw [eval200_K] at hl hl' ⊢
  rw [eval200_K]
  rw [up_neg, down_neg] at hl' ⊢
  have hu := up_nonneg x1 z
  have hd := down_nonpos x2 z
  generalize up x1 z = a at *
  generalize down x2 z = b at *
  by_cases hy0 : y = 0
  · subst hy0
    obtain ⟨hq, hab⟩ := hy rfl
    have hq' : (fin q : Fl K) = fin 0 ∨ (fin q : Fl K) = fin 100 := hq.imp (congrArg fin) (congrArg fin)
    have z0 : (-0 : K) = 0 := neg_zero
    by_cases ha : 1 ≤ a
    · have hb : ¬ b ≤ -1 := fun hb => hab ⟨ha, hb⟩
      have e1 : ¬ (1 ≤ -b ∧ (-0 : K) = 0) := by rintro ⟨h, _⟩; exact hb (by linarith)
      have e2 : -a ≤ -1 ∧ (-0 : K) = 0 := ⟨by linarith, z0⟩
      rw [if_pos ⟨ha, rfl⟩]
      rw [if_neg e1, if_pos e2] at hl' ⊢
      have h0 := hl' hq' ⟨-a, by linarith, rfl⟩
      simp only [Fl.fin.injEq] at h0
      exact ⟨rfl, by simp [h0], by simp, rfl, rfl, rfl, by simp⟩
    · have e1 : ¬ (1 ≤ a ∧ (0 : K) = 0) := fun h => ha h.1
      have e2 : ¬ (-a ≤ -1 ∧ (-0 : K) = 0) := by rintro ⟨h, _⟩; exact ha (by linarith)
      rw [if_neg e1] at hl ⊢
      by_cases hb : b ≤ -1
      · have e3 : b ≤ -1 ∧ (0 : K) = 0 := ⟨hb, rfl⟩
        have e4 : 1 ≤ -b ∧ (-0 : K) = 0 := ⟨by linarith, z0⟩
        rw [if_pos e3] at hl ⊢
        rw [if_pos e4]
        have h0 := hl hq' ⟨b, by linarith, rfl⟩
        simp only [Fl.fin.injEq] at h0
        exact ⟨rfl, by simp, by simp [h0], rfl, rfl, rfl, by simp⟩
      · have e3 : ¬ (b ≤ -1 ∧ (0 : K) = 0) := fun h => hb h.1
        have e4 : ¬ (1 ≤ -b ∧ (-0 : K) = 0) := by rintro ⟨h, _⟩; exact hb (by linarith)
        rw [if_neg e3, if_neg e4, if_neg e2]
        by_cases ha0 : a = 0
        · have e5 : (0 : K) = 0 ∧ a = 0 := ⟨rfl, ha0⟩
          rw [if_pos e5]
          by_cases hb0 : b = 0
          · have e6 : (-0 : K) = 0 ∧ -b = 0 := ⟨z0, by rw [hb0, neg_zero]⟩
            rw [if_pos e6]
            exact ⟨rfl, by simp, by simp, by simp, by simp [ha0, hb0], rfl, by simp [ha0, hb0]⟩
          · have e6 : ¬ ((-0 : K) = 0 ∧ -b = 0) := by rintro ⟨_, h⟩; exact hb0 (by linarith)
            have e7 : (-0 : K) = 0 ∧ -a = 0 := ⟨z0, by rw [ha0, neg_zero]⟩
            rw [if_neg e6, if_pos e7]
            exact ⟨rfl, by simp, by simp, by simp, by simp, rfl, by simp⟩
        · have e5 : ¬ ((0 : K) = 0 ∧ a = 0) := fun h => ha0 h.2
          have e7 : ¬ ((-0 : K) = 0 ∧ -a = 0) := by rintro ⟨_, h⟩; exact ha0 (by linarith)
          rw [if_neg e5, if_neg e7]
          by_cases hb0 : b = 0
          · have e6 : (-0 : K) = 0 ∧ -b = 0 := ⟨z0, by rw [hb0, neg_zero]⟩
            have e8 : (0 : K) = 0 ∧ b = 0 := ⟨rfl, hb0⟩
            rw [if_pos e6, if_pos e8]
            exact ⟨rfl, by simp, by simp, by simp, by simp, rfl, by simp⟩
          · have e6 : ¬ ((-0 : K) = 0 ∧ -b = 0) := by rintro ⟨_, h⟩; exact hb0 (by linarith)
            have e8 : ¬ ((0 : K) = 0 ∧ b = 0) := fun h => hb0 h.2
            rw [if_neg e6, if_neg e8]
            exact ⟨rfl, by simp, by simp, by simp, by simp, rfl, by simp⟩
  · have hn : -y ≠ 0 := neg_ne_zero.2 hy0
    rw [if_neg (fun h => hy0 h.2), if_neg (fun h => hy0 h.2), if_neg (fun h => hy0 h.1), if_neg (fun h => hy0 h.1),
      if_neg (fun h => hn h.2), if_neg (fun h => hn h.2), if_neg (fun h => hn h.1), if_neg (fun h => hn h.1)]
    exact ⟨rfl, by simp, by simp, by simp, by simp, rfl, by simp⟩

theorem eval210_mir (x3 z : K) : Mir (eval210 (fin x3) (fin z)) (eval210 (fin (-x3)) (fin (-z))) := by
  unfold eval210
  rw [step_fin, step_fin, lit0]
  have h : 0.897 * -x3 + -z / 3 = -(0.897 * x3 + z / 3) := by ring
  rw [h]
  exact ⟨rfl, by simp, by simp, rfl, rfl, by simp, by simp⟩

/-- order of the indices -/
def Ordered (x1 x2 x3 : K) : Prop :=
  0 ≤ x1 ∧ x2 ≤ 0 ∧ (0 < x3 → x1 ≤ x3) ∧ (x3 < 0 → x3 ≤ x2) ∧ (|x3| ≤ 0.5 → x1 < 1 ∧ -1 < x2)

theorem Ordered.neg {x1 x2 x3 : K} (h : Ordered x1 x2 x3) : Ordered (-x2) (-x1) (-x3) := by
  obtain ⟨h1, h2, h3, h4, h5⟩ := h
  refine ⟨by linarith, by linarith, fun h => ?_, fun h => ?_, fun h => ?_⟩
  · have := h4 (by linarith); linarith
  · have := h3 (by linarith); linarith
  · rw [abs_neg] at h
    have := h5 h
    exact ⟨by linarith, by linarith⟩

/-- the decisions of a month and of the month with wet and dry exchanged -/
def Pair (x1 x2 x3 z : K) (m m' : Month (Fl K)) : Prop :=
  (m = eval210 (fin x3) (fin z) ∧ m' = eval210 (fin (-x3)) (fin (-z))) ∨
  ∃ q y w : K, m = eval200 (fin x1) (fin x2) (fin z) (fin q) (fin y) (fin w) ∧
    m' = eval200 (fin (-x2)) (fin (-x1)) (fin (-z)) (fin q) (fin (-y)) (fin (-w)) ∧
    ((y = 0 ∧ q = 0 ∧ ¬ (1 ≤ up x1 z ∧ down x2 z ≤ -1)) ∨
      (y = 0 ∧ q = 100 ∧ ((w < 0 ∧ up x1 z < 1) ∨ (0 < w ∧ -1 < down x2 z))) ∨
      (q ≠ 100 ∧ ((0.5 < y ∧ up x1 z ≤ y) ∨ (y < -0.5 ∧ y ≤ down x2 z))))

theorem Pair.swap {x1 x2 x3 z : K} {m m' : Month (Fl K)} (h : Pair (-x2) (-x1) (-x3) (-z) m' m) : Pair x1 x2 x3 z m m' := by
  rcases h with ⟨h1, h2⟩ | ⟨q, y, w, h1, h2, h3⟩
  · rw [neg_neg, neg_neg] at h2
    exact Or.inl ⟨h2, h1⟩
  · rw [neg_neg, neg_neg, neg_neg] at h2
    refine Or.inr ⟨q, -y, -w, h2, by rw [neg_neg, neg_neg]; exact h1, ?_⟩
    rw [up_neg, down_neg] at h3
    rcases h3 with ⟨g1, g2, g3⟩ | ⟨g1, g2, g3⟩ | ⟨g0, ⟨g1, g2⟩ | ⟨g1, g2⟩⟩
    · exact Or.inl ⟨by rw [g1, neg_zero], g2, fun hh => g3 ⟨by linarith [hh.2], by linarith [hh.1]⟩⟩
    · refine Or.inr (Or.inl ⟨by rw [g1, neg_zero], g2, ?_⟩)
      rcases g3 with ⟨g3, g4⟩ | ⟨g3, g4⟩
      · exact Or.inr ⟨by linarith, by linarith⟩
      · exact Or.inl ⟨by linarith, by linarith⟩
    · exact Or.inr (Or.inr ⟨g0, Or.inr ⟨by linarith, by linarith⟩⟩)
    · exact Or.inr (Or.inr ⟨g0, Or.inl ⟨by linarith, by linarith⟩⟩)

theorem pair170 (v p x1 x2 x3 z : K) (hx : 1.5 / 2.691 < x3) (hv : (p = 100 ∧ 0 ≤ v) ∨ (p ≠ 100 ∧ v ≤ 0)) (ho : Ordered x1 x2 x3) :
    Pair x1 x2 x3 z (eval170 (fin v) (fin p) (fin x1) (fin x2) (fin x3) (fin z))
      (eval180 (fin (-v)) (fin p) (fin (-x2)) (fin (-x1)) (fin (-x3)) (fin (-z))) := by
  unfold eval170 eval180
  simp only [pv170, pv180]
  have h15 : ((0.15 : ℚ) : K) = 0.15 := by norm_num
  have hpv' : -z + 0.15 + max (-v) 0 = -(z - 0.15 + min v 0) := by
    rw [← neg_zero, max_neg_neg, neg_zero]; ring
  rw [h15, hpv', lit0, fle_fin, fle_fin]
  by_cases hpv : 0 ≤ z - 0.15 + min v 0
  · rw [if_pos (decide_eq_true hpv), if_pos (decide_eq_true (by linarith))]
    exact Or.inl ⟨rfl, rfl⟩
  · rw [if_neg (by simpa using hpv), if_neg (by rw [decide_eq_true_eq]; intro h; exact hpv (by linarith))]
    have hpv : z - 0.15 + min v 0 < 0 := not_le.1 hpv
    have hze : (lit (-2.691) * fin x3 + lit 1.5 : Fl K) = fin (-2.691 * x3 + 1.5) := by
      rw [lit_def, lit_def, fin_mul, fin_add]; norm_num
    have hze' : (lit (-2.691) * fin (-x3) - lit 1.5 : Fl K) = fin (-(-2.691 * x3 + 1.5)) := by
      rw [lit_def, lit_def, fin_mul, fin_sub]; congr 1; norm_num; ring
    rw [hze, hze']
    have hzen : -2.691 * x3 + 1.5 < 0 := by
      rw [div_lt_iff₀ (by norm_num)] at hx
      linarith
    unfold eval190
    simp only
    have hq : ∃ q : K, (if feq (fin p) (lit 100) then fin (-2.691 * x3 + 1.5) else fin (-2.691 * x3 + 1.5) + fin v) = (fin q : Fl K) ∧
        (if feq (fin p) (lit 100) then fin (-(-2.691 * x3 + 1.5)) else fin (-(-2.691 * x3 + 1.5)) + fin (-v)) = (fin (-q) : Fl K) ∧
        q < 0 ∧ q - min v 0 ≥ -2.691 * x3 + 1.5 ∧ (p = 100 → q = -2.691 * x3 + 1.5) ∧ (p ≠ 100 → q = -2.691 * x3 + 1.5 + v) := by
      rw [lit100, feq_fin]
      by_cases hp : p = 100
      · refine ⟨-2.691 * x3 + 1.5, by simp [hp], by simp [hp], hzen, ?_, fun _ => rfl, fun h => absurd hp h⟩
        have : min v 0 ≤ 0 := min_le_right _ _
        linarith
      · have hv' := (hv.resolve_left (fun h => hp h.1)).2
        refine ⟨-2.691 * x3 + 1.5 + v, by simp [hp], by simp [hp]; ring, by linarith, ?_, fun h => absurd h hp, fun _ => rfl⟩
        rw [min_eq_left hv']
        linarith
    obtain ⟨q, hq1, hq1', hq2, hq3, hq4, hq5⟩ := hq
    rw [hq1, hq1', ratio_fin _ _ hq2.ne, ratio_fin _ _ (neg_ne_zero.2 hq2.ne), neg_div_neg_eq, lit100, fle_fin]
    have hup : ∀ y, 0 ≤ y → 0.897 * x3 + z / 3 ≤ y → up x1 z ≤ y := by
      intro y h0 h1
      refine max_le h0 (le_trans ?_ h1)
      have : x1 ≤ x3 := ho.2.2.1 (lt_trans (by norm_num) hx)
      linarith
    by_cases hr : (100 : K) ≤ (z - 0.15 + min v 0) / q * 100
    · rw [if_pos (by simpa using hr), if_pos (by simpa using hr)]
      -- the established index has fallen below 0.55, and the incipient one of the same kind is not larger
      have h1 : 1 ≤ (z - 0.15 + min v 0) / q := by linarith
      rw [le_div_iff_of_neg hq2, one_mul] at h1
      have hw : 0.897 * x3 + z / 3 ≤ 0.55 := by
        rcases hv with ⟨hp, hv⟩ | ⟨hp, hv⟩
        · have hq' := hq4 hp
          rw [min_eq_right hv] at h1
          linarith
        · have hq' := hq5 hp
          rw [min_eq_left hv] at h1
          linarith
      have h2 := hup 0.55 (by norm_num) hw
      refine Or.inr ⟨100, 0, _, by rw [lit0], by rw [lit0, neg_zero], Or.inr (Or.inl ⟨rfl, rfl, Or.inl ⟨hpv, ?_⟩⟩)⟩
      norm_num at h2
      linarith
    · rw [if_neg (by simpa using hr), if_neg (by simpa using hr), step_fin, step_fin]
      have hr : (z - 0.15 + min v 0) / q * 100 < 100 := not_le.1 hr
      have h1 : (z - 0.15 + min v 0) / q < 1 := by linarith
      rw [div_lt_one_of_neg hq2] at h1
      have hy : 0.55 < 0.897 * x3 + z / 3 := by linarith
      refine Or.inr ⟨_, 0.897 * x3 + z / 3, _, rfl, ?_, Or.inr (Or.inr ⟨hr.ne, Or.inl ⟨?_, hup _ ?_ le_rfl⟩⟩)⟩
      · rw [show 0.897 * -x3 + -z / 3 = -(0.897 * x3 + z / 3) by ring]
      · norm_num at hy ⊢; linarith
      · norm_num at hy ⊢; linarith

/-- what is known between two months -/
structure State (v p x1 x2 x3 : K) : Prop where
  ord : Ordered x1 x2 x3
  prob : (p = 0 ∧ v = 0) ∨ (p = 100 ∧ (0 < x3 → 0 ≤ v) ∧ (x3 < 0 → v ≤ 0)) ∨
    (0 < p ∧ p < 100 ∧ ((0.55 < x3 ∧ v < 0) ∨ (x3 < -0.55 ∧ 0 < v)))
  clear : Clear x3

theorem State.neg {v p x1 x2 x3 : K} (h : State v p x1 x2 x3) : State (-v) p (-x2) (-x1) (-x3) := by
  refine ⟨h.ord.neg, ?_, ?_⟩
  · rcases h.prob with ⟨h1, h2⟩ | ⟨h1, h2, h3⟩ | ⟨h1, h2, h3⟩
    · exact Or.inl ⟨h1, by rw [h2, neg_zero]⟩
    · exact Or.inr (Or.inl ⟨h1, fun h => by have := h3 (by linarith); linarith, fun h => by have := h2 (by linarith); linarith⟩)
    · refine Or.inr (Or.inr ⟨h1, h2, ?_⟩)
      rcases h3 with ⟨h3, h4⟩ | ⟨h3, h4⟩
      · exact Or.inr ⟨by linarith, by linarith⟩
      · exact Or.inl ⟨by linarith, by linarith⟩
  · have := h.clear
    unfold Clear at this ⊢
    rwa [abs_neg]

theorem State.large {v p x1 x2 x3 : K} (h : State v p x1 x2 x3) (hx : 0.5 < x3) : 1.5 / 2.691 < x3 := by
  have hpos : 0 < x3 := lt_trans (by norm_num) hx
  by_contra hcon
  refine h.clear ⟨?_, ?_⟩
  · rwa [abs_of_pos hpos]
  · rw [abs_of_pos hpos]; exact not_lt.1 hcon

theorem State.v170 {v p x1 x2 x3 : K} (h : State v p x1 x2 x3) (hx : 0 < x3) :
    (p = 100 ∧ 0 ≤ v) ∨ (p ≠ 100 ∧ v ≤ 0) := by
  rcases h.prob with ⟨h1, h2⟩ | ⟨h1, h2, _⟩ | ⟨h1, h2, h3⟩
  · exact Or.inr ⟨by rw [h1]; norm_num, h2.le⟩
  · exact Or.inl ⟨h1, h2 hx⟩
  · refine Or.inr ⟨h2.ne, ?_⟩
    rcases h3 with ⟨_, h4⟩ | ⟨h3, _⟩
    · exact h4.le
    · exfalso; norm_num at h3; linarith

/-- the two months in a spell that is wet -/
theorem pair_wet (v p x1 x2 x3 z : K) (h : State v p x1 x2 x3) (hx : 0.5 < x3) :
    Pair x1 x2 x3 z (monthEval (fin v) (fin p) (fin x1) (fin x2) (fin x3) (fin z))
      (monthEval (fin (-v)) (fin p) (fin (-x2)) (fin (-x1)) (fin (-x3)) (fin (-z))) := by
  have h5 : (lit 0.5 : Fl K) = fin 0.5 := by rw [lit_def]; norm_num
  have h5' : (lit (-0.5) : Fl K) = fin (-0.5) := by rw [lit_def]; norm_num
  have h15 : (lit 0.15 : Fl K) = fin 0.15 := by rw [lit_def]; norm_num
  have h15' : (lit (-0.15) : Fl K) = fin (-0.15) := by rw [lit_def]; norm_num
  have hpos : 0 < x3 := lt_trans (by norm_num) hx
  have key := pair170 v p x1 x2 x3 z (h.large hx) (h.v170 hpos) h.ord
  unfold monthEval
  rw [h5, h5', h15, h15', lit0, lit100]
  simp only [fle_fin, flt_fin, feq_fin, ← Bool.decide_and, ← Bool.decide_or, decide_eq_true_eq]
  by_cases hp : p = 100 ∨ p = 0
  · have e1 : ¬ (-0.5 ≤ x3 ∧ x3 ≤ 0.5) := fun h => absurd h.2 (not_le.2 hx)
    have e2 : ¬ (-0.5 ≤ -x3 ∧ -x3 ≤ 0.5) := fun h => by linarith [h.1]
    have e3 : ¬ 0.5 < -x3 := fun h => by norm_num at h; linarith
    have e4 : -x3 < -0.5 := by linarith
    rw [if_pos hp, if_pos hp, if_neg e1, if_pos hx, if_neg e2, if_neg e3, if_pos e4]
    by_cases hz : 0.15 ≤ z
    · have e5 : -z ≤ -0.15 := by linarith
      rw [if_pos hz, if_pos e5]
      exact Or.inl ⟨rfl, rfl⟩
    · have e5 : ¬ -z ≤ -0.15 := fun h => hz (by linarith)
      rw [if_neg hz, if_neg e5]
      exact key
  · have e1 : ¬ 0 < -x3 := by linarith
    have e2 : -x3 ≤ 0 := by linarith
    rw [if_neg hp, if_neg hp, if_pos hpos, if_neg e1, if_pos e2]
    exact key

theorem pair_month (v p x1 x2 x3 z : K) (h : State v p x1 x2 x3) :
    Pair x1 x2 x3 z (monthEval (fin v) (fin p) (fin x1) (fin x2) (fin x3) (fin z))
      (monthEval (fin (-v)) (fin p) (fin (-x2)) (fin (-x1)) (fin (-x3)) (fin (-z))) := by
  by_cases hw : 0.5 < x3
  · exact pair_wet v p x1 x2 x3 z h hw
  by_cases hd : x3 < -0.5
  · refine Pair.swap ?_
    have := pair_wet (-v) p (-x2) (-x1) (-x3) (-z) h.neg (by linarith)
    simpa only [neg_neg] using this
  -- no spell
  have hw := not_lt.1 hw
  have hd := not_lt.1 hd
  have hp : p = 100 ∨ p = 0 := by
    rcases h.prob with ⟨h1, _⟩ | ⟨h1, _⟩ | ⟨_, _, h3⟩
    · exact Or.inr h1
    · exact Or.inl h1
    · rcases h3 with ⟨h3, _⟩ | ⟨h3, _⟩
      · norm_num at h3 hw; linarith
      · norm_num at h3 hd; linarith
  have h5 : (lit 0.5 : Fl K) = fin 0.5 := by rw [lit_def]; norm_num
  have h5' : (lit (-0.5) : Fl K) = fin (-0.5) := by rw [lit_def]; norm_num
  unfold monthEval
  rw [h5, h5', lit0, lit100]
  simp only [fle_fin, flt_fin, feq_fin, ← Bool.decide_and, ← Bool.decide_or, decide_eq_true_eq]
  rw [if_pos hp, if_pos hp, if_pos ⟨hd, hw⟩, if_pos ⟨by linarith, by linarith⟩]
  refine Or.inr ⟨0, 0, 0, rfl, by rw [neg_zero], Or.inl ⟨rfl, rfl, ?_⟩⟩
  rintro ⟨h1, h2⟩
  obtain ⟨g1, g2⟩ := h.ord.2.2.2.2 (abs_le.2 ⟨hd, hw⟩)
  unfold up at h1
  unfold down at h2
  rcases le_max_iff.1 h1 with h1 | h1
  · norm_num at h1
  · rcases min_le_iff.1 h2 with h2 | h2
    · norm_num at h2
    · linarith

/-- the three indices after statement 200 -/
theorem eval200_indices (x1 x2 z q y w : K) :
    ∃ y1 y2 y3 : K, (eval200 (fin x1) (fin x2) (fin z) (fin q) (fin y) (fin w)).px1 = fin y1 ∧
      (eval200 (fin x1) (fin x2) (fin z) (fin q) (fin y) (fin w)).px2 = fin y2 ∧
      (eval200 (fin x1) (fin x2) (fin z) (fin q) (fin y) (fin w)).px3 = fin y3 ∧
      ((y = 0 ∧ 1 ≤ up x1 z ∧ y1 = 0 ∧ y2 = 0 ∧ y3 = up x1 z) ∨ (y = 0 ∧ down x2 z ≤ -1 ∧ y1 = up x1 z ∧ y2 = 0 ∧ y3 = down x2 z) ∨
        (y1 = up x1 z ∧ y2 = down x2 z ∧ y3 = y ∧ (y = 0 → y1 < 1 ∧ -1 < y2))) := by
  rw [eval200_K]
  by_cases h1 : 1 ≤ up x1 z ∧ y = 0
  · rw [if_pos h1]
    exact ⟨_, _, _, rfl, rfl, rfl, Or.inl ⟨h1.2, h1.1, rfl, rfl, rfl⟩⟩
  · rw [if_neg h1]
    by_cases h2 : down x2 z ≤ -1 ∧ y = 0
    · rw [if_pos h2]
      exact ⟨_, _, _, rfl, rfl, rfl, Or.inr (Or.inl ⟨h2.2, h2.1, rfl, rfl, rfl⟩)⟩
    · rw [if_neg h2]
      have h3 : y = 0 → up x1 z < 1 ∧ -1 < down x2 z := fun h => ⟨not_le.1 (fun h' => h1 ⟨h', h⟩), not_le.1 (fun h' => h2 ⟨h', h⟩)⟩
      split
      · exact ⟨_, _, _, rfl, rfl, rfl, Or.inr (Or.inr ⟨rfl, rfl, rfl, h3⟩)⟩
      · split <;> exact ⟨_, _, _, rfl, rfl, rfl, Or.inr (Or.inr ⟨rfl, rfl, rfl, h3⟩)⟩

/-- the variables of the next month -/
theorem Pair.next {x1 x2 x3 z : K} {m m' : Month (Fl K)} (h : Pair x1 x2 x3 z m m')
    (hprob : StepProb m) (hc : ∀ x, m.px3 = fin x → Clear x) :
    ∃ v p y1 y2 y3 : K, m.pv = fin v ∧ m.ppr = fin p ∧ m.px1 = fin y1 ∧ m.px2 = fin y2 ∧ m.px3 = fin y3 ∧ State v p y1 y2 y3 := by
  have hu := up_nonneg x1 z
  have hd := down_nonpos x2 z
  rcases h with ⟨rfl, _⟩ | ⟨q, y, w, rfl, _, h⟩
  · unfold eval210 at hc ⊢
    rw [step_fin] at hc ⊢
    refine ⟨0, 0, 0, 0, _, lit0, lit0, lit0, lit0, rfl, ⟨le_rfl, le_rfl, fun h => h.le, fun h => h.le, fun _ => ⟨by norm_num, by norm_num⟩⟩,
      Or.inl ⟨rfl, rfl⟩, hc _ rfl⟩
  · obtain ⟨⟨a, p', x, e1, e2, e3, hinv⟩, _⟩ := hprob
    obtain ⟨f1, f2, _⟩ := eval200_fields (F := Fl K) (fin x1) (fin x2) (fin z) (fin q) (fin y) (fin w)
    obtain ⟨y1, y2, y3, g1, g2, g3, hy⟩ := eval200_indices x1 x2 z q y w
    rw [e1] at f2; rw [e2] at f1; rw [e3] at g3
    cases f1; cases f2; cases g3
    refine ⟨w, q, y1, y2, x, e1, e2, g1, g2, e3, ?_, ?_, hc x e3⟩
    · -- order
      rcases hy with ⟨_, h1, rfl, rfl, rfl⟩ | ⟨_, h1, rfl, rfl, rfl⟩ | ⟨rfl, rfl, rfl, h0⟩
      · refine ⟨le_rfl, le_rfl, fun h => hu, fun h => absurd h (not_lt.2 hu), fun h => ⟨by norm_num, by norm_num⟩⟩
      · refine ⟨hu, le_rfl, fun h => absurd h (not_lt.2 hd), fun h => hd, fun h => ?_⟩
        rw [abs_of_nonpos hd] at h
        exfalso
        norm_num at h
        linarith
      · refine ⟨hu, hd, fun hx => ?_, fun hx => ?_, fun hx => ?_⟩
        · rcases h with ⟨h, _⟩ | ⟨h, _⟩ | ⟨_, ⟨_, h⟩ | ⟨h, _⟩⟩
          · exact absurd h hx.ne'
          · exact absurd h hx.ne'
          · exact h
          · exfalso; norm_num at h; linarith
        · rcases h with ⟨h, _⟩ | ⟨h, _⟩ | ⟨_, ⟨h, _⟩ | ⟨_, h⟩⟩
          · exact absurd h hx.ne
          · exact absurd h hx.ne
          · exfalso; norm_num at h; linarith
          · exact h
        · rcases h with ⟨h, _⟩ | ⟨h, _⟩ | ⟨_, ⟨h, _⟩ | ⟨h, _⟩⟩
          · exact h0 h
          · exact h0 h
          · exact absurd (abs_le.1 hx).2 (not_le.2 h)
          · exact absurd (abs_le.1 hx).1 (not_le.2 h)
    · rcases hinv with h1 | h1 | h1
      · exact Or.inl h1
      · refine Or.inr (Or.inl ⟨h1, ?_⟩)
        have hw : y = 0 ∧ ((w < 0 ∧ up x1 z < 1) ∨ (0 < w ∧ -1 < down x2 z)) := by
          rcases h with ⟨_, h2, _⟩ | ⟨h0, _, h2⟩ | ⟨h2, _⟩
          · rw [h1] at h2; norm_num at h2
          · exact ⟨h0, h2⟩
          · exact absurd h1 h2
        obtain ⟨rfl, hw⟩ := hw
        rcases hy with ⟨_, h3, rfl, rfl, rfl⟩ | ⟨_, h3, rfl, rfl, rfl⟩ | ⟨rfl, rfl, rfl, h0⟩
        · refine ⟨fun _ => ?_, fun h => absurd h (not_lt.2 hu)⟩
          rcases hw with hw | hw
          · exact absurd hw.2 (not_lt.2 h3)
          · exact hw.1.le
        · refine ⟨fun h => absurd h (not_lt.2 hd), fun _ => ?_⟩
          rcases hw with hw | hw
          · exact hw.1.le
          · exact absurd hw.2 (not_lt.2 h3)
        · exact ⟨fun h => absurd h (lt_irrefl _), fun h => absurd h (lt_irrefl _)⟩
      · exact Or.inr (Or.inr h1)

theorem State.probInv {v p x1 x2 x3 : K} (h : State v p x1 x2 x3) : ProbInv (fin v) (fin p) (fin x3) := by
  refine ⟨v, p, x3, rfl, rfl, rfl, ?_⟩
  rcases h.prob with h1 | h1 | h1
  · exact Or.inl h1
  · exact Or.inr (Or.inl h1.1)
  · exact Or.inr (Or.inr h1)

/-- one month of a record and of its negative -/
theorem month_mir {v p x1 x2 x3 : K} (z : K) (h : State v p x1 x2 x3)
    (hc : ∀ x, (monthEval (fin v) (fin p) (fin x1) (fin x2) (fin x3) (fin z)).px3 = fin x → Clear x)
    (hl : NoneLeft (monthEval (fin v) (fin p) (fin x1) (fin x2) (fin x3) (fin z)))
    (hl' : NoneLeft (monthEval (fin (-v)) (fin p) (fin (-x2)) (fin (-x1)) (fin (-x3)) (fin (-z)))) :
    Mir (monthEval (fin v) (fin p) (fin x1) (fin x2) (fin x3) (fin z))
        (monthEval (fin (-v)) (fin p) (fin (-x2)) (fin (-x1)) (fin (-x3)) (fin (-z))) ∧
      ∃ v' p' y1 y2 y3 : K, (monthEval (fin v) (fin p) (fin x1) (fin x2) (fin x3) (fin z)).pv = fin v' ∧
        (monthEval (fin v) (fin p) (fin x1) (fin x2) (fin x3) (fin z)).ppr = fin p' ∧
        (monthEval (fin v) (fin p) (fin x1) (fin x2) (fin x3) (fin z)).px1 = fin y1 ∧
        (monthEval (fin v) (fin p) (fin x1) (fin x2) (fin x3) (fin z)).px2 = fin y2 ∧
        (monthEval (fin v) (fin p) (fin x1) (fin x2) (fin x3) (fin z)).px3 = fin y3 ∧ State v' p' y1 y2 y3 := by
  have hp := pair_month v p x1 x2 x3 z h
  have hs := monthEval_prob (fin v) (fin p) (fin x3) x1 x2 z h.probInv (fun x hx => by cases hx; exact h.clear)
  refine ⟨?_, hp.next hs hc⟩
  rcases hp with ⟨h1, h2⟩ | ⟨q, y, w, h1, h2, h3⟩
  · rw [h1, h2]; exact eval210_mir _ _
  · rw [h1] at hl ⊢
    rw [h2] at hl' ⊢
    refine eval200_mir _ _ _ _ _ _ (fun h0 => ?_) hl hl'
    rcases h3 with ⟨_, g1, g2⟩ | ⟨_, g1, g2⟩ | ⟨_, g | g⟩
    · exact ⟨Or.inl g1, g2⟩
    · refine ⟨Or.inr g1, ?_⟩
      rintro ⟨k1, k2⟩
      rcases g2 with g2 | g2
      · exact absurd g2.2 (not_lt.2 k1)
      · exact absurd g2.2 (not_lt.2 k2)
    · exfalso; have := g.1; rw [h0] at this; norm_num at this
    · exfalso; have := g.1; rw [h0] at this; norm_num at this

end CI.Mirror
