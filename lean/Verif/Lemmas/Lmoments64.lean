import Verif.Model.Lmoments
import Verif.Lemmas.Rel64
import Verif.Lemmas.Palmer64

/-!
# Sample L-moments in binary64
-/

namespace CI.B64
open Round
variable {σ : SumOrder}

/-! ## Sorting -/

theorem sortLe_total (a b : B64 σ) : CI.sortLe a b ∨ CI.sortLe b a := by
  unfold CI.sortLe
  by_cases hb : isNan b = true
  · left; simp [hb]
  · by_cases ha : isNan a = true
    · right; simp [ha]
    · rw [FloatLaws.isNan_iff] at ha hb
      rcases FloatLaws.fle_total a b ha hb with h | h
      · left; simp [h]
      · right; simp [h]

theorem sortLe_trans (a b c : B64 σ) (h1 : CI.sortLe a b) (h2 : CI.sortLe b c) : CI.sortLe a c := by
  unfold CI.sortLe at *
  simp only [Bool.or_eq_true] at *
  rcases h2 with h2 | h2
  · rcases h1 with h1 | h1
    · exact Or.inl (FloatLaws.fle_trans _ _ _ h1 h2)
    · rw [FloatLaws.isNan_iff] at h1
      rw [h1, FloatLaws.fle_nan_left] at h2
      cases h2
  · exact Or.inr h2

instance : Std.Total (CI.sortLe : B64 σ → B64 σ → Prop) := ⟨sortLe_total⟩
instance : IsTrans (B64 σ) CI.sortLe := ⟨sortLe_trans⟩

theorem sorted_split (l : List (B64 σ)) (h : l.Pairwise CI.sortLe) : l = l.filter (fun v => !isNan v) ++ l.filter (fun v => isNan v) := by
  induction l with
  | nil => rfl
  | cons a l ih =>
    rw [List.pairwise_cons] at h
    have ih := ih h.2
    cases ha : isNan a with
    | false =>
      rw [List.filter_cons_of_pos (by simp [ha]), List.filter_cons_of_neg (by simp [ha]), List.cons_append, ← ih]
    | true =>
      have hall : ∀ b ∈ l, isNan b = true := by
        intro b hb
        have := h.1 b hb
        unfold CI.sortLe at this
        rw [FloatLaws.isNan_iff] at ha
        rw [ha, FloatLaws.fle_nan_left] at this
        simpa using this
      have e1 : (a :: l).filter (fun v => !isNan v) = [] := by
        rw [List.filter_eq_nil_iff]
        intro b hb
        rcases List.mem_cons.1 hb with rfl | hb
        · simp [ha]
        · simp [hall b hb]
      have e2 : (a :: l).filter (fun v => isNan v) = a :: l := by
        rw [List.filter_eq_self]
        intro b hb
        rcases List.mem_cons.1 hb with rfl | hb
        · exact ha
        · exact hall b hb
      rw [e1, e2]; rfl

/-- the first values of a sorted list are its numbers -/
theorem npSort_take (x : List (B64 σ)) :
    ∃ p, (CI.npSort x).take (x.countP (fun v => !isNan v)) = p ∧ p.Perm (x.filter (fun v => !isNan v)) ∧ p.Pairwise CI.sortLe := by
  have hperm : (CI.npSort x).Perm x := List.perm_insertionSort _ x
  have hs : (CI.npSort x).Pairwise CI.sortLe := List.pairwise_insertionSort _ x
  have e := sorted_split _ hs
  have hc : x.countP (fun v => !isNan v) = ((CI.npSort x).filter (fun v => !isNan v)).length := by
    rw [← List.countP_eq_length_filter]; exact (hperm.countP_eq _).symm
  refine ⟨(CI.npSort x).filter (fun v => !isNan v), ?_, hperm.filter _, hs.sublist List.filter_sublist⟩
  rw [hc]
  conv_lhs => rw [e]
  rw [List.filter_append, List.filter_filter, List.filter_filter]
  have z : List.filter (fun a => !isNan a && isNan a) (CI.npSort x) = [] := by
    rw [List.filter_eq_nil_iff]; intro b _; simp
  rw [z, List.append_nil]
  simp

/-! ## Sums -/

/-- `Σ w(k+i) y_i` -/
def wsumQ (w : ℕ → ℚ) : ℕ → List ℚ → ℚ
  | _, [] => 0
  | k, a :: l => w k * a + wsumQ w (k + 1) l

theorem wsumQ_nonneg (w : ℕ → ℚ) (hw : ∀ i, 0 ≤ w i) (k : ℕ) (l : List ℚ) (hl : ∀ a ∈ l, 0 ≤ a) : 0 ≤ wsumQ w k l := by
  induction l generalizing k with
  | nil => exact le_rfl
  | cons a l ih => exact add_nonneg (mul_nonneg (hw k) (hl a (by simp))) (ih (k + 1) fun b hb => hl b (List.mem_cons_of_mem _ hb))

theorem wsumQ_le (w : ℕ → ℚ) (W : ℚ) (k : ℕ) (l : List ℚ) (hw : ∀ i, i < k + l.length → w i ≤ W) (hl : ∀ a ∈ l, 0 ≤ a) : wsumQ w k l ≤ W * wsumQ (fun _ => 1) k l := by
  induction l generalizing k with
  | nil => simp [wsumQ]
  | cons a l ih =>
    have h1 := ih (k + 1) (fun i hi => hw i (by rw [List.length_cons]; omega)) fun b hb => hl b (List.mem_cons_of_mem _ hb)
    have h2 := mul_le_mul_of_nonneg_right (hw k (by rw [List.length_cons]; omega)) (hl a (by simp))
    simp only [wsumQ]
    rw [one_mul, mul_add]
    linarith

theorem wsumQ_one (k : ℕ) (l : List ℚ) : wsumQ (fun _ => 1) k l = l.sum := by
  induction l generalizing k with
  | nil => rfl
  | cons a l ih => simp [wsumQ, ih]

/-- a value of a sample -/
def Amount (q : ℚ) : Prop := (q = 0 ∨ 1 / 10 ^ 100 ≤ q) ∧ q ≤ 10 ^ 100

theorem Amount.nonneg {q : ℚ} (h : Amount q) : 0 ≤ q := by
  rcases h.1 with h | h
  · exact h.ge
  · exact le_trans (by positivity) h

theorem natlit {k : ℕ} (h : k ≤ 2 ^ 53) : ext (CI.lit (k : ℚ) : B64 σ) = .fin k := by
  have e : rnd (k : ℚ) = k := by
    have := rndPos_exact k 0 h (by norm_num)
    rw [rnd_of_nonneg (Nat.cast_nonneg k)]
    simpa using this
  rw [ext_lit64 _ (below_max ?_), e]
  rw [abs_of_nonneg (Nat.cast_nonneg k)]
  have : (k : ℚ) ≤ 2 ^ 53 := by exact_mod_cast h
  exact this.trans (by norm_num)

theorem lims : (2 : ℚ) ^ (-1000 : ℤ) ≤ 1 / 10 ^ 100 ∧ (2 : ℚ) ^ 100 * 10 ^ 100 ≤ 2 ^ (1000 : ℤ) := by
  have h1 : (10 : ℚ) ^ 100 ≤ (2 ^ 4) ^ 100 := pow_le_pow_left₀ (by norm_num) (by norm_num) _
  constructor
  · refine le_trans ?_ (one_div_le_one_div_of_le (by positivity) h1)
    rw [← pow_mul, one_div, ← zpow_natCast, ← zpow_neg]
    exact zpow_le_zpow_right₀ (by norm_num) (by norm_num)
  · refine (mul_le_mul_of_nonneg_left h1 (by positivity)).trans ?_
    rw [← pow_mul, ← pow_add, ← zpow_natCast]
    exact zpow_le_zpow_right₀ (by norm_num) (by norm_num)

theorem small_le {q : ℚ} (h : q ≤ 2 ^ 100 * 10 ^ 100) : q ≤ 2 ^ (1000 : ℤ) := h.trans lims.2

theorem amount_mul {q : ℚ} (h : Amount q) (k : ℕ) : q * k = 0 ∨ (2 : ℚ) ^ (-1000 : ℤ) ≤ q * k := by
  rcases Nat.eq_zero_or_pos k with rfl | hk
  · left; simp
  · rcases h.1 with h | h
    · left; rw [h, zero_mul]
    · right
      have : (1 : ℚ) ≤ k := by exact_mod_cast hk
      refine lims.1.trans ?_
      nlinarith [show (0 : ℚ) < 1 / 10 ^ 100 by positivity]

/-- a sum of two close numbers -/
theorem add_close {c : ℕ} {x y : B64 σ} {a b a' b' : ℚ} (hx : ext x = .fin a) (hy : ext y = .fin a') (h : Close c a b) (h' : Close c a' b')
    (hc : c ≤ 2 ^ 51) (hhi : b + b' ≤ 2 ^ (1000 : ℤ)) : ∃ r, ext (x + y) = .fin r ∧ Close (c + 1) r (b + b') := by
  have hm := h.add h'
  have ht := hm.le_two hc
  refine ⟨rnd (a + a'), fin_add hx hy ?_, hm.round (rnd_add_rel hx hy)⟩
  rw [abs_of_nonneg hm.pos]; refine big_le ?_; rw [two_big]; linarith

/-- the weights of the three sums -/
def w0 (_ : ℕ) : ℚ := 1
def w1 (i : ℕ) : ℚ := i
def w2 (i : ℕ) : ℚ := (i : ℚ) * ((i - 1 : ℕ) : ℚ)

theorem term_close {k : ℕ} (hk : k ≤ 2 ^ 17) {v : B64 σ} {q : ℚ} (hv : ext v = .fin q) (hq : Amount q) :
    ∃ r s, ext (v * CI.lit (((k + 1 : ℕ) : ℚ) - 1)) = .fin r ∧ Close 1 r (w1 k * q) ∧
      ext (v * CI.lit (((k + 1 : ℕ) : ℚ) - 1) * CI.lit (((k + 1 : ℕ) : ℚ) - 2)) = .fin s ∧ Close 2 s (w2 k * q) := by
  have e1 : (((k + 1 : ℕ) : ℚ) - 1) = k := by push_cast; ring
  have h0 := hq.nonneg
  have hk' : (k : ℚ) ≤ 2 ^ 17 := by exact_mod_cast hk
  have b1 : q * k ≤ 2 ^ 17 * 10 ^ 100 := by
    have := mul_le_mul hq.2 hk' (Nat.cast_nonneg k) (by positivity); linarith
  obtain ⟨r, hr, hcr⟩ := mul_close hv (natlit (σ := σ) (k := k) (by omega)) (Close.refl h0) (Close.refl (Nat.cast_nonneg k)) (by norm_num) (amount_mul hq k)
    (small_le (b1.trans (by norm_num)))
  rw [e1]
  rcases Nat.eq_zero_or_pos k with rfl | hkp
  · have hr0 : r = 0 := hcr.eq_zero.2 (by simp)
    subst hr0
    have hl : ext (CI.lit (((0 + 1 : ℕ) : ℚ) - 2) : B64 σ) = .fin (rnd (-1)) := by
      rw [show (((0 + 1 : ℕ) : ℚ) - 2) = -1 by norm_num]
      exact ext_lit64 _ (below_max (by norm_num))
    refine ⟨0, rnd (0 * rnd (-1)), hr, ?_, fin_mul hr hl (by rw [zero_mul, abs_zero]; positivity), ?_⟩
    · simpa [w1] using hcr
    · rw [zero_mul, rnd_zero]; simp only [w2, Nat.cast_zero, zero_mul]; exact (Close.refl le_rfl).mono (by omega)
  · have e2 : (((k + 1 : ℕ) : ℚ) - 2) = ((k - 1 : ℕ) : ℚ) := by rw [Nat.cast_sub hkp]; push_cast; ring
    rw [e2]
    have hk1 : ((k - 1 : ℕ) : ℚ) ≤ 2 ^ 17 := by exact_mod_cast (by omega : k - 1 ≤ 2 ^ 17)
    have e3 : q * k * ((k - 1 : ℕ) : ℚ) = q * ((k * (k - 1) : ℕ) : ℚ) := by push_cast; ring
    obtain ⟨s, hs, hcs⟩ := mul_close hr (natlit (σ := σ) (k := k - 1) (by omega)) hcr (Close.refl (Nat.cast_nonneg _)) (by norm_num)
      (by rw [e3]; exact amount_mul hq _)
      (small_le (by
        have := mul_le_mul b1 hk1 (Nat.cast_nonneg _) (by positivity)
        exact this.trans (by norm_num)))
    refine ⟨r, s, hr, ?_, hs, ?_⟩
    · have : w1 k * q = q * k := by unfold w1; ring
      rw [this]; exact hcr
    · have : w2 k * q = q * k * ((k - 1 : ℕ) : ℚ) := by unfold w2; ring
      rw [this]; exact hcs

theorem w2_nonneg (i : ℕ) : 0 ≤ w2 i := mul_nonneg (Nat.cast_nonneg _) (Nat.cast_nonneg _)
theorem w1_nonneg (i : ℕ) : 0 ≤ w1 i := Nat.cast_nonneg _
theorem w0_nonneg (i : ℕ) : 0 ≤ w0 i := zero_le_one
theorem w2_le {i : ℕ} (h : i ≤ 2 ^ 17) : w2 i ≤ 2 ^ 34 := by
  have h1 : (i : ℚ) ≤ 2 ^ 17 := by exact_mod_cast h
  have h2 : ((i - 1 : ℕ) : ℚ) ≤ 2 ^ 17 := by exact_mod_cast (by omega : i - 1 ≤ 2 ^ 17)
  have := mul_le_mul h1 h2 (Nat.cast_nonneg _) (by positivity)
  unfold w2; linarith
theorem w1_le {i : ℕ} (h : i ≤ 2 ^ 17) : w1 i ≤ 2 ^ 34 := by
  have h1 : (i : ℚ) ≤ 2 ^ 17 := by exact_mod_cast h
  unfold w1; linarith

/-- accumulators beside the exact sums -/
structure Acc (c : ℕ) (B : ℚ) (s : B64 σ × B64 σ × B64 σ) (b0 b1 b2 : ℚ) : Prop where
  e0 : ∃ a, ext s.1 = .fin a ∧ Close c a b0
  e1 : ∃ a, ext s.2.1 = .fin a ∧ Close (c + 1) a b1
  e2 : ∃ a, ext s.2.2 = .fin a ∧ Close (c + 2) a b2
  l0 : b0 ≤ B
  l1 : b1 ≤ B
  l2 : b2 ≤ B

theorem acc_step {k : ℕ} (hk : k < 2 ^ 17) {v : B64 σ} {q : ℚ} (hv : ext v = .fin q) (hq : Amount q) {s : B64 σ × B64 σ × B64 σ} {b0 b1 b2 : ℚ}
    (h : Acc k (k * (2 ^ 34 * 10 ^ 100)) s b0 b1 b2) :
    Acc (k + 1) ((k + 1 : ℕ) * (2 ^ 34 * 10 ^ 100)) (CI.lmomAccStep s (k + 1, v)) (b0 + w0 k * q) (b1 + w1 k * q) (b2 + w2 k * q) := by
  obtain ⟨r, t, hr, hcr, ht, hct⟩ := term_close hk.le hv hq
  obtain ⟨⟨a0, h0, c0⟩, ⟨a1, h1, c1⟩, ⟨a2, h2, c2⟩, l0, l1, l2⟩ := h
  have hq0 := hq.nonneg
  have hk' : (k : ℚ) ≤ 2 ^ 17 := by exact_mod_cast hk.le
  have top : ∀ b : ℚ, b ≤ ((k + 1 : ℕ) : ℚ) * (2 ^ 34 * 10 ^ 100) → b ≤ 2 ^ (1000 : ℤ) := by
    intro b hb
    refine small_le (hb.trans ?_)
    have : ((k + 1 : ℕ) : ℚ) ≤ 2 ^ 17 := by exact_mod_cast hk
    have := mul_le_mul_of_nonneg_right this (show (0 : ℚ) ≤ 2 ^ 34 * 10 ^ 100 by positivity)
    exact this.trans (by norm_num)
  have g0 : b0 + w0 k * q ≤ ((k + 1 : ℕ) : ℚ) * (2 ^ 34 * 10 ^ 100) := by
    have : w0 k * q ≤ 2 ^ 34 * 10 ^ 100 := by unfold w0; linarith [hq.2, show (10 : ℚ) ^ 100 ≤ 2 ^ 34 * 10 ^ 100 by norm_num]
    push_cast; linarith
  have g1 : b1 + w1 k * q ≤ ((k + 1 : ℕ) : ℚ) * (2 ^ 34 * 10 ^ 100) := by
    have := mul_le_mul (w1_le hk.le) hq.2 hq0 (by positivity)
    push_cast; linarith
  have g2 : b2 + w2 k * q ≤ ((k + 1 : ℕ) : ℚ) * (2 ^ 34 * 10 ^ 100) := by
    have := mul_le_mul (w2_le hk.le) hq.2 hq0 (by positivity)
    push_cast; linarith
  have hw0 : Close k q (w0 k * q) := by rw [show w0 k * q = q by unfold w0; ring]; exact (Close.refl hq0).mono (by omega)
  refine ⟨?_, ?_, ?_, g0, g1, g2⟩
  · exact add_close h0 hv c0 hw0 (by omega) (top _ g0)
  · exact add_close h1 hr c1 (hcr.mono (by omega)) (by omega) (top _ g1)
  · exact add_close h2 ht c2 (hct.mono (by omega)) (by omega) (top _ g2)

theorem acc_fold {p : List (B64 σ)} {y : List ℚ} (h : List.Forall₂ (fun v q => ext v = .fin q ∧ Amount q) p y) (k : ℕ) (hk : k + p.length ≤ 2 ^ 17)
    (s : B64 σ × B64 σ × B64 σ) (b0 b1 b2 : ℚ) (hs : Acc k (k * (2 ^ 34 * 10 ^ 100)) s b0 b1 b2) :
    Acc (k + p.length) ((k + p.length : ℕ) * (2 ^ 34 * 10 ^ 100)) (((p.zipIdx k).map (fun q => (q.2 + 1, q.1))).foldl CI.lmomAccStep s)
      (b0 + wsumQ w0 k y) (b1 + wsumQ w1 k y) (b2 + wsumQ w2 k y) := by
  induction h generalizing k s b0 b1 b2 with
  | nil => simpa [wsumQ] using hs
  | @cons v q p y hvq _ ih =>
    rw [List.length_cons] at hk
    have := ih (k + 1) (by omega) _ _ _ _ (acc_step (by omega) hvq.1 hvq.2 hs)
    rw [List.zipIdx_cons, List.map_cons, List.foldl_cons, List.length_cons]
    simp only [wsumQ]
    rw [show ∀ u v w : ℚ, u + (v + w) = u + v + w from fun u v w => by ring, show ∀ u v w : ℚ, u + (v + w) = u + v + w from fun u v w => by ring,
      show ∀ u v w : ℚ, u + (v + w) = u + v + w from fun u v w => by ring, show k + (p.length + 1) = k + 1 + p.length by omega]
    exact this

/-! ## The three moments -/

theorem wsumQ_mono (w v : ℕ → ℚ) (k : ℕ) (l : List ℚ) (hw : ∀ i, i < k + l.length → w i ≤ v i) (hl : ∀ a ∈ l, 0 ≤ a) : wsumQ w k l ≤ wsumQ v k l := by
  induction l generalizing k with
  | nil => exact le_rfl
  | cons a l ih =>
    have h1 := ih (k + 1) (fun i hi => hw i (by rw [List.length_cons]; omega)) fun b hb => hl b (List.mem_cons_of_mem _ hb)
    have h2 := mul_le_mul_of_nonneg_right (hw k (by rw [List.length_cons]; omega)) (hl a (by simp))
    simp only [wsumQ]
    linarith

theorem wsumQ_smul (w : ℕ → ℚ) (c : ℚ) (k : ℕ) (l : List ℚ) : wsumQ (fun i => c * w i) k l = c * wsumQ w k l := by
  induction l generalizing k with
  | nil => simp [wsumQ]
  | cons a l ih => simp only [wsumQ, ih]; ring

/-- a weighted sum is zero or not too small -/
theorem wsumQ_low (w : ℕ → ℚ) (hw : ∀ i, w i = 0 ∨ 1 ≤ w i) (k : ℕ) (l : List ℚ) (hl : ∀ a ∈ l, Amount a) :
    wsumQ w k l = 0 ∨ 1 / 10 ^ 100 ≤ wsumQ w k l := by
  have hw0 : ∀ i, 0 ≤ w i := fun i => by rcases hw i with h | h <;> linarith
  induction l generalizing k with
  | nil => exact Or.inl rfl
  | cons a l ih =>
    have ih := ih (k + 1) fun b hb => hl b (List.mem_cons_of_mem _ hb)
    have ha := hl a (by simp)
    have hn := wsumQ_nonneg w hw0 (k + 1) l fun b hb => (hl b (List.mem_cons_of_mem _ hb)).nonneg
    simp only [wsumQ]
    rcases hw k with h | h
    · rw [h, zero_mul, zero_add]; exact ih
    · rcases ha.1 with h0 | h0
      · rw [h0, mul_zero, zero_add]; exact ih
      · right
        have : 1 * a ≤ w k * a := mul_le_mul_of_nonneg_right h ha.nonneg
        linarith

theorem nat_one (i : ℕ) : (i : ℚ) = 0 ∨ (1 : ℚ) ≤ i := by
  rcases Nat.eq_zero_or_pos i with h | h
  · left; simp [h]
  · right; exact_mod_cast h

theorem w0_low (i : ℕ) : w0 i = 0 ∨ 1 ≤ w0 i := Or.inr le_rfl
theorem w1_low (i : ℕ) : w1 i = 0 ∨ 1 ≤ w1 i := nat_one i
theorem w2_low (i : ℕ) : w2 i = 0 ∨ 1 ≤ w2 i := by
  have := nat_one (i * (i - 1))
  push_cast at this
  exact this

/-- the number of values, and the products that divide the sums -/
def d0 (n : ℕ) : ℕ := n
def d1 (n : ℕ) : ℕ := n * (n - 1)
def d2 (n : ℕ) : ℕ := n * (n - 1) * (n - 2)

/-- the three moments -/
def m0 (y : List ℚ) : ℚ := wsumQ w0 0 y / d0 y.length
def m1 (y : List ℚ) : ℚ := wsumQ w1 0 y / d1 y.length
def m2 (y : List ℚ) : ℚ := wsumQ w2 0 y / d2 y.length

section
variable {y : List ℚ}

theorem m_pos (h4 : 4 ≤ y.length) : (0 : ℚ) < d0 y.length ∧ (0 : ℚ) < d1 y.length ∧ (0 : ℚ) < d2 y.length := by
  refine ⟨?_, ?_, ?_⟩ <;> refine Nat.cast_pos.2 ?_
  · unfold d0; omega
  · unfold d1; exact Nat.mul_pos (by omega) (by omega)
  · unfold d2; exact Nat.mul_pos (Nat.mul_pos (by omega) (by omega)) (by omega)

theorem m_nonneg (h4 : 4 ≤ y.length) (hy : ∀ q ∈ y, 0 ≤ q) : 0 ≤ m0 y ∧ 0 ≤ m1 y ∧ 0 ≤ m2 y := by
  obtain ⟨h0, h1, h2⟩ := m_pos h4
  exact ⟨div_nonneg (wsumQ_nonneg _ w0_nonneg _ _ hy) h0.le, div_nonneg (wsumQ_nonneg _ w1_nonneg _ _ hy) h1.le, div_nonneg (wsumQ_nonneg _ w2_nonneg _ _ hy) h2.le⟩

theorem m_order (h4 : 4 ≤ y.length) (hy : ∀ q ∈ y, 0 ≤ q) : m1 y ≤ m0 y ∧ m2 y ≤ m0 y := by
  obtain ⟨h0, h1, h2⟩ := m_pos h4
  have n1 : (0 : ℚ) < ((y.length - 1 : ℕ) : ℚ) := Nat.cast_pos.2 (by omega)
  have n2 : (0 : ℚ) < ((y.length - 2 : ℕ) : ℚ) := Nat.cast_pos.2 (by omega)
  have hd1 : (d1 y.length : ℚ) = d0 y.length * ((y.length - 1 : ℕ) : ℚ) := by unfold d1 d0; push_cast; rfl
  have hd2 : (d2 y.length : ℚ) = d0 y.length * (((y.length - 1 : ℕ) : ℚ) * ((y.length - 2 : ℕ) : ℚ)) := by unfold d2 d0; push_cast; ring
  constructor
  · unfold m1 m0
    rw [hd1, div_le_div_iff₀ (mul_pos h0 n1) h0]
    have h := wsumQ_mono w1 (fun i => ((y.length - 1 : ℕ) : ℚ) * w0 i) 0 y (by
      intro i hi
      unfold w1 w0
      rw [mul_one]
      exact_mod_cast (by omega : i ≤ y.length - 1)) hy
    rw [wsumQ_smul] at h
    have := mul_le_mul_of_nonneg_right h h0.le
    linarith
  · unfold m2 m0
    rw [hd2, div_le_div_iff₀ (mul_pos h0 (mul_pos n1 n2)) h0]
    have h := wsumQ_mono w2 (fun i => (((y.length - 1 : ℕ) : ℚ) * ((y.length - 2 : ℕ) : ℚ)) * w0 i) 0 y (by
      intro i hi
      unfold w2 w0
      rw [mul_one]
      exact mul_le_mul (by exact_mod_cast (by omega : i ≤ y.length - 1)) (by exact_mod_cast (by omega : i - 1 ≤ y.length - 2)) (Nat.cast_nonneg _) n1.le) hy
    rw [wsumQ_smul] at h
    have := mul_le_mul_of_nonneg_right h h0.le
    linarith

end

theorem quot_close {c : ℕ} (hc : c ≤ 2 ^ 20) {x : B64 σ} {a b : ℚ} (hx : ext x = .fin a) (h : Close c a b) (hlo : b = 0 ∨ 1 / 10 ^ 100 ≤ b)
    (hhi : b ≤ 2 ^ 17 * (2 ^ 34 * 10 ^ 100)) {d : ℕ} (hd : 0 < d) (hd2 : d ≤ 2 ^ 53) :
    ∃ r, ext (x / CI.lit (d : ℚ)) = .fin r ∧ Close (c + 1) r (b / d) := by
  have hd' : (0 : ℚ) < d := Nat.cast_pos.2 hd
  have h1d : (1 : ℚ) ≤ d := by exact_mod_cast hd
  have hd2' : (d : ℚ) ≤ 2 ^ 53 := by exact_mod_cast hd2
  refine div_close hx (natlit hd2) h (Close.refl (Nat.cast_nonneg d)) hd' (by omega) ?_ ?_
  · refine hlo.imp id fun hb => ?_
    rw [le_div_iff₀ hd']
    have h1 : (2 : ℚ) ^ (-1000 : ℤ) ≤ 1 / (2 ^ 53 * 10 ^ 100) := by
      have h1 : (2 : ℚ) ^ 53 * 10 ^ 100 ≤ 2 ^ 53 * (2 ^ 4) ^ 100 := mul_le_mul_of_nonneg_left (pow_le_pow_left₀ (by norm_num) (by norm_num) _) (by positivity)
      refine le_trans ?_ (one_div_le_one_div_of_le (by positivity) h1)
      rw [← pow_mul, ← pow_add, one_div, ← zpow_natCast, ← zpow_neg]
      exact zpow_le_zpow_right₀ (by norm_num) (by norm_num)
    have h2 := mul_le_mul h1 hd2' hd'.le (by positivity)
    refine h2.trans (le_trans ?_ hb)
    norm_num
  · refine (div_le_self h.nonneg h1d).trans (small_le (hhi.trans (by norm_num)))

/-- the sums of a sorted sample, divided -/
theorem moments_close {p : List (B64 σ)} {y : List ℚ} (h : List.Forall₂ (fun v q => ext v = .fin q ∧ Amount q) p y) (h4 : 4 ≤ p.length) (hn : p.length ≤ 2 ^ 17) :
    ∃ s0 s1 s2 a0 a1 a2, (p.zipIdx.map (fun q => (q.2 + 1, q.1))).foldl CI.lmomAccStep (CI.lit 0, CI.lit 0, CI.lit 0) = (s0, s1, s2) ∧
      ext (s0 / CI.lit (d0 p.length : ℚ)) = .fin a0 ∧ Close (p.length + 3) a0 (m0 y) ∧
      ext (s1 / CI.lit (d1 p.length : ℚ)) = .fin a1 ∧ Close (p.length + 3) a1 (m1 y) ∧
      ext (s2 / CI.lit (d2 p.length : ℚ)) = .fin a2 ∧ Close (p.length + 3) a2 (m2 y) := by
  have hz : Acc (σ := σ) 0 ((0 : ℕ) * (2 ^ 34 * 10 ^ 100)) (CI.lit 0, CI.lit 0, CI.lit 0) 0 0 0 :=
    ⟨⟨0, ext_lit_zero, Close.refl le_rfl⟩, ⟨0, ext_lit_zero, (Close.refl le_rfl).mono (by omega)⟩, ⟨0, ext_lit_zero, (Close.refl le_rfl).mono (by omega)⟩,
      by simp, by simp, by simp⟩
  obtain ⟨⟨a0, e0, c0⟩, ⟨a1, e1, c1⟩, ⟨a2, e2, c2⟩, l0, l1, l2⟩ := acc_fold h 0 (by omega) _ 0 0 0 hz
  have hlen := h.length_eq
  have hy : ∀ q ∈ y, Amount q := by
    intro q hq
    obtain ⟨i, hi, rfl⟩ := List.getElem_of_mem hq
    exact ((List.forall₂_iff_get.1 h).2 i (by omega) hi).2
  rw [zero_add] at c0 c1 c2 l0 l1 l2
  rw [zero_add] at c0 c1 c2 l0 l1 l2
  have top : ((p.length : ℕ) : ℚ) * (2 ^ 34 * 10 ^ 100) ≤ 2 ^ 17 * (2 ^ 34 * 10 ^ 100) := by
    have : ((p.length : ℕ) : ℚ) ≤ 2 ^ 17 := by exact_mod_cast hn
    exact mul_le_mul_of_nonneg_right this (by positivity)
  have k1 : d1 p.length ≤ 2 ^ 34 := by
    unfold d1
    have := Nat.mul_le_mul hn (by omega : p.length - 1 ≤ 2 ^ 17)
    omega
  have k2 : d2 p.length ≤ 2 ^ 53 := by
    unfold d2
    unfold d1 at k1
    have := Nat.mul_le_mul k1 (by omega : p.length - 2 ≤ 2 ^ 17)
    omega
  obtain ⟨r0, f0, g0⟩ := quot_close (d := d0 p.length) (by omega) e0 c0 (wsumQ_low _ w0_low _ _ hy) (l0.trans top) (by unfold d0; omega) (by unfold d0; omega)
  obtain ⟨r1, f1, g1⟩ := quot_close (d := d1 p.length) (by omega) e1 c1 (wsumQ_low _ w1_low _ _ hy) (l1.trans top)
    (by unfold d1; exact Nat.mul_pos (by omega) (by omega)) (by omega)
  obtain ⟨r2, f2, g2⟩ := quot_close (d := d2 p.length) (by omega) e2 c2 (wsumQ_low _ w2_low _ _ hy) (l2.trans top)
    (by unfold d2; exact Nat.mul_pos (Nat.mul_pos (by omega) (by omega)) (by omega)) k2
  refine ⟨_, _, _, r0, r1, r2, rfl, f0, ?_, f1, ?_, f2, ?_⟩
  · unfold m0; rw [← hlen]; exact g0.mono (by omega)
  · unfold m1; rw [← hlen]; exact g1.mono (by omega)
  · unfold m2; rw [← hlen]; exact g2

/-! ## The combinations of the moments -/

/-- the relative error of a product with an integer: small products are exact -/
theorem rnd_int_rel {x : B64 σ} {a : ℚ} (hx : ext x = .fin a) (k : ℤ) : |rnd (k * a) - k * a| ≤ |(k : ℚ) * a| * unit := by
  by_cases h : (2 : ℚ) ^ (-1022 : ℤ) ≤ |(k : ℚ) * a|
  · exact rnd_rel h
  · have h := not_le.1 h
    obtain ⟨m, rfl⟩ := fin_grid hx
    have e : (k : ℚ) * ((m : ℚ) * 2 ^ (-1074 : ℤ)) = ((k * m : ℤ) : ℚ) * 2 ^ (-1074 : ℤ) := by push_cast; ring
    rw [e] at h ⊢
    generalize k * m = j at h ⊢
    have hp : (0 : ℚ) < 2 ^ (-1074 : ℤ) := zpow_pos (by norm_num) _
    have hk : |(j : ℚ)| < 2 ^ (52 : ℤ) := by
      rw [abs_mul, abs_of_pos hp] at h
      have e2 : (2 : ℚ) ^ (-1022 : ℤ) = 2 ^ (52 : ℤ) * 2 ^ (-1074 : ℤ) := by
        rw [← zpow_add₀ (by norm_num)]; norm_num
      rw [e2] at h
      exact lt_of_mul_lt_mul_right h hp.le
    have hk2 : |j| ≤ 2 ^ 53 := by
      have : |j| < 2 ^ 52 := by exact_mod_cast hk
      omega
    rw [rnd_grid j hk2, sub_self, abs_zero]
    exact mul_nonneg (abs_nonneg _) unit_pos.le

theorem intlit (k : ℤ) (h : |k| ≤ 2 ^ 53) : ext (CI.lit (k : ℚ) : B64 σ) = .fin k := by
  have hb : |(k : ℚ)| ≤ 2 ^ 53 := by exact_mod_cast h
  rw [ext_lit64 _ (below_max (hb.trans (by norm_num)))]
  congr 1
  obtain ⟨j, rfl | rfl⟩ := Int.eq_nat_or_neg k
  · have := rndPos_exact j 0 (by rw [abs_of_nonneg (by omega)] at h; omega) (by norm_num)
    rw [Int.cast_natCast, rnd_of_nonneg (Nat.cast_nonneg j)]
    simpa using this
  · have := rndPos_exact j 0 (by rw [abs_neg, abs_of_nonneg (by omega)] at h; omega) (by norm_num)
    rw [Int.cast_neg, Int.cast_natCast, rnd_neg, rnd_of_nonneg (Nat.cast_nonneg j)]
    simpa using this

/-- `b ± d`, and the bounds that keep it finite -/
theorem int_mul_near {x : B64 σ} {a M : ℚ} (hx : ext x = .fin a) (ha0 : 0 ≤ a) (haM : a ≤ 2 * M) (hM : M ≤ 10 ^ 100) (k : ℤ) (hk : |k| ≤ 6) :
    ∃ r, ext (CI.lit (k : ℚ) * x) = .fin r ∧ |r - k * a| ≤ |(k : ℚ)| * 2 * (M * unit) := by
  have hl := intlit (σ := σ) k (by omega)
  have hk' : |(k : ℚ)| ≤ 6 := by exact_mod_cast hk
  have h1 : |(k : ℚ) * a| ≤ |(k : ℚ)| * (2 * M) := by
    rw [abs_mul, abs_of_nonneg ha0]; exact mul_le_mul_of_nonneg_left haM (abs_nonneg _)
  have h2 : |(k : ℚ)| * (2 * M) ≤ 12 * 10 ^ 100 := by
    have hM0 : 0 ≤ 2 * M := by linarith
    have := mul_le_mul hk' (by linarith : 2 * M ≤ 2 * 10 ^ 100) hM0 (by norm_num)
    linarith
  refine ⟨_, fin_mul hl hx ?_, (rnd_int_rel hx k).trans ?_⟩
  · refine big_le ?_
    rw [two_big]
    have := small_le (h1.trans (h2.trans (by norm_num)))
    have h0 : (0 : ℚ) < 2 ^ (1000 : ℤ) := zpow_pos (by norm_num) _
    generalize (2 : ℚ) ^ (1000 : ℤ) = t at *
    linarith
  · have := mul_le_mul_of_nonneg_right h1 unit_pos.le
    linarith

theorem add_near {x y : B64 σ} {a b B M : ℚ} (hx : ext x = .fin a) (hy : ext y = .fin b) (h : |a + b| ≤ B * M) (hM : B * M ≤ 10 ^ 103) :
    ∃ r, ext (x + y) = .fin r ∧ |r - (a + b)| ≤ B * (M * unit) := by
  refine ⟨_, fin_add hx hy ?_, (rnd_add_rel hx hy).trans ?_⟩
  · refine big_le ?_
    rw [two_big]
    have := small_le (h.trans (hM.trans (by norm_num)))
    have h0 : (0 : ℚ) < 2 ^ (1000 : ℤ) := zpow_pos (by norm_num) _
    generalize (2 : ℚ) ^ (1000 : ℤ) = t at *
    linarith
  · have := mul_le_mul_of_nonneg_right h unit_pos.le
    linarith

/-- the second and third L-moment from the three moments -/
theorem combine {n : ℕ} (hn : n ≤ 2 ^ 17) {x0 x1 x2 : B64 σ} {a0 a1 a2 b0 b1 b2 : ℚ} (h0 : ext x0 = .fin a0) (h1 : ext x1 = .fin a1) (h2 : ext x2 = .fin a2)
    (c0 : Close (n + 3) a0 b0) (c1 : Close (n + 3) a1 b1) (c2 : Close (n + 3) a2 b2) (o1 : b1 ≤ b0) (o2 : b2 ≤ b0) (hM : b0 ≤ 10 ^ 100) :
    (∃ t1, ext (CI.lit (-1) * x0 + CI.lit 2 * x1) = .fin t1 ∧ |t1 - (2 * b1 - b0)| ≤ b0 * ((13 * n + 80) / 2 ^ 52)) ∧
    (∃ t2, ext (CI.lit 1 * x0 + CI.lit (-6) * x1 + CI.lit 6 * x2) = .fin t2 ∧ |t2 - (6 * b2 - 6 * b1 + b0)| ≤ b0 * ((13 * n + 80) / 2 ^ 52)) := by
  have hb0 := c0.nonneg
  have t0 := c0.le_two (by omega)
  have t1 := c1.le_two (by omega)
  have t2 := c2.le_two (by omega)
  have e0 := c0.error (by omega)
  have e1 := c1.error (by omega)
  have e2 := c2.error (by omega)
  have hU : 0 ≤ b0 * unit := mul_nonneg hb0 unit_pos.le
  have hc : (0 : ℚ) ≤ 2 * ((n + 3 : ℕ) : ℚ) * unit := by have := unit_pos; positivity
  have e1' : |a1 - b1| ≤ b0 * (2 * ((n + 3 : ℕ) : ℚ) * unit) := e1.trans (mul_le_mul_of_nonneg_right o1 hc)
  have e2' : |a2 - b2| ≤ b0 * (2 * ((n + 3 : ℕ) : ℚ) * unit) := e2.trans (mul_le_mul_of_nonneg_right o2 hc)
  have eS : ∀ k : ℚ, b0 * (k / 2 ^ 52) = 2 * k * (b0 * unit) := by intro k; unfold unit; ring
  have eC : b0 * (2 * ((n + 3 : ℕ) : ℚ) * unit) = 2 * (n + 3) * (b0 * unit) := by push_cast; ring
  rw [eC] at e0 e1' e2'
  have hUs : b0 * unit ≤ b0 * (1 / 100) := mul_le_mul_of_nonneg_left (by unfold unit; norm_num) hb0
  have hB : ∀ k : ℚ, 0 ≤ k → k ≤ 100 → k * b0 ≤ 10 ^ 103 := by
    intro k hk hk2
    have := mul_le_mul hk2 hM hb0 (by norm_num)
    linarith
  have hnU : 0 ≤ (n : ℚ) * (b0 * unit) := mul_nonneg (Nat.cast_nonneg n) hU
  have hmul : ∀ {x : B64 σ} {a : ℚ}, ext x = .fin a → 0 ≤ a → a ≤ 2 * b0 → ∀ k : ℤ, |k| ≤ 6 →
      ∃ r, ext (CI.lit (k : ℚ) * x) = .fin r ∧ |r - k * a| ≤ |(k : ℚ)| * 2 * (b0 * unit) := fun hx h0 h2 k hk => int_mul_near hx h0 h2 hM k hk
  have q0 : a0 ≤ 2 * b0 := t0.2
  have q1 : a1 ≤ 2 * b0 := by linarith [t1.2]
  have q2 : a2 ≤ 2 * b0 := by linarith [t2.2]
  have p0 := c0.pos
  have p1 := c1.pos
  have p2 := c2.pos
  simp only [eS]
  generalize hGU : b0 * unit = U at *
  constructor
  · obtain ⟨r0, f0, g0⟩ := hmul h0 p0 q0 (-1) (by norm_num)
    obtain ⟨r1, f1, g1⟩ := hmul h1 p1 q1 2 (by norm_num)
    norm_num at f0 f1 g0 g1
    rw [abs_le] at g0 g1
    have hs : |r0 + r1| ≤ 8 * b0 := by rw [abs_le]; constructor <;> linarith
    obtain ⟨t, ft, gt⟩ := add_near f0 f1 hs (hB 8 (by norm_num) (by norm_num))
    rw [hGU] at gt
    refine ⟨t, ft, ?_⟩
    rw [abs_le] at gt e0 e1' ⊢
    constructor <;> linarith
  · obtain ⟨r0, f0, g0⟩ := hmul h0 p0 q0 1 (by norm_num)
    obtain ⟨r1, f1, g1⟩ := hmul h1 p1 q1 (-6) (by norm_num)
    obtain ⟨r2, f2, g2⟩ := hmul h2 p2 q2 6 (by norm_num)
    norm_num at f0 f1 f2 g0 g1 g2
    rw [abs_le] at g0 g1 g2
    have hs : |r0 + r1| ≤ 16 * b0 := by rw [abs_le]; constructor <;> linarith
    obtain ⟨t, ft, gt⟩ := add_near f0 f1 hs (hB 16 (by norm_num) (by norm_num))
    rw [hGU] at gt
    rw [abs_le] at gt
    have hs2 : |t + r2| ≤ 30 * b0 := by rw [abs_le]; constructor <;> linarith
    obtain ⟨v, fv, gv⟩ := add_near ft f2 hs2 (hB 30 (by norm_num) (by norm_num))
    rw [hGU] at gv
    refine ⟨v, fv, ?_⟩
    rw [abs_le] at gv e0 e1' e2' ⊢
    constructor <;> linarith

end CI.B64
