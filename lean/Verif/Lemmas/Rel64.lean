import Verif.Lemmas.Near64
import Verif.Model.Indices
import Verif.Lemmas.Compute

/-!
# A computation in binary64 beside the same computation in exact arithmetic
-/

namespace CI.B64
open Round
variable {σ : SumOrder}

/-- both missing, or both numbers: `y` exact, not negative, zero or at least `lo`, at most `hi`, and `x` equal to it up to `c` rounding errors -/
def Near (c : ℕ) (lo hi : ℚ) (x : B64 σ) (y : Fl ℚ) : Prop :=
  (x = .nan ∧ y = .nan) ∨ ∃ a b, ext x = .fin a ∧ y = .fin b ∧ Close c a b ∧ (b = 0 ∨ lo ≤ b) ∧ b ≤ hi

theorem Near.mono {c c' : ℕ} {lo lo' hi hi' : ℚ} {x : B64 σ} {y : Fl ℚ} (h : Near c lo hi x y) (h1 : c ≤ c') (h2 : lo' ≤ lo) (h3 : hi ≤ hi') :
    Near c' lo' hi' x y := by
  rcases h with h | ⟨a, b, ha, hb, hc, hl, hh⟩
  · exact Or.inl h
  · exact Or.inr ⟨a, b, ha, hb, hc.mono h1, hl.imp id (fun h => h2.trans h), hh.trans h3⟩

theorem Near.isNan {c : ℕ} {lo hi : ℚ} {x : B64 σ} {y : Fl ℚ} (h : Near c lo hi x y) : CI.isNan x = CI.isNan y := by
  rcases h with ⟨rfl, rfl⟩ | ⟨a, b, ha, rfl, _⟩
  · rfl
  · cases x with
    | nan => cases ha
    | inf s => cases s <;> cases ha
    | fin s m h => rfl

/-- a product, if not too small or too large -/
theorem mul_close {c d : ℕ} {x y : B64 σ} {a b a' b' : ℚ} (hx : ext x = .fin a) (hy : ext y = .fin a') (h : Close c a b) (h' : Close d a' b')
    (hcd : c + d ≤ 2 ^ 51) (hlo : b * b' = 0 ∨ (2 : ℚ) ^ (-1000 : ℤ) ≤ b * b') (hhi : b * b' ≤ 2 ^ (1000 : ℤ)) :
    ∃ r, ext (x * y) = .fin r ∧ Close (c + d + 1) r (b * b') := by
  have hm := h.mul h'
  have ht := hm.le_two hcd
  refine ⟨rnd (a * a'), fin_mul hx hy ?_, hm.round ?_⟩
  · rw [abs_of_nonneg hm.pos]; refine big_le ?_; rw [two_big]; linarith
  · rcases hlo with h0 | h0
    · rw [hm.eq_zero.2 h0, rnd_zero]; simp
    · refine rnd_rel ?_
      rw [abs_of_nonneg hm.pos]
      refine le_trans ?_ ht.1
      rw [le_div_iff₀ (by norm_num)]
      refine le_trans ?_ h0
      have : (2 : ℚ) ^ (-1022 : ℤ) * 2 = 2 ^ (-1021 : ℤ) := by
        rw [show (-1021 : ℤ) = -1022 + 1 by norm_num, zpow_add₀ (by norm_num), zpow_one]
      rw [this]
      exact zpow_le_zpow_right₀ (by norm_num) (by norm_num)

/-- a quotient, if not too small or too large -/
theorem div_close {c d : ℕ} {x y : B64 σ} {a b a' b' : ℚ} (hx : ext x = .fin a) (hy : ext y = .fin a') (h : Close c a b) (h' : Close d a' b')
    (hb' : 0 < b') (hcd : c + 2 * d ≤ 2 ^ 51) (hlo : b = 0 ∨ (2 : ℚ) ^ (-1000 : ℤ) ≤ b / b') (hhi : b / b' ≤ 2 ^ (1000 : ℤ)) :
    ∃ r, ext (x / y) = .fin r ∧ Close (c + 2 * d + 1) r (b / b') := by
  have hm := h.div h' hb'
  have ht := hm.le_two hcd
  refine ⟨rnd (a / a'), fin_div hx hy (h'.pos_iff.2 hb').ne' ?_, hm.round ?_⟩
  · rw [abs_of_nonneg hm.pos]; refine big_le ?_; rw [two_big]; linarith
  · rcases hlo with h0 | h0
    · rw [hm.eq_zero.2 (by rw [h0, zero_div]), rnd_zero]; simp
    · refine rnd_rel ?_
      rw [abs_of_nonneg hm.pos]
      refine le_trans ?_ ht.1
      rw [le_div_iff₀ (by norm_num)]
      refine le_trans ?_ h0
      have : (2 : ℚ) ^ (-1022 : ℤ) * 2 = 2 ^ (-1021 : ℤ) := by
        rw [show (-1021 : ℤ) = -1022 + 1 by norm_num, zpow_add₀ (by norm_num), zpow_one]
      rw [this]
      exact zpow_le_zpow_right₀ (by norm_num) (by norm_num)

/-- lists of numbers -/
theorem near_split {c : ℕ} {lo hi : ℚ} {l : List (B64 σ)} {m : List (Fl ℚ)} (h : List.Forall₂ (Near c lo hi) l m) :
    ((.nan : B64 σ) ∈ l ∧ (.nan : Fl ℚ) ∈ m) ∨
      ∃ v : List ℚ, m = v.map Fl.fin ∧ List.Forall₂ (fun x b => ∃ a, ext x = .fin a ∧ Close c a b) l v ∧ ∀ b ∈ v, (b = 0 ∨ lo ≤ b) ∧ b ≤ hi ∧ 0 ≤ b := by
  induction h with
  | nil => exact Or.inr ⟨[], rfl, .nil, by simp⟩
  | cons hxy _ ih =>
    rcases hxy with ⟨rfl, rfl⟩ | ⟨a, b, ha, rfl, hc, hl, hh⟩
    · exact Or.inl ⟨by simp, by simp⟩
    · rcases ih with ⟨h1, h2⟩ | ⟨v, rfl, h2, h3⟩
      · exact Or.inl ⟨List.mem_cons_of_mem _ h1, List.mem_cons_of_mem _ h2⟩
      · refine Or.inr ⟨b :: v, rfl, .cons ⟨a, ha, hc⟩ h2, ?_⟩
        intro q hq
        rcases List.mem_cons.1 hq with rfl | hq
        · exact ⟨hl, hh, hc.nonneg⟩
        · exact h3 q hq

theorem sum_bounds {lo hi : ℚ} (v : List ℚ) (h : ∀ b ∈ v, (b = 0 ∨ lo ≤ b) ∧ b ≤ hi ∧ 0 ≤ b) : (v.sum = 0 ∨ lo ≤ v.sum) ∧ v.sum ≤ v.length * hi ∧ 0 ≤ v.sum := by
  induction v with
  | nil => simp
  | cons b v ih =>
    obtain ⟨h1, h2, h3⟩ := ih fun q hq => h q (List.mem_cons_of_mem _ hq)
    obtain ⟨g1, g2, g3⟩ := h b (by simp)
    rw [List.sum_cons, List.length_cons]
    refine ⟨?_, by push_cast; linarith, by linarith⟩
    rcases g1 with g | g
    · rw [g, zero_add]; exact h1
    · right; linarith

/-- sums in any order, missing if a value is missing -/
theorem fsum_near {c : ℕ} {lo hi : ℚ} {l : List (B64 σ)} {m : List (Fl ℚ)} (h : List.Forall₂ (Near c lo hi) l m) (hhi : l.length * hi ≤ 2 ^ (1000 : ℤ))
    (hc : c + l.length ≤ 2 ^ 51) : Near (c + l.length) lo (l.length * hi) (fsum l) (fsum m) := by
  rcases near_split h with ⟨h1, h2⟩ | ⟨v, rfl, h2, h3⟩
  · exact Or.inl ⟨FloatLaws.fsum_nan l h1, FloatLaws.fsum_nan m h2⟩
  · obtain ⟨s1, s2, s3⟩ := sum_bounds v h3
    rw [← h2.length_eq] at s2
    obtain ⟨a, ha, hca⟩ := fsum_close l v c h2 (s2.trans hhi) hc
    exact Or.inr ⟨a, v.sum, ha, Fl.fsum_fin v, hca, s1, s2⟩

end CI.B64
