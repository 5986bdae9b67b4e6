import Verif.Model.Lmoments
import Mathlib.Algebra.BigOperators.Module
import Mathlib.Algebra.Order.BigOperators.Group.Finset
import Mathlib.Algebra.BigOperators.Ring.Finset
import Mathlib.Tactic.Ring
import Mathlib.Tactic.Linarith
import Mathlib.Tactic.FieldSimp
import Mathlib.Tactic.LinearCombination
import Mathlib.Data.Real.Basic

/-!
# The L-moment sums in exact arithmetic
-/

namespace CI
open Finset

/-- ascending order -/
noncomputable def sortR (q : List ℝ) : List ℝ := q.insertionSort (· ≤ ·)

theorem sortR_perm (q : List ℝ) : (sortR q).Perm q := List.perm_insertionSort _ q

theorem sortR_length (q : List ℝ) : (sortR q).length = q.length := List.length_insertionSort _ q

theorem sortR_pairwise (q : List ℝ) : (sortR q).Pairwise (· ≤ ·) := List.pairwise_insertionSort _ q

theorem sortR_unique (q r : List ℝ) (h : r.Perm q) (hr : r.Pairwise (· ≤ ·)) : sortR q = r :=
  List.Perm.eq_of_pairwise (fun _ _ _ _ h1 h2 => le_antisymm h1 h2) (sortR_pairwise q) hr ((sortR_perm q).trans h.symm)

theorem sortLe_total (a b : Fl ℝ) : sortLe a b ∨ sortLe b a := by
  unfold sortLe
  by_cases hb : isNan b = true
  · left; simp [hb]
  · by_cases ha : isNan a = true
    · right; simp [ha]
    · rw [FloatLaws.isNan_iff] at ha hb
      rcases FloatLaws.fle_total a b ha hb with h | h
      · left; simp [h]
      · right; simp [h]

theorem sortLe_trans (a b c : Fl ℝ) (h1 : sortLe a b) (h2 : sortLe b c) : sortLe a c := by
  unfold sortLe at *
  simp only [Bool.or_eq_true] at *
  rcases h2 with h2 | h2
  · rcases h1 with h1 | h1
    · exact Or.inl (FloatLaws.fle_trans _ _ _ h1 h2)
    · rw [FloatLaws.isNan_iff] at h1
      rw [h1, FloatLaws.fle_nan_left] at h2
      cases h2
  · exact Or.inr h2

theorem sortLe_antisymm (a b : Fl ℝ) (h1 : sortLe a b) (h2 : sortLe b a) : a = b := by
  unfold sortLe at *
  cases a <;> cases b <;> simp_all [fle, Fl.le, isNan, Fl.isnan]
  exact le_antisymm h1 h2

instance : Std.Total (sortLe : Fl ℝ → Fl ℝ → Prop) := ⟨sortLe_total⟩
instance : IsTrans (Fl ℝ) sortLe := ⟨sortLe_trans⟩

theorem npSort_unique (l r : List (Fl ℝ)) (h : r.Perm l) (hr : r.Pairwise sortLe) : npSort l = r :=
  List.Perm.eq_of_pairwise (fun a b _ _ h1 h2 => sortLe_antisymm a b h1 h2) (List.pairwise_insertionSort _ l) hr
    ((List.perm_insertionSort _ l).trans h.symm)

theorem npSort_perm (l r : List (Fl ℝ)) (h : r.Perm l) : npSort r = npSort l :=
  npSort_unique r _ ((List.perm_insertionSort _ l).trans h.symm) (List.pairwise_insertionSort _ l)

theorem filter_isNan_replicate (l : List (Fl ℝ)) : l.filter (fun v => isNan v) = List.replicate (l.countP (fun v => isNan v)) Fl.nan := by
  rw [List.countP_eq_length_filter, List.eq_replicate_iff]
  refine ⟨rfl, ?_⟩
  intro v hv
  have := (List.mem_filter.1 hv).2
  rwa [FloatLaws.isNan_iff] at this

/-- numpy's sort puts the sorted numbers first and the missing values last -/
theorem npSort_eq (l : List (Fl ℝ)) (q : List ℝ) (h : l.filter (fun v => !isNan v) = q.map Fl.fin) :
    npSort l = (sortR q).map Fl.fin ++ List.replicate (l.countP (fun v => isNan v)) Fl.nan := by
  apply npSort_unique
  · have h1 : ((sortR q).map Fl.fin).Perm (l.filter (fun v => !isNan v)) := by
      rw [h]; exact (sortR_perm q).map _
    rw [← filter_isNan_replicate]
    refine (h1.append_right _).trans ?_
    have := List.filter_append_perm (fun v : Fl ℝ => !isNan v) l
    simpa using this
  · rw [List.pairwise_append]
    refine ⟨?_, ?_, ?_⟩
    · rw [List.pairwise_map]
      refine (sortR_pairwise q).imp ?_
      intro a b hab
      simp [sortLe, hab]
    · rw [List.pairwise_replicate]; right; simp [sortLe]
    · intro a _ b hb
      rw [(List.mem_replicate.1 hb).2]
      simp [sortLe]

/-- `Σ w(k+i) x_i` -/
def wsum (w : Nat → ℝ) : Nat → List ℝ → ℝ
  | _, [] => 0
  | k, a :: l => w k * a + wsum w (k + 1) l

theorem wsum_eq (w : Nat → ℝ) (k : Nat) (l : List ℝ) :
    wsum w k l = ∑ i ∈ range l.length, l.getD i 0 * w (k + i) := by
  induction l generalizing k with
  | nil => simp [wsum]
  | cons a l ih =>
    rw [wsum, ih, List.length_cons, Finset.sum_range_succ']
    simp only [List.getD_cons_succ, List.getD_cons_zero, Nat.add_zero]
    rw [add_comm, mul_comm]
    congr 1
    apply Finset.sum_congr rfl
    intro i _
    congr 2; omega

theorem lmomFold (l : List ℝ) (k : Nat) (a b c : ℝ) :
    (((l.map Fl.fin).zipIdx k).map (fun q => (q.2 + 1, q.1))).foldl lmomAccStep (Fl.fin a, Fl.fin b, Fl.fin c) =
      (Fl.fin (a + wsum (fun _ => 1) k l), Fl.fin (b + wsum (fun i => (i : ℝ)) k l),
        Fl.fin (c + wsum (fun i => (i : ℝ) * ((i : ℝ) - 1)) k l)) := by
  induction l generalizing k a b c with
  | nil => simp [wsum]
  | cons x l ih =>
    rw [List.map_cons, List.zipIdx_cons, List.map_cons, List.foldl_cons]
    have : lmomAccStep (Fl.fin a, Fl.fin b, Fl.fin c) (k + 1, Fl.fin x) =
        (Fl.fin (a + x), Fl.fin (b + k * x), Fl.fin (c + k * (k - 1) * x)) := by
      simp only [lmomAccStep, Fl.lit_def, Fl.fin_mul, Fl.fin_add]
      push_cast
      rw [show x * ((k : ℝ) + 1 - 1) = k * x by ring, show (k : ℝ) * x * ((k : ℝ) + 1 - 2) = k * (k - 1) * x by ring]
    rw [this, ih]
    simp only [wsum]
    rw [show a + (1 * x + wsum (fun _ => 1) (k + 1) l) = a + x + wsum (fun _ => 1) (k + 1) l by ring,
      show ∀ u v w : ℝ, u + (v + w) = u + v + w from fun u v w => by ring,
      show ∀ u v w : ℝ, u + (v + w) = u + v + w from fun u v w => by ring]

/-- `Σ x_i`, `Σ i x_i`, `Σ i (i-1) x_i` over a list numbered from 0 -/
noncomputable def mom0 (x : List ℝ) : ℝ := wsum (fun _ => 1) 0 x
noncomputable def mom1 (x : List ℝ) : ℝ := wsum (fun i => (i : ℝ)) 0 x
noncomputable def mom2 (x : List ℝ) : ℝ := wsum (fun i => (i : ℝ) * ((i : ℝ) - 1)) 0 x

theorem lmomSums_eq (x : List ℝ) (k : Nat) :
    lmomSums (x.map Fl.fin ++ List.replicate k Fl.nan) x.length = (Fl.fin (mom0 x), Fl.fin (mom1 x), Fl.fin (mom2 x)) := by
  unfold lmomSums
  have : (x.map Fl.fin ++ List.replicate k Fl.nan).take x.length = x.map Fl.fin := by
    rw [List.take_append_of_le_length (by simp), List.take_of_length_le (by simp)]
  rw [this]
  have h := lmomFold x 0 0 0 0
  simp only [zero_add] at h
  have h0 : (lit 0 : Fl ℝ) = Fl.fin 0 := by simp [Fl.lit_def]
  rw [h0]
  exact h

/-- first sample L-moment of a sorted sample -/
noncomputable def lam1 (x : List ℝ) : ℝ := mom0 x / x.length
/-- second sample L-moment (L-scale) of a sorted sample -/
noncomputable def lam2 (x : List ℝ) : ℝ := -lam1 x + 2 * (mom1 x / (x.length * (x.length - 1)))
/-- third sample L-moment of a sorted sample -/
noncomputable def lam3 (x : List ℝ) : ℝ :=
  lam1 x - 6 * (mom1 x / (x.length * (x.length - 1))) + 6 * (mom2 x / (x.length * (x.length - 1) * (x.length - 2)))

theorem countP_finite (l : List (Fl ℝ)) (q : List ℝ) (h : l.filter (fun v => !isNan v) = q.map Fl.fin) :
    l.countP (fun v => !isNan v) = q.length := by
  rw [List.countP_eq_length_filter, h, List.length_map]

/-- `_estimate_lmoments` in exact arithmetic -/
theorem estimateLmoments_eq (l : List (Fl ℝ)) (q : List ℝ) (h : l.filter (fun v => !isNan v) = q.map Fl.fin)
    (h4 : 4 ≤ q.length) :
    estimateLmoments l = .ok (if lam2 (sortR q) = 0 then (Fl.fin 0, Fl.fin 0, Fl.fin 0)
      else (Fl.fin (lam1 (sortR q)), Fl.fin (lam2 (sortR q)), Fl.fin (lam3 (sortR q) / lam2 (sortR q)))) := by
  unfold estimateLmoments
  rw [countP_finite l q h, npSort_eq l q h]
  simp only
  rw [if_neg (by omega)]
  have hl := sortR_length q
  rw [← hl] at h4
  rw [← hl, lmomSums_eq]
  generalize sortR q = x at *
  have hn : (4 : ℝ) ≤ (x.length : ℝ) := by exact_mod_cast h4
  have e0 : ((x.length : ℚ) : ℝ) = (x.length : ℝ) := by push_cast; rfl
  have e1 : (((x.length : ℚ) * ((x.length : ℚ) - 1) : ℚ) : ℝ) = (x.length : ℝ) * ((x.length : ℝ) - 1) := by push_cast; rfl
  have e2 : (((x.length : ℚ) * ((x.length : ℚ) - 1) * ((x.length : ℚ) - 2) : ℚ) : ℝ) =
      (x.length : ℝ) * ((x.length : ℝ) - 1) * ((x.length : ℝ) - 2) := by push_cast; rfl
  have n0 : (x.length : ℝ) ≠ 0 := by linarith
  have n1 : (x.length : ℝ) * ((x.length : ℝ) - 1) ≠ 0 := mul_ne_zero n0 (by intro hh; linarith)
  have n2 : (x.length : ℝ) * ((x.length : ℝ) - 1) * ((x.length : ℝ) - 2) ≠ 0 := mul_ne_zero n1 (by intro hh; linarith)
  simp only [Fl.lit_def, e0, e1, e2]
  rw [Fl.fin_div_of_ne _ _ n0, Fl.fin_div_of_ne _ _ n1, Fl.fin_div_of_ne _ _ n2]
  simp only [Fl.fin_mul, Fl.fin_add, Fl.feq_fin, decide_eq_true_eq]
  have t1 : ((-1 : ℚ) : ℝ) * (mom0 x / x.length) + ((2 : ℚ) : ℝ) * (mom1 x / (x.length * (x.length - 1))) = lam2 x := by
    unfold lam2 lam1; push_cast; ring
  have t2 : ((1 : ℚ) : ℝ) * (mom0 x / x.length) + ((-6 : ℚ) : ℝ) * (mom1 x / (x.length * (x.length - 1))) +
      ((6 : ℚ) : ℝ) * (mom2 x / (x.length * (x.length - 1) * (x.length - 2))) = lam3 x := by
    unfold lam3 lam1; push_cast; ring
  rw [t1, t2]
  have z : ((0 : ℚ) : ℝ) = 0 := by simp
  rw [z]
  by_cases hz : lam2 x = 0
  · rw [if_pos hz, if_pos hz]
  · rw [if_neg hz, if_neg hz, Fl.fin_div_of_ne _ _ hz]
    rfl

/-! ## Sums by gaps of the sorted sample -/

/-- gap between consecutive order statistics -/
noncomputable def gap (x : List ℝ) (i : Nat) : ℝ := x.getD (i + 1) 0 - x.getD i 0

theorem gap_nonneg (x : List ℝ) (h : x.Pairwise (· ≤ ·)) (i : Nat) (hi : i < x.length - 1) : 0 ≤ gap x i := by
  unfold gap
  have h1 : i < x.length := by omega
  have h2 : i + 1 < x.length := by omega
  rw [List.getD_eq_getElem?_getD, List.getD_eq_getElem?_getD, List.getElem?_eq_getElem h1, List.getElem?_eq_getElem h2]
  simp only [Option.getD_some]
  have := List.pairwise_iff_getElem.1 h i (i + 1) h1 h2 (by omega)
  linarith

theorem sum_by_gaps (x : List ℝ) (w : Nat → ℝ) (G : Nat → ℝ) (h0 : G 0 = 0) (hs : ∀ k, G (k + 1) = G k + w k)
    (hn : G x.length = 0) :
    ∑ i ∈ range x.length, x.getD i 0 * w i = ∑ i ∈ range (x.length - 1), gap x i * (-G (i + 1)) := by
  have hG : ∀ k, ∑ i ∈ range k, w i = G k := by
    intro k
    induction k with
    | zero => simp [h0]
    | succ k ih => rw [Finset.sum_range_succ, ih, hs]
  have := Finset.sum_range_by_parts (fun i => x.getD i 0) w x.length
  simp only [smul_eq_mul, hG, hn, mul_zero, zero_sub] at this
  rw [this, ← Finset.sum_neg_distrib]
  apply Finset.sum_congr rfl
  intro i _
  unfold gap
  ring

theorem mom_lin (x : List ℝ) (a b c : ℝ) : a * mom0 x + b * mom1 x + c * mom2 x =
    ∑ i ∈ range x.length, x.getD i 0 * (a + b * (i : ℝ) + c * ((i : ℝ) * ((i : ℝ) - 1))) := by
  unfold mom0 mom1 mom2
  rw [wsum_eq, wsum_eq, wsum_eq, Finset.mul_sum, Finset.mul_sum, Finset.mul_sum, ← Finset.sum_add_distrib,
    ← Finset.sum_add_distrib]
  apply Finset.sum_congr rfl
  intro i _
  simp only [Nat.zero_add]
  ring

variable (x : List ℝ)

theorem lam2_gaps (h : 4 ≤ x.length) : lam2 x * (x.length * (x.length - 1)) =
    ∑ i ∈ range (x.length - 1), gap x i * (((i + 1 : ℕ) : ℝ) * ((x.length : ℝ) - ((i + 1 : ℕ) : ℝ))) := by
  have hn : (4 : ℝ) ≤ (x.length : ℝ) := by exact_mod_cast h
  have n0 : (x.length : ℝ) ≠ 0 := by linarith
  have n1 : (x.length : ℝ) - 1 ≠ 0 := by intro hh; linarith
  have e : lam2 x * (x.length * (x.length - 1)) = -((x.length : ℝ) - 1) * mom0 x + 2 * mom1 x + 0 * mom2 x := by
    unfold lam2 lam1; field_simp; ring
  rw [e, mom_lin, sum_by_gaps x _ (fun k => -((k : ℝ) * ((x.length : ℝ) - (k : ℝ)))) (by simp) (by intro k; push_cast; ring) (by simp)]
  simp only [neg_neg]

theorem lam23_gaps (h : 4 ≤ x.length) : (lam2 x + lam3 x) * (x.length * (x.length - 1) * (x.length - 2)) =
    ∑ i ∈ range (x.length - 1), gap x i * (2 * ((i + 1 : ℕ) : ℝ) * (i : ℝ) * ((x.length : ℝ) - ((i + 1 : ℕ) : ℝ))) := by
  have hn : (4 : ℝ) ≤ (x.length : ℝ) := by exact_mod_cast h
  have n0 : (x.length : ℝ) ≠ 0 := by linarith
  have n1 : (x.length : ℝ) - 1 ≠ 0 := by intro hh; linarith
  have n2 : (x.length : ℝ) - 2 ≠ 0 := by intro hh; linarith
  have e : (lam2 x + lam3 x) * (x.length * (x.length - 1) * (x.length - 2)) =
      0 * mom0 x + (-4 * ((x.length : ℝ) - 2)) * mom1 x + 6 * mom2 x := by
    unfold lam2 lam3 lam1; field_simp; ring
  rw [e, mom_lin, sum_by_gaps x _ (fun k => -(2 * (k : ℝ) * ((k : ℝ) - 1) * ((x.length : ℝ) - (k : ℝ)))) (by simp)
    (by intro k; push_cast; ring) (by simp)]
  apply Finset.sum_congr rfl
  intro i _
  push_cast; ring

theorem lam2m3_gaps (h : 4 ≤ x.length) : (lam2 x - lam3 x) * (x.length * (x.length - 1) * (x.length - 2)) =
    ∑ i ∈ range (x.length - 1), gap x i * (2 * ((i + 1 : ℕ) : ℝ) * ((x.length : ℝ) - ((i + 1 : ℕ) : ℝ)) *
      ((x.length : ℝ) - ((i + 1 : ℕ) : ℝ) - 1)) := by
  have hn : (4 : ℝ) ≤ (x.length : ℝ) := by exact_mod_cast h
  have n0 : (x.length : ℝ) ≠ 0 := by linarith
  have n1 : (x.length : ℝ) - 1 ≠ 0 := by intro hh; linarith
  have n2 : (x.length : ℝ) - 2 ≠ 0 := by intro hh; linarith
  have e : (lam2 x - lam3 x) * (x.length * (x.length - 1) * (x.length - 2)) =
      (-2 * ((x.length : ℝ) - 1) * ((x.length : ℝ) - 2)) * mom0 x + (8 * ((x.length : ℝ) - 2)) * mom1 x + (-6) * mom2 x := by
    unfold lam2 lam3 lam1; field_simp; ring
  rw [e, mom_lin, sum_by_gaps x _ (fun k => -(2 * (k : ℝ) * ((x.length : ℝ) - (k : ℝ)) * ((x.length : ℝ) - (k : ℝ) - 1))) (by simp)
    (by intro k; push_cast; ring) (by simp)]
  simp only [neg_neg]

variable {x}

theorem gap_coeff (h : 4 ≤ x.length) (i : Nat) (hi : i < x.length - 1) :
    1 ≤ ((i + 1 : ℕ) : ℝ) ∧ 1 ≤ (x.length : ℝ) - ((i + 1 : ℕ) : ℝ) := by
  constructor
  · push_cast; have : (0 : ℝ) ≤ i := Nat.cast_nonneg i; linarith
  · have : ((i + 1 : ℕ) : ℝ) + 1 ≤ (x.length : ℝ) := by exact_mod_cast (by omega)
    linarith

theorem denom_pos (h : 4 ≤ x.length) : 0 < (x.length : ℝ) * (x.length - 1) ∧ 0 < (x.length : ℝ) * (x.length - 1) * (x.length - 2) := by
  have hn : (4 : ℝ) ≤ (x.length : ℝ) := by exact_mod_cast h
  have h1 : 0 < (x.length : ℝ) * (x.length - 1) := mul_pos (by linarith) (by linarith)
  exact ⟨h1, mul_pos h1 (by linarith)⟩

theorem lam2_nonneg (h : 4 ≤ x.length) (hs : x.Pairwise (· ≤ ·)) :
    0 ≤ lam2 x ∧ (lam2 x = 0 ↔ ∀ i, i < x.length - 1 → gap x i = 0) := by
  have hg := lam2_gaps x h
  have hd := (denom_pos h).1
  have hc : ∀ i ∈ range (x.length - 1), 0 ≤ gap x i * (((i + 1 : ℕ) : ℝ) * ((x.length : ℝ) - ((i + 1 : ℕ) : ℝ))) := by
    intro i hi
    obtain ⟨h1, h2⟩ := gap_coeff h i (mem_range.1 hi)
    exact mul_nonneg (gap_nonneg x hs i (mem_range.1 hi)) (mul_nonneg (by linarith) (by linarith))
  constructor
  · have := Finset.sum_nonneg hc
    rw [← hg] at this
    exact nonneg_of_mul_nonneg_left this hd
  · constructor
    · intro h0 i hi
      rw [h0, zero_mul] at hg
      have := (Finset.sum_eq_zero_iff_of_nonneg hc).1 hg.symm i (mem_range.2 hi)
      obtain ⟨h1, h2⟩ := gap_coeff h i hi
      rcases mul_eq_zero.1 this with h | h
      · exact h
      · rcases mul_eq_zero.1 h with h | h <;> linarith
    · intro hz
      have : lam2 x * (x.length * (x.length - 1)) = 0 := by
        rw [hg]
        apply Finset.sum_eq_zero
        intro i hi
        rw [hz i (mem_range.1 hi), zero_mul]
      rcases mul_eq_zero.1 this with h | h
      · exact h
      · linarith

theorem lam23_nonneg (h : 4 ≤ x.length) (hs : x.Pairwise (· ≤ ·)) :
    0 ≤ lam2 x + lam3 x ∧ (lam2 x + lam3 x = 0 ↔ ∀ i, 1 ≤ i → i < x.length - 1 → gap x i = 0) := by
  have hg := lam23_gaps x h
  have hd := (denom_pos h).2
  have hc : ∀ i ∈ range (x.length - 1), 0 ≤ gap x i * (2 * ((i + 1 : ℕ) : ℝ) * (i : ℝ) * ((x.length : ℝ) - ((i + 1 : ℕ) : ℝ))) := by
    intro i hi
    obtain ⟨h1, h2⟩ := gap_coeff h i (mem_range.1 hi)
    have h3 : (0 : ℝ) ≤ i := Nat.cast_nonneg i
    exact mul_nonneg (gap_nonneg x hs i (mem_range.1 hi)) (mul_nonneg (mul_nonneg (by linarith) h3) (by linarith))
  constructor
  · have := Finset.sum_nonneg hc
    rw [← hg] at this
    exact nonneg_of_mul_nonneg_left this hd
  · constructor
    · intro h0 i hi1 hi
      rw [h0, zero_mul] at hg
      have := (Finset.sum_eq_zero_iff_of_nonneg hc).1 hg.symm i (mem_range.2 hi)
      obtain ⟨h1, h2⟩ := gap_coeff h i hi
      have h3 : (1 : ℝ) ≤ i := by exact_mod_cast hi1
      rcases mul_eq_zero.1 this with h | h
      · exact h
      · exfalso
        have : 0 < 2 * ((i + 1 : ℕ) : ℝ) * (i : ℝ) * ((x.length : ℝ) - ((i + 1 : ℕ) : ℝ)) :=
          mul_pos (mul_pos (by linarith) (by linarith)) (by linarith)
        linarith
    · intro hz
      have : (lam2 x + lam3 x) * (x.length * (x.length - 1) * (x.length - 2)) = 0 := by
        rw [hg]
        apply Finset.sum_eq_zero
        intro i hi
        by_cases hi1 : 1 ≤ i
        · rw [hz i hi1 (mem_range.1 hi), zero_mul]
        · have : i = 0 := by omega
          subst this; simp
      rcases mul_eq_zero.1 this with h | h
      · exact h
      · linarith

theorem lam2m3_nonneg (h : 4 ≤ x.length) (hs : x.Pairwise (· ≤ ·)) :
    0 ≤ lam2 x - lam3 x ∧ (lam2 x - lam3 x = 0 ↔ ∀ i, i < x.length - 2 → gap x i = 0) := by
  have hg := lam2m3_gaps x h
  have hd := (denom_pos h).2
  have hc : ∀ i ∈ range (x.length - 1), 0 ≤ gap x i * (2 * ((i + 1 : ℕ) : ℝ) * ((x.length : ℝ) - ((i + 1 : ℕ) : ℝ)) *
      ((x.length : ℝ) - ((i + 1 : ℕ) : ℝ) - 1)) := by
    intro i hi
    obtain ⟨h1, h2⟩ := gap_coeff h i (mem_range.1 hi)
    exact mul_nonneg (gap_nonneg x hs i (mem_range.1 hi)) (mul_nonneg (mul_nonneg (by linarith) (by linarith)) (by linarith))
  constructor
  · have := Finset.sum_nonneg hc
    rw [← hg] at this
    exact nonneg_of_mul_nonneg_left this hd
  · constructor
    · intro h0 i hi
      rw [h0, zero_mul] at hg
      have := (Finset.sum_eq_zero_iff_of_nonneg hc).1 hg.symm i (mem_range.2 (by omega))
      obtain ⟨h1, h2⟩ := gap_coeff h i (by omega)
      have h3 : (2 : ℝ) ≤ (x.length : ℝ) - ((i + 1 : ℕ) : ℝ) := by
        have : ((i + 1 : ℕ) : ℝ) + 2 ≤ (x.length : ℝ) := by exact_mod_cast (by omega)
        linarith
      rcases mul_eq_zero.1 this with h | h
      · exact h
      · exfalso
        have : 0 < 2 * ((i + 1 : ℕ) : ℝ) * ((x.length : ℝ) - ((i + 1 : ℕ) : ℝ)) * ((x.length : ℝ) - ((i + 1 : ℕ) : ℝ) - 1) :=
          mul_pos (mul_pos (by linarith) (by linarith)) (by linarith)
        linarith
    · intro hz
      have : (lam2 x - lam3 x) * (x.length * (x.length - 1) * (x.length - 2)) = 0 := by
        rw [hg]
        apply Finset.sum_eq_zero
        intro i hi
        have hi := mem_range.1 hi
        by_cases hi1 : i < x.length - 2
        · rw [hz i hi1, zero_mul]
        · have e : i + 1 + 1 = x.length := by omega
          have : (x.length : ℝ) - ((i + 1 : ℕ) : ℝ) - 1 = 0 := by rw [← e]; push_cast; ring
          rw [this]; ring
      rcases mul_eq_zero.1 this with h | h
      · exact h
      · linarith

end CI
