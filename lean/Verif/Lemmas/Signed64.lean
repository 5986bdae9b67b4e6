import Verif.Lemmas.Lmoments64
import Verif.Lemmas.Drift64
import Verif.Model.Compute

/-!
# Sums and means of numbers of both signs in binary64

The error of a sum in any order of additions, relative to the sum of the sizes of the numbers, and the error of `nanmean`.
-/

namespace CI.B64
open CI

variable {σ : SumOrder}

/-- the error of a sum over a tree of additions -/
theorem evalTree_abs (l : List (B64 σ)) (v : ℕ → ℚ) (t : SumTree) (hl : ∀ i ∈ t.leaves, ∃ x, l[i]? = some x ∧ ext x = .fin (v i))
    (hb : leafSum (fun i => |v i|) t ≤ 2 ^ (1000 : ℤ)) (hc : t.leaves.length ≤ 2 ^ 51) :
    ∃ a, ext (evalTree l t) = .fin a ∧ |a - leafSum v t| ≤ leafSum (fun i => |v i|) t * ((1 + unit) ^ t.leaves.length - 1) ∧ (t.leaves = [] → a = 0) := by
  induction t with
  | zero => exact ⟨0, by simp [evalTree, ext, val], by simp [leafSum, SumTree.leaves], fun _ => rfl⟩
  | leaf i =>
    obtain ⟨x, h1, h2⟩ := hl i (by simp [SumTree.leaves])
    refine ⟨v i, by simp [evalTree, h1, h2], ?_, by simp [SumTree.leaves]⟩
    have e1 : leafSum v (.leaf i) = v i := by simp [leafSum, SumTree.leaves]
    have e2 : leafSum (fun i => |v i|) (.leaf i) = |v i| := by simp [leafSum, SumTree.leaves]
    rw [e1, e2, sub_self, abs_zero]
    have : (SumTree.leaf i).leaves.length = 1 := rfl
    rw [this, pow_one]
    exact mul_nonneg (abs_nonneg _) (by linarith [unit_pos])
  | node p q ihp ihq =>
    have hs : ∀ w : ℕ → ℚ, leafSum w (.node p q) = leafSum w p + leafSum w q := fun w => by simp [leafSum, SumTree.leaves]
    have hlp : ∀ i ∈ p.leaves, ∃ x, l[i]? = some x ∧ ext x = .fin (v i) := fun i hi => hl i (List.mem_append_left _ hi)
    have hlq : ∀ i ∈ q.leaves, ∃ x, l[i]? = some x ∧ ext x = .fin (v i) := fun i hi => hl i (List.mem_append_right _ hi)
    have np : 0 ≤ leafSum (fun i => |v i|) p := leafSum_nonneg _ p fun i _ => abs_nonneg _
    have nq : 0 ≤ leafSum (fun i => |v i|) q := leafSum_nonneg _ q fun i _ => abs_nonneg _
    have hlen : (SumTree.node p q).leaves.length = p.leaves.length + q.leaves.length := by simp [SumTree.leaves]
    have hsize : ∀ t, |leafSum v t| ≤ leafSum (fun i => |v i|) t := by
      intro t
      unfold leafSum
      induction t.leaves with
      | nil => simp
      | cons i r ih =>
        rw [List.map_cons, List.map_cons, List.sum_cons, List.sum_cons]
        exact (abs_add_le _ _).trans (by linarith)
    rw [hs] at hb ⊢
    rw [hs]
    rw [hlen] at hc ⊢
    obtain ⟨a, ha, hca, hza⟩ := ihp hlp (by linarith) (by omega)
    obtain ⟨b, hb', hcb, hzb⟩ := ihq hlq (by linarith) (by omega)
    have sp := hsize p
    have sq := hsize q
    set P := leafSum (fun i => |v i|) p
    set Q := leafSum (fun i => |v i|) q
    have up : ∀ n, n ≤ 2 ^ 51 → (1 + unit) ^ n - 1 ≤ 1 := by
      intro n hn
      have h1 := up_le n hn
      have h2 := count_unit n hn
      linarith
    have t1 : |a| ≤ 2 * P := by
      have h1 := abs_sub_abs_le_abs_sub a (leafSum v p)
      have h2 := mul_le_mul_of_nonneg_left (up p.leaves.length (by omega)) np
      linarith
    have t2 : |b| ≤ 2 * Q := by
      have h1 := abs_sub_abs_le_abs_sub b (leafSum v q)
      have h2 := mul_le_mul_of_nonneg_left (up q.leaves.length (by omega)) nq
      linarith
    have hsum : ext (evalTree l (.node p q)) = .fin (rnd (a + b)) := by
      refine fin_add ha hb' ?_
      refine (abs_add_le a b).trans (big_le ?_)
      rw [two_big]
      linarith
    by_cases ep : p.leaves = []
    · have : a = 0 := hza ep
      subst this
      rw [zero_add, rnd_fin hb'] at hsum
      have e0 : leafSum v p = 0 := by simp [leafSum, ep]
      have e1 : P = 0 := by simp [P, leafSum, ep]
      refine ⟨b, hsum, ?_, ?_⟩
      · rw [e0, e1, zero_add, zero_add, ep, List.length_nil, zero_add]; exact hcb
      · intro e
        exact hzb (by simpa [SumTree.leaves, ep] using e)
    · by_cases eq : q.leaves = []
      · have : b = 0 := hzb eq
        subst this
        rw [add_zero, rnd_fin ha] at hsum
        have e0 : leafSum v q = 0 := by simp [leafSum, eq]
        have e1 : Q = 0 := by simp [Q, leafSum, eq]
        refine ⟨a, hsum, ?_, ?_⟩
        · rw [e0, e1, add_zero, add_zero, eq, List.length_nil, add_zero]; exact hca
        · intro e
          exact absurd (by simpa [SumTree.leaves, eq] using e) ep
      · refine ⟨rnd (a + b), hsum, ?_, ?_⟩
        · have lp : 0 < p.leaves.length := List.length_pos_iff.2 ep
          have lq : 0 < q.leaves.length := List.length_pos_iff.2 eq
          obtain ⟨n, hn⟩ : ∃ n, p.leaves.length + q.leaves.length = n + 1 := ⟨p.leaves.length + q.leaves.length - 1, by omega⟩
          rw [hn]
          have u1 := mul_le_mul_of_nonneg_left (pow_up (by omega : p.leaves.length ≤ n)) np
          have u2 := mul_le_mul_of_nonneg_left (pow_up (by omega : q.leaves.length ≤ n)) nq
          have hd : |a + b - (leafSum v p + leafSum v q)| ≤ (P + Q) * ((1 + unit) ^ n - 1) := by
            have := abs_add_le (a - leafSum v p) (b - leafSum v q)
            rw [show a - leafSum v p + (b - leafSum v q) = a + b - (leafSum v p + leafSum v q) by ring] at this
            nlinarith
          have hz : |a + b| ≤ (P + Q) * (1 + unit) ^ n := by
            have h1 := abs_sub_abs_le_abs_sub (a + b) (leafSum v p + leafSum v q)
            have h2 := abs_add_le (leafSum v p) (leafSum v q)
            linarith
          have hr := rnd_add_rel ha hb'
          have h3 := abs_add_le (rnd (a + b) - (a + b)) (a + b - (leafSum v p + leafSum v q))
          rw [sub_add_sub_cancel] at h3
          have h4 := mul_le_mul_of_nonneg_right hz unit_pos.le
          rw [pow_succ]
          linarith
        · intro e
          exact absurd (by simpa [SumTree.leaves, ep] using e) ep

/-- the error of a sum of numbers of both signs, in any order of additions -/
theorem fsum_abs (l : List (B64 σ)) (v : List ℚ) (B : ℚ) (hl : List.Forall₂ (fun x b => ext x = .fin b) l v) (hB : ∀ b ∈ v, |b| ≤ B)
    (hb : l.length * B ≤ 2 ^ (1000 : ℤ)) (hc : l.length ≤ 2 ^ 51) : ∃ a, ext (fsum l) = .fin a ∧ |a - v.sum| ≤ l.length * B * (2 * l.length * unit) := by
  have hp := σ.once l.length
  have hlen : (σ.tree l.length).leaves.length = l.length := by rw [hp.length_eq, List.length_range]
  have hlv := hl.length_eq
  have hsum : ∀ g : ℚ → ℚ, leafSum (fun i => g (v.getD i 0)) (σ.tree l.length) = (v.map g).sum := by
    intro g
    unfold leafSum
    rw [(hp.map _).sum_eq, hlv]
    have e : (List.range v.length).map (fun i => g (v.getD i 0)) = v.map g := by
      apply List.ext_getElem
      · simp
      · intro i h1 h2
        have : i < v.length := by simpa using h2
        simp [List.getD_eq_getElem?_getD, this]
    rw [e]
  have habs : (v.map (fun b => |b|)).sum ≤ l.length * B := by
    have := List.sum_le_card_nsmul (v.map (fun b => |b|)) B (by
      intro b hb
      obtain ⟨c, hc, rfl⟩ := List.mem_map.1 hb
      exact hB c hc)
    rw [List.length_map, nsmul_eq_mul, ← hlv] at this
    exact this
  have key := evalTree_abs l (fun i => v.getD i 0) (σ.tree l.length) (by
    intro i hi
    have hi : i < l.length := List.mem_range.1 (hp.mem_iff.1 hi)
    have hi' : i < v.length := by omega
    have h1 := (List.forall₂_iff_get.1 hl).2 i hi hi'
    refine ⟨l[i], List.getElem?_eq_getElem hi, ?_⟩
    show _ = Fl.fin (v.getD i 0)
    rw [List.getD_eq_getElem?_getD, List.getElem?_eq_getElem hi']
    simpa using h1) (by rw [hsum (fun b => |b|)]; exact habs.trans hb) (by rw [hlen]; exact hc)
  obtain ⟨a, h1, h2, _⟩ := key
  have e := hsum id
  simp only [id] at e
  rw [hsum (fun b => |b|), hlen, e, List.map_id] at h2
  refine ⟨a, h1, h2.trans ?_⟩
  have h0 : 0 ≤ (v.map (fun b => |b|)).sum := List.sum_nonneg (by
    intro b hb
    obtain ⟨c, _, rfl⟩ := List.mem_map.1 hb
    exact abs_nonneg c)
  have h3 : (1 + unit) ^ l.length - 1 ≤ 2 * l.length * unit := by linarith [up_le l.length hc]
  have h4 : 0 ≤ 2 * (l.length : ℚ) * unit := mul_nonneg (mul_nonneg (by norm_num) (Nat.cast_nonneg _)) unit_pos.le
  exact (mul_le_mul_of_nonneg_left h3 h0).trans (mul_le_mul_of_nonneg_right habs h4)

/-- the error of a mean of numbers of size at most `B` -/
theorem nanmean_abs {l p : List (B64 σ)} {v : List ℚ} {B : ℚ} (hp : l.filter (fun x => !isNan x) = p) (hl : List.Forall₂ (fun x b => ext x = .fin b) p v) (hne : v ≠ [])
    (hB : ∀ b ∈ v, |b| ≤ B) (h1 : 1 ≤ B) (h2 : B ≤ 2 ^ 40) (hn : p.length ≤ 2 ^ 40) :
    ∃ r, ext (nanmean l) = .fin r ∧ |r - v.sum / v.length| ≤ B * ((2 * v.length + 3) * unit) := by
  have hlv := hl.length_eq
  have hpos : 0 < v.length := List.length_pos_iff.2 hne
  have hq : (0 : ℚ) < v.length := by exact_mod_cast hpos
  have hn' : (v.length : ℚ) ≤ 2 ^ 40 := by rw [← hlv]; exact_mod_cast hn
  have hbig : (v.length : ℚ) * B ≤ 2 ^ 80 := by
    refine (mul_le_mul hn' h2 (by linarith) (by positivity)).trans (by norm_num)
  have h80 : (2 : ℚ) ^ 80 ≤ 2 ^ (1000 : ℤ) := by
    rw [← zpow_natCast]
    exact zpow_le_zpow_right₀ (by norm_num) (by norm_num)
  obtain ⟨a, ha, hea⟩ := fsum_abs p v B hl hB (by rw [hlv]; exact hbig.trans h80) (hn.trans (by norm_num))
  rw [hlv] at hea
  have hlit : ext (lit (v.length : ℚ) : B64 σ) = .fin v.length := natlit (by rw [← hlv]; exact hn.trans (by norm_num))
  have hmean : nanmean l = fsum p / lit v.length := by
    unfold nanmean
    simp only [hp]
    rw [if_neg (by rw [List.isEmpty_iff]; intro h; rw [h] at hlv; simp at hlv; omega), hlv]
  have hsum : |v.sum| ≤ v.length * B := by
    have : ∀ w : List ℚ, (∀ b ∈ w, |b| ≤ B) → |w.sum| ≤ w.length * B := by
      intro w hw
      induction w with
      | nil => simp
      | cons b w ih =>
        rw [List.sum_cons, List.length_cons]
        have h3 := ih fun c hc => hw c (List.mem_cons_of_mem _ hc)
        have h4 := hw b (by simp)
        push_cast
        exact (abs_add_le _ _).trans (by linarith)
    exact this v hB
  have hnu : (v.length : ℚ) * unit ≤ 1 / 2 ^ 13 := by
    have := mul_le_mul_of_nonneg_right hn' unit_pos.le
    refine this.trans ?_
    unfold unit; norm_num
  have hdiff : |a / v.length - v.sum / v.length| ≤ B * (2 * v.length * unit) := by
    rw [← sub_div, abs_div, abs_of_pos hq, div_le_iff₀ hq]
    linarith
  have hmq : |v.sum / v.length| ≤ B := by
    rw [abs_div, abs_of_pos hq, div_le_iff₀ hq]
    linarith
  have hsize : |a / v.length| ≤ 2 * B := by
    have := abs_sub_abs_le_abs_sub (a / v.length) (v.sum / v.length)
    have h3 : B * (2 * v.length * unit) ≤ B * 1 := mul_le_mul_of_nonneg_left (by linarith) (by linarith)
    linarith
  have hr : ext (nanmean l) = .fin (rnd (a / v.length)) := by
    rw [hmean]
    refine fin_div ha hlit hq.ne' (hsize.trans (below_max ?_))
    refine (mul_le_mul_of_nonneg_left h2 (by norm_num)).trans (by norm_num)
  refine ⟨_, hr, ?_⟩
  have h3 := rnd_abs (a / v.length)
  have h4 := mul_le_mul_of_nonneg_right hsize unit_pos.le
  have h5 : (2 : ℚ) ^ (-1074 : ℤ) ≤ B * unit := by
    have : (2 : ℚ) ^ (-1074 : ℤ) ≤ unit := by
      rw [← unit_zpow]
      exact zpow_le_zpow_right₀ (by norm_num) (by norm_num)
    have := le_mul_of_one_le_left unit_pos.le h1
    linarith
  have h6 := abs_add_le (rnd (a / v.length) - a / v.length) (a / v.length - v.sum / v.length)
  rw [sub_add_sub_cancel] at h6
  linarith

end CI.B64
