import Verif.Lemmas.Soil64
import Mathlib.Algebra.BigOperators.Group.List.Basic
import Mathlib.Algebra.Order.BigOperators.Group.List
import Mathlib.Algebra.Order.Field.Basic

/-!
# Relative errors of sums, products and quotients of numbers that are not negative
-/

namespace CI.B64
open Round
variable {σ : SumOrder}

/-- `a` is `b` up to `c` rounding errors -/
structure Close (c : ℕ) (a b : ℚ) : Prop where
  nonneg : 0 ≤ b
  lower : b * (1 - unit) ^ c ≤ a
  upper : a ≤ b * (1 + unit) ^ c

theorem unit_lt_one : unit < 1 := by unfold unit; norm_num

theorem pow_up {c d : ℕ} (h : c ≤ d) : (1 + unit) ^ c ≤ (1 + unit) ^ d := pow_le_pow_right₀ (by linarith [unit_pos]) h
theorem pow_dn {c d : ℕ} (h : c ≤ d) : (1 - unit) ^ d ≤ (1 - unit) ^ c :=
  pow_le_pow_of_le_one (by linarith [unit_lt_one]) (by linarith [unit_pos]) h

theorem up_pos (c : ℕ) : 0 < (1 + unit) ^ c := pow_pos (by linarith [unit_pos]) c
theorem dn_pos (c : ℕ) : 0 < (1 - unit) ^ c := pow_pos (by linarith [unit_lt_one]) c

theorem Close.pos {c : ℕ} {a b : ℚ} (h : Close c a b) : 0 ≤ a := (mul_nonneg h.nonneg (dn_pos c).le).trans h.lower

theorem Close.mono {c d : ℕ} {a b : ℚ} (h : Close c a b) (hc : c ≤ d) : Close d a b :=
  ⟨h.nonneg, (mul_le_mul_of_nonneg_left (pow_dn hc) h.nonneg).trans h.lower, h.upper.trans (mul_le_mul_of_nonneg_left (pow_up hc) h.nonneg)⟩

theorem Close.refl {a : ℚ} (h : 0 ≤ a) : Close 0 a a := ⟨h, by simp, by simp⟩

theorem Close.eq_zero {c : ℕ} {a b : ℚ} (h : Close c a b) : a = 0 ↔ b = 0 := by
  constructor
  · intro e
    have := h.lower
    rw [e] at this
    by_contra hb
    have hb : 0 < b := lt_of_le_of_ne h.nonneg (Ne.symm hb)
    have := mul_pos hb (dn_pos c)
    linarith
  · intro e
    have h1 := h.upper
    have h2 := h.lower
    rw [e, zero_mul] at h1 h2
    linarith

theorem Close.pos_iff {c : ℕ} {a b : ℚ} (h : Close c a b) : 0 < a ↔ 0 < b := by
  rw [lt_iff_le_and_ne, lt_iff_le_and_ne]
  constructor
  · rintro ⟨_, h2⟩; exact ⟨h.nonneg, fun e => h2 (h.eq_zero.2 e.symm).symm⟩
  · rintro ⟨_, h2⟩; exact ⟨h.pos, fun e => h2 (h.eq_zero.1 e.symm).symm⟩

/-- up to 2^50 errors change a number by less than a factor of 2 -/
theorem up_le (c : ℕ) (h : c ≤ 2 ^ 51) : (1 + unit) ^ c ≤ 1 + 2 * c * unit := by
  induction c with
  | zero => simp
  | succ n ih =>
    have ih := ih (by omega)
    rw [pow_succ]
    have h1 : (1 + unit) ^ n * (1 + unit) ≤ (1 + 2 * n * unit) * (1 + unit) := mul_le_mul_of_nonneg_right ih (by linarith [unit_pos])
    have hn : (n : ℚ) * unit ≤ 1 / 4 := by
      have : (n : ℚ) ≤ 2 ^ 51 := by exact_mod_cast (by omega : n ≤ 2 ^ 51)
      have := mul_le_mul_of_nonneg_right this unit_pos.le
      have e : (2 : ℚ) ^ 51 * unit = 1 / 4 := by unfold unit; norm_num
      linarith
    have h2 : 2 * ((n : ℚ) * unit) * unit ≤ 1 * unit := mul_le_mul_of_nonneg_right (by linarith) unit_pos.le
    push_cast
    nlinarith

theorem dn_ge (c : ℕ) : 1 - c * unit ≤ (1 - unit) ^ c := by
  have := one_add_mul_le_pow (a := -unit) (by linarith [unit_lt_one]) c
  have e : (1 + -unit) ^ c = (1 - unit) ^ c := by ring
  rw [e] at this
  linarith

theorem count_unit (c : ℕ) (h : c ≤ 2 ^ 51) : (c : ℚ) * unit ≤ 1 / 4 := by
  have : (c : ℚ) ≤ 2 ^ 51 := by exact_mod_cast h
  have := mul_le_mul_of_nonneg_right this unit_pos.le
  have e : (2 : ℚ) ^ 51 * unit = 1 / 4 := by unfold unit; norm_num
  linarith

/-- the relative error of a close number -/
theorem Close.error {c : ℕ} {a b : ℚ} (h : Close c a b) (hc : c ≤ 2 ^ 51) : |a - b| ≤ b * (2 * c * unit) := by
  have h1 := mul_le_mul_of_nonneg_left (up_le c hc) h.nonneg
  have h2 := mul_le_mul_of_nonneg_left (dn_ge c) h.nonneg
  have h3 : 0 ≤ b * (c * unit) := mul_nonneg h.nonneg (mul_nonneg (Nat.cast_nonneg c) unit_pos.le)
  rw [abs_le]
  constructor
  · have := h.lower; nlinarith
  · have := h.upper; nlinarith

theorem Close.le_two {c : ℕ} {a b : ℚ} (h : Close c a b) (hc : c ≤ 2 ^ 51) : b / 2 ≤ a ∧ a ≤ 2 * b := by
  have h1 := abs_le.1 (h.error hc)
  have h2 := mul_le_mul_of_nonneg_left (count_unit c hc) h.nonneg
  constructor <;> nlinarith [h1.1, h1.2]

theorem Close.add {c : ℕ} {a b a' b' : ℚ} (h : Close c a b) (h' : Close c a' b') : Close c (a + a') (b + b') :=
  ⟨add_nonneg h.nonneg h'.nonneg, by have := h.lower; have := h'.lower; linarith, by have := h.upper; have := h'.upper; linarith⟩

theorem Close.mul {c d : ℕ} {a b a' b' : ℚ} (h : Close c a b) (h' : Close d a' b') : Close (c + d) (a * a') (b * b') := by
  refine ⟨mul_nonneg h.nonneg h'.nonneg, ?_, ?_⟩
  · have := mul_le_mul h.lower h'.lower (mul_nonneg h'.nonneg (dn_pos d).le) h.pos
    rw [pow_add]; linarith
  · have := mul_le_mul h.upper h'.upper h'.pos (mul_nonneg h.nonneg (up_pos c).le)
    rw [pow_add]; linarith

theorem inv_up (c : ℕ) : (1 : ℚ) ≤ (1 - unit) ^ c * (1 + unit) ^ (2 * c) := by
  rw [pow_mul, ← mul_pow]
  refine one_le_pow₀ ?_
  have h1 := unit_pos
  have h2 := unit_small
  have h3 : unit * unit ≤ unit * (1 / 10 ^ 15) := mul_le_mul_of_nonneg_left h2 h1.le
  have h4 : unit * unit * unit ≤ unit * unit * 1 := mul_le_mul_of_nonneg_left (by linarith) (by positivity)
  nlinarith

theorem inv_dn (c : ℕ) : (1 + unit) ^ c * (1 - unit) ^ c ≤ 1 := by
  rw [← mul_pow]
  refine pow_le_one₀ ?_ ?_
  · exact mul_nonneg (by linarith [unit_pos]) (by linarith [unit_lt_one])
  · have := mul_pos unit_pos unit_pos; nlinarith

theorem Close.div {c d : ℕ} {a b a' b' : ℚ} (h : Close c a b) (h' : Close d a' b') (hb : 0 < b') : Close (c + 2 * d) (a / a') (b / b') := by
  have ha' : 0 < a' := h'.pos_iff.2 hb
  refine ⟨div_nonneg h.nonneg hb.le, ?_, ?_⟩
  · rw [le_div_iff₀ ha', div_mul_eq_mul_div, div_mul_eq_mul_div, div_le_iff₀ hb]
    -- b (1-u)^(c+2d) a' ≤ a b'
    have h1 : a' * (1 - unit) ^ (2 * d) ≤ b' := by
      have e1 : a' * (1 - unit) ^ (2 * d) ≤ b' * (1 + unit) ^ d * (1 - unit) ^ d := by
        refine mul_le_mul h'.upper (pow_dn (by omega)) (dn_pos _).le (mul_nonneg hb.le (up_pos d).le)
      have e2 := mul_le_mul_of_nonneg_left (inv_dn d) hb.le
      linarith
    have h2 := mul_le_mul h.lower h1 (mul_nonneg ha'.le (dn_pos _).le) h.pos
    rw [pow_add]
    linarith
  · rw [div_le_iff₀ ha', div_mul_eq_mul_div, div_mul_eq_mul_div, le_div_iff₀ hb]
    -- a b' ≤ b (1+u)^(c+2d) a'
    have h1 : b' ≤ a' * (1 + unit) ^ (2 * d) := by
      have e1 := mul_le_mul_of_nonneg_right h'.lower (up_pos (2 * d)).le
      have e2 := mul_le_mul_of_nonneg_left (inv_up d) hb.le
      linarith
    have h2 := mul_le_mul h.upper h1 hb.le (mul_nonneg h.nonneg (up_pos c).le)
    rw [pow_add]
    linarith

/-- one rounding more -/
theorem Close.round {c : ℕ} {a b : ℚ} (h : Close c a b) (e : |rnd a - a| ≤ |a| * unit) : Close (c + 1) (rnd a) b := by
  have h1 := abs_le.1 e
  rw [abs_of_nonneg h.pos] at h1
  refine ⟨h.nonneg, ?_, ?_⟩
  · have h2 := mul_le_mul_of_nonneg_right h.lower (by linarith [unit_lt_one] : 0 ≤ 1 - unit)
    rw [pow_succ]; linarith [h1.1]
  · have h2 := mul_le_mul_of_nonneg_right h.upper (by linarith [unit_pos] : 0 ≤ 1 + unit)
    rw [pow_succ]; linarith [h1.2]

/-! ## Sums -/

/-- exact sum over the leaves of a tree -/
def leafSum (v : ℕ → ℚ) (t : SumTree) : ℚ := (t.leaves.map v).sum

theorem leafSum_nonneg (v : ℕ → ℚ) (t : SumTree) (hv : ∀ i ∈ t.leaves, 0 ≤ v i) : 0 ≤ leafSum v t := by
  refine List.sum_nonneg ?_
  intro q hq
  obtain ⟨i, hi, rfl⟩ := List.mem_map.1 hq
  exact hv i hi

theorem evalTree_close (l : List (B64 σ)) (v : ℕ → ℚ) (c : ℕ) (t : SumTree) (hl : ∀ i ∈ t.leaves, ∃ x a, l[i]? = some x ∧ ext x = .fin a ∧ Close c a (v i))
    (hb : leafSum v t ≤ 2 ^ (1000 : ℤ)) (hc : c + t.leaves.length ≤ 2 ^ 51) :
    ∃ a, ext (evalTree l t) = .fin a ∧ Close (c + t.leaves.length) a (leafSum v t) ∧ (t.leaves = [] → a = 0) := by
  induction t with
  | zero => exact ⟨0, by simp [evalTree, ext, val], ⟨by simp [leafSum, SumTree.leaves], by simp [leafSum, SumTree.leaves], by simp [leafSum, SumTree.leaves]⟩, fun _ => rfl⟩
  | leaf i =>
    obtain ⟨x, a, h1, h2, h3⟩ := hl i (by simp [SumTree.leaves])
    refine ⟨a, by simp [evalTree, h1, h2], ?_, by simp [SumTree.leaves]⟩
    have : leafSum v (.leaf i) = v i := by simp [leafSum, SumTree.leaves]
    rw [this]
    exact h3.mono (by simp [SumTree.leaves])
  | node p q ihp ihq =>
    have hs : leafSum v (.node p q) = leafSum v p + leafSum v q := by simp [leafSum, SumTree.leaves]
    have hlp : ∀ i ∈ p.leaves, ∃ x a, l[i]? = some x ∧ ext x = .fin a ∧ Close c a (v i) := fun i hi => hl i (List.mem_append_left _ hi)
    have hlq : ∀ i ∈ q.leaves, ∃ x a, l[i]? = some x ∧ ext x = .fin a ∧ Close c a (v i) := fun i hi => hl i (List.mem_append_right _ hi)
    have np : 0 ≤ leafSum v p := leafSum_nonneg v p fun i hi => by obtain ⟨_, _, _, _, h⟩ := hlp i hi; exact h.nonneg
    have nq : 0 ≤ leafSum v q := leafSum_nonneg v q fun i hi => by obtain ⟨_, _, _, _, h⟩ := hlq i hi; exact h.nonneg
    have hlen : (SumTree.node p q).leaves.length = p.leaves.length + q.leaves.length := by simp [SumTree.leaves]
    rw [hs] at hb
    rw [hlen] at hc
    obtain ⟨a, ha, hca, hza⟩ := ihp hlp (by linarith) (by omega)
    obtain ⟨b, hb', hcb, hzb⟩ := ihq hlq (by linarith) (by omega)
    have t1 := (hca.le_two (by omega)).2
    have t2 := (hcb.le_two (by omega)).2
    have hsum : ext (evalTree l (.node p q)) = .fin (rnd (a + b)) := by
      refine fin_add ha hb' ?_
      have h0 := hca.pos
      have h0' := hcb.pos
      rw [abs_of_nonneg (by linarith)]
      refine big_le ?_
      rw [two_big]
      linarith
    rw [hs, hlen]
    by_cases ep : p.leaves = []
    · have : a = 0 := hza ep
      subst this
      rw [zero_add, rnd_fin hb'] at hsum
      have : leafSum v p = 0 := by simp [leafSum, ep]
      refine ⟨b, hsum, ?_, ?_⟩
      · rw [this, zero_add, ep]; simpa using hcb
      · intro e
        exact hzb (by simpa [SumTree.leaves, ep] using e)
    · by_cases eq : q.leaves = []
      · have : b = 0 := hzb eq
        subst this
        rw [add_zero, rnd_fin ha] at hsum
        have : leafSum v q = 0 := by simp [leafSum, eq]
        refine ⟨a, hsum, ?_, ?_⟩
        · rw [this, add_zero, eq]; simpa using hca
        · intro e
          exact absurd (by simpa [SumTree.leaves, eq] using e) ep
      · refine ⟨rnd (a + b), hsum, ?_, ?_⟩
        · have lp : 0 < p.leaves.length := List.length_pos_iff.2 ep
          have lq : 0 < q.leaves.length := List.length_pos_iff.2 eq
          have hm : Close (c + (p.leaves.length + q.leaves.length - 1)) (a + b) (leafSum v p + leafSum v q) :=
            (hca.mono (by omega)).add (hcb.mono (by omega))
          have := hm.round (rnd_add_rel ha hb')
          exact this.mono (by omega)
        · intro e
          exact absurd (by simpa [SumTree.leaves, ep] using e) ep

/-- a sum of close numbers that are not negative, in any order of additions -/
theorem fsum_close (l : List (B64 σ)) (v : List ℚ) (c : ℕ) (hl : List.Forall₂ (fun x b => ∃ a, ext x = .fin a ∧ Close c a b) l v)
    (hb : v.sum ≤ 2 ^ (1000 : ℤ)) (hc : c + l.length ≤ 2 ^ 51) : ∃ a, ext (fsum l) = .fin a ∧ Close (c + l.length) a v.sum := by
  have hp := σ.once l.length
  have hlen : (σ.tree l.length).leaves.length = l.length := by rw [hp.length_eq, List.length_range]
  have hlv := hl.length_eq
  have hsum : leafSum (fun i => v.getD i 0) (σ.tree l.length) = v.sum := by
    unfold leafSum
    rw [(hp.map _).sum_eq, hlv]
    have e : (List.range v.length).map (fun i => v.getD i 0) = v := by
      apply List.ext_getElem
      · simp
      · intro i h1 h2
        simp [List.getD_eq_getElem?_getD, h2]
    rw [e]
  have key := evalTree_close l (fun i => v.getD i 0) c (σ.tree l.length) (by
    intro i hi
    have hi : i < l.length := List.mem_range.1 (hp.mem_iff.1 hi)
    have hi' : i < v.length := by omega
    obtain ⟨a, h1, h2⟩ := (List.forall₂_iff_get.1 hl).2 i hi hi'
    refine ⟨l[i], a, List.getElem?_eq_getElem hi, by simpa using h1, ?_⟩
    show Close c a (v.getD i 0)
    rw [List.getD_eq_getElem?_getD, List.getElem?_eq_getElem hi']
    simpa using h2) (by rw [hsum]; exact hb) (by rw [hlen]; exact hc)
  obtain ⟨a, h1, h2, _⟩ := key
  rw [hsum, hlen] at h2
  exact ⟨a, h1, h2⟩

end CI.B64
