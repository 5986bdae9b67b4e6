import Verif.Model.Indices
import Verif.Lemmas.Py
import Verif.Lemmas.Daily

namespace CI

section generic
variable {α : Type}

theorem tile_zero (row : List α) : tile 0 row = [] := rfl

theorem tile_succ (n : Nat) (row : List α) : tile (n + 1) row = row ++ tile n row := by
  simp [tile, List.replicate_succ]

@[simp] theorem tile_length (n : Nat) (row : List α) : (tile n row).length = n * row.length := by
  induction n with
  | zero => simp [tile]
  | succ n ih => rw [tile_succ, List.length_append, ih]; ring

theorem tile_getElem? (n : Nat) (row : List α) (i : Nat) (h : i < n * row.length) :
    (tile n row)[i]? = row[i % row.length]? := by
  induction n generalizing i with
  | zero => simp at h
  | succ n ih =>
    rw [tile_succ]
    by_cases hi : i < row.length
    · rw [List.getElem?_append_left hi, Nat.mod_eq_of_lt hi]
    · have h' : i < n * row.length + row.length := by rw [← Nat.succ_mul]; exact h
      rw [List.getElem?_append_right (by omega), ih _ (by omega),
        Nat.mod_eq_sub_mod (a := i) (by omega)]

/-- the stride depends only on the elements at its positions -/
theorem stride_congr (p j : Nat) (l m : List α) (hlen : l.length = m.length)
    (h : ∀ i, i % p = j → l[i]? = m[i]?) : stride p j l = stride p j m := by
  unfold stride
  have key : ∀ (l m : List α) (k : Nat), l.length = m.length →
      (∀ i, (k + i) % p = j → l[i]? = m[i]?) →
      ((l.zipIdx k).filter (fun q => q.2 % p == j)).map Prod.fst =
      ((m.zipIdx k).filter (fun q => q.2 % p == j)).map Prod.fst := by
    intro l
    induction l with
    | nil => intro m k hl _; cases m with
      | nil => rfl
      | cons b m => simp at hl
    | cons a l ih =>
      intro m k hl hm
      cases m with
      | nil => simp at hl
      | cons b m =>
        have hrec := ih m (k + 1) (by simpa using hl) (by
          intro i hi
          have := hm (i + 1) (by rw [← hi]; congr 1; omega)
          simpa using this)
        simp only [List.zipIdx_cons, List.filter_cons]
        by_cases hk : k % p = j
        · have := hm 0 (by simpa using hk)
          simp only [List.getElem?_cons_zero, Option.some.injEq] at this
          simp only [hk, BEq.rfl, if_true, List.map_cons, hrec, this]
        · simp only [beq_iff_eq, hk, if_false, hrec]
  exact key l m 0 hlen (by intro i hi; exact h i (by simpa using hi))

/-- members of a stride -/
theorem mem_stride (p j : Nat) (l : List α) (x : α) :
    x ∈ stride p j l ↔ ∃ i, i % p = j ∧ l[i]? = some x := by
  unfold stride
  simp only [List.mem_map, List.mem_filter, Prod.exists, exists_and_right, exists_eq_right,
    List.mem_zipIdx_iff_getElem?, beq_iff_eq]
  constructor
  · rintro ⟨i, h1, h2⟩; exact ⟨i, h2, h1⟩
  · rintro ⟨i, h1, h2⟩; exact ⟨i, h2, h1⟩

theorem stride_map {β : Type} (f : α → β) (p j : Nat) (l : List α) :
    stride p j (l.map f) = (stride p j l).map f := by
  unfold stride
  rw [List.zipIdx_map, List.filter_map, List.map_map, List.map_map]
  rfl

theorem succ_mod_eq (k p : Nat) (hp : 0 < p) : (k + 1) % p = if k % p + 1 = p then 0 else k % p + 1 := by
  have h := Nat.mod_lt k hp
  split
  · rename_i he
    rw [Nat.add_mod]
    rcases Nat.lt_or_ge 1 p with h1 | h1
    · rw [Nat.mod_eq_of_lt h1, he, Nat.mod_self]
    · have : p = 1 := by omega
      subst this; simp [Nat.mod_one]
  · have h1 : 1 < p := by omega
    rw [Nat.add_mod, Nat.mod_eq_of_lt h1, Nat.mod_eq_of_lt (by omega)]

/-- element `i` of column `j` is element `i * p + j` of the array -/
theorem stride_getElem? (p j : Nat) (l : List α) (hj : j < p) (i : Nat) : (stride p j l)[i]? = l[i * p + j]? := by
  have hp : 0 < p := by omega
  have key : ∀ (l : List α) (k i : Nat),
      (((l.zipIdx k).filter (fun q => q.2 % p == j)).map Prod.fst)[i]? =
        l[i * p + (if k % p ≤ j then j - k % p else j + p - k % p)]? := by
    intro l
    induction l with
    | nil => intro k i; simp
    | cons a l ih =>
      intro k i
      have hk := Nat.mod_lt k hp
      rw [List.zipIdx_cons, List.filter_cons]
      by_cases h : k % p = j
      · simp only [h, beq_self_eq_true, if_true, List.map_cons, le_refl, Nat.sub_self, Nat.add_zero]
        cases i with
        | zero => simp
        | succ i =>
          rw [List.getElem?_cons_succ, ih, succ_mod_eq k p hp, h]
          have e : (i + 1) * p = i * p + p := by ring
          rw [e]
          have e2 : i * p + (if (if j + 1 = p then 0 else j + 1) ≤ j then j - (if j + 1 = p then 0 else j + 1)
              else j + p - (if j + 1 = p then 0 else j + 1)) + 1 = i * p + p := by split_ifs <;> omega
          rw [← e2, List.getElem?_cons_succ]
      · have hb : (k % p == j) = false := by simpa using h
        simp only [hb, Bool.false_eq_true, if_false]
        rw [ih, succ_mod_eq k p hp]
        have e2 : i * p + (if (if k % p + 1 = p then 0 else k % p + 1) ≤ j then j - (if k % p + 1 = p then 0 else k % p + 1)
              else j + p - (if k % p + 1 = p then 0 else k % p + 1)) + 1 =
            i * p + (if k % p ≤ j then j - k % p else j + p - k % p) := by split_ifs <;> omega
        rw [← e2, List.getElem?_cons_succ]
  have := key l 0 i
  simp only [Nat.zero_mod, Nat.zero_le, if_true, Nat.sub_zero] at this
  exact this

theorem stride_length (n p j : Nat) (l : List α) (hj : j < p) (hl : l.length = n * p) : (stride p j l).length = n := by
  have h1 := stride_getElem? p j l hj n
  rw [List.getElem?_eq_none (l := l) (by omega)] at h1
  have h1 := List.getElem?_eq_none_iff.1 h1
  rcases Nat.eq_zero_or_pos n with h0 | h0
  · omega
  · have h2 := stride_getElem? p j l hj (n - 1)
    have e : (n - 1) * p + p = n * p := by
      rw [← Nat.succ_mul]; congr 1; omega
    rw [List.getElem?_eq_getElem (l := l) (by omega)] at h2
    have := (List.getElem?_eq_some_iff.1 h2).1
    omega

theorem slice_length (l : List α) (a b : Nat) (_h : a ≤ b) (hb : b ≤ l.length) :
    (slice l a b).length = b - a := by
  unfold slice; len_omega

theorem slice_getElem? (l : List α) (a b i : Nat) (h : i < b - a) : (slice l a b)[i]? = l[a + i]? := by
  unfold slice; rw [List.getElem?_take_of_lt h, List.getElem?_drop]

theorem slice_map {β : Type} (f : α → β) (l : List α) (a b : Nat) :
    slice (l.map f) a b = (slice l a b).map f := by
  simp [slice, List.map_take, List.map_drop]

theorem sliceBound_nonneg (n : Nat) (i : Int) (h : 0 ≤ i) : sliceBound n i = min i.toNat n := by
  unfold sliceBound; rw [if_neg (by omega)]

theorem sliceBound_le (n : Nat) (i : Int) (_h : -(n:Int) ≤ i ∨ 0 ≤ i ∨ i < 0) : sliceBound n i ≤ n := by
  unfold sliceBound; split <;> omega

end generic

section
variable {F : Type} [FloatOps F]

/-- padding that `reshape_to_2d` appends -/
def padCount (n k : Nat) : Nat := if n % k > 0 then k - n % k else 0

theorem reshapeTo2d_of1d (l : List F) (k : Nat) (hk : 0 < k) :
    reshapeTo2d (Arr.of1d l) k =
      .ok ⟨[(l.length + padCount l.length k) / k, k], l ++ List.replicate (padCount l.length k) nan⟩ := by
  unfold reshapeTo2d Arr.of1d padCount
  simp only
  rw [if_neg (by omega)]
  by_cases h : l.length % k > 0
  · simp [h]
  · simp [h]

theorem padCount_mul (n k : Nat) (hk : 0 < k) : (n + padCount n k) / k * k = n + padCount n k := by
  apply Nat.div_mul_cancel
  unfold padCount
  have h1 := Nat.div_add_mod n k
  have h2 := Nat.mod_lt n hk
  by_cases h : n % k > 0
  · rw [if_pos h]
    have : n + (k - n % k) = k * (n / k + 1) := by rw [Nat.mul_add]; omega
    rw [this]; exact Dvd.intro _ rfl
  · rw [if_neg h, Nat.add_zero]; exact Nat.dvd_of_mod_eq_zero (by omega)

theorem padCount_lt (n k : Nat) (hk : 0 < k) : padCount n k < k := by
  unfold padCount
  split <;> omega

/-- the amount of padding is zero for whole years -/
theorem padCount_zero (n k : Nat) (h : n % k = 0) : padCount n k = 0 := by
  unfold padCount; rw [if_neg (by omega)]

end
end CI
