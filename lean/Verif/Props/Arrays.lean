import Verif.Lemmas.Compute

/-!
# C06, C07, C08, C58, C60: array utilities

Generic float type: valid for IEEE arithmetic, except the theorems with `Fl K` in their statement (exact sums).
-/

namespace CI.Props

variable {F : Type} [FloatOps F]

/-! ## C06 -/

/-- **C06.** `reshape_to_2d` of a 1-D array: `k` columns, a whole number of rows, element `i` at row `i / k` and
column `i % k` (C order position `(i / k) * k + i % k`), only the tail of the last row is filling,
and the filling is missing. -/
theorem C06_layout (l : List F) (k : Nat) (hk : 0 < k) :
    ∃ rows data, reshapeTo2d (Arr.of1d l) k = .ok ⟨[rows, k], data⟩ ∧
      data.length = rows * k ∧ rows * k < l.length + k ∧
      (∀ i, i < l.length → i / k < rows ∧ i % k < k ∧ data[(i / k) * k + i % k]? = l[i]?) ∧
      (∀ i, l.length ≤ i → i < rows * k → i / k + 1 = rows ∧ data[i]? = some nan) ∧
      data.take l.length = l := by
  have hm := padCount_mul l.length k hk
  have hp := padCount_lt l.length k hk
  refine ⟨_, _, reshapeTo2d_of1d l k hk, ?_, ?_, ?_, ?_, ?_⟩
  · rw [hm]; simp
  · rw [hm]; omega
  · intro i hi
    refine ⟨?_, Nat.mod_lt _ hk, ?_⟩
    · rw [Nat.div_lt_iff_lt_mul hk, hm]; omega
    · rw [Nat.div_add_mod' i k, List.getElem?_append_left hi]
  · intro i hi hi'
    rw [hm] at hi'
    refine ⟨?_, ?_⟩
    · have h1 : i / k < (l.length + padCount l.length k) / k := by
        rw [Nat.div_lt_iff_lt_mul hk, hm]; omega
      have h2 : (l.length + padCount l.length k) / k - 1 ≤ i / k := by
        rw [Nat.le_div_iff_mul_le hk, Nat.sub_mul, hm]; omega
      omega
    · rw [List.getElem?_append_right hi, List.getElem?_replicate, if_pos (by omega)]
  · rw [List.take_left]

example : reshapeTo2d (Arr.of1d [Fl.fin (1 : ℚ), .fin 2, .fin 3]) 2
    = .ok ⟨[2, 2], [.fin 1, .fin 2, .fin 3, .nan]⟩ := by decide +kernel

/-- **C06.** A 2-D array with `k` columns is returned unchanged. -/
theorem C06_two_d (a : Arr F) (n k : Nat) (h : a.shape = [n, k]) : reshapeTo2d a k = .ok a := by
  unfold reshapeTo2d; rw [h]; simp

/-- **C06.** Every other shape raises ValueError. -/
theorem C06_rejects (a : Arr F) (k : Nat) (h1 : ∀ n, a.shape ≠ [n]) (h2 : ∀ n, a.shape ≠ [n, k]) :
    reshapeTo2d a k = .error .valueError := by
  unfold reshapeTo2d
  split
  · rename_i n c hs
    rw [if_neg]
    intro h; exact h2 n (by rw [hs, h])
  · rename_i n hs; exact absurd hs (h1 n)
  · rfl

example : reshapeTo2d (⟨[1, 3], [Fl.fin (1 : ℚ), .fin 2, .fin 3]⟩ : Arr (Fl ℚ)) 2 = .error .valueError :=
  by decide +kernel

/-! ## C07 -/

/-- **C07 (partial).** Full statement: for every `n >= 1`. Proved for `n` up to the length of the series; for
larger `n` it is false (`C07_fails`). Entry `i` is missing for `i < n - 1`; afterwards it is the sum of the window
`[i-n+1, i]` (the value itself for `n = 1`), which is missing if a value of the window is missing. -/
theorem C07_windows_partial [FloatLaws F] (x : List F) (n : Nat) (h1 : 1 ≤ n) (h2 : n ≤ x.length) :
    ∃ out, sumToScale x n = .ok out ∧ out.length = x.length ∧
      (∀ i, i + 1 < n → out[i]? = some nan) ∧
      (∀ i, n ≤ i + 1 → i < x.length →
        out[i]? = (if n = 1 then x[i]? else some (fsum (slice x (i + 1 - n) (i + 1))))) ∧
      (∀ i k, i < x.length → k < n → k ≤ i → x[i - k]? = some nan → out[i]? = some nan) := by
  by_cases hn : n = 1
  · subst hn
    refine ⟨x, by simp [sumToScale], rfl, by intro i hi; omega, by simp, ?_⟩
    intro i k hi hk _ hx
    have : k = 0 := by omega
    subst this; simpa using hx
  · let out := List.replicate (n - 1) nan ++
      (List.range (x.length - n + 1)).map (fun t => fsum (slice x t (t + n)))
    have hout : sumToScale x n = .ok out := by
      unfold sumToScale
      rw [if_neg (by omega)]
      unfold convolveOnes
      rw [if_neg (by
        rintro (h | h)
        · omega
        · rw [h] at h2; simp at h2; omega)]
      simp only [Int.toNat_natCast, h2, if_true, bind, Except.bind, pure, Except.pure]
      have : ((n : Int) - 1).toNat = n - 1 := by omega
      rw [this]
    have hlen : out.length = x.length := by simp [out]; omega
    have hval : ∀ i, n ≤ i + 1 → i < x.length →
        out[i]? = some (fsum (slice x (i + 1 - n) (i + 1))) := by
      intro i hi hi'
      have e : i + 1 - n + n = i + 1 := by omega
      simp only [out]
      rw [List.getElem?_append_right (by simp; omega), List.length_replicate, List.getElem?_map,
        List.getElem?_range (by omega)]
      simp only [Option.map_some]
      rw [show i - (n - 1) = i + 1 - n by omega, e]
    have hnan : ∀ i, i + 1 < n → out[i]? = some nan := by
      intro i hi
      simp only [out]
      rw [List.getElem?_append_left (by simp; omega), List.getElem?_replicate, if_pos (by omega)]
    refine ⟨out, hout, hlen, hnan, ?_, ?_⟩
    · intro i hi hi'; rw [if_neg hn]; exact hval i hi hi'
    · intro i k hi hk hki hx
      by_cases hin : i + 1 < n
      · exact hnan i hin
      · rw [hval i (by omega) hi, FloatLaws.fsum_nan]
        rw [List.mem_iff_getElem?]
        refine ⟨n - 1 - k, ?_⟩
        rw [slice_getElem? _ _ _ _ (by omega), ← hx]
        congr 1; omega

example : sumToScale [Fl.fin (3 : ℚ), .fin 4, .fin 6, .nan, .fin 1] 2
    = .ok [.nan, .fin 7, .fin 10, .nan, .nan] := by decide +kernel

/-- **C07**, exact sums: for a series of numbers, entry `i >= n - 1` is the sum of the `n` values ending at `i`
(here for every `n >= 1`, including 1). -/
theorem C07_exact_partial {K : Type} [Field K] [LinearOrder K] [IsStrictOrderedRing K]
    (x : List K) (n : Nat) (h1 : 1 ≤ n) (h2 : n ≤ x.length) :
    ∃ out, sumToScale (x.map Fl.fin) n = .ok out ∧ out.length = x.length ∧
      (∀ i, i + 1 < n → out[i]? = some .nan) ∧
      (∀ i, n ≤ i + 1 → i < x.length → out[i]? = some (.fin ((x.drop (i + 1 - n)).take n).sum)) := by
  obtain ⟨out, ho, hl, ha, hb, _⟩ := C07_windows_partial (x.map Fl.fin) n h1 (by simpa using h2)
  refine ⟨out, ho, by simpa using hl, ha, ?_⟩
  intro i hi hi'
  rw [hb i hi (by simpa using hi')]
  by_cases hn : n = 1
  · subst hn
    rw [if_pos rfl, List.getElem?_map, List.getElem?_eq_getElem hi', Nat.add_sub_cancel]
    have : (x.drop i).take 1 = [x[i]] := by rw [List.drop_eq_getElem_cons hi']; rfl
    rw [this]; simp
  · rw [if_neg hn, slice_map, Fl.fsum_fin]
    unfold slice
    rw [show i + 1 - (i + 1 - n) = n by omega]

/-- **C07 is false for scales beyond the record length**: the result has `2 n - len` values, the first `n - 1` missing, all others the sum
of the whole record. -/
theorem C07_fails (x : List F) (n : Nat) (hx : x ≠ []) (h : x.length < n) :
    ∃ out, sumToScale x n = .ok out ∧ out.length = 2 * n - x.length ∧ out.length ≠ x.length ∧
      (∀ i, i + 1 < n → out[i]? = some nan) ∧ (∀ i, n ≤ i + 1 → i < out.length → out[i]? = some (fsum x)) := by
  have hx' : 0 < x.length := List.length_pos_iff.2 hx
  have hout : sumToScale x n = .ok (List.replicate (n - 1) nan ++
      List.replicate (n - x.length + 1) (fsum x)) := by
    unfold sumToScale
    rw [if_neg (by omega)]
    unfold convolveOnes
    rw [if_neg (by
      rintro (h | h)
      · omega
      · exact hx h)]
    simp only [Int.toNat_natCast, bind, Except.bind, pure, Except.pure]
    rw [if_neg (by omega)]
    have : ((n : Int) - 1).toNat = n - 1 := by omega
    simp only [this]
  refine ⟨_, hout, ?_, ?_, ?_, ?_⟩
  · simp only [List.length_append, List.length_replicate]; omega
  · simp only [List.length_append, List.length_replicate]; omega
  · intro i hi
    rw [List.getElem?_append_left (by simp only [List.length_replicate]; omega), List.getElem?_replicate, if_pos (by omega)]
  · intro i hi hl
    simp only [List.length_append, List.length_replicate] at hl
    rw [List.getElem?_append_right (by simp only [List.length_replicate]; omega), List.getElem?_replicate,
      if_pos (by simp only [List.length_replicate]; omega)]

example : sumToScale [Fl.fin (3 : ℚ), .fin 4] 3 = .ok [.nan, .nan, .fin 7, .fin 7] := by decide +kernel

/-- **C07**, bad scales: zero and negative scales raise ValueError. -/
theorem C07_bad_scale (x : List F) (n : Int) (h : n ≤ 0) : sumToScale x n = .error .valueError := by
  unfold sumToScale convolveOnes
  rw [if_neg (by omega), if_pos (Or.inl h)]; rfl

example : sumToScale [Fl.fin (3 : ℚ), .fin 4] 0 = .error .valueError ∧ sumToScale [Fl.fin (3 : ℚ), .fin 4] (-2) = .error .valueError := by
  decide +kernel

/-! ## C08 -/

/-- **C08.** The two counts: entries equal to zero, entries that are not missing. -/
theorem C08_counts (l : List F) :
    countZerosAndNonMissings l =
      ((l.filter (fun x => feq x (lit 0))).length, (l.filter (fun x => !isNan x)).length) := by
  unfold countZerosAndNonMissings
  simp only [Prod.mk.injEq, List.countP_eq_length_filter, and_true]
  have := List.length_eq_length_filter_add (l := l) (fun x => feq x (lit 0))
  omega

/-- **C08.** `zeros <= non-missing <= size`. -/
theorem C08_ordered [FloatLaws F] (l : List F) :
    (countZerosAndNonMissings l).1 ≤ (countZerosAndNonMissings l).2 ∧
      (countZerosAndNonMissings l).2 ≤ l.length := by
  rw [C08_counts]
  refine ⟨?_, List.length_filter_le _ _⟩
  simp only
  rw [← List.countP_eq_length_filter, ← List.countP_eq_length_filter]
  apply List.countP_mono_left
  intro x _ hx
  simp only [Bool.not_eq_true', isNan_eq_false_iff]
  rintro rfl
  simp at hx

/-- **C08.** The counts do not depend on the order of the data. -/
theorem C08_perm (l m : List F) (h : l.Perm m) :
    countZerosAndNonMissings l = countZerosAndNonMissings m := by
  rw [C08_counts, C08_counts, (h.filter _).length_eq, (h.filter _).length_eq]

example : countZerosAndNonMissings [Fl.fin (0 : ℚ), .nan, .fin 3, .fin 0] = (2, 3) := by decide +kernel

/-! ## C58 -/

/-- sign of a float as seen by the user: -1, 0, 1, or none for a missing value -/
def signSpec (x : F) : Option Int :=
  if isNan x then none else if flt x (lit 0) then some (-1) else if flt (lit 0) x then some 1 else some 0

/-- the code's sign values compare like the specification's signs -/
theorem npSign_eq [FloatLaws F] (x y : F) :
    (!feq (npSign x) (npSign y)) = decide (signSpec x ≠ signSpec y ∨ signSpec x = none ∨ signSpec y = none) := by
  have h1 : ∀ p : ℚ, feq (lit p : F) (lit p) = true := fun p => feq_refl (FloatLaws.lit_ne_nan p)
  have lt_ne : ∀ a b : F, flt a b = true → feq a b = false ∧ feq b a = false := by
    intro a b h
    rw [FloatLaws.flt_iff] at h
    constructor <;> rw [← Bool.not_eq_true, FloatLaws.feq_iff] <;> simp [h.2]
  have h01 := lt_ne _ _ (lit_zero_lt_one (F := F))
  have hm0 := lt_ne _ _ (lit_neg_one_lt_zero (F := F))
  have hm1 := lt_ne (lit (-1) : F) (lit 1) (flt_of_flt_of_fle lit_neg_one_lt_zero (fle_of_flt lit_zero_lt_one))
  unfold npSign signSpec
  by_cases hx : isNan x = true
  · simp [hx]
  · by_cases hy : isNan y = true
    · simp [hy]
    · simp only [hx, hy, Bool.false_eq_true, if_false]
      by_cases a1 : flt x (lit 0) = true <;> by_cases a2 : flt (lit 0) x = true <;>
      by_cases b1 : flt y (lit 0) = true <;> by_cases b2 : flt (lit 0) y = true <;>
      simp [a1, a2, b1, b2, h1, h01, hm0, hm1]

/-- **C58.** For arrays of the same size the result has the shape of `a`; entry `i` is set exactly if the signs
of `a[i]` and `b[i]` differ, or one of them is missing. -/
theorem C58_marks [FloatLaws F] (a b : Arr F) (h : a.data.length = b.data.length) :
    ∃ r, signChange a b = .ok r ∧ r.shape = a.shape ∧ r.data.length = a.data.length ∧
      ∀ (i : Nat) x y, a.data[i]? = some x → b.data[i]? = some y →
        r.data[i]? = some (decide (signSpec x ≠ signSpec y ∨ signSpec x = none ∨ signSpec y = none)) := by
  refine ⟨_, by unfold signChange; rw [if_neg (by simpa using h)], rfl, by simp [h], ?_⟩
  intro i x y hx hy
  simp only [List.getElem?_zipWith, List.getElem?_map, hx, hy, Option.map_some]
  rw [npSign_eq]

/-- **C58.** The marks are symmetric in the two arguments. -/
theorem C58_symm [FloatLaws F] (a b : Arr F) (ra rb : Arr Bool) (h1 : signChange a b = .ok ra)
    (h2 : signChange b a = .ok rb) : ra.data = rb.data := by
  unfold signChange at h1 h2
  split at h1
  · cases h1
  split at h2
  · cases h2
  cases h1; cases h2
  simp only
  rw [List.zipWith_comm]
  congr 1
  funext x y
  rw [Bool.eq_iff_iff]
  simp only [Bool.not_eq_true']
  constructor <;> intro h <;> rw [← Bool.not_eq_true] at * <;> intro h' <;> exact h (feq_symm h')

/-- **C58.** Arrays of different sizes raise ValueError. -/
theorem C58_rejects (a b : Arr F) (h : a.data.length ≠ b.data.length) :
    signChange a b = .error .valueError := by
  unfold signChange; rw [if_pos h]

example : signChange (Arr.of1d [Fl.fin (1 : ℚ), .fin (-2), .fin 0, .nan])
    (Arr.of1d [Fl.fin (5 : ℚ), .fin 2, .fin 1, .nan]) = .ok ⟨[4], [false, true, true, true]⟩ := by
  decide +kernel

/-! ## C60 -/

omit [FloatOps F] in
/-- **C60 is false**: every 2-D array `(divisions, months)` with a number of months other than 12 is refused,
in particular every multi-year record (24, 36, ... months). -/
theorem C60_fails (a : Arr F) (d m : Nat) (hs : a.shape = [d, m]) (hm : m ≠ 12) :
    reshapeToDivsYearsMonths a = .error .valueError := by
  unfold reshapeToDivsYearsMonths; rw [hs]; simp [hm]

example : reshapeToDivsYearsMonths (⟨[1, 24], List.replicate 24 (Fl.fin (1 : ℚ))⟩ : Arr (Fl ℚ))
    = .error .valueError := by decide +kernel

omit [FloatOps F] in
/-- **C60 (partial).** Full statement: for `(divisions, 12 * years)` input, month `m` of division `d` is at year
`m / 12`, month `m % 12` of the `(divisions, years, 12)` result. It holds for one year only. The position of
`(d, y, j)` in the C-order result is `(d * years + y) * 12 + j`. -/
theorem C60_one_year_partial (a : Arr F) (d : Nat) (hs : a.shape = [d, 12]) (hwf : a.WF) :
    ∃ r, reshapeToDivsYearsMonths a = .ok r ∧ r.shape = [d, 1, 12] ∧ r.WF ∧
      ∀ i m, i < d → m < 12 → r.data[(i * 1 + m / 12) * 12 + m % 12]? = a.data[i * 12 + m]? := by
  have hl : d * 12 = a.data.length := by rw [hwf, hs]; simp
  refine ⟨⟨[d, 1, 12], a.data⟩, ?_, rfl, ?_, ?_⟩
  · unfold reshapeToDivsYearsMonths; rw [hs]; simp [hl]
  · simp [Arr.WF, ← hl]
  · intro i m _ hm
    congr 1; omega

omit [FloatOps F] in
/-- **C60**: a 3-D array is returned unchanged if its last axis has 12 entries and refused otherwise. -/
theorem C60_three_d (a : Arr F) (d y m : Nat) (hs : a.shape = [d, y, m]) :
    reshapeToDivsYearsMonths a = if m = 12 then .ok a else .error .valueError := by
  unfold reshapeToDivsYearsMonths; rw [hs]

example : (⟨[1, 12], List.replicate 12 (Fl.fin (1 : ℚ))⟩ : Arr (Fl ℚ)).WF := by simp [Arr.WF]

end CI.Props
