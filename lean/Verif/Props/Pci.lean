import Verif.Model.Indices
import Verif.Spec.Calendar
import Verif.Lemmas.Compute
import Mathlib.Algebra.BigOperators.Group.List.Basic
import Mathlib.Algebra.Order.BigOperators.Group.List
import Mathlib.Tactic.Ring

/-!
# C33: precipitation concentration index (exact arithmetic)
-/

namespace CI.Props

section
variable {F : Type} [FloatOps F]

/-- **C33.** Data that are not entirely missing raise ValueError unless there are 365 or 366 values and none is missing. -/
theorem C33_rejects (x : List F) (h : ∃ v ∈ x, isNan v = false)
    (hbad : (x.length ≠ 365 ∧ x.length ≠ 366) ∨ ∃ v ∈ x, isNan v = true) : pci x = .error .valueError := by
  have hn : allNan x = false := by
    obtain ⟨v, hv, hv'⟩ := h
    unfold allNan
    rw [List.all_eq_false]; exact ⟨v, hv, by simp [hv']⟩
  unfold pci
  simp only [hn, Bool.false_eq_true, if_false]
  rcases hbad with h | ⟨v, hv, hv'⟩
  · simp [h.1, h.2]
  · have : x.any isNan = true := List.any_eq_true.2 ⟨v, hv, hv'⟩
    simp [this]

example : pci (List.replicate 365 (Fl.fin (1 : ℚ)) ++ [.nan]) = .error .valueError ∧
    pci [Fl.fin (1 : ℚ)] = .error .valueError := by decide +kernel

end

variable {K : Type} [Field K] [LinearOrder K] [IsStrictOrderedRing K]

omit [IsStrictOrderedRing K] in
theorem pySum_fin (l : List K) : pySum (l.map Fl.fin) = .fin l.sum := by
  have key : ∀ (l : List K) (a : K), (l.map Fl.fin).foldl (· + ·) (Fl.fin a) = .fin (a + l.sum) := by
    intro l
    induction l with
    | nil => intro a; simp
    | cons b l ih => intro a; rw [List.map_cons, List.foldl_cons, Fl.fin_add, ih, List.sum_cons, add_assoc]
  unfold pySum
  rw [Fl.lit_def, key]; simp

/-- the totals of the consecutive slices with the given ends -/
def sliceTotals (x : List K) : List Nat → Nat → List K
  | [], _ => []
  | m :: ms, start => (slice x start m).sum :: sliceTotals x ms m

omit [IsStrictOrderedRing K] in
theorem pciLoop_fin (x : List K) (ends : List Nat) (start : Nat) (a b : K) :
    pciLoop (x.map Fl.fin) ends start (.fin a, .fin b) =
      (.fin (a + ((sliceTotals x ends start).map (fun s => s * s)).sum), .fin (b + (sliceTotals x ends start).sum)) := by
  induction ends generalizing start a b with
  | nil => simp [pciLoop, sliceTotals]
  | cons m ms ih =>
    simp only [pciLoop, slice_map, pySum_fin, Fl.fin_mul, Fl.fin_add]
    rw [ih]
    simp only [sliceTotals, List.map_cons, List.sum_cons, add_assoc]

/-- what `pci` computes from the slice totals `t` -/
def concentration (t : List K) : K := 100 * (t.map (fun s => s * s)).sum / t.sum ^ 2

theorem pci_value (x : List K) (ends : List Nat)
    (hl : (x.length = 366 ∧ ends = pciEnds366) ∨ (x.length = 365 ∧ ends = pciEnds365))
    (ht : (sliceTotals x ends 0).sum ≠ 0) :
    pci (x.map Fl.fin) = .ok [.fin (concentration (sliceTotals x ends 0))] := by
  have hne : x ≠ [] := by rintro rfl; simp at hl
  have hn : allNan (x.map Fl.fin) = false := by
    obtain ⟨a, l, rfl⟩ := List.exists_cons_of_ne_nil hne
    simp [allNan]
  have hany : (x.map Fl.fin).any isNan = false := by
    rw [List.any_eq_false]; intro v hv
    obtain ⟨a, _, rfl⟩ := List.mem_map.1 hv
    simp
  have hrun : ∀ e, e = ends → (let r := pciLoop (x.map Fl.fin) e 0 (lit 0, lit 0)
      [(r.1 / (r.2 * r.2)) * lit 100]) = [.fin (concentration (sliceTotals x ends 0))] := by
    rintro e rfl
    simp only [Fl.lit_def, pciLoop_fin, Rat.cast_zero, zero_add, Fl.fin_mul]
    rw [Fl.fin_div_of_ne _ _ (mul_ne_zero ht ht)]
    simp only [Fl.fin_mul, concentration]
    congr 2
    push_cast
    ring
  unfold pci
  simp only [hn, hany, Bool.false_eq_true, if_false, List.length_map, Bool.not_false, and_true]
  rcases hl with ⟨h1, h2⟩ | ⟨h1, h2⟩
  · rw [if_pos h1]; exact congrArg _ (hrun _ h2.symm)
  · rw [if_neg (by omega), if_pos h1]; exact congrArg _ (hrun _ h2.symm)

theorem sum_sq_bounds (t : List K) (h : ∀ v ∈ t, 0 ≤ v) :
    t.sum ^ 2 ≤ t.length * (t.map (fun s => s * s)).sum ∧ (t.map (fun s => s * s)).sum ≤ t.sum ^ 2 ∧ 0 ≤ t.sum ∧
      0 ≤ (t.map (fun s => s * s)).sum := by
  induction t with
  | nil => simp
  | cons a t ih =>
    obtain ⟨h1, h2, h3, h4⟩ := ih (fun v hv => h v (List.mem_cons_of_mem _ hv))
    have ha := h a (by simp)
    simp only [List.sum_cons, List.map_cons, List.length_cons, Nat.cast_add, Nat.cast_one]
    generalize t.sum = s at *
    generalize (t.map (fun s => s * s)).sum = q at *
    have hn : (0 : K) ≤ t.length := Nat.cast_nonneg _
    generalize hN : (t.length : K) = n at *
    refine ⟨?_, by nlinarith, by linarith, by nlinarith⟩
    rcases eq_or_lt_of_le hn with h0 | h0
    · rw [← h0] at h1
      have : s = 0 := by nlinarith
      subst this; nlinarith
    · have key : 2 * a * s ≤ n * a ^ 2 + q := by
        have h5 : n * (2 * a * s) ≤ n * (n * a ^ 2 + q) := by nlinarith [sq_nonneg (n * a - s)]
        exact le_of_mul_le_mul_left h5 h0
      nlinarith

omit [LinearOrder K] [IsStrictOrderedRing K] in
theorem slice_sum (x : List K) (a b : Nat) (h : a ≤ b) : (slice x a b).sum = (x.take b).sum - (x.take a).sum := by
  have : x.take b = x.take a ++ slice x a b := by
    unfold slice
    rw [List.take_drop, show a + (b - a) = b by omega]
    conv_lhs => rw [← List.take_append_drop a (x.take b)]
    rw [List.take_take, Nat.min_eq_left h]
  rw [this, List.sum_append]; ring

open CI.Spec in
/-- day of the year on which month `m` (0-based) starts -/
def monthStart (year : Int) (m : Nat) : Nat := (((List.range m).map (monthLen year)).sum).toNat

/-- total of calendar month `m` (0-based) of a year of daily values -/
def monthTotal (x : List K) (year : Int) (m : Nat) : K := (slice x (monthStart year m) (monthStart year (m + 1))).sum

/-- the totals of the twelve calendar months -/
def monthTotals (x : List K) (year : Int) : List K := (List.range 12).map (monthTotal x year)

theorem concentration_bounds (t : List K) (hlen : t.length = 12) (h : ∀ v ∈ t, 0 ≤ v) (hpos : 0 < t.sum) :
    100 / 12 ≤ concentration t ∧ concentration t ≤ 100 := by
  obtain ⟨h1, h2, _, h4⟩ := sum_sq_bounds t h
  rw [hlen] at h1
  push_cast at h1
  have hsq : 0 < t.sum ^ 2 := by positivity
  unfold concentration
  constructor
  · rw [div_le_div_iff₀ (by norm_num) hsq]; linarith
  · rw [div_le_iff₀ hsq]; linarith

theorem slice_nonneg (x : List K) (h : ∀ v ∈ x, 0 ≤ v) (a b : Nat) : 0 ≤ (slice x a b).sum := by
  apply List.sum_nonneg
  intro v hv
  exact h v (List.mem_of_mem_drop (List.mem_of_mem_take hv))

/-- what the code sums instead of the calendar months: January, nothing for February, then the days from the 30th (leap
year; 29th otherwise) of January to the end of March, then April, ..., December -/
def codeTotals (x : List K) (year : Int) : List K :=
  monthTotal x year 0 :: 0 ::
    (slice x (monthStart year 2 - monthStart year 1) (monthStart year 3)).sum ::
      (List.range 9).map (fun m => monthTotal x year (m + 3))

omit [LinearOrder K] [IsStrictOrderedRing K] in
theorem codeTotals_366 (x : List K) : sliceTotals x pciEnds366 0 = codeTotals x 2000 := by
  have h : ∀ m, m ≤ 12 → monthStart 2000 m = [0, 31, 60, 91, 121, 152, 182, 213, 244, 274, 305, 335, 366].getD m 0 := by
    decide
  simp only [codeTotals, monthTotal, sliceTotals, pciEnds366, List.range, List.range.loop, List.map_cons, List.map_nil,
    h 0 (by omega), h 1 (by omega), h 2 (by omega), h 3 (by omega), h 4 (by omega), h 5 (by omega), h 6 (by omega),
    h 7 (by omega), h 8 (by omega), h 9 (by omega), h 10 (by omega), h 11 (by omega), h 12 (by omega),
    Nat.reduceAdd]
  have : (slice x 31 29).sum = 0 := by simp [slice]
  simp [this]

omit [LinearOrder K] [IsStrictOrderedRing K] in
theorem codeTotals_365 (x : List K) : sliceTotals x pciEnds365 0 = codeTotals x 2001 := by
  have h : ∀ m, m ≤ 12 → monthStart 2001 m = [0, 31, 59, 90, 120, 151, 181, 212, 243, 273, 304, 334, 365].getD m 0 := by
    decide
  simp only [codeTotals, monthTotal, sliceTotals, pciEnds365, List.range, List.range.loop, List.map_cons, List.map_nil,
    h 0 (by omega), h 1 (by omega), h 2 (by omega), h 3 (by omega), h 4 (by omega), h 5 (by omega), h 6 (by omega),
    h 7 (by omega), h 8 (by omega), h 9 (by omega), h 10 (by omega), h 11 (by omega), h 12 (by omega),
    Nat.reduceAdd]
  have : (slice x 31 28).sum = 0 := by simp [slice]
  simp [this]

theorem sliceTotals_sum_ge (x : List K) (h : ∀ v ∈ x, 0 ≤ v) (ends : List Nat)
    (hl : (x.length = 366 ∧ ends = pciEnds366) ∨ (x.length = 365 ∧ ends = pciEnds365)) :
    x.sum ≤ (sliceTotals x ends 0).sum := by
  have hx : ∀ n, x.length = n → (x.take n).sum = x.sum := by intro n hn; rw [← hn, List.take_length]
  rcases hl with ⟨h1, rfl⟩ | ⟨h1, rfl⟩
  · have hmid := slice_nonneg x h 29 31
    have hz : (slice x 31 29).sum = 0 := by simp [slice]
    rw [slice_sum x 29 31 (by omega)] at hmid
    simp only [sliceTotals, pciEnds366, List.sum_cons, List.sum_nil, hz]
    rw [slice_sum x 0 31 (by omega), slice_sum x 29 91 (by omega), slice_sum x 91 121 (by omega),
      slice_sum x 121 152 (by omega), slice_sum x 152 182 (by omega), slice_sum x 182 213 (by omega),
      slice_sum x 213 244 (by omega), slice_sum x 244 274 (by omega), slice_sum x 274 305 (by omega),
      slice_sum x 305 335 (by omega), slice_sum x 335 366 (by omega), hx 366 h1]
    simp only [List.take_zero, List.sum_nil]
    linarith
  · have hmid := slice_nonneg x h 28 31
    have hz : (slice x 31 28).sum = 0 := by simp [slice]
    rw [slice_sum x 28 31 (by omega)] at hmid
    simp only [sliceTotals, pciEnds365, List.sum_cons, List.sum_nil, hz]
    rw [slice_sum x 0 31 (by omega), slice_sum x 28 90 (by omega), slice_sum x 90 120 (by omega),
      slice_sum x 120 151 (by omega), slice_sum x 151 181 (by omega), slice_sum x 181 212 (by omega),
      slice_sum x 212 243 (by omega), slice_sum x 243 273 (by omega), slice_sum x 273 304 (by omega),
      slice_sum x 304 334 (by omega), slice_sum x 334 365 (by omega), hx 365 h1]
    simp only [List.take_zero, List.sum_nil]
    linarith

theorem codeTotals_nonneg (x : List K) (h : ∀ v ∈ x, 0 ≤ v) (year : Int) : ∀ v ∈ codeTotals x year, 0 ≤ v := by
  intro v hv
  unfold codeTotals at hv
  simp only [List.mem_cons, List.mem_map] at hv
  rcases hv with rfl | rfl | rfl | ⟨m, _, rfl⟩
  · exact slice_nonneg x h _ _
  · exact le_refl _
  · exact slice_nonneg x h _ _
  · exact slice_nonneg x h _ _

/-- **C33 (partial).** Full statement: for 365 or 366 daily values without missing data and with positive total, `pci` is
100 * (sum of squared calendar-month totals) / (annual total)^2, hence between 100/12 and 100. Proved: the value lies
between 100/12 and 100, and equals that quotient for the totals `codeTotals` in place of the calendar months. The month
table of the code is wrong for February, so the value itself is not Oliver's index (`C33_fails`).
`year` is any year of the length of the record, e.g. 2000 and 2001. -/
theorem C33_partial (x : List K) (year : Int) (hy : (x.length = 366 ∧ year = 2000) ∨ (x.length = 365 ∧ year = 2001))
    (hx : ∀ v ∈ x, 0 ≤ v) (hpos : 0 < x.sum) :
    ∃ v, pci (x.map Fl.fin) = .ok [.fin v] ∧ 100 / 12 ≤ v ∧ v ≤ 100 ∧ v = concentration (codeTotals x year) := by
  have key : ∀ ends, ((x.length = 366 ∧ ends = pciEnds366) ∨ (x.length = 365 ∧ ends = pciEnds365)) →
      sliceTotals x ends 0 = codeTotals x year →
      ∃ v, pci (x.map Fl.fin) = .ok [.fin v] ∧ 100 / 12 ≤ v ∧ v ≤ 100 ∧ v = concentration (codeTotals x year) := by
    intro ends he hc
    have hge := sliceTotals_sum_ge x hx ends he
    have hs : 0 < (sliceTotals x ends 0).sum := lt_of_lt_of_le hpos hge
    have hp := pci_value x ends he (ne_of_gt hs)
    rw [hc] at hp hs
    have hb := concentration_bounds (codeTotals x year) (by simp [codeTotals]) (codeTotals_nonneg x hx year) hs
    exact ⟨_, hp, hb.1, hb.2, rfl⟩
  rcases hy with ⟨h1, rfl⟩ | ⟨h1, rfl⟩
  · exact key pciEnds366 (Or.inl ⟨h1, rfl⟩) (codeTotals_366 x)
  · exact key pciEnds365 (Or.inr ⟨h1, rfl⟩) (codeTotals_365 x)

/-- **C33**, the cases in which the value is right: no rain from 30 January (29 January in an ordinary year) to the end of
February. -/
theorem C33_dry_february (x : List K) (year : Int)
    (hy : (x.length = 366 ∧ year = 2000) ∨ (x.length = 365 ∧ year = 2001))
    (hx : ∀ v ∈ x, 0 ≤ v) (hpos : 0 < x.sum)
    (hdry : (slice x (monthStart year 2 - monthStart year 1) (monthStart year 2)).sum = 0)
    (hfeb : monthTotal x year 1 = 0) :
    pci (x.map Fl.fin) = .ok [.fin (concentration (monthTotals x year))] := by
  obtain ⟨v, hv, _, _, rfl⟩ := C33_partial x year hy hx hpos
  rw [hv]
  congr 3
  have hstart : monthStart year 2 - monthStart year 1 ≤ monthStart year 2 ∧ monthStart year 2 ≤ monthStart year 3 := by
    rcases hy with ⟨_, rfl⟩ | ⟨_, rfl⟩ <;> decide
  unfold codeTotals monthTotals
  have h12 : (List.range 12).map (monthTotal x year) = monthTotal x year 0 :: monthTotal x year 1 :: monthTotal x year 2 ::
      (List.range 9).map (fun m => monthTotal x year (m + 3)) := by
    simp [List.range, List.range.loop]
  rw [h12, hfeb]
  have : (slice x (monthStart year 2 - monthStart year 1) (monthStart year 3)).sum = monthTotal x year 2 := by
    unfold monthTotal
    rw [slice_sum x _ _ hstart.1] at hdry
    rw [slice_sum x _ _ (le_trans hstart.1 hstart.2), slice_sum x _ _ hstart.2]
    linarith
  rw [this]

/-- **C33 is false**: for one unit of rain on every day of a leap year, the code's value differs from Oliver's index. -/
theorem C33_fails :
    okAnd (pci (List.replicate 366 (Fl.fin (1 : ℚ)))) (fun out =>
      decide (out = [.fin (concentration (codeTotals (List.replicate 366 (1 : ℚ)) 2000))] ∧
        out ≠ [.fin (concentration (monthTotals (List.replicate 366 (1 : ℚ)) 2000))])) = true := by decide +kernel

/-- the hypotheses of `C33_dry_february` on a year with rain in January, March and July -/
example : let x : List ℚ := [4] ++ List.replicate 59 0 ++ [3] ++ List.replicate 130 0 ++ [7] ++ List.replicate 174 0
    x.length = 366 ∧ monthTotal x 2000 1 = 0 ∧ (slice x (monthStart 2000 2 - monthStart 2000 1) (monthStart 2000 2)).sum = 0 ∧
    monthTotal x 2000 0 = 4 ∧ monthTotal x 2000 2 = 3 ∧ monthTotal x 2000 6 = 7 ∧
    okAnd (pci (x.map Fl.fin)) (fun out => decide (out = [.fin (100 * (16 + 9 + 49) / 14 ^ 2)])) = true := by decide +kernel

end CI.Props
