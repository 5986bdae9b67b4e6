import Verif.Props.Ranges
import Verif.Props.Exchange
import Verif.Props.SpiMono

/-!
# C143: percentage of normal follows the amount of rain
-/

namespace CI.Props

/-! ## Within one record -/

section
variable {F : Type} [FloatOps F] [FloatLaws F]

/-- **C143.** Within a calendar step a larger sum never has the smaller percentage of normal, for rounded arithmetic as well (`FloatMono`). -/
theorem C143_order [FloatMono F] (x sums out : List F) (k : ℕ) (ds cs ce : ℤ) (per : Periodicity) (hper : per ≠ .other) (h1 : 1 ≤ k) (hds : ds ≤ cs) (hce : cs ≤ ce)
    (hspan : (ce - cs + 1) * 12 ≤ x.length) (hs : sumToScale x k = .ok sums) (h : percentageOfNormal x (some k) ds cs ce per = .ok out)
    (i j : ℕ) (hij : i % pnpSteps per = j % pnpSteps per) (a b u v : F) (ha : sums[i]? = some a) (hb : sums[j]? = some b) (hab : fle a b = true)
    (hu : out[i]? = some u) (hv : out[j]? = some v) (hun : u ≠ nan) (hvn : v ≠ nan) : fle u v = true := by
  have hx : x ≠ [] := by rintro rfl; simp only [List.length_nil] at hspan; push_cast at hspan; omega
  obtain ⟨sums', out', e1, e2, -, e3⟩ := C28_ratio x k ds cs ce per hper h1 hx hds hce hspan
  rw [hs] at e1; cases e1
  rw [h] at e2; cases e2
  have hi := e3 i a ha
  have hj := e3 j b hb
  rw [hu] at hi
  rw [hv, ← hij] at hj
  simp only [Option.some.injEq] at hi hj
  by_cases hp : flt (lit 0) (nanmean (calendarStepValues sums (pnpSteps per) (i % pnpSteps per) ds cs ce)) = true
  · rw [if_pos hp] at hi hj
    subst hi hj
    exact FloatMono.div_le_div_right _ _ _ hab hp hun hvn
  · rw [if_neg hp] at hi
    exact absurd hi hun

end

/-! ## More rain in one month -/

section
variable {K : Type} [Field K] [LinearOrder K] [IsStrictOrderedRing K]

omit [IsStrictOrderedRing K] in
theorem fsum_set (l : List (Fl K)) (h : ∀ v ∈ l, FinOrNan v) (i : ℕ) (u v : K) (hi : l[i]? = some (.fin u)) :
    (fsum l = .nan ∧ fsum (l.set i (.fin v)) = .nan) ∨ ∃ q, fsum l = .fin q ∧ fsum (l.set i (.fin v)) = .fin (q + (v - u)) := by
  show (l.foldr Fl.add (.fin 0) = .nan ∧ (l.set i (.fin v)).foldr Fl.add (.fin 0) = .nan) ∨
    ∃ q, l.foldr Fl.add (.fin 0) = .fin q ∧ (l.set i (.fin v)).foldr Fl.add (.fin 0) = .fin (q + (v - u))
  induction l generalizing i with
  | nil => simp at hi
  | cons a l ih =>
    have hl : ∀ w ∈ l, FinOrNan w := fun w hw => h w (List.mem_cons_of_mem _ hw)
    cases i with
    | zero =>
      simp only [List.getElem?_cons_zero, Option.some.injEq] at hi
      subst hi
      rw [List.set_cons_zero, List.foldr_cons, List.foldr_cons]
      have hf : FinOrNan (l.foldr Fl.add (.fin 0)) := fsum_finOrNan l hl
      rcases hf with hf | ⟨c, hf⟩
      · left; rw [hf]; exact ⟨rfl, rfl⟩
      · right; rw [hf]; exact ⟨u + c, rfl, by show Fl.fin (v + c) = _; congr 1; ring⟩
    | succ i =>
      rw [List.getElem?_cons_succ] at hi
      rw [List.set_cons_succ, List.foldr_cons, List.foldr_cons]
      rcases h a (by simp) with rfl | ⟨b, rfl⟩
      · left; exact ⟨rfl, rfl⟩
      · rcases ih hl i hi with ⟨e1, e2⟩ | ⟨q, e1, e2⟩
        · left; rw [e1, e2]; exact ⟨rfl, rfl⟩
        · right; rw [e1, e2]; exact ⟨b + q, rfl, by show Fl.fin (b + (q + (v - u))) = _; congr 1; ring⟩

/-- the sum at time `i` contains month `t` -/
abbrev Contains (t k i : ℕ) : Prop := t ≤ i ∧ i < t + k

theorem sums_raised (x s s' : List (Fl K)) (hx : ∀ w ∈ x, Amount w) (t : ℕ) (u v : K) (ht : x[t]? = some (.fin u)) (k : ℕ) (h1 : 1 ≤ k) (hkl : k ≤ x.length)
    (hs : sumToScale x k = .ok s) (hs' : sumToScale (x.set t (.fin v)) k = .ok s') (i : ℕ) (hi : i < x.length) :
    (s[i]? = some .nan ∧ s'[i]? = some .nan) ∨
      ∃ q, 0 ≤ q ∧ s[i]? = some (.fin q) ∧ s'[i]? = some (.fin (q + if Contains t k i then v - u else 0)) := by
  obtain ⟨o, e, -, a1, a2, -⟩ := C07_windows_partial x k h1 hkl
  rw [hs] at e; cases e
  obtain ⟨o, e, -, b1, b2, -⟩ := C07_windows_partial (x.set t (.fin v)) k h1 (by simpa using hkl)
  rw [hs'] at e; cases e
  rw [List.length_set] at b2
  by_cases hik : i + 1 < k
  · exact Or.inl ⟨a1 i hik, b1 i hik⟩
  have am := sumToScale_amount x s k hx hs
  rw [a2 i (by omega) hi, b2 i (by omega) hi]
  have hsi : s[i]? = _ := a2 i (by omega) hi
  have hxi : ∀ w ∈ x, FinOrNan w := fun w hw => (hx w hw).imp id (fun ⟨a, _, e⟩ => ⟨a, e⟩)
  by_cases hk1 : k = 1
  · subst hk1
    rw [if_pos rfl, if_pos rfl]
    have hxi' : x[i]? = some x[i] := List.getElem?_eq_getElem hi
    by_cases hti : t = i
    · subst hti
      rw [ht] at hxi'
      right
      refine ⟨u, ?_, ht, ?_⟩
      · rcases hx (.fin u) (List.mem_of_getElem? ht) with e | ⟨a, ha, e⟩
        · cases e
        · cases e; exact ha
      · rw [if_pos ⟨le_rfl, by omega⟩, List.getElem?_set_self hi]
        congr 2; ring
    · rw [if_neg (by rintro ⟨h, h'⟩; omega), List.getElem?_set_ne hti, hxi']
      rcases hx x[i] (List.getElem_mem hi) with e | ⟨a, ha, e⟩
      · left; rw [e]; exact ⟨rfl, rfl⟩
      · right; rw [e]
        exact ⟨a, ha, rfl, by rw [add_zero]⟩
  · rw [if_neg hk1] at hsi
    rw [if_neg hk1, if_neg hk1]
    have hm := am _ (List.mem_of_getElem? hsi)
    have hw : ∀ w ∈ slice x (i + 1 - k) (i + 1), FinOrNan w := fun w hw => hxi w (List.mem_of_mem_drop (List.mem_of_mem_take hw))
    by_cases hc : Contains t k i
    · have hget : (slice x (i + 1 - k) (i + 1))[t - (i + 1 - k)]? = some (.fin u) := by
        rw [slice_getElem? _ _ _ _ (by omega), ← ht]
        congr 1; omega
      have hset : slice (x.set t (.fin v)) (i + 1 - k) (i + 1) = (slice x (i + 1 - k) (i + 1)).set (t - (i + 1 - k)) (.fin v) := by
        unfold slice
        rw [List.drop_set, if_neg (by omega), List.take_set]
      rw [hset]
      rcases fsum_set _ hw _ u v hget with ⟨e1, e2⟩ | ⟨q, e1, e2⟩
      · left; rw [e1, e2]; exact ⟨rfl, rfl⟩
      · right
        rw [e1] at hm
        rcases hm with e | ⟨a, ha, e⟩
        · cases e
        · cases e
          rw [e1, e2, if_pos hc]
          exact ⟨q, ha, rfl, rfl⟩
    · have hset : slice (x.set t (.fin v)) (i + 1 - k) (i + 1) = slice x (i + 1 - k) (i + 1) := by
        unfold slice
        rw [List.drop_set]
        by_cases h3 : t < i + 1 - k
        · rw [if_pos h3]
        · rw [if_neg h3, List.take_set, List.set_eq_of_length_le]
          rw [List.length_take]
          have : ¬ i < t + k ∨ ¬ t ≤ i := by by_contra h; push Not at h; exact hc ⟨h.2, h.1⟩
          omega
      rw [hset, if_neg hc]
      rcases hm with e | ⟨a, ha, e⟩
      · left; rw [e]; exact ⟨rfl, rfl⟩
      · right; rw [e]; exact ⟨a, ha, rfl, by rw [add_zero]⟩

/-- the means of the same positions of two lists of sums, of which the second contains `d` more at some positions -/
theorem means_raised (s s' : List (Fl K)) (d : K) (P : ℕ → Prop) [DecidablePred P] (is : List ℕ)
    (h : ∀ i ∈ is, (s[i]? = none ∧ s'[i]? = none) ∨ (s[i]? = some .nan ∧ s'[i]? = some .nan) ∨
      ∃ q, 0 ≤ q ∧ s[i]? = some (.fin q) ∧ s'[i]? = some (.fin (q + if P i then d else 0))) :
    ∃ q q' : List K, ∃ c : ℕ, (is.filterMap (fun i => s[i]?)).filter (fun v => !isNan v) = q.map Fl.fin ∧
      (is.filterMap (fun i => s'[i]?)).filter (fun v => !isNan v) = q'.map Fl.fin ∧ q'.length = q.length ∧ q'.sum = q.sum + c * d ∧ c ≤ is.countP (fun i => decide (P i)) ∧
      0 ≤ q.sum ∧ ∀ i ∈ is, ∀ a, s[i]? = some (.fin a) → a ≤ q.sum := by
  induction is with
  | nil => exact ⟨[], [], 0, rfl, rfl, rfl, by simp, by simp, by simp, by simp⟩
  | cons i is ih =>
    obtain ⟨q, q', c, h1, h2, h3, h4, h5, h6, h7⟩ := ih fun j hj => h j (List.mem_cons_of_mem _ hj)
    have hc : c ≤ (i :: is).countP (fun i => decide (P i)) := h5.trans (by rw [List.countP_cons]; omega)
    rcases h i (by simp) with ⟨e1, e2⟩ | ⟨e1, e2⟩ | ⟨r, hr, e1, e2⟩
    · refine ⟨q, q', c, by rw [List.filterMap_cons, e1]; exact h1, by rw [List.filterMap_cons, e2]; exact h2, h3, h4, hc, h6, ?_⟩
      intro j hj a ha
      rcases List.mem_cons.1 hj with rfl | hj
      · rw [e1] at ha; cases ha
      · exact h7 j hj a ha
    · refine ⟨q, q', c, ?_, ?_, h3, h4, hc, h6, ?_⟩
      · rw [List.filterMap_cons, e1]
        exact (List.filter_cons_of_neg (by simp)).trans h1
      · rw [List.filterMap_cons, e2]
        exact (List.filter_cons_of_neg (by simp)).trans h2
      · intro j hj a ha
        rcases List.mem_cons.1 hj with rfl | hj
        · rw [e1] at ha; cases ha
        · exact h7 j hj a ha
    · refine ⟨r :: q, (r + if P i then d else 0) :: q', c + (if P i then 1 else 0), ?_, ?_, by simp [h3], ?_, ?_, ?_, ?_⟩
      · rw [List.filterMap_cons, e1]
        exact (List.filter_cons_of_pos (by simp)).trans (by rw [h1]; rfl)
      · rw [List.filterMap_cons, e2]
        exact (List.filter_cons_of_pos (by simp)).trans (by rw [h2]; rfl)
      · rw [List.sum_cons, List.sum_cons, h4]
        split <;> push_cast <;> ring
      · rw [List.countP_cons]
        simp only [decide_eq_true_eq]
        split <;> omega
      · rw [List.sum_cons]; exact add_nonneg hr h6
      · intro j hj a ha
        rw [List.sum_cons]
        rcases List.mem_cons.1 hj with rfl | hj
        · rw [e1] at ha; cases ha
          exact le_add_of_nonneg_right h6
        · exact (h7 j hj a ha).trans (le_add_of_nonneg_left hr)

theorem calendar_index (s : List (Fl K)) (p j : ℕ) (ds cs ce : ℤ) :
    calendarStepValues s p j ds cs ce = ((List.range (ce - cs + 1).toNat).map (fun y => ((cs - ds).toNat + y) * p + j)).filterMap (fun i => s[i]?) := by
  unfold calendarStepValues
  rw [List.filterMap_map]
  rfl

/-- **C143.** More rain in one month (exact arithmetic, a scale of at most a year): no percentage of normal of a sum that contains the month falls, also if the month
belongs to the calibration years, and none of the other sums rises. No value becomes missing. -/
theorem C143_more (x : List (Fl K)) (hx : ∀ w ∈ x, Amount w) (t : ℕ) (u v : K) (ht : x[t]? = some (.fin u)) (huv : u ≤ v) (k : ℕ) (h1 : 1 ≤ k) (hkl : k ≤ x.length)
    (per : Periodicity) (hper : per ≠ .other) (hk : k ≤ pnpSteps per) (ds cs ce : ℤ) (hds : ds ≤ cs) (hce : cs ≤ ce) (hspan : (ce - cs + 1) * 12 ≤ x.length) :
    ∃ out out', percentageOfNormal x (some k) ds cs ce per = .ok out ∧ percentageOfNormal (x.set t (.fin v)) (some k) ds cs ce per = .ok out' ∧
      out.length = x.length ∧ out'.length = x.length ∧
      ∀ i a, out[i]? = some (.fin a) → ∃ b, out'[i]? = some (.fin b) ∧ if t ≤ i ∧ i < t + k then a ≤ b else b ≤ a := by
  have hne : x ≠ [] := by rintro rfl; simp at ht
  obtain ⟨s, out, e1, e2, e3, e4⟩ := C28_ratio x k ds cs ce per hper h1 hne hds hce hspan
  obtain ⟨s', out', f1, f2, f3, f4⟩ := C28_ratio (x.set t (.fin v)) k ds cs ce per hper h1 (by simpa using hne) hds hce (by simpa using hspan)
  have hl : s.length = x.length := by
    obtain ⟨o, e, hl, -⟩ := C07_windows_partial x k h1 hkl
    rw [e1] at e; cases e; exact hl
  have hl' : s'.length = x.length := by
    obtain ⟨o, e, hl, -⟩ := C07_windows_partial (x.set t (.fin v)) k h1 (by simpa using hkl)
    rw [f1] at e; cases e; simpa using hl
  refine ⟨out, out', e2, f2, e3.trans hl, f3.trans hl', ?_⟩
  intro i a hi
  have hil : i < x.length := by rw [← hl, ← e3]; exact (List.getElem?_eq_some_iff.1 hi).1
  have hr := sums_raised x s s' hx t u v ht k h1 hkl e1 f1
  have hp := pnpSteps_pos per hper
  generalize pnpSteps per = p at *
  have hd : 0 ≤ v - u := sub_nonneg.2 huv
  have hpos : Fl.fin (0 : K) = lit 0 := by rw [Fl.lit_def]; simp
  rcases hr i hil with ⟨g1, -⟩ | ⟨r, hr0, g1, g2⟩
  · rw [e4 i _ g1] at hi
    simp only [Option.some.injEq] at hi
    split at hi
    · rw [show (Fl.nan : Fl K) = nan from rfl, FloatLaws.nan_div] at hi; cases hi
    · cases hi
  rw [e4 i _ g1] at hi
  rw [f4 i _ g2]
  simp only [Option.some.injEq] at hi ⊢
  rw [calendar_index] at hi ⊢
  obtain ⟨q, q', c, n1, n2, n3, n4, n5, n6, n7⟩ := means_raised s s' (v - u) (Contains t k) ((List.range (ce - cs + 1).toNat).map (fun y => ((cs - ds).toNat + y) * p + i % p)) (by
    intro j _
    by_cases hj : j < x.length
    · exact Or.inr (hr j hj)
    · exact Or.inl ⟨List.getElem?_eq_none (by omega), List.getElem?_eq_none (by omega)⟩)
  rw [nanmean_fin _ _ n1] at hi
  rw [nanmean_fin _ _ n2]
  by_cases hq : q = []
  · rw [if_pos hq, if_neg (by rw [show (Fl.nan : Fl K) = nan from rfl]; simp)] at hi
    cases hi
  have hq' : q' ≠ [] := by
    intro e; rw [e, List.length_nil] at n3
    exact hq (List.length_eq_zero_iff.1 n3.symm)
  rw [if_neg hq] at hi
  rw [if_neg hq', n3, n4]
  have hm : (0 : K) < q.length := by
    have : 0 < q.length := List.length_pos_iff.2 hq
    exact_mod_cast this
  by_cases hS : 0 < q.sum
  · have hS' : 0 < q.sum + c * (v - u) := add_pos_of_pos_of_nonneg hS (mul_nonneg (Nat.cast_nonneg _) hd)
    have w1 : flt (lit 0) (Fl.fin (q.sum / q.length)) = true := by
      rw [← hpos, Fl.flt_fin]; exact decide_eq_true (div_pos hS hm)
    have w2 : flt (lit 0) (Fl.fin ((q.sum + c * (v - u)) / q.length)) = true := by
      rw [← hpos, Fl.flt_fin]; exact decide_eq_true (div_pos hS' hm)
    rw [if_pos w1, Fl.fin_div_of_ne _ _ (div_pos hS hm).ne', Fl.fin.injEq] at hi
    rw [if_pos w2, Fl.fin_div_of_ne _ _ (div_pos hS' hm).ne']
    refine ⟨_, rfl, ?_⟩
    subst hi
    by_cases hc : Contains t k i
    · rw [if_pos hc, if_pos hc]
      have hsame : ∀ y, Contains t k (((cs - ds).toNat + y) * p + i % p) → ((cs - ds).toNat + y) * p + i % p = i := by
        rintro y ⟨y1, y2⟩
        obtain ⟨y3, y4⟩ := hc
        have e := Nat.div_add_mod i p
        rw [Nat.mul_comm] at e
        have : (cs - ds).toNat + y = i / p := by
          rcases Nat.lt_trichotomy ((cs - ds).toNat + y) (i / p) with h | h | h
          · have := Nat.mul_le_mul_right p (show (cs - ds).toNat + y + 1 ≤ i / p from h)
            rw [Nat.add_mul, Nat.one_mul] at this
            omega
          · exact h
          · have := Nat.mul_le_mul_right p (show i / p + 1 ≤ (cs - ds).toNat + y from h)
            rw [Nat.add_mul, Nat.one_mul] at this
            omega
        rw [this]; exact e
      have hle : q.sum * (r + (v - u)) ≥ r * (q.sum + c * (v - u)) := by
        by_cases hmem : i ∈ (List.range (ce - cs + 1).toNat).map (fun y => ((cs - ds).toNat + y) * p + i % p)
        · have hrS := n7 i hmem r g1
          have hc1 : (c : K) ≤ 1 := by
            have hnd : ((List.range (ce - cs + 1).toNat).map (fun y => ((cs - ds).toNat + y) * p + i % p)).Nodup := by
              refine List.Nodup.map ?_ List.nodup_range
              intro y y' e
              have e' : ((cs - ds).toNat + y) * p = ((cs - ds).toNat + y') * p := by
                simp only at e; omega
              have := Nat.eq_of_mul_eq_mul_right hp e'
              omega
            have : c ≤ 1 := by
              refine n5.trans (le_trans ?_ (List.nodup_iff_count_le_one.1 hnd i))
              unfold List.count
              apply List.countP_mono_left
              intro j hj hcj
              obtain ⟨y, -, rfl⟩ := List.mem_map.1 hj
              rw [beq_iff_eq]
              exact hsame y (of_decide_eq_true hcj)
            exact_mod_cast this
          have : r * (c * (v - u)) ≤ q.sum * (v - u) := by
            calc r * (c * (v - u)) ≤ r * (1 * (v - u)) := mul_le_mul_of_nonneg_left (mul_le_mul_of_nonneg_right hc1 hd) hr0
              _ = r * (v - u) := by ring
              _ ≤ q.sum * (v - u) := mul_le_mul_of_nonneg_right hrS hd
          nlinarith
        · have hc0 : c = 0 := by
            have : ((List.range (ce - cs + 1).toNat).map (fun y => ((cs - ds).toNat + y) * p + i % p)).countP (fun i => decide (Contains t k i)) = 0 := by
              rw [List.countP_eq_zero]
              intro j hj hcj
              have hj' := hj
              obtain ⟨y, -, rfl⟩ := List.mem_map.1 hj
              exact hmem (by rw [hsame y (of_decide_eq_true hcj)] at hj'; exact hj')
            omega
          rw [hc0]
          have := mul_nonneg n6 hd
          push_cast
          nlinarith
      rw [div_div_eq_mul_div, div_div_eq_mul_div, div_le_div_iff₀ hS hS']
      nlinarith
    · rw [if_neg hc, if_neg hc, add_zero]
      refine div_le_div_of_nonneg_left hr0 (div_pos hS hm) (div_le_div_of_nonneg_right ?_ hm.le)
      exact le_add_of_nonneg_right (mul_nonneg (Nat.cast_nonneg _) hd)
  · have w1 : flt (lit 0) (Fl.fin (q.sum / q.length)) = false := by
      rw [← hpos, Fl.flt_fin]
      exact decide_eq_false (not_lt.2 (div_nonpos_of_nonpos_of_nonneg (not_lt.1 hS) hm.le))
    rw [w1] at hi
    cases hi

end

/-- two years with a missing value -/
def twoWet : List (Fl ℚ) := (List.range 24).map (fun i => if i = 4 then .nan else .fin ((i % 5 : ℕ) + 1))

theorem twoWet_amount : ∀ w ∈ twoWet, Amount w := by
  intro w hw
  obtain ⟨i, -, rfl⟩ := List.mem_map.1 hw
  split
  · exact Or.inl rfl
  · exact Or.inr ⟨_, by positivity, rfl⟩

/-- The second February gets 7 mm instead of 4 mm: the percentage of normal of the second sum January to March rises from 133 to 143, that of the first falls from 67 to 57;
a missing value stays missing. -/
example : okAnd (percentageOfNormal twoWet (some 3) 1990 1990 1991 .monthly) (fun a => okAnd (percentageOfNormal (twoWet.set 13 (.fin 7)) (some 3) 1990 1990 1991 .monthly) (fun b =>
    decide (a[14]? = some (.fin (4 / 3))) && decide (b[14]? = some (.fin (10 / 7))) && decide (a[2]? = some (.fin (2 / 3))) && decide (b[2]? = some (.fin (4 / 7))) &&
    decide (a[5]? = some .nan) && decide (b[5]? = some .nan))) = true := by
  decide +kernel

/-- the two years meet the hypotheses -/
example := C143_more twoWet twoWet_amount 13 4 7 (by decide +kernel) (by norm_num) 3 (by norm_num) (by decide) .monthly (by decide) (by decide) 1990 1990 1991 (by norm_num) (by norm_num)
  (by decide)

/-- **C143 fails for scales of more than a year.** A month belongs to two of the 13-month sums of the same calendar month. If it gets 60 mm of rain instead of none, the
percentage of normal of a sum that contains it falls from 200 to 150. -/
theorem C143_scale_fails :
    okAnd (percentageOfNormal (List.replicate 12 (Fl.fin (10 : ℚ)) ++ List.replicate 24 (Fl.fin 0)) (some 13) 1990 1990 1992 .monthly) (fun a =>
      okAnd (percentageOfNormal ((List.replicate 12 (Fl.fin (10 : ℚ)) ++ List.replicate 24 (Fl.fin 0)).set 12 (Fl.fin 60)) (some 13) 1990 1990 1992 .monthly) (fun b =>
        decide (a[12]? = some (.fin 2)) && decide (b[12]? = some (.fin (3 / 2))))) = true := by
  decide +kernel

/-- two years, in each of which all months are equal -/
def pairYears64 (a b : ℚ) : List (B64 leftToRight) := List.replicate 12 (CI.lit a) ++ List.replicate 12 (CI.lit b)

/-- **C143 fails in float64** for a month of the calibration years: if the first January has not 0.4 mm but the next larger float64 number, its percentage of normal is
not 160 but the next smaller number. -/
theorem C143_fails64 :
    okAnd (percentageOfNormal (pairYears64 0.4 0.1) (some 1) 1990 1990 1991 .monthly) (fun a =>
      okAnd (percentageOfNormal ((pairYears64 0.4 0.1).set 0 (CI.lit (0.4 + 1 / 2 ^ 54))) (some 1) 1990 1990 1991 .monthly) (fun b =>
        match (pairYears64 0.4 0.1)[0]?.map ratOf, ((pairYears64 0.4 0.1).set 0 (CI.lit (0.4 + 1 / 2 ^ 54)))[0]?.map ratOf, a[0]?.map ratOf, b[0]?.map ratOf with
        | some (some p), some (some p'), some (some r), some (some r') => decide (p < p') && decide (r' < r)
        | _, _, _, _ => false)) = true := by
  decide +kernel

end CI.Props
