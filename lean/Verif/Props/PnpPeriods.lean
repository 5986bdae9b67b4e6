import Verif.Props.Pnp

/-!
# C29, which calibration periods the percentage of normal accepts
-/

namespace CI.Props
open CI

variable {F : Type} [FloatOps F]

/-- **C29, exactly.** `percentage_of_normal` returns a result if and only if the scale is given and at least one, the periodicity is known, the calibration period does not start before
the data, twelve times its number of years is not more than the number of values, and there is a value or the scale is one; in every other case it raises ValueError. The end of
the record is not looked at, nor the number of steps of a year. -/
theorem C29_exact (x : List F) (scale : Option Int) (ds cs ce : Int) (per : Periodicity) :
    ((∃ out, percentageOfNormal x scale ds cs ce per = .ok out) ↔
      ∃ k, scale = some k ∧ 1 ≤ k ∧ per ≠ .other ∧ ds ≤ cs ∧ (ce - cs + 1) * 12 ≤ x.length ∧ (x ≠ [] ∨ k = 1)) ∧
    ((¬ ∃ out, percentageOfNormal x scale ds cs ce per = .ok out) → percentageOfNormal x scale ds cs ce per = .error .valueError) := by
  have key : (∃ k, scale = some k ∧ 1 ≤ k ∧ per ≠ .other ∧ ds ≤ cs ∧ (ce - cs + 1) * 12 ≤ x.length ∧ (x ≠ [] ∨ k = 1)) →
      ∃ out, percentageOfNormal x scale ds cs ce per = .ok out := by
    rintro ⟨k, rfl, h1, hper, hds, hspan, hx⟩
    obtain ⟨n, rfl⟩ : ∃ n : ℕ, k = n := ⟨k.toNat, by omega⟩
    have hs : ∃ s, sumToScale x (n : ℤ) = .ok s := by
      rcases hx with hx | hx
      · exact sumToScale_ok x n (by omega) hx
      · exact ⟨x, by unfold sumToScale; rw [if_pos hx]⟩
    obtain ⟨s, hs⟩ := hs
    rw [pnp_unfold x n ds cs ce per hper (by omega) hds hspan, hs]
    exact ⟨_, rfl⟩
  have key' : ¬ (∃ k, scale = some k ∧ 1 ≤ k ∧ per ≠ .other ∧ ds ≤ cs ∧ (ce - cs + 1) * 12 ≤ x.length ∧ (x ≠ [] ∨ k = 1)) →
      percentageOfNormal x scale ds cs ce per = .error .valueError := by
    intro h
    cases scale with
    | none => exact C29_rejects x none ds cs ce per (.inl (fun k hk => by cases hk))
    | some k =>
      by_cases h1 : 1 ≤ k
      swap
      · exact C29_rejects x (some k) ds cs ce per (.inl (fun j hj => by cases hj; omega))
      by_cases hper : per = .other
      · exact C29_rejects x (some k) ds cs ce per (.inr (.inl hper))
      by_cases hds : ds ≤ cs
      swap
      · exact C29_rejects x (some k) ds cs ce per (.inr (.inr (by omega)))
      by_cases hspan : (ce - cs + 1) * 12 ≤ x.length
      · have hx : x = [] ∧ k ≠ 1 := by
          by_contra hc
          exact h ⟨k, rfl, h1, hper, hds, hspan, by tauto⟩
        obtain ⟨n, rfl⟩ : ∃ n : ℕ, k = n := ⟨k.toNat, by omega⟩
        rw [pnp_unfold x n ds cs ce per hper (by omega) hds hspan]
        unfold sumToScale convolveOnes
        rw [if_neg hx.2, if_pos (.inr hx.1)]
        rfl
      · unfold percentageOfNormal
        cases per with
        | other => exact absurd rfl hper
        | monthly => simp only; rw [if_neg (by omega), if_neg (by omega), if_pos (by omega)]
        | daily => simp only; rw [if_neg (by omega), if_neg (by omega), if_pos (by omega)]
  refine ⟨⟨fun h => ?_, key⟩, fun h => key' (fun hc => h (key hc))⟩
  by_contra hc
  obtain ⟨out, ho⟩ := h
  rw [key' hc] at ho
  cases ho

/-- no years, no normal: the average of nothing is missing, and so is every value -/
theorem pnp_empty [FloatLaws F] (x : List F) (k : Nat) (ds cs ce : Int) (per : Periodicity) (hper : per ≠ .other) (h1 : 1 ≤ k) (hk : k ≤ x.length) (hds : ds ≤ cs)
    (hspan : (ce - cs + 1) * 12 ≤ x.length)
    (he : ∀ s : List F, s.length = x.length → pySlice s ((cs - ds) * pnpSteps per) ((cs - ds) * pnpSteps per + (ce - cs + 1) * pnpSteps per) = []) :
    percentageOfNormal x (some k) ds cs ce per = .ok (List.replicate x.length nan) := by
  obtain ⟨s, hs, hlen⟩ : ∃ s, sumToScale x (k : ℤ) = .ok s ∧ s.length = x.length := by
    unfold sumToScale
    by_cases h : (k : ℤ) = 1
    · rw [if_pos h]; exact ⟨x, rfl, rfl⟩
    · rw [if_neg h]
      unfold convolveOnes
      rw [if_neg (by rintro (h | h); omega; subst h; simp at hk; omega)]
      simp only [Int.toNat_natCast, if_pos hk, bind, Except.bind, pure, Except.pure]
      refine ⟨_, rfl, ?_⟩
      simp
      omega
  rw [pnp_unfold x k ds cs ce per hper h1 hds hspan, hs]
  simp only [bind, Except.bind, pure, Except.pure, he s hlen]
  congr 1
  refine List.eq_replicate_iff.2 ⟨by simp [hlen], ?_⟩
  intro v hv
  obtain ⟨i, hi⟩ := List.mem_iff_getElem?.1 hv
  rw [List.getElem?_mapIdx] at hi
  obtain ⟨a, ha, hi⟩ := Option.map_eq_some_iff.1 hi
  have hm : i % pnpSteps per < pnpSteps per := Nat.mod_lt _ (pnpSteps_pos per hper)
  rw [List.getElem?_map, List.getElem?_range hm] at hi
  simp only [Option.map_some] at hi
  rw [← hi]
  have hnan : nanmean (stride (pnpSteps per) (i % pnpSteps per) ([] : List F)) = nan := by simp [stride, nanmean]
  rw [hnan, if_neg]
  intro hc
  rw [FloatLaws.flt_iff, FloatLaws.fle_nan_right] at hc
  exact absurd hc.1 (by simp)

/-- **C29 fails for periods after the record**: a calibration period that begins after the last value of the record is accepted, if only it has no more years than the number of values divided by
twelve; every value of the result is missing. -/
theorem C29_after_fails [FloatLaws F] (x : List F) (k : Nat) (ds cs ce : Int) (per : Periodicity) (hper : per ≠ .other) (h1 : 1 ≤ k) (hk : k ≤ x.length)
    (hspan : (ce - cs + 1) * 12 ≤ x.length) (hafter : (x.length : Int) ≤ (cs - ds) * pnpSteps per) :
    percentageOfNormal x (some k) ds cs ce per = .ok (List.replicate x.length nan) := by
  have hp : (0 : ℤ) < pnpSteps per := by exact_mod_cast pnpSteps_pos per hper
  have hds : ds ≤ cs := by
    by_contra hc
    have : (cs - ds) * pnpSteps per < 0 := mul_neg_of_neg_of_pos (by omega) hp
    omega
  refine pnp_empty x k ds cs ce per hper h1 hk hds hspan (fun s hs => ?_)
  unfold pySlice
  have : s.length ≤ sliceBound s.length ((cs - ds) * pnpSteps per) := by
    unfold sliceBound
    rw [if_neg (by omega)]
    omega
  simp only [List.drop_eq_nil_of_le this, List.take_nil]

/-- **C29 fails for reversed periods**: a period that ends before it begins is accepted whatever the length of the record; if it does not end before the year before the record, every value of
the result is missing. -/
theorem C29_reversed_fails [FloatLaws F] (x : List F) (k : Nat) (ds cs ce : Int) (per : Periodicity) (hper : per ≠ .other) (h1 : 1 ≤ k) (hk : k ≤ x.length)
    (hds : ds ≤ cs) (hrev : ce < cs) :
    (∃ out, percentageOfNormal x (some k) ds cs ce per = .ok out) ∧
    (ds ≤ ce + 1 → percentageOfNormal x (some k) ds cs ce per = .ok (List.replicate x.length nan)) := by
  have hspan : (ce - cs + 1) * 12 ≤ x.length := by omega
  have hx : x ≠ [] := by rintro rfl; simp at hk; omega
  refine ⟨(C29_exact x (some k) ds cs ce per).1.2 ⟨k, rfl, by omega, hper, hds, hspan, .inl hx⟩, fun hend => ?_⟩
  refine pnp_empty x k ds cs ce per hper h1 hk hds hspan (fun s hs => ?_)
  have hp : (0 : ℤ) < pnpSteps per := by exact_mod_cast pnpSteps_pos per hper
  have e : (cs - ds) * (pnpSteps per : ℤ) + (ce - cs + 1) * pnpSteps per = (ce + 1 - ds) * pnpSteps per := by ring
  have h2 : 0 ≤ (ce + 1 - ds) * (pnpSteps per : ℤ) := mul_nonneg (by omega) hp.le
  have h3 : (ce + 1 - ds) * (pnpSteps per : ℤ) ≤ (cs - ds) * pnpSteps per := mul_le_mul_of_nonneg_right (by omega) hp.le
  unfold pySlice
  rw [e]
  have : sliceBound s.length ((ce + 1 - ds) * pnpSteps per) - sliceBound s.length ((cs - ds) * pnpSteps per) = 0 := by
    unfold sliceBound
    rw [if_neg (by omega), if_neg (by omega)]
    omega
  simp only [this, List.take_zero]

/-- three years from 1990: the years 1995 to 1997, and the period from 1992 to 1990 -/
example : let x := (List.range 36).map (fun i => Fl.fin (i : ℚ) + .fin 1)
    percentageOfNormal x (some 2) 1990 1995 1997 .monthly = .ok (List.replicate 36 .nan) ∧
    percentageOfNormal x (some 2) 1990 1992 1990 .monthly = .ok (List.replicate 36 .nan) := by decide +kernel

end CI.Props
