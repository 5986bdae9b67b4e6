import Verif.Props.Lmoments
import Verif.Spec.Pearson

/-!
# The fitted Pearson distribution has the mean and the L-scale of the sample (C83)
-/

namespace CI.Props
open Finset

theorem lscale_factor (l2 t3 : ℝ) (h3 : |t3| < 1) : Pearson3.lscale (l2 * scaleFactor t3) (skewFactor t3) = l2 := by
  have hpi : Real.sqrt Real.pi ≠ 0 := (Real.sqrt_pos.2 Real.pi_pos).ne'
  unfold scaleFactor skewFactor Pearson3.lscale
  by_cases h6 : |t3| ≤ 1e-6
  · rw [if_pos h6, if_pos h6, if_pos rfl]
    field_simp
  · rw [if_neg h6, if_neg h6]
    have h0 : 0 < |t3| := lt_of_lt_of_le (by norm_num) (not_le.1 h6).le
    have hpos := shapeOf_pos _ h0 h3
    generalize shapeOf |t3| = α at hpos
    have hr := Real.sqrt_pos.2 hpos
    have hsq : Real.sqrt α ^ 2 = α := Real.sq_sqrt hpos.le
    have hskew : ∃ s : ℝ, (if t3 < 0 then -2 / Real.sqrt α else 2 / Real.sqrt α) = s ∧ s ≠ 0 ∧ |s| = 2 / Real.sqrt α ∧ 4 / s ^ 2 = α := by
      refine ⟨_, rfl, ?_⟩
      have hp : 0 < 2 / Real.sqrt α := by positivity
      have h4 : 4 / (2 / Real.sqrt α) ^ 2 = α := by
        rw [div_pow, hsq]
        field_simp
        norm_num
      split
      · have e : -2 / Real.sqrt α = -(2 / Real.sqrt α) := by ring
        rw [e, abs_neg, abs_of_pos hp, neg_sq]
        exact ⟨neg_ne_zero.2 hp.ne', rfl, h4⟩
      · rw [abs_of_pos hp]
        exact ⟨hp.ne', rfl, h4⟩
    obtain ⟨s, hs, hne, habs, h4⟩ := hskew
    rw [hs, if_neg hne, habs, h4]
    have hg : 0 < Real.Gamma α := Real.Gamma_pos_of_pos hpos
    have hg' : 0 < Real.Gamma (α + 0.5) := Real.Gamma_pos_of_pos (by positivity)
    rw [Real.exp_sub, Real.exp_log hg, Real.exp_log hg']
    have e5 : (α + 1 / 2 : ℝ) = α + 0.5 := by norm_num
    rw [e5]
    field_simp

/-- **C83.** The fitted distribution has the mean and the L-scale of the sample: whenever `fit` returns, the location is the mean of the non-missing
values, and the second L-moment of the Pearson type III distribution with the returned scale and skew (formula of `Spec/Pearson`) is half the mean
absolute difference of two values of the sample. Exact arithmetic. -/
theorem C83_match (E : Ext (Fl ℝ)) (hR : ExtReal E) (values : List (Fl ℝ)) (q : List ℝ) (hq : Sample values q) (h4 : 4 ≤ q.length)
    (r : Fl ℝ × Fl ℝ × Fl ℝ) (h : lmomentsFit E values = .ok r) :
    ∃ scale skew : ℝ, r = (.fin (q.sum / q.length), .fin scale, .fin skew) ∧
      Pearson3.lscale scale skew = pairDiff q / (q.length * (q.length - 1)) / 2 := by
  have hloc := C24_loc E hR values q hq h4 r h
  obtain ⟨he, ho⟩ := lmomentsFit_eq E hR values q hq h4
  have hab : ¬ AllButOne q := by
    intro hab
    rw [he hab] at h; cases h
  obtain ⟨hp, ht, hf⟩ := ho hab
  rw [hf] at h
  cases h
  refine ⟨_, _, Prod.ext hloc rfl, ?_⟩
  rw [lscale_factor _ _ ht]
  have hs := C24_scale values q hq h4 _ (estimateLmoments_eq values q hq h4)
  rw [if_neg hp.ne'] at hs
  exact Fl.fin.inj hs

/-! ## Mirror -/

theorem getD_mirror (x : List ℝ) (i : Nat) (hi : i < x.length) :
    ((x.map (fun v => -v)).reverse).getD i 0 = -(x.getD (x.length - 1 - i) 0) := by
  rw [List.getD_eq_getElem?_getD, List.getD_eq_getElem?_getD, List.getElem?_reverse (by rw [List.length_map]; exact hi), List.getElem?_map,
    List.length_map, List.getElem?_eq_getElem (show x.length - 1 - i < x.length by omega)]
  rfl

theorem wsum_mirror (x : List ℝ) (w : Nat → ℝ) :
    wsum w 0 ((x.map (fun v => -v)).reverse) = -wsum (fun j => w (x.length - 1 - j)) 0 x := by
  rw [wsum_eq, wsum_eq, List.length_reverse, List.length_map, ← Finset.sum_range_reflect, ← Finset.sum_neg_distrib]
  apply Finset.sum_congr rfl
  intro j hj
  have hj := mem_range.1 hj
  rw [getD_mirror x _ (by omega), show x.length - 1 - (x.length - 1 - j) = j by omega]
  simp only [Nat.zero_add]
  ring

theorem mom_mirror (x : List ℝ) (h : 4 ≤ x.length) :
    mom0 ((x.map (fun v => -v)).reverse) = -mom0 x ∧
    mom1 ((x.map (fun v => -v)).reverse) = -((x.length - 1) * mom0 x) + mom1 x ∧
    mom2 ((x.map (fun v => -v)).reverse) = -((x.length - 1) * (x.length - 2) * mom0 x - 2 * (x.length - 2) * mom1 x + mom2 x) := by
  unfold mom0 mom1 mom2
  refine ⟨by rw [wsum_mirror], ?_, ?_⟩
  · rw [wsum_mirror, wsum_eq, wsum_eq, wsum_eq, Finset.mul_sum, ← Finset.sum_neg_distrib, ← Finset.sum_neg_distrib, ← Finset.sum_add_distrib]
    apply Finset.sum_congr rfl
    intro j hj
    have hj := mem_range.1 hj
    simp only [Nat.zero_add]
    rw [Nat.cast_sub (by omega), Nat.cast_sub (by omega)]
    push_cast
    ring
  · rw [wsum_mirror, wsum_eq, wsum_eq, wsum_eq, wsum_eq, Finset.mul_sum, Finset.mul_sum, ← Finset.sum_sub_distrib, ← Finset.sum_add_distrib]
    congr 1
    apply Finset.sum_congr rfl
    intro j hj
    have hj := mem_range.1 hj
    simp only [Nat.zero_add]
    rw [Nat.cast_sub (by omega), Nat.cast_sub (by omega)]
    push_cast
    ring

theorem lam_mirror (x : List ℝ) (h : 4 ≤ x.length) :
    lam1 ((x.map (fun v => -v)).reverse) = -lam1 x ∧ lam2 ((x.map (fun v => -v)).reverse) = lam2 x ∧
      lam3 ((x.map (fun v => -v)).reverse) = -lam3 x := by
  obtain ⟨m0, m1, m2⟩ := mom_mirror x h
  have hl : ((x.map (fun v => -v)).reverse).length = x.length := by rw [List.length_reverse, List.length_map]
  have hn : (4 : ℝ) ≤ (x.length : ℝ) := by exact_mod_cast h
  have n1 : (x.length : ℝ) - 1 ≠ 0 := by linarith
  have n2 : (x.length : ℝ) - 2 ≠ 0 := by linarith
  have n0 : (x.length : ℝ) ≠ 0 := by linarith
  unfold lam3 lam2 lam1
  rw [hl, m0, m1, m2]
  refine ⟨by ring, ?_, ?_⟩
  · field_simp
    ring
  · field_simp
    ring

theorem sortR_mirror (q : List ℝ) : sortR (q.map (fun v => -v)) = ((sortR q).map (fun v => -v)).reverse := by
  apply sortR_unique
  · exact (List.reverse_perm _).trans ((sortR_perm q).map _)
  · rw [List.pairwise_reverse, List.pairwise_map]
    exact (sortR_pairwise q).imp (fun h => neg_le_neg h)

theorem sample_neg (values : List (Fl ℝ)) (q : List ℝ) (hq : Sample values q) (h : ∀ v ∈ values, FinOrNan v) :
    Sample (values.map (fun v => -v)) (q.map (fun v => -v)) := by
  obtain ⟨q', h1, h2⟩ := filter_finOrNan values h (fun v => -v) (fun v => -v) rfl (fun v => by simp)
  unfold Sample at *
  rw [hq] at h1
  have : q = q' := (List.map_injective_iff.2 (fun a b hab => by injection hab)) h1
  rw [h2, this]

theorem allButOne_neg (q : List ℝ) : AllButOne (q.map (fun v => -v)) ↔ AllButOne q := by
  have fwd : ∀ q : List ℝ, AllButOne q → AllButOne (q.map (fun v => -v)) := by
    rintro q ⟨c, d, hp⟩
    refine ⟨-c, -d, ?_⟩
    have := hp.map (fun v => -v)
    rwa [List.map_cons, List.map_replicate, ← List.length_map (f := fun v : ℝ => -v)] at this
  constructor
  · intro h
    have := fwd _ h
    rw [List.map_map] at this
    have e : ((fun v : ℝ => -v) ∘ fun v => -v) = id := by
      funext v; simp
    rwa [e, List.map_id] at this
  · exact fwd q

theorem factor_neg (t : ℝ) : scaleFactor (-t) = scaleFactor t ∧ skewFactor (-t) = -skewFactor t := by
  unfold scaleFactor skewFactor
  rw [abs_neg]
  refine ⟨rfl, ?_⟩
  split
  · simp
  · next h6 =>
    have h0 : t ≠ 0 := by
      intro hc
      rw [hc, abs_zero] at h6
      norm_num at h6
    rcases lt_or_gt_of_ne h0 with h | h
    · rw [if_neg (by linarith), if_pos h]; ring
    · rw [if_pos (by linarith), if_neg (by linarith)]; ring

/-- **C83, mirror.** The fit of the negated sample is the mirrored distribution: opposite location and skew, same scale; if one fit fails, so does the
other. -/
theorem C83_mirror (E : Ext (Fl ℝ)) (hR : ExtReal E) (values : List (Fl ℝ)) (hv : ∀ v ∈ values, FinOrNan v) :
    lmomentsFit E (values.map (fun v => -v)) = (lmomentsFit E values).map (fun r => (-r.1, r.2.1, -r.2.2)) := by
  obtain ⟨q, hq⟩ := sample_exists values hv
  have hq' := sample_neg values q hq hv
  by_cases h4 : 4 ≤ q.length
  · obtain ⟨e1, o1⟩ := lmomentsFit_eq E hR values q hq h4
    obtain ⟨e2, o2⟩ := lmomentsFit_eq E hR _ _ hq' (by simpa using h4)
    by_cases hab : AllButOne q
    · rw [e1 hab, e2 ((allButOne_neg q).2 hab)]; rfl
    · obtain ⟨hp, _, h⟩ := o1 hab
      obtain ⟨_, _, h'⟩ := o2 (fun h => hab ((allButOne_neg q).1 h))
      obtain ⟨l1, l2, l3⟩ := lam_mirror (sortR q) (by rw [sortR_length]; exact h4)
      obtain ⟨f1, f2⟩ := factor_neg (lam3 (sortR q) / lam2 (sortR q))
      rw [h, h', sortR_mirror q, l1, l2, l3, neg_div, f1, f2]
      simp only [Except.map, Fl.fin_neg]
  · rw [C24_few E values (by rw [countP_finite _ _ hq]; omega),
      C24_few E _ (by rw [countP_finite _ _ hq', List.length_map]; omega)]
    rfl

/-! ## Concrete case -/

/-- C83 on the sample 3, missing, 0, 1, 8: L-scale 13/6, and the fit of the mirrored sample -/
example : ∃ loc scale skew : ℝ, lmomentsFit realExt [Fl.fin 3, .nan, .fin 0, .fin 1, .fin 8] = .ok (.fin loc, .fin scale, .fin skew) ∧
    loc = 3 ∧ Pearson3.lscale scale skew = 13 / 6 ∧
    lmomentsFit realExt [Fl.fin (-3), .nan, .fin (-0), .fin (-1), .fin (-8)] = .ok (.fin (-loc), .fin scale, .fin (-skew)) := by
  have hq : Sample [Fl.fin 3, .nan, .fin 0, .fin 1, .fin 8] [3, 0, 1, 8] := by simp [Sample]
  obtain ⟨loc, scale, skew, h, hs⟩ := (C24_fit realExt realExt_real _ _ hq (by decide)).2 (by
    rintro ⟨c, d, h⟩
    have h1 : (3 : ℝ) ∈ d :: List.replicate 3 c := h.mem_iff.1 (by simp)
    have h2 : (0 : ℝ) ∈ d :: List.replicate 3 c := h.mem_iff.1 (by simp)
    have h3 : (1 : ℝ) ∈ d :: List.replicate 3 c := h.mem_iff.1 (by simp)
    simp only [List.mem_cons, List.mem_replicate] at h1 h2 h3
    rcases h1 with h1 | ⟨_, h1⟩ <;> rcases h2 with h2 | ⟨_, h2⟩ <;> rcases h3 with h3 | ⟨_, h3⟩ <;> linarith)
  obtain ⟨scale', skew', e, hl⟩ := C83_match realExt realExt_real _ _ hq (by decide) _ h
  injection e with e1 e2
  injection e2 with e2 e3
  injection e1 with e1
  injection e2 with e2
  injection e3 with e3
  subst e2 e3
  refine ⟨loc, scale, skew, h, ?_, ?_, ?_⟩
  · rw [e1]; norm_num
  · rw [hl]
    norm_num [pairDiff]
  · have hm := C83_mirror realExt realExt_real [Fl.fin 3, .nan, .fin 0, .fin 1, .fin 8] (by
      intro v hv
      simp only [List.mem_cons, List.not_mem_nil, or_false] at hv
      rcases hv with rfl | rfl | rfl | rfl | rfl
      · exact Or.inr ⟨_, rfl⟩
      · exact Or.inl rfl
      · exact Or.inr ⟨_, rfl⟩
      · exact Or.inr ⟨_, rfl⟩
      · exact Or.inr ⟨_, rfl⟩)
    rw [h] at hm
    exact hm

end CI.Props
