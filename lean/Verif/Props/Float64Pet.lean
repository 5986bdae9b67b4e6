import Verif.Props.Float64Daylight
import Verif.Lemmas.LogErr

/-!
# C134: Thornthwaite's potential evapotranspiration in binary64 arithmetic
-/

namespace CI.Props
open B64

variable {σ : SumOrder}

/-! ## Specification -/

/-- accuracy of `pow` on float64 numbers: relative error 2^-50, unless the result is extremely small or large; powers of zero and of NaN are exact -/
structure PowNear (T : Trig (B64 σ)) : Prop where
  near : ∀ x y p q, ext x = .fin p → ext y = .fin q → 0 < p → 0 < q → (2 : ℝ) ^ (-1000 : ℤ) ≤ (p : ℝ) ^ (q : ℝ) → (p : ℝ) ^ (q : ℝ) ≤ 2 ^ (1000 : ℤ) →
    ∃ r : ℚ, ext (T.pow x y) = .fin r ∧ |(r : ℝ) - (p : ℝ) ^ (q : ℝ)| ≤ (p : ℝ) ^ (q : ℝ) / 2 ^ 50
  zero : ∀ x y q, ext x = .fin 0 → ext y = .fin q → 0 < q → ext (T.pow x y) = .fin 0
  nan : ∀ y q, ext y = .fin q → 0 < q → T.pow nan y = nan

/-- a temperature of the record as a real number; NaN is missing -/
noncomputable def real64 (v : B64 σ) : Option ℝ := match ext v with
  | .fin q => some (q : ℝ)
  | _ => none

/-- a monthly temperature in degrees Celsius: missing, or at most 40 and not between 0 and 0.001 -/
def Temp (v : B64 σ) : Prop := v = .nan ∨ ∃ q, ext v = .fin q ∧ (q ≤ 0 ∨ 1 / 1000 ≤ q) ∧ q ≤ 40

/-! ## Powers -/

theorem inRange_log {A : ℝ} (hA : 0 < A) (h1 : -600 ≤ Real.log A) (h2 : Real.log A ≤ 130) : InRange A := by
  have l2 := Real.log_two_gt_d9
  have l2' := Real.log_two_lt_d9
  constructor
  · right
    rw [← Real.log_le_log_iff (by positivity) hA, Real.log_zpow]
    push_cast
    linarith
  · rw [← Real.log_le_log_iff hA (by positivity), Real.log_zpow]
    push_cast
    linarith

theorem log_of_bounds {A : ℝ} {k m : ℝ} (hA : 0 < A) (h1 : (2 : ℝ) ^ (-k) ≤ A) (h2 : A ≤ 2 ^ m) (hk : 0 ≤ k) (hm : 0 ≤ m) : -(0.7 * k) ≤ Real.log A ∧ Real.log A ≤ 0.7 * m := by
  have l2 := Real.log_two_gt_d9
  have l2' := Real.log_two_lt_d9
  have e1 := Real.log_le_log (by positivity) h1
  have e2 := Real.log_le_log hA h2
  rw [Real.log_rpow (by norm_num)] at e1 e2
  constructor
  · refine le_trans ?_ e1
    rw [neg_mul, neg_le_neg_iff, mul_comm]
    exact mul_le_mul_of_nonneg_right (by linarith) hk
  · refine e2.trans ?_
    rw [mul_comm]
    exact mul_le_mul_of_nonneg_right (by linarith) hm

theorem val_pow {T : Trig (B64 σ)} (hP : PowNear T) {e A Y η L : ℝ} {x y : B64 σ} {q : ℚ} (hx : Val e A x) (hy : ext y = .fin q) (hq : 0 < q) (hY : 0 ≤ Y)
    (hqY : |(q : ℝ) - Y| ≤ η) (hA : 0 < A) (hL : |Real.log A| ≤ L) (he : e ≤ 1) (hr : InRange (A ^ Y)) (hf : η * (L + 1) + Y * e ≤ 1) :
    Val (η * (L + 1) + Y * e + 1 / 2 ^ 49) (A ^ Y) (T.pow x y) := by
  obtain ⟨p, hp, lp⟩ := hx
  have hp0 := lp.pos_iff.2 hA
  have hp0' : 0 < p := by exact_mod_cast hp0
  have h1 := LogE.exponent hp0 (q : ℝ) Y
  have hlog : |Real.log p| ≤ L + 1 := by
    have h2 := lp.log_le hA
    have h3 := abs_sub_abs_le_abs_sub (Real.log p) (Real.log A)
    linarith
  have hη : 0 ≤ η := (abs_nonneg _).trans hqY
  have h2 : LogE (η * (L + 1)) ((p : ℝ) ^ (q : ℝ)) ((p : ℝ) ^ Y) := h1.mono (mul_le_mul hqY hlog (abs_nonneg _) hη)
  have h3 := h2.trans (lp.rpow hY)
  obtain ⟨h4, h5⟩ := h3.le_three hf
  have hAY : 0 < A ^ Y := Real.rpow_pos_of_pos hA _
  have hlow : (2 : ℝ) ^ (-1000 : ℤ) ≤ (p : ℝ) ^ (q : ℝ) := by
    have h6 : (2 : ℝ) ^ (-900 : ℤ) ≤ A ^ Y := hr.1.resolve_left hAY.ne'
    have e1 : (2 : ℝ) ^ (-900 : ℤ) = 2 ^ (100 : ℤ) * 2 ^ (-1000 : ℤ) := by rw [← zpow_add₀ (by norm_num)]; norm_num
    have h7 : (3 : ℝ) * 2 ^ (-1000 : ℤ) ≤ 2 ^ (100 : ℤ) * 2 ^ (-1000 : ℤ) := mul_le_mul_of_nonneg_right (by norm_num) (by positivity)
    rw [← e1] at h7
    exact le_of_mul_le_mul_left (h7.trans (h6.trans h5)) (by norm_num)
  have hhigh : (p : ℝ) ^ (q : ℝ) ≤ 2 ^ (1000 : ℤ) := by
    refine h4.trans ((mul_le_mul_of_nonneg_left hr.2 (by norm_num)).trans ?_)
    have e1 : (2 : ℝ) ^ (1000 : ℤ) = 2 ^ (800 : ℤ) * 2 ^ (200 : ℤ) := by rw [← zpow_add₀ (by norm_num)]; norm_num
    rw [e1]
    refine mul_le_mul_of_nonneg_right ?_ (by positivity)
    exact le_trans (by norm_num : (3 : ℝ) ≤ 2 ^ (2 : ℤ)) (zpow_le_zpow_right₀ (by norm_num) (by norm_num))
  obtain ⟨r, hr1, hr2⟩ := hP.near x y p q hp hy hp0' hq hlow hhigh
  have h6 : |(r : ℝ) - (p : ℝ) ^ (q : ℝ)| ≤ (p : ℝ) ^ (q : ℝ) * (1 / 2 ^ 50) := by rw [mul_one_div]; exact hr2
  refine ⟨r, hr1, ((LogE.of_rel (Real.rpow_nonneg hp0.le _) h6 (by norm_num) (by norm_num)).trans h3).mono ?_⟩
  have : (2 : ℝ) * (1 / 2 ^ 50) = 1 / 2 ^ 49 := by norm_num
  linarith

/-! ## Means -/

/-- the numbers of a list -/
def rats (l : List (B64 σ)) : List ℚ := l.filterMap (fun v => match ext v with | .fin q => some q | _ => none)

theorem rats_cast (l : List (B64 σ)) : (rats l).map (fun q : ℚ => (q : ℝ)) = (l.map real64).filterMap id := by
  induction l with
  | nil => rfl
  | cons v l ih =>
    unfold rats at ih ⊢
    unfold real64 at ih ⊢
    rw [List.map_cons, List.filterMap_cons, List.filterMap_cons]
    cases ext v <;> simp only [id, List.map_cons, ih]

theorem filter_ext (l : List (B64 σ)) (hl : ∀ v ∈ l, Rain v) : (l.map ext).filter (fun v => !isNan v) = (rats l).map Fl.fin := by
  induction l with
  | nil => rfl
  | cons v l ih =>
    have ih := ih fun w hw => hl w (List.mem_cons_of_mem _ hw)
    unfold rats at ih ⊢
    rw [List.map_cons, List.filterMap_cons]
    rcases hl v (by simp) with rfl | ⟨q, h1, _⟩
    · rw [List.filter_cons_of_neg (by show ¬ (!isNan (Fl.nan : Fl ℚ)) = true; decide), ih]
      rfl
    · rw [h1, List.filter_cons_of_pos (by rfl), ih]
      rfl

theorem month_mean {l : List (B64 σ)} (hl : ∀ v ∈ l, Rain v) {N : ℕ} (hN : l.length = N) (hN2 : N ≤ 2 ^ 20) (hne : (l.map real64).filterMap id ≠ []) :
    Val ((N + 1) / 2 ^ 51) (Spec.mean ((l.map real64).filterMap id)) (nanmean l) := by
  have h0 := (rain_near hl).imp (fun _ _ h => h.mono le_rfl le_rfl (show (10 : ℚ) ^ 100 ≤ 2 ^ 40 * 10 ^ 100 by norm_num))
  have h1 := nanmean_near h0 (by rw [hN]; exact hN2.trans (by norm_num)) (by rw [hN]; omega)
  rw [nanmean_fin _ _ (filter_ext l hl)] at h1
  rw [← rats_cast] at hne ⊢
  have hr : rats l ≠ [] := by
    intro e
    rw [e] at hne
    exact hne rfl
  rw [if_neg hr] at h1
  rcases h1 with ⟨_, h⟩ | ⟨a, b, ha, hb, hc, _⟩
  · cases h
  · cases hb
    refine ⟨a, ha, ?_⟩
    have h2 := LogE_close hc (by rw [hN]; omega)
    have e : (((rats l).sum / (rats l).length : ℚ) : ℝ) = Spec.mean ((rats l).map (fun q : ℚ => (q : ℝ))) := by
      unfold Spec.mean
      rw [List.length_map, Rat.cast_div, Rat.cast_natCast]
      congr 1
      exact map_list_sum (Rat.castHom ℝ) _
    rw [← e]
    refine h2.mono (le_of_eq ?_)
    rw [hN]
    push_cast
    ring

/-- the mean of temperatures in the range -/
theorem mean_range {l : List ℝ} {N : ℕ} (hN : l.length ≤ N) (hl : ∀ v ∈ l, v = 0 ∨ (1 / 1000 ≤ v ∧ v ≤ 40)) :
    (Spec.mean l = 0 ∨ 1 / (1000 * N) ≤ Spec.mean l) ∧ Spec.mean l ≤ 40 := by
  have hl0 : ∀ v ∈ l, 0 ≤ v := by
    intro v hv
    rcases hl v hv with rfl | h
    · exact le_rfl
    · exact le_trans (by norm_num) h.1
  rcases l.eq_nil_or_concat with rfl | ⟨l', z, he⟩
  · unfold Spec.mean
    simp
  · have hlen : 0 < l.length := by rw [he]; simp
    have hlr : (0 : ℝ) < l.length := by exact_mod_cast hlen
    constructor
    · by_cases hz : ∀ v ∈ l, v = 0
      · left
        unfold Spec.mean
        rw [List.sum_eq_zero hz, zero_div]
      · right
        push Not at hz
        obtain ⟨v, hv, hv0⟩ := hz
        have h1 := ((hl v hv).resolve_left hv0).1
        have h2 : v ≤ l.sum := List.single_le_sum hl0 v hv
        unfold Spec.mean
        have hNr : (l.length : ℝ) ≤ N := by exact_mod_cast hN
        rw [div_le_div_iff₀ (by nlinarith) hlr]
        nlinarith
    · unfold Spec.mean
      rw [div_le_iff₀ hlr]
      have := List.sum_le_card_nsmul l 40 (by
        intro v hv
        rcases hl v hv with rfl | h
        · norm_num
        · exact h.2)
      rw [nsmul_eq_mul] at this
      linarith

/-! ## The heat index -/

theorem cast_lit {a : ℚ} {b : ℝ} {e : ℝ} {x : B64 σ} (h : Val e (a : ℝ) x) (hab : (a : ℝ) = b) : Val e b x := hab ▸ h

theorem val_zero {e : ℝ} {x : B64 σ} (h : Val e 0 x) : ext x = .fin 0 := by
  obtain ⟨a, ha, hl⟩ := h
  have : (a : ℝ) = 0 := le_antisymm (by have := hl.up; linarith) hl.left
  have : a = 0 := by exact_mod_cast this
  rw [ha, this]

theorem lit5 : Val (σ := σ) 0 5 (lit 5) := by
  have := val_nat (σ := σ) (k := 5) (by norm_num)
  exact_mod_cast this

theorem month_pow {T : Trig (B64 σ)} (hP : PowNear T) {N : ℕ} (hN1 : 1 ≤ N) (hN2 : N ≤ 2 ^ 20) {M : ℝ} {x : B64 σ} (hx : Val ((N + 1) / 2 ^ 51) M x)
    (hM : M = 0 ∨ 1 / (1000 * N) ≤ M) (hM2 : M ≤ 40) :
    Val ((4 * N + 52) / 2 ^ 52) ((M / 5) ^ (1.514 : ℝ)) (T.pow (x / lit 5) (lit 1.514)) ∧ (M / 5) ^ (1.514 : ℝ) ≤ 32 ∧
      (M = 0 ∨ (0 < (M / 5) ^ (1.514 : ℝ) ∧ -36 ≤ Real.log ((M / 5) ^ (1.514 : ℝ)))) := by
  have hNr1 : (1 : ℝ) ≤ N := by exact_mod_cast hN1
  have hNr2 : (N : ℝ) ≤ 2 ^ 20 := by exact_mod_cast hN2
  have hlit : ext (lit 1.514 : B64 σ) = .fin (rnd 1.514) := ext_lit64 _ (below_max (by rw [abs_of_nonneg (by norm_num)]; norm_num))
  have hlit0 : 0 < rnd (1.514 : ℚ) := by
    have := (rnd_near (q := 1.514) (by norm_num)).1
    exact lt_of_lt_of_le (by unfold unit; norm_num) this
  rcases hM with rfl | hM
  · have hd : Val ((N + 1) / 2 ^ 51 + 0 + 1 / 2 ^ 52) (0 / 5) (x / lit 5) :=
      val_div hx lit5 (by norm_num) ⟨Or.inl (by norm_num), by norm_num⟩ (by
        have : ((N : ℝ) + 1) / 2 ^ 51 ≤ (2 ^ 20 + 1) / 2 ^ 51 := by gcongr
        norm_num at this ⊢; linarith)
    rw [zero_div] at hd ⊢
    have hz := hP.zero _ _ _ (val_zero hd) hlit hlit0
    rw [Real.zero_rpow (by norm_num)]
    refine ⟨⟨0, hz, ?_⟩, by norm_num, Or.inl rfl⟩
    rw [Rat.cast_zero]
    exact (LogE.refl le_rfl).mono (by positivity)
  · have hM0 : 0 < M := lt_of_lt_of_le (by positivity) hM
    have hA0 : 0 < M / 5 := by positivity
    have hAlow : (2 : ℝ) ^ (-(33 : ℝ)) ≤ M / 5 := by
      rw [Real.rpow_neg (by norm_num), show ((2 : ℝ) ^ (33 : ℝ)) = 2 ^ 33 by rw [← Real.rpow_natCast]; norm_num]
      have h1 : (1 : ℝ) / (1000 * 2 ^ 20) ≤ 1 / (1000 * N) := one_div_le_one_div_of_le (by positivity) (by linarith)
      have h2 : ((2 : ℝ) ^ 33)⁻¹ ≤ 1 / (1000 * 2 ^ 20) / 5 := by norm_num
      have h3 : (1 : ℝ) / (1000 * 2 ^ 20) / 5 ≤ M / 5 := div_le_div_of_nonneg_right (h1.trans hM) (by norm_num)
      exact h2.trans h3
    have hAhigh : M / 5 ≤ (2 : ℝ) ^ (3 : ℝ) := by
      rw [show ((2 : ℝ) ^ (3 : ℝ)) = 8 by rw [show (3 : ℝ) = ((3 : ℕ) : ℝ) by norm_num, Real.rpow_natCast]; norm_num]
      linarith
    obtain ⟨hl1, hl2⟩ := log_of_bounds hA0 hAlow hAhigh (by norm_num) (by norm_num)
    have hN' : ((N : ℝ) + 1) / 2 ^ 51 ≤ 1 / 2 ^ 30 := by
      have : ((N : ℝ) + 1) / 2 ^ 51 ≤ (2 ^ 20 + 1) / 2 ^ 51 := by gcongr
      refine this.trans (by norm_num)
    have hd : Val ((N + 1) / 2 ^ 51 + 0 + 1 / 2 ^ 52) (M / 5) (x / lit 5) :=
      val_div hx lit5 (by norm_num) (inRange_log hA0 (by linarith) (by linarith)) (by
        have : (1 : ℝ) / 2 ^ 30 ≤ 1 := by norm_num
        linarith)
    have hη : |((rnd 1.514 : ℚ) : ℝ) - 1.514| ≤ 1.514 * (1 / 2 ^ 52) := by
      have a := rnd_err (q := 1.514) (M := 1.514) (by norm_num) (by norm_num)
      push_cast at a
      exact a
    have hlp : Real.log ((M / 5) ^ (1.514 : ℝ)) = 1.514 * Real.log (M / 5) := Real.log_rpow hA0 _
    have hp0 : 0 < (M / 5) ^ (1.514 : ℝ) := Real.rpow_pos_of_pos hA0 _
    have hb1 : -36 ≤ Real.log ((M / 5) ^ (1.514 : ℝ)) := by rw [hlp]; norm_num at hl1 ⊢; linarith
    have hb2 : Real.log ((M / 5) ^ (1.514 : ℝ)) ≤ 130 := by rw [hlp]; norm_num at hl2 ⊢; linarith
    have hU : (1 : ℝ) / 2 ^ 52 ≤ 1 / 2 ^ 30 := by norm_num
    have hval := val_pow hP hd hlit hlit0 (by norm_num : (0 : ℝ) ≤ 1.514) hη hA0 (L := 24) (by rw [abs_le]; constructor <;> linarith)
      (by have : (1 : ℝ) / 2 ^ 30 + 1 / 2 ^ 30 ≤ 1 := by norm_num
          linarith)
      (inRange_log hp0 (by linarith) hb2)
      (by have h1 : (1.514 : ℝ) * (1 / 2 ^ 52) * (24 + 1) + 1.514 * (1 / 2 ^ 30 + 1 / 2 ^ 30) ≤ 1 := by norm_num
          have h2 : (1.514 : ℝ) * ((N + 1) / 2 ^ 51 + 0 + 1 / 2 ^ 52) ≤ 1.514 * (1 / 2 ^ 30 + 1 / 2 ^ 30) := mul_le_mul_of_nonneg_left (by linarith) (by norm_num)
          linarith)
    refine ⟨hval.mono ?_, ?_, Or.inr ⟨hp0, hb1⟩⟩
    · have e : (4 * (N : ℝ) + 52) / 2 ^ 52 - (1.514 * (1 / 2 ^ 52) * (24 + 1) + 1.514 * (((N : ℝ) + 1) / 2 ^ 51 + 0 + 1 / 2 ^ 52) + 1 / 2 ^ 49) = (0.972 * N + 1.608) / 2 ^ 52 := by
        ring
      have : (0 : ℝ) ≤ (0.972 * N + 1.608) / 2 ^ 52 := by positivity
      linarith
    · have h1 : (M / 5) ^ (1.514 : ℝ) ≤ 8 ^ (1.514 : ℝ) := Real.rpow_le_rpow hA0.le (by linarith) (by norm_num)
      have h2 : (8 : ℝ) ^ (1.514 : ℝ) ≤ 8 ^ (5 / 3 : ℝ) := Real.rpow_le_rpow_of_exponent_le (by norm_num) (by norm_num)
      have h3 : (8 : ℝ) ^ (5 / 3 : ℝ) = 32 := by
        rw [show (8 : ℝ) = 2 ^ (3 : ℝ) by rw [show (3 : ℝ) = ((3 : ℕ) : ℝ) by norm_num, Real.rpow_natCast]; norm_num, ← Real.rpow_mul (by norm_num),
          show (3 : ℝ) * (5 / 3) = ((5 : ℕ) : ℝ) by norm_num, Real.rpow_natCast]
        norm_num
      linarith

/-- the heat index -/
theorem heat_val {T : Trig (B64 σ)} (hP : PowNear T) {N : ℕ} (hN1 : 1 ≤ N) (hN2 : N ≤ 2 ^ 20) (t : List (Option ℝ)) (d : List (B64 σ))
    (hmean : ∀ j, j < 12 → Val ((N + 1) / 2 ^ 51) (Spec.mean (Spec.monthValues t j)) (nanmean (stride 12 j d)))
    (hrange : ∀ j, j < 12 → (Spec.mean (Spec.monthValues t j) = 0 ∨ 1 / (1000 * N) ≤ Spec.mean (Spec.monthValues t j)) ∧ Spec.mean (Spec.monthValues t j) ≤ 40)
    (hpos : 0 < Spec.heat t) :
    Val ((4 * N + 76) / 2 ^ 52) (Spec.heat t) (heatIndex T d) ∧ Spec.heat t ≤ 384 ∧ -36 ≤ Real.log (Spec.heat t) := by
  have key := fun j (hj : j < 12) => month_pow hP hN1 hN2 (hmean j hj) (hrange j hj).1 (hrange j hj).2
  have hle : Spec.heat t ≤ 384 := by
    unfold Spec.heat
    have := List.sum_le_card_nsmul ((List.range 12).map (fun j => (Spec.mean (Spec.monthValues t j) / 5) ^ (1.514 : ℝ))) 32 (by
      intro v hv
      obtain ⟨j, hj, rfl⟩ := List.mem_map.1 hv
      exact (key j (List.mem_range.1 hj)).2.1)
    rw [List.length_map, List.length_range, nsmul_eq_mul] at this
    exact this.trans (by norm_num)
  have hnn : ∀ v ∈ (List.range 12).map (fun j => (Spec.mean (Spec.monthValues t j) / 5) ^ (1.514 : ℝ)), 0 ≤ v := by
    intro v hv
    obtain ⟨j, hj, rfl⟩ := List.mem_map.1 hv
    exact Real.rpow_nonneg (div_nonneg (specMean_nonneg _ (monthValues_nonneg t j)) (by norm_num)) _
  have hlow : -36 ≤ Real.log (Spec.heat t) := by
    by_cases hz : ∀ j, j < 12 → Spec.mean (Spec.monthValues t j) = 0
    · exfalso
      have : Spec.heat t = 0 := by
        unfold Spec.heat
        apply List.sum_eq_zero
        intro v hv
        obtain ⟨j, hj, rfl⟩ := List.mem_map.1 hv
        simp only [hz j (List.mem_range.1 hj), zero_div]
        exact Real.zero_rpow (by norm_num)
      linarith
    · push Not at hz
      obtain ⟨j, hj, hj0⟩ := hz
      obtain ⟨h1, h2⟩ := (key j hj).2.2.resolve_left hj0
      refine h2.trans (Real.log_le_log h1 ?_)
      unfold Spec.heat
      exact List.single_le_sum hnn _ (List.mem_map.2 ⟨j, List.mem_range.2 hj, rfl⟩)
  refine ⟨?_, hle, hlow⟩
  choose! u hu1 hu2 using fun j (hj : j < 12) => (key j hj).1
  have hf : List.Forall₂ (fun (x : B64 σ) (b : ℚ) => ∃ a, ext x = .fin a ∧ Close 0 a b)
      ((List.range 12).map (fun j => T.pow (nanmean (stride 12 j d) / lit 5) (lit 1.514))) ((List.range 12).map u) := by
    rw [List.forall₂_map_left_iff, List.forall₂_map_right_iff, List.forall₂_same]
    intro j hj
    have hj := List.mem_range.1 hj
    refine ⟨u j, hu1 j hj, Close.refl ?_⟩
    exact_mod_cast (hu2 j hj).left
  have hsum := LogE.sum (List.range 12) (fun j => ((u j : ℚ) : ℝ)) (fun j => (Spec.mean (Spec.monthValues t j) / 5) ^ (1.514 : ℝ)) (fun j hj => hu2 j (List.mem_range.1 hj))
  have hcast : ((((List.range 12).map u).sum : ℚ) : ℝ) = ((List.range 12).map (fun j => ((u j : ℚ) : ℝ))).sum := by
    have := map_list_sum (Rat.castHom ℝ) ((List.range 12).map u)
    rw [List.map_map] at this
    exact this
  have hNr2 : (N : ℝ) ≤ 2 ^ 20 := by exact_mod_cast hN2
  have he1 : (4 * (N : ℝ) + 52) / 2 ^ 52 ≤ 1 := by
    have : (4 * (N : ℝ) + 52) / 2 ^ 52 ≤ (4 * 2 ^ 20 + 52) / 2 ^ 52 := by gcongr
    exact this.trans (by norm_num)
  have hb : ((List.range 12).map u).sum ≤ 2 ^ (1000 : ℤ) := by
    have h1 : ((((List.range 12).map u).sum : ℚ) : ℝ) ≤ ((1200 : ℚ) : ℝ) := by
      rw [hcast]
      refine (hsum.le_three he1).1.trans ?_
      have : ((List.range 12).map (fun j => (Spec.mean (Spec.monthValues t j) / 5) ^ (1.514 : ℝ))).sum ≤ 384 := hle
      push_cast
      linarith
    have h2 : ((List.range 12).map u).sum ≤ 1200 := by exact_mod_cast h1
    refine h2.trans ((by norm_num : (1200 : ℚ) ≤ 2 ^ (20 : ℤ)).trans (zpow_le_zpow_right₀ (by norm_num) (by norm_num)))
  obtain ⟨a, ha, hc⟩ := fsum_close _ _ 0 hf hb (by simp)
  rw [List.length_map, List.length_range] at hc
  have h2 := LogE_close hc (by norm_num)
  rw [hcast] at h2
  refine ⟨a, ha, (h2.trans hsum).mono (le_of_eq ?_)⟩
  push_cast
  ring

/-! ## The exponent -/

theorem val_abs {e A : ℝ} {x : B64 σ} (h : Val e A x) (h0 : 0 ≤ e) (h1 : e ≤ 1) : ∃ a : ℚ, ext x = .fin a ∧ |(a : ℝ) - A| ≤ A * (2 * e) := by
  obtain ⟨a, ha, hl⟩ := h
  exact ⟨a, ha, hl.rel h0 h1⟩

theorem sub_abs {x y : B64 σ} {a b : ℚ} (hx : ext x = .fin a) (hy : ext y = .fin b) (h : |(a : ℝ) - b| ≤ 10 ^ 6) :
    ∃ c : ℚ, ext (x - y) = .fin c ∧ |(c : ℝ) - (a - b)| ≤ |(a : ℝ) - b| * (1 / 2 ^ 53) := by
  have hq : |a - b| ≤ 10 ^ 6 := by exact_mod_cast h
  refine ⟨_, fin_sub hx hy (below_max (hq.trans (by norm_num))), ?_⟩
  have h1 : ((|rnd (a - b) - (a - b)| : ℚ) : ℝ) ≤ ((|a - b| * unit : ℚ) : ℝ) := by exact_mod_cast rnd_sub_rel hx hy
  rw [Rat.cast_mul, unit_real, Rat.cast_abs, Rat.cast_abs, Rat.cast_sub, Rat.cast_sub] at h1
  exact h1

theorem add_abs {x y : B64 σ} {a b : ℚ} (hx : ext x = .fin a) (hy : ext y = .fin b) (h : |(a : ℝ) + b| ≤ 10 ^ 6) :
    ∃ c : ℚ, ext (x + y) = .fin c ∧ |(c : ℝ) - (a + b)| ≤ |(a : ℝ) + b| * (1 / 2 ^ 53) := by
  have hq : |a + b| ≤ 10 ^ 6 := by exact_mod_cast h
  refine ⟨_, fin_add hx hy (below_max (hq.trans (by norm_num))), ?_⟩
  have h1 : ((|rnd (a + b) - (a + b)| : ℚ) : ℝ) ≤ ((|a + b| * unit : ℚ) : ℝ) := by exact_mod_cast rnd_add_rel hx hy
  rw [Rat.cast_mul, unit_real, Rat.cast_abs, Rat.cast_abs, Rat.cast_sub, Rat.cast_add] at h1
  exact h1

theorem expo_parts {I : ℝ} (h : 0 ≤ I) : 6.75e-7 * I ^ 3 + 7.71e-5 * I ^ 2 + 1.792e-2 * I + 0.49239 ≤ 3 * Spec.expo I := by
  unfold Spec.expo
  have h1 : 0 ≤ I * (6.75e-7 * I ^ 2 - 1.542e-4 * I + 1.792e-2) := mul_nonneg h (by nlinarith [sq_nonneg (I - 114)])
  nlinarith

theorem expo_le {I : ℝ} (h : 0 ≤ I) (h' : I ≤ 384) : Spec.expo I ≤ 34.3 := by
  unfold Spec.expo
  have h1 : 0 ≤ (384 - I) * (6.75e-7 * (384 ^ 2 + 384 * I + I ^ 2) - 7.71e-5 * (384 + I) + 1.792e-2) := mul_nonneg (by linarith) (by nlinarith [sq_nonneg I])
  nlinarith

theorem expo_le_cool {I : ℝ} (h : 0 ≤ I) (h' : I ≤ 40) : Spec.expo I ≤ 1.26 := by
  unfold Spec.expo
  have h1 : I ^ 3 ≤ 40 ^ 3 := pow_le_pow_left₀ h h' 3
  nlinarith [sq_nonneg I]

theorem exponent_near {T : Trig (B64 σ)} (hP : PowNear T) {I e : ℝ} {x : B64 σ} (hx : Val e I x) (hI : 0 < I) (hI2 : I ≤ 384) (hl : -36 ≤ Real.log I) (he0 : 0 ≤ e) (he : e ≤ 1 / 1000) :
    ∃ q : ℚ, ext (thornExponent T x) = .fin q ∧ |(q : ℝ) - Spec.expo I| ≤ Spec.expo I * (18 * e + 72 / 2 ^ 52) := by
  have hlI : Real.log I ≤ 7 := by
    have h1 : I ≤ (2 : ℝ) ^ (9 : ℝ) := by
      rw [show ((2 : ℝ) ^ (9 : ℝ)) = 512 by rw [show (9 : ℝ) = ((9 : ℕ) : ℝ) by norm_num, Real.rpow_natCast]; norm_num]
      linarith
    have h2 := Real.log_le_log hI h1
    rw [Real.log_rpow (by norm_num)] at h2
    have := Real.log_two_lt_d9
    linarith
  have hL : |Real.log I| ≤ 36 := abs_le.2 ⟨hl, by linarith⟩
  have l3 : ext (lit 3 : B64 σ) = .fin 3 := natlit (k := 3) (by norm_num)
  have l2 : ext (lit 2 : B64 σ) = .fin 2 := natlit (k := 2) (by norm_num)
  have e3 : I ^ (3 : ℝ) = I ^ 3 := by rw [← Real.rpow_natCast]; norm_num
  have e2 : I ^ (2 : ℝ) = I ^ 2 := by rw [← Real.rpow_natCast]; norm_num
  have lg3 : Real.log (I ^ 3) = 3 * Real.log I := by rw [Real.log_pow]; norm_num
  have lg2 : Real.log (I ^ 2) = 2 * Real.log I := by rw [Real.log_pow]; norm_num
  have r3 : InRange (I ^ 3) := inRange_log (by positivity) (by rw [lg3]; linarith) (by rw [lg3]; linarith)
  have r2 : InRange (I ^ 2) := inRange_log (by positivity) (by rw [lg2]; linarith) (by rw [lg2]; linarith)
  have p3 := val_pow (η := 0) (Y := 3) hP hx l3 (by norm_num) (by norm_num) (by norm_num) hI hL (by linarith) (by rw [e3]; exact r3) (by norm_num at he ⊢; linarith)
  have p2 := val_pow (η := 0) (Y := 2) hP hx l2 (by norm_num) (by norm_num) (by norm_num) hI hL (by linarith) (by rw [e2]; exact r2) (by norm_num at he ⊢; linarith)
  rw [e3] at p3
  rw [e2] at p2
  have c1 : Val (σ := σ) (1 / 2 ^ 52) 6.75e-7 (lit 6.75e-07) := cast_lit (val_lit (by norm_num) (by norm_num)) (by norm_num)
  have c2 : Val (σ := σ) (1 / 2 ^ 52) 7.71e-5 (lit 7.71e-05) := cast_lit (val_lit (by norm_num) (by norm_num)) (by norm_num)
  have c3 : Val (σ := σ) (1 / 2 ^ 52) 1.792e-2 (lit 1.792e-02) := cast_lit (val_lit (by norm_num) (by norm_num)) (by norm_num)
  have c4 : Val (σ := σ) (1 / 2 ^ 52) 0.49239 (lit 0.49239) := cast_lit (val_lit (by norm_num) (by norm_num)) (by norm_num)
  have hlc : ∀ {c : ℝ}, (2 : ℝ) ^ (-(30 : ℝ)) ≤ c → c ≤ 1 → -21 ≤ Real.log c ∧ Real.log c ≤ 0 := by
    intro c h1 h2
    have hc : 0 < c := lt_of_lt_of_le (by positivity) h1
    have := log_of_bounds (k := 30) (m := 0) hc h1 (by simpa using h2) (by norm_num) le_rfl
    exact ⟨by linarith [this.1], Real.log_nonpos hc.le h2⟩
  have h30 : (2 : ℝ) ^ (-(30 : ℝ)) = 1 / 2 ^ 30 := by
    rw [Real.rpow_neg (by norm_num), show (30 : ℝ) = ((30 : ℕ) : ℝ) by norm_num, Real.rpow_natCast, one_div]
  have hU : (1 : ℝ) / 2 ^ 52 ≤ 1 / 10 ^ 6 := by norm_num
  have hU9 : (1 : ℝ) / 2 ^ 49 ≤ 1 / 10 ^ 6 := by norm_num
  have g1 := hlc (c := 6.75e-7) (by rw [h30]; norm_num) (by norm_num)
  have g2 := hlc (c := 7.71e-5) (by rw [h30]; norm_num) (by norm_num)
  have g3 := hlc (c := 1.792e-2) (by rw [h30]; norm_num) (by norm_num)
  have t1 := val_mul c1 p3 (inRange_log (by positivity) (by rw [Real.log_mul (by norm_num) (by positivity), lg3]; linarith [g1.1]) (by
    rw [Real.log_mul (by norm_num) (by positivity), lg3]; linarith [g1.2])) (by linarith)
  have t2 := val_mul c2 p2 (inRange_log (by positivity) (by rw [Real.log_mul (by norm_num) (by positivity), lg2]; linarith [g2.1]) (by
    rw [Real.log_mul (by norm_num) (by positivity), lg2]; linarith [g2.2])) (by linarith)
  have t3 := val_mul c3 hx (inRange_log (by positivity) (by rw [Real.log_mul (by norm_num) (by positivity)]; linarith [g3.1]) (by
    rw [Real.log_mul (by norm_num) (by positivity)]; linarith [g3.2])) (by linarith)
  have k9 : (1 : ℝ) / 2 ^ 49 = 8 * (1 / 2 ^ 52) := by norm_num
  rw [k9] at t1 t2
  have hUp : (0 : ℝ) < 1 / 2 ^ 52 := by norm_num
  have e72 : (72 : ℝ) / 2 ^ 52 = 72 * (1 / 2 ^ 52) := by norm_num
  rw [e72]
  have hU53 : (1 : ℝ) / 2 ^ 53 = 1 / 2 ^ 52 / 2 := by norm_num
  obtain ⟨a1, h1, d1⟩ := val_abs t1 (by linarith) (by linarith)
  obtain ⟨a2, h2, d2⟩ := val_abs t2 (by linarith) (by linarith)
  obtain ⟨a3, h3, d3⟩ := val_abs t3 (by linarith) (by linarith)
  obtain ⟨a4, h4, d4⟩ := val_abs c4 (by linarith) (by linarith)
  have hS := expo_parts hI.le
  have hE := expo_le hI.le hI2
  have hT1 : (0 : ℝ) ≤ 6.75e-7 * I ^ 3 := by positivity
  have hT2 : (0 : ℝ) ≤ 7.71e-5 * I ^ 2 := by positivity
  have hT3 : (0 : ℝ) ≤ 1.792e-2 * I := by positivity
  have hT4 : (0 : ℝ) ≤ 0.49239 := by norm_num
  have hexpo : Spec.expo I = 6.75e-7 * I ^ 3 - 7.71e-5 * I ^ 2 + 1.792e-2 * I + 0.49239 := rfl
  unfold thornExponent
  generalize (6.75e-7 : ℝ) * I ^ 3 = T1 at *
  generalize (7.71e-5 : ℝ) * I ^ 2 = T2 at *
  generalize (1.792e-2 : ℝ) * I = T3 at *
  generalize (0.49239 : ℝ) = T4 at *
  generalize (1 : ℝ) / 2 ^ 52 = U at *
  have hδ : 0 ≤ 6 * e + 20 * U := by linarith
  have hδ1 : 6 * e + 20 * U ≤ 1 / 4 := by linarith
  have d1' : |(a1 : ℝ) - T1| ≤ T1 * (6 * e + 20 * U) := d1.trans (mul_le_mul_of_nonneg_left (by linarith) hT1)
  have d2' : |(a2 : ℝ) - T2| ≤ T2 * (6 * e + 20 * U) := d2.trans (mul_le_mul_of_nonneg_left (by linarith) hT2)
  have d3' : |(a3 : ℝ) - T3| ≤ T3 * (6 * e + 20 * U) := d3.trans (mul_le_mul_of_nonneg_left (by linarith) hT3)
  have d4' : |(a4 : ℝ) - T4| ≤ T4 * (6 * e + 20 * U) := d4.trans (mul_le_mul_of_nonneg_left (by linarith) hT4)
  generalize hδd : 6 * e + 20 * U = δ at *
  generalize hSd : T1 + T2 + T3 + T4 = S at *
  have hS0 : 0 ≤ S := by linarith
  have hSδ : S * δ = T1 * δ + T2 * δ + T3 * δ + T4 * δ := by rw [← hSd]; ring
  have m1 := mul_nonneg hT1 hδ
  have m2 := mul_nonneg hT2 hδ
  have m3 := mul_nonneg hT3 hδ
  have m4 := mul_nonneg hT4 hδ
  have hSδ4 : S * δ ≤ S * (1 / 4) := mul_le_mul_of_nonneg_left hδ1 hS0
  have hSU : S * U ≤ S * (1 / 10 ^ 6) := mul_le_mul_of_nonneg_left hU hS0
  have hSU0 : 0 ≤ S * U := mul_nonneg hS0 hUp.le
  have d1'' := abs_le.1 d1'
  have d2'' := abs_le.1 d2'
  have d3'' := abs_le.1 d3'
  have d4'' := abs_le.1 d4'
  have b1 : |(a1 : ℝ) - a2| ≤ 2 * S := by rw [abs_le]; constructor <;> linarith [d1''.1, d1''.2, d2''.1, d2''.2]
  obtain ⟨x1, hx1, f1⟩ := sub_abs h1 h2 (b1.trans (by norm_num; linarith))
  have f1' : |(x1 : ℝ) - (a1 - a2)| ≤ S * U := f1.trans (by rw [hU53]; have := mul_le_mul_of_nonneg_right b1 (by linarith : 0 ≤ U / 2); linarith)
  have f1'' := abs_le.1 f1'
  have b2 : |(x1 : ℝ) + a3| ≤ 2 * S := by rw [abs_le]; constructor <;> linarith [d1''.1, d1''.2, d2''.1, d2''.2, d3''.1, d3''.2, f1''.1, f1''.2]
  obtain ⟨x2, hx2, f2⟩ := add_abs hx1 h3 (b2.trans (by norm_num; linarith))
  have f2' : |(x2 : ℝ) - (x1 + a3)| ≤ S * U := f2.trans (by rw [hU53]; have := mul_le_mul_of_nonneg_right b2 (by linarith : 0 ≤ U / 2); linarith)
  have f2'' := abs_le.1 f2'
  have b3 : |(x2 : ℝ) + a4| ≤ 2 * S := by
    rw [abs_le]; constructor <;> linarith [d1''.1, d1''.2, d2''.1, d2''.2, d3''.1, d3''.2, f1''.1, f1''.2, f2''.1, f2''.2, d4''.1, d4''.2]
  obtain ⟨x3, hx3, f3⟩ := add_abs hx2 h4 (b3.trans (by norm_num; linarith))
  have f3' : |(x3 : ℝ) - (x2 + a4)| ≤ S * U := f3.trans (by rw [hU53]; have := mul_le_mul_of_nonneg_right b3 (by linarith : 0 ≤ U / 2); linarith)
  have f3'' := abs_le.1 f3'
  refine ⟨x3, hx3, ?_⟩
  have hfin : |(x3 : ℝ) - Spec.expo I| ≤ S * (δ + 4 * U) := by
    have : S * (δ + 4 * U) = S * δ + 4 * (S * U) := by ring
    rw [hexpo, this, abs_le]
    constructor <;> linarith [d1''.1, d1''.2, d2''.1, d2''.2, d3''.1, d3''.2, f1''.1, f1''.2, f2''.1, f2''.2, d4''.1, d4''.2, f3''.1, f3''.2]
  refine hfin.trans ((mul_le_mul_of_nonneg_right hS (by linarith)).trans (le_of_eq ?_))
  rw [← hδd]
  ring

/-! ## One month -/

theorem hours_ge {φ : ℝ} (h : |φ| ≤ Real.pi / 3) (d : ℕ) : 4 ≤ hours φ d := by
  have hpi := Real.pi_pos
  have hc : 1 / 2 ≤ Real.cos φ := by
    rw [← Real.cos_abs, ← Real.cos_pi_div_three]
    exact Real.cos_le_cos_of_nonneg_of_le_pi (abs_nonneg _) (by linarith) h
  have hdec : |declination d| ≤ 0.41 := (declination_bound d).trans (by norm_num)
  have hb : |-Real.tan φ * Real.tan (declination d)| ≤ 0.777 := by
    rw [abs_mul, abs_neg]
    exact (mul_le_mul (tan_cos hc) (tan_small hdec) (abs_nonneg _) (by norm_num)).trans (by norm_num)
  unfold hours
  generalize -Real.tan φ * Real.tan (declination d) = c at hb
  have h1 : 0.62 ≤ Real.sin (Real.arccos c) := by
    rw [Real.sin_arccos]
    apply Real.le_sqrt_of_sq_le
    have : c ^ 2 ≤ 0.777 ^ 2 := by rw [← sq_abs]; exact pow_le_pow_left₀ (abs_nonneg _) hb 2
    norm_num at this ⊢
    linarith
  have h2 : 0.62 ≤ Real.arccos c := h1.trans (Real.sin_le (Real.arccos_nonneg c))
  have h3 : 7 ≤ 24 / Real.pi := by
    rw [le_div_iff₀ hpi]
    have := Real.pi_lt_d2
    norm_num at this
    linarith
  have := mul_le_mul h3 h2 (by norm_num) (by linarith)
  norm_num at this
  linarith

theorem meanHours_ge {φ : ℝ} (h : |φ| ≤ Real.pi / 3) {n : ℕ} (hn : 0 < n) (d : ℕ) : 4 ≤ meanHours φ n d := by
  unfold meanHours
  have hnr : (0 : ℝ) < n := by exact_mod_cast hn
  rw [le_div_iff₀ hnr]
  have := List.card_nsmul_le_sum ((List.range n).map (fun i => hours φ (d + i))) 4 (by
    intro v hv
    obtain ⟨i, _, rfl⟩ := List.mem_map.1 hv
    exact hours_ge h _)
  rw [List.length_map, List.length_range, nsmul_eq_mul] at this
  linarith

/-- how much a power reacts to its errors, for a month of temperature `a` -/
noncomputable def sensitivity (t : List (Option ℝ)) (a : ℝ) : ℝ := Spec.expo (Spec.heat t) * (1 + |Real.log (10 * a / Spec.heat t)|)

theorem ratio_range {I a : ℝ} (hI : 0 < I) (hI2 : I ≤ 384) (hl : -36 ≤ Real.log I) (ha : 1 / 1000 ≤ a) (ha2 : a ≤ 40) :
    Spec.expo I * (1 + |Real.log (10 * a / I)|) ≤ 420 ∧ -600 ≤ Spec.expo I * Real.log (10 * a / I) ∧ Spec.expo I * Real.log (10 * a / I) ≤ 97 ∧
      -600 ≤ Real.log (10 * a / I) ∧ Real.log (10 * a / I) ≤ 130 := by
  have ha0 : 0 < a := lt_of_lt_of_le (by norm_num) ha
  have hR : 0 < 10 * a / I := by positivity
  have hE0 := expo_pos I hI.le
  have h16 : (2 : ℝ) ^ (-(16 : ℝ)) = 1 / 2 ^ 16 := by
    rw [Real.rpow_neg (by norm_num), show (16 : ℝ) = ((16 : ℕ) : ℝ) by norm_num, Real.rpow_natCast, one_div]
  have h4 : (2 : ℝ) ^ (4 : ℝ) = 16 := by
    rw [show (4 : ℝ) = ((4 : ℕ) : ℝ) by norm_num, Real.rpow_natCast]; norm_num
  have h9 : (2 : ℝ) ^ (9 : ℝ) = 512 := by
    rw [show (9 : ℝ) = ((9 : ℕ) : ℝ) by norm_num, Real.rpow_natCast]; norm_num
  have hlow : -(0.7 * 16) ≤ Real.log (10 * a / I) := by
    have h1 : (2 : ℝ) ^ (-(16 : ℝ)) ≤ 10 * a / I := by
      rw [h16, le_div_iff₀ hI]
      norm_num at ha ⊢
      linarith
    have l2' := Real.log_two_lt_d9
    have e1 := Real.log_le_log (by positivity) h1
    rw [Real.log_rpow (by norm_num)] at e1
    norm_num at l2' ⊢
    linarith
  rcases le_total 40 I with hc | hc
  · have hE := expo_le hI.le hI2
    have hhigh : Real.log (10 * a / I) ≤ 2.8 := by
      have h1 : 10 * a / I ≤ (2 : ℝ) ^ (4 : ℝ) := by
        rw [h4, div_le_iff₀ hI]; linarith
      have l2' := Real.log_two_lt_d9
      have e1 := Real.log_le_log hR h1
      rw [Real.log_rpow (by norm_num)] at e1
      norm_num at l2' ⊢
      linarith
    have hab : |Real.log (10 * a / I)| ≤ 11.2 := abs_le.2 ⟨by norm_num at hlow ⊢; linarith, by norm_num at hhigh ⊢; linarith⟩
    have k := mul_le_mul hE (show 1 + |Real.log (10 * a / I)| ≤ 12.2 by norm_num at hab ⊢; linarith) (by positivity) (by norm_num)
    have hab' := abs_le.1 hab
    refine ⟨k.trans (by norm_num), ?_, ?_, by norm_num at hlow ⊢; linarith, by norm_num at hhigh ⊢; linarith⟩
    · have := mul_le_mul hE hab (abs_nonneg _) (by norm_num)
      have h5 := neg_abs_le (Spec.expo I * Real.log (10 * a / I))
      rw [abs_mul, abs_of_pos hE0] at h5
      norm_num at this ⊢
      linarith
    · have := mul_le_mul_of_nonneg_left hhigh hE0.le
      norm_num at this hE ⊢
      linarith
  · have hE := expo_le_cool hI.le hc
    have hhigh : Real.log (10 * a / I) ≤ 43 := by
      rw [Real.log_div (by positivity) hI.ne']
      have h1 : 10 * a ≤ (2 : ℝ) ^ (9 : ℝ) := by rw [h9]; linarith
      have l2' := Real.log_two_lt_d9
      have e1 := Real.log_le_log (by positivity) h1
      rw [Real.log_rpow (by norm_num)] at e1
      norm_num at l2' ⊢
      linarith
    have hab : |Real.log (10 * a / I)| ≤ 43 := abs_le.2 ⟨by norm_num at hlow ⊢; linarith, hhigh⟩
    have k := mul_le_mul hE (show 1 + |Real.log (10 * a / I)| ≤ 44 by linarith) (by positivity) (by norm_num)
    have h6 := mul_le_mul hE hab (abs_nonneg _) (by norm_num)
    have h5 := neg_abs_le (Spec.expo I * Real.log (10 * a / I))
    have h7 := le_abs_self (Spec.expo I * Real.log (10 * a / I))
    rw [abs_mul, abs_of_pos hE0] at h5 h7
    norm_num at h6
    refine ⟨k.trans (by norm_num), by linarith, by linarith, by norm_num at hlow ⊢; linarith, by linarith⟩

/-- the equation of one month, given the heat index, the exponent and the day length -/
theorem month_near {T : Trig (B64 σ)} (hP : PowNear T) {I e DL : ℝ} {i a dl x : B64 σ} {A : ℚ} {τ : ℚ} {days : ℕ} (hi : Val e I i) (hI : 0 < I) (hI2 : I ≤ 384)
    (hl : -36 ≤ Real.log I) (he0 : 0 ≤ e) (he : e ≤ 1 / 10 ^ 6) (ha : ext a = .fin A) (hA : |(A : ℝ) - Spec.expo I| ≤ Spec.expo I * (18 * e + 72 / 2 ^ 52))
    (hdl : Val (1 / 2 ^ 41) DL dl) (hD1 : 4 ≤ DL) (hD2 : DL ≤ 24) (hd1 : 28 ≤ days) (hd2 : days ≤ 31) (hx : ext x = .fin τ) (hτ : 1 / 1000 ≤ τ) (hτ2 : τ ≤ 40) :
    Val (Spec.expo I * (1 + |Real.log (10 * (τ : ℝ) / I)|) * (19 * e + 74 / 2 ^ 52) + 2061 / 2 ^ 52) (16 * (DL / 12) * ((days : ℝ) / 30) * (10 * (τ : ℝ) / I) ^ Spec.expo I)
      (thornMonth T i a dl (lit days) x) := by
  have hτr : (1 : ℝ) / 1000 ≤ τ := by
    have : (((1 : ℚ) / 1000 : ℚ) : ℝ) ≤ (τ : ℝ) := by exact_mod_cast hτ
    push_cast at this
    exact this
  have hτr2 : (τ : ℝ) ≤ 40 := by exact_mod_cast hτ2
  have hτ0 : (0 : ℝ) < τ := lt_of_lt_of_le (by norm_num) hτr
  obtain ⟨hK, hr1, hr2, hr3, hr4⟩ := ratio_range hI hI2 hl hτr hτr2
  have hE0 := expo_pos I hI.le
  have hdr1 : (28 : ℝ) ≤ days := by exact_mod_cast hd1
  have hdr2 : (days : ℝ) ≤ 31 := by exact_mod_cast hd2
  have l16 : Val (σ := σ) 0 16 (lit 16) := by have := val_nat (σ := σ) (k := 16) (by norm_num); exact_mod_cast this
  have l12 : Val (σ := σ) 0 12 (lit 12) := by have := val_nat (σ := σ) (k := 12) (by norm_num); exact_mod_cast this
  have l30 : Val (σ := σ) 0 30 (lit 30) := by have := val_nat (σ := σ) (k := 30) (by norm_num); exact_mod_cast this
  have l10 : Val (σ := σ) 0 10 (lit 10) := by have := val_nat (σ := σ) (k := 10) (by norm_num); exact_mod_cast this
  have ld : Val (σ := σ) 0 (days : ℝ) (lit (days : ℚ)) := val_nat (by omega)
  have vx : Val 0 (τ : ℝ) x := ⟨τ, hx, LogE.refl hτ0.le⟩
  have small : ∀ {B : ℝ}, 1 / 1000 ≤ B → B ≤ 1000 → InRange B := by
    intro B h1 h2
    constructor
    · right
      refine le_trans ?_ h1
      exact (zpow_le_zpow_right₀ (by norm_num) (show (-900 : ℤ) ≤ -10 by norm_num)).trans (by norm_num)
    · refine h2.trans ((by norm_num : (1000 : ℝ) ≤ 2 ^ (10 : ℤ)).trans (zpow_le_zpow_right₀ (by norm_num) (by norm_num)))
  have hU : (1 : ℝ) / 2 ^ 52 ≤ 1 / 10 ^ 9 := by norm_num
  have hU41 : (1 : ℝ) / 2 ^ 41 ≤ 1 / 10 ^ 9 := by norm_num
  have v1 := val_div hdl l12 (by norm_num) (small (by linarith) (by linarith)) (by linarith)
  have v2 := val_mul l16 v1 (small (by linarith) (by linarith)) (by linarith)
  have v3 := val_div ld l30 (by norm_num) (small (by linarith) (by linarith)) (by linarith)
  have q1 : 0.9 ≤ (days : ℝ) / 30 ∧ (days : ℝ) / 30 ≤ 1.1 := by constructor <;> (norm_num; linarith)
  have q2 : 5 ≤ 16 * (DL / 12) ∧ 16 * (DL / 12) ≤ 33 := by constructor <;> linarith
  have q3 : 4 ≤ 16 * (DL / 12) * ((days : ℝ) / 30) ∧ 16 * (DL / 12) * ((days : ℝ) / 30) ≤ 40 := by
    constructor
    · have := mul_le_mul q2.1 q1.1 (by norm_num) (by linarith)
      norm_num at this
      linarith
    · have := mul_le_mul q2.2 q1.2 (by linarith) (by norm_num)
      norm_num at this
      linarith
  have v4 := val_mul v2 v3 (small (by linarith [q3.1]) (by linarith [q3.2])) (by linarith)
  have v5 := val_mul l10 vx (small (by linarith) (by linarith)) (by norm_num)
  have v6 := val_div v5 hi hI (inRange_log (by positivity) hr3 hr4) (by linarith)
  have hA0 : 0 < A := by
    have h1 := (abs_le.1 hA).1
    have h2 : (18 : ℝ) * e + 72 / 2 ^ 52 ≤ 1 / 2 := by
      have : (72 : ℝ) / 2 ^ 52 ≤ 1 / 10 ^ 6 := by norm_num
      linarith
    have h3 := mul_le_mul_of_nonneg_left h2 hE0.le
    have : (0 : ℝ) < A := by linarith
    exact_mod_cast this
  have hlogP : Real.log ((10 * (τ : ℝ) / I) ^ Spec.expo I) = Spec.expo I * Real.log (10 * (τ : ℝ) / I) := Real.log_rpow (by positivity) _
  have hP0 : 0 < (10 * (τ : ℝ) / I) ^ Spec.expo I := Real.rpow_pos_of_pos (by positivity) _
  -- the errors of base and exponent
  have hK0 : 0 ≤ |Real.log (10 * (τ : ℝ) / I)| := abs_nonneg _
  have hexp : Spec.expo I * (18 * e + 72 / 2 ^ 52) * (|Real.log (10 * (τ : ℝ) / I)| + 1) + Spec.expo I * (0 + 0 + 1 / 2 ^ 52 + e + 1 / 2 ^ 52) ≤
      Spec.expo I * (1 + |Real.log (10 * (τ : ℝ) / I)|) * (19 * e + 74 / 2 ^ 52) := by
    have h1 : Spec.expo I * (0 + 0 + 1 / 2 ^ 52 + e + 1 / 2 ^ 52) ≤ Spec.expo I * (1 + |Real.log (10 * (τ : ℝ) / I)|) * (e + 2 / 2 ^ 52) := by
      rw [mul_assoc]
      refine mul_le_mul_of_nonneg_left ?_ hE0.le
      have h2 : 0 ≤ |Real.log (10 * (τ : ℝ) / I)| * (e + 2 / 2 ^ 52) := mul_nonneg hK0 (by positivity)
      have e2 : (1 + |Real.log (10 * (τ : ℝ) / I)|) * (e + 2 / 2 ^ 52) = e + 2 / 2 ^ 52 + |Real.log (10 * (τ : ℝ) / I)| * (e + 2 / 2 ^ 52) := by ring
      rw [e2]
      linarith
    have e3 : Spec.expo I * (1 + |Real.log (10 * (τ : ℝ) / I)|) * (19 * e + 74 / 2 ^ 52) =
      Spec.expo I * (18 * e + 72 / 2 ^ 52) * (|Real.log (10 * (τ : ℝ) / I)| + 1) + Spec.expo I * (1 + |Real.log (10 * (τ : ℝ) / I)|) * (e + 2 / 2 ^ 52) := by ring
    linarith
  have hKe : Spec.expo I * (1 + |Real.log (10 * (τ : ℝ) / I)|) * (19 * e + 74 / 2 ^ 52) ≤ 1 / 10 := by
    refine (mul_le_mul hK (show 19 * e + 74 / 2 ^ 52 ≤ 20 / 10 ^ 6 by
      have : (74 : ℝ) / 2 ^ 52 ≤ 1 / 10 ^ 6 := by norm_num
      linarith) (by positivity) (by norm_num)).trans (by norm_num)
  have v7 := val_pow hP v6 ha hA0 hE0.le hA (by positivity) le_rfl (by linarith) (inRange_log hP0 (by rw [hlogP]; exact hr1) (by rw [hlogP]; linarith)) (hexp.trans (hKe.trans (by norm_num)))
  have v7' : Val (Spec.expo I * (1 + |Real.log (10 * (τ : ℝ) / I)|) * (19 * e + 74 / 2 ^ 52) + 8 / 2 ^ 52) ((10 * (τ : ℝ) / I) ^ Spec.expo I)
      (T.pow (lit 10 * x / i) a) := v7.mono (by
    have : (1 : ℝ) / 2 ^ 49 = 8 / 2 ^ 52 := by norm_num
    linarith)
  have hlogq : 0 ≤ Real.log (16 * (DL / 12) * ((days : ℝ) / 30)) ∧ Real.log (16 * (DL / 12) * ((days : ℝ) / 30)) ≤ 5 := by
    constructor
    · exact Real.log_nonneg (by linarith [q3.1])
    · have h1 : 16 * (DL / 12) * ((days : ℝ) / 30) ≤ (2 : ℝ) ^ (6 : ℝ) := by
        rw [show ((2 : ℝ) ^ (6 : ℝ)) = 64 by rw [show (6 : ℝ) = ((6 : ℕ) : ℝ) by norm_num, Real.rpow_natCast]; norm_num]
        linarith [q3.2]
      have h2 := Real.log_le_log (by linarith [q3.1]) h1
      rw [Real.log_rpow (by norm_num)] at h2
      have := Real.log_two_lt_d9
      linarith
  have hq0 : 0 < 16 * (DL / 12) * ((days : ℝ) / 30) := by linarith [q3.1]
  have v8 := val_mul v4 v7' (inRange_log (mul_pos hq0 hP0) (by rw [Real.log_mul hq0.ne' hP0.ne', hlogP]; linarith [hlogq.1]) (by
    rw [Real.log_mul hq0.ne' hP0.ne', hlogP]; linarith [hlogq.2])) (by
      have : (8 : ℝ) / 2 ^ 52 ≤ 1 / 10 := by norm_num
      linarith)
  refine v8.mono ?_
  have e1 : (1 : ℝ) / 2 ^ 41 = 2048 / 2 ^ 52 := by norm_num
  rw [e1]
  generalize Spec.expo I * (1 + |Real.log (10 * (τ : ℝ) / I)|) * (19 * e + 74 / 2 ^ 52) = z
  norm_num
  linarith

theorem month_zero {T : Trig (B64 σ)} (hP : PowNear T) {I e DL : ℝ} {i a dl x : B64 σ} {A : ℚ} {days : ℕ} (hi : Val e I i) (hI : 0 < I) (he0 : 0 ≤ e) (he : e ≤ 1 / 10 ^ 6)
    (ha : ext a = .fin A) (hA : 0 < A) (hdl : Val (1 / 2 ^ 41) DL dl) (hD1 : 4 ≤ DL) (hD2 : DL ≤ 24) (hd1 : 28 ≤ days) (hd2 : days ≤ 31) (hx : ext x = .fin 0) :
    ext (thornMonth T i a dl (lit days) x) = .fin 0 := by
  have hdr1 : (28 : ℝ) ≤ days := by exact_mod_cast hd1
  have hdr2 : (days : ℝ) ≤ 31 := by exact_mod_cast hd2
  have l16 : Val (σ := σ) 0 16 (lit 16) := by have := val_nat (σ := σ) (k := 16) (by norm_num); exact_mod_cast this
  have l12 : Val (σ := σ) 0 12 (lit 12) := by have := val_nat (σ := σ) (k := 12) (by norm_num); exact_mod_cast this
  have l30 : Val (σ := σ) 0 30 (lit 30) := by have := val_nat (σ := σ) (k := 30) (by norm_num); exact_mod_cast this
  have l10 : Val (σ := σ) 0 10 (lit 10) := by have := val_nat (σ := σ) (k := 10) (by norm_num); exact_mod_cast this
  have ld : Val (σ := σ) 0 (days : ℝ) (lit (days : ℚ)) := val_nat (by omega)
  have zr : InRange 0 := ⟨Or.inl rfl, by positivity⟩
  have vx : Val 0 0 x := ⟨0, hx, by rw [Rat.cast_zero]; exact LogE.refl le_rfl⟩
  have small : ∀ {B : ℝ}, 1 / 1000 ≤ B → B ≤ 1000 → InRange B := by
    intro B h1 h2
    constructor
    · right
      refine le_trans ?_ h1
      exact (zpow_le_zpow_right₀ (by norm_num) (show (-900 : ℤ) ≤ -10 by norm_num)).trans (by norm_num)
    · refine h2.trans ((by norm_num : (1000 : ℝ) ≤ 2 ^ (10 : ℤ)).trans (zpow_le_zpow_right₀ (by norm_num) (by norm_num)))
  have hU : (1 : ℝ) / 2 ^ 52 ≤ 1 / 10 ^ 9 := by norm_num
  have hU41 : (1 : ℝ) / 2 ^ 41 ≤ 1 / 10 ^ 9 := by norm_num
  have v1 := val_div hdl l12 (by norm_num) (small (by linarith) (by linarith)) (by linarith)
  have v2 := val_mul l16 v1 (small (by linarith) (by linarith)) (by linarith)
  have v3 := val_div ld l30 (by norm_num) (small (by linarith) (by linarith)) (by linarith)
  have q1 : 0.9 ≤ (days : ℝ) / 30 ∧ (days : ℝ) / 30 ≤ 1.1 := by constructor <;> (norm_num; linarith)
  have q2 : 5 ≤ 16 * (DL / 12) ∧ 16 * (DL / 12) ≤ 33 := by constructor <;> linarith
  have q3 : 4 ≤ 16 * (DL / 12) * ((days : ℝ) / 30) ∧ 16 * (DL / 12) * ((days : ℝ) / 30) ≤ 40 := by
    constructor
    · have := mul_le_mul q2.1 q1.1 (by norm_num) (by linarith)
      norm_num at this
      linarith
    · have := mul_le_mul q2.2 q1.2 (by linarith) (by norm_num)
      norm_num at this
      linarith
  have v4 := val_mul v2 v3 (small (by linarith [q3.1]) (by linarith [q3.2])) (by linarith)
  have v5 := val_mul l10 vx (by rw [mul_zero]; exact zr) (by norm_num)
  rw [mul_zero] at v5
  have v6 := val_div v5 hi hI (by rw [zero_div]; exact zr) (by linarith)
  rw [zero_div] at v6
  have hp := hP.zero _ _ _ (val_zero v6) ha hA
  have vp : Val 0 0 (T.pow (lit 10 * x / i) a) := ⟨0, hp, by rw [Rat.cast_zero]; exact LogE.refl le_rfl⟩
  have v7 := val_mul v4 vp (by rw [mul_zero]; exact zr) (by linarith)
  rw [mul_zero] at v7
  exact val_zero v7

/-! ## The record -/

theorem reshape_pad (temps r : Arr (B64 σ)) (hr : reshapeTo2d temps 12 = .ok r) : ∃ n, r.data = temps.data ++ List.replicate n (B64.nan : B64 σ) := by
  unfold reshapeTo2d at hr
  split at hr
  · split at hr
    · cases hr; exact ⟨0, by simp⟩
    · cases hr
  · rw [if_neg (by norm_num)] at hr
    simp only [Except.ok.injEq] at hr
    subst hr
    simp only
    split
    · exact ⟨_, rfl⟩
    · exact ⟨0, by simp⟩
  · cases hr

theorem zneg_nan : zeroNegative (B64.nan : B64 σ) = B64.nan := rfl

theorem zneg_fin {v : B64 σ} {q : ℚ} (h : ext v = .fin q) : ext (zeroNegative v) = .fin (max q 0) := by
  unfold zeroNegative
  rw [flt_ext h ext_lit_zero]
  by_cases hq : q < 0
  · rw [decide_eq_true hq, if_pos rfl, max_eq_right hq.le]; exact ext_lit_zero
  · rw [decide_eq_false hq, if_neg (by simp), max_eq_left (not_lt.1 hq)]; exact h

theorem real64_fin {v : B64 σ} {q : ℚ} (h : ext v = .fin q) : real64 v = some (q : ℝ) := by
  unfold real64; rw [h]

theorem zneg_temp {v : B64 σ} (h : Temp v) : Rain (zeroNegative v) ∧ real64 (zeroNegative v) = (real64 v).map (max · 0) := by
  rcases h with rfl | ⟨q, h1, h2, h3⟩
  · exact ⟨Or.inl rfl, rfl⟩
  · have h4 := zneg_fin h1
    refine ⟨Or.inr ⟨_, h4, ?_, ?_⟩, ?_⟩
    · rcases h2 with h2 | h2
      · left; exact max_eq_right h2
      · right; exact le_trans (le_trans (by norm_num) h2) (le_max_left _ _)
    · exact max_le (h3.trans (by norm_num)) (by norm_num)
    · rw [real64_fin h4, real64_fin h1, Option.map_some, Rat.cast_max, Rat.cast_zero]

theorem mdays_range (y : ℤ) (m : ℕ) : 28 ≤ Spec.mdays y m ∧ Spec.mdays y m ≤ 31 := by
  unfold Spec.mdays Spec.monthLen
  split
  · split <;> decide
  · split <;> decide

/-- C134: In IEEE float64 arithmetic, with trigonometric functions accurate to 2^-50 and powers of relative error 2^-50, `pet` returns for every record of up to 2^20 years
with a value of every calendar month and a month above freezing, and every latitude up to 60 degrees, one value per month: NaN exactly for the missing months, exactly 0
for the months at or below freezing, and otherwise Thornthwaite's value up to an explicit relative error. The error grows with the number of years (the means) and with the
sensitivity `a (1 + |log (10 T / I)|)` of the power to the errors of the heat index `I`. -/
theorem C134_pet (T : Trig (B64 σ)) (hT : TrigNear T) (hP : PowNear T) (temps r : Arr (B64 σ)) (hr : reshapeTo2d temps 12 = .ok r) (N : ℕ) (hN : r.data.length = N * 12)
    (hN2 : N ≤ 2 ^ 20) (htemp : ∀ v ∈ temps.data, Temp v) (t : List (Option ℝ)) (ht : t = temps.data.map real64) (x : B64 σ) (q : ℚ) (hx : ext x = .fin q) (hq : |q| ≤ 60)
    (y : ℤ) (hmon : ∀ j, j < 12 → Spec.monthValues t j ≠ []) (hpos : ∃ a : ℝ, some a ∈ t ∧ 0 < a) :
    ∃ out, pet T temps (some x) y = .ok out ∧ out.length = t.length ∧ (∀ k : ℕ, t[k]? = some none → out[k]? = some B64.nan) ∧
      ∀ (k : ℕ) (a : ℝ), t[k]? = some (some a) → ∃ v b, out[k]? = some v ∧ ext v = .fin b ∧ (a ≤ 0 → b = 0) ∧ (0 < a → sensitivity t a ≤ 420) ∧
        |(b : ℝ) - Spec.thornthwaite t (q * (Real.pi / 180)) y k a| ≤
          Spec.thornthwaite t (q * (Real.pi / 180)) y k a * ((sensitivity t a * (76 * N + 1518) + 2061) / 2 ^ 51) := by
  obtain ⟨m, hm⟩ := reshape_pad temps r hr
  -- the data the computation works with
  have hd : (r.data.map zeroNegative).map real64 = t.map (Option.map (max · 0)) ++ List.replicate m none := by
    rw [hm, List.map_append, List.map_append, List.map_replicate, List.map_replicate, zneg_nan, ht, List.map_map, List.map_map]
    congr 1
    apply List.map_congr_left
    intro v hv
    exact (zneg_temp (htemp v hv)).2
  have hrain : ∀ v ∈ r.data.map zeroNegative, Rain v := by
    intro v hv
    obtain ⟨w, hw, rfl⟩ := List.mem_map.1 hv
    rw [hm] at hw
    rcases List.mem_append.1 hw with hw | hw
    · exact (zneg_temp (htemp w hw)).1
    · rw [(List.mem_replicate.1 hw).2]; exact Or.inl rfl
  have hmv : ∀ j, j < 12 → ((stride 12 j (r.data.map zeroNegative)).map real64).filterMap id = Spec.monthValues t j := by
    intro j hj
    rw [← stride_map, hd]
    exact filterMap_stride_pad t m j hj
  have hslen : ∀ j, j < 12 → (stride 12 j (r.data.map zeroNegative)).length = N := by
    intro j hj
    exact stride_length N 12 j _ hj (by rw [List.length_map]; exact hN)
  have hN1 : 1 ≤ N := by
    by_contra h
    have h0 : N = 0 := by omega
    have hl := hslen 0 (by norm_num)
    rw [h0] at hl
    have := hmv 0 (by norm_num)
    rw [List.length_eq_zero_iff.1 hl] at this
    exact hmon 0 (by norm_num) this.symm
  have hNr1 : (1 : ℝ) ≤ N := by exact_mod_cast hN1
  have hNr2 : (N : ℝ) ≤ 2 ^ 20 := by exact_mod_cast hN2
  have hmean : ∀ j, j < 12 → Val ((N + 1) / 2 ^ 51) (Spec.mean (Spec.monthValues t j)) (nanmean (stride 12 j (r.data.map zeroNegative))) := by
    intro j hj
    have hne := hmon j hj
    rw [← hmv j hj] at hne ⊢
    exact month_mean (fun v hv => hrain v (mem_of_mem_stride _ _ _ _ hv)) (hslen j hj) hN2 hne
  have htr : ∀ (k : ℕ) (a : ℝ), t[k]? = some (some a) → ∃ v qq, temps.data[k]? = some v ∧ ext v = .fin qq ∧ a = qq ∧ (qq ≤ 0 ∨ 1 / 1000 ≤ qq) ∧ qq ≤ 40 := by
    intro k a hk
    rw [ht, List.getElem?_map] at hk
    obtain ⟨v, hv, hva⟩ := Option.map_eq_some_iff.1 hk
    rcases htemp v (List.mem_of_getElem? hv) with rfl | ⟨qq, h1, h2, h3⟩
    · cases hva
    · rw [real64_fin h1] at hva
      exact ⟨v, qq, hv, h1, (Option.some.inj hva).symm, h2, h3⟩
  have hrange : ∀ j, j < 12 → (Spec.mean (Spec.monthValues t j) = 0 ∨ 1 / (1000 * N) ≤ Spec.mean (Spec.monthValues t j)) ∧ Spec.mean (Spec.monthValues t j) ≤ 40 := by
    intro j hj
    refine mean_range ?_ ?_
    · rw [← hmv j hj, ← hslen j hj]
      refine (List.length_filterMap_le _ _).trans ?_
      rw [List.length_map]
    · intro v hv
      unfold Spec.monthValues at hv
      obtain ⟨i, _, h⟩ := List.mem_filterMap.1 hv
      obtain ⟨a, ha, rfl⟩ := Option.map_eq_some_iff.1 h
      rw [Option.join_eq_some_iff] at ha
      obtain ⟨_, qq, _, _, rfl, h2, h3⟩ := htr _ _ ha
      rcases h2 with h2 | h2
      · left; exact max_eq_right (by exact_mod_cast h2)
      · right
        have h2' : (((1 : ℚ) / 1000 : ℚ) : ℝ) ≤ (qq : ℝ) := by exact_mod_cast h2
        push_cast at h2'
        exact ⟨h2'.trans (le_max_left _ _), max_le (by exact_mod_cast h3) (by norm_num)⟩
  have hIpos := heat_pos t hpos
  obtain ⟨hIv, hI2, hIl⟩ := heat_val hP hN1 hN2 t (r.data.map zeroNegative) hmean hrange hIpos
  have he : (4 * (N : ℝ) + 76) / 2 ^ 52 ≤ 1 / 10 ^ 6 := by
    have : (4 * (N : ℝ) + 76) / 2 ^ 52 ≤ (4 * 2 ^ 20 + 76) / 2 ^ 52 := by gcongr
    exact this.trans (by norm_num)
  have he0 : 0 ≤ (4 * (N : ℝ) + 76) / 2 ^ 52 := by positivity
  obtain ⟨A, hA, hAe⟩ := exponent_near hP hIv hIpos hI2 hIl he0 (he.trans (by norm_num))
  have hE0 := expo_pos (Spec.heat t) hIpos.le
  have hA0 : 0 < A := by
    have h1 := (abs_le.1 hAe).1
    have h2 : (18 : ℝ) * ((4 * (N : ℝ) + 76) / 2 ^ 52) + 72 / 2 ^ 52 ≤ 1 / 2 := by
      have : (72 : ℝ) / 2 ^ 52 ≤ 1 / 10 ^ 6 := by norm_num
      linarith
    have h3 := mul_le_mul_of_nonneg_left h2 hE0.le
    have : (0 : ℝ) < A := by linarith
    exact_mod_cast this
  -- the call
  have hq90 : |q| ≤ 90 := hq.trans (by norm_num)
  obtain ⟨dlN, hdN, -⟩ := C133_total T hT.toTrigBounds x q hx hq90 false
  obtain ⟨dlL, hdL, -⟩ := C133_total T hT.toTrigBounds x q hx hq90 true
  have hq' := abs_le.1 hq
  have hnan : allNan temps.data = false := by
    obtain ⟨a, ha, _⟩ := hpos
    obtain ⟨k, hk⟩ := List.mem_iff_getElem?.1 ha
    obtain ⟨v, qq, hv, hqq, _⟩ := htr k a hk
    by_contra hc
    have hc : allNan temps.data = true := by simpa using hc
    have := List.all_eq_true.1 hc v (List.mem_of_getElem? hv)
    cases v with
    | nan => cases hqq
    | inf s => cases s <;> cases hqq
    | fin s m h => cases this
  have hcall : pet T temps (some x) y = .ok (((r.data.map zeroNegative).zipIdx.map (fun q => thornAt T (heatIndex T (r.data.map zeroNegative))
        (thornExponent T (heatIndex T (r.data.map zeroNegative))) dlN dlL y q.2 q.1)).take temps.data.length) := by
    unfold pet
    rw [hnan]
    have e90 : ext (lit 90 : B64 σ) = .fin 90 := natlit (k := 90) (by norm_num)
    have e90' : ext (lit (-90) : B64 σ) = .fin (-90) := by
      have := intlit (σ := σ) (-90) (by norm_num)
      exact_mod_cast this
    have hxn : isNan x = false := by
      cases x with
      | nan => cases hx
      | inf s => cases s <;> cases hx
      | fin s m h => rfl
    simp only [flt_ext e90' hx, flt_ext hx e90, hxn, decide_eq_true (by linarith : -90 < q), decide_eq_true (by linarith : q < 90)]
    show etoThornthwaite T temps x y = _
    unfold etoThornthwaite
    rw [hr]
    simp only [bind, Except.bind, hdN, hdL, pure, Except.pure]
  have hlen : temps.data.length = t.length := by rw [ht, List.length_map]
  have hget : ∀ k v, temps.data[k]? = some v → (((r.data.map zeroNegative).zipIdx.map (fun q => thornAt T (heatIndex T (r.data.map zeroNegative))
        (thornExponent T (heatIndex T (r.data.map zeroNegative))) dlN dlL y q.2 q.1)).take temps.data.length)[k]? =
        some (thornAt T (heatIndex T (r.data.map zeroNegative)) (thornExponent T (heatIndex T (r.data.map zeroNegative))) dlN dlL y k (zeroNegative v)) := by
    intro k v hv
    have hk : k < temps.data.length := (List.getElem?_eq_some_iff.1 hv).1
    rw [List.getElem?_take_of_lt hk, List.getElem?_map, List.getElem?_zipIdx, List.getElem?_map]
    rw [show r.data[k]? = some v by rw [hm, List.getElem?_append_left hk]; exact hv]
    simp
  generalize thornExponent T (heatIndex T (r.data.map zeroNegative)) = ae at *
  generalize heatIndex T (r.data.map zeroNegative) = ie at *
  refine ⟨_, hcall, ?_, ?_, ?_⟩
  · rw [List.length_take, List.length_map, List.length_zipIdx, List.length_map, hm, List.length_append, hlen]
    omega
  · intro k hk
    rw [ht, List.getElem?_map] at hk
    obtain ⟨v, hv, hva⟩ := Option.map_eq_some_iff.1 hk
    have hvn : v = .nan := by
      rcases htemp v (List.mem_of_getElem? hv) with h | ⟨qq, h1, _⟩
      · exact h
      · rw [real64_fin h1] at hva; cases hva
    subst hvn
    rw [hget k _ hv, zneg_nan]
    unfold thornAt thornMonth
    simp only
    have e1 : (lit 10 * B64.nan / ie : B64 σ) = B64.nan := by
      have : (lit 10 * B64.nan : B64 σ) = B64.nan := FloatLaws.mul_nan _
      rw [this]
      exact FloatLaws.nan_div _
    rw [e1, show T.pow B64.nan ae = B64.nan from hP.nan _ _ hA hA0]
    exact congrArg some (FloatLaws.mul_nan _)
  · intro k a hk
    obtain ⟨v, qq, hv, hvq, rfl, h2, h3⟩ := htr k a hk
    rw [hget k v hv]
    obtain ⟨out, ho, holen, hout⟩ := C133_accurate T hT x q hx hq (y + (k / 12 : ℕ))
    have hm12 : k % 12 < 12 := Nat.mod_lt _ (by norm_num)
    obtain ⟨dv, db, hdv, hdb, hdbe⟩ := hout (k % 12) hm12
    have hdl : (if isLeap (y + ((k / 12 : ℕ) : ℤ)) = true then dlL else dlN).getD (k % 12) B64.nan = dv := by
      have : (if isLeap (y + ((k / 12 : ℕ) : ℤ)) = true then dlL else dlN) = out := by
        cases hle : isLeap (y + ((k / 12 : ℕ) : ℤ))
        · rw [hle, hdN] at ho
          simpa using ho
        · rw [hle, hdL] at ho
          simpa using ho
      rw [this, List.getD_eq_getElem?_getD, hdv]
      rfl
    obtain ⟨md1, md2⟩ := mdays_range (y + (k / 12 : ℕ)) (k % 12)
    have hφ : |(q : ℝ) * (Real.pi / 180)| ≤ Real.pi / 3 := by
      have hqr : |(q : ℝ)| ≤ 60 := by exact_mod_cast hq
      have := Real.pi_pos
      rw [abs_mul, abs_of_pos (by positivity : 0 < Real.pi / 180)]
      exact (mul_le_mul_of_nonneg_right hqr (by positivity)).trans (by linarith)
    have hDL1 := meanHours_ge hφ (mdays_pos (y + (k / 12 : ℕ)) (k % 12)) (Spec.firstDay (y + (k / 12 : ℕ)) (k % 12))
    have hDL2 := (meanHours_range (q * (Real.pi / 180)) _ (Spec.firstDay (y + (k / 12 : ℕ)) (k % 12)) (mdays_pos (y + (k / 12 : ℕ)) (k % 12))).2
    have hdlV : Val (1 / 2 ^ 41) (meanHours (q * (Real.pi / 180)) (Spec.mdays (y + (k / 12 : ℕ)) (k % 12)) (Spec.firstDay (y + (k / 12 : ℕ)) (k % 12))) dv := by
      refine ⟨db, hdb, ?_⟩
      have h5 : |(db : ℝ) - meanHours (q * (Real.pi / 180)) (Spec.mdays (y + (k / 12 : ℕ)) (k % 12)) (Spec.firstDay (y + (k / 12 : ℕ)) (k % 12))| ≤
          meanHours (q * (Real.pi / 180)) (Spec.mdays (y + (k / 12 : ℕ)) (k % 12)) (Spec.firstDay (y + (k / 12 : ℕ)) (k % 12)) * (1 / 2 ^ 42) := by
        refine hdbe.trans ?_
        have := mul_le_mul_of_nonneg_right hDL1 (show (0 : ℝ) ≤ 1 / 2 ^ 42 by norm_num)
        refine le_trans (by norm_num) this
      exact (LogE.of_rel (by linarith) h5 (by norm_num) (by norm_num)).mono (by norm_num)
    have hthorn : thornAt T ie ae dlN dlL y k (zeroNegative v) = thornMonth T ie ae dv (lit (Spec.mdays (y + (k / 12 : ℕ)) (k % 12) : ℚ)) (zeroNegative v) := by
      unfold thornAt
      simp only
      rw [show (FloatOps.nan : B64 σ) = B64.nan from rfl, hdl, (monthDays_spec _ _ hm12).1]
    rw [hthorn]
    have hzv := zneg_fin hvq
    rcases h2 with h2 | h2
    · have h2r : (qq : ℝ) ≤ 0 := by exact_mod_cast h2
      rw [max_eq_right h2] at hzv
      refine ⟨_, 0, rfl, month_zero hP hIv hIpos he0 he hA hA0 hdlV hDL1 hDL2 md1 md2 hzv, fun _ => rfl, fun h => absurd h (not_lt.2 h2r), ?_⟩
      rw [thornthwaite_frozen t _ y k _ h2r, zero_mul, Rat.cast_zero, sub_zero, abs_zero]
    · have h20 : 0 ≤ qq := le_trans (by norm_num) h2
      rw [max_eq_left h20] at hzv
      obtain ⟨b, hb, hbl⟩ := month_near hP hIv hIpos hI2 hIl he0 he hA hAe hdlV hDL1 hDL2 md1 md2 hzv h2 h3
      have h20r : (0 : ℝ) ≤ qq := by exact_mod_cast h20
      have h2' : (((1 : ℚ) / 1000 : ℚ) : ℝ) ≤ (qq : ℝ) := by exact_mod_cast h2
      push_cast at h2'
      refine ⟨_, b, rfl, hb, fun h => absurd h (by linarith), fun _ => (ratio_range hIpos hI2 hIl h2' (by exact_mod_cast h3)).1, ?_⟩
      have hK := (ratio_range hIpos hI2 hIl h2' (by exact_mod_cast h3)).1
      have hK0 : 0 ≤ Spec.expo (Spec.heat t) * (1 + |Real.log (10 * (qq : ℝ) / Spec.heat t)|) := by positivity
      have hspec : Spec.thornthwaite t (q * (Real.pi / 180)) y k qq = 16 * (meanHours (q * (Real.pi / 180)) (Spec.mdays (y + (k / 12 : ℕ)) (k % 12))
          (Spec.firstDay (y + (k / 12 : ℕ)) (k % 12)) / 12) * ((Spec.mdays (y + (k / 12 : ℕ)) (k % 12) : ℝ) / 30) * (10 * (qq : ℝ) / Spec.heat t) ^ Spec.expo (Spec.heat t) := by
        unfold Spec.thornthwaite
        rw [max_eq_left h20r]
      rw [hspec]
      unfold sensitivity
      have e1 : 19 * ((4 * (N : ℝ) + 76) / 2 ^ 52) + 74 / 2 ^ 52 = (76 * N + 1518) / 2 ^ 52 := by ring
      rw [e1] at hbl
      generalize Spec.expo (Spec.heat t) * (1 + |Real.log (10 * (qq : ℝ) / Spec.heat t)|) = K at *
      refine (hbl.rel (by positivity) ?_).trans (le_of_eq ?_)
      · have : K * ((76 * (N : ℝ) + 1518) / 2 ^ 52) ≤ 420 * ((76 * 2 ^ 20 + 1518) / 2 ^ 52) := by gcongr
        refine (add_le_add this le_rfl).trans (by norm_num)
      · congr 1
        ring

/-- C134: one bound for all months: the relative error is at most (N + 20)/2^36 for a record of N years, that is below 2·10^-9 for a century -/
theorem C134_uniform (T : Trig (B64 σ)) (hT : TrigNear T) (hP : PowNear T) (temps r : Arr (B64 σ)) (hr : reshapeTo2d temps 12 = .ok r) (N : ℕ) (hN : r.data.length = N * 12)
    (hN2 : N ≤ 2 ^ 20) (htemp : ∀ v ∈ temps.data, Temp v) (t : List (Option ℝ)) (ht : t = temps.data.map real64) (x : B64 σ) (q : ℚ) (hx : ext x = .fin q) (hq : |q| ≤ 60)
    (y : ℤ) (hmon : ∀ j, j < 12 → Spec.monthValues t j ≠ []) (hpos : ∃ a : ℝ, some a ∈ t ∧ 0 < a) :
    ∃ out, pet T temps (some x) y = .ok out ∧ out.length = t.length ∧ ∀ (k : ℕ) (a : ℝ), t[k]? = some (some a) → ∃ v b, out[k]? = some v ∧ ext v = .fin b ∧ 0 ≤ b ∧
      |(b : ℝ) - Spec.thornthwaite t (q * (Real.pi / 180)) y k a| ≤ Spec.thornthwaite t (q * (Real.pi / 180)) y k a * ((N + 20) / 2 ^ 36) := by
  obtain ⟨out, h1, h2, _, h4⟩ := C134_pet T hT hP temps r hr N hN hN2 htemp t ht x q hx hq y hmon hpos
  refine ⟨out, h1, h2, fun k a hk => ?_⟩
  obtain ⟨v, b, hv, hb, hz, hs, he⟩ := h4 k a hk
  have hNr2 : (N : ℝ) ≤ 2 ^ 20 := by exact_mod_cast hN2
  rcases le_or_gt a 0 with ha | ha
  · refine ⟨v, b, hv, hb, (hz ha).ge, ?_⟩
    rw [thornthwaite_frozen t _ y k _ ha, zero_mul] at he ⊢
    exact he
  · have hP0 := thornthwaite_nonneg t (q * (Real.pi / 180)) y k a
    have hle : (sensitivity t a * (76 * N + 1518) + 2061) / 2 ^ 51 ≤ ((N : ℝ) + 20) / 2 ^ 36 := by
      have : sensitivity t a * (76 * N + 1518) ≤ 420 * (76 * N + 1518) := mul_le_mul_of_nonneg_right (hs ha) (by positivity)
      rw [div_le_div_iff₀ (by positivity) (by positivity)]
      have hN0 : (0 : ℝ) ≤ N := by positivity
      nlinarith
    have he' := he.trans (mul_le_mul_of_nonneg_left hle hP0)
    refine ⟨v, b, hv, hb, ?_, he'⟩
    have h5 : ((N : ℝ) + 20) / 2 ^ 36 ≤ 1 := by
      rw [div_le_one (by positivity)]
      linarith
    have h6 := mul_le_mul_of_nonneg_left h5 hP0
    have h7 := (abs_le.1 he').1
    have : (0 : ℝ) ≤ b := by linarith
    exact_mod_cast this

/-! ## The hypotheses hold for some libraries and data -/

open Classical in
/-- a power that returns a float64 number next to the exact value -/
noncomputable def nearPow (x y : B64 leftToRight) : B64 leftToRight := match ext x, ext y with
  | .fin p, .fin q => if h : 0 < p ∧ (2 : ℝ) ^ (-1000 : ℤ) ≤ (p : ℝ) ^ (q : ℝ) ∧ (p : ℝ) ^ (q : ℝ) ≤ 2 ^ (1000 : ℤ) then
      (near_exists ((p : ℝ) ^ (q : ℝ)) (Or.inr (h.2.1.trans (le_abs_self _))) (by
        rw [abs_of_pos (Real.rpow_pos_of_pos (by exact_mod_cast h.1) _)]; exact h.2.2)).choose else lit 0
  | _, _ => nan

theorem nearPow_near : PowNear (nearTrig nearPow) := by
  refine ⟨?_, ?_, ?_⟩
  · intro x y p q hx hy hp hq h1 h2
    have hp' : (0 : ℝ) < (p : ℝ) ^ (q : ℝ) := Real.rpow_pos_of_pos (by exact_mod_cast hp) _
    have h := (near_exists ((p : ℝ) ^ (q : ℝ)) (Or.inr (h1.trans (le_abs_self _))) (by rw [abs_of_pos hp']; exact h2)).choose_spec
    obtain ⟨b, hb, hbe⟩ := h
    refine ⟨b, ?_, ?_⟩
    · show ext (nearPow x y) = _
      unfold nearPow
      rw [hx, hy]
      simp only
      rw [dif_pos ⟨hp, h1, h2⟩]
      exact hb
    · rw [abs_of_pos hp'] at hbe
      refine hbe.trans (div_le_div_of_nonneg_left hp'.le (by positivity) (by norm_num))
  · intro x y q hx hy hq
    show ext (nearPow x y) = _
    unfold nearPow
    rw [hx, hy]
    simp only
    rw [dif_neg (by intro h; exact lt_irrefl _ h.1)]
    exact ext_lit_zero
  · intro y q hy _
    show nearPow nan y = _
    unfold nearPow
    rfl

/-- fourteen months with winters below freezing and a gap in the second January -/
def exTemps : Arr (B64 leftToRight) :=
  ⟨[14], ([-5, -2, 3, 9, 14, 18, 20, 20, 15, 9, 3, -1] : List ℤ).map (fun z : ℤ => lit (z : ℚ)) ++ [nan, lit ((1 : ℤ) : ℚ)]⟩

theorem real64_int {z : ℤ} (h : |z| ≤ 2 ^ 53) : real64 (lit (z : ℚ) : B64 σ) = some (z : ℝ) := by
  rw [real64_fin (intlit z h), Rat.cast_intCast]

theorem monthValues_ne {t : List (Option ℝ)} {j : ℕ} {a : ℝ} (h : t[j]? = some (some a)) : Spec.monthValues t j ≠ [] := by
  refine List.ne_nil_of_mem (a := max a 0) ?_
  unfold Spec.monthValues
  refine List.mem_filterMap.2 ⟨0, ?_, ?_⟩
  · have := (List.getElem?_eq_some_iff.1 h).1
    rw [List.mem_range]
    omega
  · rw [zero_mul, zero_add, h]
    rfl

/-- the hypotheses of `C134_pet` and `C134_uniform` hold for that record at 45.5 degrees -/
example : ∃ (T : Trig (B64 leftToRight)) (r : Arr (B64 leftToRight)) (t : List (Option ℝ)) (x : B64 leftToRight), TrigNear T ∧ PowNear T ∧
    reshapeTo2d exTemps 12 = .ok r ∧ r.data.length = 2 * 12 ∧ (∀ v ∈ exTemps.data, Temp v) ∧ t = exTemps.data.map real64 ∧ ext x = .fin 45.5 ∧
    (∀ j, j < 12 → Spec.monthValues t j ≠ []) ∧ ∃ a : ℝ, some a ∈ t ∧ 0 < a := by
  have ht : exTemps.data.map real64 = (([-5, -2, 3, 9, 14, 18, 20, 20, 15, 9, 3, -1] : List ℤ).map (fun z : ℤ => some (z : ℝ)) ++ [none, some ((1 : ℤ) : ℝ)]) := by
    unfold exTemps
    rw [List.map_append, List.map_map]
    congr 1
    · apply List.map_congr_left
      intro z hz
      refine real64_int ?_
      revert z
      decide
    · rw [List.map_cons, List.map_cons, real64_int (by norm_num)]
      rfl
  refine ⟨nearTrig nearPow, _, _, lit 45.5, nearTrig_near _, nearPow_near, rfl, by decide +kernel, ?_, rfl, by decide +kernel, ?_, ?_⟩
  · have hz0 : ∀ z ∈ ([-5, -2, 3, 9, 14, 18, 20, 20, 15, 9, 3, -1] : List ℤ), |z| ≤ 2 ^ 53 ∧ (z ≤ 0 ∨ 1 ≤ z) ∧ z ≤ 40 := by decide
    intro v hv
    unfold exTemps at hv
    rcases List.mem_append.1 hv with hv | hv
    · obtain ⟨z, hz, rfl⟩ := List.mem_map.1 hv
      have hz' : |z| ≤ 2 ^ 53 ∧ (z ≤ 0 ∨ 1 ≤ z) ∧ z ≤ 40 := hz0 z hz
      refine Or.inr ⟨z, intlit z hz'.1, ?_, by exact_mod_cast hz'.2.2⟩
      rcases hz'.2.1 with h | h
      · left; exact_mod_cast h
      · right
        have : (1 : ℚ) ≤ z := by exact_mod_cast h
        linarith
    · rcases List.mem_cons.1 hv with rfl | hv
      · exact Or.inl rfl
      · rw [List.mem_singleton] at hv
        subst hv
        exact Or.inr ⟨_, intlit 1 (by norm_num), Or.inr (by norm_num), by norm_num⟩
  · intro j hj
    rw [ht]
    interval_cases j <;> exact monthValues_ne rfl
  · rw [ht]
    exact ⟨((9 : ℤ) : ℝ), by simp, by norm_num⟩

end CI.Props
