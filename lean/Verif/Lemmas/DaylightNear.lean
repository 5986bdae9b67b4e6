import Mathlib.Analysis.SpecialFunctions.Trigonometric.Bounds
import Mathlib.Analysis.Real.Pi.Bounds
import Verif.Lemmas.Daylight64
import Verif.Spec.TrigReal

/-!
# Accuracy of the day lengths in binary64 arithmetic

Up to 60 degrees the day length is far from the ends 0 and 24, so that the arc cosine is well conditioned.
-/

namespace CI
open B64

variable {σ : SumOrder}

/-- accuracy of the trigonometric functions of float64 numbers: 2^-50 (glibc promises better) -/
structure TrigNear (T : Trig (B64 σ)) : Prop extends TrigBounds T where
  sin_near : ∀ x q r, ext x = .fin q → ext (T.sin x) = .fin r → |q| ≤ 10 → |(r : ℝ) - Real.sin q| ≤ 1 / 2 ^ 50
  tan_near : ∀ x q r, ext x = .fin q → ext (T.tan x) = .fin r → |q| ≤ 1.1 → |(r : ℝ) - Real.tan q| ≤ 1 / 2 ^ 50
  acos_near : ∀ x q r, ext x = .fin q → ext (T.acos x) = .fin r → -1 ≤ q → q ≤ 1 → |(r : ℝ) - Real.arccos q| ≤ 1 / 2 ^ 50

/-! ## Sums over the days of a month -/

theorem unit_real : ((unit : ℚ) : ℝ) = 1 / 2 ^ 53 := by unfold unit; push_cast; norm_num

theorem sumDaylight_near {T : Trig (B64 σ)} {lat : B64 σ} (D : ℕ → ℝ) (η : ℝ)
    (hday : ∀ d, 1 ≤ d → d ≤ 366 → ∃ h b, dayHours T lat d = .ok h ∧ ext h = .fin b ∧ 0 ≤ b ∧ b ≤ 25 ∧ |(b : ℝ) - D d| ≤ η)
    (n d k : ℕ) (acc : B64 σ) (a : ℚ) (ha : ext acc = .fin a) (h0 : 0 ≤ a) (h1 : a ≤ 26 * k) (hk : k + n ≤ 31) (hd1 : 1 ≤ d) (hd2 : d + n ≤ 367) :
    ∃ y s, sumDaylight T lat n d acc = .ok y ∧ ext y = .fin s ∧ 0 ≤ s ∧ s ≤ 26 * (k + n : ℕ) ∧
      |(s : ℝ) - (a + ((List.range n).map (fun i => D (d + i))).sum)| ≤ n * (η + 1 / 2 ^ 43) := by
  induction n generalizing d k acc a with
  | zero => exact ⟨acc, a, rfl, ha, h0, by simpa using h1, by simp⟩
  | succ n ih =>
    obtain ⟨h, b, e, hb, hb0, hb1, hbD⟩ := hday d hd1 (by omega)
    have hk31 : (k : ℚ) ≤ 30 := by exact_mod_cast (by omega : k ≤ 30)
    have hab : ext (acc + h) = .fin (rnd (a + b)) := fin_add ha hb (below_max (by rw [abs_of_nonneg (by linarith)]; linarith))
    have er := rnd_add_bounds ha hb (by linarith)
    have hu : unit ≤ 1 / 10 ^ 10 := by unfold unit; norm_num
    have hup : rnd (a + b) ≤ 26 * (k + 1 : ℕ) := by
      push_cast
      have h4 : (a + b) * (1 + unit) ≤ (a + b) + 1 := by
        have : (a + b) * unit ≤ 1000 * (1 / 10 ^ 10) := mul_le_mul (by linarith) hu unit_pos.le (by norm_num)
        linarith
      linarith [er.2]
    obtain ⟨y, s, hy, hs, hs0, hs1, hsD⟩ := ih (d + 1) (k + 1) (acc + h) _ hab (rnd_nonneg (by linarith)) hup (by omega) (by omega) (by omega)
    refine ⟨y, s, ?_, hs, hs0, ?_, ?_⟩
    · rw [sumDaylight_succ, e]
      exact hy
    · rw [show k + (n + 1) = k + 1 + n by omega]; exact hs1
    · have e1 : ((List.range (n + 1)).map (fun i => D (d + i))).sum = D d + ((List.range n).map (fun i => D (d + 1 + i))).sum := by
        rw [List.range_succ_eq_map, List.map_cons, List.sum_cons, List.map_map, Nat.add_zero]
        congr 2
        refine List.map_congr_left ?_
        intro i _
        simp only [Function.comp]
        rw [show d + 1 + i = d + i.succ by omega]
      rw [e1]
      have e2 : |((rnd (a + b) : ℚ) : ℝ) - (a + b)| ≤ 1 / 2 ^ 43 := by
        have h5 := rnd_add_rel ha hb
        rw [abs_of_nonneg (by linarith : 0 ≤ a + b)] at h5
        have h6 : |rnd (a + b) - (a + b)| ≤ 1 / 2 ^ 43 := by
          refine h5.trans ((mul_le_mul_of_nonneg_right (show a + b ≤ 1000 by linarith) unit_pos.le).trans ?_)
          unfold unit; norm_num
        have h7 : ((|rnd (a + b) - (a + b)| : ℚ) : ℝ) ≤ (((1 : ℚ) / 2 ^ 43 : ℚ) : ℝ) := by exact_mod_cast h6
        push_cast at h7
        exact h7
      have e3 : (s : ℝ) - (a + (D d + ((List.range n).map (fun i => D (d + 1 + i))).sum)) =
          (s - (((rnd (a + b) : ℚ) : ℝ) + ((List.range n).map (fun i => D (d + 1 + i))).sum)) + ((((rnd (a + b) : ℚ) : ℝ) - (a + b)) + (b - D d)) := by ring
      rw [e3]
      refine (abs_add_le _ _).trans ?_
      have := abs_add_le (((rnd (a + b) : ℚ) : ℝ) - (a + b)) ((b : ℝ) - D d)
      push_cast
      linarith

theorem meanLoop_near {T : Trig (B64 σ)} {lat : B64 σ} (D : ℕ → ℝ) (η : ℝ)
    (hday : ∀ d, 1 ≤ d → d ≤ 366 → ∃ h b, dayHours T lat d = .ok h ∧ ext h = .fin b ∧ 0 ≤ b ∧ b ≤ 25 ∧ |(b : ℝ) - D d| ≤ η)
    (l : List ℕ) (d : ℕ) (hl : ∀ n ∈ l, 0 < n ∧ n ≤ 31) (hd1 : 1 ≤ d) (hd2 : d + l.sum ≤ 367) :
    ∃ out, meanDaylightLoop T lat l d = .ok out ∧ out.length = l.length ∧ ∀ m n, l[m]? = some n →
      ∃ y b, out[m]? = some y ∧ ext y = .fin b ∧ 0 ≤ b ∧ b ≤ 27 ∧
        |(b : ℝ) - ((List.range n).map (fun i => D (d + (l.take m).sum + i))).sum / n| ≤ η + 1 / 2 ^ 42 := by
  induction l generalizing d with
  | nil => exact ⟨[], rfl, rfl, fun m n h => by simp at h⟩
  | cons n l ih =>
    obtain ⟨hn0, hn31⟩ := hl n (by simp)
    rw [List.sum_cons] at hd2
    obtain ⟨y, s, hy, hs, hs0, hs1, hsD⟩ := sumDaylight_near D η hday n d 0 (lit 0) 0 ext_lit_zero le_rfl (by simp) (by omega) hd1 (by omega)
    obtain ⟨out, ho, hlen, hout⟩ := ih (d + n) (fun m hm => hl m (List.mem_cons_of_mem _ hm)) (by omega) (by omega)
    rw [Nat.zero_add] at hs1
    have hnq : (0 : ℚ) < n := by exact_mod_cast hn0
    have hnr : (0 : ℝ) < n := by exact_mod_cast hn0
    have ln : ext (lit (n : ℚ) : B64 σ) = .fin n := natlit (k := n) (by omega)
    have hq : s / n ≤ 26 := by rw [div_le_iff₀ hnq]; exact hs1
    have hq0 : 0 ≤ s / n := div_nonneg hs0 hnq.le
    have hdiv : ext (y / lit n) = .fin (rnd (s / n)) := fin_div hs ln hnq.ne' (below_max (by rw [abs_of_nonneg hq0]; linarith))
    refine ⟨y / lit n :: out, ?_, by simp [hlen], ?_⟩
    · unfold meanDaylightLoop
      rw [hy]
      simp only [bind, Except.bind, pure, Except.pure]
      rw [ho]
    · intro m k hm
      cases m with
      | zero =>
        simp only [List.getElem?_cons_zero, Option.some.injEq] at hm
        subst hm
        refine ⟨_, _, rfl, hdiv, rnd_nonneg hq0, ?_, ?_⟩
        · refine (rnd_mono hq).trans ?_
          exact (rnd_in (lo := 26) (hi := 26) (lo' := 25) (by norm_num) le_rfl le_rfl (by norm_num) (by norm_num)).2
        · rw [List.take_zero, List.sum_nil, Nat.add_zero]
          have h5 := rnd_abs (s / n)
          have h6 : |rnd (s / n) - s / n| ≤ 1 / 2 ^ 47 := by
            refine h5.trans ?_
            rw [abs_of_nonneg hq0]
            have h7 : (2 : ℚ) ^ (-1074 : ℤ) ≤ 2 ^ (-60 : ℤ) := zpow_le_zpow_right₀ (by norm_num) (by norm_num)
            have h8 := mul_le_mul_of_nonneg_right hq unit_pos.le
            have h9 : (26 : ℚ) * unit + 2 ^ (-60 : ℤ) ≤ 1 / 2 ^ 47 := by unfold unit; norm_num
            exact (add_le_add h8 h7).trans h9
          have h7 : |((rnd (s / n) : ℚ) : ℝ) - s / n| ≤ 1 / 2 ^ 47 := by
            have : ((|rnd (s / n) - s / n| : ℚ) : ℝ) ≤ (((1 : ℚ) / 2 ^ 47 : ℚ) : ℝ) := by exact_mod_cast h6
            push_cast at this
            exact this
          have h8 : |(s : ℝ) / n - ((List.range n).map (fun i => D (d + i))).sum / n| ≤ η + 1 / 2 ^ 43 := by
            rw [← sub_div, abs_div, abs_of_pos hnr, div_le_iff₀ hnr]
            rw [Rat.cast_zero, zero_add] at hsD
            rw [mul_comm]
            exact hsD
          have h9 := abs_add_le (((rnd (s / n) : ℚ) : ℝ) - s / n) ((s : ℝ) / n - ((List.range n).map (fun i => D (d + i))).sum / n)
          rw [sub_add_sub_cancel] at h9
          have h10 : (1 : ℝ) / 2 ^ 47 + 1 / 2 ^ 43 ≤ 1 / 2 ^ 42 := by norm_num
          linarith
      | succ m =>
        rw [List.getElem?_cons_succ] at hm
        obtain ⟨z, b, hz, hb⟩ := hout m k hm
        refine ⟨z, b, hz, ?_⟩
        rw [List.take_succ_cons, List.sum_cons, ← Nat.add_assoc]
        exact hb

/-! ## One day -/

theorem pi64_near : |(pi64 : ℝ) - Real.pi| ≤ 1 / 2 ^ 52 := by
  have h1 := Real.pi_gt_d20
  have h2 := Real.pi_lt_d20
  unfold pi64
  push_cast
  rw [abs_le]
  norm_num at h1 h2 ⊢
  constructor <;> linarith

theorem tan_lip {a b : ℝ} {m : ℝ} (hm : 0 < m) (ha : m ≤ Real.cos a) (hb : m ≤ Real.cos b) : |Real.tan a - Real.tan b| ≤ |a - b| / m ^ 2 := by
  have ca : 0 < Real.cos a := by linarith
  have cb : 0 < Real.cos b := by linarith
  have e : Real.tan a - Real.tan b = Real.sin (a - b) / (Real.cos a * Real.cos b) := by
    rw [Real.tan_eq_sin_div_cos, Real.tan_eq_sin_div_cos, Real.sin_sub]
    field_simp
  rw [e, abs_div, abs_of_pos (mul_pos ca cb)]
  have h1 : m ^ 2 ≤ Real.cos a * Real.cos b := by
    rw [sq]
    exact mul_le_mul ha hb hm.le ca.le
  exact div_le_div₀ (abs_nonneg _) Real.abs_sin_le_abs (by positivity) h1

theorem arccos_lip {x y : ℝ} (hx : |x| ≤ 0.79) (hy : |y| ≤ 0.79) : |Real.arccos x - Real.arccos y| ≤ 3 * |x - y| := by
  have hx' := abs_le.1 hx
  have hy' := abs_le.1 hy
  wlog h : Real.arccos y ≤ Real.arccos x generalizing x y
  · rw [abs_sub_comm, abs_sub_comm x]
    exact this hy hx hy' hx' (le_of_not_ge h)
  set A := Real.arccos x with hA
  set B := Real.arccos y with hB
  have cA : Real.cos A = x := Real.cos_arccos (by linarith) (by linarith)
  have cB : Real.cos B = y := Real.cos_arccos (by linarith) (by linarith)
  have A0 := Real.arccos_nonneg x
  have Api := Real.arccos_le_pi x
  have B0 := Real.arccos_nonneg y
  have Bpi := Real.arccos_le_pi y
  rw [← hA] at A0 Api
  rw [← hB] at B0 Bpi
  have hpi := Real.pi_pos
  have hpi4 := Real.pi_lt_d2
  have hM1 : Real.cos ((A + B) / 2) ≤ y := by
    rw [← cB]
    exact Real.cos_le_cos_of_nonneg_of_le_pi B0 (by linarith) (by linarith)
  have hM2 : x ≤ Real.cos ((A + B) / 2) := by
    rw [← cA]
    exact Real.cos_le_cos_of_nonneg_of_le_pi (by linarith) Api (by linarith)
  have hs0 : 0 ≤ Real.sin ((A + B) / 2) := Real.sin_nonneg_of_nonneg_of_le_pi (by linarith) (by linarith)
  have hs : 0.6 ≤ Real.sin ((A + B) / 2) := by
    have := Real.sin_sq_add_cos_sq ((A + B) / 2)
    have hc : Real.cos ((A + B) / 2) ^ 2 ≤ 0.79 ^ 2 := sq_le_sq' (by linarith) (by linarith)
    by_contra hlt
    have h3 : Real.sin ((A + B) / 2) ^ 2 < 0.6 ^ 2 := pow_lt_pow_left₀ (not_le.1 hlt) hs0 (by norm_num)
    have h4 : (0.6 : ℝ) ^ 2 + 0.79 ^ 2 < 1 := by norm_num
    linarith
  have hj := Real.mul_le_sin (x := (A - B) / 2) (by linarith) (by linarith)
  have e := Real.cos_sub_cos A B
  rw [cA, cB] at e
  rw [abs_of_nonneg (by linarith : 0 ≤ A - B)]
  have h2pi : (0.63 : ℝ) ≤ 2 / Real.pi := by rw [le_div_iff₀ hpi]; norm_num at hpi4 ⊢; linarith
  have hj2 : 0.63 * ((A - B) / 2) ≤ Real.sin ((A - B) / 2) := (mul_le_mul_of_nonneg_right h2pi (by linarith)).trans hj
  have hprod : 0.6 * (0.63 * ((A - B) / 2)) ≤ Real.sin ((A + B) / 2) * Real.sin ((A - B) / 2) :=
    mul_le_mul hs hj2 (by norm_num; linarith) hs0
  have hxy : |x - y| = 2 * (Real.sin ((A + B) / 2) * Real.sin ((A - B) / 2)) := by
    rw [e]
    have : -2 * Real.sin ((A + B) / 2) * Real.sin ((A - B) / 2) = -(2 * (Real.sin ((A + B) / 2) * Real.sin ((A - B) / 2))) := by ring
    rw [this, abs_neg, abs_of_nonneg]
    have : 0 ≤ 0.6 * (0.63 * ((A - B) / 2)) := by norm_num; linarith
    linarith
  rw [hxy]
  norm_num at hprod ⊢
  linarith

theorem rnd_err0 (q : ℚ) : |((rnd q : ℚ) : ℝ) - q| ≤ |(q : ℝ)| * (1 / 2 ^ 53) + 1 / 2 ^ 80 := by
  have h7 : (2 : ℚ) ^ (-1074 : ℤ) ≤ 2 ^ (-80 : ℤ) := zpow_le_zpow_right₀ (by norm_num) (by norm_num)
  have h8 : |rnd q - q| ≤ |q| * unit + 1 / 2 ^ 80 := (rnd_abs q).trans (add_le_add le_rfl (h7.trans (by norm_num)))
  have h9 : ((|rnd q - q| : ℚ) : ℝ) ≤ ((|q| * unit + 1 / 2 ^ 80 : ℚ) : ℝ) := by exact_mod_cast h8
  rw [Rat.cast_abs, Rat.cast_sub, Rat.cast_add, Rat.cast_mul, Rat.cast_abs, unit_real] at h9
  push_cast at h9
  exact h9

/-- rounding of a number of limited size -/
theorem rnd_err {q : ℚ} {M : ℝ} (h : |(q : ℝ)| ≤ M) (hM : 1 / 1000 ≤ M) : |((rnd q : ℚ) : ℝ) - q| ≤ M * (1 / 2 ^ 52) := by
  have h1 := rnd_err0 q
  have h2 : |(q : ℝ)| * (1 / 2 ^ 53) ≤ M * (1 / 2 ^ 53) := mul_le_mul_of_nonneg_right h (by norm_num)
  have h3 : (1 : ℝ) / 2 ^ 80 ≤ M * (1 / 2 ^ 53) := le_trans (by norm_num) (mul_le_mul_of_nonneg_right hM (by norm_num))
  have h4 : M * (1 / 2 ^ 53) + M * (1 / 2 ^ 53) = M * (1 / 2 ^ 52 : ℝ) := by ring
  linarith

theorem prod_err {a b a' b' A B x y : ℝ} (ha : |a| ≤ A) (hb : |b'| ≤ B) (hx : |a - a'| ≤ x) (hy : |b - b'| ≤ y) : |a * b - a' * b'| ≤ A * y + B * x := by
  have e : a * b - a' * b' = a * (b - b') + b' * (a - a') := by ring
  rw [e]
  refine (abs_add_le _ _).trans ?_
  rw [abs_mul, abs_mul]
  exact add_le_add (mul_le_mul ha hy (abs_nonneg _) ((abs_nonneg _).trans ha)) (mul_le_mul hb hx (abs_nonneg _) ((abs_nonneg _).trans hb))

theorem abs_trans {a b c x y : ℝ} (h1 : |a - b| ≤ x) (h2 : |b - c| ≤ y) : |a - c| ≤ x + y :=
  (abs_sub_le a b c).trans (add_le_add h1 h2)

theorem abs_of_near {a b x B : ℝ} (h : |a - b| ≤ x) (hb : |b| ≤ B) : |a| ≤ B + x := by
  have := abs_add_le (a - b) b
  rw [sub_add_cancel] at this
  linarith

theorem cos_small {x : ℝ} (h : |x| ≤ 0.41) : 0.9159 ≤ Real.cos x := by
  have h1 := Real.one_sub_sq_div_two_le_cos (x := x)
  have h2 : x ^ 2 ≤ 0.41 ^ 2 := by rw [← sq_abs]; exact pow_le_pow_left₀ (abs_nonneg _) h 2
  norm_num at h2 ⊢
  linarith

theorem tan_small {x : ℝ} (h : |x| ≤ 0.41) : |Real.tan x| ≤ 0.448 := by
  have h1 := cos_small h
  rw [Real.tan_eq_sin_div_cos, abs_div, abs_of_pos (by linarith : 0 < Real.cos x), div_le_iff₀ (by linarith)]
  have h2 := (Real.abs_sin_le_abs (x := x)).trans h
  norm_num at h1 h2 ⊢
  linarith

theorem tan_cos {x : ℝ} (h : 1 / 2 ≤ Real.cos x) : |Real.tan x| ≤ 1.7321 := by
  rw [Real.tan_eq_sin_div_cos, abs_div, abs_of_pos (by linarith : 0 < Real.cos x), div_le_iff₀ (by linarith)]
  refine abs_le_of_sq_le_sq ?_ (by linarith)
  have h1 := Real.sin_sq_add_cos_sq x
  have h2 : (1 / 2 : ℝ) ^ 2 ≤ Real.cos x ^ 2 := pow_le_pow_left₀ (by norm_num) h 2
  rw [mul_pow]
  norm_num at h2 ⊢
  linarith

/-- the error of the conversion to radians -/
theorem radians_near {q : ℚ} (hq : |q| ≤ 60) : |((rnd (q * kappa) : ℚ) : ℝ) - q * (Real.pi / 180)| ≤ 3 * (1 / 2 ^ 52) := by
  have k0 : (0 : ℝ) ≤ kappa := by exact_mod_cast (by linarith [kappa_bounds.1] : 0 ≤ kappa)
  have k1 : ((kappa : ℚ) : ℝ) ≤ 0.0175 := by
    have : ((kappa : ℚ) : ℝ) ≤ ((0.0175 : ℚ) : ℝ) := by exact_mod_cast (by linarith [kappa_bounds.2] : kappa ≤ 0.0175)
    refine this.trans ?_
    norm_num
  have hqr : |(q : ℝ)| ≤ 60 := by exact_mod_cast hq
  have p1 : |((pi64 / 180 : ℚ) : ℝ)| ≤ 0.0175 := by unfold pi64; norm_num
  have a := rnd_err p1 (by norm_num)
  have b : |((pi64 / 180 : ℚ) : ℝ) - Real.pi / 180| ≤ 1 / 180 * (1 / 2 ^ 52) := by
    rw [Rat.cast_div, Rat.cast_ofNat, ← sub_div, abs_div, abs_of_pos (by norm_num : (0 : ℝ) < 180)]
    have := pi64_near
    linarith
  have c := abs_trans a b
  have d := prod_err (a := (q : ℝ)) (a' := q) hqr (show |Real.pi / 180| ≤ 1 by rw [abs_of_pos (by positivity)]; linarith [Real.pi_lt_d2]) (show |(q : ℝ) - q| ≤ 0 by simp) c
  have e : |((q * kappa : ℚ) : ℝ)| ≤ 1.05 := by
    rw [Rat.cast_mul, abs_mul, abs_of_nonneg k0]
    exact (mul_le_mul hqr k1 k0 (by norm_num)).trans (by norm_num)
  have f := rnd_err e (by norm_num)
  have d' : |((q * kappa : ℚ) : ℝ) - q * (Real.pi / 180)| ≤ 60 * (0.0175 * (1 / 2 ^ 52) + 1 / 180 * (1 / 2 ^ 52)) + 1 * 0 := by
    rw [Rat.cast_mul]; exact d
  refine (abs_trans f d').trans ?_
  norm_num

set_option maxHeartbeats 1000000 in
/-- the computed length of a day, up to 60 degrees, is within 2^-41 hours of the formula -/
theorem day_near {T : Trig (B64 σ)} (hT : TrigNear T) {x : B64 σ} {q : ℚ} (hx : ext x = .fin q) (hq : |q| ≤ 60) {d : ℕ} (h1 : 1 ≤ d) (h2 : d ≤ 366) :
    ∃ h b, dayHours T (radians T x) d = .ok h ∧ ext h = .fin b ∧ 0 ≤ b ∧ b ≤ 25 ∧ |(b : ℝ) - hours (q * (Real.pi / 180)) d| ≤ 1 / 2 ^ 41 := by
  have hl := ext_radians hT.toTrigBounds hx (hq.trans (by norm_num))
  have hp : |rnd (q * kappa)| ≤ rnd (90 * kappa) := by
    refine rnd_abs_mono ?_
    have k0 : 0 ≤ kappa := by linarith [kappa_bounds.1]
    rw [abs_mul, abs_of_nonneg k0]
    exact mul_le_mul_of_nonneg_right (hq.trans (by norm_num)) k0
  obtain ⟨arg, sn, dc, tl, td, z, w, h, -, e1, e2, e3, rfl, e5, e6, e7, e8, e9, e10, e11, e12, e13, e14, e15, e16, e17⟩ := day_steps hT.toTrigBounds hl hp h1 h2
  obtain ⟨hb0, hb1⟩ := hours_le e14 e15
  refine ⟨h, _, e16, e17, hb0, hb1, ?_⟩
  have hdr1 : (1 : ℝ) ≤ d := by exact_mod_cast h1
  have hdr2 : (d : ℝ) ≤ 366 := by exact_mod_cast h2
  have pil := Real.pi_gt_d4
  have piu := Real.pi_lt_d4
  have ppos := Real.pi_pos
  have hpi64 := pi64_near
  -- the argument of the sine
  have s1 : |((rnd (2 * pi64) : ℚ) : ℝ) - 2 * Real.pi| ≤ 8.3 * (1 / 2 ^ 52) := by
    have a := rnd_err (q := 2 * pi64) (M := 6.3) (by unfold pi64; norm_num) (by norm_num)
    have b : |((2 * pi64 : ℚ) : ℝ) - 2 * Real.pi| ≤ 2 * (1 / 2 ^ 52) := by
      rw [Rat.cast_mul, Rat.cast_ofNat, ← mul_sub, abs_mul, abs_of_pos (by norm_num : (0 : ℝ) < 2)]
      exact mul_le_mul_of_nonneg_left hpi64 (by norm_num)
    exact (abs_trans a b).trans (by norm_num)
  have s2 : |((rnd (rnd (2 * pi64) / 365) : ℚ) : ℝ) - 2 * Real.pi / 365| ≤ 0.043 * (1 / 2 ^ 52) := by
    have b : |((rnd (2 * pi64) / 365 : ℚ) : ℝ) - 2 * Real.pi / 365| ≤ 8.3 / 365 * (1 / 2 ^ 52) := by
      rw [Rat.cast_div, Rat.cast_ofNat, ← sub_div, abs_div, abs_of_pos (by norm_num : (0 : ℝ) < 365), div_le_iff₀ (by norm_num)]
      exact s1.trans (by norm_num)
    have c : |2 * Real.pi / 365| ≤ 0.0175 := by
      rw [abs_of_pos (by positivity), div_le_iff₀ (by norm_num)]
      norm_num at piu ⊢; linarith
    have a := rnd_err (M := 0.02) ((abs_of_near b c).trans (by norm_num)) (by norm_num)
    exact (abs_trans a b).trans (by norm_num)
  have s3 : |((rnd (rnd (rnd (2 * pi64) / 365) * d) : ℚ) : ℝ) - 2 * Real.pi / 365 * d| ≤ 24 * (1 / 2 ^ 52) := by
    have b : |((rnd (rnd (2 * pi64) / 365) * d : ℚ) : ℝ) - 2 * Real.pi / 365 * d| ≤ 15.8 * (1 / 2 ^ 52) := by
      rw [Rat.cast_mul, Rat.cast_natCast, ← sub_mul, abs_mul, abs_of_nonneg (by linarith : (0 : ℝ) ≤ d)]
      exact (mul_le_mul s2 hdr2 (by linarith) (by norm_num)).trans (by norm_num)
    have c : |2 * Real.pi / 365 * d| ≤ 7 := by
      rw [abs_of_nonneg (by positivity)]
      have : 2 * Real.pi / 365 ≤ 7 / 366 := by rw [div_le_iff₀ (by norm_num)]; norm_num at piu ⊢; linarith
      exact (mul_le_mul this hdr2 (by linarith) (by norm_num)).trans (by norm_num)
    have a := rnd_err (M := 8) ((abs_of_near b c).trans (by norm_num)) (by norm_num)
    exact (abs_trans a b).trans (by norm_num)
  have s4 : |((rnd 1.39 : ℚ) : ℝ) - 1.39| ≤ 1.4 * (1 / 2 ^ 52) := by
    have a := rnd_err (q := 1.39) (M := 1.39) (by norm_num) (by norm_num)
    push_cast at a
    exact a.trans (by norm_num)
  have cA : |2 * Real.pi / 365 * (d : ℝ) - 1.39| ≤ 7 := by
    have : 2 * Real.pi / 365 ≤ 7 / 366 := by rw [div_le_iff₀ (by norm_num)]; norm_num at piu ⊢; linarith
    have h3 := mul_le_mul this hdr2 (by linarith) (by norm_num)
    have h4 : 0 ≤ 2 * Real.pi / 365 * (d : ℝ) := by positivity
    rw [abs_le]
    norm_num at h3 ⊢
    constructor <;> linarith
  have s5 : |((rnd (rnd (rnd (rnd (2 * pi64) / 365) * d) - rnd 1.39) : ℚ) : ℝ) - (2 * Real.pi / 365 * d - 1.39)| ≤ 34 * (1 / 2 ^ 52) := by
    have b : |((rnd (rnd (rnd (2 * pi64) / 365) * d) - rnd 1.39 : ℚ) : ℝ) - (2 * Real.pi / 365 * d - 1.39)| ≤ 25.4 * (1 / 2 ^ 52) := by
      rw [Rat.cast_sub]
      have e : ∀ a b c d : ℝ, a - b - (c - d) = (a - c) + (-(b - d)) := by intros; ring
      rw [e]
      refine (abs_add_le _ _).trans ?_
      rw [abs_neg]
      exact (add_le_add s3 s4).trans (by norm_num)
    have a := rnd_err (M := 8) ((abs_of_near b cA).trans (by norm_num)) (by norm_num)
    exact (abs_trans a b).trans (by norm_num)
  -- the declination
  have hA10 : |rnd (rnd (rnd (rnd (2 * pi64) / 365) * d) - rnd 1.39)| ≤ 10 := by
    have : |((rnd (rnd (rnd (rnd (2 * pi64) / 365) * d) - rnd 1.39) : ℚ) : ℝ)| ≤ 10 := (abs_of_near s5 cA).trans (by norm_num)
    exact_mod_cast this
  have s6 : |(sn : ℝ) - Real.sin (2 * Real.pi / 365 * d - 1.39)| ≤ 38 * (1 / 2 ^ 52) := by
    have a := hT.sin_near _ _ _ e1 e2 hA10
    have b := Real.abs_sin_sub_sin_le (((rnd (rnd (rnd (rnd (2 * pi64) / 365) * d) - rnd 1.39) : ℚ) : ℝ)) (2 * Real.pi / 365 * d - 1.39)
    exact (abs_trans a (b.trans s5)).trans (by norm_num)
  have hsnr : |(sn : ℝ)| ≤ 1 := by exact_mod_cast e3
  have s7 : |((rnd 0.409 : ℚ) : ℝ) - 0.409| ≤ 0.41 * (1 / 2 ^ 52) := by
    have a := rnd_err (q := 0.409) (M := 0.409) (by norm_num) (by norm_num)
    push_cast at a
    exact a.trans (by norm_num)
  have c409 : |((rnd 0.409 : ℚ) : ℝ)| ≤ 0.4091 := (abs_of_near s7 (show |(0.409 : ℝ)| ≤ 0.409 by norm_num)).trans (by norm_num)
  have s8 : |((rnd (rnd 0.409 * sn) : ℚ) : ℝ) - declination d| ≤ 17 * (1 / 2 ^ 52) := by
    have b := prod_err c409 (Real.abs_sin_le_one (2 * Real.pi / 365 * d - 1.39)) s7 s6
    have c : |((rnd 0.409 * sn : ℚ) : ℝ)| ≤ 0.41 := by
      rw [Rat.cast_mul, abs_mul]
      exact (mul_le_mul c409 hsnr (abs_nonneg _) (by norm_num)).trans (by norm_num)
    have a := rnd_err c (by norm_num)
    have b' : |((rnd 0.409 * sn : ℚ) : ℝ) - declination d| ≤ 0.4091 * (38 * (1 / 2 ^ 52)) + 1 * (0.41 * (1 / 2 ^ 52)) := by rw [Rat.cast_mul]; exact b
    exact (abs_trans a b').trans (by norm_num)
  have hdcr : |((rnd (rnd 0.409 * sn) : ℚ) : ℝ)| ≤ 0.41 := by
    have : ((|rnd (rnd 0.409 * sn)| : ℚ) : ℝ) ≤ ((0.41 : ℚ) : ℝ) := by exact_mod_cast e5
    rw [Rat.cast_abs] at this
    refine this.trans ?_
    norm_num
  have hdec : |declination d| ≤ 0.41 := by
    unfold declination
    rw [abs_mul]
    exact (mul_le_mul (show |(0.409 : ℝ)| ≤ 0.41 by norm_num) (Real.abs_sin_le_one _) (abs_nonneg _) (by norm_num)).trans (by norm_num)
  have s9 : |(td : ℝ) - Real.tan (declination d)| ≤ 25.5 * (1 / 2 ^ 52) := by
    have a := hT.tan_near _ _ _ e6 e8 (e5.trans (by norm_num))
    have b := tan_lip (m := 0.9) (by norm_num) (le_trans (by norm_num) (cos_small hdcr)) (le_trans (by norm_num) (cos_small hdec))
    have b' := b.trans (div_le_div_of_nonneg_right s8 (by norm_num))
    exact (abs_trans a b').trans (by norm_num)
  -- the latitude
  have t1 := radians_near hq
  have hqr : |(q : ℝ)| ≤ 60 := by exact_mod_cast hq
  have hφ : |(q : ℝ) * (Real.pi / 180)| ≤ Real.pi / 3 := by
    rw [abs_mul, abs_of_pos (by positivity : 0 < Real.pi / 180)]
    exact (mul_le_mul_of_nonneg_right hqr (by positivity)).trans (by linarith)
  have hcφ : 1 / 2 ≤ Real.cos (q * (Real.pi / 180)) := by
    rw [← Real.cos_abs, ← Real.cos_pi_div_three]
    exact Real.cos_le_cos_of_nonneg_of_le_pi (abs_nonneg _) (by linarith) hφ
  have hcp : 0.49 ≤ Real.cos ((rnd (q * kappa) : ℚ) : ℝ) := by
    have := abs_le.1 ((Real.abs_cos_sub_cos_le (((rnd (q * kappa) : ℚ) : ℝ)) (q * (Real.pi / 180))).trans t1)
    have h3 : (1 : ℝ) / 2 - 3 * (1 / 2 ^ 52) ≥ 0.49 := by norm_num
    linarith [this.1]
  have htφ := tan_cos hcφ
  have hpr : |rnd (q * kappa)| ≤ 1.1 := by
    have h3 : |((rnd (q * kappa) : ℚ) : ℝ)| ≤ 1.1 := (abs_of_near t1 hφ).trans (by norm_num at piu ⊢; linarith)
    have h4 : ((|rnd (q * kappa)| : ℚ) : ℝ) ≤ ((1.1 : ℚ) : ℝ) := by
      rw [Rat.cast_abs]; refine h3.trans ?_; norm_num
    exact_mod_cast h4
  have t2 : |(tl : ℝ) - Real.tan (q * (Real.pi / 180))| ≤ 20 * (1 / 2 ^ 52) := by
    have a := hT.tan_near _ _ _ hl e7 hpr
    have b := (tan_lip (m := 0.49) (by norm_num) hcp (show (0.49 : ℝ) ≤ _ by linarith)).trans (div_le_div_of_nonneg_right t1 (by norm_num))
    exact (abs_trans a b).trans (by norm_num)
  have htl := (abs_of_near t2 htφ).trans (show _ ≤ (1.74 : ℝ) by norm_num)
  have htd := (abs_of_near s9 (tan_small hdec)).trans (show _ ≤ (0.45 : ℝ) by norm_num)
  -- the cosine of the sunset hour angle
  have c1 : |(-(tl : ℝ)) * td - -Real.tan (q * (Real.pi / 180)) * Real.tan (declination d)| ≤ 54 * (1 / 2 ^ 52) := by
    refine (prod_err (A := 1.74) (x := 20 * (1 / 2 ^ 52)) (by rwa [abs_neg]) (tan_small hdec) (by rw [neg_sub_neg, abs_sub_comm]; exact t2) s9).trans (by norm_num)
  have hc0 : |-Real.tan (q * (Real.pi / 180)) * Real.tan (declination d)| ≤ 0.777 := by
    rw [abs_mul, abs_neg]
    exact (mul_le_mul htφ (tan_small hdec) (abs_nonneg _) (by norm_num)).trans (by norm_num)
  have c2 : |((rnd (-tl * td) : ℚ) : ℝ) - -Real.tan (q * (Real.pi / 180)) * Real.tan (declination d)| ≤ 55 * (1 / 2 ^ 52) := by
    have b : |((-tl * td : ℚ) : ℝ) - -Real.tan (q * (Real.pi / 180)) * Real.tan (declination d)| ≤ 54 * (1 / 2 ^ 52) := by
      rw [Rat.cast_mul, Rat.cast_neg]; exact c1
    have a := rnd_err (M := 0.78) ((abs_of_near b hc0).trans (by norm_num)) (by norm_num)
    exact (abs_trans a b).trans (by norm_num)
  have hc3 : |((rnd (-tl * td) : ℚ) : ℝ)| ≤ 0.78 := (abs_of_near c2 hc0).trans (by norm_num)
  have hc4 : |rnd (-tl * td)| ≤ 1 := by
    have : |((rnd (-tl * td) : ℚ) : ℝ)| ≤ 1 := hc3.trans (by norm_num)
    exact_mod_cast this
  have hz : z = rnd (-tl * td) := by
    have h3 : |tl * td| ≤ 1 := by
      have : |((tl * td : ℚ) : ℝ)| ≤ 1 := by
        rw [Rat.cast_mul, abs_mul]
        exact (mul_le_mul htl htd (abs_nonneg _) (by norm_num)).trans (by norm_num)
      exact_mod_cast this
    rw [e12 (h3.trans (by norm_num)), max_eq_left (abs_le.1 hc4).1, min_eq_left (abs_le.1 hc4).2]
  rw [← hz] at c2 hc3
  -- the hour angle
  have w1 : |(w : ℝ) - Real.arccos (-Real.tan (q * (Real.pi / 180)) * Real.tan (declination d))| ≤ 170 * (1 / 2 ^ 52) := by
    have a := hT.acos_near _ _ _ e9 e13 e10 e11
    have b := (arccos_lip (hc3.trans (by norm_num)) (hc0.trans (by norm_num))).trans (mul_le_mul_of_nonneg_left c2 (by norm_num))
    exact (abs_trans a b).trans (by norm_num)
  have k1 : |((rnd (24 / pi64) : ℚ) : ℝ) - 24 / Real.pi| ≤ 11 * (1 / 2 ^ 52) := by
    have hp64 : (3.1415 : ℝ) ≤ pi64 := by unfold pi64; norm_num
    have b : |((24 / pi64 : ℚ) : ℝ) - 24 / Real.pi| ≤ 3 * (1 / 2 ^ 52) := by
      rw [Rat.cast_div, Rat.cast_ofNat]
      have e : (24 : ℝ) / pi64 - 24 / Real.pi = 24 / (pi64 * Real.pi) * (Real.pi - pi64) := by
        have : (pi64 : ℝ) ≠ 0 := by linarith
        field_simp
      rw [e, abs_mul, abs_sub_comm Real.pi]
      have h3 : |24 / ((pi64 : ℝ) * Real.pi)| ≤ 3 := by
        have h4 := mul_le_mul hp64 pil.le (by norm_num) (by linarith)
        rw [abs_of_nonneg (by positivity), div_le_iff₀ (by positivity)]
        norm_num at h4
        linarith
      exact mul_le_mul h3 hpi64 (abs_nonneg _) (by norm_num)
    have c : |24 / Real.pi| ≤ 7.64 := by
      rw [abs_of_pos (by positivity), div_le_iff₀ ppos]
      norm_num at pil ⊢; linarith
    have a := rnd_err (M := 7.65) ((abs_of_near b c).trans (by norm_num)) (by norm_num)
    exact (abs_trans a b).trans (by norm_num)
  have c24 : |24 / Real.pi| ≤ 7.64 := by
    rw [abs_of_pos (by positivity), div_le_iff₀ ppos]
    norm_num at pil ⊢; linarith
  have k2 : |((rnd (24 / pi64) * w : ℚ) : ℝ) - hours (q * (Real.pi / 180)) d| ≤ 1336 * (1 / 2 ^ 52) := by
    rw [Rat.cast_mul]
    unfold hours
    refine (prod_err (A := 7.65) (B := 3.1416) ((abs_of_near k1 c24).trans (by norm_num)) ?_ k1 w1).trans (by norm_num)
    rw [abs_of_nonneg (Real.arccos_nonneg _)]
    exact (Real.arccos_le_pi _).trans piu.le
  have hw0 : 0 ≤ ((rnd (24 / pi64) * w : ℚ) : ℝ) := by
    have : 0 ≤ rnd (24 / pi64) * w := mul_nonneg (rnd_nonneg (by unfold pi64; norm_num)) e14
    exact_mod_cast this
  have hwr : (w : ℝ) ≤ 3.15 := by
    have : ((w : ℚ) : ℝ) ≤ ((pi64 : ℚ) : ℝ) := by exact_mod_cast e15
    refine this.trans ?_
    unfold pi64; norm_num
  have hw0r : (0 : ℝ) ≤ w := by exact_mod_cast e14
  have k3 : |((rnd (24 / pi64) * w : ℚ) : ℝ)| ≤ 25 := by
    rw [Rat.cast_mul, abs_mul, abs_of_nonneg hw0r]
    exact (mul_le_mul ((abs_of_near k1 c24).trans (show _ ≤ (7.65 : ℝ) by norm_num)) hwr hw0r (by norm_num)).trans (by norm_num)
  have k4 := rnd_err k3 (by norm_num)
  exact (abs_trans k4 k2).trans (by norm_num)

end CI
