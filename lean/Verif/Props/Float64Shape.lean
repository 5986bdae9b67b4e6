import Mathlib.Analysis.Complex.ExponentialBounds
import Verif.Props.Float64Gamma
import Verif.Lemmas.Signed64
import Verif.Spec.McKee

/-!
# C132: shape and scale of the gamma fit in binary64 arithmetic

The shape is a function of Thom's statistic, the logarithm of the mean minus the mean of the logarithms. The relative error of the shape is at most that of
the statistic, and a few roundings. The statistic is a difference of numbers of the size of the logarithms, so its absolute error is known, and the parameters
are accurate unless the statistic is as small as that error, i.e. unless the amounts are almost equal (C130_negative_fails).
-/

namespace CI.Props
open B64

variable {σ : SumOrder}

/-! ## Specification -/

/-- the logarithm and the square root of float64 numbers: relative errors of at most 2^-50 and 2^-52 (glibc and IEEE 754 promise 2^-52 and 2^-53) -/
structure Accurate (E : Ext (B64 σ)) : Prop where
  log : ∀ x q, ext x = .fin q → 0 < q → ∃ r : ℚ, ext (E.log x) = .fin r ∧ |(r : ℝ) - Real.log q| ≤ |Real.log q| / 2 ^ 50
  sqrt : ∀ x q, ext x = .fin q → 0 ≤ q → ∃ r : ℚ, ext (E.sqrt x) = .fin r ∧ |(r : ℝ) - Real.sqrt q| ≤ Real.sqrt q / 2 ^ 52

/-- the amounts as real numbers -/
def realAmounts (l : List (B64 σ)) : List ℝ := (amounts l).map (fun q : ℚ => (q : ℝ))

/-! ## Relative errors -/

theorem rel_trans {a b c r s : ℝ} (h1 : |a - b| ≤ b * r) (h2 : |b - c| ≤ c * s) (hr : 0 ≤ r) : |a - c| ≤ c * (s + r * (1 + s)) := by
  have h3 := abs_add_le (a - b) (b - c)
  rw [sub_add_sub_cancel] at h3
  have h4 : b ≤ c * (1 + s) := by have := (abs_le.1 h2).2; linarith
  have h5 := mul_le_mul_of_nonneg_right h4 hr
  nlinarith

/-- Thom's formula -/
noncomputable def thomShape (x : ℝ) : ℝ := 1 / (4 * x) * (1 + Real.sqrt (1 + 4 * x / 3))

theorem thomShape_pos {x : ℝ} (h : 0 < x) : 0 < thomShape x := by
  unfold thomShape
  have := Real.sqrt_nonneg (1 + 4 * x / 3)
  positivity

/-- the shape is not more sensitive than the reciprocal of the statistic -/
theorem thomShape_near {x A : ℝ} (hx : 0 < x) (hA : 0 < A) : |thomShape x - thomShape A| ≤ thomShape A * (|x - A| / x) := by
  have key : ∀ u v : ℝ, 0 < u → u ≤ v → thomShape v ≤ thomShape u ∧ u * thomShape u ≤ v * thomShape v := by
    intro u v hu huv
    have hv : 0 < v := hu.trans_le huv
    have hs : Real.sqrt (1 + 4 * u / 3) ≤ Real.sqrt (1 + 4 * v / 3) := Real.sqrt_le_sqrt (by linarith)
    have e : ∀ w : ℝ, 0 < w → w * thomShape w = (1 + Real.sqrt (1 + 4 * w / 3)) / 4 := by
      intro w hw
      unfold thomShape
      field_simp
    constructor
    · -- (1 + sqrt (1 + 4 u / 3)) / u decreases
      have h1 : Real.sqrt (1 + 4 * v / 3) ≤ v / u * Real.sqrt (1 + 4 * u / 3) := by
        have hr : 1 ≤ v / u := by rw [le_div_iff₀ hu]; linarith
        have : v / u * Real.sqrt (1 + 4 * u / 3) = Real.sqrt ((v / u) ^ 2 * (1 + 4 * u / 3)) := by
          rw [Real.sqrt_mul (by positivity), Real.sqrt_sq (by positivity)]
        rw [this]
        refine Real.sqrt_le_sqrt ?_
        have h2 : (v / u) ^ 2 * (1 + 4 * u / 3) = (v / u) ^ 2 + (v / u) * (4 * v / 3) := by field_simp
        rw [h2]
        have h3 : (1 : ℝ) ≤ (v / u) ^ 2 := one_le_pow₀ hr
        have h4 : 1 * (4 * v / 3) ≤ (v / u) * (4 * v / 3) := mul_le_mul_of_nonneg_right hr (by positivity)
        linarith
      have hr : 1 ≤ v / u := by rw [le_div_iff₀ hu]; linarith
      have h5 : v * thomShape v ≤ v / u * (u * thomShape u) := by
        rw [e v hv, e u hu]
        rw [mul_div_assoc', mul_add]
        linarith
      have h6 : v / u * (u * thomShape u) = v * thomShape u := by field_simp
      rw [h6] at h5
      exact le_of_mul_le_mul_left h5 hv
    · rw [e u hu, e v hv]
      linarith
  have hA' := thomShape_pos hA
  have hx' := thomShape_pos hx
  rcases le_total x A with h | h
  · obtain ⟨k1, k2⟩ := key x A hx h
    rw [abs_of_nonneg (by linarith), abs_of_nonpos (by linarith), mul_div_assoc', le_div_iff₀ hx]
    nlinarith
  · obtain ⟨k1, k2⟩ := key A x hA h
    rw [abs_of_nonpos (by linarith), abs_of_nonneg (by linarith), mul_div_assoc', le_div_iff₀ hx]
    nlinarith

/-- the formula in float64 -/
theorem formula_near {E : Ext (B64 σ)} (hE : Accurate E) {g : B64 σ} {x : ℚ} (hg : ext g = .fin x) (h0 : 1 / 2 ^ 60 ≤ x) (h1 : x ≤ 2 ^ 60) :
    ∃ α : ℚ, ext ((lit 1 + E.sqrt (lit 1 + lit 4 * g / lit 3)) / (lit 4 * g)) = .fin α ∧ |(α : ℝ) - thomShape x| ≤ thomShape x * (1 / 2 ^ 49) := by
  have hx : 0 < x := lt_of_lt_of_le (by positivity) h0
  have hlow : ∀ q : ℚ, 1 / 2 ^ 70 ≤ q → (2 : ℚ) ^ (-1000 : ℤ) ≤ q := by
    intro q hq
    refine le_trans ?_ hq
    rw [one_div, ← zpow_natCast, ← zpow_neg]
    exact zpow_le_zpow_right₀ (by norm_num) (by norm_num)
  have hhigh : ∀ q : ℚ, q ≤ 2 ^ 70 → q ≤ 2 ^ (1000 : ℤ) := by
    intro q hq
    refine hq.trans ?_
    rw [← zpow_natCast]
    exact zpow_le_zpow_right₀ (by norm_num) (by norm_num)
  have l4 : ext (lit 4 : B64 σ) = .fin 4 := natlit (k := 4) (by norm_num)
  have l3 : ext (lit 3 : B64 σ) = .fin 3 := natlit (k := 3) (by norm_num)
  obtain ⟨r1, hr1, c1⟩ := mul_close l4 hg (Close.refl (by norm_num : (0 : ℚ) ≤ 4)) (Close.refl hx.le) (by norm_num) (.inr (hlow _ (by linarith))) (hhigh _ (by linarith))
  obtain ⟨r2, hr2, c2⟩ := div_close hr1 l3 c1 (Close.refl (by norm_num : (0 : ℚ) ≤ 3)) (by norm_num) (by norm_num) (.inr (hlow _ (by linarith))) (hhigh _ (by linarith))
  obtain ⟨r3, hr3, c3⟩ := add_close (c := 2) ext_lit_one hr2 ((Close.refl zero_le_one).mono (by norm_num)) (c2.mono (by norm_num)) (by norm_num) (hhigh _ (by linarith))
  have hb : (0 : ℚ) < 1 + 4 * x / 3 := by positivity
  have e3 := c3.error (by norm_num)
  have e1 := c1.error (by norm_num)
  have p1 : 0 < r1 := c1.pos_iff.2 (by positivity)
  obtain ⟨s, hs, hse⟩ := hE.sqrt _ r3 hr3 c3.pos
  -- real numbers
  have hu : ((unit : ℚ) : ℝ) = 1 / 2 ^ 53 := by unfold unit; push_cast; norm_num
  have E3 : |(r3 : ℝ) - (1 + 4 * x / 3)| ≤ (1 + 4 * x / 3) * (6 / 2 ^ 53) := by
    have : ((|r3 - (1 + 4 * x / 3)| : ℚ) : ℝ) ≤ (((1 + 4 * x / 3) * (2 * (3 : ℕ) * unit) : ℚ) : ℝ) := by exact_mod_cast e3
    push_cast at this
    rw [hu] at this
    refine this.trans (le_of_eq ?_)
    ring
  have E1 : |(r1 : ℝ) - 4 * x| ≤ 4 * x * (2 / 2 ^ 53) := by
    have : ((|r1 - 4 * x| : ℚ) : ℝ) ≤ ((4 * x * (2 * (1 : ℕ) * unit) : ℚ) : ℝ) := by exact_mod_cast e1
    push_cast at this
    rw [hu] at this
    refine this.trans (le_of_eq ?_)
    ring
  have hx' : (0 : ℝ) < x := by exact_mod_cast hx
  set y : ℝ := 1 + 4 * x / 3 with hy
  have hy1 : 1 ≤ y := by rw [hy]; have : 0 ≤ 4 * (x : ℝ) / 3 := by positivity
                         linarith
  have hyp : 0 < y := by linarith
  have hsy : 1 ≤ Real.sqrt y := by rw [Real.one_le_sqrt]; exact hy1
  have hr3' : (0 : ℝ) ≤ r3 := by exact_mod_cast c3.pos
  have S3 : |Real.sqrt r3 - Real.sqrt y| ≤ Real.sqrt y * (6 / 2 ^ 53) := by
    have h := Real.sqrt_nonneg (r3 : ℝ)
    have hd : (Real.sqrt r3 - Real.sqrt y) * (Real.sqrt r3 + Real.sqrt y) = r3 - y := by
      have h1 := Real.mul_self_sqrt hr3'
      have h2 := Real.mul_self_sqrt hyp.le
      nlinarith
    have hab : |Real.sqrt r3 - Real.sqrt y| * (Real.sqrt r3 + Real.sqrt y) = |(r3 : ℝ) - y| := by
      rw [← hd, abs_mul, abs_of_nonneg (by linarith : 0 ≤ Real.sqrt r3 + Real.sqrt y)]
    have h2 : |Real.sqrt r3 - Real.sqrt y| * Real.sqrt y ≤ y * (6 / 2 ^ 53) := by
      refine le_trans ?_ (hab.le.trans E3)
      exact mul_le_mul_of_nonneg_left (by linarith) (abs_nonneg _)
    have h3 : y * (6 / 2 ^ 53) = Real.sqrt y * (6 / 2 ^ 53) * Real.sqrt y := by
      have := Real.mul_self_sqrt hyp.le
      nlinarith
    rw [h3] at h2
    exact le_of_mul_le_mul_right h2 (by linarith)
  have S4 : |(s : ℝ) - Real.sqrt y| ≤ Real.sqrt y * (9 / 2 ^ 53) := by
    have h := rel_trans (r := 1 / 2 ^ 52) (by rw [mul_one_div]; exact hse) S3 (by positivity)
    refine h.trans (mul_le_mul_of_nonneg_left ?_ (by linarith))
    norm_num
  have hsn : (0 : ℝ) ≤ s := by
    have := (abs_le.1 S4).1
    nlinarith
  have hsn' : 0 ≤ s := by exact_mod_cast hsn
  have hs70 : s ≤ 2 ^ 70 := by
    have h1' : (x : ℝ) ≤ 2 ^ 60 := by exact_mod_cast h1
    have hy70 : Real.sqrt y ≤ 2 ^ 62 := by
      rw [Real.sqrt_le_left (by positivity)]
      nlinarith
    have := (abs_le.1 S4).2
    have : (s : ℝ) ≤ 2 ^ 70 := by nlinarith
    exact_mod_cast this
  -- numerator
  have hN : ext (lit 1 + E.sqrt (lit 1 + lit 4 * g / lit 3)) = .fin (rnd (1 + s)) := by
    refine fin_add ext_lit_one hs (below_max ?_)
    rw [abs_of_nonneg (by linarith)]
    refine le_trans (by linarith : 1 + s ≤ 1 + 2 ^ 70) (by norm_num)
  have eN := rnd_add_rel (σ := σ) ext_lit_one hs
  set N := rnd (1 + s) with hNdef
  have EN0 : |(N : ℝ) - (1 + s)| ≤ (1 + s) * (1 / 2 ^ 53) := by
    rw [abs_of_nonneg (by linarith : 0 ≤ 1 + s)] at eN
    have : ((|N - (1 + s)| : ℚ) : ℝ) ≤ (((1 + s) * unit : ℚ) : ℝ) := by exact_mod_cast eN
    push_cast at this
    rwa [hu] at this
  have EN1 : |(1 + (s : ℝ)) - (1 + Real.sqrt y)| ≤ (1 + Real.sqrt y) * (9 / 2 ^ 53) := by
    rw [add_sub_add_left_eq_sub]
    refine S4.trans ?_
    have : (0 : ℝ) ≤ 9 / 2 ^ 53 := by positivity
    nlinarith
  have EN : |(N : ℝ) - (1 + Real.sqrt y)| ≤ (1 + Real.sqrt y) * (11 / 2 ^ 53) := by
    refine (rel_trans EN0 EN1 (by positivity)).trans (mul_le_mul_of_nonneg_left ?_ (by linarith))
    norm_num
  -- quotient
  have hth : thomShape x = (1 + Real.sqrt y) / (4 * x) := by unfold thomShape; rw [hy]; ring
  have p1' : (0 : ℝ) < r1 := by exact_mod_cast p1
  have EQ : |((N / r1 : ℚ) : ℝ) - thomShape x| ≤ thomShape x * (14 / 2 ^ 53) := by
    rw [hth]
    push_cast
    have hpos : 0 < 1 + Real.sqrt y := by linarith
    have h1 := abs_le.1 EN
    have h2 := abs_le.1 E1
    have h4 : (0 : ℝ) < 4 * x := by positivity
    rw [div_sub_div _ _ p1'.ne' h4.ne', abs_div, abs_of_pos (mul_pos p1' h4), div_mul_eq_mul_div, div_le_div_iff₀ (mul_pos p1' h4) h4]
    have e : (N : ℝ) * (4 * x) - r1 * (1 + Real.sqrt y) = (N - (1 + Real.sqrt y)) * (4 * x) - (r1 - 4 * x) * (1 + Real.sqrt y) := by ring
    rw [e]
    have h5 : |((N : ℝ) - (1 + Real.sqrt y)) * (4 * x) - (r1 - 4 * x) * (1 + Real.sqrt y)| ≤ (1 + Real.sqrt y) * (4 * x) * (13 / 2 ^ 53) := by
      refine (abs_sub _ _).trans ?_
      rw [abs_mul _ (4 * (x : ℝ)), abs_mul _ (1 + Real.sqrt y), abs_of_pos h4, abs_of_pos hpos]
      have h6 := mul_le_mul_of_nonneg_right EN h4.le
      have h7 := mul_le_mul_of_nonneg_right E1 hpos.le
      nlinarith
    have h6 : 4 * (x : ℝ) * (13 / 14) ≤ r1 := by
      have := h2.1
      have h7 : (4 * (x : ℝ)) * (2 / 2 ^ 53) ≤ 4 * x * (1 / 14) := mul_le_mul_of_nonneg_left (by norm_num) h4.le
      linarith
    calc |((N : ℝ) - (1 + Real.sqrt y)) * (4 * x) - (r1 - 4 * x) * (1 + Real.sqrt y)| * (4 * x)
        ≤ (1 + Real.sqrt y) * (4 * x) * (13 / 2 ^ 53) * (4 * x) := mul_le_mul_of_nonneg_right h5 h4.le
      _ = (1 + Real.sqrt y) * (14 / 2 ^ 53) * (4 * x) * (4 * x * (13 / 14)) := by ring
      _ ≤ (1 + Real.sqrt y) * (14 / 2 ^ 53) * (4 * x) * r1 := mul_le_mul_of_nonneg_left h6 (by positivity)
      _ = (1 + Real.sqrt y) * (14 / 2 ^ 53) * (r1 * (4 * x)) := by ring
  have hr1b := c1.le_two (by norm_num)
  have hN1 : 1 ≤ N := by
    have h1 : rnd 1 ≤ rnd (1 + s) := rnd_mono (by linarith)
    rwa [rnd_one] at h1
  have hN2 : N ≤ 2 ^ 80 := by
    have h1 := (abs_le.1 eN).2
    rw [abs_of_nonneg (by linarith : 0 ≤ 1 + s)] at h1
    have h2 : (1 + s) * unit ≤ (1 + s) * 1 := mul_le_mul_of_nonneg_left unit_lt_one.le (by linarith)
    linarith
  have hqpos : 0 < N / r1 := div_pos (by linarith) p1
  have hqlow : (2 : ℚ) ^ (-1022 : ℤ) ≤ |N / r1| := by
    rw [abs_of_pos hqpos]
    have h2 : (1 : ℚ) / 2 ^ 70 ≤ N / r1 := by
      rw [div_le_div_iff₀ (by positivity) p1]
      nlinarith
    refine le_trans ?_ (hlow _ h2)
    exact zpow_le_zpow_right₀ (by norm_num) (by norm_num)
  have hqhigh : |N / r1| ≤ 2 ^ (1023 : ℤ) := by
    rw [abs_of_pos hqpos]
    refine below_max ?_
    rw [div_le_iff₀ p1]
    have : 1 / 2 ^ 60 ≤ r1 := by linarith [hr1b.1]
    nlinarith
  refine ⟨rnd (N / r1), fin_div hN hr1 p1.ne' hqhigh, ?_⟩
  have eQ := rnd_rel hqlow
  rw [abs_of_pos hqpos] at eQ
  have EQ0 : |((rnd (N / r1) : ℚ) : ℝ) - ((N / r1 : ℚ) : ℝ)| ≤ ((N / r1 : ℚ) : ℝ) * (1 / 2 ^ 53) := by
    have : ((|rnd (N / r1) - N / r1| : ℚ) : ℝ) ≤ ((N / r1 * unit : ℚ) : ℝ) := by exact_mod_cast eQ
    rw [Rat.cast_abs, Rat.cast_sub, Rat.cast_mul, hu] at this
    exact this
  refine (rel_trans EQ0 EQ (by positivity)).trans (mul_le_mul_of_nonneg_left ?_ (thomShape_pos hx').le)
  norm_num

/-! ## The statistic -/

theorem logs_filter {E : Ext (B64 σ)} (hN : E.log nan = nan) (hE : Accurate E) {l : List (B64 σ)} (h : ∀ v ∈ l, Rain v) :
    ∃ v : List ℚ, List.Forall₂ (fun x b => ext x = .fin b) (((l.map zeroToNan).map E.log).filter (fun x => !isNan x)) v ∧
      List.Forall₂ (fun b q : ℚ => |(b : ℝ) - Real.log q| ≤ |Real.log q| / 2 ^ 50) v (amounts l) := by
  induction l with
  | nil => exact ⟨[], .nil, .nil⟩
  | cons w l ih =>
    obtain ⟨v, h1, h2⟩ := ih fun w hw => h w (List.mem_cons_of_mem _ hw)
    have hnan : ∀ z : B64 σ, zeroToNan z = nan → (∀ q, ext z = .fin q → ¬ 0 < q) →
        ∃ v : List ℚ, List.Forall₂ (fun x b => ext x = .fin b) ((((z :: l).map zeroToNan).map E.log).filter (fun x => !isNan x)) v ∧
          List.Forall₂ (fun b q : ℚ => |(b : ℝ) - Real.log q| ≤ |Real.log q| / 2 ^ 50) v (amounts (z :: l)) := by
      intro z hz hz0
      refine ⟨v, ?_, ?_⟩
      · rw [List.map_cons, List.map_cons, hz, hN, List.filter_cons_of_neg (by rw [show isNan (nan : B64 σ) = true from rfl]; simp)]
        exact h1
      · have : amounts (z :: l) = amounts l := by
          unfold amounts
          refine List.filterMap_cons_none ?_
          split
          · next q hq => rw [if_neg (hz0 q hq)]
          · rfl
        rw [this]
        exact h2
    rcases h w (by simp) with rfl | ⟨q, hq, hlo, _⟩
    · exact hnan _ (by unfold zeroToNan; split <;> rfl) (fun q hq => by cases hq)
    · have hz : zeroToNan w = if q = 0 then (nan : B64 σ) else w := by
        unfold zeroToNan
        rw [feq_ext hq ext_lit_zero]
        by_cases h0 : q = 0 <;> simp [h0]
      by_cases h0 : q = 0
      · refine hnan _ (by rw [hz, if_pos h0]) fun r hr => ?_
        rw [hq] at hr
        have : q = r := Fl.fin.inj hr
        linarith
      · have hp : 0 < q := by
          rcases hlo with h' | h'
          · exact absurd h' h0
          · exact lt_of_lt_of_le (by positivity) h'
        obtain ⟨r, hr, hre⟩ := hE.log w q hq hp
        refine ⟨r :: v, ?_, ?_⟩
        · rw [List.map_cons, List.map_cons, hz, if_neg h0, List.filter_cons_of_pos]
          · exact .cons hr h1
          · cases hw : E.log w with
            | nan => rw [hw] at hr; cases hr
            | inf s => rfl
            | fin s a ha => rfl
        · have : amounts (w :: l) = q :: amounts l := by
            unfold amounts
            rw [List.filterMap_cons_some]
            rw [hq]
            simp only
            rw [if_pos hp]
          rw [this]
          exact .cons hre h2

theorem sums_near {v q : List ℚ} {L : ℝ} (h : List.Forall₂ (fun b q : ℚ => |(b : ℝ) - Real.log q| ≤ |Real.log q| / 2 ^ 50) v q)
    (hL : ∀ x ∈ q, |Real.log (x : ℝ)| ≤ L) :
    |((v.sum : ℚ) : ℝ) - ((q.map (fun x : ℚ => (x : ℝ))).map Real.log).sum| ≤ q.length * (L / 2 ^ 50) ∧ ∀ b ∈ v, |(b : ℝ)| ≤ L + L / 2 ^ 50 := by
  induction h with
  | nil => simp
  | @cons b x v q hbx _ ih =>
    obtain ⟨i1, i2⟩ := ih fun y hy => hL y (List.mem_cons_of_mem _ hy)
    have hx := hL x (by simp)
    have hx' : |Real.log (x : ℝ)| / 2 ^ 50 ≤ L / 2 ^ 50 := div_le_div_of_nonneg_right hx (by positivity)
    constructor
    · rw [List.sum_cons, List.map_cons, List.map_cons, List.sum_cons, List.length_cons, Rat.cast_add, Nat.cast_succ]
      have := abs_add_le ((b : ℝ) - Real.log x) (((v.sum : ℚ) : ℝ) - ((q.map (fun x : ℚ => (x : ℝ))).map Real.log).sum)
      rw [show (b : ℝ) + ((v.sum : ℚ) : ℝ) - (Real.log x + ((q.map (fun x : ℚ => (x : ℝ))).map Real.log).sum)
        = (b - Real.log x) + (((v.sum : ℚ) : ℝ) - ((q.map (fun x : ℚ => (x : ℝ))).map Real.log).sum) by ring]
      linarith
    · intro c hc
      rcases List.mem_cons.1 hc with rfl | hc
      · have := abs_sub_abs_le_abs_sub (c : ℝ) (Real.log x)
        linarith
      · exact i2 c hc

theorem log_near {a m δ : ℝ} (hm : 0 < m) (h : |a - m| ≤ m * δ) (hδ : δ ≤ 1 / 2) : |Real.log a - Real.log m| ≤ 2 * δ := by
  have h' := abs_le.1 h
  have hmd : m * δ ≤ m * (1 / 2) := mul_le_mul_of_nonneg_left hδ hm.le
  have ha : 0 < a := by linarith
  have hd0 : 0 ≤ δ := by
    by_contra hc
    have := mul_neg_of_pos_of_neg hm (not_le.1 hc)
    linarith [abs_nonneg (a - m)]
  rw [← Real.log_div ha.ne' hm.ne', abs_le]
  have hr : 0 < a / m := div_pos ha hm
  constructor
  · have h1 := Real.one_sub_inv_le_log_of_pos hr
    refine le_trans ?_ h1
    rw [inv_div, neg_le_sub_iff_le_add, div_le_iff₀ ha]
    have := mul_nonneg hd0 hm.le
    nlinarith
  · have h1 := Real.log_le_sub_one_of_pos hr
    refine h1.trans ?_
    rw [sub_le_iff_le_add, div_le_iff₀ hm]
    nlinarith

theorem log_mean {s : List ℝ} {L : ℝ} (hp : ∀ x ∈ s, 0 < x) (hL : ∀ x ∈ s, |Real.log x| ≤ L) (hne : s ≠ []) :
    0 < Spec.McKee.mean s ∧ |Real.log (Spec.McKee.mean s)| ≤ L := by
  have hk : (0 : ℝ) < s.length := by
    have := List.length_pos_iff.2 hne
    exact_mod_cast this
  have h1 : ∀ x ∈ s, x ≤ Real.exp L := by
    intro x hx
    rw [← Real.log_le_iff_le_exp (hp x hx)]
    exact (abs_le.1 (hL x hx)).2
  have h2 : ∀ x ∈ s, Real.exp (-L) ≤ x := by
    intro x hx
    rw [← Real.le_log_iff_exp_le (hp x hx)]
    exact (abs_le.1 (hL x hx)).1
  have b1 := List.sum_le_card_nsmul s _ h1
  have b2 := List.card_nsmul_le_sum s _ h2
  rw [nsmul_eq_mul] at b1 b2
  have m1 : Spec.McKee.mean s ≤ Real.exp L := by
    unfold Spec.McKee.mean
    rw [div_le_iff₀ hk]; linarith
  have m2 : Real.exp (-L) ≤ Spec.McKee.mean s := by
    unfold Spec.McKee.mean
    rw [le_div_iff₀ hk]; linarith
  have hm := (Real.exp_pos (-L)).trans_le m2
  refine ⟨hm, abs_le.2 ⟨?_, ?_⟩⟩
  · rwa [Real.le_log_iff_exp_le hm]
  · rwa [Real.log_le_iff_le_exp hm]

/-- the statistic in float64 -/
theorem stat_near {E : Ext (B64 σ)} (hN : E.log nan = nan) (hE : Accurate E) {l : List (B64 σ)} (h : ∀ v ∈ l, Rain v) (hl : l.length ≤ 2 ^ 40)
    (hne : amounts l ≠ []) {L : ℚ} (h1 : 1 ≤ L) (h2 : L ≤ 1000) (hL : ∀ x ∈ realAmounts l, |Real.log x| ≤ L) :
    ∃ x : ℚ, ext (E.log (nanmean (l.map zeroToNan)) - nanmean ((l.map zeroToNan).map E.log)) = .fin x ∧
      |(x : ℝ) - Spec.McKee.gap (realAmounts l)| ≤ (L + 1) * (l.length + 7) / 2 ^ 51 ∧ |Spec.McKee.gap (realAmounts l)| ≤ 2 * L := by
  have hu : ((unit : ℚ) : ℝ) = 1 / 2 ^ 53 := by unfold unit; push_cast; norm_num
  have hr : ∀ v ∈ l.map zeroToNan, Rain v := by
    intro v hv
    obtain ⟨w, hw, rfl⟩ := List.mem_map.1 hv
    exact zeroToNan_rain (h w hw)
  have hnear := nanmean_near (c := 0) ((rain_near hr).imp fun a b hab => hab.mono le_rfl le_rfl (le_mul_of_one_le_left (by positivity) (by norm_num)))
    (by rw [List.length_map]; exact hl) (by rw [List.length_map]; omega)
  rw [nanmean_fin _ _ (amounts_filter h), if_neg hne, List.length_map] at hnear
  have hlR : (l.length : ℝ) ≤ 2 ^ 40 := by exact_mod_cast hl
  have hl0 : (0 : ℝ) ≤ l.length := by positivity
  have hLR : (1 : ℝ) ≤ L := by exact_mod_cast h1
  have hLR2 : (L : ℝ) ≤ 1000 := by exact_mod_cast h2
  have hkn : (amounts l).length ≤ l.length := List.length_filterMap_le _ _
  have hk0 : (0 : ℚ) < (amounts l).length := by
    have := List.length_pos_iff.2 hne
    exact_mod_cast this
  have hsne : realAmounts l ≠ [] := by unfold realAmounts; simpa using hne
  have hpos : ∀ x ∈ realAmounts l, 0 < x := by
    intro x hx
    obtain ⟨q, hq, rfl⟩ := List.mem_map.1 hx
    exact_mod_cast amounts_pos l q hq
  obtain ⟨hm, hlm⟩ := log_mean hpos hL hsne
  have hmean : ((meanQ (amounts l) : ℚ) : ℝ) = Spec.McKee.mean (realAmounts l) := by
    unfold meanQ Spec.McKee.mean realAmounts
    rw [List.length_map, Rat.cast_div, Rat.cast_natCast]
    congr 1
    exact map_list_sum (Rat.castHom ℝ) _
  rcases hnear with ⟨_, hh⟩ | ⟨a, b, ha', hb, hc, hlo, hhi⟩
  · cases hh
  have hbm : b = meanQ (amounts l) := (Fl.fin.inj hb).symm
  subst hbm
  have hmq : 0 < meanQ (amounts l) := by
    have : (0 : ℝ) < ((meanQ (amounts l) : ℚ) : ℝ) := by rw [hmean]; exact hm
    exact_mod_cast this
  have ha0 : 0 < a := hc.pos_iff.2 hmq
  have e1 : |(a : ℝ) - Spec.McKee.mean (realAmounts l)| ≤ Spec.McKee.mean (realAmounts l) * (2 * (l.length + 1) / 2 ^ 53) := by
    have := hc.error (by omega)
    have : ((|a - meanQ (amounts l)| : ℚ) : ℝ) ≤ ((meanQ (amounts l) * (2 * (0 + l.length + 1 : ℕ) * unit) : ℚ) : ℝ) := by exact_mod_cast this
    push_cast at this
    rw [hu, hmean] at this
    refine this.trans (le_of_eq ?_)
    ring
  have d1 := log_near hm e1 (by rw [div_le_div_iff₀ (by positivity) (by positivity)]; nlinarith)
  -- the logarithm of the mean
  obtain ⟨lm, hlm1, hlm2⟩ := hE.log _ a ha' ha0
  have small : 2 * (2 * ((l.length : ℝ) + 1) / 2 ^ 53) ≤ 1 / 4 := by
    rw [← mul_div_assoc, div_le_div_iff₀ (by positivity) (by positivity)]; nlinarith
  have hla : |Real.log (a : ℝ)| ≤ L + 1 / 4 := by
    have := abs_sub_abs_le_abs_sub (Real.log (a : ℝ)) (Real.log (Spec.McKee.mean (realAmounts l)))
    linarith
  have d2 : |(lm : ℝ) - Real.log (Spec.McKee.mean (realAmounts l))| ≤ 2 * (2 * (l.length + 1) / 2 ^ 53) + (L + 1) / 2 ^ 50 := by
    have h3 := abs_add_le ((lm : ℝ) - Real.log a) (Real.log a - Real.log (Spec.McKee.mean (realAmounts l)))
    rw [sub_add_sub_cancel] at h3
    have h4 : |Real.log (a : ℝ)| / 2 ^ 50 ≤ (L + 1) / 2 ^ 50 := div_le_div_of_nonneg_right (by linarith) (by positivity)
    linarith
  -- the mean of the logarithms
  obtain ⟨v, hv1, hv2⟩ := logs_filter hN hE h
  obtain ⟨s1, s2⟩ := sums_near (L := (L : ℝ)) hv2 (fun x hx => hL x (List.mem_map_of_mem hx))
  have hvl : v.length = (amounts l).length := hv2.length_eq
  have hvne : v ≠ [] := by
    intro hv
    rw [hv] at hvl
    have := List.length_pos_iff.2 hne
    simp at hvl
    omega
  have L50 : (L : ℝ) / 2 ^ 50 ≤ 1 / 4 := by
    rw [div_le_div_iff₀ (by positivity) (by positivity)]; nlinarith
  obtain ⟨ml, hml1, hml2⟩ := nanmean_abs (B := L + 1) rfl hv1 hvne
    (fun b hb => by
      have : ((|b| : ℚ) : ℝ) ≤ ((L + 1 : ℚ) : ℝ) := by
        have := s2 b hb
        push_cast
        linarith
      exact_mod_cast this)
    (by linarith) (by linarith) (by rw [hv1.length_eq, hvl]; omega)
  have hkR : (0 : ℝ) < (amounts l).length := by exact_mod_cast hk0
  have hknR : ((amounts l).length : ℝ) ≤ l.length := by exact_mod_cast hkn
  have d3 : |(ml : ℝ) - Spec.McKee.mean ((realAmounts l).map Real.log)| ≤ (L + 1) * ((2 * l.length + 3) / 2 ^ 53) + L / 2 ^ 50 := by
    have h3 : ((|ml - v.sum / v.length| : ℚ) : ℝ) ≤ (((L + 1) * ((2 * v.length + 3) * unit) : ℚ) : ℝ) := by exact_mod_cast hml2
    rw [Rat.cast_abs, Rat.cast_sub, Rat.cast_div, Rat.cast_natCast, Rat.cast_mul, Rat.cast_mul, hu, hvl] at h3
    push_cast [-Rat.cast_list_sum] at h3
    have h4 : |((v.sum : ℚ) : ℝ) / (amounts l).length - Spec.McKee.mean ((realAmounts l).map Real.log)| ≤ L / 2 ^ 50 := by
      unfold Spec.McKee.mean
      rw [List.length_map]
      have e : (realAmounts l).length = (amounts l).length := List.length_map _
      rw [e, ← sub_div, abs_div, abs_of_pos hkR, div_le_iff₀ hkR]
      unfold realAmounts
      linarith
    have h5 := abs_add_le ((ml : ℝ) - ((v.sum : ℚ) : ℝ) / (amounts l).length) (((v.sum : ℚ) : ℝ) / (amounts l).length - Spec.McKee.mean ((realAmounts l).map Real.log))
    rw [sub_add_sub_cancel] at h5
    have h6 : ((L : ℝ) + 1) * ((2 * ((amounts l).length : ℝ) + 3) * (1 / 2 ^ 53)) ≤ (L + 1) * ((2 * l.length + 3) / 2 ^ 53) := by
      refine mul_le_mul_of_nonneg_left ?_ (by linarith)
      rw [mul_one_div]
      exact div_le_div_of_nonneg_right (by linarith) (by positivity)
    linarith
  have hmlL : |Spec.McKee.mean ((realAmounts l).map Real.log)| ≤ L := by
    unfold Spec.McKee.mean
    have e : ((realAmounts l).map Real.log).length = (amounts l).length := by unfold realAmounts; simp
    have b1 := List.sum_le_card_nsmul ((realAmounts l).map Real.log) (L : ℝ) (by
      intro y hy; obtain ⟨x, hx, rfl⟩ := List.mem_map.1 hy; exact (abs_le.1 (hL x hx)).2)
    have b2 := List.card_nsmul_le_sum ((realAmounts l).map Real.log) (-L : ℝ) (by
      intro y hy; obtain ⟨x, hx, rfl⟩ := List.mem_map.1 hy; exact (abs_le.1 (hL x hx)).1)
    rw [nsmul_eq_mul, e] at b1 b2
    rw [e, abs_le, le_div_iff₀ hkR, div_le_iff₀ hkR]
    constructor <;> linarith
  -- the difference
  have small3 : ((L : ℝ) + 1) * ((2 * l.length + 3) / 2 ^ 53) ≤ 1 / 2 := by
    have : ((2 * (l.length : ℝ) + 3) / 2 ^ 53) ≤ 1 / 2 ^ 11 := by
      rw [div_le_div_iff₀ (by positivity) (by positivity)]; nlinarith
    have := mul_le_mul_of_nonneg_left this (by linarith : (0 : ℝ) ≤ L + 1)
    linarith
  have L150 : ((L : ℝ) + 1) / 2 ^ 50 ≤ 1 / 4 := by
    rw [div_le_div_iff₀ (by positivity) (by positivity)]; nlinarith
  have hlmb : |(lm : ℝ)| ≤ L + 1 := by
    have := abs_sub_abs_le_abs_sub (lm : ℝ) (Real.log (Spec.McKee.mean (realAmounts l)))
    linarith
  have hmlb : |(ml : ℝ)| ≤ L + 1 := by
    have := abs_sub_abs_le_abs_sub (ml : ℝ) (Spec.McKee.mean ((realAmounts l).map Real.log))
    linarith
  have hd : |(lm : ℝ) - ml| ≤ 2 * (L + 1) := by
    have := abs_sub (lm : ℝ) ml
    linarith
  have hdq : |lm - ml| ≤ 2 * (L + 1) := by
    have : ((|lm - ml| : ℚ) : ℝ) ≤ ((2 * (L + 1) : ℚ) : ℝ) := by push_cast; exact hd
    exact_mod_cast this
  refine ⟨rnd (lm - ml), fin_sub hlm1 hml1 (below_max (hdq.trans (by linarith))), ?_, ?_⟩
  swap
  · unfold Spec.McKee.gap
    refine (abs_sub _ _).trans ?_
    linarith
  have er := rnd_sub_rel hlm1 hml1
  have d4 : |((rnd (lm - ml) : ℚ) : ℝ) - (lm - ml)| ≤ 2 * (L + 1) / 2 ^ 53 := by
    have h3 : ((|rnd (lm - ml) - (lm - ml)| : ℚ) : ℝ) ≤ ((|lm - ml| * unit : ℚ) : ℝ) := by exact_mod_cast er
    rw [Rat.cast_mul, hu] at h3
    push_cast at h3
    refine h3.trans ?_
    rw [mul_one_div]
    exact div_le_div_of_nonneg_right hd (by positivity)
  unfold Spec.McKee.gap
  have h3 := abs_add_le (((rnd (lm - ml) : ℚ) : ℝ) - (lm - ml)) (((lm : ℝ) - ml) - (Real.log (Spec.McKee.mean (realAmounts l)) - Spec.McKee.mean ((realAmounts l).map Real.log)))
  rw [sub_add_sub_cancel] at h3
  have h4 := abs_sub ((lm : ℝ) - Real.log (Spec.McKee.mean (realAmounts l))) (ml - Spec.McKee.mean ((realAmounts l).map Real.log))
  rw [show (lm : ℝ) - Real.log (Spec.McKee.mean (realAmounts l)) - (ml - Spec.McKee.mean ((realAmounts l).map Real.log))
    = (lm - ml) - (Real.log (Spec.McKee.mean (realAmounts l)) - Spec.McKee.mean ((realAmounts l).map Real.log)) by ring] at h4
  refine h3.trans ?_
  have h5 : 2 * ((L : ℝ) + 1) / 2 ^ 53 + (2 * (2 * (l.length + 1) / 2 ^ 53) + (L + 1) / 2 ^ 50) + ((L + 1) * ((2 * l.length + 3) / 2 ^ 53) + L / 2 ^ 50)
      ≤ (L + 1) * (l.length + 7) / 2 ^ 51 := by
    rw [← sub_nonneg]
    have e : ((L : ℝ) + 1) * (l.length + 7) / 2 ^ 51 - (2 * ((L : ℝ) + 1) / 2 ^ 53 + (2 * (2 * (l.length + 1) / 2 ^ 53) + (L + 1) / 2 ^ 50)
        + ((L + 1) * ((2 * l.length + 3) / 2 ^ 53) + L / 2 ^ 50)) = ((L + 1) * (2 * l.length + 23) - 4 * (l.length + 1) - 16 * L - 8) / 2 ^ 53 := by ring
    rw [e]
    refine div_nonneg ?_ (by positivity)
    nlinarith
  linarith

/-! ## The parameters -/

theorem quot_near {α β m S d1 d2 : ℝ} (hm : 0 < m) (hS : 0 < S) (h1 : |α * β - m| ≤ m * d1) (h2 : |α - S| ≤ S * d2) (hd : d2 ≤ 1 / 2) :
    |β - m / S| ≤ m / S * (2 * d1 + 2 * d2) := by
  have h2' := abs_le.1 h2
  have hS2 : S * d2 ≤ S * (1 / 2) := mul_le_mul_of_nonneg_left hd hS.le
  have hα : 0 < α := by linarith
  have e : β - m / S = ((α * β - m) - m / S * (α - S)) / α := by field_simp; ring
  have hmS : 0 < m / S := div_pos hm hS
  rw [e, abs_div, abs_of_pos hα, div_le_iff₀ hα]
  refine (abs_sub _ _).trans ?_
  rw [abs_mul, abs_of_pos hmS]
  have h3 : m / S * |α - S| ≤ m / S * (S * d2) := mul_le_mul_of_nonneg_left h2 hmS.le
  have h4 : m / S * (S * d2) = m * d2 := by field_simp
  have hd0 : 0 ≤ m * d1 + m * d2 := by
    have := abs_nonneg (α * β - m)
    have : 0 ≤ m / S * |α - S| := mul_nonneg hmS.le (abs_nonneg _)
    linarith
  have h5 : m / S * (2 * d1 + 2 * d2) * α = (m * d1 + m * d2) * (2 * α / S) := by field_simp
  rw [h5]
  have h6 : 1 ≤ 2 * α / S := by rw [le_div_iff₀ hS]; linarith
  have h7 := mul_le_mul_of_nonneg_left h6 hd0
  linarith

theorem gap_nil : Spec.McKee.gap [] = 0 := by
  simp [Spec.McKee.gap, Spec.McKee.mean]

/-- **C132.** `gamma_parameters` in float64, with a logarithm and a square root of relative errors of at most 2^-50 and 2^-52: let the precipitation be missing,
zero or between 10^-100 and 10^100, let `c` be the number of calibration years (at most 2^40), and let the logarithms of the positive amounts of a calendar step in the
calibration years be at most `L` in size. The error of Thom's statistic is at most `ε = (L + 1) (c + 7) / 2^51`. If the statistic of the sample is
at least `8 ε`, then shape and scale of the calendar step are the published estimates up to the stated relative errors: those caused by the error of the
statistic, `2 ε / gap` and `4 ε / gap`, and a few units of rounding. For the statistic of nearly equal amounts nothing like this
holds (`C130_negative_fails`: the shape may be negative). -/
theorem C132_parameters (E : Ext (B64 σ)) (hE : ExtNan E) (hA : Accurate E) (n : Nat) (data : List (B64 σ)) (ds cs ce : Int) (per : Periodicity)
    (hper : per ≠ .other) (hdata : ∀ v ∈ data, Rain v) (al be : List (B64 σ)) (h : gammaParameters E ⟨[n, per.steps], data⟩ ds cs ce per = .ok (al, be))
    (j : Nat) (hj : j < per.steps) (sample : List (B64 σ)) (hs : sample = stride per.steps j (calibrationValues data n per.steps ds cs ce))
    (hlen : sample.length ≤ 2 ^ 40) (L : ℚ) (h1 : 1 ≤ L) (h2 : L ≤ 1000) (hL : ∀ x ∈ realAmounts sample, |Real.log x| ≤ L)
    (ε : ℝ) (hε : ε = (L + 1) * (sample.length + 7) / 2 ^ 51) (hgap : 8 * ε ≤ Spec.McKee.gap (realAmounts sample)) :
    ∃ x y α β, al[j]? = some x ∧ be[j]? = some y ∧ ext x = .fin α ∧ ext y = .fin β ∧
      |(α : ℝ) - Spec.McKee.shape (realAmounts sample)| ≤ Spec.McKee.shape (realAmounts sample) * (2 * (ε / Spec.McKee.gap (realAmounts sample)) + 1 / 2 ^ 48) ∧
      |(β : ℝ) - Spec.McKee.scale (realAmounts sample)| ≤
        Spec.McKee.scale (realAmounts sample) * (4 * (ε / Spec.McKee.gap (realAmounts sample)) + (sample.length + 2) / 2 ^ 51 + 1 / 2 ^ 47) := by
  have hLR : (1 : ℝ) ≤ L := by exact_mod_cast h1
  have hLR2 : (L : ℝ) ≤ 1000 := by exact_mod_cast h2
  have hl0 : (0 : ℝ) ≤ sample.length := by positivity
  have hlR : (sample.length : ℝ) ≤ 2 ^ 40 := by exact_mod_cast hlen
  have hεlow : 14 / 2 ^ 51 ≤ ε := by
    rw [hε]
    refine div_le_div_of_nonneg_right ?_ (by positivity)
    nlinarith
  have hε0 : 0 < ε := lt_of_lt_of_le (by positivity) hεlow
  set A := Spec.McKee.gap (realAmounts sample) with hAdef
  have hA0 : 0 < A := by linarith
  have hne : amounts sample ≠ [] := by
    intro he
    have : realAmounts sample = [] := by unfold realAmounts; rw [he]; rfl
    rw [hAdef, this, gap_nil] at hA0
    exact lt_irrefl _ hA0
  have hr : ∀ v ∈ sample, Rain v := by
    intro v hv
    rw [hs] at hv
    exact hdata v (mem_calibrationValues _ _ _ _ _ _ _ (mem_of_mem_stride _ _ _ _ hv))
  obtain ⟨x, hx, hxe, hgb⟩ := stat_near hE.log_nan hA hr hlen hne h1 h2 hL
  rw [← hAdef, ← hε] at hxe
  rw [← hAdef, abs_of_pos hA0] at hgb
  have hx' := abs_le.1 hxe
  have hxlow : (1 : ℝ) / 2 ^ 60 ≤ x := by
    have : (1 : ℝ) / 2 ^ 60 ≤ 14 / 2 ^ 51 := by norm_num
    linarith
  have hxhigh : (x : ℝ) ≤ 2 ^ 60 := by linarith
  have hx0 : (0 : ℝ) < x := lt_of_lt_of_le (by positivity) hxlow
  have hxlow' : 1 / 2 ^ 60 ≤ x := by
    have : (((1 : ℚ) / 2 ^ 60 : ℚ) : ℝ) ≤ (x : ℝ) := by push_cast; exact hxlow
    exact_mod_cast this
  obtain ⟨α, hα, hαe⟩ := formula_near hA hx hxlow' (by exact_mod_cast hxhigh)
  have hshape : Spec.McKee.shape (realAmounts sample) = thomShape A := rfl
  have hth := thomShape_near hx0 hA0
  have hS := thomShape_pos hA0
  set t := ε / A with ht
  have ht0 : 0 ≤ t := by positivity
  have ht8 : t ≤ 1 / 8 := by rw [ht, div_le_iff₀ hA0]; linarith
  have hthe : |thomShape x - thomShape A| ≤ thomShape A * (8 / 7 * t) := by
    refine hth.trans (mul_le_mul_of_nonneg_left ?_ hS.le)
    rw [div_le_iff₀ hx0]
    have h7 : 7 / 8 * A ≤ x := by linarith
    have h8 : ε = t * A := by rw [ht]; field_simp
    have h9 := mul_le_mul_of_nonneg_left h7 ht0
    have h10 : (8 / 7 * t) * (7 / 8 * A) ≤ 8 / 7 * t * x := mul_le_mul_of_nonneg_left h7 (by positivity)
    nlinarith
  have hαS := rel_trans hαe hthe (by positivity)
  have hd2 : 8 / 7 * t + 1 / 2 ^ 49 * (1 + 8 / 7 * t) ≤ 2 * t + 1 / 2 ^ 48 := by nlinarith
  have hαS' : |(α : ℝ) - thomShape A| ≤ thomShape A * (2 * t + 1 / 2 ^ 48) := hαS.trans (mul_le_mul_of_nonneg_left hd2 hS.le)
  -- the range of the shape
  have hab := abs_le.1 hαS'
  have hhalf : thomShape A * (2 * t + 1 / 2 ^ 48) ≤ thomShape A * (1 / 2) := mul_le_mul_of_nonneg_left (by nlinarith) hS.le
  have hSlow : 1 / 10 ^ 49 ≤ thomShape A := by
    unfold thomShape
    have := Real.sqrt_nonneg (1 + 4 * A / 3)
    have h3 : 1 / 10 ^ 49 ≤ 1 / (4 * A) * 1 := by
      rw [mul_one]
      exact one_div_le_one_div_of_le (by positivity) (by linarith)
    exact h3.trans (mul_le_mul_of_nonneg_left (by linarith) (by positivity))
  have hShigh : thomShape A ≤ 10 ^ 49 := by
    unfold thomShape
    have h3 : Real.sqrt (1 + 4 * A / 3) ≤ 1 + 4 * A / 3 := by
      rw [Real.sqrt_le_left (by positivity)]
      nlinarith
    have h4 : 1 / (4 * A) ≤ 2 ^ 60 := by
      rw [div_le_iff₀ (by positivity)]
      have : (14 : ℝ) / 2 ^ 51 * 2 ^ 60 ≤ A * 2 ^ 60 := mul_le_mul_of_nonneg_right (by linarith) (by positivity)
      norm_num at this ⊢
      linarith
    calc 1 / (4 * A) * (1 + Real.sqrt (1 + 4 * A / 3)) ≤ 2 ^ 60 * 2 ^ 20 := by
          refine mul_le_mul h4 ?_ (by positivity) (by positivity)
          linarith
      _ ≤ 10 ^ 49 := by norm_num
  have hαlow : 1 / 10 ^ 50 ≤ α := by
    have : (((1 : ℚ) / 10 ^ 50 : ℚ) : ℝ) ≤ (α : ℝ) := by
      push_cast
      have : (1 : ℝ) / 10 ^ 50 ≤ 1 / 10 ^ 49 * (1 / 2) := by norm_num
      linarith
    exact_mod_cast this
  have hαhigh : α ≤ 10 ^ 50 := by
    have : (α : ℝ) ≤ ((10 ^ 50 : ℚ) : ℝ) := by
      push_cast
      have : (10 : ℝ) ^ 49 * 2 ≤ 10 ^ 50 := by norm_num
      linarith
    exact_mod_cast this
  have hfit : (gammaFitCol E (sample.map zeroToNan)).1 = (lit 1 + E.sqrt (lit 1 + lit 4 * (E.log (nanmean (sample.map zeroToNan)) - nanmean ((sample.map zeroToNan).map E.log)) / lit 3))
      / (lit 4 * (E.log (nanmean (sample.map zeroToNan)) - nanmean ((sample.map zeroToNan).map E.log))) := rfl
  rw [← hfit] at hα
  have hal : al[j]? = some (gammaFitCol E (sample.map zeroToNan)).1 := by
    rw [gammaParameters_fits E hE n data ds cs ce per hper] at h
    injection h with h
    injection h with e1 e2
    rw [← e1, List.getElem?_map]
    unfold gammaFits
    rw [List.getElem?_map, List.getElem?_range hj, hs, ← stride_map, ← calibrationValues_map]; rfl
  obtain ⟨y, β, hy, hβ, hβ0, _, hm⟩ := C130_mean E hE n data ds cs ce per hper hdata al be h j hj sample hs hlen _ hal α hα hαlow hαhigh
  refine ⟨_, y, α, β, hal, hy, hα, hβ, hαS', ?_⟩
  have hpos : ∀ x ∈ realAmounts sample, 0 < x := by
    intro x hx
    obtain ⟨q, hq, rfl⟩ := List.mem_map.1 hx
    exact_mod_cast amounts_pos sample q hq
  obtain ⟨hmp, _⟩ := log_mean hpos hL (by unfold realAmounts; simpa using hne)
  have hmean : (((amounts sample).sum / (amounts sample).length : ℚ) : ℝ) = Spec.McKee.mean (realAmounts sample) := by
    unfold Spec.McKee.mean realAmounts
    rw [List.length_map, Rat.cast_div, Rat.cast_natCast]
    congr 1
    exact map_list_sum (Rat.castHom ℝ) _
  have hmR : |(α : ℝ) * β - Spec.McKee.mean (realAmounts sample)| ≤ Spec.McKee.mean (realAmounts sample) * ((sample.length + 2) / 2 ^ 52) := by
    have h3 : ((|α * β - (amounts sample).sum / (amounts sample).length| : ℚ) : ℝ) ≤
        (((amounts sample).sum / (amounts sample).length * ((sample.length + 2 : ℕ) / 2 ^ 52) : ℚ) : ℝ) := by exact_mod_cast hm
    rw [Rat.cast_abs, Rat.cast_sub, Rat.cast_mul, Rat.cast_mul, hmean] at h3
    push_cast at h3
    exact h3
  have := quot_near hmp hS hmR hαS' (by nlinarith)
  have hscale : Spec.McKee.scale (realAmounts sample) = Spec.McKee.mean (realAmounts sample) / thomShape A := rfl
  rw [hscale]
  refine this.trans (le_of_eq ?_)
  ring

/-! ## The hypotheses hold for some libraries and data -/

theorem near_exists (r : ℝ) (h : r = 0 ∨ 2 ^ (-1000 : ℤ) ≤ |r|) (h2 : |r| ≤ 2 ^ (1000 : ℤ)) :
    ∃ (y : B64 leftToRight) (b : ℚ), ext y = .fin b ∧ |(b : ℝ) - r| ≤ |r| / 2 ^ 52 := by
  have hu : ((unit : ℚ) : ℝ) = 1 / 2 ^ 53 := by unfold unit; push_cast; norm_num
  rcases h with rfl | h
  · exact ⟨lit 0, 0, ext_lit_zero, by simp⟩
  · have hr : 0 < |r| := lt_of_lt_of_le (by positivity) h
    obtain ⟨q, hq1, hq2⟩ := exists_rat_btwn (show r - |r| / 2 ^ 55 < r + |r| / 2 ^ 55 by
      have : 0 < |r| / 2 ^ 55 := by positivity
      linarith)
    have hqr : |(q : ℝ) - r| ≤ |r| / 2 ^ 55 := by rw [abs_le]; constructor <;> linarith
    have hqa : |(q : ℝ)| ≤ |r| * (1 + 1 / 2 ^ 55) := by
      have := abs_sub_abs_le_abs_sub (q : ℝ) r
      linarith
    have hqb : |r| * (1 - 1 / 2 ^ 55) ≤ |(q : ℝ)| := by
      have := abs_sub_abs_le_abs_sub r (q : ℝ)
      rw [abs_sub_comm r] at this
      linarith
    have hb1 : |q| ≤ 2 ^ (1023 : ℤ) := by
      have : ((|q| : ℚ) : ℝ) ≤ ((2 ^ (1023 : ℤ) : ℚ) : ℝ) := by
        rw [Rat.cast_abs, Rat.cast_zpow, Rat.cast_ofNat]
        have h3 : |r| * (1 + 1 / 2 ^ 55) ≤ 2 ^ (1000 : ℤ) * 2 := mul_le_mul h2 (by norm_num) (by positivity) (by positivity)
        have h4 : (2 : ℝ) ^ (1000 : ℤ) * 2 = 2 ^ (1001 : ℤ) := by rw [show (1001 : ℤ) = 1000 + 1 by norm_num, zpow_add_one₀ (by norm_num)]
        have h5 : (2 : ℝ) ^ (1001 : ℤ) ≤ 2 ^ (1023 : ℤ) := zpow_le_zpow_right₀ (by norm_num) (by norm_num)
        exact hqa.trans (h3.trans (h4.le.trans h5))
      exact_mod_cast this
    have hb2 : (2 : ℚ) ^ (-1022 : ℤ) ≤ |q| := by
      have : ((2 ^ (-1022 : ℤ) : ℚ) : ℝ) ≤ ((|q| : ℚ) : ℝ) := by
        rw [Rat.cast_abs, Rat.cast_zpow, Rat.cast_ofNat]
        have h3 : (2 : ℝ) ^ (-1000 : ℤ) * (1 / 2) ≤ |r| * (1 - 1 / 2 ^ 55) := mul_le_mul h (by norm_num) (by positivity) (by positivity)
        have h4 : (2 : ℝ) ^ (-1000 : ℤ) * (1 / 2) = 2 ^ (-1001 : ℤ) := by
          rw [show (-1001 : ℤ) = -1000 - 1 by norm_num, zpow_sub_one₀ (by norm_num)]; ring
        have h5 : (2 : ℝ) ^ (-1022 : ℤ) ≤ 2 ^ (-1001 : ℤ) := zpow_le_zpow_right₀ (by norm_num) (by norm_num)
        exact h5.trans (h4.ge.trans (h3.trans hqb))
      exact_mod_cast this
    refine ⟨lit q, rnd q, ext_lit64 q hb1, ?_⟩
    have h3 : ((|rnd q - q| : ℚ) : ℝ) ≤ ((|q| * unit : ℚ) : ℝ) := by exact_mod_cast rnd_rel hb2
    rw [Rat.cast_mul, hu, Rat.cast_abs, Rat.cast_abs, Rat.cast_sub] at h3
    have h4 := abs_add_le (((rnd q : ℚ) : ℝ) - q) ((q : ℝ) - r)
    rw [sub_add_sub_cancel] at h4
    have h5 : |(q : ℝ)| * (1 / 2 ^ 53) ≤ |r| * (1 + 1 / 2 ^ 55) * (1 / 2 ^ 53) := mul_le_mul_of_nonneg_right hqa (by positivity)
    nlinarith

/-- float64 numbers are between 2^-1074 and 2^1024, and 1 is isolated among them -/
theorem fin_range {x : B64 σ} {q : ℚ} (h : ext x = .fin q) (h0 : 0 < q) :
    2 ^ (-1074 : ℤ) ≤ q ∧ q ≤ 2 ^ (1024 : ℤ) ∧ (q = 1 ∨ 1 / 2 ^ 53 ≤ |q - 1|) := by
  refine ⟨?_, ?_, ?_⟩
  · obtain ⟨n, hn⟩ := fin_grid h
    have hp : (0 : ℚ) < 2 ^ (-1074 : ℤ) := by positivity
    have : (0 : ℚ) < n := by
      by_contra hc
      have := mul_nonpos_of_nonpos_of_nonneg (not_lt.1 hc) hp.le
      linarith
    have h1 : (1 : ℚ) ≤ n := by exact_mod_cast this
    rw [hn]
    exact le_mul_of_one_le_left hp.le h1
  · cases x with
    | nan => cases h
    | inf s => cases s <;> cases h
    | fin s a ha =>
      have e1 : val s a = q := Fl.fin.inj h
      have h3 := ha.2.2
      have h4 := ha.1
      rw [Round.pow2_eq] at h3
      have : q ≤ a := by rw [← e1]; unfold val; split <;> linarith
      linarith
  · have hr := rnd_fin h
    rw [rnd_of_nonneg h0.le] at hr
    obtain ⟨m, k, hm, _, hk⟩ := Round.rndPos_form q
    rw [hr] at hk
    rcases le_or_gt (-53 : ℤ) k with hc | hc
    · obtain ⟨e, he⟩ := Int.eq_ofNat_of_zero_le (show (0 : ℤ) ≤ k + 53 by omega)
      have hq : q = ((m * 2 ^ e : ℕ) : ℤ) / 2 ^ 53 := by
        rw [hk, show k = (e : ℤ) - 53 by omega, zpow_sub₀ (by norm_num)]
        push_cast
        rw [zpow_natCast]
        norm_num
        ring
      generalize ((m * 2 ^ e : ℕ) : ℤ) = z at hq
      by_cases hz : z = 2 ^ 53
      · left; rw [hq, hz]; norm_num
      · right
        have : q - 1 = ((z - 2 ^ 53 : ℤ) : ℚ) / 2 ^ 53 := by rw [hq]; push_cast; ring
        rw [this, abs_div, abs_of_pos (by positivity : (0 : ℚ) < 2 ^ 53)]
        refine div_le_div_of_nonneg_right ?_ (by positivity)
        have h1 : (1 : ℤ) ≤ |z - 2 ^ 53| := Int.one_le_abs (sub_ne_zero.2 hz)
        exact_mod_cast h1
    · right
      have hz : (2 : ℚ) ^ k ≤ 2 ^ (-54 : ℤ) := zpow_le_zpow_right₀ (by norm_num) (by omega)
      have hm' : (m : ℚ) ≤ 2 ^ 53 := by exact_mod_cast hm
      have h2 : (m : ℚ) * 2 ^ k ≤ 2 ^ 53 * 2 ^ (-54 : ℤ) := mul_le_mul hm' hz (by positivity) (by positivity)
      have e : (2 : ℚ) ^ 53 * 2 ^ (-54 : ℤ) = 1 / 2 := by norm_num
      rw [← hk, e] at h2
      rw [abs_of_nonpos (by linarith)]
      have : (1 : ℚ) / 2 ^ 53 ≤ 1 / 2 := by norm_num
      linarith

theorem near_log {x : B64 leftToRight} {q : ℚ} (h : ext x = .fin q) (h0 : 0 < q) :
    ∃ (y : B64 leftToRight) (b : ℚ), ext y = .fin b ∧ |(b : ℝ) - Real.log q| ≤ |Real.log q| / 2 ^ 52 := by
  obtain ⟨h1, h2, h3⟩ := fin_range h h0
  have hq : (0 : ℝ) < q := by exact_mod_cast h0
  have h1' : (2 : ℝ) ^ (-1074 : ℤ) ≤ q := by
    have : ((2 ^ (-1074 : ℤ) : ℚ) : ℝ) ≤ (q : ℝ) := by exact_mod_cast h1
    rwa [Rat.cast_zpow, Rat.cast_ofNat] at this
  have h2' : (q : ℝ) ≤ 2 ^ (1024 : ℤ) := by
    have : (q : ℝ) ≤ ((2 ^ (1024 : ℤ) : ℚ) : ℝ) := by exact_mod_cast h2
    rwa [Rat.cast_zpow, Rat.cast_ofNat] at this
  have l2 : Real.log 2 ≤ 1 := by have := Real.log_two_lt_d9; linarith
  have l0 : 0 ≤ Real.log 2 := Real.log_nonneg (by norm_num)
  refine near_exists _ ?_ ?_
  · rcases h3 with h3 | h3
    · left; rw [h3]; simp
    · right
      have h3' : (1 : ℝ) / 2 ^ 53 ≤ |(q : ℝ) - 1| := by
        have : (((1 : ℚ) / 2 ^ 53 : ℚ) : ℝ) ≤ ((|q - 1| : ℚ) : ℝ) := by exact_mod_cast h3
        push_cast at this
        exact this
      refine le_trans (zpow_le_zpow_right₀ (by norm_num : (1 : ℝ) ≤ 2) (show (-1000 : ℤ) ≤ -60 by norm_num)) ?_
      have e60 : (2 : ℝ) ^ (-60 : ℤ) = 1 / 2 ^ 60 := by norm_num
      rw [e60]
      rcases le_total (q : ℝ) 1 with hq1 | hq1
      · rw [abs_of_nonpos (by linarith)] at h3'
        have := Real.log_le_sub_one_of_pos hq
        rw [abs_of_nonpos (by linarith)]
        norm_num at h3' ⊢
        linarith
      · rw [abs_of_nonneg (by linarith)] at h3'
        have h4 := Real.log_le_log (by positivity) (show (1 : ℝ) + 1 / 2 ^ 53 ≤ q by linarith)
        have h5 := Real.one_sub_inv_le_log_of_pos (show (0 : ℝ) < 1 + 1 / 2 ^ 53 by positivity)
        have h6 : (1 : ℝ) / 2 ^ 60 ≤ 1 - (1 + 1 / 2 ^ 53)⁻¹ := by norm_num
        exact (h6.trans (h5.trans h4)).trans (le_abs_self _)
  · have h4 := Real.log_le_log (by positivity) h1'
    have h5 := Real.log_le_log hq h2'
    rw [Real.log_zpow] at h4 h5
    have h6 : |Real.log q| ≤ 2 ^ (11 : ℤ) := by
      have : (2 : ℝ) ^ (11 : ℤ) = 2048 := by norm_num
      rw [this, abs_le]
      push_cast at h4 h5
      constructor <;> linarith
    exact h6.trans (zpow_le_zpow_right₀ (by norm_num) (by norm_num))

theorem near_sqrt {x : B64 leftToRight} {q : ℚ} (h : ext x = .fin q) (h0 : 0 ≤ q) :
    ∃ (y : B64 leftToRight) (b : ℚ), ext y = .fin b ∧ |(b : ℝ) - Real.sqrt q| ≤ Real.sqrt q / 2 ^ 52 := by
  have hs := Real.sqrt_nonneg (q : ℝ)
  obtain ⟨y, b, hy, hb⟩ := near_exists (Real.sqrt q) (by
      rcases h0.eq_or_lt with h0 | h0
      · left; rw [← h0]; simp
      · right
        obtain ⟨h1, _, _⟩ := fin_range h h0
        have h1' : (2 : ℝ) ^ (-1074 : ℤ) ≤ q := by
          have : ((2 ^ (-1074 : ℤ) : ℚ) : ℝ) ≤ (q : ℝ) := by exact_mod_cast h1
          rwa [Rat.cast_zpow, Rat.cast_ofNat] at this
        rw [abs_of_nonneg hs]
        refine Real.le_sqrt_of_sq_le ?_
        refine le_trans ?_ h1'
        rw [← zpow_natCast, ← zpow_mul]
        exact zpow_le_zpow_right₀ (by norm_num) (by norm_num))
    (by
      rw [abs_of_nonneg hs, Real.sqrt_le_left (by positivity)]
      rcases h0.eq_or_lt with h0 | h0
      · rw [← h0]; simp
      · obtain ⟨_, h2, _⟩ := fin_range h h0
        have h2' : (q : ℝ) ≤ 2 ^ (1024 : ℤ) := by
          have : (q : ℝ) ≤ ((2 ^ (1024 : ℤ) : ℚ) : ℝ) := by exact_mod_cast h2
          rwa [Rat.cast_zpow, Rat.cast_ofNat] at this
        refine h2'.trans ?_
        rw [← zpow_natCast, ← zpow_mul]
        exact zpow_le_zpow_right₀ (by norm_num) (by norm_num))
  rw [abs_of_nonneg hs] at hb
  exact ⟨y, b, hy, hb⟩

open Classical in
/-- a logarithm and a square root that return a float64 number next to the exact value; the other functions are as in `ext64` -/
noncomputable def nearExt : Ext (B64 leftToRight) := { ext64 with
  log := fun x => if h : ∃ q : ℚ, ext x = .fin q ∧ 0 < q then (near_log h.choose_spec.1 h.choose_spec.2).choose else nan
  sqrt := fun x => if h : ∃ q : ℚ, ext x = .fin q ∧ 0 ≤ q then (near_sqrt h.choose_spec.1 h.choose_spec.2).choose else nan }

theorem nearExt_accurate : Accurate nearExt where
  log := by
    intro x q hx hq
    have h : ∃ q : ℚ, ext x = .fin q ∧ 0 < q := ⟨q, hx, hq⟩
    have e : nearExt.log x = (near_log h.choose_spec.1 h.choose_spec.2).choose := dif_pos h
    obtain ⟨b, hb, hbe⟩ := (near_log h.choose_spec.1 h.choose_spec.2).choose_spec
    have hc : h.choose = q := Fl.fin.inj (h.choose_spec.1.symm.trans hx)
    refine ⟨b, by rw [e]; exact hb, ?_⟩
    rw [hc] at hbe
    refine hbe.trans ?_
    exact div_le_div_of_nonneg_left (abs_nonneg _) (by positivity) (by norm_num)
  sqrt := by
    intro x q hx hq
    have h : ∃ q : ℚ, ext x = .fin q ∧ 0 ≤ q := ⟨q, hx, hq⟩
    have e : nearExt.sqrt x = (near_sqrt h.choose_spec.1 h.choose_spec.2).choose := dif_pos h
    obtain ⟨b, hb, hbe⟩ := (near_sqrt h.choose_spec.1 h.choose_spec.2).choose_spec
    have hc : h.choose = q := Fl.fin.inj (h.choose_spec.1.symm.trans hx)
    refine ⟨b, by rw [e]; exact hb, ?_⟩
    rw [hc] at hbe
    exact hbe

theorem nearExt_nan : ExtNan nearExt where
  log_nan := dif_neg (by rintro ⟨q, hq, _⟩; cases hq)
  gammaCdf_nan := ext64_nan.gammaCdf_nan
  gammaCdf_nan_shape := ext64_nan.gammaCdf_nan_shape
  pearson3Cdf_nan := ext64_nan.pearson3Cdf_nan
  normPpf_nan := ext64_nan.normPpf_nan

/-- five years of monthly data: 1, 2, 4, 8 and 16 in January, the other months dry -/
def fiveYears64 : List (B64 leftToRight) := [1, 2, 4, 8, 16].flatMap fun v => lit v :: List.replicate 11 (lit 0)

theorem fiveYears64_amounts : amounts (stride 12 0 (calibrationValues fiveYears64 5 12 2000 2000 2004)) = [1, 2, 4, 8, 16] := by decide +kernel

/-- the hypotheses of `C132_parameters` hold: the statistic of January is log 6.2 − 2 log 2 = 0.438, and `8 ε` is 2·10^-13 -/
example : Accurate nearExt ∧ ExtNan nearExt ∧ (∀ v ∈ fiveYears64, Rain v) ∧
    (∃ al be, gammaParameters nearExt ⟨[5, 12], fiveYears64⟩ 2000 2000 2004 .monthly = .ok (al, be)) ∧
    (stride 12 0 (calibrationValues fiveYears64 5 12 2000 2000 2004)).length = 5 ∧
    (∀ x ∈ realAmounts (stride 12 0 (calibrationValues fiveYears64 5 12 2000 2000 2004)), |Real.log x| ≤ (3 : ℚ)) ∧
    8 * (((3 : ℚ) + 1) * ((5 : ℕ) + 7) / 2 ^ 51 : ℝ) ≤ Spec.McKee.gap (realAmounts (stride 12 0 (calibrationValues fiveYears64 5 12 2000 2000 2004))) := by
  have l2 := Real.log_two_lt_d9
  have l2' := Real.log_two_gt_d9
  have e4 : Real.log 4 = 2 * Real.log 2 := by rw [show (4 : ℝ) = 2 ^ 2 by norm_num, Real.log_pow]; norm_num
  have e8 : Real.log 8 = 3 * Real.log 2 := by rw [show (8 : ℝ) = 2 ^ 3 by norm_num, Real.log_pow]; norm_num
  have e16 : Real.log 16 = 4 * Real.log 2 := by rw [show (16 : ℝ) = 2 ^ 4 by norm_num, Real.log_pow]; norm_num
  refine ⟨nearExt_accurate, nearExt_nan, ?_, ⟨_, _, gammaParameters_fits nearExt nearExt_nan 5 fiveYears64 2000 2000 2004 .monthly (by decide)⟩,
    by decide +kernel, ?_, ?_⟩
  · have hall : fiveYears64.all (fun v => match ext v with
      | .fin q => decide ((q = 0 ∨ 1 / 10 ^ 100 ≤ q) ∧ q ≤ 10 ^ 100)
      | _ => false) = true := by decide +kernel
    intro v hv
    have := List.all_eq_true.1 hall v hv
    right
    cases hx : ext v with
    | fin q => rw [hx] at this; exact ⟨q, rfl, of_decide_eq_true this⟩
    | _ => rw [hx] at this; cases this
  · unfold realAmounts
    rw [fiveYears64_amounts]
    intro x hx
    simp only [List.map_cons, List.map_nil, List.mem_cons, List.not_mem_nil, or_false] at hx
    push_cast at hx ⊢
    rw [abs_le]
    rcases hx with rfl | rfl | rfl | rfl | rfl
    · rw [Real.log_one]; norm_num
    · constructor <;> linarith
    · rw [e4]; constructor <;> linarith
    · rw [e8]; constructor <;> linarith
    · rw [e16]; constructor <;> linarith
  · unfold realAmounts
    rw [fiveYears64_amounts]
    unfold Spec.McKee.gap Spec.McKee.mean
    simp only [List.map_cons, List.map_nil, List.sum_cons, List.sum_nil, List.length_cons, List.length_nil]
    push_cast
    rw [Real.log_one, e4, e8, e16]
    have h1 : Real.log 6 ≤ Real.log ((1 + (2 + (4 + (8 + (16 + 0))))) / (0 + 1 + 1 + 1 + 1 + 1)) := Real.log_le_log (by norm_num) (by norm_num)
    have h2 : Real.log 6 = Real.log 4 + Real.log (3 / 2) := by rw [← Real.log_mul (by norm_num) (by norm_num)]; norm_num
    have h3 := Real.one_sub_inv_le_log_of_pos (show (0 : ℝ) < 3 / 2 by norm_num)
    rw [h2, e4] at h1
    norm_num at h1 h3 ⊢
    linarith

end CI.Props
