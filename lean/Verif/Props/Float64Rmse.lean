import Verif.Props.Stats
import Verif.Props.Float64Shape

/-!
# C59 in binary64 arithmetic

The root mean square error is exactly symmetric for all inputs, and accurate if the differences are not extremely small or large. It is 0 for equal arrays, but
not only for these: the squares of differences up to 2^-538 are rounded to 0.
-/

namespace CI.Props
open B64

variable {σ : SumOrder}

/-! ## Symmetry -/

theorem round_neg {q : ℚ} (h : q ≠ 0) (z z' : Bool) : (B64.round z' (-q) : B64 σ) = neg (B64.round z q) := by
  unfold B64.round
  simp only [abs_neg]
  rcases lt_or_gt_of_ne h with h | h
  · rw [if_neg (by linarith), if_pos (by linarith), if_pos h]
    split <;> rfl
  · rw [if_pos (by linarith), if_neg (by linarith), if_pos h]
    split <;> rfl

theorem neg_mul_neg64 (x : B64 σ) : neg x * neg x = x * x := by
  cases x with
  | nan => rfl
  | inf s => cases s <;> rfl
  | fin s m h =>
    show B64.round ((!s) ^^ (!s)) (val (!s) m * val (!s) m) = B64.round (s ^^ s) (val s m * val s m)
    rw [val_neg, neg_mul_neg, Bool.xor_self, Bool.xor_self]

theorem round_zero_sq (z z' : Bool) : (B64.round z 0 : B64 σ) * B64.round z 0 = B64.round z' 0 * B64.round z' 0 := by
  have h : (B64.round true 0 : B64 σ) = neg (B64.round false 0) := by
    unfold B64.round
    simp only [lt_irrefl, if_false]
    split <;> rfl
  cases z <;> cases z'
  · rfl
  · rw [h, neg_mul_neg64]
  · rw [h, neg_mul_neg64]
  · rfl

theorem sq_sub_comm (x y : B64 σ) : (x - y) * (x - y) = (y - x) * (y - x) := by
  cases x with
  | nan => cases y <;> rfl
  | inf s =>
    cases y with
    | nan => rfl
    | inf t => cases s <;> cases t <;> rfl
    | fin t b hb => cases s <;> rfl
  | fin s a ha =>
    cases y with
    | nan => rfl
    | inf t => cases t <;> rfl
    | fin t b hb =>
      have e1 : (B64.fin s a ha - B64.fin t b hb : B64 σ) = B64.round (s && !t) (val s a + val (!t) b) := rfl
      have e2 : (B64.fin t b hb - B64.fin s a ha : B64 σ) = B64.round (t && !s) (val t b + val (!s) a) := rfl
      have e3 : val t b + val (!s) a = -(val s a + val (!t) b) := by rw [val_neg, val_neg]; ring
      rw [e1, e2, e3]
      by_cases h : val s a + val (!t) b = 0
      · rw [h, neg_zero]
        exact round_zero_sq _ _
      · rw [round_neg h (s && !t), neg_mul_neg64]

/-- **C59 in float64, symmetry.** The two orders of the arguments give the same number or the same exception, for arrays of any sizes and values (also missing values and infinities), any order of additions and
any square root. -/
theorem C59_symmetric64 (E : Ext (B64 σ)) (a b : List (B64 σ)) : rmse E a b = rmse E b a := by
  have key : broadcast2 (fun x y : B64 σ => (x - y) * (x - y)) a b = broadcast2 (fun x y : B64 σ => (x - y) * (x - y)) b a := by
    unfold broadcast2
    by_cases h : a.length = b.length
    · rw [if_pos h, if_pos h.symm, List.zipWith_comm]
      congr 2
      funext x y
      exact sq_sub_comm y x
    · rw [if_neg h, if_neg (Ne.symm h)]
      have hc : ∀ x : B64 σ, (fun y : B64 σ => (x - y) * (x - y)) = fun y => (y - x) * (y - x) := fun x => funext fun y => sq_sub_comm x y
      match a, b with
      | [], [] => rfl
      | [], [y] => simp
      | [x], [] => simp
      | [x], [y] => simp at h
      | [x], y :: z :: l => simp only [hc]
      | x :: z :: l, [y] => simp only [hc]
      | [], _ :: _ :: _ => rfl
      | _ :: _ :: _, [] => rfl
      | _ :: _ :: _, _ :: _ :: _ => rfl
  unfold rmse
  rw [key]

/-! ## Accuracy -/

/-- the arrays hold these numbers, pair by pair -/
def Pairs (a b : List (B64 σ)) (u : List (ℚ × ℚ)) : Prop := a.map ext = u.map (fun p => Fl.fin p.1) ∧ b.map ext = u.map (fun p => Fl.fin p.2)

/-- the root mean square of the differences -/
noncomputable def rmsDiff (u : List (ℚ × ℚ)) : ℝ := Real.sqrt ((u.map fun p => ((p.1 : ℝ) - p.2) ^ 2).sum / u.length)

theorem forall_zip {R : ℚ × ℚ → B64 σ → Prop} (f : B64 σ → B64 σ → B64 σ) : ∀ (u : List (ℚ × ℚ)) (a b : List (B64 σ)), Pairs a b u →
    (∀ p ∈ u, ∀ x y, ext x = .fin p.1 → ext y = .fin p.2 → R p (f x y)) → List.Forall₂ (fun v p => R p v) (List.zipWith f a b) u
  | [], a, b, h, _ => by
    have : a = [] := by simpa using h.1
    subst this
    exact .nil
  | p :: u, a, b, h, hR => by
    obtain ⟨h1, h2⟩ := h
    match a, b, h1, h2 with
    | x :: a, y :: b, h1, h2 =>
      simp only [List.map_cons, List.cons.injEq] at h1 h2
      exact .cons (hR p (List.mem_cons_self ..) x y h1.1 h2.1) (forall_zip f u a b ⟨h1.2, h2.2⟩ fun p hp => hR p (List.mem_cons_of_mem _ hp))

theorem Pairs.lengths {a b : List (B64 σ)} {u : List (ℚ × ℚ)} (h : Pairs a b u) : a.length = u.length ∧ b.length = u.length := by
  have h1 := congrArg List.length h.1
  have h2 := congrArg List.length h.2
  simp only [List.length_map] at h1 h2
  exact ⟨h1, h2⟩

/-- a squared difference -/
theorem sq_close {p q : ℚ} {x y : B64 σ} (hx : ext x = .fin p) (hy : ext y = .fin q) (h : p = q ∨ 2 ^ (-400 : ℤ) ≤ |p - q|) (h' : |p - q| ≤ 2 ^ (400 : ℤ)) :
    ∃ r, ext ((x - y) * (x - y)) = .fin r ∧ Close 3 r ((p - q) ^ 2) := by
  have hs := fin_sub hx hy (h'.trans (zpow_le_zpow_right₀ (by norm_num) (by norm_num)))
  have hz : (2 : ℚ) ^ (400 : ℤ) * 2 ^ (400 : ℤ) = 2 ^ (800 : ℤ) := by rw [← zpow_add₀ (by norm_num)]; norm_num
  have hz' : (2 : ℚ) ^ (-400 : ℤ) * 2 ^ (-400 : ℤ) = 2 ^ (-800 : ℤ) := by rw [← zpow_add₀ (by norm_num)]; norm_num
  have hc : Close 1 |rnd (p - q)| |p - q| := by
    have e : |rnd (p - q)| = rnd |p - q| := by
      rcases le_total 0 (p - q) with h0 | h0
      · rw [abs_of_nonneg h0, abs_of_nonneg (rnd_nonneg h0)]
      · rw [abs_of_nonpos h0, rnd_neg, abs_of_nonpos]
        have := rnd_mono h0
        rwa [rnd_zero] at this
    rw [e]
    refine Close.round (c := 0) (Close.refl (abs_nonneg _)) ?_
    rcases h with h | h
    · rw [h, sub_self, abs_zero, rnd_zero]; simp
    · refine rnd_rel ?_
      rw [abs_abs]
      exact (zpow_le_zpow_right₀ (by norm_num) (by norm_num)).trans h
  have hm := hc.mul hc
  have e2 : |rnd (p - q)| * |rnd (p - q)| = rnd (p - q) * rnd (p - q) := abs_mul_abs_self _
  have e3 : |p - q| * |p - q| = (p - q) ^ 2 := by rw [abs_mul_abs_self, pow_two]
  have hle := hm.le_two (by norm_num)
  rw [e2, e3] at hm
  have hup : (p - q) ^ 2 ≤ 2 ^ (800 : ℤ) := by
    rw [← e3, ← hz]
    exact mul_le_mul h' h' (abs_nonneg _) (by positivity)
  have habs : |rnd (p - q) * rnd (p - q)| ≤ 2 ^ (1000 : ℤ) := by
    rw [abs_of_nonneg (mul_self_nonneg _), ← e2]
    refine hle.2.trans ?_
    rw [e3]
    have : (2 : ℚ) * 2 ^ (800 : ℤ) = 2 ^ (801 : ℤ) := by rw [show (801 : ℤ) = 800 + 1 by norm_num, zpow_add_one₀ (by norm_num)]; ring
    have h5 : (2 : ℚ) ^ (801 : ℤ) ≤ 2 ^ (1000 : ℤ) := zpow_le_zpow_right₀ (by norm_num) (by norm_num)
    exact (mul_le_mul_of_nonneg_left hup (by norm_num)).trans (this.le.trans h5)
  refine ⟨_, fin_mul hs hs (habs.trans (zpow_le_zpow_right₀ (by norm_num) (by norm_num))), ?_⟩
  refine Close.round (c := 2) hm ?_
  rcases h with h | h
  · rw [h, sub_self, rnd_zero, mul_zero, rnd_zero]; simp
  · refine rnd_rel ?_
    rw [abs_of_nonneg (mul_self_nonneg _), ← e2]
    refine le_trans ?_ hle.1
    have h6 : (2 : ℚ) ^ (-800 : ℤ) ≤ |p - q| * |p - q| := by
      rw [← hz']
      exact mul_le_mul h h (by positivity) (abs_nonneg _)
    have : (2 : ℚ) ^ (-801 : ℤ) = 2 ^ (-800 : ℤ) / 2 := by rw [show (-801 : ℤ) = -800 - 1 by norm_num, zpow_sub_one₀ (by norm_num)]; ring
    have h7 : (2 : ℚ) ^ (-1022 : ℤ) ≤ 2 ^ (-801 : ℤ) := zpow_le_zpow_right₀ (by norm_num) (by norm_num)
    rw [this] at h7
    exact h7.trans (div_le_div_of_nonneg_right h6 (by norm_num))

/-- **C59 in float64, accuracy.** On equally long arrays of up to 2^40 numbers whose differences are 0 or between 2^-400 and 2^400 in magnitude, `rmse` is the root mean square of the differences up to the
relative error (n + 6)/2^52, for any order of additions; in particular it is 0 exactly for equal arrays. -/
theorem C59_accurate64 (E : Ext (B64 σ)) (hA : Accurate E) (a b : List (B64 σ)) (u : List (ℚ × ℚ)) (h : Pairs a b u) (hne : u ≠ []) (hn : u.length ≤ 2 ^ 40)
    (hd : ∀ p ∈ u, (p.1 = p.2 ∨ 2 ^ (-400 : ℤ) ≤ |p.1 - p.2|) ∧ |p.1 - p.2| ≤ 2 ^ (400 : ℤ)) :
    ∃ (v : B64 σ) (r : ℚ), rmse E a b = .ok v ∧ ext v = .fin r ∧ |(r : ℝ) - rmsDiff u| ≤ rmsDiff u * ((u.length + 6) / 2 ^ 52) ∧ (r = 0 ↔ ∀ p ∈ u, p.1 = p.2) := by
  have hF := forall_zip (R := fun p v => ∃ r, ext v = .fin r ∧ Close 3 r ((p.1 - p.2) ^ 2)) (fun x y : B64 σ => (x - y) * (x - y)) u a b h
    (fun p hp x y hx hy => sq_close hx hy (hd p hp).1 (hd p hp).2)
  obtain ⟨hla, hlb⟩ := h.lengths
  have hlz : (List.zipWith (fun x y : B64 σ => (x - y) * (x - y)) a b).length = u.length := by rw [List.length_zipWith, hla, hlb, min_self]
  have hpos : 0 < u.length := List.length_pos_iff.2 hne
  have hnq : (u.length : ℚ) ≤ 2 ^ 40 := by exact_mod_cast hn
  have hp1 : (1 : ℚ) ≤ u.length := by exact_mod_cast hpos
  have hr : rmse E a b = .ok (E.sqrt (fsum (List.zipWith (fun x y : B64 σ => (x - y) * (x - y)) a b) / lit (u.length : ℚ))) := by
    unfold rmse broadcast2
    rw [if_pos (hla.trans hlb.symm), ← hlz]
    rfl
  have hz : (2 : ℚ) ^ (400 : ℤ) * 2 ^ (400 : ℤ) = 2 ^ (800 : ℤ) := by rw [← zpow_add₀ (by norm_num)]; norm_num
  have hz' : (2 : ℚ) ^ (-400 : ℤ) * 2 ^ (-400 : ℤ) = 2 ^ (-800 : ℤ) := by rw [← zpow_add₀ (by norm_num)]; norm_num
  have hb : ∀ c ∈ u.map (fun p => (p.1 - p.2) ^ 2), (c = 0 ∨ 2 ^ (-800 : ℤ) ≤ c) ∧ c ≤ 2 ^ (800 : ℤ) ∧ 0 ≤ c := by
    intro c hc
    obtain ⟨p, hp, rfl⟩ := List.mem_map.1 hc
    have e3 : |p.1 - p.2| * |p.1 - p.2| = (p.1 - p.2) ^ 2 := by rw [abs_mul_abs_self, pow_two]
    refine ⟨?_, ?_, sq_nonneg _⟩
    · rcases (hd p hp).1 with h0 | h0
      · left; rw [h0, sub_self]; norm_num
      · right
        rw [← e3, ← hz']
        exact mul_le_mul h0 h0 (by positivity) (abs_nonneg _)
    · rw [← e3, ← hz]
      exact mul_le_mul (hd p hp).2 (hd p hp).2 (abs_nonneg _) (by positivity)
  obtain ⟨s1, s2, s3⟩ := sum_bounds _ hb
  rw [List.length_map] at s2
  have hbig : (u.length : ℚ) * 2 ^ (800 : ℤ) ≤ 2 ^ (840 : ℤ) := by
    have : (2 : ℚ) ^ (840 : ℤ) = 2 ^ 40 * 2 ^ (800 : ℤ) := by rw [show (840 : ℤ) = 40 + 800 by norm_num, zpow_add₀ (by norm_num)]; norm_num
    rw [this]
    exact mul_le_mul_of_nonneg_right hnq (by positivity)
  have h1000 : (2 : ℚ) ^ (840 : ℤ) ≤ 2 ^ (1000 : ℤ) := zpow_le_zpow_right₀ (by norm_num) (by norm_num)
  have hsum : (u.map fun p : ℚ × ℚ => (p.1 - p.2) ^ 2).sum ≤ 2 ^ (1000 : ℤ) := (s2.trans hbig).trans h1000
  have hcnt : 3 + (List.zipWith (fun x y : B64 σ => (x - y) * (x - y)) a b).length ≤ 2 ^ 51 := by rw [hlz]; exact (Nat.add_le_add_left hn 3).trans (by norm_num)
  have hF' : List.Forall₂ (fun (x : B64 σ) (b : ℚ) => ∃ a, ext x = .fin a ∧ Close 3 a b) (List.zipWith (fun x y : B64 σ => (x - y) * (x - y)) a b) (u.map fun p => (p.1 - p.2) ^ 2) := by
    rw [List.forall₂_map_right_iff]
    exact hF
  obtain ⟨S, hS, hSc⟩ := fsum_close _ _ 3 hF' hsum hcnt
  rw [hlz] at hSc
  have hcount := Close.refl (show (0 : ℚ) ≤ u.length from Nat.cast_nonneg _)
  have hlo : (u.map fun p => (p.1 - p.2) ^ 2).sum = 0 ∨ (2 : ℚ) ^ (-1000 : ℤ) ≤ (u.map fun p => (p.1 - p.2) ^ 2).sum / u.length := by
    refine s1.imp id fun h0 => ?_
    rw [le_div_iff₀ (by linarith)]
    have h8 : (2 : ℚ) ^ (-1000 : ℤ) * u.length ≤ 2 ^ (-1000 : ℤ) * 2 ^ 40 := mul_le_mul_of_nonneg_left hnq (by positivity)
    have h9 : (2 : ℚ) ^ (-1000 : ℤ) * 2 ^ 40 = 2 ^ (-960 : ℤ) := by rw [show (-960 : ℤ) = -1000 + 40 by norm_num, zpow_add₀ (by norm_num)]; norm_num
    have h10 : (2 : ℚ) ^ (-960 : ℤ) ≤ 2 ^ (-800 : ℤ) := zpow_le_zpow_right₀ (by norm_num) (by norm_num)
    exact h8.trans (h9.le.trans (h10.trans h0))
  have hhi : (u.map fun p => (p.1 - p.2) ^ 2).sum / u.length ≤ (2 : ℚ) ^ (1000 : ℤ) :=
    (div_le_self s3 hp1).trans hsum
  obtain ⟨M, hM, hMc⟩ := div_close hS (natlit (σ := σ) (show u.length ≤ 2 ^ 53 from hn.trans (by norm_num))) hSc hcount (by linarith) (by rw [hlz] at hcnt; simpa using hcnt) hlo hhi
  obtain ⟨r, hre, hrr⟩ := hA.sqrt _ M hM hMc.pos
  have hcast : (((u.map fun p : ℚ × ℚ => (p.1 - p.2) ^ 2).sum : ℚ) : ℝ) = (u.map fun p => ((p.1 : ℝ) - p.2) ^ 2).sum := by
    rw [Rat.cast_list_sum, List.map_map]
    exact congrArg List.sum (List.map_congr_left fun p _ => by simp)
  refine ⟨_, r, hr, hre, ?_, ?_⟩
  · have hu : ((unit : ℚ) : ℝ) = 1 / 2 ^ 53 := by unfold unit; push_cast; norm_num
    have hMR : |(M : ℝ) - (u.map fun p => ((p.1 : ℝ) - p.2) ^ 2).sum / u.length| ≤ (u.map fun p => ((p.1 : ℝ) - p.2) ^ 2).sum / u.length * ((u.length + 4) / 2 ^ 52) := by
      have h1 := hMc.error (by rw [hlz] at hcnt; omega)
      have h2 : ((|M - (u.map fun p : ℚ × ℚ => (p.1 - p.2) ^ 2).sum / u.length| : ℚ) : ℝ) ≤ (((u.map fun p : ℚ × ℚ => (p.1 - p.2) ^ 2).sum / u.length * (2 * ((3 + u.length + 2 * 0 + 1 : ℕ) : ℚ) * unit) : ℚ) : ℝ) := by
        exact_mod_cast h1
      rw [Rat.cast_abs, Rat.cast_sub, Rat.cast_mul, Rat.cast_div, Rat.cast_natCast, hcast, Rat.cast_mul, hu] at h2
      refine h2.trans (le_of_eq ?_)
      push_cast
      ring
    have hX : (0 : ℝ) ≤ (u.map fun p => ((p.1 : ℝ) - p.2) ^ 2).sum / u.length := by
      rw [← hcast]
      exact div_nonneg (by exact_mod_cast s3) (Nat.cast_nonneg _)
    have hn1 : (u.length : ℝ) ≤ 2 ^ 40 := by exact_mod_cast hn
    unfold rmsDiff
    generalize (u.map fun p => ((p.1 : ℝ) - p.2) ^ 2).sum / (u.length : ℝ) = X at *
    have hM0 : (0 : ℝ) ≤ M := by exact_mod_cast hMc.pos
    have h2 : |Real.sqrt M - Real.sqrt X| ≤ Real.sqrt X * ((u.length + 4) / 2 ^ 52) := by
      rcases hX.eq_or_lt with h0 | h0
      · rw [← h0, zero_mul, sub_zero] at hMR
        rw [← h0, abs_nonpos_iff.1 hMR]
        simp
      · have hs : 0 < Real.sqrt X := Real.sqrt_pos.2 h0
        have e : Real.sqrt M - Real.sqrt X = (M - X) / (Real.sqrt M + Real.sqrt X) := by
          rw [eq_div_iff (by positivity)]
          nlinarith [Real.sq_sqrt hM0, Real.sq_sqrt hX]
        rw [e, abs_div, abs_of_pos (show 0 < Real.sqrt M + Real.sqrt X by positivity), div_le_iff₀ (by positivity)]
        refine hMR.trans ?_
        have h3 : X ≤ Real.sqrt X * (Real.sqrt M + Real.sqrt X) := by
          have := mul_nonneg hs.le (Real.sqrt_nonneg M)
          nlinarith [Real.sq_sqrt hX]
        have h4 : (0 : ℝ) ≤ (u.length + 4) / 2 ^ 52 := by positivity
        have := mul_le_mul_of_nonneg_right h3 h4
        linarith
    have hrr' : |(r : ℝ) - Real.sqrt M| ≤ Real.sqrt M * (1 / 2 ^ 52) := by rw [mul_one_div]; exact hrr
    refine (rel_trans hrr' h2 (by positivity)).trans (mul_le_mul_of_nonneg_left ?_ (Real.sqrt_nonneg _))
    have : ((u.length : ℝ) + 4) / 2 ^ 52 ≤ 1 := by
      rw [div_le_one (by positivity)]
      have h7 : (2 : ℝ) ^ 40 + 4 ≤ 2 ^ 52 := by norm_num
      exact le_trans (by linarith) h7
    have h5 : ((u.length : ℝ) + 6) / 2 ^ 52 = (u.length + 4) / 2 ^ 52 + 1 / 2 ^ 52 * 2 := by ring
    rw [h5]
    have h6 : (1 : ℝ) / 2 ^ 52 * (1 + (u.length + 4) / 2 ^ 52) ≤ 1 / 2 ^ 52 * 2 := mul_le_mul_of_nonneg_left (by linarith) (by positivity)
    linarith
  · have h1 : r = 0 ↔ M = 0 := by
      constructor
      · intro h0
        rw [h0, Rat.cast_zero, zero_sub, abs_neg, abs_of_nonneg (Real.sqrt_nonneg _)] at hrr
        have h2 : Real.sqrt (M : ℝ) = 0 := by
          have h3 := Real.sqrt_nonneg (M : ℝ)
          have h4 : Real.sqrt (M : ℝ) / 2 ^ 52 ≤ Real.sqrt (M : ℝ) / 2 := div_le_div_of_nonneg_left h3 (by norm_num) (by norm_num)
          linarith
        have := (Real.sqrt_eq_zero (by exact_mod_cast hMc.pos)).1 h2
        exact_mod_cast this
      · intro h0
        rw [h0, Rat.cast_zero, Real.sqrt_zero, zero_div, sub_zero] at hrr
        exact_mod_cast abs_nonpos_iff.1 hrr
    rw [h1, hMc.eq_zero, div_eq_zero_iff, or_iff_left (by linarith)]
    constructor
    · intro h0 p hp
      have h2 : (p.1 - p.2) ^ 2 = 0 := by
        refine le_antisymm ?_ (sq_nonneg _)
        rw [← h0]
        exact List.single_le_sum (fun c hc => (hb c hc).2.2) _ (List.mem_map_of_mem hp)
      have := pow_eq_zero_iff (two_ne_zero) |>.1 h2
      linarith
    · intro h0
      refine List.sum_eq_zero fun c hc => ?_
      obtain ⟨p, hp, rfl⟩ := List.mem_map.1 hc
      rw [h0 p hp, sub_self]
      norm_num

/-! ## Small differences -/

theorem rnd_tiny {q : ℚ} (h0 : 0 ≤ q) (h : q ≤ 1 / 2 ^ 1075) : rnd q = 0 := by
  have h1 : rnd (1 / 2 ^ 1075) = 0 := by decide +kernel
  exact le_antisymm (h1 ▸ rnd_mono h) (rnd_nonneg h0)

/-- **Equal to zero for different arrays.** In float64 the squares of small differences are rounded to 0: whenever no difference exceeds 2^-538, `rmse` is 0 although the arrays may differ. -/
theorem C59_small_fails (E : Ext (B64 σ)) (hA : Accurate E) (a b : List (B64 σ)) (u : List (ℚ × ℚ)) (h : Pairs a b u) (hne : u ≠ []) (hn : u.length ≤ 2 ^ 40)
    (hd : ∀ p ∈ u, |p.1 - p.2| ≤ 1 / 2 ^ 538) : ∃ v : B64 σ, rmse E a b = .ok v ∧ ext v = .fin 0 := by
  obtain ⟨hla, hlb⟩ := h.lengths
  have hlz : (List.zipWith (fun x y : B64 σ => (x - y) * (x - y)) a b).length = u.length := by rw [List.length_zipWith, hla, hlb, min_self]
  have hr : rmse E a b = .ok (E.sqrt (fsum (List.zipWith (fun x y : B64 σ => (x - y) * (x - y)) a b) / lit (u.length : ℚ))) := by
    unfold rmse broadcast2
    rw [if_pos (hla.trans hlb.symm), ← hlz]
    rfl
  have hbound : (1 : ℚ) / 2 ^ 538 ≤ 2 ^ (1023 : ℤ) := by
    refine le_trans (b := 1) ?_ (one_le_zpow₀ (by norm_num) (by norm_num))
    rw [div_le_one (by positivity)]
    exact one_le_pow₀ (by norm_num)
  have hF := forall_zip (R := fun p v => ext v = .fin 0) (fun x y : B64 σ => (x - y) * (x - y)) u a b h (by
    intro p hp x y hx hy
    have h1 := hd p hp
    have hs := fin_sub hx hy (h1.trans hbound)
    have h2 : |rnd (p.1 - p.2)| ≤ 1 / 2 ^ 538 := by
      have e : rnd (1 / 2 ^ 538) = 1 / 2 ^ 538 := by decide +kernel
      rw [abs_le] at h1 ⊢
      constructor
      · have := rnd_mono h1.1
        rwa [rnd_neg, e] at this
      · have := rnd_mono h1.2
        rwa [e] at this
    have h3 : rnd (p.1 - p.2) * rnd (p.1 - p.2) ≤ 1 / 2 ^ 1075 := by
      rw [← abs_mul_abs_self]
      refine (mul_le_mul h2 h2 (abs_nonneg _) (by positivity)).trans ?_
      rw [one_div_mul_one_div, ← pow_add]
      exact one_div_le_one_div_of_le (by positivity) (pow_le_pow_right₀ (by norm_num) (by norm_num))
    have h4 : |rnd (p.1 - p.2) * rnd (p.1 - p.2)| ≤ 2 ^ (1023 : ℤ) := by
      rw [abs_of_nonneg (mul_self_nonneg _)]
      refine h3.trans (le_trans (b := 1) ?_ (one_le_zpow₀ (by norm_num) (by norm_num)))
      rw [div_le_one (by positivity)]
      exact one_le_pow₀ (by norm_num)
    have h5 := fin_mul hs hs h4
    rwa [rnd_tiny (mul_self_nonneg _) h3] at h5)
  have hF' : List.Forall₂ (fun (x : B64 σ) (b : ℚ) => ∃ a, ext x = .fin a ∧ Close 0 a b) (List.zipWith (fun x y : B64 σ => (x - y) * (x - y)) a b) (u.map fun _ => 0) := by
    rw [List.forall₂_map_right_iff]
    exact hF.imp fun _ _ h => ⟨0, h, Close.refl le_rfl⟩
  have hs0 : (u.map fun _ => (0 : ℚ)).sum = 0 := List.sum_eq_zero (by simp)
  have hcnt : 0 + (List.zipWith (fun x y : B64 σ => (x - y) * (x - y)) a b).length ≤ 2 ^ 51 := by rw [hlz, zero_add]; exact hn.trans (by norm_num)
  obtain ⟨S, hS, hSc⟩ := fsum_close _ _ 0 hF' (by rw [hs0]; positivity) hcnt
  rw [hs0] at hSc
  rw [hSc.eq_zero.2 rfl] at hS
  have hpos : (u.length : ℚ) ≠ 0 := by
    have := List.length_pos_iff.2 hne
    positivity
  have hM := fin_div hS (natlit (σ := σ) (show u.length ≤ 2 ^ 53 from hn.trans (by norm_num))) hpos (by rw [zero_div, abs_zero]; positivity)
  rw [zero_div, rnd_zero] at hM
  obtain ⟨r, hre, hrr⟩ := hA.sqrt _ 0 hM le_rfl
  rw [Rat.cast_zero, Real.sqrt_zero, zero_div, sub_zero] at hrr
  have : r = 0 := by exact_mod_cast abs_nonpos_iff.1 hrr
  rw [this] at hre
  exact ⟨_, hr, hre⟩

/-- (1, 5) and (4, 1) meet the hypotheses of `C59_accurate64`; the exact value is the root of 25/2 -/
example : Pairs ([lit 1, lit 5] : List (B64 leftToRight)) [lit 4, lit 1] [(1, 4), (5, 1)] ∧
    (∀ p ∈ ([(1, 4), (5, 1)] : List (ℚ × ℚ)), (p.1 = p.2 ∨ 2 ^ (-400 : ℤ) ≤ |p.1 - p.2|) ∧ |p.1 - p.2| ≤ 2 ^ (400 : ℤ)) ∧
    rmsDiff [(1, 4), (5, 1)] = Real.sqrt (25 / 2) ∧ Accurate nearExt := by
  refine ⟨by unfold Pairs; decide +kernel, ?_, ?_, nearExt_accurate⟩
  · decide +kernel
  · norm_num [rmsDiff]

/-- 0 and 2^-540 are different numbers, but their distance is computed as 0 -/
example : ∃ v : B64 leftToRight, rmse nearExt [lit 0] [lit (1 / 2 ^ 540)] = .ok v ∧ ext v = .fin 0 :=
  C59_small_fails nearExt nearExt_accurate _ _ [(0, 1 / 2 ^ 540)] (by unfold Pairs; decide +kernel) (by simp) (by norm_num) (by decide +kernel)

end CI.Props
