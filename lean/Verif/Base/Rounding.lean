import Mathlib.Algebra.Order.Floor.Ring
import Mathlib.Algebra.Order.Archimedean.Basic
import Mathlib.Data.Rat.Floor
import Mathlib.Algebra.Order.Field.Power
import Mathlib.Algebra.Order.Ring.Rat
import Mathlib.Tactic.Linarith
import Mathlib.Tactic.NormNum
import Mathlib.Tactic.Positivity
import Mathlib.Tactic.Ring
import Mathlib.Tactic.FieldSimp

/-!
# Rounding of rational numbers to IEEE-754 binary64 (round to nearest, ties to even)

53 significant bits, smallest unit 2^-1074. The bound 2^1024 of the exponent is treated in `Base/Binary64`.
-/

namespace CI.Round

/-- `2 ^ k`, computed with natural numbers only -/
def pow2 : ℤ → ℚ
  | .ofNat n => ((2 ^ n : ℕ) : ℚ)
  | .negSucc n => mkRat 1 (2 ^ (n + 1))

theorem pow2_eq (k : ℤ) : pow2 k = 2 ^ k := by
  cases k with
  | ofNat n => simp [pow2]
  | negSucc n =>
    simp only [pow2, zpow_negSucc]
    rw [Rat.mkRat_eq_div]
    push_cast
    rw [one_div]

theorem pow2_pos (k : ℤ) : 0 < pow2 k := by rw [pow2_eq]; positivity

/-- the exponent of the leading bit of a positive number -/
def ilog (q : ℚ) : ℤ :=
  let k : ℤ := (Nat.log2 q.num.natAbs : ℤ) - (Nat.log2 q.den : ℤ)
  if pow2 k ≤ q then k else k - 1

theorem log2_le (n : ℕ) (h : n ≠ 0) : (2 : ℚ) ^ (Nat.log2 n : ℤ) ≤ n := by
  rw [zpow_natCast]
  exact_mod_cast Nat.log2_self_le h

theorem lt_log2 (n : ℕ) : (n : ℚ) < 2 ^ ((Nat.log2 n : ℤ) + 1) := by
  rw [show (Nat.log2 n : ℤ) + 1 = ((Nat.log2 n + 1 : ℕ) : ℤ) by push_cast; rfl, zpow_natCast]
  exact_mod_cast Nat.lt_log2_self

/-- the leading bit -/
theorem ilog_spec (q : ℚ) (h : 0 < q) : (2 : ℚ) ^ ilog q ≤ q ∧ q < 2 ^ (ilog q + 1) := by
  have hn : 0 < q.num := Rat.num_pos.2 h
  have hna : ((q.num.natAbs : ℕ) : ℚ) = q.num := by
    have : ((q.num.natAbs : ℕ) : ℤ) = q.num := Int.natAbs_of_nonneg hn.le
    rw [← Int.cast_natCast, this]
  have hd : (0 : ℚ) < q.den := by exact_mod_cast q.den_pos
  have hq : q = q.num / q.den := (Rat.num_div_den q).symm
  have a1 := log2_le q.num.natAbs (by omega)
  have a2 := lt_log2 q.num.natAbs
  have b1 := log2_le q.den (by have := q.den_pos; omega)
  have b2 := lt_log2 q.den
  rw [hna] at a1 a2
  unfold ilog
  dsimp only
  rw [pow2_eq]
  generalize (Nat.log2 q.num.natAbs : ℤ) = a at *
  generalize (Nat.log2 q.den : ℤ) = b at *
  have l1 : (2 : ℚ) ^ (a - b - 1) ≤ q := by
    rw [show a - b - 1 = a - (b + 1) by ring, zpow_sub₀ (by norm_num), div_le_iff₀ (by positivity)]
    calc (2 : ℚ) ^ a ≤ q.num := a1
      _ = q * q.den := by rw [Rat.mul_den_eq_num]
      _ ≤ q * 2 ^ (b + 1) := mul_le_mul_of_nonneg_left b2.le h.le
  have l2 : q < 2 ^ (a - b + 1) := by
    rw [show a - b + 1 = a + 1 - b by ring, zpow_sub₀ (by norm_num), lt_div_iff₀ (by positivity)]
    calc q * 2 ^ b ≤ q * q.den := mul_le_mul_of_nonneg_left b1 h.le
      _ = q.num := by rw [Rat.mul_den_eq_num]
      _ < 2 ^ (a + 1) := a2
  by_cases hc : (2 : ℚ) ^ (a - b) ≤ q
  · rw [if_pos hc]
    exact ⟨hc, l2⟩
  · rw [if_neg hc, sub_add_cancel]
    exact ⟨l1, not_le.1 hc⟩

/-- round to the nearest integer, ties to even -/
def rhe (x : ℚ) : ℤ :=
  let f := ⌊x⌋
  if x - f < 1 / 2 then f else if 1 / 2 < x - f then f + 1 else if f % 2 = 0 then f else f + 1

theorem rhe_bounds (x : ℚ) : ⌊x⌋ ≤ rhe x ∧ rhe x ≤ ⌊x⌋ + 1 := by
  unfold rhe
  dsimp only
  split
  · omega
  · split
    · omega
    · split <;> omega

theorem rhe_mono {x y : ℚ} (h : x ≤ y) : rhe x ≤ rhe y := by
  have hf : ⌊x⌋ ≤ ⌊y⌋ := Int.floor_mono h
  rcases hf.lt_or_eq with hf | hf
  · have := (rhe_bounds x).2
    have := (rhe_bounds y).1
    omega
  · unfold rhe
    dsimp only
    rw [hf]
    by_cases h1 : x - ⌊y⌋ < 1 / 2
    · rw [if_pos h1]
      exact (rhe_bounds y).1
    · rw [if_neg h1, if_neg (show ¬ y - ⌊y⌋ < 1 / 2 by linarith)]
      by_cases h2 : 1 / 2 < x - ⌊y⌋
      · rw [if_pos h2, if_pos (show 1 / 2 < y - ⌊y⌋ by linarith)]
      · rw [if_neg h2]
        split <;> split <;> omega

theorem rhe_int (n : ℤ) : rhe n = n := by
  unfold rhe
  dsimp only
  rw [Int.floor_intCast, sub_self, if_pos (by norm_num)]

theorem rhe_near (x : ℚ) : |(rhe x : ℚ) - x| ≤ 1 / 2 := by
  have h1 := Int.floor_le x
  have h2 := Int.lt_floor_add_one x
  rw [abs_le]
  unfold rhe
  dsimp only
  split
  · constructor <;> linarith
  · split
    · push_cast; constructor <;> linarith
    · split
      · constructor <;> linarith
      · push_cast; constructor <;> linarith

/-- the exponent of the unit in the last place of a positive number -/
def ulpExp (q : ℚ) : ℤ := max (ilog q - 52) (-1074)

/-- rounding of a number that is not negative -/
def rndPos (q : ℚ) : ℚ := if q ≤ 0 then 0 else rhe (q / pow2 (ulpExp q)) * pow2 (ulpExp q)

theorem ilog_mono {x y : ℚ} (hx : 0 < x) (h : x ≤ y) : ilog x ≤ ilog y := by
  have h1 := (ilog_spec x hx).1
  have h2 := (ilog_spec y (hx.trans_le h)).2
  have : (2 : ℚ) ^ ilog x < 2 ^ (ilog y + 1) := lt_of_le_of_lt (h1.trans h) h2
  rw [zpow_lt_zpow_iff_right₀ (by norm_num)] at this
  omega

/-- a multiple of the unit above a number stays above -/
theorem rndPos_le {q : ℚ} (hq : 0 < q) (n : ℤ) (h : q ≤ n * 2 ^ ulpExp q) : rndPos q ≤ n * 2 ^ ulpExp q := by
  unfold rndPos
  rw [if_neg (not_le.2 hq), pow2_eq]
  have hp : (0 : ℚ) < 2 ^ ulpExp q := by positivity
  refine mul_le_mul_of_nonneg_right ?_ hp.le
  have : q / 2 ^ ulpExp q ≤ n := by rw [div_le_iff₀ hp]; exact h
  have h2 := rhe_mono this
  rw [rhe_int] at h2
  exact_mod_cast h2

theorem le_rndPos {q : ℚ} (hq : 0 < q) (n : ℤ) (h : n * 2 ^ ulpExp q ≤ q) : n * 2 ^ ulpExp q ≤ rndPos q := by
  unfold rndPos
  rw [if_neg (not_le.2 hq), pow2_eq]
  have hp : (0 : ℚ) < 2 ^ ulpExp q := by positivity
  refine mul_le_mul_of_nonneg_right ?_ hp.le
  have : n ≤ q / 2 ^ ulpExp q := by rw [le_div_iff₀ hp]; exact h
  have h2 := rhe_mono this
  rw [rhe_int] at h2
  exact_mod_cast h2

theorem rndPos_nonneg (q : ℚ) : 0 ≤ rndPos q := by
  by_cases hq : q ≤ 0
  · rw [rndPos, if_pos hq]
  · have := le_rndPos (not_le.1 hq) 0 (by simpa using (not_le.1 hq).le)
    simpa using this

theorem two_zpow_nat (k : ℤ) (h : 0 ≤ k) : (2 : ℚ) ^ k = ((2 ^ k.toNat : ℤ) : ℚ) := by
  obtain ⟨n, rfl⟩ := Int.eq_ofNat_of_zero_le h
  push_cast
  rw [zpow_natCast, Int.toNat_natCast]

theorem rndPos_mono {x y : ℚ} (h : x ≤ y) : rndPos x ≤ rndPos y := by
  by_cases hx : x ≤ 0
  · rw [show rndPos x = 0 by rw [rndPos, if_pos hx]]
    exact rndPos_nonneg y
  have hx := not_le.1 hx
  have hy := hx.trans_le h
  have hl := ilog_mono hx h
  have hk : ulpExp x ≤ ulpExp y := max_le_max (by omega) le_rfl
  rcases hk.lt_or_eq with hk | hk
  · have e : ulpExp y = ilog y - 52 := by
      unfold ulpExp at hk ⊢
      omega
    have e2 : ilog x - 52 ≤ ulpExp x := le_max_left _ _
    have hlt : x ≤ 2 ^ ilog y := by
      refine (ilog_spec x hx).2.le.trans ?_
      exact zpow_le_zpow_right₀ (by norm_num) (by omega)
    have hsplit : ∀ k : ℤ, (2 : ℚ) ^ ilog y = 2 ^ (ilog y - k) * 2 ^ k := by
      intro k
      rw [← zpow_add₀ (by norm_num)]
      congr 1
      ring
    have h1 : rndPos x ≤ 2 ^ ilog y := by
      rw [hsplit (ulpExp x), two_zpow_nat (ilog y - ulpExp x) (by omega)] at hlt ⊢
      exact rndPos_le hx _ hlt
    have h2 : 2 ^ ilog y ≤ rndPos y := by
      have := (ilog_spec y hy).1
      rw [hsplit (ulpExp y), two_zpow_nat (ilog y - ulpExp y) (by omega)] at this ⊢
      exact le_rndPos hy _ this
    exact h1.trans h2
  · unfold rndPos
    rw [if_neg (not_le.2 hx), if_neg (not_le.2 hy), hk, pow2_eq]
    have hp : (0 : ℚ) < 2 ^ ulpExp y := by positivity
    refine mul_le_mul_of_nonneg_right ?_ hp.le
    exact_mod_cast rhe_mono (div_le_div_of_nonneg_right h hp.le)

/-- numbers with at most 53 bits are not changed -/
theorem rndPos_exact (m : ℕ) (k : ℤ) (hm : m ≤ 2 ^ 53) (hk : -1074 ≤ k) : rndPos (m * 2 ^ k) = m * 2 ^ k := by
  have hpk : (0 : ℚ) < 2 ^ k := by positivity
  by_cases h0 : m = 0
  · subst h0
    simp [rndPos]
  have hm0 : (0 : ℚ) < m := by exact_mod_cast Nat.pos_of_ne_zero h0
  have hv : (0 : ℚ) < m * 2 ^ k := by positivity
  have hs := ilog_spec _ hv
  have hint : ∃ n : ℤ, (m : ℚ) * 2 ^ k = n * 2 ^ ulpExp (m * 2 ^ k) := by
    rcases Nat.lt_or_eq_of_le hm with hm | hm
    · have h1 : (m : ℚ) * 2 ^ k < 2 ^ (53 + k) := by
        rw [zpow_add₀ (by norm_num)]
        refine mul_lt_mul_of_pos_right ?_ hpk
        exact_mod_cast hm
      have h2 := lt_of_le_of_lt hs.1 h1
      rw [zpow_lt_zpow_iff_right₀ (by norm_num)] at h2
      have h3 : ulpExp (m * 2 ^ k) ≤ k := max_le (by omega) hk
      refine ⟨m * (2 ^ (k - ulpExp (m * 2 ^ k)).toNat : ℤ), ?_⟩
      rw [Int.cast_mul, ← two_zpow_nat _ (by omega), mul_assoc, ← zpow_add₀ (by norm_num)]
      push_cast
      congr 2
      ring
    · have hval : (m : ℚ) * 2 ^ k = 2 ^ (53 + k) := by
        rw [zpow_add₀ (by norm_num), hm]
        norm_num
      have hlog : ilog (m * 2 ^ k) = 53 + k := by
        rw [hval] at hs ⊢
        have h1 := hs.1
        have h2 := hs.2
        rw [zpow_le_zpow_iff_right₀ (by norm_num)] at h1
        rw [zpow_lt_zpow_iff_right₀ (by norm_num)] at h2
        omega
      have hu : ulpExp (m * 2 ^ k) = k + 1 := by
        unfold ulpExp
        rw [hlog]
        omega
      refine ⟨2 ^ 52, ?_⟩
      rw [hu, hval, zpow_add₀ (by norm_num), zpow_add₀ (by norm_num)]
      norm_num
      ring
  obtain ⟨n, hn⟩ := hint
  have h1 := rndPos_le hv n hn.le
  have h2 := le_rndPos hv n hn.ge
  rw [← hn] at h1 h2
  exact le_antisymm h1 h2

theorem rndPos_form (q : ℚ) : ∃ (m : ℕ) (k : ℤ), m ≤ 2 ^ 53 ∧ -1074 ≤ k ∧ rndPos q = m * 2 ^ k := by
  by_cases hq : q ≤ 0
  · exact ⟨0, 0, by norm_num, by norm_num, by rw [rndPos, if_pos hq]; simp⟩
  have hq := not_le.1 hq
  have h0 : 0 ≤ rhe (q / 2 ^ ulpExp q) := by
    have : ((0 : ℤ) : ℚ) ≤ q / 2 ^ ulpExp q := by rw [Int.cast_zero]; positivity
    have := rhe_mono this
    rwa [rhe_int] at this
  have h1 : rhe (q / 2 ^ ulpExp q) ≤ 2 ^ 53 := by
    have : q / 2 ^ ulpExp q ≤ ((2 ^ 53 : ℤ) : ℚ) := by
      rw [div_le_iff₀ (by positivity)]
      refine (ilog_spec q hq).2.le.trans ?_
      rw [show ((2 ^ 53 : ℤ) : ℚ) = 2 ^ (53 : ℤ) by norm_num, ← zpow_add₀ (by norm_num)]
      refine zpow_le_zpow_right₀ (by norm_num) ?_
      have : ilog q - 52 ≤ ulpExp q := le_max_left _ _
      omega
    have := rhe_mono this
    rwa [rhe_int] at this
  refine ⟨(rhe (q / 2 ^ ulpExp q)).toNat, ulpExp q, by omega, le_max_right _ _, ?_⟩
  rw [rndPos, if_neg (not_le.2 hq), pow2_eq]
  congr 1
  have : (((rhe (q / 2 ^ ulpExp q)).toNat : ℤ) : ℚ) = rhe (q / 2 ^ ulpExp q) := by rw [Int.toNat_of_nonneg h0]
  rw [← this, Int.cast_natCast]

theorem rndPos_rndPos (q : ℚ) : rndPos (rndPos q) = rndPos q := by
  obtain ⟨m, k, hm, hk, h⟩ := rndPos_form q
  rw [h, rndPos_exact m k hm hk]

/-- the relative error is at most 2^-53 above 2^-1022 -/
theorem rndPos_rel {q : ℚ} (hq : (2 : ℚ) ^ (-1022 : ℤ) ≤ q) : |rndPos q - q| ≤ q * 2 ^ (-53 : ℤ) := by
  have h0 : 0 < q := lt_of_lt_of_le (by positivity) hq
  have hs := ilog_spec q h0
  have hl : -1022 ≤ ilog q := by
    have := lt_of_le_of_lt hq hs.2
    rw [zpow_lt_zpow_iff_right₀ (by norm_num)] at this
    omega
  have hu : ulpExp q = ilog q - 52 := by unfold ulpExp; omega
  have hp : (0 : ℚ) < 2 ^ ulpExp q := by positivity
  have h1 := rhe_near (q / 2 ^ ulpExp q)
  rw [rndPos, if_neg (not_le.2 h0), pow2_eq]
  have e : (rhe (q / 2 ^ ulpExp q) : ℚ) * 2 ^ ulpExp q - q = (rhe (q / 2 ^ ulpExp q) - q / 2 ^ ulpExp q) * 2 ^ ulpExp q := by
    rw [sub_mul, div_mul_cancel₀ _ hp.ne']
  rw [e, abs_mul, abs_of_pos hp]
  calc |(rhe (q / 2 ^ ulpExp q) : ℚ) - q / 2 ^ ulpExp q| * 2 ^ ulpExp q ≤ 1 / 2 * 2 ^ ulpExp q := mul_le_mul_of_nonneg_right h1 hp.le
    _ = 2 ^ ilog q * 2 ^ (-53 : ℤ) := by
      rw [hu, show (ilog q - 52 : ℤ) = ilog q + (-52) by ring, zpow_add₀ (by norm_num)]
      norm_num
      ring
    _ ≤ q * 2 ^ (-53 : ℤ) := mul_le_mul_of_nonneg_right hs.1 (by positivity)

end CI.Round
