import Verif.Lemmas.Soil64
import Verif.Lemmas.PalmerBalance
import Mathlib.Algebra.Order.Group.MinMax
import Mathlib.Algebra.Order.Floor.Ring
import Mathlib.Data.Rat.Floor

/-!
# One month of the water balance: binary64 against exact arithmetic
-/

namespace CI.B64
open Round
variable {σ : SumOrder}

theorem rnd_grid (k : ℤ) (h : |k| ≤ 2 ^ 53) : rnd ((k : ℚ) * 2 ^ (-1074 : ℤ)) = k * 2 ^ (-1074 : ℤ) := by
  have hp : (0 : ℚ) < 2 ^ (-1074 : ℤ) := zpow_pos (by norm_num) _
  have key : ∀ j : ℕ, j ≤ 2 ^ 53 → rnd ((j : ℚ) * 2 ^ (-1074 : ℤ)) = j * 2 ^ (-1074 : ℤ) := by
    intro j hj
    rw [rnd_of_nonneg (mul_nonneg (Nat.cast_nonneg j) hp.le)]
    exact rndPos_exact j (-1074) hj le_rfl
  obtain ⟨j, rfl | rfl⟩ := Int.eq_nat_or_neg k
  · have := key j (by rw [abs_of_nonneg (by omega)] at h; omega)
    simpa using this
  · have h3 : j ≤ 2 ^ 53 := by rw [abs_neg, abs_of_nonneg (by omega)] at h; omega
    rw [Int.cast_neg, Int.cast_natCast, neg_mul, rnd_neg, key j h3]

/-- the error of rounding, for all numbers -/
theorem rnd_abs (q : ℚ) : |rnd q - q| ≤ |q| * unit + 2 ^ (-1074 : ℤ) := by
  have hp : (0 : ℚ) < 2 ^ (-1074 : ℤ) := zpow_pos (by norm_num) _
  by_cases h : (2 : ℚ) ^ (-1022 : ℤ) ≤ |q|
  · exact (rnd_rel h).trans (by linarith)
  · have h := not_le.1 h
    have e2 : (2 : ℚ) ^ (-1022 : ℤ) = 2 ^ (52 : ℕ) * 2 ^ (-1074 : ℤ) := by
      rw [← zpow_natCast, ← zpow_add₀ (by norm_num)]; norm_num
    rw [e2] at h
    have hu : 0 ≤ |q| * unit := mul_nonneg (abs_nonneg _) unit_pos.le
    generalize ht : (2 : ℚ) ^ (-1074 : ℤ) = t at *
    set n := ⌊q / t⌋ with hn
    have h1 : (n : ℚ) * t ≤ q := by rw [← le_div_iff₀ hp]; exact Int.floor_le _
    have h2 : q < ((n + 1 : ℤ) : ℚ) * t := by
      rw [← div_lt_iff₀ hp]; push_cast; exact Int.lt_floor_add_one _
    have h3 := abs_lt.1 h
    have h4 : n < 2 ^ 52 := by
      have : (n : ℚ) * t < 2 ^ 52 * t := by linarith
      have := lt_of_mul_lt_mul_right this hp.le
      exact_mod_cast this
    have h5 : -2 ^ 52 < n + 1 := by
      have : (-(2 ^ 52) : ℚ) * t < ((n + 1 : ℤ) : ℚ) * t := by linarith
      have := lt_of_mul_lt_mul_right this hp.le
      exact_mod_cast this
    have g1 := rnd_grid n (by rw [abs_le]; constructor <;> omega)
    have g2 := rnd_grid (n + 1) (by rw [abs_le]; constructor <;> omega)
    rw [ht] at g1 g2
    have m1 := rnd_mono h1
    have m2 := rnd_mono h2.le
    rw [g1] at m1
    rw [g2] at m2
    push_cast at m2 h2
    rw [abs_le]
    constructor <;> linarith

/-- bound for the error of one operation on numbers up to `B` -/
def opErr (B : ℚ) : ℚ := 4 * B * unit

theorem tiny_le : (2 : ℚ) ^ (-1074 : ℤ) * 10 ^ 6 ≤ unit := by
  have h1 : (2 : ℚ) ^ (-1074 : ℤ) ≤ 2 ^ (-80 : ℤ) := zpow_le_zpow_right₀ (by norm_num) (by norm_num)
  have h2 : (2 : ℚ) ^ (-80 : ℤ) * 10 ^ 6 ≤ unit := by unfold unit; norm_num
  linarith

theorem rnd_off {B q : ℚ} (hB : 1 ≤ B) (h : |q| ≤ 3 * B) : q - opErr B ≤ rnd q ∧ rnd q ≤ q + opErr B := by
  have h1 := rnd_abs q
  have hp : (0 : ℚ) < 2 ^ (-1074 : ℤ) := zpow_pos (by norm_num) _
  have h2 := tiny_le
  generalize (2 : ℚ) ^ (-1074 : ℤ) = t at *
  have hU := unit_pos
  have h3 : |q| * unit ≤ 3 * B * unit := mul_le_mul_of_nonneg_right h hU.le
  have h4 : 1 * unit ≤ B * unit := mul_le_mul_of_nonneg_right hB hU.le
  have h5 := abs_le.1 h1
  unfold opErr
  constructor <;> linarith

/-- the limits under which the drift is bounded -/
structure Limits (B : ℚ) : Prop where
  one : 1 ≤ B
  top : B ≤ 10 ^ 12

theorem Limits.pos {B : ℚ} (h : Limits B) : 0 < opErr B := by unfold opErr; have := h.one; have := unit_pos; positivity

theorem Limits.small {B : ℚ} (h : Limits B) : opErr B ≤ 1 / 1000 := by
  unfold opErr
  have h1 : 4 * B * unit ≤ 4 * 10 ^ 12 * unit := mul_le_mul_of_nonneg_right (by linarith [h.top]) unit_pos.le
  have h2 : 4 * 10 ^ 12 * unit ≤ 1 / 1000 := by unfold unit; norm_num
  linarith

theorem lim12 {B q : ℚ} (hB : Limits B) (h : |q| ≤ 3 * B) : |q| ≤ 2 ^ (1023 : ℤ) := by
  have h2 := hB.top
  have h3 : |q| ≤ 2 ^ (60 : ℕ) := by
    have : (3 : ℚ) * 10 ^ 12 ≤ 2 ^ (60 : ℕ) := by norm_num
    linarith
  refine h3.trans ?_
  rw [← zpow_natCast]; exact zpow_le_zpow_right₀ (by norm_num) (by norm_num)

theorem off_add {B : ℚ} (hB : Limits B) {x y : B64 σ} {a b : ℚ} (hx : ext x = .fin a) (hy : ext y = .fin b) (h : |a + b| ≤ 3 * B) :
    ∃ c, ext (x + y) = .fin c ∧ a + b - opErr B ≤ c ∧ c ≤ a + b + opErr B :=
  ⟨_, fin_add hx hy (lim12 hB h), rnd_off hB.one h⟩

theorem off_sub {B : ℚ} (hB : Limits B) {x y : B64 σ} {a b : ℚ} (hx : ext x = .fin a) (hy : ext y = .fin b) (h : |a - b| ≤ 3 * B) :
    ∃ c, ext (x - y) = .fin c ∧ a - b - opErr B ≤ c ∧ c ≤ a - b + opErr B :=
  ⟨_, fin_sub hx hy (lim12 hB h), rnd_off hB.one h⟩

/-- the loss of the lower layer: a product divided by the capacity -/
theorem off_quot {B x u A : ℚ} (hB : Limits B) {X U V : B64 σ} (hX : ext X = .fin x) (hU : ext U = .fin u) (hV : ext V = .fin A)
    (hx0 : 0 ≤ x) (hxB : x ≤ 2 * B) (hu0 : 0 ≤ u) (huA : u ≤ A) (hA : 1 / 10 ^ 6 ≤ A) (hAB : A ≤ 3 * B) :
    ∃ y, ext (X * U / V) = .fin y ∧ x * u / A - 2 * opErr B ≤ y ∧ y ≤ x * u / A + 2 * opErr B := by
  have hA0 : 0 < A := lt_of_lt_of_le (by norm_num) hA
  have hUn := unit_pos
  have hp : (0 : ℚ) < 2 ^ (-1074 : ℤ) := zpow_pos (by norm_num) _
  have ht := tiny_le
  have hB1 := hB.one
  have hxu0 : 0 ≤ x * u := mul_nonneg hx0 hu0
  have hxu : x * u ≤ 10 ^ 25 := by
    have h1 : x * u ≤ (2 * B) * (3 * B) := mul_le_mul hxB (huA.trans hAB) hu0 (by linarith)
    have h2 : (2 * B) * (3 * B) ≤ (2 * 10 ^ 12) * (3 * 10 ^ 12) := mul_le_mul (by linarith [hB.top]) (by linarith [hB.top]) (by linarith) (by norm_num)
    have h3 : ((2 : ℚ) * 10 ^ 12) * (3 * 10 ^ 12) ≤ 10 ^ 25 := by norm_num
    linarith
  have hov : ∀ q : ℚ, |q| ≤ 10 ^ 40 → |q| ≤ 2 ^ (1023 : ℤ) := by
    intro q h
    refine h.trans (le_trans (by norm_num : (10 : ℚ) ^ 40 ≤ 2 ^ (200 : ℕ)) ?_)
    rw [← zpow_natCast]; exact zpow_le_zpow_right₀ (by norm_num) (by norm_num)
  have hm := fin_mul hX hU (hov _ (by rw [abs_of_nonneg hxu0]; linarith))
  have e1 := abs_le.1 (rnd_abs (x * u))
  rw [abs_of_nonneg hxu0] at e1
  generalize (2 : ℚ) ^ (-1074 : ℤ) = t at *
  generalize rnd (x * u) = m at *
  have hq : x * u / A ≤ x := by rw [div_le_iff₀ hA0]; exact mul_le_mul_of_nonneg_left huA hx0
  have hq0 : 0 ≤ x * u / A := div_nonneg hxu0 hA0.le
  have htA : t / A ≤ unit := by
    rw [div_le_iff₀ hA0]
    have : unit * (1 / 10 ^ 6) ≤ unit * A := mul_le_mul_of_nonneg_left hA hUn.le
    linarith
  have d1 : m / A ≤ x * u / A + (x * u / A) * unit + t / A := by
    have : m / A ≤ (x * u + (x * u * unit + t)) / A := (div_le_div_iff_of_pos_right hA0).2 (by linarith [e1.2])
    have e : (x * u + (x * u * unit + t)) / A = x * u / A + (x * u / A) * unit + t / A := by field_simp; ring
    linarith
  have d2 : x * u / A - (x * u / A) * unit - t / A ≤ m / A := by
    have : (x * u - (x * u * unit + t)) / A ≤ m / A := (div_le_div_iff_of_pos_right hA0).2 (by linarith [e1.1])
    have e : (x * u - (x * u * unit + t)) / A = x * u / A - (x * u / A) * unit - t / A := by field_simp; ring
    linarith
  have d3 : (x * u / A) * unit ≤ 2 * B * unit := mul_le_mul_of_nonneg_right (by linarith) hUn.le
  have hBu : 1 * unit ≤ B * unit := mul_le_mul_of_nonneg_right hB1 hUn.le
  have hs : B * unit ≤ 1 / 1000 := by have := hB.small; unfold opErr at this; linarith
  have hmq : |m / A| ≤ 3 * B := by rw [abs_le]; constructor <;> linarith
  have r := rnd_off hB1 hmq
  refine ⟨_, fin_div hm hV hA0.ne' (lim12 hB hmq), ?_, ?_⟩
  · have := r.1; unfold opErr at *; linarith
  · have := r.2; unfold opErr at *; linarith

/-- the upper layer after a month with precipitation minus PET equal to `d`, exact -/
def top1 (s d : ℚ) : ℚ := if 0 ≤ d then min (s + d) 1 else max (s + d) 0

/-- the lower layer after that month: it takes the water the upper layer cannot hold, or part of the demand left -/
def low1 (bot a s u d : ℚ) : ℚ :=
  if 0 ≤ d then min (u + (s + d - top1 s d)) bot else max 0 (u + (s + d - top1 s d) * u / a)

/-- one month in binary64 is close to the exact month from the same soil -/
structure Month64 (w bot a s u p e : ℚ) (q : Recharge (B64 σ)) (s' u' et tl r ro : ℚ) : Prop where
  top : ext q.sss = .fin s'
  low : ext q.ssu = .fin u'
  etv : ext q.et = .fin et
  tlv : ext q.tl = .fin tl
  rv : ext q.r = .fin r
  rov : ext q.ro = .fin ro
  soil : |s' - top1 s (p - e)| + |u' - low1 bot a s u (p - e)| ≤ 8 * w
  wet : e ≤ p → et = e ∧ tl = 0 ∧ |r - (s' + u' - s - u)| ≤ 6 * w ∧ |ro - (p - e - (s' + u' - s - u))| ≤ 6 * w
  dry : p < e → r = 0 ∧ ro = 0 ∧ |tl - (s + u - s' - u')| ≤ 6 * w ∧ |et - (p + (s + u - s' - u'))| ≤ 6 * w

theorem month64 {B bot a s u pq eq : ℚ} {awc ss su p e : B64 σ} (hB : Limits B) (ha : ext awc = .fin a) (haL : 1 / 10 ^ 6 ≤ a) (haB : a ≤ B)
    (hbot : ext (awcBot awc) = .fin bot) (hb0 : 0 ≤ bot) (hbB : bot ≤ B) (hss : ext ss = .fin s) (hsu : ext su = .fin u)
    (s0 : 0 ≤ s) (s1 : s ≤ 1 + 2 * opErr B) (u0 : 0 ≤ u) (u1 : u ≤ bot + opErr B) (ua : u ≤ a)
    (hp : ext p = .fin pq) (he : ext e = .fin eq) (hp0 : 0 ≤ pq) (hpB : pq ≤ B) (he0 : 0 ≤ eq) (heB : eq ≤ B) :
    ∃ s' u' et tl r ro, Month64 (opErr B) bot a s u pq eq (calcRecharge p e ss su awc) s' u' et tl r ro := by
  have hw := hB.pos
  have hw1 := hB.small
  have hB1 := hB.one
  have hone := ext_lit_one (σ := σ)
  have hzero := ext_lit_zero (σ := σ)
  have a0 : 0 < a := lt_of_lt_of_le (by norm_num) haL
  have b3 : ∀ {q : ℚ}, -(3 * B) ≤ q → q ≤ 3 * B → |q| ≤ 3 * B := fun h1 h2 => abs_le.2 ⟨h1, h2⟩
  have he0 := he0
  obtain ⟨g, hg, g1, g2⟩ := off_sub hB hp he (b3 (by linarith) (by linarith))
  obtain ⟨f, hf, f1, f2⟩ := off_sub hB hone hss (b3 (by linarith) (by linarith))
  have key : ∃ w, w = opErr B := ⟨_, rfl⟩
  obtain ⟨w, hwe⟩ := key
  unfold calcRecharge
  dsimp only
  rw [fle_ext he hp]
  by_cases c1 : eq ≤ pq
  · rw [if_pos (by simpa using c1), flt_ext hf hg]
    have hd : 0 ≤ pq - eq := by linarith
    by_cases c2 : f < g
    · rw [if_pos (by simpa using c2)]
      obtain ⟨o, ho, o1, o2⟩ := off_sub hB hg hf (b3 (by linarith) (by linarith))
      have o0 : 0 ≤ o := by
        have h1 := fin_sub hg hf (lim12 hB (b3 (by linarith) (by linarith)))
        rw [ho] at h1
        cases h1
        exact rnd_nonneg (by linarith)
      obtain ⟨k, hk, k1, k2⟩ := off_sub hB hbot hsu (b3 (by linarith) (by linarith))
      have hT : top1 s (pq - eq) = min (s + (pq - eq)) 1 := by rw [top1, if_pos hd]
      have hL : low1 bot a s u (pq - eq) = min (u + (s + (pq - eq) - min (s + (pq - eq)) 1)) bot := by rw [low1, if_pos hd, hT]
      have t1 : |1 - min (s + (pq - eq)) 1| ≤ 2 * opErr B := by
        rw [abs_le]
        constructor
        · linarith [min_le_right (s + (pq - eq)) 1]
        · have : 1 - 2 * opErr B ≤ min (s + (pq - eq)) 1 := le_min (by linarith) (by linarith)
          linarith
      rw [flt_ext ho hk]
      by_cases c3 : o < k
      · rw [if_pos (by simpa using c3), if_pos (by simpa using c3)]
        obtain ⟨v, hv, v1, v2⟩ := off_add hB hsu ho (b3 (by linarith) (by linarith))
        obtain ⟨r, hr, r1, r2⟩ := off_add hB hf ho (b3 (by linarith) (by linarith))
        refine ⟨1, v, eq, 0, r, 0, ⟨hone, hv, he, hzero, hr, hzero, ?_, fun _ => ⟨rfl, rfl, ?_, ?_⟩, fun h => absurd h (not_lt.2 c1)⟩⟩
        · rw [hT, hL]
          have : |v - min (u + (s + (pq - eq) - min (s + (pq - eq)) 1)) bot| ≤ 6 * opErr B := by
            have m1 := min_le_left (s + (pq - eq)) 1
            have m2 := min_le_right (s + (pq - eq)) 1
            have m3 : 1 - 2 * opErr B ≤ min (s + (pq - eq)) 1 := le_min (by linarith) (by linarith)
            rw [abs_le]
            constructor
            · linarith [min_le_left (u + (s + (pq - eq) - min (s + (pq - eq)) 1)) bot]
            · have : v - 6 * opErr B ≤ min (u + (s + (pq - eq) - min (s + (pq - eq)) 1)) bot := le_min (by linarith) (by linarith)
              linarith
          linarith
        · rw [abs_le]; constructor <;> linarith
        · rw [abs_le]; constructor <;> linarith
      · rw [if_neg (by simpa using c3), if_neg (by simpa using c3)]
        have c3 := not_lt.1 c3
        obtain ⟨v, hv, v1, v2⟩ := off_add hB hsu hk (b3 (by linarith) (by linarith))
        obtain ⟨r, hr, r1, r2⟩ := off_add hB hf hk (b3 (by linarith) (by linarith))
        obtain ⟨z, hz, z1, z2⟩ := off_sub hB ho hk (b3 (by linarith) (by linarith))
        refine ⟨1, v, eq, 0, r, z, ⟨hone, hv, he, hzero, hr, hz, ?_, fun _ => ⟨rfl, rfl, ?_, ?_⟩, fun h => absurd h (not_lt.2 c1)⟩⟩
        · rw [hT, hL]
          have : |v - min (u + (s + (pq - eq) - min (s + (pq - eq)) 1)) bot| ≤ 6 * opErr B := by
            have m1 := min_le_left (s + (pq - eq)) 1
            have m2 := min_le_right (s + (pq - eq)) 1
            rw [abs_le]
            constructor
            · linarith [min_le_right (u + (s + (pq - eq) - min (s + (pq - eq)) 1)) bot]
            · have : v - 6 * opErr B ≤ min (u + (s + (pq - eq) - min (s + (pq - eq)) 1)) bot := le_min (by linarith) (by linarith)
              linarith
          linarith
        · rw [abs_le]; constructor <;> linarith
        · rw [abs_le]; constructor <;> linarith
    · rw [if_neg (by simpa using c2)]
      have c2 := not_lt.1 c2
      obtain ⟨x, hx, x1, x2⟩ := off_add hB hss hp (b3 (by linarith) (by linarith))
      obtain ⟨y, hy, y1, y2⟩ := off_sub hB hx he (b3 (by linarith) (by linarith))
      have hT : top1 s (pq - eq) = min (s + (pq - eq)) 1 := by rw [top1, if_pos hd]
      have hL : low1 bot a s u (pq - eq) = min (u + (s + (pq - eq) - min (s + (pq - eq)) 1)) bot := by rw [low1, if_pos hd, hT]
      refine ⟨y, u, eq, 0, g, 0, ⟨hy, hsu, he, hzero, hg, hzero, ?_, fun _ => ⟨rfl, rfl, ?_, ?_⟩, fun h => absurd h (not_lt.2 c1)⟩⟩
      · rw [hT, hL]
        have m1 := min_le_left (s + (pq - eq)) 1
        have m2 := min_le_right (s + (pq - eq)) 1
        have m3 : s + (pq - eq) - 2 * opErr B ≤ min (s + (pq - eq)) 1 := le_min (by linarith) (by linarith)
        have t1 : |y - min (s + (pq - eq)) 1| ≤ 4 * opErr B := by rw [abs_le]; constructor <;> linarith
        have t2 : |u - min (u + (s + (pq - eq) - min (s + (pq - eq)) 1)) bot| ≤ 2 * opErr B := by
          rw [abs_le]
          constructor
          · linarith [min_le_left (u + (s + (pq - eq) - min (s + (pq - eq)) 1)) bot]
          · have : u - 2 * opErr B ≤ min (u + (s + (pq - eq) - min (s + (pq - eq)) 1)) bot := le_min (by linarith) (by linarith)
            linarith
        linarith
      · rw [abs_le]; constructor <;> linarith
      · rw [abs_le]; constructor <;> linarith
  · rw [if_neg (by simpa using c1)]
    have c1 := not_le.1 c1
    have hd : ¬ 0 ≤ pq - eq := by linarith
    obtain ⟨m, hm, m1, m2⟩ := off_sub hB he hp (b3 (by linarith) (by linarith))
    have m0 : 0 ≤ m := by
      have h1 := fin_sub he hp (lim12 hB (b3 (by linarith) (by linarith)))
      rw [hm] at h1
      cases h1
      exact rnd_nonneg (by linarith)
    have hT : top1 s (pq - eq) = max (s + (pq - eq)) 0 := by rw [top1, if_neg hd]
    have hL : low1 bot a s u (pq - eq) = max 0 (u + (s + (pq - eq) - max (s + (pq - eq)) 0) * u / a) := by rw [low1, if_neg hd, hT]
    have n1 := le_max_left (s + (pq - eq)) 0
    have n2 := le_max_right (s + (pq - eq)) 0
    rw [fle_ext hm hss]
    by_cases c2 : m ≤ s
    · rw [if_pos (by simpa using c2)]
      obtain ⟨y, hy, y1, y2⟩ := off_sub hB hss hm (b3 (by linarith) (by linarith))
      obtain ⟨l, hl, l1, l2⟩ := off_add hB hm hzero (b3 (by linarith) (by linarith))
      obtain ⟨x, hx, x1, x2⟩ := off_add hB hp hm (b3 (by linarith) (by linarith))
      obtain ⟨z, hz, z1, z2⟩ := off_add hB hx hzero (b3 (by linarith) (by linarith))
      refine ⟨y, u, z, l, 0, 0, ⟨hy, hsu, hz, hl, hzero, hzero, ?_, fun h => absurd h (not_le.2 c1), fun _ => ⟨rfl, rfl, ?_, ?_⟩⟩⟩
      · rw [hT, hL]
        have n3 : max (s + (pq - eq)) 0 ≤ s + (pq - eq) + opErr B := max_le (by linarith) (by linarith)
        have t1 : |y - max (s + (pq - eq)) 0| ≤ 3 * opErr B := by rw [abs_le]; constructor <;> linarith
        have hc : 0 ≤ (max (s + (pq - eq)) 0 - (s + (pq - eq))) * u / a ∧ (max (s + (pq - eq)) 0 - (s + (pq - eq))) * u / a ≤ opErr B := by
          constructor
          · exact div_nonneg (mul_nonneg (by linarith) u0) a0.le
          · rw [div_le_iff₀ a0]; exact mul_le_mul (by linarith) ua u0 hw.le
        have e1 : (s + (pq - eq) - max (s + (pq - eq)) 0) * u / a = -((max (s + (pq - eq)) 0 - (s + (pq - eq))) * u / a) := by ring
        have t2 : |u - max 0 (u + (s + (pq - eq) - max (s + (pq - eq)) 0) * u / a)| ≤ opErr B := by
          rw [e1, abs_le]
          constructor
          · have : max 0 (u + -((max (s + (pq - eq)) 0 - (s + (pq - eq))) * u / a)) ≤ u := max_le u0 (by linarith [hc.1])
            linarith
          · have := le_max_right 0 (u + -((max (s + (pq - eq)) 0 - (s + (pq - eq))) * u / a))
            linarith [hc.2]
        linarith
      · rw [abs_le]; constructor <;> linarith
      · rw [abs_le]; constructor <;> linarith
    · rw [if_neg (by simpa using c2)]
      have c2 := not_le.1 c2
      obtain ⟨x, hx, x1, x2⟩ := off_sub hB hm hss (b3 (by linarith) (by linarith))
      have x0 : 0 ≤ x := by
        have h1 := fin_sub hm hss (lim12 hB (b3 (by linarith) (by linarith)))
        rw [hx] at h1
        cases h1
        exact rnd_nonneg (by linarith)
      obtain ⟨y, hy, y1, y2⟩ := off_quot hB hx hsu ha x0 (by linarith) u0 ua haL (by linarith)
      have hl := ext_pyMin hsu hy
      have y0 : 0 ≤ y := by
        rcases ext_quot hx hsu ha x0 u0 a0 with ⟨r, h1, h2⟩ | h1
        · rw [hy] at h1; cases h1; exact h2
        · rw [hy] at h1; cases h1
      obtain ⟨l, hle⟩ : ∃ l, l = min u y := ⟨_, rfl⟩
      rw [← hle] at hl
      have l0 : 0 ≤ l := by rw [hle]; exact le_min u0 y0
      have l1 : l ≤ u := by rw [hle]; exact min_le_left _ _
      obtain ⟨v, hv, v1, v2⟩ := off_sub hB hsu hl (b3 (by linarith) (by linarith))
      obtain ⟨z, hz, z1, z2⟩ := off_add hB hss hl (b3 (by linarith) (by linarith))
      obtain ⟨k, hk, k1, k2⟩ := off_add hB hp hss (b3 (by linarith) (by linarith))
      obtain ⟨j, hj, j1, j2⟩ := off_add hB hk hl (b3 (by linarith) (by linarith))
      refine ⟨0, v, j, z, 0, 0, ⟨hzero, hv, hj, hz, hzero, hzero, ?_, fun h => absurd h (not_le.2 c1), fun _ => ⟨rfl, rfl, ?_, ?_⟩⟩⟩
      · rw [hT, hL]
        have n3 : max (s + (pq - eq)) 0 ≤ opErr B := max_le (by linarith) (by linarith)
        have t1 : |0 - max (s + (pq - eq)) 0| ≤ opErr B := by rw [abs_le]; constructor <;> linarith
        have q1 : x * u / a ≤ (max (s + (pq - eq)) 0 - (s + (pq - eq))) * u / a + 3 * opErr B := by
          have h1 : (x - (max (s + (pq - eq)) 0 - (s + (pq - eq)))) * u ≤ 3 * opErr B * a := by
            have h2 : (x - (max (s + (pq - eq)) 0 - (s + (pq - eq)))) * u ≤ 3 * opErr B * u := mul_le_mul_of_nonneg_right (by linarith) u0
            have h3 : 3 * opErr B * u ≤ 3 * opErr B * a := mul_le_mul_of_nonneg_left ua (by linarith)
            linarith
          have h4 : (x - (max (s + (pq - eq)) 0 - (s + (pq - eq)))) * u / a ≤ 3 * opErr B := by rwa [div_le_iff₀ a0]
          have h5 : (x - (max (s + (pq - eq)) 0 - (s + (pq - eq)))) * u / a = x * u / a - (max (s + (pq - eq)) 0 - (s + (pq - eq))) * u / a := by ring
          linarith
        have q2 : (max (s + (pq - eq)) 0 - (s + (pq - eq))) * u / a - 3 * opErr B ≤ x * u / a := by
          have h1 : (max (s + (pq - eq)) 0 - (s + (pq - eq)) - x) * u ≤ 3 * opErr B * a := by
            have h2 : (max (s + (pq - eq)) 0 - (s + (pq - eq)) - x) * u ≤ 3 * opErr B * u := mul_le_mul_of_nonneg_right (by linarith) u0
            have h3 : 3 * opErr B * u ≤ 3 * opErr B * a := mul_le_mul_of_nonneg_left ua (by linarith)
            linarith
          have h4 : (max (s + (pq - eq)) 0 - (s + (pq - eq)) - x) * u / a ≤ 3 * opErr B := by rwa [div_le_iff₀ a0]
          have h5 : (max (s + (pq - eq)) 0 - (s + (pq - eq)) - x) * u / a = (max (s + (pq - eq)) 0 - (s + (pq - eq))) * u / a - x * u / a := by ring
          linarith
        have e1 : (s + (pq - eq) - max (s + (pq - eq)) 0) * u / a = -((max (s + (pq - eq)) 0 - (s + (pq - eq))) * u / a) := by ring
        rw [e1]
        generalize (max (s + (pq - eq)) 0 - (s + (pq - eq))) * u / a = c at *
        generalize x * u / a = xu at *
        have t2 : |v - max 0 (u + -c)| ≤ 6 * opErr B := by
          rw [abs_le]
          constructor
          · have : max 0 (u + -c) ≤ v + 6 * opErr B := by
              refine max_le (by linarith) ?_
              have : l ≤ y := by rw [hle]; exact min_le_right _ _
              linarith
            linarith
          · have h1 := le_max_left 0 (u + -c)
            have h2 := le_max_right 0 (u + -c)
            rcases le_total u y with h | h
            · rw [min_eq_left h] at hle; linarith
            · rw [min_eq_right h] at hle; linarith
        linarith
      · rw [abs_le]; constructor <;> linarith
      · rw [abs_le]; constructor <;> linarith

/-! ## The exact month does not enlarge differences -/

theorem top1_split (s s' d : ℚ) : |top1 s d - top1 s' d| + |(s + d - top1 s d) - (s' + d - top1 s' d)| ≤ |s - s'| := by
  have key : ∀ s s' : ℚ, s ≤ s' → |top1 s d - top1 s' d| + |(s + d - top1 s d) - (s' + d - top1 s' d)| ≤ |s - s'| := by
    intro s s' h
    have h1 : top1 s d ≤ top1 s' d ∧ s + d - top1 s d ≤ s' + d - top1 s' d := by
      unfold top1
      split
      · refine ⟨min_le_min_right _ (by linarith), ?_⟩
        rcases le_total (s + d) 1 with a | a <;> rcases le_total (s' + d) 1 with b | b <;>
          first | rw [min_eq_left a] | rw [min_eq_right a]
        all_goals first | rw [min_eq_left b] | rw [min_eq_right b]
        all_goals linarith
      · refine ⟨max_le_max_right _ (by linarith), ?_⟩
        rcases le_total (s + d) 0 with a | a <;> rcases le_total (s' + d) 0 with b | b <;>
          first | rw [max_eq_left a] | rw [max_eq_right a]
        all_goals first | rw [max_eq_left b] | rw [max_eq_right b]
        all_goals linarith
    rw [abs_of_nonpos (by linarith [h1.1]), abs_of_nonpos (by linarith [h1.2]), abs_of_nonpos (by linarith)]
    linarith
  rcases le_total s s' with h | h
  · exact key s s' h
  · have := key s' s h
    rw [abs_sub_comm, abs_sub_comm (s + d - top1 s d), abs_sub_comm s]
    exact this

/-- the rest of the demand taken from the lower layer -/
theorem demand_lip {a u u' c c' : ℚ} (ha : 0 < a) (hc : 0 ≤ c) (hu : 0 ≤ u) (hu' : 0 ≤ u') (hua' : u' ≤ a) :
    max 0 (u - c * u / a) - max 0 (u' - c' * u' / a) ≤ |u - u'| + |c - c'| := by
  have e : ∀ v k : ℚ, 0 ≤ v → max 0 (v - k * v / a) = v * max 0 (1 - k / a) := by
    intro v k hv
    rw [mul_max_of_nonneg _ _ hv, mul_zero]
    congr 1; ring
  rw [e u c hu, e u' c' hu']
  have f1 : max 0 (1 - c / a) ≤ 1 := max_le (by norm_num) (by linarith [div_nonneg hc ha.le])
  have f0 : 0 ≤ max 0 (1 - c / a) := le_max_left _ _
  have h1 : (u - u') * max 0 (1 - c / a) ≤ |u - u'| := by
    calc _ ≤ |u - u'| * max 0 (1 - c / a) := mul_le_mul_of_nonneg_right (le_abs_self _) f0
      _ ≤ |u - u'| * 1 := mul_le_mul_of_nonneg_left f1 (abs_nonneg _)
      _ = _ := mul_one _
  have h2 : max 0 (1 - c / a) - max 0 (1 - c' / a) ≤ |c - c'| / a := by
    have : max 0 (1 - c / a) ≤ max 0 (1 - c' / a) + |c - c'| / a := by
      refine max_le (add_nonneg (le_max_left _ _) (div_nonneg (abs_nonneg _) ha.le)) ?_
      have g := le_max_right 0 (1 - c' / a)
      have : (c' - c) / a ≤ |c - c'| / a := (div_le_div_iff_of_pos_right ha).2 (by rw [abs_sub_comm]; exact le_abs_self _)
      have e2 : (c' - c) / a = c' / a - c / a := by ring
      linarith
    linarith
  have h3 : u' * (max 0 (1 - c / a) - max 0 (1 - c' / a)) ≤ |c - c'| := by
    calc _ ≤ u' * (|c - c'| / a) := mul_le_mul_of_nonneg_left h2 hu'
      _ ≤ a * (|c - c'| / a) := mul_le_mul_of_nonneg_right hua' (div_nonneg (abs_nonneg _) ha.le)
      _ = _ := by field_simp
  have e3 : u * max 0 (1 - c / a) - u' * max 0 (1 - c' / a) = (u - u') * max 0 (1 - c / a) + u' * (max 0 (1 - c / a) - max 0 (1 - c' / a)) := by ring
  linarith

theorem carry_dry (s d : ℚ) (hd : ¬ 0 ≤ d) : 0 ≤ -(s + d - top1 s d) := by
  unfold top1
  rw [if_neg hd]
  linarith [le_max_left (s + d) 0]

theorem low1_lip {bot bot' a s s' u u' d : ℚ} (ha : 0 < a) (hu : 0 ≤ u) (hua : u ≤ a) (hu' : 0 ≤ u') (hua' : u' ≤ a) :
    |low1 bot a s u d - low1 bot' a s' u' d| ≤ |u - u'| + |(s + d - top1 s d) - (s' + d - top1 s' d)| + |bot - bot'| := by
  unfold low1
  by_cases hd : 0 ≤ d
  · rw [if_pos hd, if_pos hd]
    refine (abs_min_sub_min_le_max _ _ _ _).trans (max_le ?_ ?_)
    · have h := abs_add_le (u - u') ((s + d - top1 s d) - (s' + d - top1 s' d))
      have e : u + (s + d - top1 s d) - (u' + (s' + d - top1 s' d)) = (u - u') + ((s + d - top1 s d) - (s' + d - top1 s' d)) := by ring
      rw [e]
      linarith [abs_nonneg (bot - bot')]
    · linarith [abs_nonneg (u - u'), abs_nonneg ((s + d - top1 s d) - (s' + d - top1 s' d))]
  · rw [if_neg hd, if_neg hd]
    have c1 := carry_dry s d hd
    have c2 := carry_dry s' d hd
    have e1 : u + (s + d - top1 s d) * u / a = u - -(s + d - top1 s d) * u / a := by ring
    have e2 : u' + (s' + d - top1 s' d) * u' / a = u' - -(s' + d - top1 s' d) * u' / a := by ring
    have e3 : |(s + d - top1 s d) - (s' + d - top1 s' d)| = |-(s + d - top1 s d) - -(s' + d - top1 s' d)| := by
      rw [← abs_neg]; congr 1; ring
    rw [e1, e2, e3]
    have k1 := demand_lip (c := -(s + d - top1 s d)) (c' := -(s' + d - top1 s' d)) ha c1 hu hu' hua'
    have k2 := demand_lip (c := -(s' + d - top1 s' d)) (c' := -(s + d - top1 s d)) ha c2 hu' hu hua
    rw [abs_sub_comm u' u, abs_sub_comm (-(s' + d - top1 s' d))] at k2
    have := abs_nonneg (bot - bot')
    rw [abs_le]
    constructor <;> linarith

/-- the loss of the lower layer as a function of the capacity -/
theorem capacity_lip {u c A A' : ℚ} (hA : 0 < A) (hA' : 0 < A') (hu : 0 ≤ u) (huA : u ≤ A) (huA' : u ≤ A') (hc : 0 ≤ c) :
    |max 0 (u - c * u / A) - max 0 (u - c * u / A')| ≤ |A - A'| := by
  have key : ∀ A A' : ℚ, 0 < A → u ≤ A' → A ≤ A' → |max 0 (u - c * u / A) - max 0 (u - c * u / A')| ≤ |A - A'| := by
    intro A A' hA huA' hAA
    have hA' : 0 < A' := lt_of_lt_of_le hA hAA
    have hcu : 0 ≤ c * u := mul_nonneg hc hu
    have hx : c * u / A' ≤ c * u / A := by
      rw [div_le_div_iff₀ hA' hA]; exact mul_le_mul_of_nonneg_left hAA hcu
    have hx0 : 0 ≤ c * u / A' := div_nonneg hcu hA'.le
    have ex : c * u / A' = c * u / A * (A / A') := by field_simp
    have r1 : A / A' ≤ 1 := by rw [div_le_one hA']; exact hAA
    have r0 : 0 ≤ A / A' := div_nonneg hA.le hA'.le
    have hm : max 0 (u - c * u / A) ≤ max 0 (u - c * u / A') := max_le_max_left _ (by linarith)
    rw [abs_of_nonpos (by linarith), abs_of_nonpos (by linarith)]
    have goal : max 0 (u - c * u / A') ≤ max 0 (u - c * u / A) + u * (1 - A / A') := by
      have hrest : 0 ≤ u * (1 - A / A') := mul_nonneg hu (by linarith)
      refine max_le (add_nonneg (le_max_left _ _) hrest) ?_
      rw [ex]
      rcases le_total (c * u / A) u with h | h
      · have h1 := le_max_right 0 (u - c * u / A)
        have h2 : c * u / A * (1 - A / A') ≤ u * (1 - A / A') := mul_le_mul_of_nonneg_right h (by linarith)
        nlinarith
      · have h1 := le_max_left 0 (u - c * u / A)
        have h2 : u * (A / A') ≤ c * u / A * (A / A') := mul_le_mul_of_nonneg_right h r0
        nlinarith
    have last : u * (1 - A / A') ≤ A' - A := by
      have h1 : u * (1 - A / A') ≤ A' * (1 - A / A') := mul_le_mul_of_nonneg_right huA' (by linarith)
      have h2 : A' * (1 - A / A') = A' - A := by field_simp
      linarith
    linarith
  rcases le_total A A' with h | h
  · exact key A A' hA huA' h
  · rw [abs_sub_comm, abs_sub_comm A]; exact key A' A hA' huA h

/-! ## The exact month -/

theorem balK_step (a s u p e : ℚ) (ha : 0 < a) (hp : 0 ≤ p) (he : 0 ≤ e) (h : Soil a s u) :
    (balK a s u p e).sss = top1 s (p - e) ∧ (balK a s u p e).ssu = low1 (max (a - 1) 0) a s u (p - e) := by
  obtain ⟨h1, h2, h3, h4⟩ := h
  have hbot : 0 ≤ max (a - 1) 0 := le_max_right _ _
  generalize hb : max (a - 1) 0 = bot at *
  unfold balK low1 top1
  simp only [hb]
  by_cases c1 : e ≤ p
  · have hd : 0 ≤ p - e := by linarith
    rw [if_pos c1, if_pos hd, if_pos hd]
    by_cases c2 : 1 - s < p - e
    · rw [if_pos c2, min_eq_right (by linarith : 1 ≤ s + (p - e))]
      by_cases c3 : p - e - (1 - s) < bot - u
      · rw [if_pos c3, min_eq_left (show u + (s + (p - e) - 1) ≤ bot by linarith)]
        exact ⟨rfl, by ring⟩
      · rw [if_neg c3, min_eq_right (show bot ≤ u + (s + (p - e) - 1) by linarith [not_lt.1 c3])]
        exact ⟨rfl, by ring⟩
    · have c2 := not_lt.1 c2
      rw [if_neg (not_lt.2 c2), min_eq_left (by linarith : s + (p - e) ≤ 1), sub_self, add_zero, min_eq_left h4]
      exact ⟨by ring, rfl⟩
  · have hd : ¬ 0 ≤ p - e := by linarith [not_le.1 c1]
    rw [if_neg c1, if_neg hd, if_neg hd]
    by_cases c2 : e - p ≤ s
    · rw [if_pos c2, max_eq_left (by linarith : 0 ≤ s + (p - e)), sub_self, zero_mul, zero_div]
      refine ⟨by ring, ?_⟩
      rw [add_zero u, max_eq_right h3]
    · have c2 := not_le.1 c2
      rw [if_neg (not_le.2 c2), max_eq_right (by linarith : s + (p - e) ≤ 0)]
      refine ⟨rfl, ?_⟩
      simp only
      have e1 : (s + (p - e) - 0) * u / a = -((e - p - s) * u / a) := by ring
      rw [e1]
      rcases le_total u ((e - p - s) * u / a) with k | k
      · rw [min_eq_left k, max_eq_left (by linarith), sub_self]
      · rw [min_eq_right k, max_eq_right (by linarith)]; ring

theorem balK_flows (a s u p e : ℚ) :
    (e ≤ p → (balK a s u p e).et = e ∧ (balK a s u p e).tl = 0 ∧ (balK a s u p e).r = (balK a s u p e).sss + (balK a s u p e).ssu - s - u ∧
      (balK a s u p e).ro = p - e - ((balK a s u p e).sss + (balK a s u p e).ssu - s - u)) ∧
    (p < e → (balK a s u p e).r = 0 ∧ (balK a s u p e).ro = 0 ∧ (balK a s u p e).tl = s + u - (balK a s u p e).sss - (balK a s u p e).ssu ∧
      (balK a s u p e).et = p + (s + u - (balK a s u p e).sss - (balK a s u p e).ssu)) := by
  obtain ⟨_, _, _, h4, h5⟩ := balK_conserve a s u p e
  constructor
  · intro c1
    have : (balK a s u p e).et = e ∧ (balK a s u p e).tl = 0 := by
      unfold balK; simp only; rw [if_pos c1]; split <;> exact ⟨rfl, rfl⟩
    obtain ⟨h1, h2⟩ := this
    rw [h1] at h4
    rw [h2] at h5
    exact ⟨h1, h2, by linarith, by linarith⟩
  · intro c1
    have : (balK a s u p e).r = 0 ∧ (balK a s u p e).ro = 0 := by
      unfold balK; simp only; rw [if_neg (not_le.2 c1)]; split <;> exact ⟨rfl, rfl⟩
    obtain ⟨h1, h2⟩ := this
    rw [h2] at h4
    rw [h1] at h5
    exact ⟨h1, h2, by linarith, by linarith⟩

end CI.B64
