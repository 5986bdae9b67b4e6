import Verif.Lemmas.Round64
import Verif.Model.Palmer

/-!
# The water balance in binary64
-/

namespace CI.B64
open Round
variable {σ : SumOrder}

theorem unit_pos : 0 < unit := by unfold unit; positivity
theorem unit_small : unit ≤ 1 / 10 ^ 15 := by unfold unit; norm_num

/-- the upper layer may exceed its capacity of 1 by rounding; `M` bounds precipitation -/
def slackTop (M : ℚ) : ℚ := (2 * M + 6) * unit

/-- both layers are finite, not negative, and within their capacity up to rounding -/
structure Soil64 (M bot : ℚ) (ss su : B64 σ) : Prop where
  top : ∃ s, ext ss = .fin s ∧ 0 ≤ s ∧ s ≤ 1 + slackTop M
  low : ∃ u, ext su = .fin u ∧ 0 ≤ u ∧ u ≤ bot * (1 + 4 * unit)

theorem big_le {q : ℚ} (h : q ≤ 2 ^ (1001 : ℤ)) : q ≤ 2 ^ (1023 : ℤ) :=
  h.trans (zpow_le_zpow_right₀ (by norm_num) (by norm_num))

theorem two_big : (2 : ℚ) ^ (1001 : ℤ) = 2 * 2 ^ (1000 : ℤ) := by
  rw [show (1001 : ℤ) = 1 + 1000 by norm_num, zpow_add₀ (by norm_num), zpow_one]

theorem big_ge : (2 : ℚ) ^ (20 : ℕ) ≤ 2 ^ (1000 : ℤ) := by
  rw [← zpow_natCast]; exact zpow_le_zpow_right₀ (by norm_num) (by norm_num)

theorem ext_pyMin {x y : B64 σ} {a b : ℚ} (hx : ext x = .fin a) (hy : ext y = .fin b) : ext (pyMin x y) = .fin (min a b) := by
  unfold pyMin
  rw [flt_ext hy hx]
  by_cases h : b < a
  · rw [if_pos (by simpa using h), hy, min_eq_right h.le]
  · rw [if_neg (by simpa using h), hx, min_eq_left (not_lt.1 h)]

theorem ext_pyMin_inf {x y : B64 σ} {a : ℚ} (hx : ext x = .fin a) (hy : ext y = .pinf) : pyMin x y = x := by
  unfold pyMin
  have : flt y x = false := by
    show (Fl.le (ext y) (ext x) && !Fl.le (ext x) (ext y)) = false
    rw [hx, hy]; rfl
  rw [if_neg (by simp [this])]

/-- a product or quotient that is not negative is finite or infinite -/
theorem rfl64_nonneg {q : ℚ} (h : 0 ≤ q) : (∃ r, rfl64 (.fin q) = .fin r ∧ 0 ≤ r) ∨ rfl64 (.fin q) = .pinf := by
  rw [rfl64_fin]
  split
  · left; refine ⟨_, rfl, ?_⟩
    rw [if_neg (not_lt.2 h)]; exact rndPos_nonneg _
  · right; rw [if_neg (not_lt.2 h)]

theorem ext_quot {x y z : B64 σ} {a b c : ℚ} (hx : ext x = .fin a) (hy : ext y = .fin b) (hz : ext z = .fin c) (ha : 0 ≤ a) (hb : 0 ≤ b) (hc : 0 < c) :
    (∃ r, ext (x * y / z) = .fin r ∧ 0 ≤ r) ∨ ext (x * y / z) = .pinf := by
  have hz0 : z ≠ .fin true 0 mag_zero := by
    rintro rfl
    simp only [ext, val_zero, Fl.fin.injEq] at hz
    exact hc.ne hz
  show (∃ r, ext (div (mul x y) z) = .fin r ∧ 0 ≤ r) ∨ ext (div (mul x y) z) = .pinf
  rw [ext_div _ z hz0, ext_mul, hx, hy, hz]
  show (∃ r, rfl64 (Fl.div (rfl64 (.fin (a * b))) (.fin c)) = .fin r ∧ 0 ≤ r) ∨ rfl64 (Fl.div (rfl64 (.fin (a * b))) (.fin c)) = .pinf
  rcases rfl64_nonneg (mul_nonneg ha hb) with ⟨r, h1, h2⟩ | h1
  · rw [h1]
    simp only [Fl.div, if_neg hc.ne']
    exact rfl64_nonneg (div_nonneg h2 hc.le)
  · rw [h1]
    right
    simp only [Fl.div, if_pos hc.le]
    rfl

/-- one month: the layers stay within their capacity, up to rounding -/
theorem recharge64 {M bot a pq eq : ℚ} {awc ss su p e : B64 σ} (hM0 : 0 ≤ M) (hM : M ≤ 2 ^ (1000 : ℤ)) (ha : ext awc = .fin a) (ha0 : 0 < a)
    (hbot : ext (awcBot awc) = .fin bot) (hb0 : 0 ≤ bot) (hbM : bot ≤ 2 ^ (1000 : ℤ)) (hs : Soil64 M bot ss su)
    (hp : ext p = .fin pq) (he : ext e = .fin eq) (hp0 : 0 ≤ pq) (hpM : pq ≤ M) (he0 : 0 ≤ eq) (heM : eq ≤ 2 ^ (1000 : ℤ)) :
    Soil64 M bot (calcRecharge p e ss su awc).sss (calcRecharge p e ss su awc).ssu := by
  obtain ⟨⟨s, hss, s0, s1⟩, ⟨u, hsu, u0, u1⟩⟩ := hs
  have hU := unit_pos
  have hU1 := unit_small
  have lim : ∀ q : ℚ, |q| ≤ 2 * 2 ^ (1000 : ℤ) → |q| ≤ 2 ^ (1023 : ℤ) := fun q h => big_le (by rw [two_big]; exact h)
  have hbig : (1000000 : ℚ) ≤ 2 ^ (1000 : ℤ) := le_trans (by norm_num) big_ge
  generalize (2 : ℚ) ^ (1000 : ℤ) = B at *
  have hsl0 : 0 ≤ slackTop M := by unfold slackTop; positivity
  have hsl1 : slackTop M ≤ B / 10 ^ 14 := by
    unfold slackTop
    have h1 : 2 * M + 6 ≤ 3 * B := by linarith
    have : (2 * M + 6) * unit ≤ 3 * B * (1 / 10 ^ 15) := mul_le_mul h1 hU1 hU.le (by positivity)
    linarith
  have hsB : s ≤ B := by linarith
  have huB : u ≤ B + B / 10 ^ 14 := by
    have : bot * (1 + 4 * unit) ≤ B * (1 + 4 * (1 / 10 ^ 15)) := mul_le_mul hbM (by linarith) (by positivity) (by positivity)
    linarith
  have hone := ext_lit_one (σ := σ)
  have hzero := ext_lit_zero (σ := σ)
  have hpe : ext (p - e) = .fin (rnd (pq - eq)) := fin_sub hp he (lim _ (by rw [abs_le]; constructor <;> linarith))
  have h1s : ext (CI.lit 1 - ss) = .fin (rnd (1 - s)) := fin_sub hone hss (lim _ (by rw [abs_le]; constructor <;> (linarith)))
  have top0 : ∃ t, ext (CI.lit 1 : B64 σ) = .fin t ∧ 0 ≤ t ∧ t ≤ 1 + slackTop M := ⟨1, hone, by norm_num, by linarith⟩
  have low0 : ∃ t, ext su = .fin t ∧ 0 ≤ t ∧ t ≤ bot * (1 + 4 * unit) := ⟨u, hsu, u0, u1⟩
  unfold calcRecharge
  dsimp only
  rw [fle_ext he hp]
  by_cases c1 : eq ≤ pq
  · rw [if_pos (by simpa using c1), flt_ext h1s hpe]
    by_cases c2 : rnd (1 - s) < rnd (pq - eq)
    · rw [if_pos (by simpa using c2)]
      refine ⟨top0, ?_⟩
      -- the lower layer
      have hd : ext (p - e - (CI.lit 1 - ss)) = .fin (rnd (rnd (pq - eq) - rnd (1 - s))) := by
        refine fin_sub hpe h1s (lim _ ?_)
        have q1 : rnd (pq - eq) ≤ B := by
          have h1 : rnd (pq - eq) ≤ rnd pq := rnd_mono (by linarith)
          rw [rnd_fin hp] at h1; linarith
        have q2 : -s ≤ rnd (1 - s) := by
          have h1 : rnd (-s) ≤ rnd (1 - s) := rnd_mono (by linarith)
          rwa [rnd_neg, rnd_fin hss] at h1
        rw [abs_le]; constructor <;> linarith
      have hbs : ext (awcBot awc - su) = .fin (rnd (bot - u)) := fin_sub hbot hsu (lim _ (by rw [abs_le]; constructor <;> (linarith)))
      have hx0 : 0 ≤ rnd (rnd (pq - eq) - rnd (1 - s)) := rnd_nonneg (by linarith)
      have hlow : -u ≤ rnd (bot - u) := by
        have h1 : rnd (-u) ≤ rnd (bot - u) := rnd_mono (by linarith)
        rwa [rnd_neg, rnd_fin hsu] at h1
      have hbu : |bot - u| ≤ bot := by
        rw [abs_le]
        constructor
        · have : bot * (4 * unit) ≤ bot * 1 := mul_le_mul_of_nonneg_left (by linarith) hb0
          linarith
        · linarith
      have hup : rnd (bot - u) ≤ bot - u + bot * unit := by
        have h1 := (abs_le.1 (rnd_sub_rel hbot hsu)).2
        have h2 : |bot - u| * unit ≤ bot * unit := mul_le_mul_of_nonneg_right hbu hU.le
        linarith
      have fin : ∀ (y : B64 σ) (v : ℚ), ext y = .fin v → -u ≤ v → v ≤ rnd (bot - u) →
          ∃ t, ext (su + y) = .fin t ∧ 0 ≤ t ∧ t ≤ bot * (1 + 4 * unit) := by
        intro y v hy v0 v1
        have hB0 : u + v ≤ bot + bot * unit := by linarith
        have hbb : bot * unit ≤ bot * 1 := mul_le_mul_of_nonneg_left (by linarith) hb0
        refine ⟨rnd (u + v), fin_add hsu hy (lim _ (by rw [abs_le]; constructor <;> linarith)), rnd_nonneg (by linarith), ?_⟩
        have h1 := (rnd_add_bounds hsu hy (by linarith)).2
        have h2 : (u + v) * (1 + unit) ≤ (bot + bot * unit) * (1 + unit) := mul_le_mul_of_nonneg_right hB0 (by linarith)
        have h3 : (bot + bot * unit) * (1 + unit) = bot * (1 + 2 * unit + unit * unit) := by ring
        have h4 : unit * unit ≤ 1 * unit := mul_le_mul_of_nonneg_right (by linarith) hU.le
        have h5 : bot * (1 + 2 * unit + unit * unit) ≤ bot * (1 + 4 * unit) := mul_le_mul_of_nonneg_left (by linarith) hb0
        linarith
      rw [flt_ext hd hbs]
      by_cases c3 : rnd (rnd (pq - eq) - rnd (1 - s)) < rnd (bot - u)
      · rw [if_pos (by simpa using c3)]
        exact fin _ _ hd (by linarith) c3.le
      · rw [if_neg (by simpa using c3)]
        exact fin _ _ hbs hlow le_rfl
    · rw [if_neg (by simpa using c2)]
      refine ⟨?_, low0⟩
      have c2 := not_lt.1 c2
      have hpe0 : 0 ≤ rnd (pq - eq) := rnd_nonneg (by linarith)
      have hs1 : s ≤ 1 := by
        by_contra hcon
        have hcon := not_le.1 hcon
        -- 1 - s is negative and not rounded to zero
        have h1 := abs_le.1 (rnd_sub_rel hone hss)
        rw [abs_of_neg (by linarith : 1 - s < 0)] at h1
        have h2 : -(1 - s) * unit ≤ -(1 - s) * (1 / 2) := mul_le_mul_of_nonneg_left (by linarith) (by linarith)
        linarith [h1.2]
      have hsp : ext (ss + p) = .fin (rnd (s + pq)) := fin_add hss hp (lim _ (by rw [abs_le]; constructor <;> linarith))
      have hge : pq ≤ rnd (s + pq) := by
        have h1 : rnd pq ≤ rnd (s + pq) := rnd_mono (by linarith)
        rwa [rnd_fin hp] at h1
      have hle := (rnd_add_bounds hss hp (by linarith)).2
      have hspM : s + pq ≤ 1 + M := by linarith
      have hle2 : rnd (s + pq) ≤ s + pq + (1 + M) * unit := by
        have : (s + pq) * unit ≤ (1 + M) * unit := mul_le_mul_of_nonneg_right hspM hU.le
        linarith
      have hMu : (1 + M) * unit ≤ B / 10 ^ 14 := by
        have : (1 + M) * unit ≤ slackTop M := by
          unfold slackTop; exact mul_le_mul_of_nonneg_right (by linarith) hU.le
        linarith
      refine ⟨rnd (rnd (s + pq) - eq), fin_sub hsp he (lim _ ?_), rnd_nonneg (by linarith), ?_⟩
      · rw [abs_le]; constructor <;> linarith
      · have hA := (rnd_sub_bounds hp he (by linarith)).1
        have hC := (rnd_sub_bounds hone hss (by linarith)).2
        have hD : (pq - eq) * (1 - unit) ≤ (1 - s) * (1 + unit) := by linarith
        -- pq - eq ≤ (1 - s) + 3 unit
        have hE : pq - eq ≤ (1 - s) + 3 * unit := by
          by_contra hcon
          have hcon := not_le.1 hcon
          have h1 : ((1 - s) + 3 * unit) * (1 - unit) < (pq - eq) * (1 - unit) := mul_lt_mul_of_pos_right hcon (by linarith)
          have h2 : (1 - s) * (2 * unit) ≤ 1 * (2 * unit) := mul_le_mul_of_nonneg_right (by linarith) (by linarith)
          have h3 : 3 * unit * unit ≤ 1 * unit := mul_le_mul_of_nonneg_right (by linarith) hU.le
          nlinarith
        have hF := (rnd_sub_bounds hsp he (by linarith)).2
        have hG : rnd (s + pq) - eq ≤ 1 + 3 * unit + (1 + M) * unit := by linarith
        have hH : (rnd (s + pq) - eq) * unit ≤ (2 + M) * unit := by
          refine mul_le_mul_of_nonneg_right ?_ hU.le
          have : (1 + M) * unit ≤ (1 + M) * (1 / 2) := mul_le_mul_of_nonneg_left (by linarith) (by linarith)
          linarith
        unfold slackTop
        linarith
  · rw [if_neg (by simpa using c1)]
    have c1 := not_le.1 c1
    have hep : ext (e - p) = .fin (rnd (eq - pq)) := fin_sub he hp (lim _ (by rw [abs_le]; constructor <;> linarith))
    have hep0 : 0 ≤ rnd (eq - pq) := rnd_nonneg (by linarith)
    rw [fle_ext hep hss]
    by_cases c2 : rnd (eq - pq) ≤ s
    · rw [if_pos (by simpa using c2)]
      refine ⟨⟨rnd (s - rnd (eq - pq)), fin_sub hss hep (lim _ (by rw [abs_le]; constructor <;> linarith)), rnd_nonneg (by linarith), ?_⟩, low0⟩
      have h1 : rnd (s - rnd (eq - pq)) ≤ rnd s := rnd_mono (by linarith)
      rw [rnd_fin hss] at h1
      linarith
    · rw [if_neg (by simpa using c2)]
      have c2 := not_le.1 c2
      refine ⟨⟨0, hzero, le_rfl, by linarith⟩, ?_⟩
      have hq : rnd (eq - pq) ≤ B := by
        have h1 : rnd (eq - pq) ≤ rnd eq := rnd_mono (by linarith)
        rw [rnd_fin he] at h1; linarith
      have hd : ext (e - p - ss) = .fin (rnd (rnd (eq - pq) - s)) := fin_sub hep hss (lim _ (by rw [abs_le]; constructor <;> linarith))
      have hd0 : 0 ≤ rnd (rnd (eq - pq) - s) := rnd_nonneg (by linarith)
      have fin : ∀ (y : B64 σ) (v : ℚ), ext y = .fin v → 0 ≤ v → v ≤ u → ∃ t, ext (su - y) = .fin t ∧ 0 ≤ t ∧ t ≤ bot * (1 + 4 * unit) := by
        intro y v hy v0 v1
        refine ⟨rnd (u - v), fin_sub hsu hy (lim _ (by rw [abs_le]; constructor <;> linarith)), rnd_nonneg (by linarith), ?_⟩
        have h1 : rnd (u - v) ≤ rnd u := rnd_mono (by linarith)
        rw [rnd_fin hsu] at h1
        linarith
      rcases ext_quot hd hsu ha hd0 u0 ha0 with ⟨r, h1, h2⟩ | h1
      · exact fin _ _ (ext_pyMin hsu h1) (le_min u0 h2) (min_le_left _ _)
      · rw [ext_pyMin_inf hsu h1]
        exact fin _ _ hsu u0 le_rfl

end CI.B64
