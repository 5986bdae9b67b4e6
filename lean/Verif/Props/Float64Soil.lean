import Verif.Lemmas.Soil64

/-!
# C95, C96: the water balance in binary64 arithmetic

C35 to C38 are about exact arithmetic. Here all operations round as the processor does (`Base/Binary64.lean`).
-/

namespace CI.Props
open B64

variable {σ : SumOrder}

theorem awcBot64 {awc : B64 σ} {a : ℚ} (ha : ext awc = .fin a) (h0 : 0 < a) (hM : a ≤ 2 ^ (1000 : ℤ)) :
    ∃ bot, ext (awcBot awc) = .fin bot ∧ 0 ≤ bot ∧ bot ≤ a ∧ bot ≤ max (a - 1) 0 * (1 + unit) := by
  have lim : ∀ q : ℚ, |q| ≤ 2 * 2 ^ (1000 : ℤ) → |q| ≤ 2 ^ (1023 : ℤ) := fun q h => big_le (by rw [two_big]; exact h)
  have hbig : (1000000 : ℚ) ≤ 2 ^ (1000 : ℤ) := le_trans (by norm_num) big_ge
  generalize (2 : ℚ) ^ (1000 : ℤ) = B at *
  have hU := unit_pos
  have h1 : ext (awc - CI.lit 1) = .fin (rnd (a - 1)) := fin_sub ha ext_lit_one (lim _ (by rw [abs_le]; constructor <;> linarith))
  unfold awcBot pyMax
  rw [flt_ext h1 ext_lit_zero]
  by_cases c : rnd (a - 1) < 0
  · rw [if_pos (by simpa using c)]
    exact ⟨0, ext_lit_zero, le_rfl, h0.le, mul_nonneg (le_max_right _ _) (by linarith)⟩
  · rw [if_neg (by simpa using c)]
    have c := not_lt.1 c
    have hle : rnd (a - 1) ≤ a := by
      have := rnd_mono (by linarith : a - 1 ≤ a)
      rwa [rnd_fin ha] at this
    refine ⟨rnd (a - 1), h1, c, hle, ?_⟩
    by_cases h2 : 0 ≤ a - 1
    · rw [max_eq_left h2]
      exact (rnd_sub_bounds ha ext_lit_one h2).2
    · have h3 : rnd (a - 1) ≤ 0 := by
        have := rnd_mono (not_le.1 h2).le
        rwa [rnd_zero] at this
      exact h3.trans (mul_nonneg (le_max_right _ _) (by linarith))

theorem balances64 {M bot a : ℚ} {awc : B64 σ} (hM0 : 0 ≤ M) (hM : M ≤ 2 ^ (1000 : ℤ)) (ha : ext awc = .fin a) (ha0 : 0 < a)
    (hbot : ext (awcBot awc) = .fin bot) (hb0 : 0 ≤ bot) (hbM : bot ≤ 2 ^ (1000 : ℤ)) (ms : List (B64 σ × B64 σ))
    (hm : ∀ q ∈ ms, ∃ p e, ext q.1 = .fin p ∧ ext q.2 = .fin e ∧ 0 ≤ p ∧ p ≤ M ∧ 0 ≤ e ∧ e ≤ 2 ^ (1000 : ℤ)) (ss su : B64 σ) (hs : Soil64 M bot ss su) :
    ∀ b ∈ balances awc ss su ms, Soil64 M bot b.sss b.ssu := by
  induction ms generalizing ss su with
  | nil => intro b hb; cases hb
  | cons q ms ih =>
    obtain ⟨p, e⟩ := q
    obtain ⟨p', e', h1, h2, h3, h4, h5, h6⟩ := hm (p, e) (by simp)
    have step := recharge64 hM0 hM ha ha0 hbot hb0 hbM hs h1 h2 h3 h4 h5 h6
    intro b hb
    rw [balances, List.mem_cons] at hb
    rcases hb with rfl | hb
    · exact step
    · exact ih (fun q hq => hm q (List.mem_cons_of_mem _ hq)) _ _ step b hb

/-- **C95 (partial).** Full statement: in float64 arithmetic the upper layer holds between 0 and 1 and the lower layer between 0 and max(AWC - 1, 0). This is
false (`C95_fails`). Proved: neither layer is ever negative, and they exceed their capacity by rounding errors at most. -/
theorem C95_partial (awc : B64 σ) (a M : ℚ) (ha : ext awc = .fin a) (ha0 : 0 < a) (haM : a ≤ 2 ^ (1000 : ℤ)) (hM0 : 0 ≤ M) (hM : M ≤ 2 ^ (1000 : ℤ))
    (ms : List (B64 σ × B64 σ))
    (hm : ∀ q ∈ ms, ∃ p e, ext q.1 = .fin p ∧ ext q.2 = .fin e ∧ 0 ≤ p ∧ p ≤ M ∧ 0 ≤ e ∧ e ≤ 2 ^ (1000 : ℤ)) :
    ∀ b ∈ waterBalances awc ms,
      (∃ s, ext b.sss = .fin s ∧ 0 ≤ s ∧ s ≤ 1 + (2 * M + 6) / 2 ^ 53) ∧
      (∃ u, ext b.ssu = .fin u ∧ 0 ≤ u ∧ u ≤ max (a - 1) 0 * (1 + 1 / 2 ^ 50)) := by
  obtain ⟨bot, h1, h2, h3, h4⟩ := awcBot64 ha ha0 haM
  have hU := unit_pos
  have hU1 := unit_small
  have hsl : 0 ≤ slackTop M := by unfold slackTop; positivity
  have start : Soil64 M bot (CI.lit 1) (awcBot awc) :=
    ⟨⟨1, ext_lit_one, by norm_num, by linarith⟩, ⟨bot, h1, h2, le_mul_of_one_le_right h2 (by linarith)⟩⟩
  intro b hb
  obtain ⟨⟨s, s1, s2, s3⟩, ⟨u, u1, u2, u3⟩⟩ := balances64 hM0 hM ha ha0 h1 h2 (h3.trans haM) ms hm _ _ start b hb
  refine ⟨⟨s, s1, s2, ?_⟩, ⟨u, u1, u2, ?_⟩⟩
  · have : slackTop M = (2 * M + 6) / 2 ^ 53 := by unfold slackTop unit; ring
    rwa [← this]
  · have h5 : bot * (1 + 4 * unit) ≤ max (a - 1) 0 * (1 + unit) * (1 + 4 * unit) := mul_le_mul_of_nonneg_right h4 (by linarith)
    have h6 : (1 + unit) * (1 + 4 * unit) ≤ 1 + 1 / 2 ^ 50 := by
      have : (1 : ℚ) / 2 ^ 50 = 8 * unit := by unfold unit; norm_num
      rw [this]
      have := mul_le_mul_of_nonneg_left hU1 hU.le
      nlinarith
    have h7 := mul_le_mul_of_nonneg_left h6 (le_max_right (a - 1) 0)
    linarith

/-- months given in decimal notation -/
def months64 (ms : List (ℚ × ℚ)) : List (B64 leftToRight × B64 leftToRight) := ms.map (fun q => (CI.lit q.1, CI.lit q.2))

/-- the value of a finite number -/
def ratOf : B64 leftToRight → Option ℚ := fun x => match ext x with | .fin q => some q | _ => none

/-- **C95 is false.** AWC 6.0 and a month with precipitation 3.4 and PET 3.4: the upper layer, full before, holds 1 + 2^-51 afterwards (1 + 3.4 - 3.4 in
float64). AWC 5.7: after ten months the lower layer holds 2^-50 more than its capacity. -/
theorem C95_fails :
    (waterBalances (CI.lit 6) (months64 [(3.4, 3.4)])).map (fun b => ratOf b.sss) = [some (1 + 1 / 2 ^ 51)] ∧
    (let awc : B64 leftToRight := CI.lit 5.7
     match (waterBalances awc (months64 [(3.8, 1.3), (4.2, 3.2), (7.3, 5.9), (4.1, 0.0), (5.5, 3.4), (6.3, 8.9), (5.4, 5.1), (4.3, 5.9), (2.7, 7.4), (7.7, 0.5)])).getLast? with
     | some b => decide (ext b.ssu = ext (awcBot awc) + .fin (1 / 2 ^ 50))
     | none => false) = true := by
  decide +kernel

/-- C95: the hypotheses are met by AWC 6.0 and three months -/
example : ext (CI.lit 6 : B64 leftToRight) = .fin 6 ∧
    (months64 [(3.4, 3.4), (1.7, 0.6), (0, 8)]).all (fun q => match ext q.1, ext q.2 with
      | .fin p, .fin e => decide (0 ≤ p) && decide (p ≤ 10) && decide (0 ≤ e) && decide (e ≤ 10)
      | _, _ => false) = true := by
  decide +kernel

/-- coefficients of a record of `n` years, calibrated with all of them -/
def recordCoefs {F : Type} [FloatOps F] (n : Nat) (awc : ℚ) (ms : List (ℚ × ℚ)) : Coefs F :=
  cafecCoefficients ((List.range 12).map (monthSums 0 (n - 1) (waterBalances (lit awc) (ms.map (fun q => (lit q.1, lit q.2))))))

/-- thirty years with precipitation 2.0 and PET 1.0 in all months, except the first January, with 3.4 and 3.4 -/
def onceEqual : List (ℚ × ℚ) := (3.4, 3.4) :: List.replicate 359 (2, 1)

/-- **C96 is false.** "The CAFEC coefficients computed in float64 are those of exact arithmetic up to rounding errors." AWC 6.0, thirty years of calibration; in
one January precipitation and PET are both 3.4. The soil is full all the time, so the recharge coefficient of February is 1 in exact arithmetic (0/0). In float64
it is 0: the water left over by rounding in that January makes the recharge of one February -2^-51, not zero. -/
theorem C96_beta_fails :
    ((recordCoefs 30 6 onceEqual : Coefs (Fl ℚ)).beta[1]? = some (.fin 1)) ∧
    ((recordCoefs 30 6 onceEqual : Coefs (B64 leftToRight)).beta[1]?.map ratOf = some (some 0)) := by
  decide +kernel

/-- **C96 is false**, and the error is unbounded in practice: AWC 2.5, data with one decimal. The soil is empty at the beginning of the sixth month, so the runoff
coefficient is 0 in exact arithmetic. In float64 some 10^-17 of water are left, and the coefficient is above 10^16. -/
theorem C96_gamma_fails :
    ((recordCoefs 1 2.5 ([(1.8, 6.1), (3.3, 0.6), (3.8, 3.0), (3.4, 6.5), (3.6, 6.1), (4.1, 0.2)] ++ List.replicate 6 (2, 1)) : Coefs (Fl ℚ)).gamma[5]? =
      some (.fin 0)) ∧
    ((recordCoefs 1 2.5 ([(1.8, 6.1), (3.3, 0.6), (3.8, 3.0), (3.4, 6.5), (3.6, 6.1), (4.1, 0.2)] ++ List.replicate 6 (2, 1)) :
      Coefs (B64 leftToRight)).gamma[5]?.map (fun x => (ratOf x).map (fun q => decide (10 ^ 16 < q))) = some (some true)) := by
  decide +kernel

end CI.Props
