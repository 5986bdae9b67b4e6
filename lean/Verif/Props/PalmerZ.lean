import Verif.Props.PalmerPdsi
import Verif.Props.Lmoments
import Verif.Spec.PalmerZ
import Mathlib.Data.List.Sort

/-!
# The Z-index is Palmer's (C86)
-/

namespace CI.Props
open Fl Spec.PalmerZ

/-! ## One month -/

/-- the month over the reals is the published one -/
theorem balK_spec (awc s u p e : ℝ) (ha : 1 ≤ awc) (hs : Soil awc s u) (hp : 0 ≤ p) (he : 0 ≤ e) :
    balK awc s u p e = ⟨p, e, s + u, awc - (s + u), lossUpper s 0 e + lossLower awc s u 0 e,
      min p e + (lossUpper s p e + lossLower awc s u p e), lossUpper s p e + lossLower awc s u p e,
      gainUpper s p e + gainLower awc s u p e, surplus p e - (gainUpper s p e + gainLower awc s u p e),
      s + gainUpper s p e - lossUpper s p e, u + gainLower awc s u p e - lossLower awc s u p e⟩ := by
  obtain ⟨h1, h2, h3, h4⟩ := hs
  have ha0 : 0 < awc := by linarith
  have hbot : max (awc - 1) 0 = awc - 1 := max_eq_left (by linarith)
  rw [hbot] at h4
  have hpl : (if e ≤ s then e else min (s + u) ((e - s) * u / (awc - 1 + 1) + s)) = lossUpper s 0 e + lossLower awc s u 0 e := by
    unfold lossLower lossUpper deficit
    rw [sub_zero, max_eq_left he, sub_add_cancel]
    split
    · next h => rw [min_eq_left h, sub_self, zero_mul, zero_div, min_eq_right h3, add_zero]
    · next h =>
      rw [min_eq_right (le_of_lt (not_le.1 h)), add_comm ((e - s) * u / awc) s, min_add_add_left]
  unfold balK
  simp only [hbot, hpl]
  by_cases c1 : e ≤ p
  · have hsur : surplus p e = p - e := max_eq_left (by linarith)
    have hdef : deficit p e = 0 := max_eq_right (by linarith)
    have hlu : lossUpper s p e = 0 := by unfold lossUpper; rw [hdef, min_eq_left h1]
    have hll : lossLower awc s u p e = 0 := by unfold lossLower; rw [hlu, hdef, sub_self, zero_mul, zero_div, min_eq_right h3]
    rw [if_pos c1, hlu, hll, min_eq_right c1, hsur]
    by_cases c2 : 1 - s < p - e
    · have hgu : gainUpper s p e = 1 - s := by unfold gainUpper; rw [hsur, min_eq_right c2.le]
      rw [if_pos c2, hgu]
      by_cases c3 : p - e - (1 - s) < awc - 1 - u
      · have hgl : gainLower awc s u p e = p - e - (1 - s) := by unfold gainLower; rw [hsur, hgu, min_eq_left c3.le]
        simp only [if_pos c3, hgl]
        congr 1 <;> ring
      · have hgl : gainLower awc s u p e = awc - 1 - u := by unfold gainLower; rw [hsur, hgu, min_eq_right (not_lt.1 c3)]
        simp only [if_neg c3, hgl]
        congr 1 <;> ring
    · have hgu : gainUpper s p e = p - e := by unfold gainUpper; rw [hsur, min_eq_left (not_lt.1 c2)]
      have hgl : gainLower awc s u p e = 0 := by unfold gainLower; rw [hsur, hgu, sub_self, min_eq_left (by linarith)]
      rw [if_neg c2, hgu, hgl]
      congr 1 <;> ring
  · have c1' := not_le.1 c1
    have hsur : surplus p e = 0 := max_eq_right (by linarith)
    have hdef : deficit p e = e - p := max_eq_left (by linarith)
    have hgu : gainUpper s p e = 0 := by unfold gainUpper; rw [hsur, min_eq_left (by linarith)]
    have hgl : gainLower awc s u p e = 0 := by unfold gainLower; rw [hsur, hgu, sub_self, min_eq_left (by linarith)]
    rw [if_neg c1, hgu, hgl, hsur, min_eq_left c1'.le]
    by_cases c2 : e - p ≤ s
    · have hlu : lossUpper s p e = e - p := by unfold lossUpper; rw [hdef, min_eq_left c2]
      have hll : lossLower awc s u p e = 0 := by unfold lossLower; rw [hlu, hdef, sub_self, zero_mul, zero_div, min_eq_right h3]
      rw [if_pos c2, hlu, hll]
      congr 1 <;> ring
    · have hlu : lossUpper s p e = s := by unfold lossUpper; rw [hdef, min_eq_right (not_le.1 c2).le]
      have hll : lossLower awc s u p e = min u ((e - p - s) * u / awc) := by unfold lossLower; rw [hlu, hdef]
      rw [if_neg c2, hlu, hll]
      congr 1 <;> ring

/-- the balance of month `t` -/
noncomputable def month (awc : ℝ) (p e : ℕ → ℝ) (t : ℕ) : Balance ℝ :=
  ⟨p t, e t, potRunoff awc p e t, potRecharge awc p e t, potLoss awc p e t, evap awc p e t, loss awc p e t, recharge awc p e t, runoff awc p e t,
    (soil awc p e (t + 1)).1, (soil awc p e (t + 1)).2⟩

theorem balK_month (awc : ℝ) (ha : 1 ≤ awc) (p e : ℕ → ℝ) (t : ℕ) (hp : 0 ≤ p t) (he : 0 ≤ e t)
    (hs : Soil awc (soil awc p e t).1 (soil awc p e t).2) :
    balK awc (soil awc p e t).1 (soil awc p e t).2 (p t) (e t) = month awc p e t := balK_spec awc _ _ _ _ ha hs hp he

/-- the month loop from month `t` on -/
theorem balancesK_months (awc : ℝ) (ha : 1 ≤ awc) (p e : ℕ → ℝ) (hp : ∀ t, 0 ≤ p t) (he : ∀ t, 0 ≤ e t) (L : ℕ) : ∀ t,
    Soil awc (soil awc p e t).1 (soil awc p e t).2 →
    balancesK awc (soil awc p e t).1 (soil awc p e t).2 ((List.range L).map (fun i : ℕ => (p (t + i), e (t + i)))) =
      (List.range L).map (fun i : ℕ => month awc p e (t + i)) := by
  induction L with
  | zero => intro t _; rfl
  | succ L ih =>
    intro t hs
    have hb := balK_month awc ha p e t (hp t) (he t) hs
    have hw := (balK_within awc _ _ (p t) (e t) (by linarith) (hp t) (he t) hs).1
    rw [List.range_succ_eq_map, List.map_cons, List.map_cons, List.map_map, List.map_map]
    show balK awc _ _ (p t) (e t) :: balancesK awc (balK awc _ _ (p t) (e t)).sss (balK awc _ _ (p t) (e t)).ssu _ = _
    rw [hb] at hw ⊢
    congr 1
    have := ih (t + 1) hw
    have e1 : (fun i : ℕ => (p (t + i), e (t + i))) ∘ Nat.succ = fun i : ℕ => (p (t + 1 + i), e (t + 1 + i)) := by
      funext i
      simp only [Function.comp, Nat.succ_eq_add_one, show t + (i + 1) = t + 1 + i by omega]
    have e2 : (fun i : ℕ => month awc p e (t + i)) ∘ Nat.succ = fun i : ℕ => month awc p e (t + 1 + i) := by
      funext i
      simp only [Function.comp, Nat.succ_eq_add_one, show t + (i + 1) = t + 1 + i by omega]
    rw [e1, e2]
    exact this

/-! ## Sums over the calibration years -/

theorem filter_calib (L m a k : ℕ) (hm : m < 12) (hk : 12 * (a + k) ≤ L) :
    (List.range L).filter (fun t => t % 12 == m && inCalib a (a + k - 1 : ℤ) t) = (List.range k).map (fun y : ℕ => 12 * (a + y) + m) := by
  have s1 : ((List.range L).filter (fun t => t % 12 == m && inCalib a (a + k - 1 : ℤ) t)).Pairwise (· < ·) :=
    List.Pairwise.filter _ List.pairwise_lt_range
  have s2 : ((List.range k).map (fun y : ℕ => 12 * (a + y) + m)).Pairwise (· < ·) := by
    rw [List.pairwise_map]
    exact List.pairwise_lt_range.imp (fun h => by omega)
  refine List.Perm.eq_of_pairwise (le := (· < ·)) (fun a b _ _ h1 h2 => absurd h1 (by omega)) s1 s2 ?_
  rw [List.perm_ext_iff_of_nodup (s1.imp (fun h => ne_of_lt h)) (s2.imp (fun h => ne_of_lt h))]
  intro t
  simp only [List.mem_filter, List.mem_range, List.mem_map, Bool.and_eq_true, beq_iff_eq, inCalib, decide_eq_true_eq]
  constructor
  · rintro ⟨h1, h2, h3, h4⟩
    exact ⟨t / 12 - a, by omega, by omega⟩
  · rintro ⟨y, hy, rfl⟩
    refine ⟨by omega, by omega, ?_, ?_⟩ <;> omega

theorem calibMonth_range {α : Type} (f : ℕ → α) (L m a k : ℕ) (hm : m < 12) (hk : 12 * (a + k) ≤ L) :
    calibMonth a (a + k - 1 : ℤ) m ((List.range L).map f) = (List.range k).map (fun y : ℕ => f (12 * (a + y) + m)) := by
  rw [calibMonth_map]
  have hz : ∀ L, (List.range L).zipIdx = (List.range L).map (fun i => (i, i)) := by
    intro L
    apply List.ext_getElem <;> simp
  unfold calibMonth
  rw [hz, List.filter_map, List.map_map, List.map_map]
  have := filter_calib L m a k hm hk
  simp only [Function.comp_def]
  rw [this, List.map_map]
  rfl

theorem list_sum_range (f : ℕ → ℝ) (k : ℕ) : ((List.range k).map f).sum = ∑ y ∈ Finset.range k, f y := by
  induction k with
  | zero => rfl
  | succ k ih => rw [List.range_succ, List.map_append, List.sum_append, ih, Finset.sum_range_succ]; simp

/-- the sum behind a mean -/
noncomputable def calSum (a k j : ℕ) (f : ℕ → ℝ) : ℝ := ∑ y ∈ Finset.range k, f (12 * (a + y) + j)

theorem mean_calSum (a k j : ℕ) (f : ℕ → ℝ) : mean a k j f = calSum a k j f / k := rfl

theorem calSum_nonneg (a k j : ℕ) (f : ℕ → ℝ) (h : ∀ t, 0 ≤ f t) : 0 ≤ calSum a k j f := Finset.sum_nonneg (fun _ _ => h _)

theorem sumOf_months (awc : ℝ) (p e : ℕ → ℝ) (L j a k : ℕ) (hj : j < 12) (hk : 12 * (a + k) ≤ L) (g : Balance ℝ → ℝ) :
    sumOf (calibMonth a (a + k - 1 : ℤ) j ((List.range L).map (month awc p e))) g = calSum a k j (fun t => g (month awc p e t)) := by
  rw [calibMonth_range _ L j a k hj hk]
  unfold sumOf calSum
  rw [List.map_map, ← list_sum_range]
  rfl

/-- the nine sums -/
theorem monthSums_months (awc : ℝ) (p e : ℕ → ℝ) (L j a k : ℕ) (hj : j < 12) (hk : 12 * (a + k) ≤ L) (tail : List (Balance (Fl ℝ))) :
    monthSums a (a + k - 1 : ℤ) (((List.range L).map (month awc p e)).map (Balance.map Fl.fin) ++ tail) j =
      ⟨fin (calSum a k j p), fin (calSum a k j (potRunoff awc p e)), fin (calSum a k j e), fin (calSum a k j (potLoss awc p e)),
        fin (calSum a k j (potRecharge awc p e)), fin (calSum a k j (recharge awc p e)), fin (calSum a k j (loss awc p e)),
        fin (calSum a k j (evap awc p e)), fin (calSum a k j (runoff awc p e))⟩ := by
  rw [monthSums_fin _ _ _ _ _ (by simp; omega)]
  simp only [sumOf_months awc p e L j a k hj hk]
  rfl

/-! ## Coefficients -/

theorem ratioOrOne_ratio (a b : ℝ) : ratioOrOne (fin a) (fin b) = fin (ratio a b) := by
  unfold ratioOrOne ratio
  rw [lit_zero, feq_fin, feq_fin]
  by_cases hb : b = 0
  · rw [if_neg (by simp [hb]), if_pos hb]
    by_cases ha : a = 0
    · rw [if_pos (by simpa using ha), if_pos ha, lit_one]
    · rw [if_neg (by simpa using ha), if_neg ha]
  · rw [if_pos (by simp [hb]), if_neg hb, fin_div_of_ne _ _ hb]

theorem ratio_div (a b k : ℝ) (hk : k ≠ 0) : ratio (a / k) (b / k) = ratio a b := by
  unfold ratio
  simp only [div_eq_zero_iff, hk, or_false]
  rw [div_div_div_cancel_right₀ hk]

/-- coefficient arrays that hold the given numbers -/
def Holds12 (k : Coefs (Fl ℝ)) (c : Coef) : Prop :=
  ∀ j, j < 12 → coefAt k.alpha j = fin (c.alpha j) ∧ coefAt k.beta j = fin (c.beta j) ∧ coefAt k.gamma j = fin (c.gamma j) ∧
    coefAt k.delta j = fin (c.delta j)

theorem holds_calibrated (awc : ℝ) (p e : ℕ → ℝ) (L a k : ℕ) (hk0 : 0 < k) (hk : 12 * (a + k) ≤ L) (tail : List (Balance (Fl ℝ))) :
    Holds12 (cafecCoefficients ((List.range 12).map
      (monthSums a (a + k - 1 : ℤ) (((List.range L).map (month awc p e)).map (Balance.map Fl.fin) ++ tail)))) (coef awc p e a k) := by
  intro j hj
  have hk' : (k : ℝ) ≠ 0 := Nat.cast_ne_zero.2 (by omega)
  have hs := monthSums_months awc p e L j a k hj hk tail
  refine ⟨?_, ?_, ?_, ?_⟩
  · refine (coefAt_map (fun s => ratioOrOne s.et s.pet) _ j hj).trans ?_
    rw [hs, ratioOrOne_ratio, ← ratio_div _ _ _ hk']; rfl
  · refine (coefAt_map (fun s => ratioOrOne s.r s.pr) _ j hj).trans ?_
    rw [hs, ratioOrOne_ratio, ← ratio_div _ _ _ hk']; rfl
  · refine (coefAt_map (fun s => ratioOrOne s.ro s.sp) _ j hj).trans ?_
    rw [hs, ratioOrOne_ratio, ← ratio_div _ _ _ hk']; rfl
  · refine (coefAt_map (fun s => ratioOrZero s.tl s.pl) _ j hj).trans ?_
    rw [hs]
    unfold ratioOrZero coef
    dsimp only
    rw [lit_zero, feq_fin]
    by_cases h0 : calSum a k j (potLoss awc p e) = 0
    · have hm : mean a k j (potLoss awc p e) = 0 := by rw [mean_calSum, h0, zero_div]
      rw [if_neg (by simp [h0]), if_pos hm]
    · have hm : ¬ mean a k j (potLoss awc p e) = 0 := by rw [mean_calSum]; exact div_ne_zero h0 hk'
      rw [if_pos (by simp [h0]), if_neg hm, fin_div_of_ne _ _ h0, mean_calSum, mean_calSum, div_div_div_cancel_right₀ hk']

/-! ## Weights -/

theorem departure_fin (awc : ℝ) (p e : ℕ → ℝ) (k : Coefs (Fl ℝ)) (c : Coef) (h : Holds12 k c) (t : ℕ) :
    ((month awc p e t).map Fl.fin).p - cafec k (t % 12) ((month awc p e t).map Fl.fin) = fin (departure awc p e c t) := by
  obtain ⟨h1, h2, h3, h4⟩ := h (t % 12) (by omega)
  unfold cafec
  rw [h1, h2, h3, h4]
  simp only [Balance.map, fin_mul, fin_add, fin_sub]
  rfl

theorem kfactorRows_eq (n a k : ℕ) (hk : a + k ≤ n) : kfactorRows n a (a + k - 1 : ℤ) = .ok ((List.range k).map (fun y : ℕ => a + y)) := by
  unfold kfactorRows
  rw [mapM_toNat]
  · congr 1
    rw [List.map_map, show ((a : ℤ) + k - 1 + 1 - a).toNat = k by omega]
    apply List.map_congr_left
    intro y _
    simp only [Function.comp]
    omega
  · intro y hy
    simp only [List.mem_map, List.mem_range] at hy
    obtain ⟨i, hi, rfl⟩ := hy
    omega

theorem sabsd_fin (awc : ℝ) (p e : ℕ → ℝ) (k : Coefs (Fl ℝ)) (c : Coef) (h : Holds12 k c) (L a n j : ℕ) (hj : j < 12) (hn : 12 * (a + n) ≤ L)
    (tail : List (Balance (Fl ℝ))) :
    sabsd k (((List.range L).map (month awc p e)).map (Balance.map Fl.fin) ++ tail) ((List.range n).map (fun y : ℕ => a + y)) j =
      fin (calSum a n j (fun t => |departure awc p e c t|)) := by
  unfold sabsd calSum
  rw [← list_sum_range, ← runningSum_fin, List.map_map, List.filterMap_map]
  congr 1
  refine (List.filterMap_congr (g := fun y => some (fin |departure awc p e c (12 * (a + y) + j)|)) ?_).trans (by simp [Function.comp_def])
  intro y hy
  rw [List.mem_range] at hy
  simp only [Function.comp]
  rw [List.getElem?_append_left (by simp; omega), List.getElem?_map, List.getElem?_range (by omega)]
  simp only [Option.map_some, Function.comp]
  congr 1
  have := departure_fin awc p e k c h (12 * (a + y) + j)
  rw [show (12 * (a + y) + j) % 12 = j by omega] at this
  rw [this, fabs_fin]

/-! ### The soil stays within its capacity -/

theorem soil_ok (awc : ℝ) (ha : 1 ≤ awc) (p e : ℕ → ℝ) (hp : ∀ t, 0 ≤ p t) (he : ∀ t, 0 ≤ e t) (t : ℕ) :
    Soil awc (soil awc p e t).1 (soil awc p e t).2 := by
  induction t with
  | zero =>
    have := soil_full awc
    rw [max_eq_left (by linarith)] at this
    exact this
  | succ t ih =>
    have hb := balK_month awc ha p e t (hp t) (he t) ih
    have hw := (balK_within awc _ _ (p t) (e t) (by linarith) (hp t) (he t) ih).1
    rw [hb] at hw
    exact hw

theorem month_within (awc : ℝ) (ha : 1 ≤ awc) (p e : ℕ → ℝ) (hp : ∀ t, 0 ≤ p t) (he : ∀ t, 0 ≤ e t) (t : ℕ) : Within (month awc p e t) := by
  have ih := soil_ok awc ha p e hp he t
  have hb := balK_month awc ha p e t (hp t) (he t) ih
  rw [← hb]
  exact (balK_within awc _ _ (p t) (e t) (by linarith) (hp t) (he t) ih).2

/-- the balances of a record of numbers, padded at the end -/
theorem waterBalances_months (awc : ℝ) (ha : 1 ≤ awc) (p e : ℕ → ℝ) (hp : ∀ t, 0 ≤ p t) (he : ∀ t, 0 ≤ e t) (L : ℕ) (rest : List (Fl ℝ × Fl ℝ)) :
    ∃ tail, waterBalances (fin awc) ((List.range L).map (fun t : ℕ => ((fin (p t) : Fl ℝ), (fin (e t) : Fl ℝ))) ++ rest) =
      ((List.range L).map (month awc p e)).map (Balance.map Fl.fin) ++ tail ∧ tail.length = rest.length := by
  obtain ⟨tail, h1, h2⟩ := balances_fin awc (by linarith) ((List.range L).map (fun t : ℕ => (p t, e t))) rest 1 (max (awc - 1) 0)
  refine ⟨tail, ?_, h2⟩
  have hb := balancesK_months awc ha p e hp he L 0 (soil_ok awc ha p e hp he 0)
  simp only [Nat.zero_add] at hb
  rw [max_eq_left (by linarith)] at h1
  rw [List.map_map] at h1
  unfold waterBalances
  rw [lit_one, awcBot_fin, max_eq_left (by linarith)]
  refine h1.trans ?_
  congr 2

/-! ### The weighting factors -/

/-- sums of the calibration years as used for the weights -/
theorem trat_fin (awc : ℝ) (p e : ℕ → ℝ) (L a k j : ℕ) (hk0 : 0 < k) (hj : j < 12) (hk : 12 * (a + k) ≤ L) (tail : List (Balance (Fl ℝ)))
    (hs : supply awc p e a k j ≠ 0) :
    trat (monthSums a (a + k - 1 : ℤ) (((List.range L).map (month awc p e)).map (Balance.map Fl.fin) ++ tail) j) = fin (T awc p e a k j) := by
  have hk' : (k : ℝ) ≠ 0 := Nat.cast_ne_zero.2 (by omega)
  rw [monthSums_months awc p e L j a k hj hk tail]
  unfold trat T
  unfold supply at hs ⊢
  simp only [mean_calSum] at hs ⊢
  rw [← add_div] at hs
  have h0 : calSum a k j p + calSum a k j (loss awc p e) ≠ 0 := by
    intro h; rw [h, zero_div] at hs; exact hs rfl
  simp only [fin_add]
  rw [fin_div_of_ne _ _ h0]
  congr 1
  field_simp

theorem zipWith_range {α β γ : Type} (f : α → β → γ) (g : ℕ → α) (h : ℕ → β) (n : ℕ) :
    List.zipWith f ((List.range n).map g) ((List.range n).map h) = (List.range n).map (fun j => f (g j) (h j)) := by
  apply List.ext_getElem <;> simp

theorem dbar_fin (awc : ℝ) (p e : ℕ → ℝ) (c : Coef) (a k j : ℕ) (hk0 : 0 < k) :
    (fin (calSum a k j (fun t => |departure awc p e c t|)) : Fl ℝ) / lit ((a + k - 1 - a + 1 : ℤ) : ℚ) = fin (D awc p e c a k j) := by
  have hk' : (k : ℝ) ≠ 0 := Nat.cast_ne_zero.2 (by omega)
  have e1 : ((a : ℤ) + k - 1 - a + 1) = (k : ℤ) := by ring
  rw [e1, Fl.lit_def, Int.cast_natCast, Rat.cast_natCast, fin_div_of_ne _ _ hk']
  rfl

/-- the weighting factors are the published ones -/
theorem kfactors_fin (log10 : Fl ℝ → Fl ℝ) (hlog : ∀ x, 0 < x → log10 (.fin x) = .fin (Real.logb 10 x)) (awc : ℝ) (ha : 1 ≤ awc) (p e : ℕ → ℝ)
    (hp : ∀ t, 0 ≤ p t) (he : ∀ t, 0 ≤ e t) (kc : Coefs (Fl ℝ)) (c : Coef) (h : Holds12 kc c) (L a k n : ℕ) (hk0 : 0 < k) (hk : 12 * (a + k) ≤ L)
    (hn : a + k ≤ n) (tail : List (Balance (Fl ℝ))) (hs : ∀ j, j < 12 → 0 < supply awc p e a k j) (hd : ∀ j, j < 12 → 0 < D awc p e c a k j)
    (ht : total awc p e c a k ≠ 0) :
    kfactors log10 kc (((List.range L).map (month awc p e)).map (Balance.map Fl.fin) ++ tail) n
      ((List.range 12).map (monthSums a (a + k - 1 : ℤ) (((List.range L).map (month awc p e)).map (Balance.map Fl.fin) ++ tail))) a (a + k - 1 : ℤ) =
      .ok ((List.range 12).map (fun j => fin (weight awc p e c a k j))) := by
  unfold kfactors
  rw [kfactorRows_eq n a k hn]
  simp only [bind, Except.bind, pure, Except.pure]
  have hdb : (List.range 12).map (fun m => sabsd kc (((List.range L).map (month awc p e)).map (Balance.map Fl.fin) ++ tail)
        ((List.range k).map (fun y : ℕ => a + y)) m / lit ((a + k - 1 - a + 1 : ℤ) : ℚ)) =
      (List.range 12).map (fun j => (fin (D awc p e c a k j) : Fl ℝ)) := by
    apply List.map_congr_left
    intro j hj
    rw [sabsd_fin awc p e kc c h L a k j (List.mem_range.1 hj) hk tail, dbar_fin awc p e c a k j hk0]
  rw [hdb, zipWith_range]
  have hT0 : ∀ j, j < 12 → 0 ≤ T awc p e a k j := by
    intro j hj
    have h0 : ∀ f : ℕ → ℝ, (∀ t, 0 ≤ f t) → 0 ≤ mean a k j f := fun f hf => div_nonneg (calSum_nonneg a k j f hf) (Nat.cast_nonneg k)
    refine div_nonneg ?_ (hs j hj).le
    have h1 := h0 e he
    have h2 := h0 (recharge awc p e) (fun t => (month_within awc ha p e hp he t).r0)
    have h3 := h0 (runoff awc p e) (fun t => (month_within awc ha p e hp he t).ro0)
    linarith
  have hak : (List.range 12).map (fun j => lit 1.5 * log10 ((trat (monthSums a (a + k - 1 : ℤ)
        (((List.range L).map (month awc p e)).map (Balance.map Fl.fin) ++ tail) j) + lit 2.8) / fin (D awc p e c a k j)) + lit 0.5) =
      (List.range 12).map (fun j => (fin (K' awc p e c a k j) : Fl ℝ)) := by
    apply List.map_congr_left
    intro j hj
    rw [List.mem_range] at hj
    rw [trat_fin awc p e L a k j hk0 hj hk tail (hs j hj).ne']
    have e1 : (lit 2.8 : Fl ℝ) = fin 2.8 := by rw [Fl.lit_def]; norm_num
    have e2 : (lit 1.5 : Fl ℝ) = fin 1.5 := by rw [Fl.lit_def]; norm_num
    have e3 : (lit 0.5 : Fl ℝ) = fin 0.5 := by rw [Fl.lit_def]; norm_num
    rw [e1, e2, e3, fin_add, fin_div_of_ne _ _ (hd j hj).ne', hlog _ (div_pos (by have := hT0 j hj; linarith) (hd j hj)), fin_mul, fin_add]
    rfl
  rw [hak, zipWith_range]
  simp only [fin_mul]
  have hsum : fsum ((List.range 12).map (fun j => (fin (D awc p e c a k j * K' awc p e c a k j) : Fl ℝ))) = fin (total awc p e c a k) := by
    have : (List.range 12).map (fun j => (fin (D awc p e c a k j * K' awc p e c a k j) : Fl ℝ)) =
        ((List.range 12).map (fun j => D awc p e c a k j * K' awc p e c a k j)).map Fl.fin := by rw [List.map_map]; rfl
    rw [this, fsum_fin, list_sum_range]
    rfl
  rw [hsum, List.map_map]
  congr 1
  apply List.map_congr_left
  intro j _
  simp only [Function.comp]
  have e4 : (lit 17.67 : Fl ℝ) = fin 17.67 := by rw [Fl.lit_def]; norm_num
  rw [e4, fin_mul, fin_div_of_ne _ _ ht]
  congr 1
  unfold weight
  ring

/-- the Z values of the months of the record -/
theorem zValues_months (awc : ℝ) (p e : ℕ → ℝ) (kc : Coefs (Fl ℝ)) (c : Coef) (h : Holds12 kc c) (L a k : ℕ) (tail : List (Balance (Fl ℝ))) :
    (zValues kc ((List.range 12).map (fun j => fin (weight awc p e c a k j)))
      (((List.range L).map (month awc p e)).map (Balance.map Fl.fin) ++ tail)).take L =
      (List.range L).map (fun t => (fin (Z awc p e c a k t) : Fl ℝ)) := by
  rw [zValues_take, List.take_left' (by simp)]
  unfold zValues
  apply List.ext_getElem
  · simp
  · intro t h1 h2
    have ht : t < L := by simpa using h2
    simp only [List.getElem_map, List.getElem_zipIdx, List.getElem_range, Nat.zero_add]
    have hw : coefAt ((List.range 12).map (fun j => (fin (weight awc p e c a k j) : Fl ℝ))) (t % 12) = fin (weight awc p e c a k (t % 12)) := by
      unfold coefAt
      rw [List.getD_eq_getElem?_getD, List.getElem?_map, List.getElem?_range (by omega)]
      rfl
    rw [hw, departure_fin awc p e kc c h t, fin_mul]
    rfl

/-- a record of real numbers as an array -/
noncomputable def realSeries (L : ℕ) (p : ℕ → ℝ) : Arr (Fl ℝ) := Arr.of1d ((List.range L).map (fun t : ℕ => (fin (p t) : Fl ℝ)))

/-- the body of `pdsi` for a record of non-negative numbers -/
theorem palmerPdsi_series (log10 : Fl ℝ → Fl ℝ) (awc : ℝ) (ha : 1 ≤ awc) (p e : ℕ → ℝ) (hp : ∀ t, 0 ≤ p t) (he : ∀ t, 0 ≤ e t) (L : ℕ) (hL : 0 < L)
    (ds cs ce : ℤ) (fp : Option (PalmerDict (Fl ℝ))) :
    ∃ n tail, (L ≤ 12 * n ∧ 12 * n < L + 12) ∧ tail.length = 12 * n - L ∧ palmerPdsi log10 (realSeries L p) (realSeries L e) (fin awc) ds cs ce fp =
      (let bs := ((List.range L).map (month awc p e)).map (Balance.map Fl.fin) ++ tail
       let sums := (List.range 12).map (monthSums (cs - ds) (ce - ds) bs)
       do
        let ak ← kfactors log10 (palmerCoefs fp sums) bs n sums (cs - ds) (ce - ds)
        let cells ← spellCells (zValues (palmerCoefs fp sums) ak bs)
        pure ⟨Arr.of1d ((cells.map (·.pdsi)).take L), Arr.of1d ((cells.map (·.phdi)).take L),
          Arr.of1d ((cells.map (·.wplm)).take L), Arr.of1d ((zValues (palmerCoefs fp sums) ak bs).take L), some (palmerCoefs fp sums)⟩) := by
  have hlen : ∀ f : ℕ → ℝ, ((List.range L).map (fun t : ℕ => (fin (f t) : Fl ℝ))).length = L := by intro f; simp
  have hn : allNan ((List.range L).map (fun t : ℕ => (fin (p t) : Fl ℝ))) = false := by
    unfold allNan
    rw [← Bool.not_eq_true, List.all_eq_true]
    intro h
    have := h (fin (p 0)) (List.mem_map.2 ⟨0, List.mem_range.2 hL, rfl⟩)
    cases this
  have hclip : clipNeg ((List.range L).map (fun t : ℕ => (fin (p t) : Fl ℝ))) = (List.range L).map (fun t : ℕ => (fin (p t) : Fl ℝ)) := by
    apply clipNeg_id
    intro v hv
    obtain ⟨t, _, rfl⟩ := List.mem_map.1 hv
    rw [lit_zero, flt_fin]
    simpa using hp t
  obtain ⟨m, hm⟩ := amin_ok _ (ne_nil_of_allNan _ hn)
  have hc : (if flt m (lit 0) then ((List.range L).map (fun t : ℕ => (fin (p t) : Fl ℝ))).map (npClipMin (lit 0))
      else (List.range L).map (fun t : ℕ => (fin (p t) : Fl ℝ))) = (List.range L).map (fun t : ℕ => (fin (p t) : Fl ℝ)) := by
    have := hclip
    unfold clipNeg at this
    rw [hm] at this
    exact this
  have hmul := padCount_mul L 12 (by decide)
  have hr := reshapeTo2d_of1d ((List.range L).map (fun t : ℕ => (fin (p t) : Fl ℝ))) 12 (by decide)
  have hr2 := reshapeTo2d_of1d ((List.range L).map (fun t : ℕ => (fin (e t) : Fl ℝ))) 12 (by decide)
  rw [hlen] at hr hr2
  obtain ⟨tail, hw, htl⟩ := waterBalances_months awc ha p e hp he L (List.replicate (padCount L 12) (nan, nan))
  have hz : List.zip ((List.range L).map (fun t : ℕ => (fin (p t) : Fl ℝ)) ++ List.replicate (padCount L 12) nan)
      ((List.range L).map (fun t : ℕ => (fin (e t) : Fl ℝ)) ++ List.replicate (padCount L 12) nan) =
      (List.range L).map (fun t : ℕ => ((fin (p t) : Fl ℝ), (fin (e t) : Fl ℝ))) ++ List.replicate (padCount L 12) (nan, nan) := by
    rw [List.zip_append (by simp), List.zip_eq_zipWith, zipWith_range]
    simp
  have hlt := padCount_lt L 12 (by decide)
  refine ⟨(L + padCount L 12) / 12, tail, by omega, by rw [htl, List.length_replicate]; omega, ?_⟩
  unfold palmerPdsi realSeries
  rw [if_neg (by rw [show ∀ l : List (Fl ℝ), (Arr.of1d l).data = l from fun _ => rfl, hn]; simp), if_neg (by
    show ¬ ((List.range L).map (fun t : ℕ => (fin (p t) : Fl ℝ))).length ≠ ((List.range L).map (fun t : ℕ => (fin (e t) : Fl ℝ))).length
    rw [hlen, hlen]; simp)]
  have hr' : ∀ l : List (Fl ℝ), (⟨(Arr.of1d l).shape, l⟩ : Arr (Fl ℝ)) = Arr.of1d l := fun _ => rfl
  simp only [show ∀ l : List (Fl ℝ), (Arr.of1d l).data = l from fun _ => rfl, hm, bind, Except.bind, hc, hr', hr, hr2, hlen]
  unfold palmerBody
  simp only [hz, hw, bind, Except.bind]

/-- the Z values when the coefficients in use are `c` -/
theorem zindex_value (log10 : Fl ℝ → Fl ℝ) (hlog : ∀ x, 0 < x → log10 (.fin x) = .fin (Real.logb 10 x)) (awc : ℝ) (ha : 1 ≤ awc) (p e : ℕ → ℝ)
    (hp : ∀ t, 0 ≤ p t) (he : ∀ t, 0 ≤ e t) (L a k : ℕ) (hk0 : 0 < k) (hk : 12 * (a + k) ≤ L) (ds : ℤ) (fp : Option (PalmerDict (Fl ℝ))) (c : Coef)
    (hc : ∀ tail, Holds12 (palmerCoefs fp ((List.range 12).map
      (monthSums a (a + k - 1 : ℤ) (((List.range L).map (month awc p e)).map (Balance.map Fl.fin) ++ tail)))) c)
    (hs : ∀ j, j < 12 → 0 < supply awc p e a k j) (hd : ∀ j, j < 12 → 0 < D awc p e c a k j) (ht : total awc p e c a k ≠ 0) (out : PalmerOut (Fl ℝ))
    (h : palmerPdsi log10 (realSeries L p) (realSeries L e) (fin awc) ds (ds + a) (ds + a + k - 1) fp = .ok out) :
    out.z.data = (List.range L).map (fun t => (fin (Z awc p e c a k t) : Fl ℝ)) := by
  obtain ⟨n, tail, hn, _, hrun⟩ := palmerPdsi_series log10 awc ha p e hp he L (by omega) ds (ds + a) (ds + a + k - 1) fp
  rw [hrun] at h
  have e1 : ds + (a : ℤ) - ds = a := by ring
  have e2 : ds + (a : ℤ) + k - 1 - ds = a + k - 1 := by ring
  simp only [e1, e2, bind, Except.bind, pure, Except.pure] at h
  rw [kfactors_fin log10 hlog awc ha p e hp he _ c (hc tail) L a k n hk0 hk (by omega) tail hs hd ht] at h
  simp only at h
  split at h
  · cases h
  · cases h
    exact zValues_months awc p e _ c (hc tail) L a k tail

/-! ## C86 -/

/-- C86 (`_partial`: without the last three hypotheses it is false, see `C86_fails`): for a record of non-negative numbers, an available water capacity of at
least 1 and a calibration period of `k` complete years of the record, starting with year number `a`: the Z-index is Palmer's, computed with the coefficients
of the calibration period. The hypotheses say that in every calendar month there is some moisture supply and some departure in the calibration years, and
that the weights can be normalised. -/
theorem C86_partial (log10 : Fl ℝ → Fl ℝ) (hlog : ∀ x, 0 < x → log10 (.fin x) = .fin (Real.logb 10 x)) (awc : ℝ) (ha : 1 ≤ awc) (p e : ℕ → ℝ)
    (hp : ∀ t, 0 ≤ p t) (he : ∀ t, 0 ≤ e t) (L a k : ℕ) (hk0 : 0 < k) (hk : 12 * (a + k) ≤ L) (ds : ℤ)
    (hs : ∀ j, j < 12 → 0 < supply awc p e a k j) (hd : ∀ j, j < 12 → 0 < D awc p e (coef awc p e a k) a k j)
    (ht : total awc p e (coef awc p e a k) a k ≠ 0) (out : PalmerOut (Fl ℝ))
    (h : palmerPdsi log10 (realSeries L p) (realSeries L e) (fin awc) ds (ds + a) (ds + a + k - 1) none = .ok out) :
    out.z.data = (List.range L).map (fun t => (fin (Z awc p e (coef awc p e a k) a k t) : Fl ℝ)) :=
  zindex_value log10 hlog awc ha p e hp he L a k hk0 hk ds none _ (fun tail => holds_calibrated awc p e L a k hk0 hk tail) hs hd ht out h

/-- C86 for given coefficients (`_partial`, same hypotheses): the Z-index is Palmer's with the coefficients of the dictionary. -/
theorem C86_given_partial (log10 : Fl ℝ → Fl ℝ) (hlog : ∀ x, 0 < x → log10 (.fin x) = .fin (Real.logb 10 x)) (awc : ℝ) (ha : 1 ≤ awc) (p e : ℕ → ℝ)
    (hp : ∀ t, 0 ≤ p t) (he : ∀ t, 0 ≤ e t) (L a k : ℕ) (hk0 : 0 < k) (hk : 12 * (a + k) ≤ L) (ds : ℤ) (d : PalmerDict (Fl ℝ)) (c : Coef)
    (h1 : d.lookup "alpha" = some (some ((List.range 12).map (fun j => fin (c.alpha j)))))
    (h2 : d.lookup "beta" = some (some ((List.range 12).map (fun j => fin (c.beta j)))))
    (h3 : d.lookup "gamma" = some (some ((List.range 12).map (fun j => fin (c.gamma j)))))
    (h4 : d.lookup "delta" = some (some ((List.range 12).map (fun j => fin (c.delta j)))))
    (hs : ∀ j, j < 12 → 0 < supply awc p e a k j) (hd : ∀ j, j < 12 → 0 < D awc p e c a k j)
    (ht : total awc p e c a k ≠ 0) (out : PalmerOut (Fl ℝ))
    (h : palmerPdsi log10 (realSeries L p) (realSeries L e) (fin awc) ds (ds + a) (ds + a + k - 1) (some d) = .ok out) :
    out.z.data = (List.range L).map (fun t => (fin (Z awc p e c a k t) : Fl ℝ)) := by
  refine zindex_value log10 hlog awc ha p e hp he L a k hk0 hk ds (some d) c (fun tail => ?_) hs hd ht out h
  unfold palmerCoefs validateFittingParams usableParam
  simp only [h1, h2, h3, h4, List.length_map, List.length_range, if_true]
  intro j hj
  have key : ∀ f : ℕ → ℝ, coefAt ((List.range 12).map (fun j => (fin (f j) : Fl ℝ))) j = fin (f j) := by
    intro f
    unfold coefAt
    rw [List.getD_eq_getElem?_getD, List.getElem?_map, List.getElem?_range hj]
    rfl
  exact ⟨key _, key _, key _, key _⟩

/-- C86, normalisation (`_partial`, same hypotheses and positive weights): the mean absolute Z values of the twelve calendar months over the calibration
years add up to 17.67, whatever the climate. -/
theorem C86_normalised_partial (log10 : Fl ℝ → Fl ℝ) (hlog : ∀ x, 0 < x → log10 (.fin x) = .fin (Real.logb 10 x)) (awc : ℝ) (ha : 1 ≤ awc) (p e : ℕ → ℝ)
    (hp : ∀ t, 0 ≤ p t) (he : ∀ t, 0 ≤ e t) (L a k : ℕ) (hk0 : 0 < k) (hk : 12 * (a + k) ≤ L) (ds : ℤ)
    (hs : ∀ j, j < 12 → 0 < supply awc p e a k j) (hd : ∀ j, j < 12 → 0 < D awc p e (coef awc p e a k) a k j)
    (hK : ∀ j, j < 12 → 0 < K' awc p e (coef awc p e a k) a k j) (out : PalmerOut (Fl ℝ))
    (h : palmerPdsi log10 (realSeries L p) (realSeries L e) (fin awc) ds (ds + a) (ds + a + k - 1) none = .ok out) :
    ∃ z : ℕ → ℝ, out.z.data = (List.range L).map (fun t => (fin (z t) : Fl ℝ)) ∧
      ∑ j ∈ Finset.range 12, (∑ y ∈ Finset.range k, |z (12 * (a + y) + j)|) / k = 17.67 := by
  have htot : 0 < total awc p e (coef awc p e a k) a k := by
    unfold total
    refine Finset.sum_pos (fun j hj => ?_) ⟨0, by simp⟩
    rw [Finset.mem_range] at hj
    exact mul_pos (hd j hj) (hK j hj)
  refine ⟨_, C86_partial log10 hlog awc ha p e hp he L a k hk0 hk ds hs hd htot.ne' out h, ?_⟩
  have hz : ∀ j ∈ Finset.range 12, (∑ y ∈ Finset.range k, |Z awc p e (coef awc p e a k) a k (12 * (a + y) + j)|) / k =
      17.67 / total awc p e (coef awc p e a k) a k * (D awc p e (coef awc p e a k) a k j * K' awc p e (coef awc p e a k) a k j) := by
    intro j hj
    rw [Finset.mem_range] at hj
    have hw : 0 < weight awc p e (coef awc p e a k) a k j := by
      unfold weight
      exact mul_pos (div_pos (by norm_num) htot) (hK j hj)
    have : ∀ y, |Z awc p e (coef awc p e a k) a k (12 * (a + y) + j)| =
        weight awc p e (coef awc p e a k) a k j * |departure awc p e (coef awc p e a k) (12 * (a + y) + j)| := by
      intro y
      unfold Z
      rw [abs_mul, show (12 * (a + y) + j) % 12 = j by omega, abs_of_pos hw]
    simp only [this]
    rw [← Finset.mul_sum]
    unfold D mean weight
    ring
  rw [Finset.sum_congr rfl hz, ← Finset.mul_sum]
  show 17.67 / total awc p e (coef awc p e a k) a k * total awc p e (coef awc p e a k) a k = 17.67
  exact div_mul_cancel₀ _ htot.ne'

/-! ## A calendar month without departures -/

theorem zeroWeight (x : Fl ℝ) (log10 : Fl ℝ → Fl ℝ) (h1 : log10 .pinf = .pinf) (h2 : log10 .nan = .nan) (hx : (∃ r : ℝ, 0 ≤ r ∧ x = .fin r) ∨ x = .pinf ∨ x = .nan) :
    (fin 0 : Fl ℝ) * (lit 1.5 * log10 ((x + lit 2.8) / fin 0) + lit 0.5) = .nan := by
  have e1 : (lit 2.8 : Fl ℝ) = fin 2.8 := by rw [Fl.lit_def]; norm_num
  have e2 : (lit 1.5 : Fl ℝ) = fin 1.5 := by rw [Fl.lit_def]; norm_num
  have e3 : (lit 0.5 : Fl ℝ) = fin 0.5 := by rw [Fl.lit_def]; norm_num
  have hinf : (fin 0 : Fl ℝ) * (lit 1.5 * .pinf + lit 0.5) = .nan := by
    rw [e2, e3]
    have : (fin 1.5 : Fl ℝ) * .pinf = .pinf := by
      show infSign (1.5 : ℝ) = _
      unfold infSign
      norm_num
    rw [this]
    show infSign (0 : ℝ) = _
    unfold infSign
    norm_num
  have hnan : (fin 0 : Fl ℝ) * (lit 1.5 * .nan + lit 0.5) = .nan := by
    rw [show (.nan : Fl ℝ) = nan from rfl, FloatLaws.mul_nan, FloatLaws.nan_add, FloatLaws.mul_nan]
  rcases hx with ⟨r, hr, rfl⟩ | rfl | rfl
  · rw [e1, fin_add, fin_div, if_pos rfl]
    have : infSign (r + 2.8) = (.pinf : Fl ℝ) := by
      unfold infSign
      rw [if_neg (by linarith), if_pos (by linarith)]
    rw [this, h1]
    exact hinf
  · have : ((.pinf : Fl ℝ) + lit 2.8) / fin 0 = .pinf := by
      rw [e1]
      show (if (0 : ℝ) ≤ 0 then Fl.pinf else Fl.ninf) = _
      rw [if_pos le_rfl]
    rw [this, h1]
    exact hinf
  · rw [show (.nan : Fl ℝ) = nan from rfl, FloatLaws.nan_add, FloatLaws.nan_div]
    rw [show (nan : Fl ℝ) = .nan from rfl, h2]
    exact hnan

/-- if some calendar month has no departure in the calibration years, no weighting factor is a number -/
theorem kfactors_zero (log10 : Fl ℝ → Fl ℝ) (l1 : log10 .pinf = .pinf) (l2 : log10 .nan = .nan) (awc : ℝ) (ha : 1 ≤ awc) (p e : ℕ → ℝ)
    (hp : ∀ t, 0 ≤ p t) (he : ∀ t, 0 ≤ e t) (kc : Coefs (Fl ℝ)) (c : Coef) (h : Holds12 kc c) (L a k n : ℕ) (hk0 : 0 < k) (hk : 12 * (a + k) ≤ L)
    (hn : a + k ≤ n) (tail : List (Balance (Fl ℝ))) (j : ℕ) (hj : j < 12) (hd : D awc p e c a k j = 0) :
    kfactors log10 kc (((List.range L).map (month awc p e)).map (Balance.map Fl.fin) ++ tail) n
      ((List.range 12).map (monthSums a (a + k - 1 : ℤ) (((List.range L).map (month awc p e)).map (Balance.map Fl.fin) ++ tail))) a (a + k - 1 : ℤ) =
      .ok (List.replicate 12 nan) := by
  unfold kfactors
  rw [kfactorRows_eq n a k hn]
  simp only [bind, Except.bind, pure, Except.pure]
  have hdb : (List.range 12).map (fun m => sabsd kc (((List.range L).map (month awc p e)).map (Balance.map Fl.fin) ++ tail)
        ((List.range k).map (fun y : ℕ => a + y)) m / lit ((a + k - 1 - a + 1 : ℤ) : ℚ)) =
      (List.range 12).map (fun j => (fin (D awc p e c a k j) : Fl ℝ)) := by
    apply List.map_congr_left
    intro j hj
    rw [sabsd_fin awc p e kc c h L a k j (List.mem_range.1 hj) hk tail, dbar_fin awc p e c a k j hk0]
  rw [hdb, zipWith_range, zipWith_range]
  have hx : ∀ x : MonthSums (Fl ℝ), x = monthSums a (a + k - 1 : ℤ) (((List.range L).map (month awc p e)).map (Balance.map Fl.fin) ++ tail) j →
      (∃ r : ℝ, 0 ≤ r ∧ trat x = .fin r) ∨ trat x = .pinf ∨ trat x = .nan := by
    intro x hx
    rw [monthSums_months awc p e L j a k hj hk tail] at hx
    subst hx
    unfold trat
    simp only [fin_add]
    have w := month_within awc ha p e hp he
    have n1 : 0 ≤ calSum a k j e + calSum a k j (recharge awc p e) + calSum a k j (runoff awc p e) := by
      have h1 := calSum_nonneg a k j e he
      have h2 := calSum_nonneg a k j (recharge awc p e) (fun t => (w t).r0)
      have h3 := calSum_nonneg a k j (runoff awc p e) (fun t => (w t).ro0)
      linarith
    have n2 : 0 ≤ calSum a k j p + calSum a k j (loss awc p e) := by
      have h1 := calSum_nonneg a k j p hp
      have h2 := calSum_nonneg a k j (loss awc p e) (fun t => (w t).tl0)
      linarith
    by_cases h0 : calSum a k j p + calSum a k j (loss awc p e) = 0
    · right
      rw [fin_div, if_pos h0]
      unfold infSign
      split
      · exact Or.inr rfl
      · next h1 => rw [if_pos (lt_of_le_of_ne n1 (Ne.symm h1))]; exact Or.inl rfl
    · left
      rw [fin_div_of_ne _ _ h0]
      exact ⟨_, div_nonneg n1 n2, rfl⟩
  have hsum : fsum ((List.range 12).map (fun m => (fin (D awc p e c a k m) : Fl ℝ) * (lit 1.5 * log10 ((trat (monthSums a (a + k - 1 : ℤ)
        (((List.range L).map (month awc p e)).map (Balance.map Fl.fin) ++ tail) m) + lit 2.8) / fin (D awc p e c a k m)) + lit 0.5))) = nan := by
    refine FloatLaws.fsum_nan _ (List.mem_map.2 ⟨j, List.mem_range.2 hj, ?_⟩)
    rw [hd]
    exact zeroWeight _ log10 l1 l2 (hx _ rfl)
  rw [hsum]
  congr 1
  rw [List.eq_replicate_iff]
  refine ⟨by simp, ?_⟩
  intro x hx
  obtain ⟨y, _, rfl⟩ := List.mem_map.1 hx
  rw [FloatLaws.div_nan]

/-- all Z values are missing and all other indices zero -/
def Collapsed (out : PalmerOut (Fl ℝ)) (L : ℕ) : Prop :=
  out.z.data = List.replicate L .nan ∧ out.pdsi.data = List.replicate L (.fin 0) ∧ out.phdi.data = List.replicate L (.fin 0) ∧
    out.pmdi.data = List.replicate L (.fin 0)

/-- C86 is false: if in one calendar month precipitation never departs from the climatically appropriate one in the calibration years, **all** Z values of
**all** months are missing and all PDSI, PHDI and PMDI are zero. -/
theorem C86_fails (log10 : Fl ℝ → Fl ℝ) (l1 : log10 .pinf = .pinf) (l2 : log10 .nan = .nan) (awc : ℝ) (ha : 1 ≤ awc) (p e : ℕ → ℝ)
    (hp : ∀ t, 0 ≤ p t) (he : ∀ t, 0 ≤ e t) (L a k : ℕ) (hk0 : 0 < k) (hk : 12 * (a + k) ≤ L) (ds : ℤ) (j : ℕ) (hj : j < 12)
    (hd : D awc p e (coef awc p e a k) a k j = 0) :
    ∃ out, palmerPdsi log10 (realSeries L p) (realSeries L e) (fin awc) ds (ds + a) (ds + a + k - 1) none = .ok out ∧ Collapsed out L := by
  obtain ⟨n, tail, hn, htl, hrun⟩ := palmerPdsi_series log10 awc ha p e hp he L (by omega) ds (ds + a) (ds + a + k - 1) none
  have e1 : ds + (a : ℤ) - ds = a := by ring
  have e2 : ds + (a : ℤ) + k - 1 - ds = a + k - 1 := by ring
  obtain ⟨cells, g1, g2, g3⟩ := spellCells_replicate_nan (F := Fl ℝ) (12 * n)
  have hbl : (((List.range L).map (month awc p e)).map (Balance.map Fl.fin) ++ tail).length = 12 * n := by simp; omega
  have hk' := kfactors_zero log10 l1 l2 awc ha p e hp he _ _ (holds_calibrated awc p e L a k hk0 hk tail) L a k n hk0 hk (by omega) tail j hj hd
  rw [hrun]
  simp only [e1, e2, bind, Except.bind, pure, Except.pure]
  have hpc : palmerCoefs none ((List.range 12).map (monthSums a (a + k - 1 : ℤ) (((List.range L).map (month awc p e)).map (Balance.map Fl.fin) ++ tail))) =
      cafecCoefficients ((List.range 12).map (monthSums a (a + k - 1 : ℤ) (((List.range L).map (month awc p e)).map (Balance.map Fl.fin) ++ tail))) := rfl
  rw [hpc, hk']
  simp only [zValues_nan, hbl, g1]
  refine ⟨_, rfl, ?_, ?_, ?_, ?_⟩
  · show (List.replicate (12 * n) nan).take L = _
    rw [List.take_replicate, Nat.min_eq_left hn.1]
    rfl
  all_goals
    show (List.map _ cells).take L = _
    rw [List.eq_replicate_iff]
    refine ⟨by rw [List.length_take, List.length_map, g2]; omega, ?_⟩
    intro x hx
    obtain ⟨c, hcm, rfl⟩ := List.mem_map.1 (List.mem_of_mem_take hx)
    obtain ⟨q1, q2, q3⟩ := g3 c hcm
    rw [lit_zero] at q1 q2 q3
    first
      | exact q1
      | exact q2
      | exact q3

/-- a month without rain on an empty soil in every calibration year, as in a desert: everything collapses -/
theorem C86_desert_fails (log10 : Fl ℝ → Fl ℝ) (l1 : log10 .pinf = .pinf) (l2 : log10 .nan = .nan) (awc : ℝ) (ha : 1 ≤ awc) (p e : ℕ → ℝ)
    (hp : ∀ t, 0 ≤ p t) (he : ∀ t, 0 ≤ e t) (L a k : ℕ) (hk0 : 0 < k) (hk : 12 * (a + k) ≤ L) (ds : ℤ) (j : ℕ) (hj : j < 12)
    (hdry : ∀ y, y < k → p (12 * (a + y) + j) = 0 ∧ soil awc p e (12 * (a + y) + j) = (0, 0)) :
    ∃ out, palmerPdsi log10 (realSeries L p) (realSeries L e) (fin awc) ds (ds + a) (ds + a + k - 1) none = .ok out ∧ Collapsed out L := by
  refine C86_fails log10 l1 l2 awc ha p e hp he L a k hk0 hk ds j hj ?_
  have hk' : (k : ℝ) ≠ 0 := Nat.cast_ne_zero.2 (by omega)
  have hz : ∀ f : ℕ → ℝ, (∀ y, y < k → f (12 * (a + y) + j) = 0) → mean a k j f = 0 := by
    intro f hf
    unfold mean
    rw [Finset.sum_eq_zero (fun y hy => hf y (Finset.mem_range.1 hy)), zero_div]
  have hloss : ∀ y, y < k → loss awc p e (12 * (a + y) + j) = 0 := by
    intro y hy
    obtain ⟨h1, h2⟩ := hdry y hy
    have : (0 : ℝ) ≤ deficit 0 (e (12 * (a + y) + j)) := le_max_right _ _
    unfold loss lossLower lossUpper
    rw [h1, h2]
    simp [this]
  have hpl : ∀ y, y < k → potLoss awc p e (12 * (a + y) + j) = 0 := by
    intro y hy
    obtain ⟨h1, h2⟩ := hdry y hy
    have : (0 : ℝ) ≤ deficit 0 (e (12 * (a + y) + j)) := le_max_right _ _
    unfold potLoss lossLower lossUpper
    rw [h2]
    simp [this]
  have hev : ∀ y, y < k → evap awc p e (12 * (a + y) + j) = 0 := by
    intro y hy
    unfold evap
    rw [hloss y hy, (hdry y hy).1, min_eq_left (he _), add_zero]
  have hre : ∀ y, y < k → recharge awc p e (12 * (a + y) + j) = 0 := by
    intro y hy
    obtain ⟨h1, h2⟩ := hdry y hy
    have : surplus 0 (e (12 * (a + y) + j)) = 0 := max_eq_right (by have := he (12 * (a + y) + j); linarith)
    unfold recharge gainLower gainUpper
    rw [h1, h2, this]
    have : (0 : ℝ) ≤ awc - 1 := by linarith
    simp [this]
  apply hz
  intro y hy
  show |departure awc p e (coef awc p e a k) (12 * (a + y) + j)| = 0
  rw [abs_eq_zero]
  unfold departure
  rw [show (12 * (a + y) + j) % 12 = j by omega, (hdry y hy).1, hpl y hy]
  have hro : potRunoff awc p e (12 * (a + y) + j) = 0 := by unfold potRunoff; rw [(hdry y hy).2]; simp
  rw [hro]
  have hal : (coef awc p e a k).alpha j * e (12 * (a + y) + j) = 0 := by
    show ratio (mean a k j (evap awc p e)) (mean a k j e) * _ = 0
    rw [hz _ hev]
    unfold ratio
    by_cases h0 : mean a k j e = 0
    · rw [mean_calSum, div_eq_zero_iff, or_iff_left hk'] at h0
      unfold calSum at h0
      rw [Finset.sum_eq_zero_iff_of_nonneg (fun y _ => he _)] at h0
      rw [h0 y (Finset.mem_range.2 hy), mul_zero]
    · rw [if_neg h0, zero_div, zero_mul]
  have hbe : (coef awc p e a k).beta j = 0 := by
    show ratio (mean a k j (recharge awc p e)) (mean a k j (potRecharge awc p e)) = 0
    rw [hz _ hre]
    unfold ratio
    have : mean a k j (potRecharge awc p e) = awc := by
      have : ∀ y ∈ Finset.range k, potRecharge awc p e (12 * (a + y) + j) = awc := by
        intro y hy
        unfold potRecharge
        rw [(hdry y (Finset.mem_range.1 hy)).2]; simp
      unfold mean
      rw [Finset.sum_congr rfl this]
      simp [hk']
    rw [this, if_neg (by linarith), zero_div]
  rw [hal, hbe]
  simp

/-- the balance of a month closes -/
theorem month_conserve (awc : ℝ) (ha : 1 ≤ awc) (p e : ℕ → ℝ) (hp : ∀ t, 0 ≤ p t) (he : ∀ t, 0 ≤ e t) (t : ℕ) :
    p t = evap awc p e t + recharge awc p e t + runoff awc p e t - loss awc p e t := by
  have ih := soil_ok awc ha p e hp he t
  have hb := balK_month awc ha p e t (hp t) (he t) ih
  have hc := balK_conserve awc (soil awc p e t).1 (soil awc p e t).2 (p t) (e t)
  rw [hb] at hc
  obtain ⟨_, _, _, h1, h2⟩ := hc
  simp only [month] at h1 h2
  linarith

/-- a calibration period of a single year: everything collapses -/
theorem C86_one_year_fails (log10 : Fl ℝ → Fl ℝ) (l1 : log10 .pinf = .pinf) (l2 : log10 .nan = .nan) (awc : ℝ) (ha : 1 ≤ awc) (p e : ℕ → ℝ)
    (hp : ∀ t, 0 ≤ p t) (he : ∀ t, 0 ≤ e t) (L a : ℕ) (hk : 12 * (a + 1) ≤ L) (ds : ℤ) :
    ∃ out, palmerPdsi log10 (realSeries L p) (realSeries L e) (fin awc) ds (ds + a) (ds + a) none = .ok out ∧ Collapsed out L := by
  have key : ∀ j, j < 12 → (potRunoff awc p e (12 * a + j) ≠ 0 ∨ runoff awc p e (12 * a + j) = 0) → D awc p e (coef awc p e a 1) a 1 j = 0 := by
    intro j hj hro
    have hm : ∀ f : ℕ → ℝ, mean a 1 j f = f (12 * a + j) := by intro f; unfold mean; simp
    have w := month_within awc ha p e hp he (12 * a + j)
    unfold D
    rw [hm]
    rw [abs_eq_zero]
    unfold departure coef
    rw [show (12 * a + j) % 12 = j by omega]
    simp only [hm]
    have h1 : ratio (evap awc p e (12 * a + j)) (e (12 * a + j)) * e (12 * a + j) = evap awc p e (12 * a + j) := by
      unfold ratio
      by_cases h0 : e (12 * a + j) = 0
      · have g1 : 0 ≤ evap awc p e (12 * a + j) := w.et0
        have g2 : evap awc p e (12 * a + j) ≤ e (12 * a + j) := w.et1
        rw [h0, mul_zero]; linarith
      · rw [if_neg h0, div_mul_cancel₀ _ h0]
    have h2 : ratio (recharge awc p e (12 * a + j)) (potRecharge awc p e (12 * a + j)) * potRecharge awc p e (12 * a + j) =
        recharge awc p e (12 * a + j) := by
      unfold ratio
      by_cases h0 : potRecharge awc p e (12 * a + j) = 0
      · have g1 : 0 ≤ recharge awc p e (12 * a + j) := w.r0
        have g2 : recharge awc p e (12 * a + j) ≤ potRecharge awc p e (12 * a + j) := w.r1
        rw [h0, mul_zero]; linarith
      · rw [if_neg h0, div_mul_cancel₀ _ h0]
    have h3 : ratio (runoff awc p e (12 * a + j)) (potRunoff awc p e (12 * a + j)) * potRunoff awc p e (12 * a + j) =
        runoff awc p e (12 * a + j) := by
      unfold ratio
      by_cases h0 : potRunoff awc p e (12 * a + j) = 0
      · rcases hro with hro | hro
        · exact absurd h0 hro
        · rw [h0, mul_zero, hro]
      · rw [if_neg h0, div_mul_cancel₀ _ h0]
    have h4 : (if potLoss awc p e (12 * a + j) = 0 then 0 else loss awc p e (12 * a + j) / potLoss awc p e (12 * a + j)) * potLoss awc p e (12 * a + j) =
        loss awc p e (12 * a + j) := by
      by_cases h0 : potLoss awc p e (12 * a + j) = 0
      · have g1 : 0 ≤ loss awc p e (12 * a + j) := w.tl0
        have g2 : loss awc p e (12 * a + j) ≤ potLoss awc p e (12 * a + j) := w.tl1
        rw [h0, mul_zero]; linarith
      · rw [if_neg h0, div_mul_cancel₀ _ h0]
    rw [h1, h2, h3, h4]
    have := month_conserve awc ha p e hp he (12 * a + j)
    linarith
  have e1 : ds + (a : ℤ) + (1 : ℕ) - 1 = ds + a := by push_cast; ring
  have main := fun j hj hd => C86_fails log10 l1 l2 awc ha p e hp he L a 1 one_pos hk ds j hj hd
  rw [e1] at main
  by_cases h0 : runoff awc p e (12 * a) = 0
  · exact main 0 (by norm_num) (key 0 (by norm_num) (Or.inr h0))
  · -- runoff in the first month: the soil is full in the second
    refine main 1 (by norm_num) (key 1 (by norm_num) (Or.inl ?_))
    have w : 0 ≤ runoff awc p e (12 * a) := (month_within awc ha p e hp he (12 * a)).ro0
    have hpos : 0 < runoff awc p e (12 * a) := lt_of_le_of_ne w (Ne.symm h0)
    obtain ⟨b1, b2, b3, b4⟩ := soil_ok awc ha p e hp he (12 * a)
    have hs := soil_ok awc ha p e hp he (12 * a + 1)
    rw [max_eq_left (by linarith)] at b4
    unfold runoff recharge at hpos
    have hgu : gainUpper (soil awc p e (12 * a)).1 (p (12 * a)) (e (12 * a)) = 1 - (soil awc p e (12 * a)).1 := by
      by_contra hne
      unfold gainUpper at hne hpos
      rcases min_choice (surplus (p (12 * a)) (e (12 * a))) (1 - (soil awc p e (12 * a)).1) with h | h
      · rw [h] at hpos
        have hs0 : (0 : ℝ) ≤ surplus (p (12 * a)) (e (12 * a)) := le_max_right _ _
        have : 0 ≤ gainLower awc (soil awc p e (12 * a)).1 (soil awc p e (12 * a)).2 (p (12 * a)) (e (12 * a)) := by
          unfold gainLower gainUpper
          rw [h, sub_self]
          exact le_min le_rfl (by linarith)
        linarith
      · exact hne h
    have hdef : deficit (p (12 * a)) (e (12 * a)) = 0 := by
      apply max_eq_right
      by_contra hlt
      have hlt := not_le.1 hlt
      have h5 : surplus (p (12 * a)) (e (12 * a)) = 0 := max_eq_right (by linarith)
      rw [h5, hgu] at hpos
      have : 0 ≤ gainLower awc (soil awc p e (12 * a)).1 (soil awc p e (12 * a)).2 (p (12 * a)) (e (12 * a)) := by
        unfold gainLower
        have : gainUpper (soil awc p e (12 * a)).1 (p (12 * a)) (e (12 * a)) ≤ surplus (p (12 * a)) (e (12 * a)) := min_le_left _ _
        exact le_min (by linarith) (by linarith)
      linarith
    have hup : (soil awc p e (12 * a + 1)).1 = 1 := by
      show (soil awc p e (12 * a)).1 + gainUpper _ _ _ - lossUpper _ _ _ = 1
      unfold lossUpper
      rw [hgu, hdef, min_eq_left b1]
      ring
    unfold potRunoff
    rw [hup]
    have := hs.2.2.1
    linarith

/-! ## Concrete cases -/

/-- a `log10` -/
noncomputable def realLog10 : Fl ℝ → Fl ℝ
  | .fin x => if 0 < x then .fin (Real.logb 10 x) else if x = 0 then .ninf else .nan
  | .pinf => .pinf
  | _ => .nan

theorem realLog10_pos : ∀ x, 0 < x → realLog10 (.fin x) = .fin (Real.logb 10 x) := by
  intro x hx
  show (if 0 < x then _ else _) = _
  rw [if_pos hx]

/-- two years with 2 and 4 inches in every month, evapotranspiration 1 inch -/
noncomputable def wetYears (t : ℕ) : ℝ := if t < 12 then 2 else 4
noncomputable def oneInch (_ : ℕ) : ℝ := 1

theorem wetYears_ge (t : ℕ) : 2 ≤ wetYears t := by unfold wetYears; split <;> norm_num

theorem wetYears_soil (t : ℕ) : soil 1 wetYears oneInch t = (1, 0) := by
  induction t with
  | zero => simp [soil]
  | succ t ih =>
    have h := wetYears_ge t
    have hd : deficit (wetYears t) 1 = 0 := max_eq_right (by linarith)
    have hsu : (0 : ℝ) ≤ surplus (wetYears t) 1 := le_max_right _ _
    unfold soil
    simp only [ih]
    unfold gainLower gainUpper lossLower lossUpper oneInch
    rw [hd]
    simp [hsu]

theorem wetYears_parts (t : ℕ) : recharge 1 wetYears oneInch t = 0 ∧ loss 1 wetYears oneInch t = 0 ∧ runoff 1 wetYears oneInch t = wetYears t - 1 ∧
    evap 1 wetYears oneInch t = 1 ∧ potRecharge 1 wetYears oneInch t = 0 ∧ potRunoff 1 wetYears oneInch t = 1 := by
  have h := wetYears_ge t
  have hd : deficit (wetYears t) 1 = 0 := max_eq_right (by linarith)
  have hsu : surplus (wetYears t) 1 = wetYears t - 1 := max_eq_left (by linarith)
  have hl : loss 1 wetYears oneInch t = 0 := by
    unfold loss lossLower lossUpper oneInch
    have := wetYears_soil t
    unfold oneInch at this
    rw [this, hd]
    simp
  have hr : recharge 1 wetYears oneInch t = 0 := by
    unfold recharge gainLower gainUpper oneInch
    have := wetYears_soil t
    unfold oneInch at this
    rw [this, hsu]
    have : (0 : ℝ) ≤ wetYears t - 1 := by linarith
    simp [this]
  refine ⟨hr, hl, ?_, ?_, ?_, ?_⟩
  · unfold runoff; rw [hr]; show surplus (wetYears t) 1 - 0 = _; rw [hsu, sub_zero]
  · unfold evap; rw [hl]; show min (wetYears t) 1 + 0 = 1; rw [min_eq_right (by linarith), add_zero]
  · unfold potRecharge; rw [wetYears_soil]; norm_num
  · unfold potRunoff; rw [wetYears_soil]; norm_num

theorem wetYears_mean (f : ℕ → ℝ) (j : ℕ) : mean 0 2 j f = (f j + f (12 + j)) / 2 := by
  unfold mean
  rw [Finset.sum_range_succ, Finset.sum_range_succ, Finset.sum_range_zero]
  norm_num

theorem wetYears_j (j : ℕ) (hj : j < 12) : wetYears j = 2 ∧ wetYears (12 + j) = 4 := by
  unfold wetYears
  rw [if_pos hj, if_neg (by omega)]
  exact ⟨rfl, rfl⟩

theorem wetYears_departure (t : ℕ) : departure 1 wetYears oneInch (coef 1 wetYears oneInch 0 2) t = wetYears t - 3 := by
  obtain ⟨h1, h2, h3, h4, h5, h6⟩ := wetYears_parts t
  obtain ⟨w1, w2⟩ := wetYears_j (t % 12) (by omega)
  unfold departure coef
  simp only [wetYears_mean]
  have q := wetYears_parts (t % 12)
  have q' := wetYears_parts (12 + t % 12)
  rw [q.1, q.2.1, q.2.2.1, q.2.2.2.1, q.2.2.2.2.1, q.2.2.2.2.2, q'.1, q'.2.1, q'.2.2.1, q'.2.2.2.1, q'.2.2.2.2.1, q'.2.2.2.2.2, w1, w2, h5, h6]
  unfold ratio oneInch
  norm_num

theorem wetYears_D (j : ℕ) (hj : j < 12) : D 1 wetYears oneInch (coef 1 wetYears oneInch 0 2) 0 2 j = 1 := by
  unfold D
  rw [wetYears_mean]
  simp only [wetYears_departure]
  obtain ⟨w1, w2⟩ := wetYears_j j hj
  rw [w1, w2]
  norm_num

theorem wetYears_supply (j : ℕ) (hj : j < 12) : supply 1 wetYears oneInch 0 2 j = 3 := by
  unfold supply
  rw [wetYears_mean, wetYears_mean]
  obtain ⟨w1, w2⟩ := wetYears_j j hj
  rw [w1, w2, (wetYears_parts _).2.1, (wetYears_parts _).2.1]
  norm_num

theorem wetYears_K' (j : ℕ) (hj : j < 12) : K' 1 wetYears oneInch (coef 1 wetYears oneInch 0 2) 0 2 j = 1.5 * Real.logb 10 3.8 + 0.5 := by
  unfold K' T
  rw [wetYears_D j hj, wetYears_supply j hj, wetYears_mean, wetYears_mean, wetYears_mean]
  obtain ⟨w1, w2⟩ := wetYears_j j hj
  rw [(wetYears_parts _).1, (wetYears_parts _).1, (wetYears_parts _).2.2.1, (wetYears_parts _).2.2.1, w1, w2]
  unfold oneInch
  norm_num

theorem wetYears_K'_pos : (0 : ℝ) < 1.5 * Real.logb 10 3.8 + 0.5 := by
  have : 0 < Real.logb 10 (3.8 : ℝ) := Real.logb_pos (by norm_num) (by norm_num)
  linarith

/-- C86: the record meets the hypotheses; the first year has Z = -1.4725 in all months, the second 1.4725 (sum of the twelve means of |Z|: 17.67) -/
example : ∃ out, palmerPdsi realLog10 (realSeries 24 wetYears) (realSeries 24 oneInch) (fin 1) 2000 2000 2001 none = .ok out ∧
    out.z.data = List.replicate 12 (fin (-1.4725)) ++ List.replicate 12 (fin 1.4725) := by
  have hp : ∀ t, 0 ≤ wetYears t := fun t => by have := wetYears_ge t; linarith
  have he : ∀ t, 0 ≤ oneInch t := fun t => zero_le_one
  have hs : ∀ j, j < 12 → 0 < supply 1 wetYears oneInch 0 2 j := fun j hj => by rw [wetYears_supply j hj]; norm_num
  have hd : ∀ j, j < 12 → 0 < D 1 wetYears oneInch (coef 1 wetYears oneInch 0 2) 0 2 j := fun j hj => by rw [wetYears_D j hj]; norm_num
  have htot : total 1 wetYears oneInch (coef 1 wetYears oneInch 0 2) 0 2 = 12 * (1.5 * Real.logb 10 3.8 + 0.5) := by
    unfold total
    rw [Finset.sum_congr rfl (fun j hj => by rw [wetYears_D j (Finset.mem_range.1 hj), wetYears_K' j (Finset.mem_range.1 hj)])]
    simp
    ring
  have hpos := wetYears_K'_pos
  have htne : total 1 wetYears oneInch (coef 1 wetYears oneInch 0 2) 0 2 ≠ 0 := by rw [htot]; positivity
  obtain ⟨n, tail, hn, htl, hrun⟩ := palmerPdsi_series realLog10 1 le_rfl wetYears oneInch hp he 24 (by norm_num) 2000 2000 2001 none
  have hex : ∃ out, palmerPdsi realLog10 (realSeries 24 wetYears) (realSeries 24 oneInch) (fin 1) 2000 2000 2001 none = .ok out := by
    rw [hrun]
    have e1 : (2000 : ℤ) - 2000 = (0 : ℕ) := by norm_num
    have e2 : (2001 : ℤ) - 2000 = (0 : ℕ) + (2 : ℕ) - 1 := by norm_num
    simp only [e1, e2, bind, Except.bind, pure, Except.pure]
    have hk := kfactors_fin realLog10 realLog10_pos 1 le_rfl wetYears oneInch hp he _ _
      (holds_calibrated 1 wetYears oneInch 24 0 2 (by norm_num) (by norm_num) tail) 24 0 2 n (by norm_num) (by norm_num) (by omega) tail hs hd htne
    have hpc : ∀ s : List (MonthSums (Fl ℝ)), palmerCoefs none s = cafecCoefficients s := fun _ => rfl
    rw [hpc, hk]
    simp only
    obtain ⟨cells, hcells⟩ := C41_short (zValues (cafecCoefficients ((List.range 12).map (monthSums (0 : ℕ) ((0 : ℕ) + (2 : ℕ) - 1 : ℤ)
      (((List.range 24).map (month 1 wetYears oneInch)).map (Balance.map Fl.fin) ++ tail))))
      ((List.range 12).map (fun j => fin (weight 1 wetYears oneInch (coef 1 wetYears oneInch 0 2) 0 2 j)))
      (((List.range 24).map (month 1 wetYears oneInch)).map (Balance.map Fl.fin) ++ tail)) (by rw [zValues_length]; simp; omega)
    rw [hcells]
    exact ⟨_, rfl⟩
  obtain ⟨out, ho⟩ := hex
  refine ⟨out, ho, ?_⟩
  rw [C86_partial realLog10 realLog10_pos 1 le_rfl wetYears oneInch hp he 24 0 2 (by norm_num) (by norm_num) 2000 hs hd htne out (by
    rw [show (2000 : ℤ) + (0 : ℕ) = 2000 by norm_num, show (2000 : ℤ) + (2 : ℕ) - 1 = 2001 by norm_num]; exact ho)]
  have hZ : ∀ t, Z 1 wetYears oneInch (coef 1 wetYears oneInch 0 2) 0 2 t = if t < 12 then -1.4725 else 1.4725 := by
    intro t
    unfold Z weight
    rw [htot, wetYears_K' _ (by omega), wetYears_departure]
    have : 17.67 / (12 * (1.5 * Real.logb 10 3.8 + 0.5)) * (1.5 * Real.logb 10 3.8 + 0.5) = (1.4725 : ℝ) := by
      field_simp
      norm_num
    rw [this]
    unfold wetYears
    split <;> norm_num
  simp only [hZ]
  rfl

/-- a desert: 20 inches in January, no rain otherwise, evapotranspiration 10 inches -/
noncomputable def januaryRain (t : ℕ) : ℝ := if t % 12 = 0 then 20 else 0
noncomputable def tenInches (_ : ℕ) : ℝ := 10

/-- C86_desert_fails: the hypotheses are met in March (month 2) of any number of years -/
example (k : ℕ) (hk : 0 < k) : ∃ out, palmerPdsi realLog10 (realSeries (12 * k) januaryRain) (realSeries (12 * k) tenInches) (fin 2) 1900 1900 (1900 + k - 1) none = .ok out ∧
    Collapsed out (12 * k) := by
  have hp : ∀ t, 0 ≤ januaryRain t := fun t => by unfold januaryRain; split <;> norm_num
  have he : ∀ t, 0 ≤ tenInches t := fun t => by unfold tenInches; norm_num
  have := C86_desert_fails realLog10 rfl rfl 2 (by norm_num) januaryRain tenInches hp he (12 * k) 0 k hk (by omega) 1900 2 (by norm_num) (by
    intro y _
    have h0 : ∀ t, t % 12 ≠ 0 → januaryRain t = 0 := fun t ht => by unfold januaryRain; rw [if_neg ht]
    refine ⟨h0 _ (by omega), ?_⟩
    have h1 : januaryRain (12 * (0 + y) + 1) = 0 := h0 _ (by omega)
    obtain ⟨s1, s2, s3, s4⟩ := soil_ok 2 (by norm_num) januaryRain tenInches hp he (12 * (0 + y) + 1)
    show soil 2 januaryRain tenInches (12 * (0 + y) + 1 + 1) = (0, 0)
    unfold soil
    simp only [h1]
    generalize soil 2 januaryRain tenInches (12 * (0 + y) + 1) = q at s1 s2 s3 s4 ⊢
    have hs0 : surplus 0 (tenInches (12 * (0 + y) + 1)) = 0 := max_eq_right (by unfold tenInches; norm_num)
    have hd0 : deficit 0 (tenInches (12 * (0 + y) + 1)) = 10 := by unfold deficit tenInches; norm_num
    have hm : max ((2 : ℝ) - 1) 0 = 1 := by norm_num
    rw [hm] at s4
    unfold gainLower gainUpper lossLower lossUpper
    rw [hs0, hd0, min_eq_left (by linarith : (0 : ℝ) ≤ 1 - q.1), sub_zero, min_eq_left (by linarith : (0 : ℝ) ≤ 2 - 1 - q.2),
      min_eq_right (by linarith : q.1 ≤ 10), min_eq_left (by nlinarith : q.2 ≤ (10 - q.1) * q.2 / 2)]
    simp)
  simpa using this

end CI.Props
