import Mathlib.Analysis.SpecialFunctions.Log.Deriv
import Verif.Props.Float64Sums
import Verif.Lemmas.SpiFit
import Verif.Lemmas.Lmoments64

/-!
# C130: the gamma fit in binary64 arithmetic

`gamma_parameters` takes the shape from a logarithm of the sample and the scale as the mean divided by the shape. So the product of shape and scale is the
mean of the sample up to rounding, whatever the errors of the logarithm and of the square root. The shape itself is the quotient of a number near 2 by
four times the difference of two logarithms: with equal amounts this difference is a rounding error, and its sign is the sign of the shape.
-/

namespace CI.Props
open B64

variable {σ : SumOrder}

/-- the positive amounts of a sample, as exact numbers -/
def amounts (l : List (B64 σ)) : List ℚ := l.filterMap fun v => match ext v with
  | .fin q => if 0 < q then some q else none
  | _ => none

theorem zeroToNan_rain {v : B64 σ} (h : Rain v) : Rain (zeroToNan v) := by
  unfold zeroToNan
  split
  · exact Or.inl rfl
  · exact h

theorem amounts_filter {l : List (B64 σ)} (h : ∀ v ∈ l, Rain v) :
    ((l.map zeroToNan).map ext).filter (fun v => !isNan v) = (amounts l).map Fl.fin := by
  induction l with
  | nil => rfl
  | cons v l ih =>
    have ih := ih fun w hw => h w (List.mem_cons_of_mem _ hw)
    unfold amounts at ih ⊢
    rw [List.map_cons, List.map_cons, List.filter_cons, List.filterMap_cons, ih]
    rcases h v (by simp) with rfl | ⟨q, hq, hlo, _⟩
    · have : zeroToNan (B64.nan : B64 σ) = .nan := by unfold zeroToNan; split <;> rfl
      rw [this]
      rfl
    · have hz : zeroToNan v = if q = 0 then (.nan : B64 σ) else v := by
        unfold zeroToNan
        rw [feq_ext hq ext_lit_zero]
        by_cases h0 : q = 0 <;> simp [h0] <;> rfl
      rw [hz, hq]
      by_cases h0 : q = 0
      · rw [if_pos h0, h0]; rfl
      · have hp : 0 < q := by
          rcases hlo with h' | h'
          · exact absurd h' h0
          · exact lt_of_lt_of_le (by positivity) h'
        rw [if_neg h0, hq]
        simp [hp, CI.isNan, FloatOps.isNan, Fl.isnan]

theorem amounts_pos (l : List (B64 σ)) : ∀ q ∈ amounts l, 0 < q := by
  intro q hq
  unfold amounts at hq
  obtain ⟨v, _, h⟩ := List.mem_filterMap.1 hq
  split at h
  · split at h
    · cases h; assumption
    · cases h
  · cases h

/-- mean over a sample -/
def meanQ (q : List ℚ) : ℚ := q.sum / q.length

theorem fit_mean {l : List (B64 σ)} (h : ∀ v ∈ l, Rain v) (hl : l.length ≤ 2 ^ 40) (E : Ext (B64 σ)) {α : ℚ}
    (ha : ext (gammaFitCol E (l.map zeroToNan)).1 = .fin α) (h0 : 1 / 10 ^ 50 ≤ α) (h1 : α ≤ 10 ^ 50) (hne : amounts l ≠ []) :
    ∃ β, ext (gammaFitCol E (l.map zeroToNan)).2 = .fin β ∧ 0 < β ∧ |α * β - meanQ (amounts l)| ≤ meanQ (amounts l) * ((l.length + 2 : ℕ) / 2 ^ 52) := by
  have hα : 0 < α := lt_of_lt_of_le (by positivity) h0
  have hr : ∀ v ∈ l.map zeroToNan, Rain v := by
    intro v hv
    obtain ⟨w, hw, rfl⟩ := List.mem_map.1 hv
    exact zeroToNan_rain (h w hw)
  have hnear := nanmean_near (c := 0) ((rain_near hr).imp fun a b hab => hab.mono le_rfl le_rfl (le_mul_of_one_le_left (by positivity) (by norm_num)))
    (by rw [List.length_map]; exact hl) (by rw [List.length_map]; omega)
  rw [nanmean_fin _ _ (amounts_filter h), if_neg hne, List.length_map] at hnear
  have hq0 : (0 : ℚ) < (amounts l).length := by
    have := List.length_pos_iff.2 hne
    exact_mod_cast this
  have hs : 0 < (amounts l).sum := List.sum_pos _ (amounts_pos l) hne
  have hm : 0 < meanQ (amounts l) := div_pos hs hq0
  rcases hnear with ⟨_, hh⟩ | ⟨a, b, ha', hb, hc, hlo, hhi⟩
  · cases hh
  · have hbm : b = meanQ (amounts l) := (Fl.fin.inj hb).symm
    subst hbm
    have hlo' := hlo.resolve_left hm.ne'
    have hlow : (2 : ℚ) ^ (-1000 : ℤ) ≤ meanQ (amounts l) / α := by
      refine small_lim.trans ?_
      rw [le_div_iff₀ hα]
      refine le_trans ?_ hlo'
      refine (mul_le_mul_of_nonneg_left h1 (by positivity)).trans ?_
      rw [div_mul_eq_mul_div, div_le_div_iff₀ (by positivity) (by positivity)]
      norm_num
    have hhigh : meanQ (amounts l) / α ≤ 2 ^ (1000 : ℤ) := by
      refine le_trans ?_ big_lim
      rw [div_le_iff₀ hα]
      refine hhi.trans ?_
      refine le_trans ?_ (mul_le_mul_of_nonneg_left h0 (by positivity))
      norm_num
    obtain ⟨r, hr1, hr2⟩ := div_close ha' ha hc (Close.refl hα.le) hα (by omega) (Or.inr hlow) hhigh
    refine ⟨r, hr1, hr2.pos_iff.2 (div_pos hm hα), ?_⟩
    have he := hr2.error (by omega)
    have e : α * r - meanQ (amounts l) = α * (r - meanQ (amounts l) / α) := by field_simp
    rw [e, abs_mul, abs_of_pos hα]
    refine (mul_le_mul_of_nonneg_left he hα.le).trans (le_of_eq ?_)
    have : (2 : ℚ) * ((0 + l.length + 1 + 2 * 0 + 1 : ℕ) : ℚ) * unit = (l.length + 2 : ℕ) / 2 ^ 52 := by
      unfold unit; push_cast; ring
    rw [this]
    field_simp

/-- **C130.** `gamma_parameters` in float64, on precipitation (missing, zero, or between 10^-100 and 10^100) of at most 2^40 years: whenever the shape of a
calendar step is a number between 10^-50 and 10^50, the scale is a positive number, and the product of shape and scale is the mean of the positive
amounts of the calibration years up to a relative error of `c + 2` units 2^-52, where `c` is the number of calibration years. Nothing is assumed of the
logarithm and the square root but that the logarithm of a missing value is missing. -/
theorem C130_mean (E : Ext (B64 σ)) (hE : ExtNan E) (n : Nat) (data : List (B64 σ)) (ds cs ce : Int) (per : Periodicity) (hper : per ≠ .other)
    (hdata : ∀ v ∈ data, Rain v) (al be : List (B64 σ)) (h : gammaParameters E ⟨[n, per.steps], data⟩ ds cs ce per = .ok (al, be))
    (j : Nat) (hj : j < per.steps) (sample : List (B64 σ)) (hs : sample = stride per.steps j (calibrationValues data n per.steps ds cs ce))
    (hlen : sample.length ≤ 2 ^ 40) (x : B64 σ) (hx : al[j]? = some x) (α : ℚ) (ha : ext x = .fin α) (h0 : 1 / 10 ^ 50 ≤ α) (h1 : α ≤ 10 ^ 50) :
    ∃ y β, be[j]? = some y ∧ ext y = .fin β ∧ 0 < β ∧ amounts sample ≠ [] ∧
      |α * β - (amounts sample).sum / (amounts sample).length| ≤ (amounts sample).sum / (amounts sample).length * ((sample.length + 2 : ℕ) / 2 ^ 52) := by
  rw [gammaParameters_fits E hE n data ds cs ce per hper] at h
  injection h with h
  injection h with e1 e2
  have hget : (gammaFits E n per.steps data ds cs ce)[j]? = some (gammaFitCol E (sample.map zeroToNan)) := by
    unfold gammaFits
    rw [List.getElem?_map, List.getElem?_range hj, hs, ← stride_map, ← calibrationValues_map]; rfl
  rw [← e1, List.getElem?_map, hget] at hx
  simp only [Option.map_some, Option.some.injEq] at hx
  have hr : ∀ v ∈ sample, Rain v := by
    intro v hv
    rw [hs] at hv
    exact hdata v (mem_calibrationValues _ _ _ _ _ _ _ (mem_of_mem_stride _ _ _ _ hv))
  have hne : amounts sample ≠ [] := by
    intro he
    have hf := amounts_filter hr
    rw [he, List.map_nil, List.filter_eq_nil_iff] at hf
    have hall : ∀ v ∈ sample.map zeroToNan, v = nan := by
      intro v hv
      have := hf (ext v) (List.mem_map_of_mem hv)
      cases v with
      | nan => rfl
      | inf s => exfalso; apply this; cases s <;> rfl
      | fin s m hm => exfalso; apply this; rfl
    have hmean := nanmean_allNan _ hall
    have hlogs : nanmean ((sample.map zeroToNan).map E.log) = nan := by
      refine nanmean_allNan _ fun v hv => ?_
      obtain ⟨w, hw, rfl⟩ := List.mem_map.1 hv
      rw [hall w hw, hE.log_nan]
    have : (gammaFitCol E (sample.map zeroToNan)).1 = nan := by
      unfold gammaFitCol
      simp only [hlogs, FloatLaws.sub_nan, FloatLaws.mul_nan, FloatLaws.div_nan]
    rw [this] at hx
    rw [← hx] at ha
    cases ha
  rw [← hx] at ha
  obtain ⟨β, k1, k2, k3⟩ := fit_mean hr hlen E ha h0 h1 hne
  refine ⟨_, β, ?_, k1, k2, hne, k3⟩
  rw [← e2, List.getElem?_map, hget]; rfl

/-! ## Equal amounts -/

theorem finite_spacing {x : B64 σ} {q : ℚ} (h : ext x = .fin q) (h1 : 1 ≤ q) : ∃ k : ℤ, q = k / 2 ^ 52 := by
  have hr := rnd_fin h
  rw [rnd_of_nonneg (by linarith)] at hr
  obtain ⟨m, k, hm, _, hk⟩ := Round.rndPos_form q
  rw [hr] at hk
  rcases le_or_gt (-52 : ℤ) k with hc | hc
  · obtain ⟨e, he⟩ := Int.eq_ofNat_of_zero_le (show (0 : ℤ) ≤ k + 52 by omega)
    refine ⟨m * 2 ^ e, ?_⟩
    rw [hk, show k = (e : ℤ) - 52 by omega, zpow_sub₀ (by norm_num)]
    push_cast
    rw [zpow_natCast]
    norm_num
    ring
  · refine ⟨2 ^ 52, ?_⟩
    have hz : (2 : ℚ) ^ k ≤ 2 ^ (-53 : ℤ) := zpow_le_zpow_right₀ (by norm_num) (by omega)
    have hm' : (m : ℚ) ≤ 2 ^ 53 := by exact_mod_cast hm
    have : (m : ℚ) * 2 ^ k ≤ 2 ^ 53 * 2 ^ (-53 : ℤ) := mul_le_mul hm' hz (by positivity) (by positivity)
    have e : (2 : ℚ) ^ 53 * 2 ^ (-53 : ℤ) = 1 := by norm_num
    rw [← hk, e] at this
    have : q = 1 := le_antisymm this h1
    rw [this]; norm_num

theorem ext_inj {x y : B64 σ} {q : ℚ} (hx : ext x = .fin q) (hy : ext y = .fin q) (h : q ≠ 0) : x = y := by
  cases x with
  | nan => cases hx
  | inf s => cases s <;> cases hx
  | fin s a ha =>
    cases y with
    | nan => cases hy
    | inf s => cases s <;> cases hy
    | fin t b hb =>
      have e1 : val s a = q := Fl.fin.inj hx
      have e2 : val t b = q := Fl.fin.inj hy
      have a0 := ha.1
      have b0 := hb.1
      cases s <;> cases t <;> simp only [val, if_true, if_false, Bool.false_eq_true] at e1 e2
      · subst e1; subst e2; rfl
      · exact absurd (by linarith : q = 0) h
      · exact absurd (by linarith : q = 0) h
      · have : a = b := by linarith
        subst this; rfl

theorem log_series (x : ℚ) (h0 : 0 ≤ x) (h1 : x < 1) (n : ℕ) (y : ℝ) (hy : y = (1 + x) / (1 - x)) (c e : ℚ)
    (hq : |2 * (∑ i ∈ Finset.range n, x ^ (2 * i + 1) / (2 * i + 1)) - c| + 2 * (x ^ (2 * n + 1) / (1 - x ^ 2)) ≤ e) : |Real.log y - c| ≤ e := by
  have h := Real.sum_range_sub_log_div_le (x := (x : ℝ)) (by rw [abs_of_nonneg (by exact_mod_cast h0)]; exact_mod_cast h1) n
  rw [← hy, abs_of_nonneg (by exact_mod_cast h0 : (0 : ℝ) ≤ x)] at h
  have hq' : ((|2 * (∑ i ∈ Finset.range n, x ^ (2 * i + 1) / (2 * i + 1)) - c| + 2 * (x ^ (2 * n + 1) / (1 - x ^ 2)) : ℚ) : ℝ) ≤ (e : ℝ) := by
    exact_mod_cast hq
  push_cast at hq'
  have := abs_le.1 h
  have h2 := abs_sub_abs_le_abs_sub (2 * (∑ i ∈ Finset.range n, (x : ℝ) ^ (2 * i + 1) / (2 * i + 1)) - c) 0
  have h3 := abs_le.1 (le_refl |2 * (∑ i ∈ Finset.range n, (x : ℝ) ^ (2 * i + 1) / (2 * i + 1)) - c|)
  rw [abs_le]
  constructor <;> linarith

theorem log5_near : |Real.log 5 - ((((7248263982714163 : ℤ) : ℚ) / 2 ^ 52 : ℚ) : ℝ)| ≤ ((1 / 2 ^ 53 : ℚ) : ℝ) :=
  log_series (2 / 3) (by norm_num) (by norm_num) 50 5 (by push_cast; norm_num) _ _ (by decide +kernel)

theorem log3_near : |Real.log 3 - ((((4947709893870347 : ℤ) : ℚ) / 2 ^ 52 : ℚ) : ℝ)| ≤ ((1 / 2 ^ 53 : ℚ) : ℝ) :=
  log_series (1 / 2) (by norm_num) (by norm_num) 32 3 (by push_cast; norm_num) _ _ (by decide +kernel)

/-- the float64 numbers within one unit in the last place of a number close to `N / 2^52` are three -/
theorem three {x : B64 σ} {l : ℚ} {r : ℝ} {N : ℤ} (hx : ext x = .fin l) (hN : 2 ^ 52 + 2 ≤ N) (hr : |r - ((N / 2 ^ 52 : ℚ) : ℝ)| ≤ ((1 / 2 ^ 53 : ℚ) : ℝ))
    (hl : |(l : ℝ) - r| ≤ 1 / 2 ^ 52) : ∃ k : ℤ, (k = -1 ∨ k = 0 ∨ k = 1) ∧ l = (N + k : ℤ) / 2 ^ 52 := by
  have hd : |(l : ℝ) - ((N / 2 ^ 52 : ℚ) : ℝ)| ≤ ((3 / 2 ^ 53 : ℚ) : ℝ) := by
    have := abs_add_le ((l : ℝ) - r) (r - ((N / 2 ^ 52 : ℚ) : ℝ))
    rw [sub_add_sub_cancel] at this
    refine this.trans ((add_le_add hl hr).trans (le_of_eq ?_))
    push_cast; norm_num
  have hd' : |l - (N : ℚ) / 2 ^ 52| ≤ 3 / 2 ^ 53 := by exact_mod_cast hd
  have hN' : (2 : ℚ) ^ 52 + 2 ≤ N := by exact_mod_cast hN
  have h1 : 1 ≤ l := by
    have := (abs_le.1 hd').1
    have e : (1 : ℚ) + 2 / 2 ^ 52 ≤ N / 2 ^ 52 := by
      rw [le_div_iff₀ (by positivity)]
      linarith [show ((1 : ℚ) + 2 / 2 ^ 52) * 2 ^ 52 = 2 ^ 52 + 2 by norm_num]
    have : (3 : ℚ) / 2 ^ 53 ≤ 2 / 2 ^ 52 := by norm_num
    linarith
  obtain ⟨m, hm⟩ := finite_spacing hx h1
  rw [hm, ← sub_div, abs_div, abs_of_pos (by positivity : (0 : ℚ) < 2 ^ 52), div_le_div_iff₀ (by positivity) (by positivity)] at hd'
  have hd2 : |(m : ℚ) - N| ≤ 3 / 2 := by
    have e : (3 : ℚ) * 2 ^ 52 = 3 / 2 * 2 ^ 53 := by norm_num
    rw [e] at hd'
    exact le_of_mul_le_mul_right hd' (by positivity)
  have hlt : |(m - N : ℤ)| < 2 := by
    have : |((m - N : ℤ) : ℚ)| < ((2 : ℤ) : ℚ) := by
      push_cast
      exact lt_of_le_of_lt hd2 (by norm_num)
    exact_mod_cast this
  rw [abs_lt] at hlt
  refine ⟨m - N, by omega, ?_⟩
  rw [hm]; congr 2; ring

/-- what the fit needs of the gap between the two logarithms, once it is a number -/
def gapOk (gap : B64 leftToRight) (d : ℚ) : Bool :=
  (match ext (lit 1 + lit 4 * gap / lit 3) with
    | .fin q => decide (0 ≤ q ∧ q ≤ 2)
    | _ => false) && (match ext (lit 4 * gap) with
    | .fin q => decide (q = d)
    | _ => false)

theorem rnd_sign_neg {q : ℚ} (h : q ≤ -(2 : ℚ) ^ (-1000 : ℤ)) : rnd q < 0 := by
  have hq : q < 0 := lt_of_le_of_lt h (by simp)
  have := rnd_rel (q := q) (by
    rw [abs_of_neg hq]
    have : (2 : ℚ) ^ (-1022 : ℤ) ≤ 2 ^ (-1000 : ℤ) := zpow_le_zpow_right₀ (by norm_num) (by norm_num)
    linarith)
  rw [abs_of_neg hq] at this
  have h1 := (abs_le.1 this).2
  have h2 : -q * unit < -q * 1 := mul_lt_mul_of_pos_left unit_lt_one (by linarith)
  linarith

theorem rnd_sign_pos {q : ℚ} (h : (2 : ℚ) ^ (-1000 : ℤ) ≤ q) : 0 < rnd q := by
  have := rnd_sign_neg (q := -q) (by linarith)
  rw [rnd_neg] at this
  linarith

theorem rnd_two (e : ℕ) (he : e ≤ 1000) : rnd ((2 : ℚ) ^ e) = 2 ^ e := by
  have h := Round.rndPos_exact 1 e (by norm_num) (by omega)
  rw [rnd_of_nonneg (by positivity)]
  simpa [zpow_natCast] using h

theorem two_lim (e : ℕ) (he : e ≤ 1000) : (2 : ℚ) ^ e ≤ 2 ^ (1023 : ℤ) := by
  rw [← zpow_natCast]
  exact zpow_le_zpow_right₀ (by norm_num) (by omega)

/-- shape and scale from the gap: four times the gap is `d`, the mean is `m` -/
theorem shape_of_gap (E : Ext (B64 leftToRight))
    (hsqrt : ∀ x q, ext x = .fin q → 0 ≤ q → q ≤ 2 → ∃ r, ext (E.sqrt x) = .fin r ∧ 0 ≤ r ∧ r ≤ 2)
    (gap mean : B64 leftToRight) (d m : ℚ) (hg : gapOk gap d = true) (hm : ext mean = .fin m) (hm1 : 1 ≤ m) (hm2 : m ≤ 16) :
    (d < 0 → 1 / 2 ^ 52 ≤ -d → -d ≤ 1 → ∃ α β, ext ((lit 1 + E.sqrt (lit 1 + lit 4 * gap / lit 3)) / (lit 4 * gap)) = .fin α ∧
      ext (mean / ((lit 1 + E.sqrt (lit 1 + lit 4 * gap / lit 3)) / (lit 4 * gap))) = .fin β ∧ α < 0 ∧ β < 0) ∧
    (0 < d → 1 / 2 ^ 52 ≤ d → d ≤ 1 / 2 ^ 48 → ∃ α β, ext ((lit 1 + E.sqrt (lit 1 + lit 4 * gap / lit 3)) / (lit 4 * gap)) = .fin α ∧
      ext (mean / ((lit 1 + E.sqrt (lit 1 + lit 4 * gap / lit 3)) / (lit 4 * gap))) = .fin β ∧ 2 ^ 48 ≤ α ∧ 0 < β) := by
  unfold gapOk at hg
  rw [Bool.and_eq_true] at hg
  obtain ⟨hg1, hg2⟩ := hg
  split at hg1
  case h_2 => cases hg1
  rename_i q1 e1
  split at hg2
  case h_2 => cases hg2
  rename_i q2 e2
  obtain ⟨a1, a2⟩ := of_decide_eq_true hg1
  have a3 := of_decide_eq_true hg2
  subst a3
  obtain ⟨r, hr, r0, r2⟩ := hsqrt _ _ e1 a1 a2
  have h3 : rnd (3 : ℚ) = 3 := rnd_fin (natlit (σ := leftToRight) (k := 3) (by norm_num))
  have hadd := fin_add ext_lit_one hr (by
    rw [abs_of_nonneg (by linarith)]
    exact le_trans (by linarith : 1 + r ≤ 2 ^ 2) (two_lim 2 (by norm_num)))
  have s1 : 1 ≤ rnd (1 + r) := by have := rnd_mono (show (1 : ℚ) ≤ 1 + r by linarith); rwa [rnd_one] at this
  have s3 : rnd (1 + r) ≤ 3 := by have := rnd_mono (show 1 + r ≤ (3 : ℚ) by linarith); rwa [h3] at this
  generalize rnd (1 + r) = s at *
  have hbig : ∀ d : ℚ, 0 < d → 1 / 2 ^ 52 ≤ d → s / d ≤ 2 ^ 54 := by
    intro d hd hd1
    rw [div_le_iff₀ hd]
    have : (2 : ℚ) ^ 54 * (1 / 2 ^ 52) ≤ 2 ^ 54 * d := mul_le_mul_of_nonneg_left hd1 (by positivity)
    have e : (2 : ℚ) ^ 54 * (1 / 2 ^ 52) = 4 := by norm_num
    linarith
  have key : ∀ d : ℚ, 0 < d → 1 / 2 ^ 52 ≤ d → d ≤ 1 → 1 ≤ rnd (s / d) ∧ rnd (s / d) ≤ 2 ^ 54 := by
    intro d hd hd1 hd2
    constructor
    · have : 1 ≤ s / d := by rw [le_div_iff₀ hd]; linarith
      have := rnd_mono this
      rwa [rnd_one] at this
    · have := rnd_mono (hbig d hd hd1)
      rwa [rnd_two 54 (by norm_num)] at this
  have hq : ∀ a : ℚ, 1 ≤ a → a ≤ 2 ^ 54 → (2 : ℚ) ^ (-1000 : ℤ) ≤ m / a ∧ m / a ≤ 2 ^ 1000 := by
    intro a ha1 ha2
    have ha0 : 0 < a := by linarith
    constructor
    · rw [le_div_iff₀ ha0]
      have h1 : (2 : ℚ) ^ (-1000 : ℤ) ≤ 2 ^ (-54 : ℤ) := zpow_le_zpow_right₀ (by norm_num) (by norm_num)
      have h2 : (2 : ℚ) ^ (-1000 : ℤ) * a ≤ 2 ^ (-54 : ℤ) * 2 ^ 54 := mul_le_mul h1 ha2 (by linarith) (by positivity)
      have e : (2 : ℚ) ^ (-54 : ℤ) * 2 ^ 54 = 1 := by norm_num
      linarith
    · rw [div_le_iff₀ ha0]
      have h1 : (2 : ℚ) ^ 4 ≤ 2 ^ 1000 := pow_le_pow_right₀ (by norm_num) (by norm_num)
      have h2 : (2 : ℚ) ^ 1000 ≤ 2 ^ 1000 * a := le_mul_of_one_le_right (by positivity) ha1
      exact le_trans (by linarith : m ≤ 2 ^ 4) (h1.trans h2)
  constructor
  · intro hd hd1 hd2
    obtain ⟨k1, k2⟩ := key (-q2) (by linarith) hd1 hd2
    have e : rnd (s / q2) = -rnd (s / -q2) := by rw [div_neg, rnd_neg, neg_neg]
    have hdiv := fin_div hadd e2 hd.ne (by
      rw [← neg_neg (s / q2), ← div_neg, abs_neg, abs_of_nonneg (div_nonneg (by linarith) (by linarith))]
      exact (hbig _ (by linarith) hd1).trans (two_lim 54 (by norm_num)))
    rw [e] at hdiv
    generalize rnd (s / -q2) = a at *
    obtain ⟨b1, b2⟩ := hq a k1 k2
    refine ⟨_, _, hdiv, fin_div hm hdiv (by linarith) (by
      rw [div_neg, abs_neg, abs_of_nonneg (div_nonneg (by linarith) (by linarith))]
      exact b2.trans (two_lim 1000 (by norm_num))), by linarith, rnd_sign_neg ?_⟩
    rw [div_neg]; linarith
  · intro hd hd1 hd2
    have hd48 : (1 : ℚ) / 2 ^ 48 ≤ 1 := by norm_num
    obtain ⟨k1, k2⟩ := key q2 hd hd1 (hd2.trans hd48)
    have hdiv := fin_div hadd e2 hd.ne' (by
      rw [abs_of_nonneg (div_nonneg (by linarith) hd.le)]
      exact (hbig _ hd hd1).trans (two_lim 54 (by norm_num)))
    have k3 : 2 ^ 48 ≤ rnd (s / q2) := by
      have : (2 : ℚ) ^ 48 ≤ s / q2 := by
        rw [le_div_iff₀ hd]
        have h1 : (2 : ℚ) ^ 48 * q2 ≤ 2 ^ 48 * (1 / 2 ^ 48) := mul_le_mul_of_nonneg_left hd2 (by positivity)
        have e : (2 : ℚ) ^ 48 * (1 / 2 ^ 48) = 1 := by norm_num
        linarith
      have := rnd_mono this
      rwa [rnd_two 48 (by norm_num)] at this
    generalize rnd (s / q2) = a at *
    obtain ⟨b1, b2⟩ := hq a k1 k2
    refine ⟨_, _, hdiv, fin_div hm hdiv (by linarith) (by
      rw [abs_of_nonneg (div_nonneg (by linarith) (by linarith))]
      exact b2.trans (two_lim 1000 (by norm_num))), k3, rnd_sign_pos b1⟩

theorem fit_equal (E : Ext (B64 leftToRight)) (x : ℕ) (hx : x ≠ 0) (hx2 : x ≤ 2 ^ 53) (n : ℕ) (hmean : ext (nanmean (List.replicate n (lit (x : ℚ) : B64 leftToRight))) = .fin x) :
    gammaFitCol E (List.replicate n (lit (x : ℚ))) =
      (let gap := E.log (lit x) - nanmean (List.replicate n (E.log (lit x)))
       ((lit 1 + E.sqrt (lit 1 + lit 4 * gap / lit 3)) / (lit 4 * gap), lit x / ((lit 1 + E.sqrt (lit 1 + lit 4 * gap / lit 3)) / (lit 4 * gap)))) := by
  have hm : nanmean (List.replicate n (lit (x : ℚ) : B64 leftToRight)) = lit x := ext_inj hmean (natlit hx2) (by exact_mod_cast hx)
  unfold gammaFitCol
  simp only [hm, List.map_replicate]

/-- thirty or fifty equal logarithms: the gap for the three float64 numbers nearest to the logarithm -/
theorem gap5 : gapOk (lit ((7248263982714163 + (-1 : ℤ) : ℤ) / 2 ^ 52) - nanmean (List.replicate 30 (lit ((7248263982714163 + (-1 : ℤ) : ℤ) / 2 ^ 52)))) (-16 / 2 ^ 52) = true ∧
    gapOk (lit ((7248263982714163 + (0 : ℤ) : ℤ) / 2 ^ 52) - nanmean (List.replicate 30 (lit ((7248263982714163 + (0 : ℤ) : ℤ) / 2 ^ 52)))) (-12 / 2 ^ 52) = true ∧
    gapOk (lit ((7248263982714163 + (1 : ℤ) : ℤ) / 2 ^ 52) - nanmean (List.replicate 30 (lit ((7248263982714163 + (1 : ℤ) : ℤ) / 2 ^ 52)))) (-8 / 2 ^ 52) = true := by
  decide +kernel

theorem gap3 : gapOk (lit ((4947709893870347 + (-1 : ℤ) : ℤ) / 2 ^ 52) - nanmean (List.replicate 50 (lit ((4947709893870347 + (-1 : ℤ) : ℤ) / 2 ^ 52)))) (12 / 2 ^ 52) = true ∧
    gapOk (lit ((4947709893870347 + (0 : ℤ) : ℤ) / 2 ^ 52) - nanmean (List.replicate 50 (lit ((4947709893870347 + (0 : ℤ) : ℤ) / 2 ^ 52)))) (12 / 2 ^ 52) = true ∧
    gapOk (lit ((4947709893870347 + (1 : ℤ) : ℤ) / 2 ^ 52) - nanmean (List.replicate 50 (lit ((4947709893870347 + (1 : ℤ) : ℤ) / 2 ^ 52)))) (12 / 2 ^ 52) = true := by
  decide +kernel

theorem exact52 (N : ℤ) (h0 : 0 ≤ N) (h : N ≤ 2 ^ 53) : ext (lit ((N : ℚ) / 2 ^ 52) : B64 leftToRight) = .fin ((N : ℚ) / 2 ^ 52) := by
  obtain ⟨m, rfl⟩ := Int.eq_ofNat_of_zero_le h0
  have e : (((m : ℤ) : ℚ) / 2 ^ 52) = (m : ℚ) * 2 ^ (-52 : ℤ) := by
    rw [zpow_neg, show (52 : ℤ) = ((52 : ℕ) : ℤ) by norm_num, zpow_natCast]; push_cast; rw [div_eq_mul_inv]
  rw [e, lit_def, ext_round]
  refine rfl64_exact m (-52) (by exact_mod_cast h) (by norm_num) ?_
  rw [Round.pow2_eq]
  have hm : (m : ℚ) ≤ 2 ^ 53 := by exact_mod_cast h
  have h1 : (m : ℚ) * 2 ^ (-52 : ℤ) ≤ 2 ^ 53 * 2 ^ (-52 : ℤ) := mul_le_mul_of_nonneg_right hm (by positivity)
  have h2 : (2 : ℚ) ^ 53 * 2 ^ (-52 : ℤ) = 2 ^ (1 : ℤ) := by norm_num
  rw [h2] at h1
  exact lt_of_le_of_lt h1 (zpow_lt_zpow_right₀ (by norm_num) (by norm_num))

theorem step_fit (E : Ext (B64 σ)) (hE : ExtNan E) (n : Nat) (data : List (B64 σ)) (ds cs ce : Int) (per : Periodicity) (hper : per ≠ .other)
    (j : Nat) (hj : j < per.steps) (x : ℕ) (hx : x ≠ 0) (hx2 : x ≤ 2 ^ 53) (c : ℕ)
    (hs : stride per.steps j (calibrationValues data n per.steps ds cs ce) = List.replicate c (lit (x : ℚ))) :
    ∃ al be, gammaParameters E ⟨[n, per.steps], data⟩ ds cs ce per = .ok (al, be) ∧
      al[j]? = some (gammaFitCol E (List.replicate c (lit (x : ℚ)))).1 ∧ be[j]? = some (gammaFitCol E (List.replicate c (lit (x : ℚ)))).2 := by
  have hz : zeroToNan (lit (x : ℚ) : B64 σ) = lit x := by
    unfold zeroToNan
    rw [feq_ext (natlit hx2) ext_lit_zero, if_neg]
    simpa using hx
  have hget : (gammaFits E n per.steps data ds cs ce)[j]? = some (gammaFitCol E (List.replicate c (lit (x : ℚ)))) := by
    unfold gammaFits
    rw [List.getElem?_map, List.getElem?_range hj, Option.map_some, calibrationValues_map, stride_map, hs, List.map_replicate, hz]
  refine ⟨_, _, gammaParameters_fits E hE n data ds cs ce per hper, ?_, ?_⟩
  · rw [List.getElem?_map, hget]; rfl
  · rw [List.getElem?_map, hget]; rfl

/-- **C130**, equal amounts, the claim "the shape is positive": when the thirty calibration values of a calendar step are all 5.0, the shape and the scale are
negative numbers, for every logarithm function whose value at 5 is within one unit in the last place (2^-52) of ln 5 and every square root with values
between 0 and 2 on the interval from 0 to 2. numpy adds the rows of an array from the first to the last. In exact arithmetic the shape is infinite (C23). -/
theorem C130_negative_fails (E : Ext (B64 leftToRight)) (hE : ExtNan E)
    (hlog : ∃ l : ℚ, ext (E.log (lit 5)) = .fin l ∧ |(l : ℝ) - Real.log 5| ≤ 1 / 2 ^ 52)
    (hsqrt : ∀ x q, ext x = .fin q → 0 ≤ q → q ≤ 2 → ∃ r, ext (E.sqrt x) = .fin r ∧ 0 ≤ r ∧ r ≤ 2)
    (n : Nat) (data : List (B64 leftToRight)) (ds cs ce : Int) (per : Periodicity) (hper : per ≠ .other) (j : Nat) (hj : j < per.steps)
    (hs : stride per.steps j (calibrationValues data n per.steps ds cs ce) = List.replicate 30 (lit 5)) :
    ∃ al be a b α β, gammaParameters E ⟨[n, per.steps], data⟩ ds cs ce per = .ok (al, be) ∧ al[j]? = some a ∧ be[j]? = some b ∧
      ext a = .fin α ∧ ext b = .fin β ∧ α < 0 ∧ β < 0 := by
  obtain ⟨al, be, h1, h2, h3⟩ := step_fit E hE n data ds cs ce per hper j hj 5 (by norm_num) (by norm_num) 30 (by push_cast; exact hs)
  rw [fit_equal E 5 (by norm_num) (by norm_num) 30 (by decide +kernel)] at h2 h3
  obtain ⟨l, hl, hd⟩ := hlog
  obtain ⟨k, hk, e⟩ := three (N := 7248263982714163) hl (by norm_num) log5_near hd
  push_cast at h2 h3
  have hx : E.log (lit 5) = lit (((7248263982714163 + k : ℤ) : ℚ) / 2 ^ 52) := by
    have hv := exact52 (7248263982714163 + k) (by omega) (by omega)
    rw [← e] at hv
    rw [← e]
    refine ext_inj hl hv ?_
    rw [e]
    have : (0 : ℚ) < ((7248263982714163 + k : ℤ) : ℚ) := by exact_mod_cast (by omega : (0 : ℤ) < 7248263982714163 + k)
    positivity
  have h5 : ext (lit 5 : B64 leftToRight) = .fin 5 := natlit (k := 5) (by norm_num)
  have done : ∀ d : ℚ, d < 0 → 1 / 2 ^ 52 ≤ -d → -d ≤ 1 → gapOk (E.log (lit 5) - nanmean (List.replicate 30 (E.log (lit 5)))) d = true →
      ∃ al be a b α β, gammaParameters E ⟨[n, per.steps], data⟩ ds cs ce per = .ok (al, be) ∧ al[j]? = some a ∧ be[j]? = some b ∧
        ext a = .fin α ∧ ext b = .fin β ∧ α < 0 ∧ β < 0 := by
    intro d d0 d1 d2 hg
    obtain ⟨α, β, k1, k2, k3, k4⟩ := (shape_of_gap E hsqrt _ (lit 5) d 5 hg h5 (by norm_num) (by norm_num)).1 d0 d1 d2
    exact ⟨al, be, _, _, α, β, h1, h2, h3, k1, k2, k3, k4⟩
  rcases hk with rfl | rfl | rfl
  · exact done (-16 / 2 ^ 52) (by norm_num) (by norm_num) (by norm_num) (by rw [hx]; exact gap5.1)
  · exact done (-12 / 2 ^ 52) (by norm_num) (by norm_num) (by norm_num) (by rw [hx]; exact gap5.2.1)
  · exact done (-8 / 2 ^ 52) (by norm_num) (by norm_num) (by norm_num) (by rw [hx]; exact gap5.2.2)

/-- **C130**, equal amounts, the claim "the shape is infinite and the scale zero": with fifty calibration values 3.0 the shape is a number, at least 2^48, and
the scale a positive number, under the same assumptions (so that the index of these years is the quantile of a gamma distribution, not missing). -/
theorem C130_finite_fails (E : Ext (B64 leftToRight)) (hE : ExtNan E)
    (hlog : ∃ l : ℚ, ext (E.log (lit 3)) = .fin l ∧ |(l : ℝ) - Real.log 3| ≤ 1 / 2 ^ 52)
    (hsqrt : ∀ x q, ext x = .fin q → 0 ≤ q → q ≤ 2 → ∃ r, ext (E.sqrt x) = .fin r ∧ 0 ≤ r ∧ r ≤ 2)
    (n : Nat) (data : List (B64 leftToRight)) (ds cs ce : Int) (per : Periodicity) (hper : per ≠ .other) (j : Nat) (hj : j < per.steps)
    (hs : stride per.steps j (calibrationValues data n per.steps ds cs ce) = List.replicate 50 (lit 3)) :
    ∃ al be a b α β, gammaParameters E ⟨[n, per.steps], data⟩ ds cs ce per = .ok (al, be) ∧ al[j]? = some a ∧ be[j]? = some b ∧
      ext a = .fin α ∧ ext b = .fin β ∧ 2 ^ 48 ≤ α ∧ 0 < β := by
  obtain ⟨al, be, h1, h2, h3⟩ := step_fit E hE n data ds cs ce per hper j hj 3 (by norm_num) (by norm_num) 50 (by push_cast; exact hs)
  rw [fit_equal E 3 (by norm_num) (by norm_num) 50 (by decide +kernel)] at h2 h3
  obtain ⟨l, hl, hd⟩ := hlog
  obtain ⟨k, hk, e⟩ := three (N := 4947709893870347) hl (by norm_num) log3_near hd
  push_cast at h2 h3
  have hx : E.log (lit 3) = lit (((4947709893870347 + k : ℤ) : ℚ) / 2 ^ 52) := by
    have hv := exact52 (4947709893870347 + k) (by omega) (by omega)
    rw [← e] at hv
    rw [← e]
    refine ext_inj hl hv ?_
    rw [e]
    have : (0 : ℚ) < ((4947709893870347 + k : ℤ) : ℚ) := by exact_mod_cast (by omega : (0 : ℤ) < 4947709893870347 + k)
    positivity
  have h5 : ext (lit 3 : B64 leftToRight) = .fin 3 := natlit (k := 3) (by norm_num)
  have hg : gapOk (E.log (lit 3) - nanmean (List.replicate 50 (E.log (lit 3)))) (12 / 2 ^ 52) = true := by
    rcases hk with rfl | rfl | rfl
    · rw [hx]; exact gap3.1
    · rw [hx]; exact gap3.2.1
    · rw [hx]; exact gap3.2.2
  obtain ⟨α, β, k1, k2, k3, k4⟩ := (shape_of_gap E hsqrt _ (lit 3) _ 3 hg h5 (by norm_num) (by norm_num)).2 (by norm_num) (by norm_num) (by norm_num)
  exact ⟨al, be, _, _, α, β, h1, h2, h3, k1, k2, k3, k4⟩

/-! ## Non-vacuity -/

/-- stand-ins for the special functions in float64: the logarithms of 3 and 5 are the nearest float64 numbers -/
def ext64 : Ext (B64 leftToRight) where
  log := fun x => if isNan x then nan else if feq x (lit 5) then lit (7248263982714163 / 2 ^ 52) else
    if feq x (lit 3) then lit (4947709893870347 / 2 ^ 52) else lit 1 - lit 1 / x
  sqrt := id
  exp := id
  lgamma := id
  pi := lit (22 / 7)
  gammaCdf := fun x a s => if isNan a || isNan s then nan else x
  pearson3Cdf := fun x a b c => if isNan a || isNan b || isNan c then nan else x
  normPpf := id

theorem ext64_nan : ExtNan ext64 where
  log_nan := rfl
  gammaCdf_nan := by intro a s; simp only [ext64]; split <;> rfl
  gammaCdf_nan_shape := by intro x s; simp only [ext64]; rfl
  pearson3Cdf_nan := by intro a b c; simp only [ext64]; split <;> rfl
  normPpf_nan := rfl

/-- two years of monthly data, 2 and 8 in January, 3 and 0.1 in July, the other months dry or missing -/
def twoYears64 : List (B64 leftToRight) :=
  [lit 2, lit 0, lit 0, lit 0, lit 0, nan, lit 3, lit 0, lit 0, lit 0, lit 0, lit 0,
   lit 8, lit 0, lit 0, lit 0, lit 0, lit 0, lit 0.1, nan, lit 0, lit 0, lit 0, lit 0]

/-- the hypotheses of `C130_mean` hold: the data are precipitation, and the shapes of January and July are numbers in the range -/
example : twoYears64.all (fun v => match ext v with
      | .fin q => decide ((q = 0 ∨ 1 / 10 ^ 100 ≤ q) ∧ q ≤ 10 ^ 100)
      | .nan => true
      | _ => false) = true ∧
    (match gammaParameters ext64 ⟨[2, 12], twoYears64⟩ 2000 2000 2001 .monthly with
      | .ok (al, _) => [0, 6].all fun j => match al[j]?.map ext with
        | some (.fin α) => decide (1 / 10 ^ 50 ≤ α ∧ α ≤ 10 ^ 50)
        | _ => false
      | .error _ => false) = true ∧
    (amounts (stride 12 0 (calibrationValues twoYears64 2 12 2000 2000 2001))) = [2, 8] := by decide +kernel

/-- the hypotheses of `C130_negative_fails` and `C130_finite_fails` hold for `ext64` and records of 5.0 or 3.0 in every month -/
example : (∃ l : ℚ, ext (ext64.log (lit 5)) = .fin l ∧ |(l : ℝ) - Real.log 5| ≤ 1 / 2 ^ 52) ∧
    (∃ l : ℚ, ext (ext64.log (lit 3)) = .fin l ∧ |(l : ℝ) - Real.log 3| ≤ 1 / 2 ^ 52) ∧
    (∀ x q, ext x = .fin q → 0 ≤ q → q ≤ 2 → ∃ r, ext (ext64.sqrt x) = .fin r ∧ 0 ≤ r ∧ r ≤ 2) := by
  refine ⟨⟨(7248263982714163 : ℤ) / 2 ^ 52, by decide +kernel, ?_⟩, ⟨(4947709893870347 : ℤ) / 2 ^ 52, by decide +kernel, ?_⟩, fun x q h h0 h1 => ⟨q, h, h0, h1⟩⟩
  · rw [abs_sub_comm]
    exact log5_near.trans (by push_cast; norm_num)
  · rw [abs_sub_comm]
    exact log3_near.trans (by push_cast; norm_num)

example : (List.range 12).all (fun j => decide ((stride 12 j (calibrationValues (List.replicate 360 (5 : ℚ)) 30 12 1981 1981 2010)) = List.replicate 30 5)) = true ∧
    (List.range 12).all (fun j => decide ((stride 12 j (calibrationValues (List.replicate 600 (3 : ℚ)) 50 12 1961 1961 2010)) = List.replicate 50 3)) = true := by
  decide +kernel

end CI.Props
