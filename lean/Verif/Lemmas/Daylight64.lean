import Verif.Model.Eto
import Verif.Lemmas.Lmoments64
import Verif.Lemmas.Drift64

/-!
# Day lengths in binary64 arithmetic

The validity checks of `eto.py` are never in the way of a latitude between the poles, whatever the errors of the trigonometric functions, as long as
sines are at most 1, tangents are numbers, and arc cosines lie between 0 and `math.pi`.
-/

namespace CI
open B64

variable {σ : SumOrder}

/-- `math.pi` -/
def pi64 : ℚ := 884279719003555 / 2 ^ 48

/-- what the trigonometric functions of float64 numbers have to satisfy -/
structure TrigBounds (T : Trig (B64 σ)) : Prop where
  pi : ext T.pi = .fin pi64
  sin : ∀ x q, ext x = .fin q → ∃ r, ext (T.sin x) = .fin r ∧ |r| ≤ 1
  tan : ∀ x q, ext x = .fin q → |q| ≤ 2 → ∃ r, ext (T.tan x) = .fin r
  acos : ∀ x q, ext x = .fin q → -1 ≤ q → q ≤ 1 → ∃ r, ext (T.acos x) = .fin r ∧ 0 ≤ r ∧ r ≤ pi64

/-- the conversion factor `pi / 180` in float64 -/
def kappa : ℚ := rnd (pi64 / 180)

theorem kappa_bounds : 0.0174532925 ≤ kappa ∧ kappa ≤ 0.0174532926 := by
  have h := abs_le.1 (rnd_rel (q := pi64 / 180) (by
    rw [abs_of_nonneg (by unfold pi64; norm_num)]
    refine le_trans (zpow_le_zpow_right₀ (by norm_num) (show (-1022 : ℤ) ≤ -10 by norm_num)) ?_
    unfold pi64; norm_num))
  rw [abs_of_nonneg (by unfold pi64; norm_num)] at h
  unfold kappa
  unfold unit at h
  constructor
  · refine le_trans ?_ (by linarith [h.1] : pi64 / 180 - pi64 / 180 * (1 / 2 ^ 53) ≤ _)
    unfold pi64; norm_num
  · refine le_trans (by linarith [h.2] : _ ≤ pi64 / 180 + pi64 / 180 * (1 / 2 ^ 53)) ?_
    unfold pi64; norm_num

theorem ext_kappa {T : Trig (B64 σ)} (hT : TrigBounds T) : ext (T.pi / lit 180) = .fin kappa := by
  have h180 : ext (lit 180 : B64 σ) = .fin 180 := natlit (k := 180) (by norm_num)
  refine fin_div hT.pi h180 (by norm_num) (below_max ?_)
  unfold pi64
  rw [abs_of_nonneg (by norm_num)]
  norm_num

theorem ext_radians {T : Trig (B64 σ)} (hT : TrigBounds T) {x : B64 σ} {q : ℚ} (hx : ext x = .fin q) (h : |q| ≤ 1000) :
    ext (radians T x) = .fin (rnd (q * kappa)) := by
  refine fin_mul hx (ext_kappa hT) (below_max ?_)
  rw [abs_mul, abs_of_nonneg (by linarith [kappa_bounds.1] : 0 ≤ kappa)]
  have := mul_le_mul h kappa_bounds.2 (by linarith [kappa_bounds.1]) (by norm_num)
  refine this.trans (by norm_num)

theorem rnd_abs_mono {a b : ℚ} (h : |a| ≤ b) : |rnd a| ≤ rnd b := by
  have h' := abs_le.1 h
  rw [abs_le, ← rnd_neg]
  exact ⟨rnd_mono h'.1, rnd_mono h'.2⟩

theorem rnd_near {q : ℚ} (h : 1 / 1000 ≤ q) : q * (1 - unit) ≤ rnd q ∧ rnd q ≤ q * (1 + unit) := by
  have hq : 0 ≤ q := le_trans (by norm_num) h
  have h1 := abs_le.1 (rnd_rel (q := q) (by
    rw [abs_of_nonneg hq]
    refine le_trans (zpow_le_zpow_right₀ (by norm_num) (show (-1022 : ℤ) ≤ -10 by norm_num)) (le_trans (by norm_num) h)))
  rw [abs_of_nonneg hq] at h1
  constructor <;> linarith [h1.1, h1.2]

theorem rnd_in {q lo hi lo' hi' : ℚ} (h0 : 1 / 1000 ≤ lo) (h1 : lo ≤ q) (h2 : q ≤ hi) (hl : lo' ≤ lo * (1 - 1 / 10 ^ 10)) (hh : hi * (1 + 1 / 10 ^ 10) ≤ hi') :
    lo' ≤ rnd q ∧ rnd q ≤ hi' := by
  have h := rnd_near (h0.trans h1)
  have hu : unit ≤ 1 / 10 ^ 10 := by unfold unit; norm_num
  have hlo : 0 ≤ lo := le_trans (by norm_num) h0
  constructor
  · refine hl.trans (le_trans ?_ h.1)
    exact mul_le_mul h1 (by linarith) (by norm_num) (hlo.trans h1)
  · refine le_trans ?_ hh
    exact h.2.trans (mul_le_mul h2 (by linarith) (by linarith [unit_pos]) (hlo.trans (h1.trans h2)))

/-- the limit of the declination, and the largest declination -/
theorem decl_limit : rnd 0.409 ≤ rnd (rnd 23.45 * kappa) ∧ rnd 0.409 ≤ 0.41 ∧ rnd (90 * kappa) ≤ 1.58 ∧ 0.40899 ≤ rnd 0.409 := by
  have k := kappa_bounds
  have hu : unit ≤ 1 / 10 ^ 10 := by unfold unit; norm_num
  have h1 := rnd_near (q := 0.409) (by norm_num)
  have h2 := rnd_near (q := 23.45) (by norm_num)
  have h3 := mul_le_mul h2.1 k.1 (by norm_num) (le_trans (by unfold unit; norm_num) h2.1)
  have h6 : (0.4092 : ℚ) ≤ rnd 23.45 * kappa := by
    refine le_trans ?_ h3
    unfold unit; norm_num
  have h4 := rnd_near (q := rnd 23.45 * kappa) (by linarith)
  have h5 := rnd_near (q := 90 * kappa) (by linarith)
  refine ⟨?_, ?_, ?_, ?_⟩
  · refine h1.2.trans (le_trans ?_ h4.1)
    refine le_trans ?_ (mul_le_mul_of_nonneg_right h6 (by unfold unit; norm_num))
    unfold unit; norm_num
  · exact h1.2.trans (by unfold unit; norm_num)
  · refine h5.2.trans ?_
    refine (mul_le_mul_of_nonneg_right (by linarith : 90 * kappa ≤ 1.571) (by unfold unit; norm_num)).trans ?_
    unfold unit; norm_num
  · exact le_trans (by unfold unit; norm_num) h1.1

theorem lit_neg_ext (q : ℚ) (h : |q| ≤ 2 ^ 240) : ext (lit (-q) : B64 σ) = .fin (-rnd q) := by
  rw [ext_lit64 _ (below_max (by rwa [abs_neg])), rnd_neg]

/-- a product of numbers is a number or infinite -/
theorem mul_not_nan {x y : B64 σ} {a b : ℚ} (hx : ext x = .fin a) (hy : ext y = .fin b) : x * y ≠ nan := by
  intro h
  have : ext (x * y) = rfl64 (.fin (a * b)) := by
    show ext (mul x y) = _
    rw [ext_mul, hx, hy]; rfl
  rw [h, rfl64_fin] at this
  split at this
  · cases this
  · split at this <;> cases this

theorem clamp_ok {c : B64 σ} (hc : c ≠ nan) :
    ∃ z, ext (pyMin (pyMax c (lit (-1))) (lit 1)) = .fin z ∧ -1 ≤ z ∧ z ≤ 1 ∧ ∀ q, ext c = .fin q → z = min (max q (-1)) 1 := by
  have hm1 : ext (lit (-1) : B64 σ) = .fin (-1) := by
    have := intlit (σ := σ) (-1) (by norm_num)
    exact_mod_cast this
  have key : ∀ (d : B64 σ) (q : ℚ), ext d = .fin q → -1 ≤ q → ext (pyMin d (lit 1)) = .fin (min q 1) := by
    intro d q hd hq
    unfold pyMin
    rw [flt_ext ext_lit_one hd]
    by_cases h : 1 < q
    · rw [decide_eq_true h, if_pos rfl, min_eq_right h.le]; exact ext_lit_one
    · rw [decide_eq_false h, if_neg (by simp), min_eq_left (not_lt.1 h)]; exact hd
  cases c with
  | nan => exact absurd rfl hc
  | inf s =>
    cases s with
    | true =>
      have h1 : pyMax (inf true : B64 σ) (lit (-1)) = lit (-1) := by
        unfold pyMax
        have : flt (inf true : B64 σ) (lit (-1)) = true := by
          show (Fl.le (ext (inf true : B64 σ)) (ext (lit (-1) : B64 σ)) && !Fl.le (ext (lit (-1) : B64 σ)) (ext (inf true : B64 σ))) = _
          rw [hm1]; rfl
        rw [this, if_pos rfl]
      rw [h1]
      refine ⟨_, key _ _ hm1 le_rfl, by norm_num, by norm_num, fun q hq => by cases hq⟩
    | false =>
      have h1 : pyMax (inf false : B64 σ) (lit (-1)) = inf false := by
        unfold pyMax
        have : flt (inf false : B64 σ) (lit (-1)) = false := by
          show (Fl.le (ext (inf false : B64 σ)) (ext (lit (-1) : B64 σ)) && !Fl.le (ext (lit (-1) : B64 σ)) (ext (inf false : B64 σ))) = _
          rw [hm1]; rfl
        rw [this, if_neg (by simp)]
      have h2 : pyMin (inf false : B64 σ) (lit 1) = lit 1 := by
        unfold pyMin
        have : flt (lit 1 : B64 σ) (inf false) = true := by
          show (Fl.le (ext (lit 1 : B64 σ)) (ext (inf false : B64 σ)) && !Fl.le (ext (inf false : B64 σ)) (ext (lit 1 : B64 σ))) = _
          rw [ext_lit_one]; rfl
        rw [this, if_pos rfl]
      rw [h1, h2]
      exact ⟨1, ext_lit_one, by norm_num, le_rfl, fun q hq => by cases hq⟩
  | fin s m hm =>
    obtain ⟨q, hq⟩ : ∃ q, ext (fin s m hm : B64 σ) = .fin q := ⟨_, rfl⟩
    have h1 : ext (pyMax (fin s m hm : B64 σ) (lit (-1))) = .fin (max q (-1)) := by
      unfold pyMax
      rw [flt_ext hq hm1]
      by_cases h : q < -1
      · rw [decide_eq_true h, if_pos rfl, max_eq_right h.le]; exact hm1
      · rw [decide_eq_false h, if_neg (by simp), max_eq_left (not_lt.1 h)]; exact hq
    refine ⟨_, key _ _ h1 (le_max_right _ _), le_min (le_max_right _ _) (by norm_num), min_le_right _ _, ?_⟩
    intro r hr
    have : q = r := Fl.fin.inj (hq.symm.trans hr)
    rw [this]

/-- the hours of one day (the body of the inner loop) -/
def dayHours (T : Trig (B64 σ)) (lat : B64 σ) (doy : ℕ) : Res (B64 σ) := do
  let dec ← solarDeclination T doy
  let w ← sunsetHourAngle T lat dec
  daylightHours T w

theorem sumDaylight_succ (T : Trig (B64 σ)) (lat : B64 σ) (n doy : ℕ) (acc : B64 σ) :
    sumDaylight T lat (n + 1) doy acc = (dayHours T lat doy).bind fun h => sumDaylight T lat n (doy + 1) (acc + h) := by
  rw [sumDaylight, dayHours]
  cases solarDeclination T doy with
  | error e => rfl
  | ok dec =>
    show (sunsetHourAngle T lat dec).bind _ = _
    cases h : sunsetHourAngle T lat dec with
    | error e => simp only [bind, Except.bind, h]
    | ok w =>
      simp only [bind, Except.bind, h]

set_option maxHeartbeats 1000000 in
/-- the steps of one day, with the numbers that occur -/
theorem day_steps {T : Trig (B64 σ)} (hT : TrigBounds T) {lat : B64 σ} {p : ℚ} (hl : ext lat = .fin p) (hp : |p| ≤ rnd (90 * kappa)) {d : ℕ} (h1 : 1 ≤ d) (h2 : d ≤ 366) :
    ∃ (arg : B64 σ) (sn dc tl td z w : ℚ) (h : B64 σ), arg = ((lit 2 * T.pi / lit 365) * lit d) - lit 1.39 ∧ ext arg = .fin (rnd (rnd (rnd (rnd (2 * pi64) / 365) * d) - rnd 1.39)) ∧
      ext (T.sin arg) = .fin sn ∧ |sn| ≤ 1 ∧ dc = rnd (rnd 0.409 * sn) ∧ |dc| ≤ 0.41 ∧ ext (lit 0.409 * T.sin arg) = .fin dc ∧
      ext (T.tan lat) = .fin tl ∧ ext (T.tan (lit 0.409 * T.sin arg)) = .fin td ∧
      ext (pyMin (pyMax ((-(T.tan lat)) * T.tan (lit 0.409 * T.sin arg)) (lit (-1))) (lit 1)) = .fin z ∧ -1 ≤ z ∧ z ≤ 1 ∧
      (|tl * td| ≤ 2 ^ 240 → z = min (max (rnd (-tl * td)) (-1)) 1) ∧
      ext (T.acos (pyMin (pyMax ((-(T.tan lat)) * T.tan (lit 0.409 * T.sin arg)) (lit (-1))) (lit 1))) = .fin w ∧ 0 ≤ w ∧ w ≤ pi64 ∧
      dayHours T lat d = .ok h ∧ ext h = .fin (rnd (rnd (24 / pi64) * w)) := by
  obtain ⟨k1, k2⟩ := kappa_bounds
  obtain ⟨b1, b2, b3, b4⟩ := decl_limit
  have hpi1 : (3.1415926 : ℚ) ≤ pi64 := by unfold pi64; norm_num
  have hpi2 : pi64 ≤ 3.1415927 := by unfold pi64; norm_num
  have l2 : ext (lit 2 : B64 σ) = .fin 2 := natlit (k := 2) (by norm_num)
  have l24 : ext (lit 24 : B64 σ) = .fin 24 := natlit (k := 24) (by norm_num)
  have l365 : ext (lit 365 : B64 σ) = .fin 365 := natlit (k := 365) (by norm_num)
  have ld : ext (lit (d : ℚ) : B64 σ) = .fin d := natlit (k := d) (by omega)
  have hd1 : (1 : ℚ) ≤ d := by exact_mod_cast h1
  have hd2 : (d : ℚ) ≤ 366 := by exact_mod_cast h2
  have hu : unit ≤ 1 / 10 ^ 10 := by unfold unit; norm_num
  have hu0 := unit_pos
  have a1 : ext (lit 2 * T.pi) = .fin (rnd (2 * pi64)) := fin_mul l2 hT.pi (below_max (by rw [abs_of_nonneg (by linarith)]; linarith))
  have m1 : 6 ≤ rnd (2 * pi64) ∧ rnd (2 * pi64) ≤ 7 := rnd_in (lo := 6.2) (hi := 6.3) (by norm_num) (by linarith) (by linarith) (by norm_num) (by norm_num)
  have a2 : ext (lit 2 * T.pi / lit 365) = .fin (rnd (rnd (2 * pi64) / 365)) :=
    fin_div a1 l365 (by norm_num) (below_max (by rw [abs_of_nonneg (by linarith [m1.1])]; linarith [m1.2]))
  have m2 : 1 / 100 ≤ rnd (rnd (2 * pi64) / 365) ∧ rnd (rnd (2 * pi64) / 365) ≤ 1 / 50 :=
    rnd_in (lo := 6 / 365) (hi := 7 / 365) (by norm_num) (by linarith [m1.1]) (by linarith [m1.2]) (by norm_num) (by norm_num)
  have p3 : 1 / 100 ≤ rnd (rnd (2 * pi64) / 365) * d ∧ rnd (rnd (2 * pi64) / 365) * d ≤ 8 := by
    constructor
    · have := mul_le_mul m2.1 hd1 (by norm_num) (by linarith [m2.1])
      linarith
    · have := mul_le_mul m2.2 hd2 (by linarith) (by norm_num)
      linarith
  have a3 : ext (lit 2 * T.pi / lit 365 * lit d) = .fin (rnd (rnd (rnd (2 * pi64) / 365) * d)) :=
    fin_mul a2 ld (below_max (by rw [abs_of_nonneg (by linarith [p3.1])]; linarith [p3.2]))
  have m3 : 0 ≤ rnd (rnd (rnd (2 * pi64) / 365) * d) ∧ rnd (rnd (rnd (2 * pi64) / 365) * d) ≤ 9 :=
    rnd_in (lo := 1 / 100) (hi := 8) (by norm_num) p3.1 p3.2 (by norm_num) (by norm_num)
  have l139 : ext (lit 1.39 : B64 σ) = .fin (rnd 1.39) := ext_lit64 _ (below_max (by norm_num [abs_of_nonneg]))
  have m4 : 1 ≤ rnd 1.39 ∧ rnd 1.39 ≤ 2 := rnd_in (lo := 1.39) (hi := 1.39) (by norm_num) le_rfl le_rfl (by norm_num) (by norm_num)
  have a4 : ext (lit 2 * T.pi / lit 365 * lit d - lit 1.39) = .fin (rnd (rnd (rnd (rnd (2 * pi64) / 365) * d) - rnd 1.39)) :=
    fin_sub a3 l139 (below_max (by
      have : |rnd (rnd (rnd (2 * pi64) / 365) * d) - rnd 1.39| ≤ 10 := by rw [abs_le]; constructor <;> linarith [m3.1, m3.2, m4.1, m4.2]
      linarith))
  obtain ⟨sn, hsn, hsn1⟩ := hT.sin _ _ a4
  have l409 : ext (lit 0.409 : B64 σ) = .fin (rnd 0.409) := ext_lit64 _ (below_max (by norm_num [abs_of_nonneg]))
  have c0 : 0 ≤ rnd (0.409 : ℚ) := by linarith
  have hcs : |rnd 0.409 * sn| ≤ rnd 0.409 := by
    rw [abs_mul, abs_of_nonneg c0]
    exact mul_le_of_le_one_right c0 hsn1
  have a5 : ext (lit 0.409 * T.sin (lit 2 * T.pi / lit 365 * lit d - lit 1.39)) = .fin (rnd (rnd 0.409 * sn)) :=
    fin_mul l409 hsn (below_max (hcs.trans (by linarith)))
  have hrr : rnd (rnd 0.409) = rnd (0.409 : ℚ) := rnd_fin l409
  have hdc : |rnd (rnd 0.409 * sn)| ≤ rnd 0.409 := by
    have := rnd_abs_mono hcs
    rwa [hrr] at this
  obtain ⟨tl, htl⟩ := hT.tan _ _ hl (hp.trans (by linarith))
  obtain ⟨td, htd⟩ := hT.tan _ _ a5 (by linarith)
  have htn : ext (-(T.tan lat)) = .fin (-tl) := by
    show ext (neg (T.tan lat)) = _
    rw [ext_neg, htl]; rfl
  obtain ⟨z, hz, hz1, hz2, hz3⟩ := clamp_ok (mul_not_nan htn htd)
  obtain ⟨w, hw, hw1, hw2⟩ := hT.acos _ _ hz hz1 hz2
  have a6 : ext (lit 24 / T.pi) = .fin (rnd (24 / pi64)) := by
    refine fin_div l24 hT.pi (by linarith) (below_max ?_)
    rw [abs_of_nonneg (by positivity), div_le_iff₀ (by linarith)]
    linarith
  have m6 : 0 ≤ rnd (24 / pi64) ∧ rnd (24 / pi64) ≤ 8 := by
    constructor
    · exact rnd_nonneg (by positivity)
    · have : (7 : ℚ) ≤ 24 / pi64 ∧ 24 / pi64 ≤ 7.7 := by
        constructor
        · rw [le_div_iff₀ (by linarith)]; linarith
        · rw [div_le_iff₀ (by linarith)]; linarith
      exact (rnd_in (lo := 7) (hi := 7.7) (lo' := 6) (by norm_num) this.1 this.2 (by norm_num) (by norm_num)).2
  have a7 : ext (lit 24 / T.pi * T.acos (pyMin (pyMax ((-(T.tan lat)) * T.tan (lit 0.409 * T.sin (lit 2 * T.pi / lit 365 * lit d - lit 1.39))) (lit (-1))) (lit 1)))
      = .fin (rnd (rnd (24 / pi64) * w)) := by
    refine fin_mul a6 hw (below_max ?_)
    rw [abs_of_nonneg (mul_nonneg m6.1 hw1)]
    have := mul_le_mul m6.2 hw2 hw1 (by norm_num)
    linarith
  refine ⟨_, sn, rnd (rnd 0.409 * sn), tl, td, z, w, _, rfl, a4, hsn, hsn1, rfl, hdc.trans b2, a5, htl, htd, hz, hz1, hz2, ?_, hw, hw1, hw2, ?_, a7⟩
  · intro hb
    refine hz3 _ ?_
    exact fin_mul htn htd (below_max (by rw [neg_mul, abs_neg]; exact hb))
  · have e1 : solarDeclination T d = .ok (lit 0.409 * T.sin (lit 2 * T.pi / lit 365 * lit d - lit 1.39)) := by
      unfold solarDeclination
      rw [if_neg (by simp [h1, h2])]
    have hp' := abs_le.1 hp
    have hdc' := abs_le.1 (hdc.trans b1)
    have e90 : ext (lit 90 : B64 σ) = .fin 90 := natlit (k := 90) (by norm_num)
    have e90' : ext (lit (-90) : B64 σ) = .fin (-90) := by
      have := intlit (σ := σ) (-90) (by norm_num)
      exact_mod_cast this
    have e23 : ext (lit 23.45 : B64 σ) = .fin (rnd 23.45) := ext_lit64 _ (below_max (by norm_num [abs_of_nonneg]))
    have e23' : ext (lit (-23.45) : B64 σ) = .fin (-rnd 23.45) := lit_neg_ext 23.45 (by norm_num [abs_of_nonneg])
    have n23 := rnd_near (q := 23.45) (by norm_num)
    have b23 : |rnd (23.45 : ℚ)| ≤ 1000 := by
      rw [abs_of_nonneg (rnd_nonneg (by norm_num))]
      exact n23.2.trans (by unfold unit; norm_num)
    have r1 := ext_radians hT e90 (by norm_num)
    have r2 := ext_radians hT e90' (by norm_num)
    have r3 := ext_radians hT e23 b23
    have r4 := ext_radians hT e23' (by rwa [abs_neg])
    rw [neg_mul, rnd_neg] at r2 r4
    have e2 : sunsetHourAngle T lat (lit 0.409 * T.sin (lit 2 * T.pi / lit 365 * lit d - lit 1.39)) =
        .ok (T.acos (pyMin (pyMax ((-(T.tan lat)) * T.tan (lit 0.409 * T.sin (lit 2 * T.pi / lit 365 * lit d - lit 1.39))) (lit (-1))) (lit 1))) := by
      unfold sunsetHourAngle
      rw [fle_ext r2 hl, fle_ext hl r1, fle_ext r4 a5, fle_ext a5 r3, decide_eq_true hp'.1, decide_eq_true hp'.2, decide_eq_true hdc'.1, decide_eq_true hdc'.2]
      rfl
    unfold dayHours
    rw [e1]
    simp only [bind, Except.bind]
    rw [e2]
    simp only
    unfold daylightHours
    rw [fle_ext ext_lit_zero hw, fle_ext hw hT.pi, decide_eq_true hw1, decide_eq_true hw2]
    rfl

theorem hours_le {w : ℚ} (h0 : 0 ≤ w) (h1 : w ≤ pi64) : 0 ≤ rnd (rnd (24 / pi64) * w) ∧ rnd (rnd (24 / pi64) * w) ≤ 25 := by
  have hpi1 : (3.1415926 : ℚ) ≤ pi64 := by unfold pi64; norm_num
  have hpi2 : pi64 ≤ 3.1415927 := by unfold pi64; norm_num
  have hu : unit ≤ 1 / 10 ^ 10 := by unfold unit; norm_num
  have hu0 := unit_pos
  have b : (7 : ℚ) ≤ 24 / pi64 ∧ 24 / pi64 ≤ 7.64 := by
    constructor
    · rw [le_div_iff₀ (by linarith)]; linarith
    · rw [div_le_iff₀ (by linarith)]; linarith
  have n := rnd_near (q := 24 / pi64) (by linarith [b.1])
  have m : 0 ≤ rnd (24 / pi64) ∧ rnd (24 / pi64) ≤ 7.65 := ⟨rnd_nonneg (by linarith [b.1]), by nlinarith [n.2, b.1, b.2]⟩
  have p : rnd (24 / pi64) * w ≤ 24.5 := by
    have := mul_le_mul m.2 h1 h0 (by norm_num)
    linarith
  refine ⟨rnd_nonneg (mul_nonneg m.1 h0), ?_⟩
  refine (rnd_mono p).trans ?_
  have := rnd_near (q := 24.5) (by norm_num)
  nlinarith [this.2]

/-- a day has at most 24 hours, up to rounding -/
theorem hours_le_day {w : ℚ} (h0 : 0 ≤ w) (h1 : w ≤ pi64) : rnd (rnd (24 / pi64) * w) ≤ 24 + 1 / 2 ^ 46 := by
  have hpi1 : (3.1415926 : ℚ) ≤ pi64 := by unfold pi64; norm_num
  have hpi2 : pi64 ≤ 3.1415927 := by unfold pi64; norm_num
  have b : (7 : ℚ) ≤ 24 / pi64 := by rw [le_div_iff₀ (by linarith)]; linarith
  have n := (rnd_near (q := 24 / pi64) (by linarith)).2
  have p : rnd (24 / pi64) * w ≤ 24 * (1 + unit) := by
    have h2 := mul_le_mul n h1 h0 (mul_nonneg (by linarith) (by linarith [unit_pos]))
    have e : 24 / pi64 * (1 + unit) * pi64 = 24 * (1 + unit) := by
      have : pi64 ≠ 0 := by linarith
      field_simp
    linarith
  refine (rnd_mono p).trans ((rnd_near (by linarith [unit_pos])).2.trans ?_)
  unfold unit
  norm_num

end CI
