import Verif.Props.Cli
import Verif.Props.Float64Daylight

/-!
# C137: conversion of units in binary64 arithmetic
-/

namespace CI.Props
open B64 Spec

variable {σ : SumOrder}

theorem rnd_within {q M : ℚ} (h : |q| ≤ M) (hM : 1 / 1000 ≤ M) : |rnd q - q| ≤ M * (1 / 2 ^ 52) := by
  have h7 : (2 : ℚ) ^ (-1074 : ℤ) ≤ 2 ^ (-80 : ℤ) := zpow_le_zpow_right₀ (by norm_num) (by norm_num)
  refine (rnd_abs q).trans ?_
  have h1 : |q| * unit ≤ M * (1 / 2 ^ 53) := mul_le_mul_of_nonneg_right h (by unfold unit; norm_num)
  have h2 : (2 : ℚ) ^ (-80 : ℤ) ≤ M * (1 / 2 ^ 53) := by
    have : (2 : ℚ) ^ (-80 : ℤ) ≤ 1 / 1000 * (1 / 2 ^ 53) := by norm_num
    exact this.trans (mul_le_mul_of_nonneg_right hM (by norm_num))
  have h3 : M * (1 / 2 ^ 53) + M * (1 / 2 ^ 53) = M * (1 / 2 ^ 52) := by ring
  rw [← h3]
  exact add_le_add h1 (h7.trans h2)

theorem abs_of_near {a b M e : ℚ} (h : |a - b| ≤ e) (hb : |b| ≤ M) : |a| ≤ M + e := by
  have : a = b + (a - b) := by ring
  rw [this]
  exact (abs_add_le _ _).trans (add_le_add hb h)

theorem small_max {q M : ℚ} (h : |q| ≤ M) (hM : M ≤ 2 ^ 20) : |q| ≤ 2 ^ (1023 : ℤ) := by
  have big : (2 : ℚ) ^ (20 : ℤ) ≤ 2 ^ (1023 : ℤ) := zpow_le_zpow_right₀ (by norm_num) (by norm_num)
  exact (h.trans hM).trans (le_trans (by norm_num) big)

theorem kelvin_lit : ∃ L : ℚ, ext (lit 273.15 : B64 σ) = .fin L ∧ |L - 273.15| ≤ 274 * (1 / 2 ^ 52) ∧ |L| ≤ 274 := by
  have h : |(273.15 : ℚ)| ≤ 273.15 := by norm_num
  have he := rnd_within h (by norm_num)
  refine ⟨_, ext_lit64 273.15 (small_max h (by norm_num)), he.trans (by norm_num), (abs_of_near he h).trans (by norm_num)⟩

/-- degrees Kelvin -/
theorem kelvin_near {v : B64 σ} {q : ℚ} (hv : ext v = .fin q) (hq : |q - 273.15| ≤ 100) : ∃ r, ext (kelvinToCelsius v) = .fin r ∧ |r - (q - 273.15)| ≤ 1 / 2 ^ 42 := by
  obtain ⟨L, hL, h1, _⟩ := kelvin_lit (σ := σ)
  have h2 : |q - L| ≤ 101 := by
    have : q - L = (q - 273.15) - (L - 273.15) := by ring
    rw [this]
    refine (abs_sub _ _).trans ((add_le_add hq h1).trans (by norm_num))
  refine ⟨_, fin_sub hv hL (small_max h2 (by norm_num)), ?_⟩
  have h3 := rnd_within h2 (by norm_num)
  have : rnd (q - L) - (q - 273.15) = (rnd (q - L) - (q - L)) - (L - 273.15) := by ring
  rw [this]
  exact (abs_sub _ _).trans ((add_le_add h3 h1).trans (by norm_num))

/-- degrees Fahrenheit -/
theorem fahrenheit_near {v : B64 σ} {q : ℚ} (hv : ext v = .fin q) (hq : |(q - 32) * 5 / 9| ≤ 100) :
    ∃ r, ext (fahrenheitToCelsius v) = .fin r ∧ |r - (q - 32) * 5 / 9| ≤ 1 / 2 ^ 42 := by
  obtain ⟨L, hL, l1, l2⟩ := kelvin_lit (σ := σ)
  have e32 : ext (lit 32 : B64 σ) = .fin 32 := natlit (k := 32) (by norm_num)
  have e5 : ext (lit 5 : B64 σ) = .fin 5 := natlit (k := 5) (by norm_num)
  have e9 : ext (lit 9 : B64 σ) = .fin 9 := natlit (k := 9) (by norm_num)
  have q1 : |q - 32| ≤ 180 := by
    rw [abs_le] at hq ⊢
    constructor <;> linarith [hq.1, hq.2]
  have f1 := fin_sub hv e32 (small_max q1 (by norm_num))
  have g1 := abs_le.1 (rnd_within q1 (by norm_num))
  set a := rnd (q - 32)
  have q2 : |a * 5| ≤ 905 := by
    rw [abs_le] at q1 ⊢
    constructor <;> linarith [q1.1, q1.2, g1.1, g1.2]
  have f2 := fin_mul f1 e5 (small_max q2 (by norm_num))
  have g2 := abs_le.1 (rnd_within q2 (by norm_num))
  set b := rnd (a * 5)
  have q3 : |b / 9| ≤ 101 := by
    rw [abs_le] at q1 ⊢
    constructor <;> linarith [q1.1, q1.2, g1.1, g1.2, g2.1, g2.2]
  have f3 := fin_div f2 e9 (by norm_num) (small_max q3 (by norm_num))
  have g3 := abs_le.1 (rnd_within q3 (by norm_num))
  set c := rnd (b / 9)
  have l2' := abs_le.1 l2
  have q4 : |c + L| ≤ 376 := by
    rw [abs_le] at q3 ⊢
    constructor <;> linarith [q3.1, q3.2, g3.1, g3.2, l2'.1, l2'.2]
  have f4 := fin_add f3 hL (small_max q4 (by norm_num))
  have g4 := abs_le.1 (rnd_within q4 (by norm_num))
  set d := rnd (c + L)
  have q5 : |d - L| ≤ 103 := by
    rw [abs_le] at q3 ⊢
    constructor <;> linarith [q3.1, q3.2, g3.1, g3.2, g4.1, g4.2]
  refine ⟨_, fin_sub f4 hL (small_max q5 (by norm_num)), ?_⟩
  have g5 := abs_le.1 (rnd_within q5 (by norm_num))
  rw [abs_le]
  constructor <;> linarith [g1.1, g1.2, g2.1, g2.2, g3.1, g3.2, g4.1, g4.2, g5.1, g5.2]

/-- **C137, temperature.** In float64 arithmetic, for readings of a thermometer of any of the three scales under any accepted name, between −100 and 100 degrees Celsius, the
conversion gives, reading by reading, the temperature in degrees Celsius up to 2^-42 degrees; missing readings stay missing. -/
theorem C137_temp (u : String) (s : TempScale) (hu : (u, s) ∈ tempUnits) (x : List (B64 σ)) (c : List (Option ℚ))
    (h : List.Forall₂ (fun (v : B64 σ) (o : Option ℚ) => (o = none ∧ v = .nan) ∨ ∃ t, o = some t ∧ |t| ≤ 100 ∧ ext v = .fin (s.reading t)) x c) :
    ∃ out, convertTemp u x = .ok out ∧
      List.Forall₂ (fun (w : B64 σ) (o : Option ℚ) => (o = none ∧ w = .nan) ∨ ∃ t r, o = some t ∧ ext w = .fin r ∧ |r - t| ≤ 1 / 2 ^ 42) out c := by
  have key : ∀ f : B64 σ → B64 σ, f .nan = .nan → (∀ v t, |t| ≤ 100 → ext v = .fin (s.reading t) → ∃ r, ext (f v) = .fin r ∧ |r - t| ≤ 1 / 2 ^ 42) →
      List.Forall₂ (fun (w : B64 σ) (o : Option ℚ) => (o = none ∧ w = .nan) ∨ ∃ t r, o = some t ∧ ext w = .fin r ∧ |r - t| ≤ 1 / 2 ^ 42) (x.map f) c := by
    intro f h0 hf
    rw [List.forall₂_map_left_iff]
    refine h.imp fun v o hv => ?_
    rcases hv with ⟨rfl, rfl⟩ | ⟨t, rfl, ht, hv⟩
    · exact Or.inl ⟨rfl, h0⟩
    · obtain ⟨r, hr, he⟩ := hf v t ht hv
      exact Or.inr ⟨t, r, rfl, hr, he⟩
  have hcel : s = .celsius → List.Forall₂ (fun (w : B64 σ) (o : Option ℚ) => (o = none ∧ w = .nan) ∨ ∃ t r, o = some t ∧ ext w = .fin r ∧ |r - t| ≤ 1 / 2 ^ 42) x c := by
    rintro rfl
    have := key id rfl (fun v t _ hv => ⟨t, hv, by simp⟩)
    rwa [List.map_id] at this
  have hfah : s = .fahrenheit → List.Forall₂ (fun (w : B64 σ) (o : Option ℚ) => (o = none ∧ w = .nan) ∨ ∃ t r, o = some t ∧ ext w = .fin r ∧ |r - t| ≤ 1 / 2 ^ 42)
      (x.map fahrenheitToCelsius) c := by
    rintro rfl
    refine key _ rfl (fun v t ht hv => ?_)
    have e : (TempScale.fahrenheit.reading t - 32) * 5 / 9 = t := by
      show (t * 9 / 5 + 32 - 32) * 5 / 9 = t
      ring
    have := fahrenheit_near hv (by rw [e]; exact ht)
    rwa [e] at this
  have hkel : s = .kelvin → List.Forall₂ (fun (w : B64 σ) (o : Option ℚ) => (o = none ∧ w = .nan) ∨ ∃ t r, o = some t ∧ ext w = .fin r ∧ |r - t| ≤ 1 / 2 ^ 42)
      (x.map kelvinToCelsius) c := by
    rintro rfl
    refine key _ rfl (fun v t ht hv => ?_)
    have e : TempScale.kelvin.reading t - 273.15 = t := by
      show t + 273.15 - 273.15 = t
      ring
    have := kelvin_near hv (by rw [e]; exact ht)
    rwa [e] at this
  simp only [tempUnits, List.mem_cons, Prod.mk.injEq, List.not_mem_nil, or_false] at hu
  unfold convertTemp
  rcases hu with ⟨rfl, hs⟩ | ⟨rfl, hs⟩ | ⟨rfl, hs⟩ | ⟨rfl, hs⟩ | ⟨rfl, hs⟩ | ⟨rfl, hs⟩ | ⟨rfl, hs⟩ | ⟨rfl, hs⟩ | ⟨rfl, hs⟩ | ⟨rfl, hs⟩ <;>
    simp only [List.mem_cons, List.not_mem_nil, or_false, String.reduceEq, or_self, or_true, true_or, if_true, if_false] <;>
    first
      | exact ⟨_, rfl, hcel hs⟩
      | exact ⟨_, rfl, hfah hs⟩
      | exact ⟨_, rfl, hkel hs⟩

theorem inch_near {v : B64 σ} {q : ℚ} (hv : ext v = .fin q) (hq : |q| ≤ 2 ^ (1000 : ℤ)) :
    ∃ r, ext (v * lit 25.4) = .fin r ∧ |r - 25.4 * q| ≤ |25.4 * q| / 2 ^ 51 + 2 ^ (-1074 : ℤ) := by
  have h25 : |(25.4 : ℚ)| = 25.4 := by norm_num
  have hmin : (2 : ℚ) ^ (-1022 : ℤ) ≤ |25.4| := by
    have : (2 : ℚ) ^ (-1022 : ℤ) ≤ 2 ^ (0 : ℤ) := zpow_le_zpow_right₀ (by norm_num) (by norm_num)
    exact this.trans (by norm_num)
  have hr := rnd_rel hmin
  rw [h25] at hr
  have hr' := abs_le.1 hr
  have hl := ext_lit64 (σ := σ) 25.4 (small_max (M := 25.4) (by norm_num) (by norm_num))
  set L := rnd 25.4
  have hu : unit = 1 / 2 ^ 53 := rfl
  rw [hu] at hr hr'
  have hL : |L| ≤ 26 := by
    rw [abs_le]
    constructor <;> linarith [hr'.1, hr'.2]
  have hmax : |q * L| ≤ 2 ^ (1023 : ℤ) := by
    rw [abs_mul]
    have h1 : |q| * |L| ≤ 2 ^ (1000 : ℤ) * 26 := mul_le_mul hq hL (abs_nonneg _) (by positivity)
    have h2 : (2 : ℚ) ^ (1000 : ℤ) * 26 ≤ 2 ^ (1000 : ℤ) * 2 ^ (23 : ℤ) := mul_le_mul_of_nonneg_left (by norm_num) (by positivity)
    have h3 : (2 : ℚ) ^ (1000 : ℤ) * 2 ^ (23 : ℤ) = 2 ^ (1023 : ℤ) := by rw [← zpow_add₀ (by norm_num)]; norm_num
    exact h1.trans (h2.trans h3.le)
  refine ⟨_, fin_mul hv hl hmax, ?_⟩
  have h1 := rnd_abs (q * L)
  have e : rnd (q * L) - 25.4 * q = (rnd (q * L) - q * L) + q * (L - 25.4) := by ring
  rw [e]
  refine (abs_add_le _ _).trans ?_
  rw [abs_mul q (L - 25.4)]
  have h2 : |q| * |L - 25.4| ≤ |q| * (25.4 * (1 / 2 ^ 53)) := mul_le_mul_of_nonneg_left hr (abs_nonneg _)
  have h3 : |q * L| * unit ≤ |q| * 26 * (1 / 2 ^ 53) := by
    rw [abs_mul, hu]
    exact mul_le_mul_of_nonneg_right (mul_le_mul_of_nonneg_left hL (abs_nonneg _)) (by norm_num)
  have h4 : |25.4 * q| / 2 ^ 51 = |q| * 25.4 * (4 / 2 ^ 53) := by
    rw [abs_mul, h25]
    ring
  rw [h4]
  have h5 : |q| * 26 * (1 / 2 ^ 53) + |q| * (25.4 * (1 / 2 ^ 53)) ≤ |q| * 25.4 * (4 / 2 ^ 53) := by
    have := abs_nonneg q
    nlinarith
  have h6 := add_le_add (h1.trans (add_le_add_left h3 _)) h2
  refine h6.trans ?_
  refine le_trans (le_of_eq ?_) (add_le_add_left h5 _)
  ring

/-- what conversion by the factor `k` makes of a value -/
def Converted (k : ℚ) (v w : B64 σ) : Prop :=
  (v = .nan ∧ w = .nan) ∨ ∃ q r, ext v = .fin q ∧ ext w = .fin r ∧ |r - k * q| ≤ |k * q| / 2 ^ 51 + 2 ^ (-1074 : ℤ)

theorem converted_one {x : List (B64 σ)} (hx : ∀ v ∈ x, v = .nan ∨ ∃ q, ext v = .fin q ∧ |q| ≤ 2 ^ (1000 : ℤ)) : List.Forall₂ (Converted 1) x x := by
  rw [List.forall₂_same]
  intro v hv
  rcases hx v hv with h | ⟨q, hq, _⟩
  · exact Or.inl ⟨h, h⟩
  · exact Or.inr ⟨q, q, hq, hq, by rw [one_mul, sub_self, abs_zero]; positivity⟩

theorem converted_inch {x : List (B64 σ)} (hx : ∀ v ∈ x, v = .nan ∨ ∃ q, ext v = .fin q ∧ |q| ≤ 2 ^ (1000 : ℤ)) :
    List.Forall₂ (Converted 25.4) x (x.map fun v => v * lit 25.4) := by
  rw [List.forall₂_map_right_iff, List.forall₂_same]
  intro v hv
  rcases hx v hv with rfl | ⟨q, hq, hb⟩
  · exact Or.inl ⟨rfl, rfl⟩
  · obtain ⟨r, hr, he⟩ := inch_near hq hb
    exact Or.inr ⟨q, r, hq, hr, he⟩

/-- **C137, precipitation.** In float64 arithmetic, for every accepted unit of precipitation with `k` millimetres in one unit, every value up to 2^1000 becomes `k` times that
value up to a relative error of 2^-51 (and the least positive number); missing values stay missing. -/
theorem C137_precip (u : String) (k : ℚ) (hu : (u, k) ∈ precipUnits) (x : List (B64 σ)) (hx : ∀ v ∈ x, v = .nan ∨ ∃ q, ext v = .fin q ∧ |q| ≤ 2 ^ (1000 : ℤ)) :
    ∃ out, convertPrecip u x = .ok out ∧ List.Forall₂ (Converted k) x out := by
  simp only [precipUnits, lengthUnits, List.mem_cons, Prod.mk.injEq, List.not_mem_nil, or_false] at hu
  unfold convertPrecip
  rcases hu with ⟨rfl, rfl⟩ | ⟨rfl, rfl⟩ | ⟨rfl, rfl⟩ | ⟨rfl, rfl⟩ | ⟨rfl, rfl⟩ | ⟨rfl, rfl⟩ <;>
    simp only [List.mem_cons, List.not_mem_nil, or_false, String.reduceEq, or_self, or_true, true_or, if_true, if_false] <;>
    first
      | exact ⟨_, rfl, converted_one hx⟩
      | exact ⟨_, rfl, converted_inch hx⟩

/-- **C137, PET.** The same for evapotranspiration. -/
theorem C137_pet (u : String) (k : ℚ) (hu : (u, k) ∈ lengthUnits) (x : List (B64 σ)) (hx : ∀ v ∈ x, v = .nan ∨ ∃ q, ext v = .fin q ∧ |q| ≤ 2 ^ (1000 : ℤ)) :
    ∃ out, convertPet u x = .ok out ∧ List.Forall₂ (Converted k) x out := by
  simp only [lengthUnits, List.mem_cons, Prod.mk.injEq, List.not_mem_nil, or_false] at hu
  unfold convertPet
  rcases hu with ⟨rfl, rfl⟩ | ⟨rfl, rfl⟩ | ⟨rfl, rfl⟩ | ⟨rfl, rfl⟩ | ⟨rfl, rfl⟩ <;>
    simp only [List.mem_cons, List.not_mem_nil, or_false, String.reduceEq, or_self, or_true, true_or, if_true, if_false] <;>
    first
      | exact ⟨_, rfl, converted_one hx⟩
      | exact ⟨_, rfl, converted_inch hx⟩

/-- freezing point, 50 degrees Fahrenheit and a gap: the hypotheses of `C137_temp` hold -/
example : List.Forall₂ (fun (v : B64 leftToRight) (o : Option ℚ) => (o = none ∧ v = .nan) ∨ ∃ t, o = some t ∧ |t| ≤ 100 ∧ ext v = .fin (TempScale.fahrenheit.reading t))
    [lit 32, lit 50, nan] [some 0, some 10, none] := by
  refine .cons (Or.inr ⟨0, rfl, by norm_num, by decide +kernel⟩) (.cons (Or.inr ⟨10, rfl, by norm_num, by decide +kernel⟩) (.cons (Or.inl ⟨rfl, rfl⟩) .nil))

/-- 0.1 inches and a gap: the hypotheses of `C137_precip` hold, and the result is not exactly 2.54 mm -/
example : (("inches", 25.4) : String × ℚ) ∈ precipUnits ∧ (∀ v ∈ ([lit 0.1, nan] : List (B64 leftToRight)), v = .nan ∨ ∃ q, ext v = .fin q ∧ |q| ≤ 2 ^ (1000 : ℤ)) ∧
    ext (lit 0.1 * lit 25.4 : B64 leftToRight) ≠ .fin 2.54 := by
  refine ⟨by simp [precipUnits, lengthUnits], ?_, by decide +kernel⟩
  intro v hv
  simp only [List.mem_cons, List.not_mem_nil, or_false] at hv
  rcases hv with rfl | rfl
  · refine Or.inr ⟨3602879701896397 / 2 ^ 55, by decide +kernel, ?_⟩
    have : (2 : ℚ) ^ (0 : ℤ) ≤ 2 ^ (1000 : ℤ) := zpow_le_zpow_right₀ (by norm_num) (by norm_num)
    exact le_trans (by norm_num [abs_le]) this
  · exact Or.inl rfl

end CI.Props
