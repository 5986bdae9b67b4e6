import Verif.Props.Eto

/-!
# Day length and evapotranspiration by latitude (C112)

The months from April to August lie entirely between the equinoxes of the declination formula (days 81 to 263), the months from October to February entirely outside. Exact arithmetic.
-/

namespace CI.Props
open Fl Spec

/-- the declination is not negative on the days 91 to 244, the first of April to the last of August -/
theorem declination_nonneg (d : ℕ) (h1 : 91 ≤ d) (h2 : d ≤ 244) : 0 ≤ declination d := by
  unfold declination
  have a := Real.pi_gt_d2
  have b := Real.pi_lt_d2
  have h1' : (91 : ℝ) ≤ d := by exact_mod_cast h1
  have h2' : (d : ℝ) ≤ 244 := by exact_mod_cast h2
  refine mul_nonneg (by norm_num) (Real.sin_nonneg_of_nonneg_of_le_pi ?_ ?_)
  · have : 3.14 * d ≤ Real.pi * d := by nlinarith
    linarith
  · have : Real.pi * d ≤ Real.pi * 244 := by nlinarith
    linarith

/-- the declination is not positive up to day 60 and from day 274 on -/
theorem declination_nonpos (d : ℕ) (h : d ≤ 60 ∨ (274 ≤ d ∧ d ≤ 366)) : declination d ≤ 0 := by
  unfold declination
  have a := Real.pi_gt_d2
  have b := Real.pi_lt_d2
  refine mul_nonpos_of_nonneg_of_nonpos (by norm_num) ?_
  rcases h with h | ⟨h1, h2⟩
  · have h' : (d : ℝ) ≤ 60 := by exact_mod_cast h
    have h0 : (0 : ℝ) ≤ d := Nat.cast_nonneg d
    have : Real.pi * d ≤ Real.pi * 60 := by nlinarith
    have : 0 ≤ Real.pi * d := by positivity
    exact Real.sin_nonpos_of_nonpos_of_neg_pi_le (by linarith) (by linarith)
  · have h1' : (274 : ℝ) ≤ d := by exact_mod_cast h1
    have h2' : (d : ℝ) ≤ 366 := by exact_mod_cast h2
    have : Real.pi * 274 ≤ Real.pi * d := by nlinarith
    have : Real.pi * d ≤ Real.pi * 366 := by nlinarith
    rw [← Real.sin_sub_two_pi]
    exact Real.sin_nonpos_of_nonpos_of_neg_pi_le (by linarith) (by linarith)

theorem tan_le_tan (φ ψ : ℝ) (h1 : -(Real.pi / 2) < φ) (h : φ ≤ ψ) (h2 : ψ < Real.pi / 2) : Real.tan φ ≤ Real.tan ψ :=
  Real.strictMonoOn_tan.monotoneOn ⟨h1, lt_of_le_of_lt h h2⟩ ⟨lt_of_lt_of_le h1 h, h2⟩ h

theorem tan_declination_nonneg (d : ℕ) (h : 0 ≤ declination d) : 0 ≤ Real.tan (declination d) := by
  have hb := abs_le.1 (declination_bound d)
  have := Real.pi_gt_d2
  exact Real.tan_nonneg_of_nonneg_of_le_pi_div_two h (by linarith)

theorem tan_declination_nonpos (d : ℕ) (h : declination d ≤ 0) : Real.tan (declination d) ≤ 0 := by
  have hb := abs_le.1 (declination_bound d)
  have := Real.pi_gt_d2
  exact Real.tan_nonpos_of_nonpos_of_neg_pi_div_two_le h (by linarith)

theorem hours_le (φ ψ : ℝ) (d : ℕ) (h : Real.tan φ * Real.tan (declination d) ≤ Real.tan ψ * Real.tan (declination d)) : hours φ d ≤ hours ψ d := by
  unfold hours
  refine mul_le_mul_of_nonneg_left (Real.antitone_arccos ?_) (by have := Real.pi_pos; positivity)
  linarith

theorem meanHours_le (φ ψ : ℝ) (n d : ℕ) (h : ∀ i, i < n → hours φ (d + i) ≤ hours ψ (d + i)) : meanHours φ n d ≤ meanHours ψ n d := by
  unfold meanHours
  refine div_le_div_of_nonneg_right (List.sum_le_sum ?_) (Nat.cast_nonneg n)
  intro i hi
  exact h i (List.mem_range.1 hi)

/-- the days of a calendar month from April (3) to August (7) -/
theorem summer_days (y : ℤ) (m : ℕ) (h1 : 3 ≤ m) (h2 : m ≤ 7) (i : ℕ) (hi : i < mdays y m) : 91 ≤ firstDay y m + i ∧ firstDay y m + i ≤ 244 := by
  unfold firstDay
  unfold mdays at hi ⊢
  by_cases h : Leap y
  · interval_cases m <;> simp [monthLen, h, List.range_succ] at hi ⊢ <;> omega
  · interval_cases m <;> simp [monthLen, h, List.range_succ] at hi ⊢ <;> omega

/-- the days of a calendar month from October (9) to February (1) -/
theorem winter_days (y : ℤ) (m : ℕ) (h : m ≤ 1 ∨ (9 ≤ m ∧ m ≤ 11)) (i : ℕ) (hi : i < mdays y m) :
    firstDay y m + i ≤ 60 ∨ (274 ≤ firstDay y m + i ∧ firstDay y m + i ≤ 366) := by
  unfold firstDay
  unfold mdays at hi ⊢
  have hm : m = 0 ∨ m = 1 ∨ m = 9 ∨ m = 10 ∨ m = 11 := by omega
  by_cases hl : Leap y
  · rcases hm with rfl | rfl | rfl | rfl | rfl <;> simp [monthLen, hl, List.range_succ] at hi ⊢ <;> omega
  · rcases hm with rfl | rfl | rfl | rfl | rfl <;> simp [monthLen, hl, List.range_succ] at hi ⊢ <;> omega

theorem meanHours_summer (φ ψ : ℝ) (hφ : -(Real.pi / 2) < φ) (h : φ ≤ ψ) (hψ : ψ < Real.pi / 2) (y : ℤ) (m : ℕ) (h1 : 3 ≤ m) (h2 : m ≤ 7) :
    meanHours φ (mdays y m) (firstDay y m) ≤ meanHours ψ (mdays y m) (firstDay y m) := by
  refine meanHours_le _ _ _ _ (fun i hi => hours_le _ _ _ ?_)
  obtain ⟨a, b⟩ := summer_days y m h1 h2 i hi
  exact mul_le_mul_of_nonneg_right (tan_le_tan φ ψ hφ h hψ) (tan_declination_nonneg _ (declination_nonneg _ a b))

theorem meanHours_winter (φ ψ : ℝ) (hφ : -(Real.pi / 2) < φ) (h : φ ≤ ψ) (hψ : ψ < Real.pi / 2) (y : ℤ) (m : ℕ) (hm : m ≤ 1 ∨ (9 ≤ m ∧ m ≤ 11)) :
    meanHours ψ (mdays y m) (firstDay y m) ≤ meanHours φ (mdays y m) (firstDay y m) := by
  refine meanHours_le _ _ _ _ (fun i hi => hours_le _ _ _ ?_)
  have a := winter_days y m hm i hi
  exact mul_le_mul_of_nonpos_right (tan_le_tan φ ψ hφ h hψ) (tan_declination_nonpos _ (declination_nonpos _ a))

variable {T : Trig (Fl ℝ)}

/-- **C112, evapotranspiration.** The same temperatures at two latitudes `x ≤ x'`, both strictly between the poles: at the more northern place every month from April to August has at least as
much potential evapotranspiration, every month from October to February at most as much (month 0 is January). -/
theorem C112_pet (hT : TrigReal T) (temps r : Arr (Fl ℝ)) (t : List (Option ℝ)) (ht : temps.data = t.map toFl)
    (hr : reshapeTo2d temps 12 = .ok r) (x x' : ℝ) (h1 : -90 < x) (hx : x ≤ x') (h2 : x' < 90) (y : ℤ)
    (hmon : ∀ j, j < 12 → monthValues t j ≠ []) (hpos : ∃ a : ℝ, some a ∈ t ∧ 0 < a) :
    ∃ out out' : List (Fl ℝ), pet T temps (some (fin x)) y = .ok out ∧ pet T temps (some (fin x')) y = .ok out' ∧
      ∀ (k : ℕ) (a : ℝ), t[k]? = some (some a) → ∃ p p' : ℝ, out[k]? = some (fin p) ∧ out'[k]? = some (fin p') ∧
        (3 ≤ k % 12 ∧ k % 12 ≤ 7 → p ≤ p') ∧ (k % 12 ≤ 1 ∨ 9 ≤ k % 12 → p' ≤ p) := by
  refine ⟨_, _, C30_formula hT temps r t ht hr x h1 (by linarith) y hmon hpos, C30_formula hT temps r t ht hr x' (by linarith) h2 y hmon hpos, ?_⟩
  intro k a hk
  refine ⟨thornthwaite t (x * (Real.pi / 180)) y k a, thornthwaite t (x' * (Real.pi / 180)) y k a, ?_, ?_, ?_, ?_⟩
  · rw [List.getElem?_map, List.getElem?_zipIdx, hk]; simp [toFl]
  · rw [List.getElem?_map, List.getElem?_zipIdx, hk]; simp [toFl]
  all_goals
    intro hm
    have hpi := Real.pi_pos
    have b1 : -(Real.pi / 2) < x * (Real.pi / 180) := by nlinarith
    have b2 : x' * (Real.pi / 180) < Real.pi / 2 := by nlinarith
    have b3 : x * (Real.pi / 180) ≤ x' * (Real.pi / 180) := mul_le_mul_of_nonneg_right hx (by positivity)
    have hI := heat_pos t hpos
    have hq : 0 ≤ (10 * max a 0 / heat t) ^ expo (heat t) :=
      Real.rpow_nonneg (div_nonneg (mul_nonneg (by norm_num) (le_max_right _ _)) hI.le) _
    unfold thornthwaite
    refine mul_le_mul_of_nonneg_right (mul_le_mul_of_nonneg_right (mul_le_mul_of_nonneg_left (div_le_div_of_nonneg_right ?_ (by norm_num)) (by norm_num)) (by positivity)) hq
  · exact meanHours_summer _ _ b1 b3 b2 _ _ hm.1 hm.2
  · exact meanHours_winter _ _ b1 b3 b2 _ _ (by have := Nat.mod_lt k (show 12 > 0 by norm_num); omega)

/-- **C112, day length.** Monthly mean day lengths (in hours) at two latitudes in radians: April to August at least as long at the more northern one, October to February at most as long. -/
theorem C112_daylight (hT : TrigReal T) (φ ψ : ℝ) (hφ : -(Real.pi / 2) < φ) (h : φ ≤ ψ) (hψ : ψ < Real.pi / 2) (leap : Bool) :
    ∃ l l' : List ℝ, monthlyMeanDaylight T (fin φ) leap = .ok (l.map Fl.fin) ∧ monthlyMeanDaylight T (fin ψ) leap = .ok (l'.map Fl.fin) ∧
      l.length = 12 ∧ l'.length = 12 ∧
      (∀ m, 3 ≤ m → m ≤ 7 → l.getD m 0 ≤ l'.getD m 0) ∧ (∀ m, m ≤ 1 ∨ (9 ≤ m ∧ m ≤ 11) → l'.getD m 0 ≤ l.getD m 0) := by
  refine ⟨_, _, monthlyMean_ok hT φ (abs_lt.2 ⟨hφ, by linarith⟩) leap, monthlyMean_ok hT ψ (abs_lt.2 ⟨by linarith, hψ⟩) leap, ?_, ?_, ?_, ?_⟩
  · rw [meansFrom_length, monthDays_length]
  · rw [meansFrom_length, monthDays_length]
  all_goals
    obtain ⟨y, hy⟩ : ∃ y : ℤ, isLeap y = leap := by cases leap; exacts [⟨2001, rfl⟩, ⟨2000, rfl⟩]
    have key : ∀ (χ : ℝ) (m : ℕ), m < 12 → (meansFrom χ (monthDays leap) 1).getD m 0 = meanHours χ (mdays y m) (firstDay y m) := by
      intro χ m hm
      have e := dl_eq χ y m hm
      rw [hy] at e
      rw [List.getD_eq_getElem?_getD, List.getElem?_map] at e
      have hl : m < (meansFrom χ (monthDays leap) 1).length := by rw [meansFrom_length, monthDays_length]; exact hm
      rw [List.getElem?_eq_getElem hl] at e
      rw [List.getD_eq_getElem?_getD, List.getElem?_eq_getElem hl]
      exact Fl.fin.inj e
  · intro m a b
    rw [key φ m (by omega), key ψ m (by omega)]
    exact meanHours_summer φ ψ hφ h hψ y m a b
  · intro m a
    rw [key φ m (by omega), key ψ m (by omega)]
    exact meanHours_winter φ ψ hφ h hψ y m a

/-- C112 on `sampleTemps` from 2000 at 30 degrees south and 60 degrees north: July (position 6, 20 degrees) and November (position 10, 3 degrees) -/
example : ∃ out out' : List (Fl ℝ), pet realTrig (Arr.of1d (sampleTemps.map toFl)) (some (fin (-30))) 2000 = .ok out ∧
    pet realTrig (Arr.of1d (sampleTemps.map toFl)) (some (fin 60)) 2000 = .ok out' ∧
    (∃ p p' : ℝ, out[6]? = some (fin p) ∧ out'[6]? = some (fin p') ∧ p ≤ p') ∧
    (∃ p p' : ℝ, out[10]? = some (fin p) ∧ out'[10]? = some (fin p') ∧ p' ≤ p) := by
  obtain ⟨out, out', h, h', H⟩ := C112_pet realTrig_real (Arr.of1d (sampleTemps.map toFl)) _ sampleTemps rfl (reshapeTo2d_of1d _ 12 (by norm_num)) (-30) 60
    (by norm_num) (by norm_num) (by norm_num) 2000 sampleTemps_months sampleTemps_pos
  refine ⟨out, out', h, h', ?_, ?_⟩
  · obtain ⟨p, p', a, b, c, _⟩ := H 6 20 rfl
    exact ⟨p, p', a, b, c (by decide)⟩
  · obtain ⟨p, p', a, b, _, c⟩ := H 10 3 rfl
    exact ⟨p, p', a, b, c (by decide)⟩

/-- C112, day length: equator and 1 radian north, ordinary year: June at least 12 hours, December at most 12 hours at 1 radian north -/
example : ∃ l' : List ℝ, monthlyMeanDaylight realTrig (fin 1) false = .ok (l'.map Fl.fin) ∧ 12 ≤ l'.getD 5 0 ∧ l'.getD 11 0 ≤ 12 := by
  obtain ⟨l, l', e, e', _, _, h1, h2⟩ := C112_daylight realTrig_real 0 1 (by have := Real.pi_pos; linarith) (by norm_num) (by have := Real.pi_gt_d2; linarith) false
  rw [C32_equator realTrig_real] at e
  have hl : l = List.replicate 12 12 := by
    have := Except.ok.inj e
    have h3 : (List.replicate 12 (12 : ℝ)).map Fl.fin = l.map Fl.fin := by rw [← this, List.map_replicate]
    exact (List.map_injective_iff.2 (fun a b h => Fl.fin.inj h) h3).symm
  subst hl
  exact ⟨l', e', h1 5 (by norm_num) (by norm_num), h2 11 (by norm_num)⟩

end CI.Props
