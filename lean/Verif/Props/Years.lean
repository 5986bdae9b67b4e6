import Verif.Props.Extend
import Verif.Props.ExtendEto
import Verif.Props.ExtendPalmer
import Verif.Props.Spei

/-!
# C91: dates enter only through differences of years; C92: the scale enters only through the accumulated series
-/

namespace CI.Props
open Fl

section
variable {F : Type} [FloatOps F]

theorem calibrationValues_shift {α : Type} (data : List α) (n p : Nat) (ds cs ce m : Int) :
    calibrationValues data n p (ds + m) (cs + m) (ce + m) = calibrationValues data n p ds cs ce := by
  unfold calibrationValues adjustCalibrationYears
  by_cases h : cs < ds ∨ ce > ds + n
  · have h' : cs + m < ds + m ∨ ce + m > ds + m + n := by omega
    simp only [if_pos h, if_pos h']
    congr 1 <;> omega
  · have h' : ¬ (cs + m < ds + m ∨ ce + m > ds + m + n) := by omega
    simp only [if_neg h, if_neg h']
    congr 1 <;> omega

theorem gammaParameters_shift (E : Ext F) (values : Arr F) (ds cs ce m : Int) (per : Periodicity) :
    gammaParameters E values (ds + m) (cs + m) (ce + m) per = gammaParameters E values ds cs ce per := by
  unfold gammaParameters
  simp only [calibrationValues_shift]

theorem transformGamma_shift (E : Ext F) (values : Arr F) (ds cs ce m : Int) (per : Periodicity) (a b : Option (List F)) :
    transformFittedGamma E values (ds + m) (cs + m) (ce + m) per a b = transformFittedGamma E values ds cs ce per a b := by
  unfold transformFittedGamma
  simp only [gammaParameters_shift]

theorem pearsonParameters_shift (fit : List F → Res (F × F × F)) (values : Arr F) (ds cs ce m : Int) (per : Periodicity) :
    pearsonParameters fit values (ds + m) (cs + m) (ce + m) per = pearsonParameters fit values ds cs ce per := by
  unfold pearsonParameters
  simp only [calibrationValues_shift]

theorem adjust_shift (ds de cs ce m : Int) :
    adjustCalibrationYears (ds + m) (de + m) (cs + m) (ce + m) = ((adjustCalibrationYears ds de cs ce).1 + m, (adjustCalibrationYears ds de cs ce).2 + m) := by
  unfold adjustCalibrationYears
  by_cases h : cs < ds ∨ ce > de
  · have h' : cs + m < ds + m ∨ ce + m > de + m := by omega
    rw [if_pos h, if_pos h']
  · have h' : ¬ (cs + m < ds + m ∨ ce + m > de + m) := by omega
    rw [if_neg h, if_neg h']

theorem transformPearson_shift (E : Ext F) (fit : List F → Res (F × F × F)) (values : Arr F) (ds cs ce m : Int) (per : Periodicity) (args : PearsonArgs F) :
    transformFittedPearson E fit values (ds + m) (cs + m) (ce + m) per args = transformFittedPearson E fit values ds cs ce per args := by
  have key : ∀ n : Nat, adjustCalibrationYears (ds + m) (ds + m + n) (cs + m) (ce + m) =
      ((adjustCalibrationYears ds (ds + n) cs ce).1 + m, (adjustCalibrationYears ds (ds + n) cs ce).2 + m) := by
    intro n
    rw [← adjust_shift]
    congr 1
    omega
  unfold transformFittedPearson
  simp only [key, pearsonParameters_shift]

/-- **C91 (SPI).** Moving the first year of the data and both calibration years by the same number of years does not change the SPI (also not which error is raised). -/
theorem C91_spi (E : Ext F) (values : Arr F) (k : Int) (dist : Distribution) (ds cs ce m : Int) (per : Periodicity) (fp : Option (FitDict F)) :
    spi E values k dist (ds + m) (cs + m) (ce + m) per fp = spi E values k dist ds cs ce per fp := by
  unfold spi
  simp only [transformGamma_shift, transformPearson_shift]

/-- **C91 (SPEI).** -/
theorem C91_spei (E : Ext F) (p e : Arr F) (k : Int) (dist : Distribution) (per : Periodicity) (ds cs ce m : Int) (fp : Option (FitDict F)) :
    spei E p e k dist per (ds + m) (cs + m) (ce + m) fp = spei E p e k dist per ds cs ce fp := by
  unfold spei
  simp only [transformGamma_shift, transformPearson_shift]

/-- **C91 (percentage of normal).** -/
theorem C91_pnp (values : List F) (k : Option Int) (ds cs ce m : Int) (per : Periodicity) :
    percentageOfNormal values k (ds + m) (cs + m) (ce + m) per = percentageOfNormal values k ds cs ce per := by
  have h1 : (ds + m > cs + m) = (ds > cs) := by apply propext; omega
  have h2 : ce + m - (cs + m) + 1 = ce - cs + 1 := by omega
  have h3 : cs + m - (ds + m) = cs - ds := by omega
  unfold percentageOfNormal
  simp only [h1, h2, h3]

/-- **C91 (Palmer).** -/
theorem C91_palmer (log10 : F → F) (p e : Arr F) (awc : F) (ds cs ce m : Int) (fp : Option (PalmerDict F)) :
    palmerPdsi log10 p e awc (ds + m) (cs + m) (ce + m) fp = palmerPdsi log10 p e awc ds cs ce fp := by
  have h1 : cs + m - (ds + m) = cs - ds := by omega
  have h2 : ce + m - (ds + m) = ce - ds := by omega
  unfold palmerPdsi
  simp only [h1, h2]

/-- **C91 (PET).** Thornthwaite's PET is the same for every two first years from which the years of the record have the same lengths. -/
theorem C91_pet_partial (T : Trig F) (temps : Arr F) (lat : Option F) (y y' : Int) (h : ∀ i : Nat, 12 * i < temps.data.length → isLeap (y + i) = isLeap (y' + i)) :
    pet T temps lat y = pet T temps lat y' := by
  unfold pet
  split
  · rfl
  · split
    · rfl
    · split
      · unfold etoThornthwaite
        cases reshapeTo2d temps 12 with
        | error e => rfl
        | ok t2 =>
          simp only [bind, Except.bind]
          cases monthlyMeanDaylight T _ false with
          | error e => rfl
          | ok a =>
            simp only
            cases monthlyMeanDaylight T _ true with
            | error e => rfl
            | ok b =>
              simp only [pure, Except.pure, Except.ok.injEq]
              apply List.ext_getElem?
              intro j
              rw [List.getElem?_take, List.getElem?_take]
              split
              · rename_i hj
                rw [List.getElem?_map, List.getElem?_map]
                cases hz : (t2.data.map zeroNegative).zipIdx[j]? with
                | none => rfl
                | some q =>
                  have hq : q.2 = j := by
                    rw [List.getElem?_zipIdx] at hz
                    cases hv : (t2.data.map zeroNegative)[j]? with
                    | none => rw [hv] at hz; cases hz
                    | some v => rw [hv] at hz; simp only [Option.map_some, Option.some.injEq] at hz; rw [← hz]; simp
                  simp only [Option.map_some, Option.some.injEq]
                  unfold thornAt
                  rw [hq, h (j / 12) (by omega)]
              · rfl
      · rfl

theorem isLeap_400 (y m : Int) : isLeap (y + 400 * m) = isLeap y := by
  unfold isLeap
  have h1 : (y + 400 * m) % 4 = y % 4 := by omega
  have h2 : (y + 400 * m) % 100 = y % 100 := by omega
  have h3 : (y + 400 * m) % 400 = y % 400 := by omega
  simp only [h1, h2, h3]

/-- **C91 (PET, 400 years).** Moving the record by a multiple of 400 years does not change the PET. -/
theorem C91_pet_400 (T : Trig F) (temps : Arr F) (lat : Option F) (y m : Int) : pet T temps lat (y + 400 * m) = pet T temps lat y :=
  C91_pet_partial T temps lat _ _ (fun i _ => by
    rw [show y + 400 * m + (i : Int) = (y + i) + 400 * m by ring, isLeap_400])

theorem clipNeg_of_nan [FloatLaws F] (x : List F) (h : nan ∈ x) : clipNeg x = x := by
  unfold clipNeg
  have : amin x = .ok nan := by
    cases x with
    | nil => cases h
    | cons a l =>
      unfold amin
      dsimp only
      rw [if_pos]
      rw [List.any_eq_true]
      exact ⟨nan, h, (FloatLaws.isNan_iff _).2 rfl⟩
  rw [this]
  simp

/-- **C92.** For precipitation without negative values and `1 ≤ k ≤` length: the SPI at scale `k` is the SPI at scale 1 of the series of `k`-step sums (with the same distribution, years and
supplied parameters; also when it raises), unless all sums are missing. -/
theorem C92_spi [FloatLaws F] (E : Ext F) (x acc : List F) (k : Nat) (dist : Distribution) (ds cs ce : Int) (per : Periodicity) (fp : Option (FitDict F))
    (hk : 1 ≤ k) (hkl : k ≤ x.length) (hx : ∀ v ∈ x, flt v (lit 0) = false) (hacc : sumToScale x k = .ok acc) (hn : ∃ v ∈ acc, isNan v = false) :
    spi E (Arr.of1d x) k dist ds cs ce per fp = spi E (Arr.of1d acc) 1 dist ds cs ce per fp := by
  have hna : allNan acc = false := by
    obtain ⟨v, hv, h⟩ := hn
    unfold allNan
    rw [List.all_eq_false]
    exact ⟨v, hv, by rw [h]; simp⟩
  have hnx : allNan x = false := by
    by_contra hc
    rw [Bool.not_eq_false] at hc
    obtain ⟨v, hv, h⟩ := hn
    obtain ⟨out, ho, hl, ha, hb, hw⟩ := C07_windows_partial x k hk hkl
    rw [hacc] at ho
    cases ho
    obtain ⟨i, hi⟩ := List.mem_iff_getElem?.1 hv
    have hil : i < x.length := by
      have := (List.getElem?_eq_some_iff.1 hi).1
      omega
    unfold allNan at hc
    rw [List.all_eq_true] at hc
    have hxi : x[i]? = some nan := by
      rw [List.getElem?_eq_getElem hil, (FloatLaws.isNan_iff _).1 (hc _ (List.getElem_mem hil))]
    have := hw i 0 hil (by omega) (by omega) (by simpa using hxi)
    rw [hi] at this
    cases this
    rw [(FloatLaws.isNan_iff (nan : F)).2 rfl] at h
    cases h
  have hlen : acc.length = x.length := by
    obtain ⟨out, ho, hl, _⟩ := C07_windows_partial x k hk hkl
    rw [hacc] at ho
    cases ho
    exact hl
  have hclip : clipNeg acc = acc := by
    by_cases h1 : k = 1
    · subst h1
      have : acc = x := by
        have : sumToScale x ((1 : Nat) : Int) = .ok x := by simp [sumToScale]
        rw [this] at hacc
        cases hacc
        rfl
      rw [this]
      exact clipNeg_id x hx
    · obtain ⟨out, ho, hl, ha, _⟩ := C07_windows_partial x k hk hkl
      rw [hacc] at ho
      cases ho
      exact clipNeg_of_nan acc (List.mem_of_getElem? (ha 0 (by omega)))
  rw [spi_eq E (Arr.of1d x) k dist ds cs ce per fp (Or.inr rfl) hnx, spi_eq E (Arr.of1d acc) 1 dist ds cs ce per fp (Or.inr rfl) hna]
  have hd : (Arr.of1d x).data = x := rfl
  have hd' : (Arr.of1d acc).data = acc := rfl
  have hs1 : sumToScale acc 1 = .ok acc := by simp [sumToScale]
  rw [hd, hd', clipNeg_id x hx, hclip, hacc, hs1, hlen]

/-- **C92 (percentage of normal).** For every series: the percentage of normal at scale `k` is that at scale 1 of the series of `k`-step sums. -/
theorem C92_pnp [FloatLaws F] (x acc : List F) (k : Nat) (ds cs ce : Int) (per : Periodicity) (hk : 1 ≤ k) (hkl : k ≤ x.length) (hacc : sumToScale x k = .ok acc) :
    percentageOfNormal x (some (k : Int)) ds cs ce per = percentageOfNormal acc (some 1) ds cs ce per := by
  have hlen : acc.length = x.length := by
    obtain ⟨out, ho, hl, _⟩ := C07_windows_partial x k hk hkl
    rw [hacc] at ho
    cases ho
    exact hl
  have hs1 : sumToScale acc 1 = .ok acc := by simp [sumToScale]
  unfold percentageOfNormal
  simp only [hlen, hacc, hs1]
  rw [if_neg (by omega), if_neg (by omega)]

end

section real
open Spec
variable {T : Trig (Fl ℝ)}

/-- **C91 is false for Thornthwaite's equation**: the number of days of February enters. A year of 5 degrees at the equator has another February as the year 2000 than as 2001. -/
theorem C91_pet_fails (hT : TrigReal T) (r : Arr (Fl ℝ)) (hr : reshapeTo2d (Arr.of1d ((evenYear 5).map Spec.toFl)) 12 = .ok r) :
    ∃ (out out' : List (Fl ℝ)) (p : ℝ), pet T (Arr.of1d ((evenYear 5).map Spec.toFl)) (some (fin 0)) 2001 = .ok out ∧
      pet T (Arr.of1d ((evenYear 5).map Spec.toFl)) (some (fin 0)) 2000 = .ok out' ∧ 0 < p ∧
      out[1]? = some (fin p) ∧ out'[1]? = some (fin (29 / 28 * p)) := by
  have form := fun y => C30_formula hT _ r _ rfl hr 0 (by norm_num) (by norm_num) y
      (fun j hj => by rw [monthValues_one _ j hj]; simp) ⟨5, by simp [evenYear], by norm_num⟩
  have h1 : heat (evenYear 5) = 12 := by rw [heat_one 5 (by norm_num)]; norm_num
  have m1 : max (5 : ℝ) 0 = 5 := max_eq_left (by norm_num)
  have val : ∀ (y : ℤ) (d : ℕ), 0 < d → mdays (y + ((1 / 12 : ℕ) : ℤ)) (1 % 12) = d →
      thornthwaite (evenYear 5) (0 * (Real.pi / 180)) y 1 5 = 16 * (d / 30) * (10 * 5 / 12) ^ expo 12 := by
    intro y d h0 hd
    unfold thornthwaite
    rw [h1, hd, zero_mul, meanHours_equator _ _ h0, m1]
    norm_num
  refine ⟨_, _, thornthwaite (evenYear 5) (0 * (Real.pi / 180)) 2001 1 5, form 2001, form 2000, ?_, ?_, ?_⟩
  · rw [val 2001 28 (by norm_num) (by decide)]
    have : (0 : ℝ) < (10 * 5 / 12) ^ expo 12 := Real.rpow_pos_of_pos (by norm_num) _
    positivity
  · simp [evenYear, Spec.toFl]
  · have : (29 / 28 : ℝ) * thornthwaite (evenYear 5) (0 * (Real.pi / 180)) 2001 1 5 = thornthwaite (evenYear 5) (0 * (Real.pi / 180)) 2000 1 5 := by
      rw [val 2001 28 (by norm_num) (by decide), val 2000 29 (by norm_num) (by decide)]
      push_cast
      ring
    rw [this]
    simp [evenYear, Spec.toFl]

end real

/-- `C91_pet_partial`: the years from 2001 and from 2005 have the same lengths for 48 months -/
example : ∀ i : Nat, 12 * i < 48 → isLeap (2001 + i) = isLeap (2005 + i) := by
  intro i hi
  have : i < 4 := by omega
  interval_cases i <;> decide

/-- `C92_spi`: five years at scale 3; the result is not constant -/
example : let x : List (Fl ℚ) := five1.map (fin (1 / 10) * ·)
    ∃ acc, sumToScale x 3 = .ok acc ∧ (∃ v ∈ acc, isNan v = false) ∧ (∀ v ∈ x, flt v (lit 0) = false) ∧
    okAnd (spi toyExt (Arr.of1d x) 3 .gamma 1990 1990 1994 .monthly none) (fun o => decide (o[1]? = some nan ∧ o[5]? ≠ o[17]? ∧ o[5]? ≠ some nan)) = true := by
  refine ⟨_, rfl, ?_, by decide +kernel, by decide +kernel⟩
  decide +kernel

end CI.Props
