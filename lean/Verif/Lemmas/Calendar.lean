import Verif.Model.Utils
import Verif.Spec.Calendar

namespace CI
open Spec

theorem isLeap_iff (y : Int) : isLeap y = true ↔ Leap y := by
  unfold isLeap Leap
  simp only [Bool.and_eq_true, beq_iff_eq, Bool.or_eq_true, bne_iff_ne, ne_eq]
  omega

theorem isLeap_eq_false_iff (y : Int) : isLeap y = false ↔ ¬ Leap y := by
  rw [← isLeap_iff]; simp

theorem daysInYear_eq (y : Int) : daysInYear y = yearLen y := by
  unfold daysInYear yearLen
  by_cases h : Leap y
  · rw [if_pos h, if_pos ((isLeap_iff y).2 h)]
  · rw [if_neg h, if_neg (by rw [isLeap_iff]; exact h)]

theorem daysBeforeYear_succ (y : Int) : daysBeforeYear (y + 1) = daysBeforeYear y + yearLen y := by
  unfold daysBeforeYear yearLen Leap
  by_cases h4 : (4:Int) ∣ y <;> by_cases h100 : (100:Int) ∣ y <;> by_cases h400 : (400:Int) ∣ y <;>
    simp only [h4, h100, h400, not_true_eq_false, and_false, and_true, or_false, or_true,
      not_false_eq_true, if_true, if_false, and_self] <;> push_cast <;> omega

theorem daysBeforeYear_add (y : Int) (n : Nat) :
    daysBeforeYear (y + n) = daysBeforeYear y + yearsLen y n := by
  induction n with
  | zero => simp [yearsLen]
  | succ n ih =>
    have : y + ((n + 1 : Nat) : Int) = (y + n) + 1 := by push_cast; omega
    rw [this, daysBeforeYear_succ, ih, yearsLen]; push_cast; omega

theorem yearsLen_succ' (y : Int) (n : Nat) : yearsLen y (n + 1) = yearLen y + yearsLen (y + 1) n := by
  induction n with
  | zero => simp [yearsLen]
  | succ n ih =>
    rw [yearsLen, ih]
    have : y + ((n + 1 : Nat) : Int) = (y + 1) + n := by push_cast; omega
    rw [this]; simp only [yearsLen]; omega

theorem daysInMonth_eq (y : Int) (m : Nat) (h : m < 12) : daysInMonth y (m + 1) = monthLen y m := by
  have hl := isLeap_iff y
  unfold daysInMonth monthLen
  have : m = 0 ∨ m = 1 ∨ m = 2 ∨ m = 3 ∨ m = 4 ∨ m = 5 ∨ m = 6 ∨ m = 7 ∨ m = 8 ∨ m = 9 ∨ m = 10 ∨ m = 11 := by
    omega
  rcases this with h | h | h | h | h | h | h | h | h | h | h | h <;> subst h <;> simp [hl]

theorem monthLen_pos (y : Int) (m : Nat) : 0 < monthLen y m := by
  unfold monthLen; split
  · split <;> omega
  · split <;> omega

/-- the next month begins after the days of this month -/
theorem ymd2ord_next (y : Int) (m : Nat) (h : m < 11) :
    ymd2ord y (m + 2) 1 = ymd2ord y (m + 1) 1 + monthLen y m := by
  have hl := isLeap_iff y
  unfold ymd2ord daysBeforeMonth monthLen
  have : m = 0 ∨ m = 1 ∨ m = 2 ∨ m = 3 ∨ m = 4 ∨ m = 5 ∨ m = 6 ∨ m = 7 ∨ m = 8 ∨ m = 9 ∨ m = 10 := by
    omega
  rcases this with h | h | h | h | h | h | h | h | h | h | h <;> subst h <;>
    simp [hl, daysBeforeMonthTable] <;> (try split) <;> omega

theorem ymd2ord_next_year (y : Int) :
    ymd2ord (y + 1) 1 1 = ymd2ord y 12 1 + monthLen y 11 := by
  have hl := isLeap_iff y
  unfold ymd2ord
  rw [daysBeforeYear_succ]
  unfold daysBeforeMonth monthLen yearLen
  simp [hl, daysBeforeMonthTable]
  split <;> omega

theorem mkDate_ok {y : Int} {m : Nat} {d : Int} (hy : 1 ≤ y) (hy' : y ≤ 9999) (hm : 1 ≤ m) (hm' : m ≤ 12)
    (hd : 1 ≤ d) (hd' : d ≤ daysInMonth y m) : mkDate y m d = .ok (ymd2ord y m d) := by
  unfold mkDate; rw [if_pos ⟨hy, hy', hm, hm', hd, hd'⟩]

theorem mkDate_year_err {y : Int} {m : Nat} {d : Int} (hy : y < 1 ∨ 9999 < y) :
    mkDate y m d = .error .valueError := by
  unfold mkDate; rw [if_neg (by omega)]

end CI
