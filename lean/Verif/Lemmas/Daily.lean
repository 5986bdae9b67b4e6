import Verif.Lemmas.Calendar
import Verif.Lemmas.Py
import Mathlib.Tactic.Ring

namespace CI
open Spec

/-- closes arithmetic goals about list lengths -/
macro "len_omega" : tactic => `(tactic| (
  simp only [List.length_append, List.length_take, List.length_drop, List.length_replicate,
    List.length_cons, List.length_nil]; try omega))

section
variable {F : Type} [FloatOps F]

/-- one year converted to 366 slots -/
def convYear (y : Int) (c : List F) : List F :=
  if Leap y then c else c.take 59 ++ [(c.getD 58 nan + c.getD 59 nan) / lit 2] ++ c.drop 59

/-- `n` years converted -/
def conv366 (orig : List F) : Int → Nat → List F
  | _, 0 => []
  | y, n + 1 => convYear y (orig.take (yearLen y)) ++ conv366 (orig.drop (yearLen y)) (y + 1) n

theorem yearLen_leap {y : Int} (h : Leap y) : yearLen y = 366 := by simp [yearLen, h]
theorem yearLen_nonleap {y : Int} (h : ¬ Leap y) : yearLen y = 365 := by simp [yearLen, h]

theorem slot_lt {y : Int} {d : Nat} (hd : d < yearLen y) : slot y d < 366 := by
  unfold slot
  by_cases hl : Leap y
  · rw [yearLen_leap hl] at hd
    rw [if_pos (Or.inl hl)]; exact hd
  · rw [yearLen_nonleap hl] at hd
    split <;> omega

theorem convYear_length (y : Int) (c : List F) (h : c.length = yearLen y) :
    (convYear y c).length = 366 := by
  unfold convYear
  by_cases hl : Leap y
  · rw [if_pos hl, h, yearLen_leap hl]
  · rw [if_neg hl]; rw [yearLen_nonleap hl] at h; simp; omega

theorem to366Loop_step (orig : List F) (n : Nat) (y : Int) (done : List F) (oi ai : Nat)
    (ho : oi + yearLen y ≤ orig.length) (ha : ai = done.length) :
    to366Loop orig (n + 1) y (done ++ List.replicate ((n + 1) * 366) nan) oi ai =
      to366Loop orig n (y + 1)
        (done ++ convYear y ((orig.drop oi).take (yearLen y)) ++ List.replicate (n * 366) nan)
        (oi + yearLen y) (ai + 366) := by
  have hrep : ∀ k l : Nat, k + l = (n + 1) * 366 →
      List.replicate ((n + 1) * 366) (nan : F) = List.replicate k nan ++ List.replicate l nan := by
    intro k l h; rw [List.replicate_append_replicate, h]
  rw [to366Loop]
  by_cases hl : Leap y
  · have hb := (isLeap_iff y).2 hl
    rw [yearLen_leap hl] at ho ⊢
    have hs : slice orig oi (oi + 366) = (orig.drop oi).take 366 := by simp [slice]
    have hset := setSlice_append' (done ++ List.replicate ((n + 1) * 366) nan) done
      (List.replicate 366 nan) (List.replicate (n * 366) nan) (slice orig oi (oi + 366)) ai (ai + 366)
      (by rw [hrep 366 (n * 366) (by ring), List.append_assoc]) ha (by len_omega)
      (by rw [hs]; len_omega)
    simp only [hb, if_true, hset, bind, Except.bind]
    rw [hs]; simp [convYear, hl]
  · have hb := (isLeap_eq_false_iff y).2 hl
    rw [yearLen_nonleap hl] at ho ⊢
    have hs1 : slice orig oi (oi + 59) = (orig.drop oi).take 59 := by simp [slice]
    have hs2 : slice orig (oi + 59) (oi + 365) = (orig.drop (oi + 59)).take 306 := by
      simp only [slice]; congr 1; omega
    have hset1 := setSlice_append' (done ++ List.replicate ((n + 1) * 366) nan) done
      (List.replicate 59 nan) (List.replicate (1 + 306 + n * 366) nan) (slice orig oi (oi + 59)) ai (ai + 59)
      (by rw [hrep 59 (1 + 306 + n * 366) (by ring), List.append_assoc]) ha (by len_omega)
      (by rw [hs1]; len_omega)
    have hset2 := setIdx_append
      (done ++ slice orig oi (oi + 59) ++ List.replicate (1 + 306 + n * 366) nan)
      (done ++ slice orig oi (oi + 59)) (List.replicate (306 + n * 366) (nan : F)) nan
      ((orig[oi + 58] + orig[oi + 59]) / lit 2) (ai + 59)
      (by rw [List.append_assoc _ [nan]]
          show _ = _ ++ (List.replicate 1 nan ++ _)
          rw [List.replicate_append_replicate]; congr 2; omega)
      (by rw [hs1]; len_omega)
    have hset3 := setSlice_append'
      (done ++ slice orig oi (oi + 59) ++ [(orig[oi + 58] + orig[oi + 59]) / lit 2] ++
        List.replicate (306 + n * 366) (nan : F))
      (done ++ slice orig oi (oi + 59) ++ [(orig[oi + 58] + orig[oi + 59]) / lit 2])
      (List.replicate 306 nan) (List.replicate (n * 366) nan) (slice orig (oi + 59) (oi + 365))
      (ai + 60) (ai + 366)
      (by rw [List.append_assoc _ (List.replicate 306 nan), List.replicate_append_replicate])
      (by rw [hs1]; len_omega) (by len_omega) (by rw [hs2]; len_omega)
    simp only [hb, Bool.false_eq_true, if_false, hset1, bind, Except.bind,
      getIdx_of_lt orig (oi + 58) (by omega), getIdx_of_lt orig (oi + 59) (by omega), hset2]
    rw [if_neg (by omega)]
    simp only [hset3]
    congr 1
    simp only [convYear, if_neg hl, hs1, hs2, List.take_take, List.append_assoc]
    have e1 : ((orig.drop oi).take 365).getD 58 nan = orig[oi + 58] := by
      rw [List.getD_eq_getElem?_getD, List.getElem?_take_of_lt (by omega), List.getElem?_drop,
        List.getElem?_eq_getElem (by omega)]; rfl
    have e2 : ((orig.drop oi).take 365).getD 59 nan = orig[oi + 59] := by
      rw [List.getD_eq_getElem?_getD, List.getElem?_take_of_lt (by omega), List.getElem?_drop,
        List.getElem?_eq_getElem (by omega)]; rfl
    rw [e1, e2]
    simp only [show min 59 365 = 59 from rfl, List.drop_take, List.drop_drop]

theorem to366Loop_full (orig : List F) (n m : Nat) (y : Int) (done : List F) (oi ai : Nat)
    (ho : oi + yearsLen y n ≤ orig.length) (ha : ai = done.length) :
    to366Loop orig (n + m) y (done ++ List.replicate ((n + m) * 366) nan) oi ai =
      to366Loop orig m (y + n)
        (done ++ conv366 (orig.drop oi) y n ++ List.replicate (m * 366) nan)
        (oi + yearsLen y n) (ai + n * 366) := by
  induction n generalizing y done oi ai with
  | zero => simp [conv366, yearsLen]
  | succ n ih =>
    rw [yearsLen_succ'] at ho ⊢
    have e : n + 1 + m = (n + m) + 1 := by omega
    rw [e, to366Loop_step orig (n + m) y done oi ai (by omega) ha]
    rw [ih (y + 1) (done ++ convYear y ((orig.drop oi).take (yearLen y))) (oi + yearLen y) (ai + 366)
      (by omega) (by rw [List.length_append, convYear_length _ _ (by len_omega)]; omega)]
    have e2 : y + 1 + (n : Int) = y + ((n + 1 : Nat) : Int) := by push_cast; omega
    rw [e2]
    simp only [conv366, List.drop_drop, List.append_assoc]
    congr 1 <;> omega

theorem transformTo366day_whole (orig : List F) (y : Int) (n : Nat) (h : orig.length = yearsLen y n) :
    transformTo366day (Arr.of1d orig) y n = .ok (conv366 orig y n) := by
  unfold transformTo366day
  rw [if_neg (by simp [Arr.of1d])]
  have := to366Loop_full orig n 0 y [] 0 0 (by omega) rfl
  simp only [Nat.add_zero, List.nil_append, Nat.zero_mul, List.replicate_zero, List.append_nil,
    List.drop_zero] at this
  simp only [Arr.of1d]
  rw [this, to366Loop]

theorem conv366_length (orig : List F) (y : Int) (n : Nat) (h : yearsLen y n ≤ orig.length) :
    (conv366 orig y n).length = n * 366 := by
  induction n generalizing y orig with
  | zero => simp [conv366]
  | succ n ih =>
    rw [yearsLen_succ'] at h
    rw [conv366, List.length_append, convYear_length _ _ (by len_omega),
      ih (orig.drop (yearLen y)) (y + 1) (by len_omega)]
    ring

/-- day `d` of year `y + k` in the converted series -/
theorem conv366_day (orig : List F) (y : Int) (n k d : Nat) (h : yearsLen y n ≤ orig.length) (hk : k < n)
    (hd : d < yearLen (y + k)) :
    (conv366 orig y n)[366 * k + slot (y + k) d]? = orig[yearsLen y k + d]? := by
  induction n generalizing y orig k with
  | zero => omega
  | succ n ih =>
    rw [yearsLen_succ'] at h
    have hc : (convYear y (orig.take (yearLen y))).length = 366 :=
      convYear_length _ _ (by len_omega)
    rw [conv366]
    cases k with
    | succ k =>
      rw [List.getElem?_append_right (by rw [hc]; omega), hc, yearsLen_succ']
      have e : y + ((k + 1 : Nat) : Int) = (y + 1) + k := by push_cast; omega
      rw [e] at hd ⊢
      have := ih (orig.drop (yearLen y)) (y + 1) k (by len_omega) (by omega) hd
      rw [List.getElem?_drop] at this
      rw [show 366 * (k + 1) + slot (y + 1 + k) d - 366 = 366 * k + slot (y + 1 + k) d by omega, this]
      congr 1; omega
    | zero =>
      simp only [Nat.cast_zero, add_zero, Nat.mul_zero,
        Nat.zero_add, yearsLen] at *
      by_cases hl : Leap y
      · rw [yearLen_leap hl] at *
        have hs : slot y d = d := by simp [slot, hl]
        rw [hs, List.getElem?_append_left (by omega)]
        simp only [convYear, hl, if_true]
        rw [List.getElem?_take_of_lt hd]
      · rw [yearLen_nonleap hl] at *
        have hsl : slot y d < 366 := by unfold slot; split <;> omega
        rw [List.getElem?_append_left (by omega)]
        simp only [convYear, hl, if_false, List.take_take]
        by_cases h59 : d < 59
        · have hs : slot y d = d := by simp [slot, h59]
          rw [hs, List.append_assoc, List.getElem?_append_left (by len_omega),
            List.getElem?_take_of_lt (by omega)]
        · have hs : slot y d = d + 1 := by simp [slot, hl, h59]
          rw [hs, List.getElem?_append_right (by len_omega), List.getElem?_drop,
            List.getElem?_take_of_lt (by len_omega)]
          congr 1; simp; omega

/-- the Feb 29 slot of an ordinary year in the converted series -/
theorem conv366_feb29 (orig : List F) (y : Int) (n k : Nat) (h : yearsLen y n ≤ orig.length) (hk : k < n)
    (hl : ¬ Leap (y + k)) (a b : F) (ha : orig[yearsLen y k + 58]? = some a)
    (hb : orig[yearsLen y k + 59]? = some b) :
    (conv366 orig y n)[366 * k + 59]? = some ((a + b) / lit 2) := by
  induction n generalizing y orig k with
  | zero => omega
  | succ n ih =>
    rw [yearsLen_succ'] at h
    have hc : (convYear y (orig.take (yearLen y))).length = 366 :=
      convYear_length _ _ (by len_omega)
    rw [conv366]
    cases k with
    | succ k =>
      rw [List.getElem?_append_right (by rw [hc]; omega), hc]
      rw [yearsLen_succ'] at ha hb
      have e : y + ((k + 1 : Nat) : Int) = (y + 1) + k := by push_cast; omega
      rw [e] at hl
      have := ih (orig.drop (yearLen y)) (y + 1) k (by len_omega) (by omega) hl
        (by rw [List.getElem?_drop]; rw [← ha]; congr 1)
        (by rw [List.getElem?_drop]; rw [← hb]; congr 1)
      rw [← this, show 366 * (k + 1) + 59 - 366 = 366 * k + 59 by omega]
    | zero =>
      simp only [Nat.cast_zero, add_zero, Nat.mul_zero,
        Nat.zero_add, yearsLen] at *
      rw [yearLen_nonleap hl] at *
      rw [List.getElem?_append_left (by omega)]
      simp only [convYear, hl, if_false, List.take_take]
      rw [List.getElem?_append_left (by len_omega), List.getElem?_append_right (by len_omega)]
      have e1 : (orig.take 365).getD 58 nan = a := by
        rw [List.getD_eq_getElem?_getD, List.getElem?_take_of_lt (by omega), ha]; rfl
      have e2 : (orig.take 365).getD 59 nan = b := by
        rw [List.getD_eq_getElem?_getD, List.getElem?_take_of_lt (by omega), hb]; rfl
      rw [e1, e2]
      have : min 59 orig.length = 59 := by omega
      simp [this]

/-- one year converted back -/
def unconvYear (y : Int) (c : List F) : List F :=
  if Leap y then c else c.take 59 ++ c.drop 60

def unconv (orig : List F) : Int → Nat → List F
  | _, 0 => []
  | y, n + 1 => unconvYear y (orig.take 366) ++ unconv (orig.drop 366) (y + 1) n

omit [FloatOps F] in
theorem unconvYear_length (y : Int) (c : List F) (h : c.length = 366) :
    (unconvYear y c).length = yearLen y := by
  unfold unconvYear
  by_cases hl : Leap y
  · rw [if_pos hl, h, yearLen_leap hl]
  · rw [if_neg hl, yearLen_nonleap hl]; simp; omega

theorem toGregLoop_full (orig : List F) (n : Nat) (y : Int) (done : List F) (oi gi : Nat)
    (ho : oi + n * 366 ≤ orig.length) (hg : gi = done.length) :
    toGregLoop orig n y (done ++ List.replicate (yearsLen y n) nan) oi gi =
      .ok (done ++ unconv (orig.drop oi) y n) := by
  induction n generalizing y done oi gi with
  | zero => simp [toGregLoop, unconv, yearsLen]
  | succ n ih =>
    rw [toGregLoop, yearsLen_succ']
    by_cases hl : Leap y
    · have hb := (isLeap_iff y).2 hl
      rw [yearLen_leap hl]
      have hs : slice orig oi (oi + 366) = (orig.drop oi).take 366 := by simp [slice]
      have hset := setSlice_append' (done ++ List.replicate (366 + yearsLen (y + 1) n) nan) done
        (List.replicate 366 nan) (List.replicate (yearsLen (y + 1) n) nan)
        (slice orig oi (oi + 366)) gi (gi + 366)
        (by rw [List.append_assoc, List.replicate_append_replicate]) hg (by len_omega)
        (by rw [hs]; len_omega)
      simp only [hb, if_true, hset, bind, Except.bind]
      rw [ih (y + 1) _ (oi + 366) (gi + 366) (by omega) (by rw [hs]; len_omega)]
      rw [hs]; simp [unconv, unconvYear, hl]
    · have hb := (isLeap_eq_false_iff y).2 hl
      rw [yearLen_nonleap hl]
      have hs1 : slice orig oi (oi + 59) = (orig.drop oi).take 59 := by simp [slice]
      have hs2 : slice orig (oi + 60) (oi + 366) = (orig.drop (oi + 60)).take 306 := by
        simp only [slice]; congr 1; omega
      have hset1 := setSlice_append' (done ++ List.replicate (365 + yearsLen (y + 1) n) nan) done
        (List.replicate 59 nan) (List.replicate (306 + yearsLen (y + 1) n) nan)
        (slice orig oi (oi + 59)) gi (gi + 59)
        (by rw [List.append_assoc, List.replicate_append_replicate]; congr 2; omega) hg (by len_omega)
        (by rw [hs1]; len_omega)
      have hset2 := setSlice_append'
        (done ++ slice orig oi (oi + 59) ++ List.replicate (306 + yearsLen (y + 1) n) nan)
        (done ++ slice orig oi (oi + 59))
        (List.replicate 306 nan) (List.replicate (yearsLen (y + 1) n) nan)
        (slice orig (oi + 60) (oi + 366)) (gi + 59) (gi + 365)
        (by rw [List.append_assoc _ (List.replicate 306 nan), List.replicate_append_replicate])
        (by rw [hs1]; len_omega) (by len_omega)
        (by rw [hs2]; len_omega)
      simp only [hb, Bool.false_eq_true, if_false, hset1, bind, Except.bind, hset2]
      rw [ih (y + 1) _ (oi + 366) (gi + 365) (by omega) (by rw [hs1, hs2]; len_omega)]
      simp only [unconv, unconvYear, hl, if_false, hs1, hs2, List.take_take, List.append_assoc,
        List.drop_take, List.drop_drop]
      rfl

theorem unconv_conv (orig : List F) (y : Int) (n : Nat) (h : orig.length = yearsLen y n) :
    unconv (conv366 orig y n) y n = orig := by
  induction n generalizing y orig with
  | zero => simp only [yearsLen] at h; simp [unconv, List.eq_nil_of_length_eq_zero h]
  | succ n ih =>
    rw [yearsLen_succ'] at h
    have hc : (convYear y (orig.take (yearLen y))).length = 366 :=
      convYear_length _ _ (by len_omega)
    rw [conv366, unconv, List.take_append_of_le_length (by omega), List.take_of_length_le (by omega),
      List.drop_append_of_le_length (by omega), List.drop_of_length_le (by omega), List.nil_append,
      ih _ _ (by len_omega)]
    have : unconvYear y (convYear y (orig.take (yearLen y))) = orig.take (yearLen y) := by
      unfold unconvYear convYear
      by_cases hl : Leap y
      · simp [hl]
      · simp only [hl, if_false]
        rw [yearLen_nonleap hl] at *
        rw [List.take_append_of_le_length (by len_omega), List.take_append_of_le_length (by len_omega),
          List.take_take, List.drop_append_of_le_length (by len_omega),
          List.drop_of_length_le (by len_omega), List.nil_append]
        simp only [min_self]
        exact List.take_append_drop _ _
    rw [this, List.take_append_drop]

/-- slice assignment keeps the length -/
theorem setSlice_length {α : Type} (a : List α) (lo hi : Nat) (v b : List α)
    (h : setSlice a lo hi v = .ok b) : b.length = a.length := by
  unfold setSlice at h
  simp only at h
  split at h
  · cases h; len_omega
  · split at h
    · cases h; len_omega
    · cases h

theorem setIdx_length {α : Type} (a : List α) (i : Nat) (x : α) (b : List α)
    (h : setIdx a i x = .ok b) : b.length = a.length := by
  unfold setIdx at h
  split at h
  · cases h; simp
  · cases h

theorem to366Loop_length (orig : List F) (n : Nat) (y : Int) (al : List F) (oi ai : Nat) (out : List F)
    (h : to366Loop orig n y al oi ai = .ok out) : out.length = al.length := by
  induction n generalizing y al oi ai with
  | zero => simp only [to366Loop] at h; cases h; rfl
  | succ n ih =>
    rw [to366Loop] at h
    simp only [bind, Except.bind] at h
    split at h
    · split at h
      · cases h
      · rename_i al' h1
        rw [ih _ _ _ _ h, setSlice_length _ _ _ _ _ h1]
    · split at h
      · cases h
      rename_i al1 h1
      split at h
      · cases h
      split at h
      · cases h
      split at h
      · cases h
      rename_i al2 h2
      split at h
      · split at h
        · cases h
        split at h
        · cases h
        rename_i al3 h3
        rw [ih _ _ _ _ h, setSlice_length _ _ _ _ _ h3, setIdx_length _ _ _ _ h2,
          setSlice_length _ _ _ _ _ h1]
      · split at h
        · cases h
        rename_i al3 h3
        rw [ih _ _ _ _ h, setSlice_length _ _ _ _ _ h3, setIdx_length _ _ _ _ h2,
          setSlice_length _ _ _ _ _ h1]

theorem gregorianLengthLoop_zero (y : Int) (acc : Nat) : gregorianLengthLoop y 0 acc = acc := by
  rw [gregorianLengthLoop]; simp

theorem gregorianLengthLoop_years (y : Int) (k r acc : Nat) :
    gregorianLengthLoop y (yearsLen y k + r) acc = gregorianLengthLoop (y + k) r (acc + 366 * k) := by
  induction k generalizing y acc with
  | zero => simp [yearsLen]
  | succ k ih =>
    rw [yearsLen_succ', gregorianLengthLoop]
    have hp := daysInYear_pos y
    have e := daysInYear_eq y
    rw [dif_pos (by omega)]
    simp only
    rw [if_pos (by omega), e,
      show yearLen y + yearsLen (y + 1) k + r - yearLen y = yearsLen (y + 1) k + r by omega, ih]
    congr 1
    · push_cast; omega
    · omega

theorem gregorianLengthLoop_part (y : Int) (r acc : Nat) (h : r < yearLen y) :
    gregorianLengthLoop y r acc = acc + r := by
  rw [gregorianLengthLoop]
  have e := daysInYear_eq y
  split
  · simp only
    rw [if_neg (by omega), show r - daysInYear y = 0 by omega, gregorianLengthLoop_zero]
  · omega

end
end CI
