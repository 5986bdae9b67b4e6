import Verif.Lemmas.Daily

/-!
# C01-C04: daily series and the 366-day layout

The statements use only the model functions `transformTo366day`, `transformToGregorian`,
`gregorianLengthAs366day` and the calendar of `Spec/Calendar.lean`. `F` is any float type; no law about
arithmetic is used, so the statements hold for IEEE floats.
-/

namespace CI.Props
open CI.Spec

variable {F : Type} [FloatOps F]

/-- **C01.** Whole years of daily data survive the conversion to 366-day years and back,
for every start year and number of years representable as dates. -/
theorem C01_roundtrip (x : List F) (y : Int) (n : Nat) (hx : x.length = yearsLen y n)
    (hn : 1 ≤ n) (hy : 1 ≤ y) (hy' : y + n - 1 ≤ 9999) :
    (do let a ← transformTo366day (Arr.of1d x) y n
        transformToGregorian (Arr.of1d a) y) = .ok x := by
  rw [transformTo366day_whole x y n hx]
  simp only [bind, Except.bind]
  have hl := conv366_length x y n (by omega)
  unfold transformToGregorian
  rw [if_neg (by simp [Arr.of1d]), if_neg (by simp only [Arr.of1d]; omega)]
  have hd : (Arr.of1d (conv366 x y n)).data.length / 366 = n := by simp only [Arr.of1d]; omega
  simp only [hd, bind, Except.bind]
  rw [mkDate_ok (by omega) (by omega) (by omega) (by omega) (by omega) (by simp [daysInMonth]),
    mkDate_ok (by omega) (by omega) (by omega) (by omega) (by omega) (by simp [daysInMonth])]
  simp only
  have hord : ymd2ord (y + n - 1) 12 31 - ymd2ord y 1 1 + 1 = yearsLen y n := by
    have h1 := ymd2ord_next_year (y + n - 1)
    have h2 := daysBeforeYear_add y n
    have e : y + (n : Int) - 1 + 1 = y + n := by omega
    rw [e] at h1
    have h3 : ymd2ord (y + n - 1) 12 31 = ymd2ord (y + n - 1) 12 1 + 30 := by unfold ymd2ord; omega
    have h4 : ∀ z, ymd2ord z 1 1 = daysBeforeYear z + 1 := by
      intro z; simp [ymd2ord, daysBeforeMonth, daysBeforeMonthTable]
    have h5 : monthLen (y + n - 1) 11 = 31 := by simp [monthLen]
    rw [h4] at *
    omega
  rw [hord, if_neg (by omega)]
  have := toGregLoop_full (conv366 x y n) n y [] 0 0 (by omega) rfl
  simp only [List.nil_append, List.drop_zero] at this
  simp only [Arr.of1d, Int.toNat_natCast]
  rw [this, unconv_conv x y n hx]

/-- non-vacuity of C01: 2003-2005, three years with a leap year in the middle -/
example : (List.replicate 1096 (nan : Fl ℚ)).length = yearsLen 2003 3 ∧ (1 : Int) ≤ 2003 ∧
    (2003 : Int) + (3 : Nat) - 1 ≤ 9999 := by
  refine ⟨?_, by decide, by decide⟩
  rw [List.length_replicate]; decide

/-- **C02.** Layout of the 366-day series of whole years: it has `366 * n` values; every real day `d` of
year `y + k` is found at its day-of-leap-year slot; the only further slot of an ordinary year, Feb 29,
holds the mean of Feb 28 and Mar 1 of that year. -/
theorem C02_layout (x : List F) (y : Int) (n : Nat) (hx : x.length = yearsLen y n) :
    ∃ out, transformTo366day (Arr.of1d x) y n = .ok out ∧ out.length = 366 * n ∧
      (∀ k d, k < n → d < yearLen (y + k) → out[366 * k + slot (y + k) d]? = x[yearsLen y k + d]?) ∧
      (∀ k, k < n → ¬ Leap (y + k) → ∃ a b, x[yearsLen y k + 58]? = some a ∧
        x[yearsLen y k + 59]? = some b ∧ out[366 * k + 59]? = some ((a + b) / lit 2)) := by
  refine ⟨conv366 x y n, transformTo366day_whole x y n hx, ?_, ?_, ?_⟩
  · rw [conv366_length x y n (by omega)]; omega
  · intro k d hk hd; exact conv366_day x y n k d (by omega) hk hd
  · intro k hk hl
    have hlen : yearsLen y k + 365 ≤ yearsLen y n := by
      have : ∀ j, yearsLen y (k + 1) ≤ yearsLen y (k + 1 + j) := by
        intro j; induction j with
        | zero => simp
        | succ j ih =>
          show _ ≤ yearsLen y (k + 1 + j) + yearLen (y + ((k + 1 + j : Nat) : Int))
          omega
      have h2 := this (n - (k + 1))
      rw [show k + 1 + (n - (k + 1)) = n by omega, yearsLen, yearLen_nonleap hl] at h2
      exact h2
    have ha : x[yearsLen y k + 58]? = some x[yearsLen y k + 58] := List.getElem?_eq_getElem (by omega)
    have hb : x[yearsLen y k + 59]? = some x[yearsLen y k + 59] := List.getElem?_eq_getElem (by omega)
    exact ⟨_, _, ha, hb, conv366_feb29 x y n k (by omega) hk hl _ _ ha hb⟩

/-- **C02**, the slots named by the two clauses of `C02_layout` are all the slots: every position of a year
is the slot of exactly one real day, or (ordinary years only) the Feb 29 slot. -/
theorem C02_slots_cover (y : Int) (s : Nat) (hs : s < 366) :
    (¬ Leap y ∧ s = 59 ∧ ∀ d, slot y d ≠ 59) ∨
      (∃ d, d < yearLen y ∧ slot y d = s ∧ ∀ d', slot y d' = s → d' = d) := by
  unfold slot yearLen
  by_cases hl : Leap y
  · right; exact ⟨s, by simp [hl]; omega, by simp [hl], by simp [hl]⟩
  · simp only [hl, false_or, not_false_eq_true, true_and, if_false]
    rcases Nat.lt_trichotomy s 59 with h | h | h
    · right; refine ⟨s, by omega, by simp [h], ?_⟩
      intro d'; split <;> omega
    · left; refine ⟨h, ?_⟩; intro d; split <;> omega
    · right; refine ⟨s - 1, by omega, ?_, ?_⟩
      · rw [if_neg (by omega)]; omega
      · intro d'; split <;> omega

/-- **C02** (arguments): arrays with more than one dimension are refused. -/
theorem C02_rejects_nd (a : Arr F) (y : Int) (n : Nat) (h : 1 < a.shape.length) :
    transformTo366day a y n = .error .valueError := by
  unfold transformTo366day; rw [if_pos h]

/-- **C03**, exact value: for `k` whole years and `r` further days the announced length is `366 k + r`. -/
theorem C03_announced (y : Int) (k r : Nat) (hr : r < yearLen (y + k)) :
    gregorianLengthAs366day (yearsLen y k + r) y = 366 * k + r := by
  unfold gregorianLengthAs366day
  rw [gregorianLengthLoop_years, gregorianLengthLoop_part _ _ _ hr]; omega

/-- Every number of days is of the form treated in `C03_announced`. -/
theorem C03_all_lengths (y : Int) (len : Nat) :
    ∃ k r, len = yearsLen y k + r ∧ r < yearLen (y + k) := by
  induction len with
  | zero => exact ⟨0, 0, rfl, by simp [← daysInYear_eq]; exact daysInYear_pos y⟩
  | succ len ih =>
    obtain ⟨k, r, h1, h2⟩ := ih
    by_cases h : r + 1 < yearLen (y + k)
    · exact ⟨k, r + 1, by omega, h⟩
    · refine ⟨k + 1, 0, by rw [yearsLen]; omega, ?_⟩
      rw [← daysInYear_eq]; exact daysInYear_pos _

/-- **C03 (partial).** Full statement: `gregorian_length_as_366day(len(x), y) = len(transform_to_366day(x, y, n))`
for every daily series. Proved here for whole years; for an incomplete final year it is false,
see `C03_fails`. -/
theorem C03_length_partial (x : List F) (y : Int) (n : Nat) (hx : x.length = yearsLen y n) :
    ∃ out, transformTo366day (Arr.of1d x) y n = .ok out ∧
      out.length = gregorianLengthAs366day x.length y := by
  obtain ⟨out, h1, h2, _⟩ := C02_layout x y n hx
  refine ⟨out, h1, ?_⟩
  have hp : 0 < yearLen (y + n) := by rw [← daysInYear_eq]; exact daysInYear_pos _
  have := C03_announced y n 0 hp
  rw [Nat.add_zero] at this
  rw [h2, hx, this]; omega

example : (List.replicate 1096 (nan : Fl ℚ)).length = yearsLen 2003 3 := by
  rw [List.length_replicate]; decide

/-- The length returned by `transform_to_366day` is always `366 * total_years`, whatever the data. -/
theorem C03_converted_length (x : List F) (y : Int) (n : Nat) (out : List F)
    (h : transformTo366day (Arr.of1d x) y n = .ok out) : out.length = n * 366 := by
  unfold transformTo366day at h
  rw [if_neg (by simp [Arr.of1d])] at h
  rw [to366Loop_length _ _ _ _ _ _ _ h, List.length_replicate]

/-- **C03 is false** for every incomplete final year that can be converted at all: with `k` whole years and
`0 < r` further days of the next year, the announced length differs from the converted length. -/
theorem C03_fails (x : List F) (y : Int) (k r : Nat) (_hr : 0 < r) (hr' : r < yearLen (y + k))
    (hx : x.length = yearsLen y k + r) (out : List F)
    (h : transformTo366day (Arr.of1d x) y (k + 1) = .ok out) :
    out.length ≠ gregorianLengthAs366day x.length y := by
  rw [C03_converted_length x y _ out h, hx, C03_announced y k r hr']
  have : yearLen (y + k) ≤ 366 := by unfold yearLen; split <;> omega
  omega

/-- the last loop iteration for an incomplete year -/
theorem to366_last (x : List F) (y : Int) (k r : Nat) (hx : x.length = yearsLen y k + r) :
    transformTo366day (Arr.of1d x) y (k + 1) =
      to366Loop x 1 (y + k) (conv366 x y k ++ List.replicate 366 nan) (yearsLen y k) (k * 366) := by
  unfold transformTo366day
  rw [if_neg (by simp [Arr.of1d])]
  have := to366Loop_full x k 1 y [] 0 0 (by omega) rfl
  simp only [List.nil_append, List.drop_zero, Nat.zero_add, Nat.one_mul] at this
  simp only [Arr.of1d]
  exact this

/-- **C04 (partial).** Full statement: for every final year with `r` observed days, leap or not, the
observed days are in their slots and the rest of the final year is missing. Proved here for an ordinary
final year with at least 60 observed days; the other cases are false, see `C04_fails_leap`,
`C04_fails_short`, `C04_fails_59`. Whole years before it are as in C02. -/
theorem C04_partial_year_partial (x : List F) (y : Int) (k r : Nat) (hx : x.length = yearsLen y k + r)
    (hl : ¬ Leap (y + k)) (hr : 60 ≤ r) (hr' : r < 365) :
    ∃ out, transformTo366day (Arr.of1d x) y (k + 1) = .ok out ∧ out.length = 366 * (k + 1) ∧
      (∀ j d, j < k → d < yearLen (y + j) → out[366 * j + slot (y + j) d]? = x[yearsLen y j + d]?) ∧
      (∀ d, d < r → out[366 * k + slot (y + k) d]? = x[yearsLen y k + d]?) ∧
      (∃ a b, x[yearsLen y k + 58]? = some a ∧ x[yearsLen y k + 59]? = some b ∧
        out[366 * k + 59]? = some ((a + b) / lit 2)) ∧
      (∀ d, r ≤ d → d < 365 → out[366 * k + slot (y + k) d]? = some nan) := by
  set oi := yearsLen y k with hoi
  have hcl : (conv366 x y k).length = k * 366 := conv366_length x y k (by omega)
  have hb := (isLeap_eq_false_iff (y + k)).2 hl
  obtain ⟨avg, havg⟩ : ∃ a : F, (x[oi + 58] + x[oi + 59]) / lit 2 = a := ⟨_, rfl⟩
  let out := conv366 x y k ++ ((x.drop oi).take 59 ++ ([avg] ++ (x.drop (oi + 59) ++
    List.replicate (365 - r) nan)))
  have hs1 : slice x oi (oi + 59) = (x.drop oi).take 59 := by simp [slice]
  have hset1 := setSlice_append' (conv366 x y k ++ List.replicate 366 nan) (conv366 x y k)
    (List.replicate 59 nan) (List.replicate 307 nan) (slice x oi (oi + 59)) (k * 366) (k * 366 + 59)
    (by rw [List.append_assoc, List.replicate_append_replicate]) hcl.symm (by len_omega)
    (by rw [hs1]; len_omega)
  have hset2 := setIdx_append
    (conv366 x y k ++ slice x oi (oi + 59) ++ List.replicate 307 nan)
    (conv366 x y k ++ slice x oi (oi + 59)) (List.replicate 306 (nan : F)) nan avg (k * 366 + 59)
    (by rw [List.append_assoc _ [nan]]; rfl) (by rw [hs1]; len_omega)
  set al2 := conv366 x y k ++ slice x oi (oi + 59) ++ [avg] ++ List.replicate 306 (nan : F) with hal2
  have hal2l : al2.length = k * 366 + 366 := by rw [hal2, hs1]; len_omega
  have hset3 := setSlice_append' al2
    (conv366 x y k ++ slice x oi (oi + 59) ++ [avg]) (List.replicate 306 nan) []
    (x.drop (oi + 59) ++ List.replicate (365 - r) nan) (k * 366 + 60) al2.length
    (by rw [List.append_nil]) (by rw [hs1]; len_omega) (by rw [hal2l]; len_omega) (by len_omega)
  have hok : transformTo366day (Arr.of1d x) y (k + 1) = .ok out := by
    rw [to366_last x y k r hx, to366Loop]
    simp only [hb, Bool.false_eq_true, if_false, hset1, bind, Except.bind, ← hoi,
      getIdx_of_lt x (oi + 58) (by omega), getIdx_of_lt x (oi + 59) (by omega), havg, hset2]
    rw [if_pos (by omega)]
    simp only [List.length_drop, hal2l]
    rw [if_neg (by omega),
      show k * 366 + 366 - (k * 366 + 60) - (x.length - (oi + 59)) = 365 - r by omega]
    rw [hal2l] at hset3
    simp only [hset3, to366Loop]
    simp [out, hs1]
  have hxd : x.length = oi + r := hx
  refine ⟨out, hok, ?_, ?_, ?_, ?_, ?_⟩
  · show (conv366 x y k ++ ((x.drop oi).take 59 ++ ([avg] ++ (x.drop (oi + 59) ++
      List.replicate (365 - r) nan)))).length = _
    len_omega
  · intro j d hj hd
    have h1 : slot (y + j) d < 366 := slot_lt hd
    rw [List.getElem?_append_left (by omega)]
    exact conv366_day x y k j d (by omega) hj hd
  · intro d hd
    rw [List.getElem?_append_right (by omega), hcl,
      show 366 * k + slot (y + k) d - k * 366 = slot (y + k) d by omega]
    by_cases h59 : d < 59
    · rw [show slot (y + k) d = d by simp [slot, h59], List.getElem?_append_left (by len_omega),
        List.getElem?_take_of_lt h59, List.getElem?_drop]
    · rw [show slot (y + k) d = d + 1 by simp [slot, hl, h59],
        List.getElem?_append_right (by len_omega)]
      rw [show d + 1 - ((x.drop oi).take 59).length = 1 + (d - 59) by len_omega]
      rw [List.getElem?_append_right (by len_omega)]
      rw [List.length_singleton, Nat.add_sub_cancel_left, List.getElem?_append_left (by len_omega),
        List.getElem?_drop]
      congr 1; omega
  · refine ⟨x[oi + 58], x[oi + 59], List.getElem?_eq_getElem (by omega),
      List.getElem?_eq_getElem (by omega), ?_⟩
    rw [havg, List.getElem?_append_right (by omega), hcl,
      show 366 * k + 59 - k * 366 = 59 by omega, List.getElem?_append_right (by len_omega),
      show 59 - ((x.drop oi).take 59).length = 0 by len_omega]
    rfl
  · intro d hd hd'
    rw [List.getElem?_append_right (by omega), hcl,
      show 366 * k + slot (y + k) d - k * 366 = slot (y + k) d by omega]
    rw [show slot (y + k) d = d + 1 by simp [slot, hl]; omega,
        List.getElem?_append_right (by len_omega)]
    rw [show d + 1 - ((x.drop oi).take 59).length = 1 + (d - 59) by len_omega]
    rw [List.getElem?_append_right (by len_omega)]
    rw [List.length_singleton, Nat.add_sub_cancel_left, List.getElem?_append_right (by len_omega),
      List.getElem?_replicate, if_pos (by len_omega)]

/-- non-vacuity of C04: 2004 in full, then 100 days of 2005 -/
example : (List.replicate 466 (nan : Fl ℚ)).length = yearsLen 2004 1 + 100 ∧ ¬ Leap (2004 + (1 : Nat)) := by
  refine ⟨?_, by decide⟩
  rw [List.length_replicate]; decide

/-- **C04 is false for leap final years**: a final leap year with `r < 366` observed days
(other than exactly one) makes `transform_to_366day` raise ValueError. -/
theorem C04_fails_leap (x : List F) (y : Int) (k r : Nat) (hx : x.length = yearsLen y k + r)
    (hl : Leap (y + k)) (hr : r < 366) (hr1 : r ≠ 1) :
    transformTo366day (Arr.of1d x) y (k + 1) = .error .valueError := by
  have hb := (isLeap_iff (y + k)).2 hl
  have hcl : (conv366 x y k).length = k * 366 := conv366_length x y k (by omega)
  rw [to366_last x y k r hx, to366Loop]
  have hset : setSlice (conv366 x y k ++ List.replicate 366 nan) (k * 366) (k * 366 + 366)
      (slice x (yearsLen y k) (yearsLen y k + 366)) = .error .valueError := by
    have hsl : (slice x (yearsLen y k) (yearsLen y k + 366)).length = r := by
      unfold slice; len_omega
    unfold setSlice
    simp only [hsl, List.length_append, List.length_replicate, hcl]
    rw [if_neg (by omega)]
    split
    · rename_i v hv; rw [hv] at hsl; simp at hsl; omega
    · rfl
  simp only [hb, if_true, hset, bind, Except.bind]

/-- **C04, one observed day of a leap year**: the single value is silently copied to all 366 days. -/
theorem C04_fails_leap_one (x : List F) (y : Int) (k : Nat) (v : F) (hx : x.length = yearsLen y k + 1)
    (hl : Leap (y + k)) (hv : x[yearsLen y k]? = some v) :
    ∃ out, transformTo366day (Arr.of1d x) y (k + 1) = .ok out ∧
      ∀ s, s < 366 → out[366 * k + s]? = some v := by
  have hb := (isLeap_iff (y + k)).2 hl
  have hcl : (conv366 x y k).length = k * 366 := conv366_length x y k (by omega)
  refine ⟨conv366 x y k ++ List.replicate 366 v, ?_, ?_⟩
  · rw [to366_last x y k 1 hx, to366Loop]
    have hset : setSlice (conv366 x y k ++ List.replicate 366 nan) (k * 366) (k * 366 + 366)
        (slice x (yearsLen y k) (yearsLen y k + 366)) = .ok (conv366 x y k ++ List.replicate 366 v) := by
      have hsl : slice x (yearsLen y k) (yearsLen y k + 366) = [v] := by
        unfold slice
        rw [List.drop_eq_getElem_cons (by omega), List.drop_of_length_le (by omega)]
        rw [List.getElem?_eq_getElem (by omega)] at hv
        injection hv with hv
        rw [hv]; rw [Nat.add_sub_cancel_left]; rfl
      unfold setSlice
      simp only [hsl, List.length_append, List.length_replicate, hcl, List.length_singleton]
      have e1 : min (k * 366) (k * 366 + 366) = k * 366 := by omega
      have e2 : max (k * 366) (min (k * 366 + 366) (k * 366 + 366)) = k * 366 + 366 := by omega
      rw [e1, e2, if_neg (by omega), ← hcl, List.take_left, List.drop_of_length_le (by len_omega),
        Nat.add_sub_cancel_left, List.append_nil]
    simp only [hb, if_true, hset, bind, Except.bind, to366Loop]
  · intro s hs
    rw [List.getElem?_append_right (by omega), List.getElem?_replicate, if_pos (by omega)]

/-- **C04 is false for fewer than 59 observed days of an ordinary year** (except one): ValueError. -/
theorem C04_fails_short (x : List F) (y : Int) (k r : Nat) (hx : x.length = yearsLen y k + r)
    (hl : ¬ Leap (y + k)) (hr : r < 59) (hr1 : r ≠ 1) :
    transformTo366day (Arr.of1d x) y (k + 1) = .error .valueError := by
  have hb := (isLeap_eq_false_iff (y + k)).2 hl
  have hcl : (conv366 x y k).length = k * 366 := conv366_length x y k (by omega)
  rw [to366_last x y k r hx, to366Loop]
  have hset : setSlice (conv366 x y k ++ List.replicate 366 nan) (k * 366) (k * 366 + 59)
      (slice x (yearsLen y k) (yearsLen y k + 59)) = .error .valueError := by
    have hsl : (slice x (yearsLen y k) (yearsLen y k + 59)).length = r := by
      unfold slice; len_omega
    unfold setSlice
    simp only [hsl, List.length_append, List.length_replicate, hcl]
    rw [if_neg (by omega)]
    split
    · rename_i v hv; rw [hv] at hsl; simp at hsl; omega
    · rfl
  simp only [hb, Bool.false_eq_true, if_false, hset, bind, Except.bind]

/-- **C04 is false for 59 observed days (or one) of an ordinary year**: IndexError. -/
theorem C04_fails_59 (x : List F) (y : Int) (k r : Nat) (hx : x.length = yearsLen y k + r)
    (hl : ¬ Leap (y + k)) (hr : r = 59 ∨ r = 1) :
    transformTo366day (Arr.of1d x) y (k + 1) = .error .indexError := by
  have hb := (isLeap_eq_false_iff (y + k)).2 hl
  have hcl : (conv366 x y k).length = k * 366 := conv366_length x y k (by omega)
  rw [to366_last x y k r hx, to366Loop]
  have hset : ∃ al, setSlice (conv366 x y k ++ List.replicate 366 nan) (k * 366) (k * 366 + 59)
      (slice x (yearsLen y k) (yearsLen y k + 59)) = .ok al := by
    have hsl : (slice x (yearsLen y k) (yearsLen y k + 59)).length = r := by
      unfold slice; len_omega
    unfold setSlice
    simp only [hsl, List.length_append, List.length_replicate, hcl]
    split
    · exact ⟨_, rfl⟩
    · split
      · exact ⟨_, rfl⟩
      · rename_i h1 h2
        rcases hr with hr | hr
        · omega
        · obtain ⟨v, hv⟩ := List.length_eq_one_iff.1 (hsl.trans hr)
          exact absurd hv (h2 v)
  obtain ⟨al, hset⟩ := hset
  have hg : getIdx x (yearsLen y k + 59) = .error .indexError := by
    unfold getIdx; rw [List.getElem?_eq_none (by omega)]
  simp only [hb, Bool.false_eq_true, if_false, hset, bind, Except.bind, hg]
  rcases hr with hr | hr
  · rw [getIdx_of_lt x (yearsLen y k + 58) (by omega)]
  · unfold getIdx; rw [List.getElem?_eq_none (by omega)]

/-- concrete cases of the failures: 2004 is leap, 2005 is not -/
example : Leap (2003 + (1 : Nat)) ∧ ¬ Leap (2004 + (1 : Nat)) := by decide

end CI.Props
