import Verif.Lemmas.Calendar

/-!
# C05: `compute_days`

Specification: months are numbered absolutely (month `12*y + m`, `m` = 0..11 of year `y`); a day count
`D` is any function that advances by the length of each month. Such a function is unique once `D = 0` at January of
the units start year.
-/

namespace CI.Props
open CI.Spec

/-- `D` counts the days from January 1 of year `us` to the first day of each absolute month. -/
def IsDayCount (us : Int) (D : Int → Int) : Prop :=
  D (12 * us) = 0 ∧ ∀ m : Int, D (m + 1) = D m + monthLen (m / 12) (m % 12).toNat

/-- the ordinal-based day count is a day count -/
theorem ordCount_isDayCount (us : Int) :
    IsDayCount us (fun m => ymd2ord (m / 12) ((m % 12).toNat + 1) 1 - ymd2ord us 1 1) := by
  constructor
  · simp only
    rw [show 12 * us / 12 = us by omega, show (12 * us % 12).toNat = 0 by omega, Nat.zero_add]; omega
  · intro m
    simp only
    by_cases h : m % 12 = 11
    · rw [show (m + 1) / 12 = m / 12 + 1 by omega, show ((m + 1) % 12).toNat + 1 = 1 by omega,
        show (m % 12).toNat + 1 = 12 by omega, show (m % 12).toNat = 11 by omega, ymd2ord_next_year]
      omega
    · rw [show (m + 1) / 12 = m / 12 by omega,
        show ((m + 1) % 12).toNat + 1 = (m % 12).toNat + 2 by omega, ymd2ord_next _ _ (by omega)]
      omega

/-- day counts are unique -/
theorem isDayCount_unique (us : Int) (D E : Int → Int) (hD : IsDayCount us D) (hE : IsDayCount us E) :
    D = E := by
  funext m
  have up : ∀ k : Nat, D (12 * us + k) = E (12 * us + k) := by
    intro k; induction k with
    | zero => simp [hD.1, hE.1]
    | succ k ih =>
      have h1 := hD.2 (12 * us + k); have h2 := hE.2 (12 * us + k)
      rw [show 12 * us + ((k + 1 : Nat) : Int) = 12 * us + k + 1 by push_cast; omega, h1, h2, ih]
  have down : ∀ k : Nat, D (12 * us - k) = E (12 * us - k) := by
    intro k; induction k with
    | zero => simp [hD.1, hE.1]
    | succ k ih =>
      have h1 := hD.2 (12 * us - (k + 1 : Nat)); have h2 := hE.2 (12 * us - (k + 1 : Nat))
      rw [show 12 * us - ((k + 1 : Nat) : Int) + 1 = 12 * us - k by push_cast; omega] at h1 h2
      omega
  rcases le_total (12 * us) m with h | h
  · have := up (m - 12 * us).toNat
    rwa [show 12 * us + ((m - 12 * us).toNat : Int) = m by omega] at this
  · have := down (12 * us - m).toNat
    rwa [show 12 * us - ((12 * us - m).toNat : Int) = m by omega] at this

theorem computeDaysLoop_ok (iy im st : Int) (him : 1 ≤ im) (i n : Nat)
    (h1 : 1 ≤ iy) (h2 : n = 0 ∨ iy + ((i : Int) + n - 1 + im - 1) / 12 ≤ 9999) :
    ∃ l, computeDaysLoop iy im st i n = .ok l ∧ l.length = n ∧ ∀ j (hj : j < l.length),
      l[j] = ymd2ord ((12 * iy + im - 1 + (i + j)) / 12) (((12 * iy + im - 1 + (i + j)) % 12).toNat + 1) 1
        - st := by
  induction n generalizing i with
  | zero => exact ⟨[], rfl, rfl, by intro j hj; simp at hj⟩
  | succ n ih =>
    have h2' : iy + ((i : Int) + (n + 1 : Nat) - 1 + im - 1) / 12 ≤ 9999 := by
      rcases h2 with h | h
      · omega
      · exact h
    obtain ⟨l, hl, hlen, hval⟩ := ih (i + 1) (by
      right; push_cast at h2' ⊢; omega)
    have ht : Int.tdiv ((i : Int) + im - 1) 12 = ((i : Int) + im - 1) / 12 :=
      Int.tdiv_eq_ediv_of_nonneg (by omega)
    have hm : ((1 : Int) + Int.emod ((i : Int) + im - 1) 12).toNat
        = ((12 * iy + im - 1 + i) % 12).toNat + 1 := by
      have : Int.emod ((i : Int) + im - 1) 12 = ((i : Int) + im - 1) % 12 := rfl
      omega
    have hy : iy + ((i : Int) + im - 1) / 12 = (12 * iy + im - 1 + i) / 12 := by omega
    refine ⟨(ymd2ord ((12 * iy + im - 1 + i) / 12) (((12 * iy + im - 1 + i) % 12).toNat + 1) 1 - st) :: l,
      ?_, by simp [hlen], ?_⟩
    · rw [computeDaysLoop]
      simp only [ht, hm, hy]
      rw [mkDate_ok (by omega) (by push_cast at h2'; omega) (by omega) (by omega) (by omega)
        (by rw [daysInMonth_eq _ _ (by omega)]; have := monthLen_pos ((12 * iy + im - 1 + i) / 12) ((12 * iy + im - 1 + i) % 12).toNat; omega)]
      simp [bind, Except.bind, hl, pure, Except.pure]
    · intro j hj
      cases j with
      | zero => simp
      | succ j =>
        simp only [List.getElem_cons_succ]
        rw [hval j (by simpa using hj)]
        have e : (12 * iy + im - 1 + ((i : Int) + ((j + 1 : Nat) : Int)))
          = (12 * iy + im - 1 + (((i + 1 : Nat) : Int) + j)) := by push_cast; omega
        rw [e]

/-- **C05.** For every initial year and month (1 or later), every number of months and units start year for which all
dates exist, entry `i` is the day count of the `i`-th month after the initial month. -/
theorem C05_exact (iy im us : Int) (n : Nat) (him : 1 ≤ im) (hiy : 1 ≤ iy)
    (hus : 1 ≤ us ∧ us ≤ 9999) (hlast : n = 0 ∨ iy + ((n : Int) - 1 + im - 1) / 12 ≤ 9999)
    (D : Int → Int) (hD : IsDayCount us D) :
    ∃ days, computeDays iy n im us = .ok days ∧ days.length = n ∧
      ∀ i (hi : i < days.length), days[i] = D (12 * iy + (im - 1) + i) := by
  have := isDayCount_unique us D _ hD (ordCount_isDayCount us)
  subst this
  unfold computeDays
  rw [mkDate_ok hus.1 hus.2 (by omega) (by omega) (by omega) (by simp [daysInMonth])]
  obtain ⟨l, h1, h2, h3⟩ := computeDaysLoop_ok iy im (ymd2ord us 1 1) him 0 n hiy (by
    rcases hlast with h | h
    · left; exact h
    · right; push_cast; omega)
  refine ⟨l, h1, h2, ?_⟩
  intro i hi
  rw [h3 i hi]
  simp only
  have e : 12 * iy + im - 1 + (((0 : Nat) : Int) + (i : Int)) = 12 * iy + (im - 1) + i := by
    push_cast; omega
  rw [e]

/-- a day count exists for every units start year (the hypothesis of `C05_exact` is satisfiable) -/
example : ∃ D, IsDayCount 1800 D := ⟨_, ordCount_isDayCount 1800⟩

/-- concrete case: months from November 1895, days since 1800 -/
example : computeDays 1895 4 11 1800 = .ok [35002, 35032, 35063, 35094] := by decide +kernel

/-- **C05**: consecutive entries differ by the length of the month between them, so the time axis is
strictly increasing. -/
theorem C05_increasing (iy im us : Int) (n : Nat) (him : 1 ≤ im) (hiy : 1 ≤ iy)
    (hus : 1 ≤ us ∧ us ≤ 9999) (hlast : n = 0 ∨ iy + ((n : Int) - 1 + im - 1) / 12 ≤ 9999)
    (days : List Int) (h : computeDays iy n im us = .ok days) :
    (∀ i (hi : i + 1 < days.length), days[i + 1] - days[i] =
      monthLen ((12 * iy + (im - 1) + i) / 12) ((12 * iy + (im - 1) + i) % 12).toNat) ∧
    (∀ i j (hij : i < j) (hj : j < days.length), days[i] < days[j]) := by
  obtain ⟨days', h1, h2, h3⟩ := C05_exact iy im us n him hiy hus hlast _ (ordCount_isDayCount us)
  rw [h] at h1; cases h1
  have hD := ordCount_isDayCount us
  have step : ∀ i (hi : i + 1 < days.length), days[i + 1] - days[i] =
      monthLen ((12 * iy + (im - 1) + i) / 12) ((12 * iy + (im - 1) + i) % 12).toNat := by
    intro i hi
    have := hD.2 (12 * iy + (im - 1) + i)
    simp only at this
    rw [h3 i (by omega), h3 (i + 1) hi]
    push_cast
    rw [← Int.add_assoc]
    omega
  refine ⟨step, ?_⟩
  intro i j hij
  induction j, hij using Nat.le_induction with
  | base => intro hj; have h5 : days[i.succ] - days[i] = _ := step i hj; have := monthLen_pos ((12 * iy + (im - 1) + i) / 12) ((12 * iy + (im - 1) + i) % 12).toNat; omega
  | succ j hij ih =>
    intro hj
    have h1 := ih (by omega)
    have h2 := step j hj
    have := monthLen_pos ((12 * iy + (im - 1) + j) / 12) ((12 * iy + (im - 1) + j) % 12).toNat
    omega

/-- **C05**, error side: a units start year outside 1..9999 raises ValueError. -/
theorem C05_bad_units (iy im us : Int) (n : Nat) (h : us < 1 ∨ 9999 < us) :
    computeDays iy n im us = .error .valueError := by
  unfold computeDays; rw [mkDate_year_err h]; rfl

end CI.Props
