import Verif.Props.Eto
import Verif.Props.Float64Shape
import Verif.Lemmas.DaylightNear

/-!
# C133: day lengths in binary64 arithmetic
-/

namespace CI.Props
open B64

variable {σ : SumOrder}

theorem monthDays_month (leap : Bool) (m : ℕ) (hm : m < 12) : ∃ n, (monthDays leap)[m]? = some n ∧ 0 < n ∧ n ≤ 31 := by
  have hl : m < (monthDays leap).length := by rw [monthDays_length]; exact hm
  refine ⟨_, List.getElem?_eq_getElem hl, ?_⟩
  have : ∀ n ∈ monthDays leap, 0 < n ∧ n ≤ 31 := by cases leap <;> decide
  exact this _ (List.getElem_mem hl)

theorem days_sound (leap : Bool) : (∀ n ∈ monthDays leap, 0 < n ∧ n ≤ 31) ∧ 1 + (monthDays leap).sum ≤ 367 := by cases leap <;> decide

/-- C133, first part: between the poles the validity checks of `eto.py` are never in the way of float64 numbers (the limits of latitude, declination and sunset angle are
themselves computed, and compared with computed numbers). For every latitude of at most 90 degrees and every library whose sines are at most 1, whose tangents are numbers
and whose arc cosines lie between 0 and `math.pi`, there are twelve mean day lengths, numbers between 0 and 24 hours, up to 2^-41 hours. -/
theorem C133_total (T : Trig (B64 σ)) (hT : TrigBounds T) (x : B64 σ) (q : ℚ) (hx : ext x = .fin q) (hq : |q| ≤ 90) (leap : Bool) :
    ∃ out, monthlyMeanDaylight T (radians T x) leap = .ok out ∧ out.length = 12 ∧ ∀ v ∈ out, ∃ b, ext v = .fin b ∧ 0 ≤ b ∧ b ≤ 24 + 1 / 2 ^ 41 := by
  have hl := ext_radians hT hx (hq.trans (by norm_num))
  have hp : |rnd (q * kappa)| ≤ rnd (90 * kappa) := by
    refine rnd_abs_mono ?_
    have k0 : 0 ≤ kappa := by linarith [kappa_bounds.1]
    rw [abs_mul, abs_of_nonneg k0]
    exact mul_le_mul_of_nonneg_right hq k0
  have hday : ∀ d, ∃ b : ℚ, 1 ≤ d → d ≤ 366 → ∃ h, dayHours T (radians T x) d = .ok h ∧ ext h = .fin b ∧ 0 ≤ b ∧ b ≤ 24 + 1 / 2 ^ 46 := by
    intro d
    by_cases hd : 1 ≤ d ∧ d ≤ 366
    · obtain ⟨-, -, -, -, -, -, w, h, -, -, -, -, -, -, -, -, -, -, -, -, -, -, e14, e15, e16, e17⟩ := day_steps hT hl hp hd.1 hd.2
      exact ⟨_, fun _ _ => ⟨h, e16, e17, (hours_le e14 e15).1, hours_le_day e14 e15⟩⟩
    · exact ⟨0, fun h1 h2 => absurd ⟨h1, h2⟩ hd⟩
  choose D hD using hday
  obtain ⟨out, ho, hlen, hout⟩ := meanLoop_near (T := T) (lat := radians T x) (fun d => (D d : ℝ)) 0 (by
    intro d h1 h2
    obtain ⟨h, e1, e2, e3, e4⟩ := hD d h1 h2
    exact ⟨h, D d, e1, e2, e3, e4.trans (by norm_num), by simp⟩) (monthDays leap) 1 (days_sound leap).1 le_rfl (days_sound leap).2
  refine ⟨out, ho, by rw [hlen, monthDays_length], ?_⟩
  intro v hv
  obtain ⟨m, hm, rfl⟩ := List.mem_iff_getElem.1 hv
  rw [hlen, monthDays_length] at hm
  obtain ⟨n, hn, hn0, hn31⟩ := monthDays_month leap m hm
  obtain ⟨y, b, hy, hb, hb0, _, hbe⟩ := hout m n hn
  have e : out[m] = y := by
    rw [List.getElem?_eq_getElem (by rw [hlen, monthDays_length]; exact hm)] at hy
    exact Option.some.inj hy
  rw [e]
  refine ⟨b, hb, hb0, ?_⟩
  have hnr : (0 : ℝ) < n := by exact_mod_cast hn0
  have hsum : ∀ k : ℕ, k + n ≤ 367 → 1 ≤ k → ((List.range n).map (fun i => ((D (k + i) : ℚ) : ℝ))).sum ≤ n * (24 + 1 / 2 ^ 46) := by
    intro k hk hk1
    have := List.sum_le_card_nsmul ((List.range n).map (fun i => ((D (k + i) : ℚ) : ℝ))) (24 + 1 / 2 ^ 46) (by
      intro z hz
      obtain ⟨i, hi, rfl⟩ := List.mem_map.1 hz
      have hi' := List.mem_range.1 hi
      obtain ⟨-, -, -, -, e4⟩ := hD (k + i) (by omega) (by omega)
      have : ((D (k + i) : ℚ) : ℝ) ≤ ((24 + 1 / 2 ^ 46 : ℚ) : ℝ) := by exact_mod_cast e4
      push_cast at this
      exact this)
    rwa [List.length_map, List.length_range, nsmul_eq_mul] at this
  have htake : 1 + ((monthDays leap).take m).sum + n ≤ 367 := by
    have h1 : ((monthDays leap).take (m + 1)).sum ≤ (monthDays leap).sum := by
      conv_rhs => rw [← List.take_append_drop (m + 1) (monthDays leap), List.sum_append]
      omega
    rw [List.take_add_one, hn, List.sum_append] at h1
    have h2 := (days_sound leap).2
    simp at h1
    omega
  have h3 : ((List.range n).map (fun i => ((D (1 + ((monthDays leap).take m).sum + i) : ℚ) : ℝ))).sum / n ≤ 24 + 1 / 2 ^ 46 := by
    rw [div_le_iff₀ hnr, mul_comm]
    exact hsum _ htake (by omega)
  have h4 : (b : ℝ) ≤ ((24 + 1 / 2 ^ 41 : ℚ) : ℝ) := by
    push_cast
    have := (abs_le.1 hbe).2
    have h5 : (1 : ℝ) / 2 ^ 46 + 1 / 2 ^ 42 ≤ 1 / 2 ^ 41 := by norm_num
    linarith
  exact_mod_cast h4

/-- C133, second part: up to 60 degrees of latitude each of the twelve mean day lengths of a year is within 2^-40 hours of the mean over the days of the month of the
astronomical formula (FAO-56, equations 24, 25 and 34). -/
theorem C133_accurate (T : Trig (B64 σ)) (hT : TrigNear T) (x : B64 σ) (q : ℚ) (hx : ext x = .fin q) (hq : |q| ≤ 60) (y : ℤ) :
    ∃ out, monthlyMeanDaylight T (radians T x) (isLeap y) = .ok out ∧ out.length = 12 ∧ ∀ m, m < 12 → ∃ v b, out[m]? = some v ∧ ext v = .fin b ∧
      |(b : ℝ) - meanHours (q * (Real.pi / 180)) (Spec.mdays y m) (Spec.firstDay y m)| ≤ 1 / 2 ^ 40 := by
  obtain ⟨out, ho, hlen, hout⟩ := meanLoop_near (T := T) (lat := radians T x) (hours (q * (Real.pi / 180))) (1 / 2 ^ 41)
    (fun d h1 h2 => day_near hT hx hq h1 h2) (monthDays (isLeap y)) 1 (days_sound _).1 le_rfl (days_sound _).2
  refine ⟨out, ho, by rw [hlen, monthDays_length], ?_⟩
  intro m hm
  obtain ⟨h1, h2⟩ := monthDays_spec y m hm
  obtain ⟨n, hn, _⟩ := monthDays_month (isLeap y) m hm
  obtain ⟨v, b, hv, hb, _, _, hbe⟩ := hout m n hn
  rw [List.getD_eq_getElem?_getD, hn, Option.getD_some] at h1
  subst h1
  rw [h2] at hbe
  refine ⟨v, b, hv, hb, hbe.trans (by norm_num)⟩

/-- C133 for `pet`: no exception for any record of temperatures, NaN and infinite values included, and any latitude between the poles -/
theorem C133_pet (T : Trig (B64 σ)) (hT : TrigBounds T) (temps r : Arr (B64 σ)) (hr : reshapeTo2d temps 12 = .ok r) (x : B64 σ) (q : ℚ) (hx : ext x = .fin q)
    (h1 : -90 < q) (h2 : q < 90) (y : ℤ) : ∃ out, pet T temps (some x) y = .ok out ∧ out.length = temps.data.length := by
  obtain ⟨dlN, hN, -⟩ := C133_total T hT x q hx (abs_le.2 ⟨h1.le, h2.le⟩) false
  obtain ⟨dlL, hL, -⟩ := C133_total T hT x q hx (abs_le.2 ⟨h1.le, h2.le⟩) true
  unfold pet
  by_cases hn : allNan temps.data = true
  · rw [if_pos hn]
    exact ⟨_, rfl, rfl⟩
  · rw [if_neg hn]
    have e90 : ext (lit 90 : B64 σ) = .fin 90 := natlit (k := 90) (by norm_num)
    have e90' : ext (lit (-90) : B64 σ) = .fin (-90) := by
      have := intlit (σ := σ) (-90) (by norm_num)
      exact_mod_cast this
    have hxn : isNan x = false := by
      cases x with
      | nan => cases hx
      | inf s => cases s <;> cases hx
      | fin s m h => rfl
    simp only [flt_ext e90' hx, flt_ext hx e90, hxn, decide_eq_true h1, decide_eq_true h2]
    have e : etoThornthwaite T temps x y = .ok (((r.data.map zeroNegative).zipIdx.map (fun q => thornAt T (heatIndex T (r.data.map zeroNegative))
        (thornExponent T (heatIndex T (r.data.map zeroNegative))) dlN dlL y q.2 q.1)).take temps.data.length) := by
      unfold etoThornthwaite
      rw [hr]
      simp only [bind, Except.bind, hN, hL, pure, Except.pure]
    refine ⟨_, e, ?_⟩
    · rw [List.length_take, List.length_map, List.length_zipIdx, List.length_map]
      have : temps.data.length ≤ r.data.length := by
        unfold reshapeTo2d at hr
        split at hr
        · split at hr
          · cases hr; exact le_rfl
          · cases hr
        · rw [if_neg (by norm_num)] at hr
          simp only [Except.ok.injEq] at hr
          subst hr
          simp only
          split
          · rw [List.length_append]; omega
          · exact le_rfl
        · cases hr
      omega

/-! ## The hypotheses hold for some libraries -/

/-- a float64 number between two float64 numbers near a given real number -/
theorem clamp_exists {r : ℝ} {lo hi : ℚ} (hlo : rnd lo = lo) (hhi : rnd hi = hi) (hle : lo ≤ hi) (hb1 : -4 ≤ lo) (hb2 : hi ≤ 4) (h1 : (lo : ℝ) ≤ r) (h2 : r ≤ hi + 1 / 2 ^ 52) :
    ∃ (y : B64 leftToRight) (b : ℚ), ext y = .fin b ∧ lo ≤ b ∧ b ≤ hi ∧ |(b : ℝ) - r| ≤ 1 / 2 ^ 50 := by
  obtain ⟨q, hq1, hq2⟩ := exists_rat_btwn (show r - 1 / 2 ^ 60 < r + 1 / 2 ^ 60 by
    have : (0 : ℝ) < 1 / 2 ^ 60 := by norm_num
    linarith)
  have hc1 : lo ≤ min (max q lo) hi := le_min (le_max_right _ _) hle
  have hc2 : min (max q lo) hi ≤ hi := min_le_right _ _
  have hcr : |((min (max q lo) hi : ℚ) : ℝ) - r| ≤ 1 / 2 ^ 52 + 1 / 2 ^ 60 := by
    rw [Rat.cast_min, Rat.cast_max, abs_le]
    have hpos : (0 : ℝ) < 1 / 2 ^ 52 := by norm_num
    have hpos' : (0 : ℝ) < 1 / 2 ^ 60 := by norm_num
    constructor
    · have : r - 1 / 2 ^ 52 - 1 / 2 ^ 60 ≤ min (max (q : ℝ) lo) hi := le_min (le_trans (by linarith) (le_max_left _ _)) (by linarith)
      linarith
    · have : min (max (q : ℝ) lo) hi ≤ r + 1 / 2 ^ 60 := (min_le_left _ _).trans (max_le (by linarith) (by linarith))
      linarith
  generalize min (max q lo) hi = c at hc1 hc2 hcr
  have hc4 : |c| ≤ 4 := by rw [abs_le]; constructor <;> linarith
  refine ⟨lit c, rnd c, ext_lit64 c (below_max (hc4.trans (by norm_num))), ?_, ?_, ?_⟩
  · rw [← hlo]; exact rnd_mono hc1
  · rw [← hhi]; exact rnd_mono hc2
  · have h3 := rnd_err0 c
    have h4 : |(c : ℝ)| ≤ 4 := by exact_mod_cast hc4
    have h5 : |(c : ℝ)| * (1 / 2 ^ 53) ≤ 4 * (1 / 2 ^ 53) := mul_le_mul_of_nonneg_right h4 (by norm_num)
    refine (abs_trans h3 hcr).trans ?_
    have h6 : (4 : ℝ) * (1 / 2 ^ 53) + 1 / 2 ^ 80 + (1 / 2 ^ 52 + 1 / 2 ^ 60) ≤ 1 / 2 ^ 50 := by norm_num
    linarith

theorem rnd_int {k : ℤ} (h : |k| ≤ 2 ^ 53) : rnd (k : ℚ) = k := rnd_fin (intlit (σ := leftToRight) k h)

theorem rnd_pi64 : rnd pi64 = pi64 := by
  have h := Round.rndPos_exact 884279719003555 (-48) (by norm_num) (by norm_num)
  rw [rnd_of_nonneg (by unfold pi64; norm_num)]
  have e : pi64 = ((884279719003555 : ℕ) : ℚ) * 2 ^ (-48 : ℤ) := by unfold pi64; norm_num
  rw [e]
  exact h

theorem tan_four {x : ℝ} (h : |x| ≤ 1.1) : |Real.tan x| ≤ 4 := by
  have h1 := Real.one_sub_sq_div_two_le_cos (x := x)
  have h2 : x ^ 2 ≤ 1.1 ^ 2 := by rw [← sq_abs]; exact pow_le_pow_left₀ (abs_nonneg _) h 2
  have h3 : 0.39 ≤ Real.cos x := by norm_num at h2 ⊢; linarith
  rw [Real.tan_eq_sin_div_cos, abs_div, abs_of_pos (by linarith : 0 < Real.cos x), div_le_iff₀ (by linarith)]
  have h4 := Real.abs_sin_le_one x
  norm_num at h3
  linarith

theorem near_sin (q : ℚ) : ∃ (y : B64 leftToRight) (b : ℚ), ext y = .fin b ∧ -1 ≤ b ∧ b ≤ 1 ∧ |(b : ℝ) - Real.sin q| ≤ 1 / 2 ^ 50 := by
  have h1 : rnd (-1) = -1 := by rw [rnd_neg, rnd_one]
  refine clamp_exists h1 rnd_one (by norm_num) (by norm_num) (by norm_num) ?_ ?_
  · push_cast; exact Real.neg_one_le_sin _
  · push_cast; exact (Real.sin_le_one _).trans (by norm_num)

theorem near_tan {q : ℚ} (h : |q| ≤ 1.1) : ∃ (y : B64 leftToRight) (b : ℚ), ext y = .fin b ∧ -4 ≤ b ∧ b ≤ 4 ∧ |(b : ℝ) - Real.tan q| ≤ 1 / 2 ^ 50 := by
  have hr : |(q : ℝ)| ≤ 1.1 := by
    have : ((|q| : ℚ) : ℝ) ≤ ((1.1 : ℚ) : ℝ) := by exact_mod_cast h
    rw [Rat.cast_abs] at this
    refine this.trans ?_
    norm_num
  have h4 := abs_le.1 (tan_four hr)
  have e4 : rnd (4 : ℚ) = 4 := by have := rnd_int (k := 4) (by norm_num); exact_mod_cast this
  have e4' : rnd (-4 : ℚ) = -4 := by rw [rnd_neg, e4]
  refine clamp_exists e4' e4 (by norm_num) (by norm_num) (by norm_num) ?_ ?_
  · push_cast; exact h4.1
  · push_cast; exact h4.2.trans (by norm_num)

theorem near_acos (q : ℚ) : ∃ (y : B64 leftToRight) (b : ℚ), ext y = .fin b ∧ 0 ≤ b ∧ b ≤ pi64 ∧ |(b : ℝ) - Real.arccos q| ≤ 1 / 2 ^ 50 := by
  refine clamp_exists rnd_zero rnd_pi64 (by unfold pi64; norm_num) (by norm_num) (by unfold pi64; norm_num) ?_ ?_
  · push_cast; exact Real.arccos_nonneg _
  · have := (abs_le.1 pi64_near).1
    exact (Real.arccos_le_pi _).trans (by linarith)

/-- the trigonometric functions, rounded; with `p` as `pow` -/
noncomputable def nearTrig (p : B64 leftToRight → B64 leftToRight → B64 leftToRight) : Trig (B64 leftToRight) where
  sin := fun x => match ext x with
    | .fin q => (near_sin q).choose
    | _ => nan
  cos := fun _ => nan
  tan := fun x => match ext x with
    | .fin q => if h : |q| ≤ 1.1 then (near_tan h).choose else lit 0
    | _ => nan
  acos := fun x => match ext x with
    | .fin q => (near_acos q).choose
    | _ => nan
  pow := p
  pi := lit pi64

theorem nearTrig_near (p : B64 leftToRight → B64 leftToRight → B64 leftToRight) : TrigNear (nearTrig p) := by
  have hs : ∀ x q, ext x = .fin q → (nearTrig p).sin x = (near_sin q).choose := by
    intro x q hx
    show (match ext x with | .fin q => (near_sin q).choose | _ => nan) = _
    rw [hx]
  have ht : ∀ x q, ext x = .fin q → (nearTrig p).tan x = if h : |q| ≤ 1.1 then (near_tan h).choose else lit 0 := by
    intro x q hx
    show (match ext x with | .fin q => if h : |q| ≤ 1.1 then (near_tan h).choose else lit 0 | _ => nan) = _
    rw [hx]
  have ha : ∀ x q, ext x = .fin q → (nearTrig p).acos x = (near_acos q).choose := by
    intro x q hx
    show (match ext x with | .fin q => (near_acos q).choose | _ => nan) = _
    rw [hx]
  refine ⟨⟨?_, ?_, ?_, ?_⟩, ?_, ?_, ?_⟩
  · show ext (lit pi64 : B64 leftToRight) = _
    rw [ext_lit64 _ (below_max (by unfold pi64; rw [abs_of_nonneg (by norm_num)]; norm_num)), rnd_pi64]
  · intro x q hx
    obtain ⟨b, hb, h1, h2, _⟩ := (near_sin q).choose_spec
    exact ⟨b, by rw [hs x q hx]; exact hb, abs_le.2 ⟨h1, h2⟩⟩
  · intro x q hx _
    rw [ht x q hx]
    split
    · rename_i h
      obtain ⟨b, hb, _⟩ := (near_tan h).choose_spec
      exact ⟨b, hb⟩
    · exact ⟨0, ext_lit_zero⟩
  · intro x q hx _ _
    obtain ⟨b, hb, h1, h2, _⟩ := (near_acos q).choose_spec
    exact ⟨b, by rw [ha x q hx]; exact hb, h1, h2⟩
  · intro x q r hx hr _
    obtain ⟨b, hb, _, _, h3⟩ := (near_sin q).choose_spec
    rw [hs x q hx, hb] at hr
    cases hr
    exact h3
  · intro x q r hx hr h
    obtain ⟨b, hb, _, _, h3⟩ := (near_tan h).choose_spec
    rw [ht x q hx, dif_pos h, hb] at hr
    cases hr
    exact h3
  · intro x q r hx hr _ _
    obtain ⟨b, hb, _, _, h3⟩ := (near_acos q).choose_spec
    rw [ha x q hx, hb] at hr
    cases hr
    exact h3

/-- the hypotheses of C133 hold for a library and the latitude 45.5 -/
example : TrigNear (nearTrig fun _ _ => nan) ∧ ext (lit 45.5 : B64 leftToRight) = .fin 45.5 ∧ |(45.5 : ℚ)| ≤ 60 :=
  ⟨nearTrig_near _, by decide +kernel, by norm_num [abs_of_nonneg]⟩

/-- the hypotheses of `C133_pet` hold for a record of 14 months with gaps and infinite values -/
example : ∃ r, reshapeTo2d (⟨[14], List.replicate 12 (lit 7.5) ++ [nan, inf true]⟩ : Arr (B64 leftToRight)) 12 = .ok r := ⟨_, rfl⟩

/-- at the pole itself the check of `pet` refuses, but the day lengths exist -/
example : TrigBounds (nearTrig fun _ _ => nan) ∧ ext (lit (-90) : B64 leftToRight) = .fin (-90) ∧ |(-90 : ℚ)| ≤ 90 :=
  ⟨(nearTrig_near _).toTrigBounds, by decide +kernel, by norm_num [abs_of_nonneg]⟩

end CI.Props
