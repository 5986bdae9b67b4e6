import Verif.Lemmas.Drift64
import Verif.Lemmas.PalmerNum

/-!
# The Palmer spell machine in binary64: sizes of the numbers
-/

namespace CI.B64
open Round
variable {σ : SumOrder}

/-- a finite number of absolute value at most `A` -/
def Below (A : ℚ) (x : B64 σ) : Prop := ∃ q, ext x = .fin q ∧ |q| ≤ A

theorem Below.mono {A B : ℚ} {x : B64 σ} (h : Below A x) (hAB : A ≤ B) : Below B x := by
  obtain ⟨q, e, hq⟩ := h
  exact ⟨q, e, hq.trans hAB⟩

theorem rnd_abs_le {q A : ℚ} (h : |q| ≤ A) : |rnd q| ≤ rnd A := by
  obtain ⟨h1, h2⟩ := abs_le.1 h
  refine abs_le.2 ⟨?_, rnd_mono h2⟩
  rw [← rnd_neg]
  exact rnd_mono h1

theorem ext_lit64 (q : ℚ) (h : |q| ≤ 2 ^ (1023 : ℤ)) : ext (CI.lit q : B64 σ) = .fin (rnd q) := by
  show ext (round false q) = _
  rw [ext_round]
  exact rfl64_rnd _ (no_overflow h)

theorem Below.add {A B C : ℚ} {x y : B64 σ} (hx : Below A x) (hy : Below B y) (h : rnd (A + B) ≤ C) (h2 : A + B ≤ 2 ^ (1023 : ℤ)) :
    Below C (x + y) := by
  obtain ⟨a, ea, ha⟩ := hx
  obtain ⟨b, eb, hb⟩ := hy
  have hab : |a + b| ≤ A + B := (abs_add_le a b).trans (add_le_add ha hb)
  exact ⟨_, fin_add ea eb (hab.trans h2), (rnd_abs_le hab).trans h⟩

theorem Below.sub {A B C : ℚ} {x y : B64 σ} (hx : Below A x) (hy : Below B y) (h : rnd (A + B) ≤ C) (h2 : A + B ≤ 2 ^ (1023 : ℤ)) :
    Below C (x - y) := by
  obtain ⟨a, ea, ha⟩ := hx
  obtain ⟨b, eb, hb⟩ := hy
  have hab : |a - b| ≤ A + B := (abs_sub a b).trans (add_le_add ha hb)
  exact ⟨_, fin_sub ea eb (hab.trans h2), (rnd_abs_le hab).trans h⟩

theorem Below.mul {A B C : ℚ} {x y : B64 σ} (hx : Below A x) (hy : Below B y) (h : rnd (A * B) ≤ C) (h2 : A * B ≤ 2 ^ (1023 : ℤ)) :
    Below C (x * y) := by
  obtain ⟨a, ea, ha⟩ := hx
  obtain ⟨b, eb, hb⟩ := hy
  have hab : |a * b| ≤ A * B := by
    rw [abs_mul]
    exact mul_le_mul ha hb (abs_nonneg _) ((abs_nonneg a).trans ha)
  exact ⟨_, fin_mul ea eb (hab.trans h2), (rnd_abs_le hab).trans h⟩

theorem below_lit (q A : ℚ) (h : |q| ≤ 2 ^ (1023 : ℤ)) (hA : |rnd q| ≤ A) : Below A (CI.lit q : B64 σ) := ⟨_, ext_lit64 q h, hA⟩

theorem below_zero {A : ℚ} (h : 0 ≤ A) : Below A (CI.lit 0 : B64 σ) := ⟨0, ext_lit_zero, by simpa using h⟩

theorem Below.pyMax {A : ℚ} {x y : B64 σ} (hx : Below A x) (hy : Below A y) : Below A (pyMax x y) := by
  unfold CI.pyMax
  split
  · exact hy
  · exact hx

theorem Below.pyMin {A : ℚ} {x y : B64 σ} (hx : Below A x) (hy : Below A y) : Below A (pyMin x y) := by
  unfold CI.pyMin
  split
  · exact hy
  · exact hx

/-- the bound of the indices carried from month to month -/
def inner (M : ℚ) : ℚ := M / 0.309 * (1 + 1 / 10 ^ 13) + 1 / 10 ^ 65

theorem inner_nonneg {M : ℚ} (h : 0 ≤ M) : 0 ≤ inner M := by unfold inner; positivity

theorem tiny_small : (2 : ℚ) ^ (-1074 : ℤ) ≤ 1 / 10 ^ 70 := by
  refine (zpow_le_zpow_right₀ (by norm_num) (show (-1074 : ℤ) ≤ -240 by norm_num)).trans ?_
  norm_num

theorem below_max {q : ℚ} (h : q ≤ 2 ^ 240) : q ≤ 2 ^ (1023 : ℤ) := by
  refine h.trans ?_
  rw [← zpow_natCast]
  exact zpow_le_zpow_right₀ (by norm_num) (by norm_num)

theorem rnd_le_abs (q : ℚ) : |rnd q| ≤ |q| * (1 + unit) + 1 / 10 ^ 70 := by
  have h := rnd_abs q
  have := abs_sub_abs_le_abs_sub (rnd q) q
  have := tiny_small
  linarith

theorem inner_le {M : ℚ} (h : M ≤ 2 ^ 100) : inner M ≤ 2 ^ 110 := by
  unfold inner
  norm_num at h ⊢
  linarith

theorem step64 {M : ℚ} (hM : 0 ≤ M) (hM2 : M ≤ 2 ^ 100) {x z : B64 σ} (hx : Below (inner M) x) (hz : Below M z) :
    Below (inner M) (CI.lit 0.897 * x + z / CI.lit 3) := by
  obtain ⟨a, ea, ha⟩ := hx
  obtain ⟨b, eb, hb⟩ := hz
  have hi := inner_le hM2
  have hi0 := inner_nonneg hM
  have hc : ext (CI.lit 0.897 : B64 σ) = .fin (rnd 0.897) := ext_lit64 _ (below_max (by norm_num [abs_of_nonneg]))
  have h3 : ext (CI.lit 3 : B64 σ) = .fin 3 := by
    rw [ext_lit64 _ (below_max (by norm_num [abs_of_nonneg]))]
    congr 1
    decide +kernel
  have hc0 : 0 ≤ rnd 0.897 := rnd_nonneg (by norm_num)
  have hcu : rnd 0.897 ≤ 0.897 + 1 / 10 ^ 16 := by decide +kernel
  have big : (2 : ℚ) ^ 120 ≤ 2 ^ (1023 : ℤ) := below_max (by norm_num)
  have hca : |rnd 0.897 * a| ≤ (0.897 + 1 / 10 ^ 16) * inner M := by
    rw [abs_mul, abs_of_nonneg hc0]
    exact mul_le_mul hcu ha (abs_nonneg _) (by norm_num)
  have hb3 : |b / 3| ≤ M / 3 := by
    rw [abs_div, abs_of_pos (show (0 : ℚ) < 3 by norm_num)]
    linarith
  have m1 := fin_mul hc ea (hca.trans (le_trans (by norm_num at hi ⊢; linarith) big))
  have m2 := fin_div eb h3 (by norm_num) (hb3.trans (le_trans (by norm_num at hM2 ⊢; linarith) big))
  have r1 := rnd_le_abs (rnd 0.897 * a)
  have r2 := rnd_le_abs (b / 3)
  have hu : unit ≤ 2 / 10 ^ 16 := by unfold unit; norm_num
  have hu0 := unit_pos
  have s1 : |rnd 0.897 * a| * (1 + unit) ≤ (0.897 + 1 / 10 ^ 16) * inner M * (1 + 2 / 10 ^ 16) :=
    mul_le_mul hca (by linarith) (by linarith) (by positivity)
  have s2 : |b / 3| * (1 + unit) ≤ M / 3 * (1 + 2 / 10 ^ 16) :=
    mul_le_mul hb3 (by linarith) (by linarith) (by positivity)
  have s3 := abs_add_le (rnd (rnd 0.897 * a)) (rnd (b / 3))
  set w := rnd (rnd 0.897 * a) + rnd (b / 3) with hw
  have s4 : |w| ≤ (0.897 + 1 / 10 ^ 16) * inner M * (1 + 2 / 10 ^ 16) + M / 3 * (1 + 2 / 10 ^ 16) + 2 / 10 ^ 70 := by
    have e : (2 : ℚ) / 10 ^ 70 = 1 / 10 ^ 70 + 1 / 10 ^ 70 := by ring
    linarith
  have m3 := fin_add m1 m2 (s4.trans (le_trans (by norm_num at hi hM2 ⊢; linarith) big))
  refine ⟨_, m3, ?_⟩
  have r3 := rnd_le_abs w
  have s5 : |w| * (1 + unit) ≤ ((0.897 + 1 / 10 ^ 16) * inner M * (1 + 2 / 10 ^ 16) + M / 3 * (1 + 2 / 10 ^ 16) + 2 / 10 ^ 70) * (1 + 2 / 10 ^ 16) :=
    mul_le_mul s4 (by linarith) (by linarith) (by positivity)
  refine (r3.trans (add_le_add_left s5 _)).trans ?_
  unfold inner
  norm_num
  linarith

/-- a bound of the accumulated effective wetness -/
def vmax : ℚ := 2 ^ 200

theorem vmax_nonneg : 0 ≤ vmax := by norm_num [vmax]

/-- a month whose numbers are finite -/
structure Sized (M : ℚ) (m : Month (B64 σ)) : Prop where
  px1 : Below (inner M) m.px1
  px2 : Below (inner M) m.px2
  px3 : Below (inner M) m.px3
  pv : Below vmax m.pv
  ppr : m.ppr ≠ .nan

theorem eval200_sized {M : ℚ} (hM : 0 ≤ M) (hM2 : M ≤ 2 ^ 100) {x1 x2 z ppr px3 pv : B64 σ} (h1 : Below (inner M) x1)
    (h2 : Below (inner M) x2) (hz : Below M z) (hp : ppr ≠ .nan) (h3 : Below (inner M) px3) (hv : Below vmax pv) :
    Sized M (eval200 x1 x2 z ppr px3 pv) := by
  have h0 : Below (inner M) (CI.lit 0 : B64 σ) := below_zero (inner_nonneg hM)
  have g1 := h0.pyMax (step64 hM hM2 h1 hz)
  have g2 := h0.pyMin (step64 hM hM2 h2 hz)
  unfold eval200
  generalize CI.pyMax (CI.lit 0) (CI.lit 0.897 * x1 + z / CI.lit 3) = p1 at g1 ⊢
  generalize CI.pyMin (CI.lit 0) (CI.lit 0.897 * x2 + z / CI.lit 3) = p2 at g2 ⊢
  dsimp only
  split
  · exact ⟨h0, h0, g1, hv, hp⟩
  · split
    · exact ⟨g1, h0, g2, hv, hp⟩
    · split
      · exact ⟨g1, g2, h3, hv, hp⟩
      · split <;> exact ⟨g1, g2, h3, hv, hp⟩

theorem lit_ne_nan (q : ℚ) : (CI.lit q : B64 σ) ≠ .nan := by
  show round false q ≠ .nan
  unfold round
  dsimp only
  split <;> intro h <;> cases h

theorem eval210_sized {M : ℚ} (hM : 0 ≤ M) (hM2 : M ≤ 2 ^ 100) {x3 z : B64 σ} (h3 : Below (inner M) x3) (hz : Below M z) :
    Sized M (eval210 x3 z) := by
  have h0 : Below (inner M) (CI.lit 0 : B64 σ) := below_zero (inner_nonneg hM)
  exact ⟨h0, h0, step64 hM hM2 h3 hz, below_zero vmax_nonneg, lit_ne_nan 0⟩

theorem round_ne_nan (z : Bool) (q : ℚ) : (round z q : B64 σ) ≠ .nan := by
  unfold round
  dsimp only
  split <;> intro h <;> cases h

theorem ratio64 {x y : B64 σ} {a b : ℚ} (hx : ext x = .fin a) (ha : a ≠ 0) (hy : ext y = .fin b) : x / y * CI.lit 100 ≠ .nan := by
  have h100 : ext (CI.lit 100 : B64 σ) = .fin 100 := by
    rw [ext_lit64 _ (below_max (by norm_num [abs_of_nonneg]))]
    congr 1
    decide +kernel
  generalize (CI.lit 100 : B64 σ) = c at h100
  have key : ∀ w : B64 σ, w ≠ .nan → w * c ≠ .nan := by
    intro w hw
    show mul w c ≠ .nan
    cases c with
    | nan => cases h100
    | inf s => cases s <;> cases h100
    | fin s m h =>
      have hm : m ≠ 0 := by
        rintro rfl
        simp only [ext, val_zero, Fl.fin.injEq] at h100
        norm_num at h100
      cases w with
      | nan => exact absurd rfl hw
      | inf t =>
        simp only [mul, if_neg hm]
        intro h; cases h
      | fin t n hn => exact round_ne_nan _ _
  refine key _ ?_
  show div x y ≠ .nan
  cases x with
  | nan => cases hx
  | inf s => cases s <;> cases hx
  | fin s m h =>
    have hm : m ≠ 0 := by
      rintro rfl
      simp only [ext, val_zero, Fl.fin.injEq] at hx
      exact ha hx.symm
    cases y with
    | nan => cases hy
    | inf s => cases s <;> cases hy
    | fin t n hn =>
      simp only [div, if_neg hm]
      split
      · intro h; cases h
      · exact round_ne_nan _ _

theorem eval190_sized {M : ℚ} (hM : 0 ≤ M) (hM2 : M ≤ 2 ^ 100) {v pro x1 x2 x3 z pv ze : B64 σ} (hv : Below vmax v)
    (h1 : Below (inner M) x1) (h2 : Below (inner M) x2) (h3 : Below (inner M) x3) (hz : Below M z) (hpv : Below vmax pv)
    (hpv0 : feq pv (CI.lit 0) = false) (hze : Below (2 ^ 130) ze) : Sized M (eval190 v pro x1 x2 x3 z pv ze) := by
  unfold eval190
  simp only
  have hq : ∃ b, ext (if feq pro (CI.lit 100) then ze else ze + v) = .fin b := by
    split
    · obtain ⟨b, e, _⟩ := hze
      exact ⟨b, e⟩
    · obtain ⟨b, e, _⟩ := Below.add (C := 2 ^ 220) hze hv (by decide +kernel) (below_max (by norm_num [vmax]))
      exact ⟨b, e⟩
  obtain ⟨b, hb⟩ := hq
  generalize (if feq pro (CI.lit 100) then ze else ze + v) = q at hb ⊢
  obtain ⟨a, ea, hpa⟩ := hpv
  have ha : a ≠ 0 := by
    rintro rfl
    rw [feq_ext ea ext_lit_zero] at hpv0
    simp at hpv0
  split
  · exact eval200_sized hM hM2 h1 h2 hz (lit_ne_nan 100) (below_zero (inner_nonneg hM)) ⟨a, ea, hpa⟩
  · exact eval200_sized hM hM2 h1 h2 hz (ratio64 ea ha hb) (step64 hM hM2 h3 hz) ⟨a, ea, hpa⟩

/-- adding a number that is small against `vmax` does not lead beyond `vmax`: the sum is rounded back -/
theorem saturate {x y : B64 σ} (hx : Below (2 ^ 110) x) (hy : Below vmax y) : Below vmax (x + y) :=
  Below.add hx hy (by decide +kernel) (below_max (by norm_num [vmax]))

theorem pv180_below {M : ℚ} (hM2 : M ≤ 2 ^ 100) {z v : B64 σ} (hz : Below M z) (hv : Below vmax v) :
    Below vmax ((z + CI.lit 0.15) + pyMax v (CI.lit 0)) := by
  refine saturate ?_ (hv.pyMax (below_zero vmax_nonneg))
  exact Below.add (hz.mono hM2) (below_lit 0.15 1 (below_max (by norm_num [abs_of_nonneg])) (by decide +kernel)) (by decide +kernel) (below_max (by norm_num [vmax]))

theorem pv170_below {M : ℚ} (hM2 : M ≤ 2 ^ 100) {z v : B64 σ} (hz : Below M z) (hv : Below vmax v) :
    Below vmax ((z - CI.lit 0.15) + pyMin v (CI.lit 0)) := by
  refine saturate ?_ (hv.pyMin (below_zero vmax_nonneg))
  exact Below.sub (hz.mono hM2) (below_lit 0.15 1 (below_max (by norm_num [abs_of_nonneg])) (by decide +kernel)) (by decide +kernel) (below_max (by norm_num [vmax]))

theorem ze_below {M : ℚ} (hM2 : M ≤ 2 ^ 100) {x3 : B64 σ} (h3 : Below (inner M) x3) :
    Below (2 ^ 130) (CI.lit (-2.691) * x3 + CI.lit 1.5) ∧ Below (2 ^ 130) (CI.lit (-2.691) * x3 - CI.lit 1.5) := by
  have hp : Below (2 ^ 120) (CI.lit (-2.691) * x3) :=
    Below.mul (below_lit (-2.691) 4 (below_max (by norm_num [abs_of_nonneg, abs_of_neg])) (by decide +kernel)) (h3.mono (inner_le hM2)) (by decide +kernel) (below_max (by norm_num [vmax]))
  have hl : Below 2 (CI.lit 1.5 : B64 σ) := below_lit 1.5 2 (below_max (by norm_num [abs_of_nonneg])) (by decide +kernel)
  exact ⟨Below.add hp hl (by decide +kernel) (below_max (by norm_num [vmax])), Below.sub hp hl (by decide +kernel) (below_max (by norm_num [vmax]))⟩

theorem ne_zero_of_not_le {x : B64 σ} {A : ℚ} (hx : Below A x) (h : fle x (CI.lit 0) = false ∨ fle (CI.lit 0) x = false) :
    feq x (CI.lit 0) = false := by
  obtain ⟨a, ea, _⟩ := hx
  rw [feq_ext ea ext_lit_zero]
  rw [fle_ext ea ext_lit_zero, fle_ext ext_lit_zero ea] at h
  rw [decide_eq_false_iff_not]
  rintro rfl
  simp at h

section month
variable {M : ℚ} (hM : 0 ≤ M) (hM2 : M ≤ 2 ^ 100) {v pro x1 x2 x3 z : B64 σ} (hv : Below vmax v) (h1 : Below (inner M) x1)
  (h2 : Below (inner M) x2) (h3 : Below (inner M) x3) (hz : Below M z)
include hM hM2 hv h1 h2 h3 hz

theorem eval170_sized : Sized M (eval170 v pro x1 x2 x3 z) := by
  have hp := pv170_below hM2 hz hv
  unfold eval170
  simp only
  split
  · exact eval210_sized hM hM2 h3 hz
  · next h => exact eval190_sized hM hM2 hv h1 h2 h3 hz hp (ne_zero_of_not_le hp (Or.inr (by simpa using h))) (ze_below hM2 h3).1

theorem eval180_sized : Sized M (eval180 v pro x1 x2 x3 z) := by
  have hp := pv180_below hM2 hz hv
  unfold eval180
  simp only
  split
  · exact eval210_sized hM hM2 h3 hz
  · next h => exact eval190_sized hM hM2 hv h1 h2 h3 hz hp (ne_zero_of_not_le hp (Or.inl (by simpa using h))) (ze_below hM2 h3).2

theorem monthEval_sized : Sized M (monthEval v pro x1 x2 x3 z) := by
  have g170 : Sized M (eval170 v pro x1 x2 x3 z) := eval170_sized hM hM2 hv h1 h2 h3 hz
  have g180 : Sized M (eval180 v pro x1 x2 x3 z) := eval180_sized hM hM2 hv h1 h2 h3 hz
  have g210 := eval210_sized hM hM2 h3 hz
  unfold monthEval
  split
  · split
    · exact eval200_sized hM hM2 h1 h2 hz (lit_ne_nan 0) (below_zero (inner_nonneg hM)) (below_zero vmax_nonneg)
    · split
      · split
        · exact g210
        · exact g170
      · split
        · split
          · exact g210
          · exact g180
        · exact g170
  · split
    · exact g170
    · split
      · exact g180
      · exact g170

end month

theorem months_sized {M : ℚ} (hM : 0 ≤ M) (hM2 : M ≤ 2 ^ 100) (zs : List (B64 σ)) (hz : ∀ z ∈ zs, Below M z) :
    ∀ m ∈ months zs, Sized M m := by
  have key : ∀ (zs : List (B64 σ)) (v pro x1 x2 x3 : B64 σ), (∀ z ∈ zs, Below M z) → Below vmax v → Below (inner M) x1 →
      Below (inner M) x2 → Below (inner M) x3 → ∀ m ∈ monthsFrom v pro x1 x2 x3 zs, Sized M m := by
    intro zs
    induction zs with
    | nil => intro v pro x1 x2 x3 _ _ _ _ _ m hm; simp [monthsFrom] at hm
    | cons z zs ih =>
      intro v pro x1 x2 x3 hz hv h1 h2 h3 m hm
      have hf : Sized M (monthEval v pro x1 x2 x3 z) := monthEval_sized hM hM2 hv h1 h2 h3 (hz z (by simp))
      simp only [monthsFrom, List.mem_cons] at hm
      rcases hm with rfl | hm
      · exact hf
      · exact ih _ _ _ _ _ (fun z hz' => hz z (by simp [hz'])) hf.pv hf.px1 hf.px2 hf.px3 m hm
  have h0 : Below (inner M) (CI.lit 0 : B64 σ) := below_zero (inner_nonneg hM)
  exact key zs _ _ _ _ _ hz (below_zero vmax_nonneg) h0 h0 h0

/-- the bound of the reported indices -/
def outer (M : ℚ) : ℚ := M / 0.309 * (1 + 1 / 10 ^ 12) + 1 / 10 ^ 60

theorem inner_le_outer {M : ℚ} (hM : 0 ≤ M) : inner M ≤ outer M := by
  unfold inner outer
  norm_num
  linarith

theorem mix64 {M : ℚ} (hM : 0 ≤ M) (hM2 : M ≤ 2 ^ 100) {p x y : B64 σ} {q : ℚ} (hp : ext p = .fin q) (hq0 : 0 ≤ q) (hq1 : q ≤ 100)
    (hx : Below (inner M) x) (hy : Below (inner M) y) :
    Below (outer M) ((CI.lit 1 - p / CI.lit 100) * x + p / CI.lit 100 * y) := by
  obtain ⟨a, ea, ha⟩ := hx
  obtain ⟨b, eb, hb⟩ := hy
  have hi := inner_le hM2
  have hi0 := inner_nonneg hM
  have h100 : ext (CI.lit 100 : B64 σ) = .fin 100 := by
    rw [ext_lit64 _ (below_max (by norm_num [abs_of_nonneg]))]
    congr 1
    decide +kernel
  have big : (2 : ℚ) ^ 120 ≤ 2 ^ (1023 : ℤ) := below_max (by norm_num)
  have d0 : 0 ≤ q / 100 := by positivity
  have d1 : q / 100 ≤ 1 := by linarith
  have m1 := fin_div hp h100 (by norm_num) ((abs_le.2 ⟨by linarith, d1⟩).trans (below_max (by norm_num)))
  have r0 : 0 ≤ rnd (q / 100) := rnd_nonneg d0
  have r1 : rnd (q / 100) ≤ 1 := by rw [← rnd_one]; exact rnd_mono d1
  set r := rnd (q / 100) with hr
  have m2 := fin_sub (ext_lit_one (σ := σ)) m1 ((abs_le.2 ⟨by linarith, show 1 - r ≤ 1 by linarith⟩).trans (below_max (by norm_num)))
  have s0 : 0 ≤ rnd (1 - r) := rnd_nonneg (by linarith)
  have s1 : rnd (1 - r) ≤ 1 := by
    rw [← rnd_one]
    exact rnd_mono (by rw [rnd_one]; linarith)
  have srel := rnd_sub_rel (ext_lit_one (σ := σ)) m1
  rw [abs_of_nonneg (show 0 ≤ 1 - r by linarith)] at srel
  have srel := (abs_le.1 srel).2
  set s := rnd (1 - r) with hs
  have hu : unit ≤ 2 / 10 ^ 16 := by unfold unit; norm_num
  have hu0 := unit_pos
  have hs2 : s ≤ (1 - r) * (1 + 2 / 10 ^ 16) := by
    have := mul_le_mul_of_nonneg_left hu (show 0 ≤ 1 - r by linarith)
    linarith
  have t1 : |s * a| ≤ s * inner M := by
    rw [abs_mul, abs_of_nonneg s0]
    exact mul_le_mul_of_nonneg_left ha s0
  have t2 : |r * b| ≤ r * inner M := by
    rw [abs_mul, abs_of_nonneg r0]
    exact mul_le_mul_of_nonneg_left hb r0
  have t1' : s * inner M ≤ inner M := by
    have := mul_le_mul_of_nonneg_right s1 hi0
    linarith
  have t2' : r * inner M ≤ inner M := by
    have := mul_le_mul_of_nonneg_right r1 hi0
    linarith
  have big1 : (2 : ℚ) ^ 110 ≤ 2 ^ (1023 : ℤ) := below_max (by norm_num)
  have m3 := fin_mul m2 ea ((t1.trans t1').trans (hi.trans big1))
  have m4 := fin_mul m1 eb ((t2.trans t2').trans (hi.trans big1))
  have e1 := rnd_le_abs (s * a)
  have e2 := rnd_le_abs (r * b)
  have f1 : |s * a| * (1 + unit) ≤ s * inner M * (1 + 2 / 10 ^ 16) := mul_le_mul t1 (by linarith) (by linarith) (by positivity)
  have f2 : |r * b| * (1 + unit) ≤ r * inner M * (1 + 2 / 10 ^ 16) := mul_le_mul t2 (by linarith) (by linarith) (by positivity)
  have hsum : s * inner M + r * inner M ≤ inner M * (1 + 2 / 10 ^ 16) := by
    have h1 : s + r ≤ 1 + 2 / 10 ^ 16 := by
      have : (1 - r) * (1 + 2 / 10 ^ 16) ≤ (1 - r) + 2 / 10 ^ 16 := by linarith
      linarith
    have := mul_le_mul_of_nonneg_right h1 hi0
    linarith
  have s3 := abs_add_le (rnd (s * a)) (rnd (r * b))
  set w := rnd (s * a) + rnd (r * b) with hw
  have s4 : |w| ≤ inner M * (1 + 2 / 10 ^ 16) * (1 + 2 / 10 ^ 16) + 2 / 10 ^ 70 := by
    have e : (2 : ℚ) / 10 ^ 70 = 1 / 10 ^ 70 + 1 / 10 ^ 70 := by ring
    have := mul_le_mul_of_nonneg_right hsum (show (0 : ℚ) ≤ 1 + 2 / 10 ^ 16 by norm_num)
    linarith
  have m5 := fin_add m3 m4 (s4.trans (le_trans (by norm_num at hi ⊢; linarith) big))
  refine ⟨_, m5, ?_⟩
  have r3 := rnd_le_abs w
  have s5 : |w| * (1 + unit) ≤ (inner M * (1 + 2 / 10 ^ 16) * (1 + 2 / 10 ^ 16) + 2 / 10 ^ 70) * (1 + 2 / 10 ^ 16) :=
    mul_le_mul s4 (by linarith) (by linarith) (by positivity)
  refine (r3.trans (add_le_add_left s5 _)).trans ?_
  unfold inner outer
  norm_num
  linarith

/-- `_case` of bounded indices is bounded, whatever the probability is -/
theorem case64 {M : ℚ} (hM : 0 ≤ M) (hM2 : M ≤ 2 ^ 100) {p x1 x2 x3 : B64 σ} (hp : p ≠ .nan) (h1 : Below (inner M) x1)
    (h2 : Below (inner M) x2) (h3 : Below (inner M) x3) : Below (outer M) (palmerCase p x1 x2 x3) := by
  have hio := inner_le_outer hM
  unfold palmerCase
  simp only
  split
  · split
    · exact h1.mono hio
    · exact h2.mono hio
  · split
    · exact h3.mono hio
    · next hc =>
      have h100 : ext (CI.lit 100 : B64 σ) = .fin 100 := by
        rw [ext_lit64 _ (below_max (by norm_num [abs_of_nonneg]))]
        congr 1
        decide +kernel
      have hq : ∃ q, ext p = .fin q ∧ 0 ≤ q ∧ q ≤ 100 := by
        cases he : ext p with
        | nan =>
          cases p with
          | nan => exact absurd rfl hp
          | inf s => cases s <;> cases he
          | fin s m h => cases he
        | pinf =>
          exfalso
          apply hc
          have : fle (CI.lit 100) p = true := by
            show Fl.le (ext _) (ext p) = true
            rw [h100, he]; rfl
          simp [this]
        | ninf =>
          exfalso
          apply hc
          have : fle p (CI.lit 0) = true := by
            show Fl.le (ext p) (ext _) = true
            rw [ext_lit_zero, he]; rfl
          simp [this]
        | fin q =>
          rw [fle_ext he ext_lit_zero, fle_ext h100 he] at hc
          simp only [Bool.or_eq_true, decide_eq_true_eq, not_or, not_le] at hc
          exact ⟨q, rfl, hc.1.le, hc.2.le⟩
      obtain ⟨q, he, g0, g1⟩ := hq
      split
      · exact mix64 hM hM2 he g0 g1 h3 h1
      · exact mix64 hM hM2 he g0 g1 h3 h2

end CI.B64
