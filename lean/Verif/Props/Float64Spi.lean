import Verif.Props.Float64Shape
import Verif.Props.Float64Pet
import Verif.Props.McKee
import Verif.Props.Years
import Verif.Props.Spei

/-!
# C135: the gamma SPI in binary64 arithmetic

Mixed backward and forward error: the float64 index is the index of the published formula for parameters next to the published estimates, at a probability next to the
probability they give.
-/

namespace CI.Props
open B64
open Spec.McKee (sample wet dry gap shape scale clamp accum)

variable {σ : SumOrder}

/-! ## Specification -/

/-- accuracy of the distribution functions on float64 numbers: the gamma distribution function within `η` of `G` and between 0 and 1, the normal quantile within `δ` of `Φ`,
infinite at 0 and 1 -/
structure IndexNear (E : Ext (B64 σ)) (G : ℝ → ℝ → ℝ → ℝ) (Φ : ℝ → ℝ) (η δ : ℝ) : Prop where
  cdf : ∀ x a b v α β, ext x = .fin v → ext a = .fin α → ext b = .fin β → 0 < v → 0 < α → 0 < β →
    ∃ g : ℚ, ext (E.gammaCdf x a b) = .fin g ∧ 0 ≤ g ∧ g ≤ 1 ∧ |(g : ℝ) - G v α β| ≤ η
  ppf : ∀ x p, ext x = .fin p → 0 < p → p < 1 → ∃ r : ℚ, ext (E.normPpf x) = .fin r ∧ |(r : ℝ) - Φ p| ≤ δ
  zero : ∀ x, ext x = .fin 0 → E.normPpf x = .inf true
  one : ∀ x, ext x = .fin 1 → E.normPpf x = .inf false

/-! ## The mixed probability -/

theorem rnd_above_one : rnd (1 + 1 / 2 ^ 53) = 1 := by decide +kernel

theorem mixed_near {p0 gv : B64 σ} {Q g : ℚ} (h0 : 0 ≤ Q) (h1 : Q ≤ 1) (hp : ext p0 = .fin (rnd Q)) (hg : ext gv = .fin g) (g0 : 0 ≤ g) (g1 : g ≤ 1) :
    ∃ P : ℚ, ext (p0 + (lit 1 - p0) * gv) = .fin P ∧ 0 ≤ P ∧ P ≤ 1 ∧ |(P : ℝ) - (Q + (1 - Q) * g)| ≤ 3 / 2 ^ 51 := by
  have q0 : 0 ≤ rnd Q := rnd_nonneg h0
  have q1 : rnd Q ≤ 1 := by have := rnd_mono h1; rwa [rnd_one] at this
  have big : (2 : ℚ) ≤ 2 ^ (1023 : ℤ) := by
    have := zpow_le_zpow_right₀ (show (1 : ℚ) ≤ 2 by norm_num) (show (1 : ℤ) ≤ 1023 by norm_num)
    simpa using this
  have hs := fin_sub (σ := σ) ext_lit_one hp (by rw [abs_of_nonneg (by linarith)]; exact le_trans (by linarith) big)
  set q := rnd Q with hq
  have r0 : 0 ≤ rnd (1 - q) := rnd_nonneg (by linarith)
  have r1 : rnd (1 - q) ≤ 1 := by have := rnd_mono (show 1 - q ≤ 1 by linarith); rwa [rnd_one] at this
  have hrr : rnd (rnd (1 - q)) = rnd (1 - q) := rnd_fin hs
  have hrs : q + rnd (1 - q) ≤ 1 + 1 / 2 ^ 53 := by
    have hu : unit = 1 / 2 ^ 53 := rfl
    rcases q0.eq_or_lt with hq0 | hq0
    · rw [← hq0, sub_zero, rnd_one]; norm_num
    · obtain ⟨_, _, h3⟩ := fin_range hp hq0
      rcases h3 with h3 | h3
      · rw [h3, sub_self, rnd_zero]; norm_num
      · have h4 : (2 : ℚ) ^ (-1022 : ℤ) ≤ |1 - q| := by
          rw [abs_sub_comm]
          refine le_trans ?_ h3
          exact (zpow_le_zpow_right₀ (by norm_num) (show (-1022 : ℤ) ≤ -53 by norm_num)).trans (by norm_num)
        have h5 := (abs_le.1 (rnd_rel h4)).2
        rw [abs_of_nonneg (by linarith : 0 ≤ 1 - q), hu] at h5
        have : (1 - q) * (1 / 2 ^ 53) ≤ 1 * (1 / 2 ^ 53) := mul_le_mul_of_nonneg_right (by linarith) (by norm_num)
        linarith
  have hpr0 : 0 ≤ rnd (1 - q) * g := mul_nonneg r0 g0
  have hpr1 : rnd (1 - q) * g ≤ rnd (1 - q) := mul_le_of_le_one_right r0 g1
  have hm := fin_mul hs hg (by rw [abs_of_nonneg hpr0]; exact le_trans (by linarith) big)
  have m0 : 0 ≤ rnd (rnd (1 - q) * g) := rnd_nonneg hpr0
  have m1 : rnd (rnd (1 - q) * g) ≤ rnd (1 - q) := by have := rnd_mono hpr1; rwa [hrr] at this
  have hsum0 : 0 ≤ q + rnd (rnd (1 - q) * g) := by linarith
  have ha := fin_add hp hm (by
    rw [abs_of_nonneg hsum0]
    have : (1 : ℚ) / 2 ^ 53 ≤ 1 := by norm_num
    exact le_trans (by linarith) big)
  refine ⟨_, ha, rnd_nonneg hsum0, ?_, ?_⟩
  · have := rnd_mono (show q + rnd (rnd (1 - q) * g) ≤ 1 + 1 / 2 ^ 53 by linarith)
    rwa [rnd_above_one] at this
  · have cast01 : ∀ {a : ℚ}, 0 ≤ a → a ≤ 1 → |(a : ℝ)| ≤ 1 := by
      intro a h h'
      rw [abs_of_nonneg (by exact_mod_cast h)]
      exact_mod_cast h'
    have e1 := rnd_err (q := Q) (M := 1) (cast01 h0 h1) (by norm_num)
    have e2 := rnd_err (q := 1 - q) (M := 1) (cast01 (by linarith) (by linarith)) (by norm_num)
    have e3 := rnd_err (q := rnd (1 - q) * g) (M := 1) (cast01 hpr0 (by linarith)) (by norm_num)
    have e4 := rnd_err (q := q + rnd (rnd (1 - q) * g)) (M := 2) (by
      have : (q + rnd (rnd (1 - q) * g)) ≤ 2 := by
        have : (1 : ℚ) / 2 ^ 53 ≤ 1 := by norm_num
        linarith
      rw [abs_of_nonneg (by exact_mod_cast hsum0)]
      exact_mod_cast this) (by norm_num)
    rw [← hq] at e1
    push_cast at e2 e3 e4 ⊢
    have hgr : |(g : ℝ)| ≤ 1 := cast01 g0 g1
    generalize ((rnd (q + rnd (rnd (1 - q) * g)) : ℚ) : ℝ) = P at *
    generalize ((rnd (rnd (1 - q) * g) : ℚ) : ℝ) = M at *
    generalize ((rnd (1 - q) : ℚ) : ℝ) = R at *
    have e5 : |(R - (1 - Q)) * g| ≤ 2 / 2 ^ 52 := by
      rw [abs_mul]
      have : |R - (1 - (Q : ℝ))| ≤ 2 / 2 ^ 52 := by
        have h2 := abs_le.1 e1
        have h3 := abs_le.1 e2
        rw [abs_le]
        constructor <;> linarith
      calc |R - (1 - (Q : ℝ))| * |(g : ℝ)| ≤ 2 / 2 ^ 52 * 1 := mul_le_mul this hgr (abs_nonneg _) (by norm_num)
        _ = _ := by ring
    have h1 := abs_le.1 e1
    have h3 := abs_le.1 e3
    have h4 := abs_le.1 e4
    have h5 := abs_le.1 e5
    rw [abs_le]
    constructor <;> linarith

/-! ## The final clip -/

theorem ext_limit : ext (lit 3.09 : B64 σ) = .fin (rnd 3.09) := ext_lit64 _ (below_max (by norm_num [abs_of_nonneg]))

theorem ext_limit_neg : ext (lit (-3.09) : B64 σ) = .fin (-rnd 3.09) := by
  rw [← rnd_neg]
  exact ext_lit64 _ (below_max (by norm_num [abs_of_nonneg]))

theorem limit_near : |((rnd 3.09 : ℚ) : ℝ) - 3.09| ≤ 1 / 2 ^ 50 := by
  have := rnd_err (q := 3.09) (M := 4) (by norm_num [abs_of_nonneg]) (by norm_num)
  push_cast at this ⊢
  refine this.trans (by norm_num)

theorem limit_pos : 0 < rnd 3.09 := by
  have := rnd_mono (show (1 : ℚ) ≤ 3.09 by norm_num)
  rw [rnd_one] at this
  linarith

theorem npClip_fin {w : B64 σ} {r : ℚ} (h : ext w = .fin r) : ext (npClip (lit (-3.09)) (lit 3.09) w) = .fin (max (-rnd 3.09) (min (rnd 3.09) r)) := by
  have hn : isNan w = false := by
    cases w with
    | nan => cases h
    | inf s => cases s <;> cases h
    | fin s m h => rfl
  have hl := limit_pos
  unfold npClip
  rw [hn, flt_ext h ext_limit_neg, flt_ext ext_limit h]
  simp only [Bool.false_eq_true, if_false, decide_eq_true_eq]
  split
  · next h1 => rw [max_eq_left (le_trans (min_le_right _ _) h1.le)]; exact ext_limit_neg
  · next h1 =>
    split
    · next h2 => rw [min_eq_left h2.le, max_eq_right (by linarith)]; exact ext_limit
    · next h2 => rw [min_eq_right (not_lt.1 h2), max_eq_right (not_lt.1 h1)]; exact h

theorem clamp_near {r : ℚ} {z δ : ℝ} (h : |(r : ℝ) - z| ≤ δ) : |((max (-rnd 3.09) (min (rnd 3.09) r) : ℚ) : ℝ) - clamp z| ≤ δ + 1 / 2 ^ 50 := by
  unfold clamp
  rw [Rat.cast_max, Rat.cast_min, Rat.cast_neg]
  have hl := limit_near
  have h0 : 0 ≤ δ := (abs_nonneg _).trans h
  refine (abs_max_sub_max_le_max _ _ _ _).trans (max_le ?_ ((abs_min_sub_min_le_max _ _ _ _).trans (max_le ?_ ?_)))
  · have : -((rnd 3.09 : ℚ) : ℝ) - -3.09 = -(((rnd 3.09 : ℚ) : ℝ) - 3.09) := by ring
    rw [this, abs_neg]
    linarith
  · linarith
  · have : (0 : ℝ) ≤ 1 / 2 ^ 50 := by positivity
    linarith

theorem clip_inf : npClip (lit (-3.09)) (lit 3.09) (inf false : B64 σ) = lit 3.09 ∧ npClip (lit (-3.09)) (lit 3.09) (inf true : B64 σ) = lit (-3.09) := by
  constructor
  · have h1 : flt (inf false : B64 σ) (lit (-3.09)) = false := by
      show (Fl.le .pinf (ext (lit (-3.09) : B64 σ)) && !Fl.le (ext (lit (-3.09) : B64 σ)) .pinf) = false
      rw [ext_limit_neg]; rfl
    have h2 : flt (lit 3.09) (inf false : B64 σ) = true := by
      show (Fl.le (ext (lit 3.09 : B64 σ)) .pinf && !Fl.le .pinf (ext (lit 3.09 : B64 σ))) = true
      rw [ext_limit]; rfl
    unfold npClip
    rw [h1, h2]; rfl
  · have h1 : flt (inf true : B64 σ) (lit (-3.09)) = true := by
      show (Fl.le .ninf (ext (lit (-3.09) : B64 σ)) && !Fl.le (ext (lit (-3.09) : B64 σ)) .ninf) = true
      rw [ext_limit_neg]; rfl
    unfold npClip
    rw [h1]; rfl

/-! ## The record -/

theorem realAmounts_wet (f : ℕ → B64 σ) (l : List ℕ) : realAmounts (l.map f) = wet (l.filterMap (fun y => real64 (f y))) := by
  unfold realAmounts amounts wet
  induction l with
  | nil => rfl
  | cons y l ih =>
    rw [List.map_cons, List.filterMap_cons, List.filterMap_cons]
    unfold real64
    cases hy : ext (f y) with
    | fin q =>
      simp only
      by_cases hq : 0 < q
      · rw [List.filter_cons_of_pos (by simpa using hq)]
        simp only [hq, if_true, List.map_cons]
        rw [ih]
        rfl
      · rw [List.filter_cons_of_neg (by simpa using hq)]
        simp only [hq, if_false]
        exact ih
    | nan => exact ih
    | pinf => exact ih
    | ninf => exact ih

theorem zeros_dry (f : ℕ → B64 σ) (l : List ℕ) : (l.map f).countP (fun x => feq x (lit 0)) = dry (l.filterMap (fun y => real64 (f y))) := by
  unfold dry
  induction l with
  | nil => rfl
  | cons y l ih =>
    rw [List.map_cons, List.countP_cons, ih, List.filterMap_cons]
    have key : feq (f y) (lit 0) = (match real64 (f y) with | some a => decide (a = 0) | none => false) := by
      unfold real64
      cases hy : ext (f y) with
      | fin q =>
        rw [feq_ext hy ext_lit_zero]
        simp
      | nan => show (Fl.le (ext (f y)) (ext (lit 0)) && Fl.le (ext (lit 0)) (ext (f y))) = _; rw [hy, ext_lit_zero]; rfl
      | pinf => show (Fl.le (ext (f y)) (ext (lit 0)) && Fl.le (ext (lit 0)) (ext (f y))) = _; rw [hy, ext_lit_zero]; rfl
      | ninf => show (Fl.le (ext (f y)) (ext (lit 0)) && Fl.le (ext (lit 0)) (ext (f y))) = _; rw [hy, ext_lit_zero]; rfl
    rw [key]
    cases real64 (f y) with
    | none => simp
    | some a => rw [List.countP_cons]

theorem accum_one (x : List (Option ℝ)) (t : ℕ) : accum x 1 t = (x[t]?).join := by
  unfold accum
  simp only [Nat.add_sub_cancel]
  by_cases ht : t < x.length
  · rw [List.getElem?_eq_getElem ht, List.drop_eq_getElem_cons ht, List.take_succ_cons, List.take_zero]
    cases hx : x[t] with
    | none => simp
    | some a => simp [ht]
  · rw [if_neg (by intro h; exact ht h.2.1), List.getElem?_eq_none (by omega)]; rfl

theorem accum_real (acc : List (B64 σ)) (t : ℕ) : accum (acc.map real64) 1 t = real64 (acc.getD t B64.nan) := by
  rw [accum_one, List.getElem?_map, List.getD_eq_getElem?_getD]
  cases acc[t]? <;> rfl

theorem pad_range (acc : List (B64 σ)) (m N : ℕ) (h : acc.length + m = N) :
    acc ++ List.replicate m (B64.nan : B64 σ) = (List.range N).map (fun t => acc.getD t B64.nan) := by
  apply List.ext_getElem?
  intro i
  rw [List.getElem?_map]
  by_cases hi : i < N
  · rw [List.getElem?_range hi, Option.map_some, List.getD_eq_getElem?_getD]
    by_cases hi' : i < acc.length
    · rw [List.getElem?_append_left hi', List.getElem?_eq_getElem hi']; rfl
    · rw [List.getElem?_append_right (by omega), List.getElem?_replicate, if_pos (by omega), List.getElem?_eq_none (l := acc) (by omega)]; rfl
  · rw [List.getElem?_eq_none (by simp; omega), List.getElem?_eq_none (by simpa using hi)]; rfl

/-! ## Accumulations -/

/-- an amount: missing, zero, or between 10^-50 and 10^50 -/
def StepAmount (v : B64 σ) : Prop := v = .nan ∨ ∃ q, ext v = .fin q ∧ (q = 0 ∨ 1 / 10 ^ 50 ≤ q) ∧ q ≤ 10 ^ 50

theorem StepAmount.rain {v : B64 σ} (h : StepAmount v) : Rain v := by
  rcases h with h | ⟨q, h1, h2, h3⟩
  · exact Or.inl h
  · refine Or.inr ⟨q, h1, ?_, h3.trans (by norm_num)⟩
    rcases h2 with h2 | h2
    · exact Or.inl h2
    · exact Or.inr (le_trans (by norm_num) h2)

theorem scale_near {lo hi : ℚ} {x : List (B64 σ)} {m : List (Fl ℚ)} (hr : List.Forall₂ (Near 0 lo hi) x m) (h0 : 0 ≤ hi) (hbig : 2 ^ 40 * hi ≤ 2 ^ (1000 : ℤ)) (k : ℕ) (h1 : 1 ≤ k)
    (hk : k ≤ 2 ^ 40) (hkl : k ≤ x.length) (Q : Fl ℚ → Prop) (hQ1 : ∀ y ∈ m, Q y) (hQn : Q .nan) (hQs : ∀ l : List (Fl ℚ), l ≠ [] → (∀ y ∈ l, Q y) → Q (fsum l))
    (sums : List (B64 σ)) (h : sumToScale x k = .ok sums) : ∀ v ∈ sums, ∃ y, Near k lo (2 ^ 40 * hi) v y ∧ Q y := by
  have hkq : (k : ℚ) ≤ 2 ^ 40 := by exact_mod_cast hk
  have key : ∀ (l : List (B64 σ)) (m : List (Fl ℚ)), List.Forall₂ (Near 0 lo hi) l m → l.length ≤ k → Near k lo (2 ^ 40 * hi) (fsum l) (fsum m) := by
    intro l m hlm hl
    have hlq : (l.length : ℚ) ≤ 2 ^ 40 := le_trans (by exact_mod_cast hl) hkq
    have hb : (l.length : ℚ) * hi ≤ 2 ^ 40 * hi := mul_le_mul_of_nonneg_right hlq h0
    exact (fsum_near hlm (hb.trans hbig) (by omega)).mono (by omega) le_rfl hb
  intro v hv
  unfold sumToScale at h
  by_cases hk1 : (k : ℤ) = 1
  · rw [if_pos hk1] at h
    cases h
    obtain ⟨i, hi'⟩ := List.mem_iff_getElem?.1 hv
    obtain ⟨hil, _⟩ := List.getElem?_eq_some_iff.1 hi'
    have h2 := (List.forall₂_iff_get.1 hr).2 i hil (by rw [← hr.length_eq]; exact hil)
    rw [List.getElem?_eq_getElem hil, Option.some.injEq] at hi'
    rw [List.get_eq_getElem, hi'] at h2
    exact ⟨_, h2.mono (by omega) le_rfl (le_mul_of_one_le_left h0 (by norm_num)), hQ1 _ (List.get_mem _ _)⟩
  · rw [if_neg hk1] at h
    unfold convolveOnes at h
    by_cases he : x = []
    · rw [if_pos (Or.inr he)] at h; cases h
    · rw [if_neg (by rintro (h' | h'); omega; exact he h')] at h
      dsimp only at h
      rw [if_pos (by omega)] at h
      simp only [bind, Except.bind, pure, Except.pure, Except.ok.injEq] at h
      subst h
      rcases List.mem_append.1 hv with hv | hv
      · rw [(List.mem_replicate.1 hv).2]
        exact ⟨.nan, Or.inl ⟨rfl, rfl⟩, hQn⟩
      · obtain ⟨i, hi', rfl⟩ := List.mem_map.1 hv
        have hi' := List.mem_range.1 hi'
        refine ⟨_, key _ _ (forall₂_slice hr _ _) ?_, hQs _ ?_ ?_⟩
        · unfold slice
          rw [List.length_take]
          omega
        · intro hnil
          have h3 := slice_length' m i (i + (k : ℤ).toNat)
          rw [hnil, List.length_nil, ← hr.length_eq] at h3
          omega
        · intro y hy
          unfold slice at hy
          exact hQ1 y (List.mem_of_mem_drop (List.mem_of_mem_take hy))

theorem fsum_ge_one (l : List (Fl ℚ)) (hne : l ≠ []) (h : ∀ y ∈ l, y = .nan ∨ ∃ c : ℚ, y = .fin c ∧ 1 ≤ c) : fsum l = .nan ∨ ∃ c : ℚ, fsum l = .fin c ∧ 1 ≤ c := by
  have gen : ∀ l : List (Fl ℚ), (∀ y ∈ l, y = .nan ∨ ∃ c : ℚ, y = .fin c ∧ 1 ≤ c) → fsum l = .nan ∨ ∃ c : ℚ, fsum l = .fin c ∧ (l.length : ℚ) ≤ c := by
    intro l
    induction l with
    | nil => intro _; exact Or.inr ⟨0, rfl, by simp⟩
    | cons y l ih =>
      intro h
      have e : fsum (y :: l) = Fl.add y (fsum l) := rfl
      rcases ih (fun z hz => h z (List.mem_cons_of_mem _ hz)) with h1 | ⟨c, h1, h2⟩
      · left
        rw [e, h1]
        cases y <;> rfl
      · rcases h y List.mem_cons_self with h3 | ⟨d, h3, h4⟩
        · left
          rw [e, h3]; rfl
        · right
          refine ⟨d + c, by rw [e, h1, h3]; rfl, ?_⟩
          rw [List.length_cons]
          push_cast
          linarith
  rcases gen l h with h1 | ⟨c, h1, h2⟩
  · exact Or.inl h1
  · refine Or.inr ⟨c, h1, le_trans ?_ h2⟩
    have : 1 ≤ l.length := List.length_pos_iff.2 hne
    exact_mod_cast this

theorem amount_near {x : List (B64 σ)} (hx : ∀ v ∈ x, StepAmount v) : List.Forall₂ (Near 0 (1 / 10 ^ 50) (10 ^ 50)) x (x.map ext) := by
  induction x with
  | nil => exact .nil
  | cons v x ih =>
    refine .cons ?_ (ih fun w hw => hx w (List.mem_cons_of_mem _ hw))
    rcases hx v (by simp) with rfl | ⟨q, h1, h2, h3⟩
    · exact Or.inl ⟨rfl, rfl⟩
    · have h0 : 0 ≤ q := by
        rcases h2 with h | h
        · exact h.ge
        · exact le_trans (by positivity) h
      exact Or.inr ⟨q, q, h1, h1, Close.refl h0, h2, h3⟩

/-- accumulations of amounts of up to 2^40 steps are between 10^-100 and 10^100, zero or missing -/
theorem sums_rain {x : List (B64 σ)} (hx : ∀ v ∈ x, StepAmount v) (k : ℕ) (h1 : 1 ≤ k) (hk : k ≤ 2 ^ 40) (hkl : k ≤ x.length) (sums : List (B64 σ)) (h : sumToScale x k = .ok sums) :
    ∀ v ∈ sums, Rain v := by
  intro v hv
  have hbig : (2 : ℚ) ^ 40 * 10 ^ 50 ≤ 2 ^ (1000 : ℤ) := le_trans (mul_le_mul_of_nonneg_left (by norm_num) (by positivity)) ten_big
  obtain ⟨y, hy | ⟨a, b, ha, hb, hc, hl, hh⟩, _⟩ := scale_near (amount_near hx) (by positivity) hbig k h1 hk hkl (fun _ => True) (fun _ _ => trivial) trivial (fun _ _ _ => trivial)
    sums h v hv
  · exact Or.inl hy.1
  · have he := hc.error (by omega)
    have hkq : (k : ℚ) ≤ 2 ^ 40 := by exact_mod_cast hk
    have hb0 : 0 ≤ b := by
      rcases hl with h | h
      · exact h.ge
      · exact le_trans (by positivity) h
    have hu : 2 * (k : ℚ) * unit ≤ 1 / 2 := by
      unfold unit
      have : 2 * (k : ℚ) * (1 / 2 ^ 53) ≤ 2 * 2 ^ 40 * (1 / 2 ^ 53) := by gcongr
      exact this.trans (by norm_num)
    have he' := he.trans (mul_le_mul_of_nonneg_left hu hb0)
    have := abs_le.1 he'
    refine Or.inr ⟨a, ha, ?_, ?_⟩
    · rcases hl with h | h
      · left
        rw [h] at this
        linarith [this.1, this.2]
      · right
        have h3 : (1 : ℚ) / 10 ^ 100 ≤ 1 / 10 ^ 50 * (1 / 2) := by norm_num
        linarith [this.1]
    · have h3 : (2 : ℚ) ^ 40 * 10 ^ 50 * 2 ≤ 10 ^ 100 := by norm_num
      linarith [this.2]

/-- **C135.** The gamma SPI in IEEE float64 arithmetic. At a step with a positive accumulation `v` the result is the clamped normal quantile of a probability `P` between 0 and 1
that differs by at most `η + 3/2^51` from the mixed probability with the share of zeros, the gamma distribution function and parameters `α`, `β`; and these parameters are
Thom's estimates for the accumulations of the calibration years up to the relative errors of C132. In particular the mixed probability never exceeds 1 by rounding, so the
index is never NaN there. -/
theorem C135_spi (E : Ext (B64 σ)) (hE : ExtNan E) (hA : Accurate E) (G : ℝ → ℝ → ℝ → ℝ) (Φ : ℝ → ℝ) (η δ : ℝ) (hI : IndexNear E G Φ η δ)
    (x : List (B64 σ)) (hx : ∀ v ∈ x, StepAmount v) (k : ℕ) (h1 : 1 ≤ k) (h2 : k ≤ x.length) (per : Periodicity) (hper : per ≠ .other) (ds cs ce : ℤ) (c1 : ds ≤ cs) (c2 : cs ≤ ce)
    (c3 : ce < ds + yearsOf x.length per.steps) (hsome : ∃ v ∈ x, isNan v = false) (acc : List (B64 σ)) (hacc : sumToScale x k = .ok acc)
    (m : ℕ) (hm : (m : ℤ) = ce - cs + 1) (hxl : x.length ≤ 2 ^ 40) :
    ∃ out, spi E (Arr.of1d x) k .gamma ds cs ce per none = .ok out ∧ out.length = x.length ∧
      ∀ (t : ℕ) (v : ℝ), (acc.map real64)[t]? = some (some v) → 0 < v → ∀ (n : ℕ) (s : List ℝ) (q : ℝ), n = yearsOf x.length per.steps →
        s = wet (sample (acc.map real64) 1 per.steps (t % per.steps) (cs - ds).toNat m) →
        q = (dry (sample (acc.map real64) 1 per.steps (t % per.steps) 0 n) : ℝ) / n →
        ∀ (L : ℚ) (ε : ℝ), 1 ≤ L → L ≤ 1000 → (∀ a ∈ s, |Real.log a| ≤ L) → ε = (L + 1) * (m + 7) / 2 ^ 51 → 8 * ε ≤ gap s →
        ∃ (w : B64 σ) (z α β P : ℝ), out[t]? = some w ∧ (∃ zq : ℚ, ext w = .fin zq ∧ z = zq) ∧
          |α - shape s| ≤ shape s * (2 * (ε / gap s) + 1 / 2 ^ 48) ∧ |β - scale s| ≤ scale s * (4 * (ε / gap s) + (m + 2) / 2 ^ 51 + 1 / 2 ^ 47) ∧
          0 ≤ P ∧ P ≤ 1 ∧ |P - (q + (1 - q) * G v α β)| ≤ η + 3 / 2 ^ 51 ∧
          (0 < P → P < 1 → |z - clamp (Φ P)| ≤ δ + 1 / 2 ^ 50) ∧ (P = 0 → |z - -3.09| ≤ 1 / 2 ^ 50) ∧ (P = 1 → |z - 3.09| ≤ 1 / 2 ^ 50) := by
  have hp := steps_pos per hper
  have hr := sums_rain hx k h1 (h2.trans hxl) h2 acc hacc
  obtain ⟨out, ho, hl⟩ := C10_gamma E (Arr.of1d x) k ds cs ce per (Or.inl rfl) (by cases per <;> simp_all) (by exact_mod_cast h1) hsome
  refine ⟨out, ho, by simpa [Arr.of1d] using hl, ?_⟩
  intro t v hv hv0 n s q hn hs hq L ε hL1 hL2 hL hε hgap
  have hlen : acc.length = x.length := by
    obtain ⟨o, h3, h4, _⟩ := C07_windows_partial x k h1 h2
    rw [hacc] at h3
    cases h3
    exact h4
  have htx : t < x.length := by
    have := (List.getElem?_eq_some_iff.1 hv).1
    simpa [hlen] using this
  obtain ⟨_, s', n', tr, hs', hlen', htr, hout⟩ := spi_point E _ _ _ _ _ _ _ _ _ (allNan_false hsome) ho
  have hclip : clipNeg (Arr.of1d x).data = x := by
    apply clipNeg_id
    intro w hw
    rcases hx w hw with rfl | ⟨a, ha, ha2, _⟩
    · rfl
    · rw [flt_ext ha ext_lit_zero, decide_eq_false_iff_not, not_lt]
      rcases ha2 with ha2 | ha2
      · exact ha2.ge
      · exact le_trans (by positivity) ha2
  rw [hclip, hacc] at hs'
  cases hs'
  have hdata : acc.length + padCount acc.length per.steps = n' * per.steps := by simpa using hlen'
  have hnn' : n' = n := by
    rw [hn]
    show n' = (x.length + per.steps - 1) / per.steps
    rw [← hlen]
    have := padCount_lt acc.length per.steps hp
    symm
    rw [Nat.div_eq_iff hp]
    constructor
    · omega
    · have : n' * per.steps + per.steps = (n' + 1) * per.steps := by ring
      omega
  subst hnn'
  rw [show (nan : B64 σ) = B64.nan from rfl, pad_range acc _ _ hdata] at htr
  generalize hd : (List.range (n' * per.steps)).map (fun t => acc.getD t B64.nan) = data at htr
  have hdl : data.length = n' * per.steps := by rw [← hd]; simp
  have hcp : t % per.steps < per.steps := Nat.mod_lt _ hp
  have htn : t < n' * per.steps := by omega
  have hget : data[t]? = some (acc.getD t B64.nan) := by
    rw [← hd, List.getElem?_map, List.getElem?_range htn, Option.map_some]
  have hmn : (cs - ds).toNat + m ≤ n' := by rw [← hn] at c3; omega
  have hn2 : n' ≤ 2 ^ 40 := by
    refine le_trans ?_ hxl
    rw [hn]
    show (x.length + per.steps - 1) / per.steps ≤ x.length
    rw [Nat.div_le_iff_le_mul_add_pred hp]
    have : x.length ≤ per.steps * x.length := Nat.le_mul_of_pos_left _ hp
    omega
  have hm2 : m ≤ 2 ^ 40 := by omega
  have hcol : stride per.steps (t % per.steps) (calibrationValues data n' per.steps ds cs ce) =
      (List.range m).map (fun y => acc.getD (((cs - ds).toNat + y) * per.steps + t % per.steps) B64.nan) := by
    rw [← hn] at c3
    rw [calibrationValues_within data n' _ ds cs ce c1 (by omega) (by omega), ← hd]
    have : (ce + 1 - ds).toNat = (cs - ds).toNat + m := by omega
    rw [this, stride_slice_range _ _ _ _ _ _ hcp hmn]
  have hcol0 : stride per.steps (t % per.steps) data = (List.range n').map (fun y => acc.getD ((0 + y) * per.steps + t % per.steps) B64.nan) := by
    rw [← stride_slice_range (fun t => acc.getD t B64.nan) n' per.steps (t % per.steps) 0 n' hcp (by omega), hd]
    congr 1
    unfold slice
    simp [hdl]
  have htr' : transformFittedGamma E ⟨[n', per.steps], data⟩ ds cs ce per none none = .ok tr := htr
  have hwet : realAmounts (stride per.steps (t % per.steps) (calibrationValues data n' per.steps ds cs ce)) = s := by
    rw [hcol, realAmounts_wet, hs]
    unfold sample
    simp only [accum_real]
  have hdataR : ∀ w ∈ data, Rain w := by
    intro w hw
    rw [← hd] at hw
    obtain ⟨i, _, rfl⟩ := List.mem_map.1 hw
    rw [List.getD_eq_getElem?_getD]
    cases hi : acc[i]? with
    | none => exact Or.inl rfl
    | some u => exact hr u (List.mem_of_getElem? hi)
  have hsl : (stride per.steps (t % per.steps) (calibrationValues data n' per.steps ds cs ce)).length = m := by rw [hcol]; simp
  obtain ⟨ax, bx, α, β, hax, hbx, hα, hβ, hαe, hβe⟩ := C132_parameters E hE hA n' data ds cs ce per hper hdataR _ _ (gammaParameters_fits E hE n' data ds cs ce per hper)
    (t % per.steps) hcp _ rfl (by rw [hsl]; exact hm2) L hL1 hL2 (by rw [hwet]; exact hL) ε (by rw [hsl]; exact hε) (by rw [hwet]; exact hgap)
  rw [hwet] at hαe hβe
  rw [hsl] at hβe
  have hpar : gammaParamAt E n' per.steps data ds cs ce none none (t % per.steps) = (ax, bx) := by
    rw [List.getElem?_map] at hax hbx
    unfold gammaFits at hax hbx
    rw [List.getElem?_map, List.getElem?_range hcp] at hax hbx
    simp only [Option.map_some, Option.some.injEq] at hax hbx
    show gammaFitCol E _ = _
    rw [← hax, ← hbx]
  -- signs
  have hLR : (1 : ℝ) ≤ L := by exact_mod_cast hL1
  have hmR : (m : ℝ) ≤ 2 ^ 40 := by exact_mod_cast hm2
  have hm0 : (0 : ℝ) ≤ m := by positivity
  have hε0 : 0 < ε := by rw [hε]; positivity
  have hg0 : 0 < gap s := by linarith
  have ht8 : ε / gap s ≤ 1 / 8 := by rw [div_le_iff₀ hg0]; linarith
  have hsh : 0 < shape s := thomShape_pos hg0
  have hsne : s ≠ [] := by
    intro h
    rw [h, gap_nil] at hg0
    exact lt_irrefl _ hg0
  have hsc : 0 < scale s := by
    have hpos : ∀ a ∈ s, 0 < a := by
      intro a ha
      rw [hs] at ha
      simpa using (List.mem_filter.1 ha).2
    exact div_pos (log_mean hpos hL hsne).1 hsh
  have hα0 : (0 : ℝ) < α := by
    have h3 := (abs_le.1 hαe).1
    have h4 : 2 * (ε / gap s) + 1 / 2 ^ 48 ≤ 1 / 2 := by
      have : (1 : ℝ) / 2 ^ 48 ≤ 1 / 8 := by norm_num
      linarith
    have h5 := mul_le_mul_of_nonneg_left h4 hsh.le
    linarith
  have hβ0 : (0 : ℝ) < β := by
    have h3 := (abs_le.1 hβe).1
    have h4 : 4 * (ε / gap s) + ((m : ℝ) + 2) / 2 ^ 51 + 1 / 2 ^ 47 ≤ 3 / 4 := by
      have h6 : ((m : ℝ) + 2) / 2 ^ 51 ≤ (2 ^ 40 + 2) / 2 ^ 51 := by gcongr
      have h7 : ((2 : ℝ) ^ 40 + 2) / 2 ^ 51 ≤ 1 / 100 := by norm_num
      have : (1 : ℝ) / 2 ^ 47 ≤ 1 / 8 := by norm_num
      linarith
    have h5 := mul_le_mul_of_nonneg_left h4 hsc.le
    linarith
  -- the value
  rw [List.getElem?_map] at hv
  obtain ⟨u, hu, huv⟩ := Option.map_eq_some_iff.1 hv
  have hud : acc.getD t B64.nan = u := by rw [List.getD_eq_getElem?_getD, hu]; rfl
  obtain ⟨vq, hvq, hvv⟩ : ∃ vq : ℚ, ext u = .fin vq ∧ v = vq := by
    unfold real64 at huv
    split at huv
    · next a h => exact ⟨a, h, (Option.some.inj huv).symm⟩
    · cases huv
  rw [hvv] at hv0
  have hz : zeroToNan u = u := by
    unfold zeroToNan
    rw [feq_ext hvq ext_lit_zero, if_neg]
    rw [decide_eq_true_eq]
    intro h
    rw [h] at hv0
    simp at hv0
  obtain ⟨g, hg, g0, g1, hge⟩ := hI.cdf u ax bx vq α β hvq hα hβ (by exact_mod_cast hv0) (by exact_mod_cast hα0) (by exact_mod_cast hβ0)
  -- the share of zeros
  have hn0 : 0 < n' := by
    rcases Nat.eq_zero_or_pos n' with h0 | h0
    · rw [h0] at htn; omega
    · exact h0
  set zc := dry (sample (acc.map real64) 1 per.steps (t % per.steps) 0 n') with hzc
  have hcount : (stride per.steps (t % per.steps) data).countP (fun x => feq x (lit 0)) = zc := by
    rw [hcol0, zeros_dry, hzc]
    unfold sample
    simp only [accum_real]
  have hzn : zc ≤ n' := by
    rw [← hcount]
    refine List.countP_le_length.trans ?_
    rw [hcol0]
    simp
  have hnq : (0 : ℚ) < n' := by exact_mod_cast hn0
  have hznq : (zc : ℚ) ≤ n' := by exact_mod_cast hzn
  have hQ0 : 0 ≤ (zc : ℚ) / n' := by positivity
  have hQ1 : (zc : ℚ) / n' ≤ 1 := by rw [div_le_one hnq]; exact hznq
  have hp0 : ext (p0Col n' (stride per.steps (t % per.steps) data)) = .fin (rnd ((zc : ℚ) / n')) := by
    unfold p0Col
    rw [hcount]
    refine fin_div (natlit (by omega)) (natlit (by omega)) hnq.ne' ?_
    rw [abs_of_nonneg hQ0]
    exact hQ1.trans (one_le_zpow₀ (by norm_num) (by norm_num))
  obtain ⟨P, hP, P0, P1, hPe⟩ := mixed_near hQ0 hQ1 hp0 hg g0 g1
  have hq1 : 0 ≤ 1 - q ∧ 1 - q ≤ 1 := by
    have h3 : (((zc : ℚ) / n' : ℚ) : ℝ) = q := by rw [hq]; push_cast; rfl
    have h4 : (0 : ℝ) ≤ (((zc : ℚ) / n' : ℚ) : ℝ) := by exact_mod_cast hQ0
    have h5 : (((zc : ℚ) / n' : ℚ) : ℝ) ≤ 1 := by exact_mod_cast hQ1
    rw [h3] at h4 h5
    constructor <;> linarith
  have hPq : |(P : ℝ) - (q + (1 - q) * g)| ≤ 3 / 2 ^ 51 := by
    have h3 : (((zc : ℚ) / n' : ℚ) : ℝ) = q := by rw [hq]; push_cast; rfl
    rwa [h3] at hPe
  have hPG : |(P : ℝ) - (q + (1 - q) * G v α β)| ≤ η + 3 / 2 ^ 51 := by
    rw [hvv]
    have e : (P : ℝ) - (q + (1 - q) * G vq α β) = (P - (q + (1 - q) * g)) + (1 - q) * (g - G vq α β) := by ring
    have h6 : |(1 - q) * ((g : ℝ) - G vq α β)| ≤ η := by
      rw [abs_mul, abs_of_nonneg hq1.1]
      calc (1 - q) * |(g : ℝ) - G vq α β| ≤ 1 * η := mul_le_mul hq1.2 hge (abs_nonneg _) (by norm_num)
        _ = η := one_mul _
    rw [e]
    refine (abs_add_le _ _).trans ?_
    linarith
  have hres : out[t]? = some (npClip (lit (-3.09)) (lit 3.09) (E.normPpf (p0Col n' (stride per.steps (t % per.steps) data) +
      (lit 1 - p0Col n' (stride per.steps (t % per.steps) data)) * E.gammaCdf u ax bx))) := by
    rw [hout t (by simpa [Arr.of1d] using htx), gamma_value E hE n' data ds cs ce per none none tr hper hdl htr' t _ hget, hpar, hud, hz]
    rfl
  have hP0R : (0 : ℝ) ≤ P := by exact_mod_cast P0
  have hP1R : (P : ℝ) ≤ 1 := by exact_mod_cast P1
  have hlim := limit_near
  generalize p0Col n' (stride per.steps (t % per.steps) data) + (lit 1 - p0Col n' (stride per.steps (t % per.steps) data)) * E.gammaCdf u ax bx = pr at *
  rcases P0.eq_or_lt with hP00 | hP00
  · have hinf := hI.zero pr (by rw [hP, ← hP00])
    rw [hinf, clip_inf.2] at hres
    refine ⟨_, _, α, β, P, hres, ⟨_, ext_limit_neg, rfl⟩, hαe, hβe, hP0R, hP1R, hPG, ?_, ?_, ?_⟩
    · intro h; rw [← hP00] at h; simp at h
    · intro _
      have : ((-rnd 3.09 : ℚ) : ℝ) - -3.09 = -(((rnd 3.09 : ℚ) : ℝ) - 3.09) := by push_cast; ring
      rw [this, abs_neg]
      exact hlim
    · intro h; rw [← hP00] at h; simp at h
  · rcases P1.eq_or_lt with hP11 | hP11
    · have hinf := hI.one pr (by rw [hP, hP11])
      rw [hinf, clip_inf.1] at hres
      refine ⟨_, _, α, β, P, hres, ⟨_, ext_limit, rfl⟩, hαe, hβe, hP0R, hP1R, hPG, ?_, ?_, fun _ => hlim⟩
      · intro _ h; rw [hP11] at h; simp at h
      · intro h; rw [hP11] at h; simp at h
    · obtain ⟨r, hr', hre⟩ := hI.ppf pr P hP hP00 hP11
      refine ⟨_, _, α, β, P, hres, ⟨_, npClip_fin hr', rfl⟩, hαe, hβe, hP0R, hP1R, hPG, fun _ _ => clamp_near hre, ?_, ?_⟩
      · intro h
        have : P = 0 := by exact_mod_cast h
        exact absurd this hP00.ne'
      · intro h
        have : P = 1 := by exact_mod_cast h
        exact absurd this hP11.ne

/-! ## SPEI -/

/-- precipitation: missing, or between 0 and 10^5 -/
def Precip (v : B64 σ) : Prop := v = .nan ∨ ∃ q, ext v = .fin q ∧ 0 ≤ q ∧ q ≤ 10 ^ 5

/-- evapotranspiration: missing, or between 0 and 999 -/
def Evap (v : B64 σ) : Prop := v = .nan ∨ ∃ q, ext v = .fin q ∧ 0 ≤ q ∧ q ≤ 999

theorem balance_near {x y : B64 σ} {a b : ℚ} (hx : ext x = .fin a) (hy : ext y = .fin b) (a0 : 0 ≤ a) (a1 : a ≤ 10 ^ 5) (b0 : 0 ≤ b) (b1 : b ≤ 999) :
    ∃ c, ext (x - y + lit 1000) = .fin c ∧ 1 ≤ c ∧ c ≤ 101000 ∧ |(c : ℝ) - (a - b + 1000)| ≤ 1 / 2 ^ 34 := by
  have big : (2 : ℚ) ^ (20 : ℤ) ≤ 2 ^ (1023 : ℤ) := zpow_le_zpow_right₀ (by norm_num) (by norm_num)
  have e1000 : ext (lit 1000 : B64 σ) = .fin 1000 := by have := natlit (σ := σ) (k := 1000) (by norm_num); exact_mod_cast this
  have r1 : rnd (-999) = -999 := by have := rnd_int (k := -999) (by norm_num); exact_mod_cast this
  have r2 : rnd (10 ^ 5) = 10 ^ 5 := by have := rnd_int (k := 10 ^ 5) (by norm_num); exact_mod_cast this
  have r3 : rnd 101000 = 101000 := by have := rnd_int (k := 101000) (by norm_num); exact_mod_cast this
  have hab : |a - b| ≤ 10 ^ 5 := by rw [abs_le]; constructor <;> linarith
  have hs := fin_sub hx hy (hab.trans (le_trans (by norm_num) big))
  have s1 : -999 ≤ rnd (a - b) := by have := rnd_mono (show -999 ≤ a - b by linarith); rwa [r1] at this
  have s2 : rnd (a - b) ≤ 10 ^ 5 := by have := rnd_mono (show a - b ≤ 10 ^ 5 by linarith); rwa [r2] at this
  have hsum : |rnd (a - b) + 1000| ≤ 101000 := by rw [abs_le]; constructor <;> linarith
  have ha := fin_add hs e1000 (hsum.trans (le_trans (by norm_num) big))
  refine ⟨_, ha, ?_, ?_, ?_⟩
  · have := rnd_mono (show 1 ≤ rnd (a - b) + 1000 by linarith); rwa [rnd_one] at this
  · have := rnd_mono (show rnd (a - b) + 1000 ≤ 101000 by linarith); rwa [r3] at this
  · have f1 := rnd_err (q := a - b) (M := 10 ^ 5) (by exact_mod_cast hab) (by norm_num)
    have f2 := rnd_err (q := rnd (a - b) + 1000) (M := 101000) (by exact_mod_cast hsum) (by norm_num)
    push_cast at f1 f2
    have g1 := abs_le.1 f1
    have g2 := abs_le.1 f2
    rw [abs_le]
    constructor
    · have : (10 : ℝ) ^ 5 * (1 / 2 ^ 52) + 101000 * (1 / 2 ^ 52) ≤ 1 / 2 ^ 34 := by norm_num
      linarith [g1.1, g2.1]
    · have : (10 : ℝ) ^ 5 * (1 / 2 ^ 52) + 101000 * (1 / 2 ^ 52) ≤ 1 / 2 ^ 34 := by norm_num
      linarith [g1.2, g2.2]

/-- **C136.** The gamma SPEI in IEEE float64 arithmetic, for precipitation up to 10^5 and evapotranspiration up to 999 mm per step: every step's water balance plus 1000 is
positive and correct up to 2^-34; and the index of every step with an accumulation is, as in C135, the clamped quantile of a probability next to the one of the gamma
distribution with Thom's estimates for the accumulated balances of the calibration years, up to the stated errors. There are no zeros, so the share of zeros does not occur. -/
theorem C136_spei (E : Ext (B64 σ)) (hE : ExtNan E) (hA : Accurate E) (G : ℝ → ℝ → ℝ → ℝ) (Φ : ℝ → ℝ) (η δ : ℝ) (hI : IndexNear E G Φ η δ)
    (p e : List (B64 σ)) (hpr : ∀ v ∈ p, Precip v) (hev : ∀ v ∈ e, Evap v) (hlen : p.length = e.length) (k : ℕ) (h1 : 1 ≤ k) (h2 : k ≤ p.length) (per : Periodicity)
    (hper : per ≠ .other) (ds cs ce : ℤ) (c1 : ds ≤ cs) (c2 : cs ≤ ce) (c3 : ce < ds + yearsOf p.length per.steps)
    (b : List (B64 σ)) (hb : b = List.zipWith (fun x y => x - y + lit 1000) p e) (hsome : ∃ v ∈ b, isNan v = false) (acc : List (B64 σ)) (hacc : sumToScale b k = .ok acc)
    (m : ℕ) (hm : (m : ℤ) = ce - cs + 1) (hxl : p.length ≤ 2 ^ 40) :
    (∀ (i : ℕ) (x y : B64 σ) (u v : ℚ), p[i]? = some x → e[i]? = some y → ext x = .fin u → ext y = .fin v →
      ∃ (z : B64 σ) (c : ℚ), b[i]? = some z ∧ ext z = .fin c ∧ 1 ≤ c ∧ |(c : ℝ) - (u - v + 1000)| ≤ 1 / 2 ^ 34) ∧
    ∃ out, spei E (Arr.of1d p) (Arr.of1d e) k .gamma per ds cs ce none = .ok out ∧ out.data.length = p.length ∧
      ∀ (t : ℕ) (v : ℝ), (acc.map real64)[t]? = some (some v) → ∀ (s : List ℝ),
        s = sample (acc.map real64) 1 per.steps (t % per.steps) (cs - ds).toNat m →
        ∀ (L : ℚ) (ε : ℝ), 1 ≤ L → L ≤ 1000 → (∀ a ∈ s, |Real.log a| ≤ L) → ε = (L + 1) * (m + 7) / 2 ^ 51 → 8 * ε ≤ gap s →
        ∃ (w : B64 σ) (z α β P : ℝ), out.data[t]? = some w ∧ (∃ zq : ℚ, ext w = .fin zq ∧ z = zq) ∧
          |α - shape s| ≤ shape s * (2 * (ε / gap s) + 1 / 2 ^ 48) ∧ |β - scale s| ≤ scale s * (4 * (ε / gap s) + (m + 2) / 2 ^ 51 + 1 / 2 ^ 47) ∧
          0 ≤ P ∧ P ≤ 1 ∧ |P - G v α β| ≤ η + 3 / 2 ^ 51 ∧
          (0 < P → P < 1 → |z - clamp (Φ P)| ≤ δ + 1 / 2 ^ 50) ∧ (P = 0 → |z - -3.09| ≤ 1 / 2 ^ 50) ∧ (P = 1 → |z - 3.09| ≤ 1 / 2 ^ 50) := by
  have hbl : b.length = p.length := by rw [hb, List.length_zipWith]; omega
  have hbv : ∀ (i : ℕ) (x y : B64 σ) (u v : ℚ), p[i]? = some x → e[i]? = some y → ext x = .fin u → ext y = .fin v →
      ∃ (z : B64 σ) (c : ℚ), b[i]? = some z ∧ ext z = .fin c ∧ 1 ≤ c ∧ c ≤ 101000 ∧ |(c : ℝ) - (u - v + 1000)| ≤ 1 / 2 ^ 34 := by
    intro i x y u v hx hy hu hv
    rcases hpr x (List.mem_of_getElem? hx) with rfl | ⟨u', hu', u0, u1⟩
    · cases hu
    rcases hev y (List.mem_of_getElem? hy) with rfl | ⟨v', hv', v0, v1⟩
    · cases hv
    rw [hu] at hu'
    rw [hv] at hv'
    cases hu'
    cases hv'
    obtain ⟨c, hc, g1, g2, g3⟩ := balance_near hu hv u0 u1 v0 v1
    refine ⟨_, c, ?_, hc, g1, g2, g3⟩
    rw [hb, List.getElem?_zipWith, hx, hy]
  have hb1 : ∀ z ∈ b, z = .nan ∨ ∃ c, ext z = .fin c ∧ 1 ≤ c ∧ c ≤ 101000 := by
    intro z hz
    obtain ⟨i, hi⟩ := List.mem_iff_getElem?.1 hz
    have hip : i < p.length := by rw [← hbl]; exact (List.getElem?_eq_some_iff.1 hi).1
    have hx := List.getElem?_eq_getElem hip
    have hy := List.getElem?_eq_getElem (show i < e.length by omega)
    rcases hpr _ (List.getElem_mem hip) with hn | ⟨u, hu, _⟩
    · left
      rw [hb, List.getElem?_zipWith, hx, hy, hn] at hi
      simp only [Option.some.injEq] at hi
      rw [← hi]; rfl
    rcases hev _ (List.getElem_mem (show i < e.length by omega)) with hn | ⟨v, hv, _⟩
    · left
      rw [hb, List.getElem?_zipWith, hx, hy, hn] at hi
      simp only [Option.some.injEq] at hi
      rw [← hi]
      generalize p[i] = w
      cases w <;> rfl
    obtain ⟨z', c, hz', hc, g1, g2, _⟩ := hbv i _ _ u v hx hy hu hv
    rw [hi] at hz'
    cases hz'
    exact Or.inr ⟨c, hc, g1, g2⟩
  have hbA : ∀ z ∈ b, StepAmount z := by
    intro z hz
    rcases hb1 z hz with h | ⟨c, hc, g1, g2⟩
    · exact Or.inl h
    · exact Or.inr ⟨c, hc, Or.inr (le_trans (by norm_num) g1), g2.trans (by norm_num)⟩
  refine ⟨fun i x y u v hx hy hu hv => ?_, ?_⟩
  · obtain ⟨z, c, g1, g2, g3, _, g4⟩ := hbv i x y u v hx hy hu hv
    exact ⟨z, c, g1, g2, g3, g4⟩
  have hspei := C89_partial E (Arr.of1d p) (Arr.of1d e) k .gamma per ds cs ce none hlen (by
      intro v hv
      rcases hpr v hv with rfl | ⟨q, hq, q0, _⟩
      · rfl
      · rw [flt_ext hq ext_lit_zero, decide_eq_false_iff_not, not_lt]; exact q0) (by
      intro v hv
      have hv : v ∈ b := by rw [hb]; exact hv
      rcases hb1 v hv with rfl | ⟨c, hc, g1, _⟩
      · rfl
      · rw [flt_ext hc ext_lit_zero, decide_eq_false_iff_not, not_lt]; linarith) (by
      obtain ⟨v, hv, h⟩ := hsome
      rw [hb] at hv
      exact ⟨v, hv, h⟩) hper
  have hbal : balance (Arr.of1d p).data (Arr.of1d e).data = b := hb.symm
  rw [hbal] at hspei
  obtain ⟨o, ho, hol, hval⟩ := C135_spi E hE hA G Φ η δ hI b hbA k h1 (by rw [hbl]; exact h2) per hper ds cs ce c1 c2 (by rw [hbl]; exact c3) hsome acc hacc m hm
    (by rw [hbl]; exact hxl)
  refine ⟨Arr.of1d o, ?_, by rw [← hbl]; exact hol, ?_⟩
  · rw [hspei]
    show Except.map Arr.of1d (spi E (Arr.of1d b) k .gamma ds cs ce per none) = _
    rw [ho]; rfl
  -- there are no zeros
  have hposacc : ∀ (i : ℕ) (v : ℝ), accum (acc.map real64) 1 i = some v → 0 < v := by
    intro i v hv
    rw [accum_real, List.getD_eq_getElem?_getD] at hv
    cases hi : acc[i]? with
    | none => rw [hi] at hv; cases hv
    | some w =>
      rw [hi] at hv
      have hnear : List.Forall₂ (Near 0 1 101000) b (b.map ext) := by
        rw [List.forall₂_map_right_iff, List.forall₂_same]
        intro z hz
        rcases hb1 z hz with rfl | ⟨c, hc, g1, g2⟩
        · exact Or.inl ⟨rfl, rfl⟩
        · exact Or.inr ⟨c, c, hc, hc, Close.refl (by linarith), Or.inr g1, g2⟩
      have hw := scale_near hnear (by norm_num)
        (le_trans (by norm_num : (2 : ℚ) ^ 40 * 101000 ≤ 2 ^ (60 : ℤ)) (zpow_le_zpow_right₀ (by norm_num) (by norm_num))) k h1 (h2.trans hxl) (by rw [hbl]; exact h2)
        (fun y => y = .nan ∨ ∃ c : ℚ, y = .fin c ∧ 1 ≤ c) (by
          intro y hy
          obtain ⟨z, hz, rfl⟩ := List.mem_map.1 hy
          rcases hb1 z hz with rfl | ⟨c, hc, g1, _⟩
          · exact Or.inl rfl
          · exact Or.inr ⟨c, hc, g1⟩) (Or.inl rfl) (fun l hl h => fsum_ge_one l hl h) acc hacc w (List.mem_of_getElem? hi)
      obtain ⟨y, hy | ⟨a, c, ha, hc, hcl, _, _⟩, hQ⟩ := hw
      · rw [hy.1] at hv; cases hv
      · have hc1 : 1 ≤ c := by
          rcases hQ with hQ | ⟨d, hd, h3⟩
          · rw [hQ] at hc; cases hc
          · rw [hd] at hc; cases hc; exact h3
        have ha0 : a ≠ 0 := fun h => by have := hcl.eq_zero.1 h; linarith
        have he := hcl.error (by have := h2.trans hxl; omega)
        have hkq : (k : ℚ) ≤ 2 ^ 40 := by exact_mod_cast h2.trans hxl
        have hu : 2 * (k : ℚ) * unit ≤ 1 / 2 := by
          unfold unit
          have : 2 * (k : ℚ) * (1 / 2 ^ 53) ≤ 2 * 2 ^ 40 * (1 / 2 ^ 53) := by gcongr
          exact this.trans (by norm_num)
        have he' := (abs_le.1 (he.trans (mul_le_mul_of_nonneg_left hu (by linarith)))).1
        have hapos : 0 < a := by linarith
        rw [Option.getD_some, real64_fin ha] at hv
        cases hv
        exact_mod_cast hapos
  have hwetall : ∀ (j a n : ℕ), wet (sample (acc.map real64) 1 per.steps j a n) = sample (acc.map real64) 1 per.steps j a n := by
    intro j a n
    unfold wet
    rw [List.filter_eq_self]
    intro u hu
    obtain ⟨i, _, hi⟩ := List.mem_filterMap.1 hu
    simpa using hposacc _ _ hi
  have hdry : ∀ (j a n : ℕ), dry (sample (acc.map real64) 1 per.steps j a n) = 0 := by
    intro j a n
    unfold dry
    rw [List.countP_eq_zero]
    intro u hu
    obtain ⟨i, _, hi⟩ := List.mem_filterMap.1 hu
    simpa using (hposacc _ _ hi).ne'
  intro t v hv s hs L ε hL1 hL2 hL hε hgap
  have hv0 : 0 < v := hposacc t v (by rw [accum_one, hv]; rfl)
  obtain ⟨w, z, α, β, P, g1, g2, g3, g4, g5, g6, g7, g8⟩ := hval t v hv hv0 _ s 0 rfl (by rw [hwetall]; exact hs) (by rw [hdry]; simp) L ε hL1 hL2 hL hε hgap
  refine ⟨w, z, α, β, P, g1, g2, g3, g4, g5, g6, ?_, g8⟩
  rwa [zero_add, sub_zero, one_mul] at g7

/-! ## The hypotheses hold for some libraries and data -/

theorem near_cdf {v b : ℚ} (hv : 0 < v) (hb : 0 < b) : ∃ (y : B64 leftToRight) (g : ℚ), ext y = .fin g ∧ 0 ≤ g ∧ g ≤ 1 ∧ |(g : ℝ) - (v : ℝ) / (v + b)| ≤ 1 / 2 ^ 50 := by
  have hv' : (0 : ℝ) < v := by exact_mod_cast hv
  have hb' : (0 : ℝ) < b := by exact_mod_cast hb
  refine clamp_exists rnd_zero rnd_one (by norm_num) (by norm_num) (by norm_num) ?_ ?_
  · rw [Rat.cast_zero]; positivity
  · rw [Rat.cast_one]
    have : (v : ℝ) / (v + b) ≤ 1 := by rw [div_le_one (by positivity)]; linarith
    have h2 : (0 : ℝ) ≤ 1 / 2 ^ 52 := by positivity
    linarith

theorem near_ppf {p : ℚ} (h0 : 0 < p) (h1 : p < 1) : ∃ (y : B64 leftToRight) (r : ℚ), ext y = .fin r ∧ |(r : ℝ) - (6 * p - 3)| ≤ 1 / 2 ^ 50 := by
  have h0' : (0 : ℝ) < p := by exact_mod_cast h0
  have h1' : (p : ℝ) < 1 := by exact_mod_cast h1
  have e3 : rnd 3 = 3 := by decide +kernel
  obtain ⟨y, r, hy, _, _, hr⟩ := clamp_exists (r := 6 * p - 3) (lo := -3) (hi := 3) (by rw [rnd_neg, e3]) e3 (by norm_num) (by norm_num) (by norm_num)
    (by push_cast; linarith) (by push_cast; have h2 : (0 : ℝ) ≤ 1 / 2 ^ 52 := by positivity
                                 linarith)
  exact ⟨y, r, hy, hr⟩

open Classical in
/-- `nearExt` with the distribution function x / (x + scale) and a linear quantile, both rounded, infinite at 0 and 1 -/
noncomputable def nearIndex : Ext (B64 leftToRight) := { nearExt with
  gammaCdf := fun x a b => match ext x, ext a, ext b with
    | .fin v, .fin _, .fin s => if h : 0 < v ∧ 0 < s then (near_cdf h.1 h.2).choose else nan
    | _, _, _ => nan
  normPpf := fun x => match ext x with
    | .fin p => if p = 0 then inf true else if p = 1 then inf false else if h : 0 < p ∧ p < 1 then (near_ppf h.1 h.2).choose else nan
    | _ => nan }

theorem nearIndex_near : IndexNear nearIndex (fun v _ b => v / (v + b)) (fun p => 6 * p - 3) (1 / 2 ^ 50) (1 / 2 ^ 50) := by
  refine ⟨?_, ?_, ?_, ?_⟩
  · intro x a b v α β hx ha hb hv _ hβ
    obtain ⟨g, hg, g0, g1, hge⟩ := (near_cdf hv hβ).choose_spec
    refine ⟨g, ?_, g0, g1, hge⟩
    show ext (match ext x, ext a, ext b with
      | .fin v, .fin _, .fin s => if h : 0 < v ∧ 0 < s then (near_cdf h.1 h.2).choose else nan
      | _, _, _ => nan) = _
    rw [hx, ha, hb]
    simp only
    rw [dif_pos ⟨hv, hβ⟩]
    exact hg
  · intro x p hx h0 h1
    obtain ⟨r, hr, hre⟩ := (near_ppf h0 h1).choose_spec
    refine ⟨r, ?_, hre⟩
    show ext (match ext x with
      | .fin p => if p = 0 then inf true else if p = 1 then inf false else if h : 0 < p ∧ p < 1 then (near_ppf h.1 h.2).choose else nan
      | _ => nan) = _
    rw [hx]
    simp only
    rw [if_neg h0.ne', if_neg h1.ne, dif_pos ⟨h0, h1⟩]
    exact hr
  · intro x hx
    show (match ext x with
      | .fin p => if p = 0 then inf true else if p = 1 then inf false else if h : 0 < p ∧ p < 1 then (near_ppf h.1 h.2).choose else nan
      | _ => nan) = _
    rw [hx]
    simp
  · intro x hx
    show (match ext x with
      | .fin p => if p = 0 then inf true else if p = 1 then inf false else if h : 0 < p ∧ p < 1 then (near_ppf h.1 h.2).choose else nan
      | _ => nan) = _
    rw [hx]
    simp

theorem nearIndex_nan : ExtNan nearIndex where
  log_nan := nearExt_nan.log_nan
  gammaCdf_nan := fun _ _ => rfl
  gammaCdf_nan_shape := by
    intro x s
    show (match ext x, (Fl.nan : Fl ℚ), ext s with
      | .fin v, .fin _, .fin s => if h : 0 < v ∧ 0 < s then (near_cdf h.1 h.2).choose else nan
      | _, _, _ => nan) = _
    cases ext x <;> rfl
  pearson3Cdf_nan := nearExt_nan.pearson3Cdf_nan
  normPpf_nan := rfl

/-- the hypotheses of `C135_spi` hold for the five years of `fiveYears64` and January 2003 -/
example : ExtNan nearIndex ∧ Accurate nearIndex ∧ IndexNear nearIndex (fun v _ b => v / (v + b)) (fun p => 6 * p - 3) (1 / 2 ^ 50) (1 / 2 ^ 50) ∧
    (∀ v ∈ fiveYears64, StepAmount v) ∧ sumToScale fiveYears64 1 = .ok fiveYears64 ∧ (2004 : ℤ) < 2000 + yearsOf fiveYears64.length 12 ∧ (∃ v ∈ fiveYears64, isNan v = false) ∧
    (fiveYears64.map real64)[36]? = some (some 8) ∧
    ∃ s, s = wet (sample (fiveYears64.map real64) 1 12 (36 % 12) 0 5) ∧ (∀ a ∈ s, |Real.log a| ≤ (3 : ℚ)) ∧ 8 * (((3 : ℚ) + 1) * ((5 : ℕ) + 7) / 2 ^ 51 : ℝ) ≤ gap s := by
  have l2 := Real.log_two_lt_d9
  have l2' := Real.log_two_gt_d9
  have e4 : Real.log 4 = 2 * Real.log 2 := by rw [show (4 : ℝ) = 2 ^ 2 by norm_num, Real.log_pow]; norm_num
  have e8 : Real.log 8 = 3 * Real.log 2 := by rw [show (8 : ℝ) = 2 ^ 3 by norm_num, Real.log_pow]; norm_num
  have e16 : Real.log 16 = 4 * Real.log 2 := by rw [show (16 : ℝ) = 2 ^ 4 by norm_num, Real.log_pow]; norm_num
  have hwet : wet (sample (fiveYears64.map real64) 1 12 (36 % 12) 0 5) = ([1, 2, 4, 8, 16] : List ℚ).map (fun q : ℚ => (q : ℝ)) := by
    unfold sample
    simp only [accum_real]
    rw [← realAmounts_wet (fun y => fiveYears64.getD ((0 + y) * 12 + 36 % 12) B64.nan)]
    unfold realAmounts
    rw [show amounts ((List.range 5).map (fun y => fiveYears64.getD ((0 + y) * 12 + 36 % 12) B64.nan)) = [1, 2, 4, 8, 16] by decide +kernel]
  refine ⟨nearIndex_nan, ⟨nearExt_accurate.log, nearExt_accurate.sqrt⟩, nearIndex_near, ?_, rfl, by decide +kernel, ⟨lit 1, List.mem_cons_self, by decide +kernel⟩, ?_, _, rfl, ?_, ?_⟩
  · have hall : fiveYears64.all (fun v => match ext v with
      | .fin q => decide ((q = 0 ∨ 1 / 10 ^ 50 ≤ q) ∧ q ≤ 10 ^ 50)
      | _ => false) = true := by decide +kernel
    intro v hv
    have := List.all_eq_true.1 hall v hv
    right
    cases hx : ext v with
    | fin q => rw [hx] at this; exact ⟨q, rfl, of_decide_eq_true this⟩
    | _ => rw [hx] at this; cases this
  · rw [List.getElem?_map, show fiveYears64[36]? = some (lit 8) from rfl, Option.map_some, real64_fin (show ext (lit 8 : B64 leftToRight) = .fin 8 by decide +kernel)]
    norm_num
  · rw [hwet]
    intro x hx
    simp only [List.map_cons, List.map_nil, List.mem_cons, List.not_mem_nil, or_false] at hx
    push_cast at hx ⊢
    rw [abs_le]
    rcases hx with rfl | rfl | rfl | rfl | rfl
    · rw [Real.log_one]; norm_num
    · constructor <;> linarith
    · rw [e4]; constructor <;> linarith
    · rw [e8]; constructor <;> linarith
    · rw [e16]; constructor <;> linarith
  · rw [hwet]
    unfold Spec.McKee.gap Spec.McKee.mean
    simp only [List.map_cons, List.map_nil, List.sum_cons, List.sum_nil, List.length_cons, List.length_nil]
    push_cast
    rw [Real.log_one, e4, e8, e16]
    have h1 : Real.log 6 ≤ Real.log ((1 + (2 + (4 + (8 + (16 + 0))))) / (0 + 1 + 1 + 1 + 1 + 1)) := Real.log_le_log (by norm_num) (by norm_num)
    have h2 : Real.log 6 = Real.log 4 + Real.log (3 / 2) := by rw [← Real.log_mul (by norm_num) (by norm_num)]; norm_num
    have h3 := Real.one_sub_inv_le_log_of_pos (show (0 : ℝ) < 3 / 2 by norm_num)
    rw [h2, e4] at h1
    norm_num at h1 h3 ⊢
    linarith

/-- five years of precipitation with 100, 1100, 3100, 7100 and 15100 mm in January and 100 mm in the other months -/
def fiveRain64 : List (B64 leftToRight) := [100, 1100, 3100, 7100, 15100].flatMap fun v => lit v :: List.replicate 11 (lit 100)

/-- an evapotranspiration of 100 mm, missing in the last month -/
def fiveEvap64 : List (B64 leftToRight) := List.replicate 59 (lit 100) ++ [nan]

/-- the hypotheses of `C136_spei` hold for that record, calibrated on all five years, in January of the fourth -/
example : (∀ v ∈ fiveRain64, Precip v) ∧ (∀ v ∈ fiveEvap64, Evap v) ∧ fiveRain64.length = fiveEvap64.length ∧ (2004 : ℤ) < 2000 + yearsOf fiveRain64.length 12 ∧
    ∃ b acc : List (B64 leftToRight), b = List.zipWith (fun x y => x - y + lit 1000) fiveRain64 fiveEvap64 ∧ (∃ v ∈ b, isNan v = false) ∧ sumToScale b 1 = .ok acc ∧
    (acc.map real64)[36]? = some (some 8000) ∧
    ∃ s, s = sample (acc.map real64) 1 12 (36 % 12) 0 5 ∧ (∀ a ∈ s, |Real.log a| ≤ (10 : ℚ)) ∧ 8 * (((10 : ℚ) + 1) * ((5 : ℕ) + 7) / 2 ^ 51 : ℝ) ≤ gap s := by
  have l2 := Real.log_two_lt_d9
  have l2' := Real.log_two_gt_d9
  have hs : sample ((List.zipWith (fun x y => x - y + lit 1000) fiveRain64 fiveEvap64).map real64) 1 12 (36 % 12) 0 5 = ([1000, 2000, 4000, 8000, 16000] : List ℚ).map (fun q : ℚ => (q : ℝ)) := by
    unfold sample
    simp only [accum_real]
    have h : ∀ (is : List ℕ) (qs : List ℚ), is.map (fun y => ext ((List.zipWith (fun x y => x - y + lit 1000) fiveRain64 fiveEvap64).getD ((0 + y) * 12 + 36 % 12) B64.nan)) = qs.map Fl.fin →
        is.filterMap (fun y => real64 ((List.zipWith (fun x y => x - y + lit 1000) fiveRain64 fiveEvap64).getD ((0 + y) * 12 + 36 % 12) B64.nan)) = qs.map (fun q : ℚ => (q : ℝ)) := by
      intro is
      induction is with
      | nil => intro qs h; cases qs with
        | nil => rfl
        | cons q qs => cases h
      | cons i is ih =>
        intro qs h
        cases qs with
        | nil => cases h
        | cons q qs =>
          rw [List.map_cons, List.map_cons, List.cons.injEq] at h
          have h3 := real64_fin h.1
          rw [List.filterMap_cons, h3, List.map_cons]
          exact congrArg _ (ih qs h.2)
    exact h _ _ (by decide +kernel)
  have e1 : ∀ {a : ℝ}, 1 ≤ a → a ≤ 2 ^ 14 → |Real.log a| ≤ ((10 : ℚ) : ℝ) := by
    intro a h1 h2
    rw [abs_of_nonneg (Real.log_nonneg h1)]
    have := Real.log_le_log (by linarith) h2
    rw [Real.log_pow] at this
    push_cast at this ⊢
    linarith
  refine ⟨?_, ?_, by decide +kernel, by decide +kernel, _, _, rfl, ⟨lit 100 - lit 100 + lit 1000, List.mem_cons_self, by decide +kernel⟩, rfl, ?_, _, rfl, ?_, ?_⟩
  · have hall : fiveRain64.all (fun v => match ext v with
      | .fin q => decide (0 ≤ q ∧ q ≤ 10 ^ 5)
      | _ => false) = true := by decide +kernel
    intro v hv
    have := List.all_eq_true.1 hall v hv
    right
    cases hx : ext v with
    | fin q => rw [hx] at this; exact ⟨q, rfl, of_decide_eq_true this⟩
    | _ => rw [hx] at this; cases this
  · intro v hv
    rcases List.mem_append.1 hv with hv | hv
    · rw [(List.mem_replicate.1 hv).2]
      exact Or.inr ⟨100, by decide +kernel, by norm_num, by norm_num⟩
    · exact Or.inl (List.mem_singleton.1 hv)
  · rw [List.getElem?_map, show (List.zipWith (fun x y => x - y + lit 1000) fiveRain64 fiveEvap64)[36]? = some (lit 7100 - lit 100 + lit 1000) from rfl, Option.map_some,
      real64_fin (show ext (lit 7100 - lit 100 + lit 1000 : B64 leftToRight) = .fin 8000 by decide +kernel)]
    norm_num
  · rw [hs]
    intro x hx
    simp only [List.map_cons, List.map_nil, List.mem_cons, List.not_mem_nil, or_false] at hx
    push_cast at hx
    rcases hx with rfl | rfl | rfl | rfl | rfl <;> exact e1 (by norm_num) (by norm_num)
  · rw [hs]
    unfold Spec.McKee.gap Spec.McKee.mean
    simp only [List.map_cons, List.map_nil, List.sum_cons, List.sum_nil, List.length_cons, List.length_nil]
    push_cast
    have f : ∀ n : ℕ, Real.log (1000 * 2 ^ n) = Real.log 1000 + n * Real.log 2 := by
      intro n
      rw [Real.log_mul (by norm_num) (by positivity), Real.log_pow]
    have f1 := f 1
    have f2 := f 2
    have f3 := f 3
    have f4 := f 4
    norm_num at f1 f2 f3 f4
    rw [f1, f2, f3, f4]
    have h1 : Real.log 6000 ≤ Real.log ((1000 + (2000 + (4000 + (8000 + (16000 + 0))))) / (0 + 1 + 1 + 1 + 1 + 1)) := Real.log_le_log (by norm_num) (by norm_num)
    have h2 : Real.log 6000 = Real.log 4000 + Real.log (3 / 2) := by rw [← Real.log_mul (by norm_num) (by norm_num)]; norm_num
    have h3 := Real.one_sub_inv_le_log_of_pos (show (0 : ℝ) < 3 / 2 by norm_num)
    rw [h2, f2] at h1
    norm_num at h1 h3 ⊢
    linarith

end CI.Props
