import Verif.Model.Stats
import Verif.Spec.Ext
import Verif.Spec.RealExt
import Mathlib.Tactic.Ring

/-!
# C57, C59: coordinate tolerance and root mean square error

C57 holds for every float type; C59 is about exact arithmetic over the real numbers.
-/

namespace CI.Props

section
variable {F : Type} [FloatOps F] [FloatLaws F]

theorem minFold_le (l : List F) (m : F) (hm : m ≠ nan) (hn : ∀ v ∈ l, v ≠ nan) :
    let r := l.foldl (fun m y => if flt y m then y else m) m
    fle r m = true ∧ (∀ v ∈ l, fle r v = true) ∧ (r = m ∨ r ∈ l) := by
  induction l generalizing m with
  | nil => exact ⟨FloatLaws.fle_refl m hm, by simp, Or.inl rfl⟩
  | cons a l ih =>
    have ha := hn a (by simp)
    have hl : ∀ v ∈ l, v ≠ nan := fun v hv => hn v (List.mem_cons_of_mem _ hv)
    rw [List.foldl_cons]
    by_cases h : flt a m = true
    · rw [if_pos h]
      obtain ⟨h1, h2, h3⟩ := ih a ha hl
      refine ⟨FloatLaws.fle_trans _ _ _ h1 (fle_of_flt h), ?_, ?_⟩
      · intro v hv
        rcases List.mem_cons.1 hv with rfl | hv
        · exact h1
        · exact h2 v hv
      · right
        rcases h3 with h3 | h3
        · rw [h3]; simp
        · exact List.mem_cons_of_mem _ h3
    · rw [if_neg h]
      obtain ⟨h1, h2, h3⟩ := ih m hm hl
      refine ⟨h1, ?_, ?_⟩
      · intro v hv
        rcases List.mem_cons.1 hv with rfl | hv
        · exact FloatLaws.fle_trans _ _ _ h1 (fle_of_not_flt ha hm (by simpa using h))
        · exact h2 v hv
      · rcases h3 with h3 | h3
        · left; exact h3
        · right; exact List.mem_cons_of_mem _ h3

theorem amin_min (l : List F) (hl : l ≠ []) (hn : ∀ v ∈ l, v ≠ nan) :
    ∃ m ∈ l, amin l = .ok m ∧ ∀ v ∈ l, fle m v = true := by
  obtain ⟨x, xs, rfl⟩ := List.exists_cons_of_ne_nil hl
  have hx := hn x (by simp)
  obtain ⟨h1, h2, h3⟩ := minFold_le xs x hx (fun v hv => hn v (List.mem_cons_of_mem _ hv))
  have hany : (x :: xs).any isNan = false := by
    rw [List.any_eq_false]
    intro v hv
    rw [Bool.not_eq_true, isNan_eq_false_iff]; exact hn v hv
  refine ⟨_, ?_, by unfold amin; simp only [hany, Bool.false_eq_true, if_false]; rfl, ?_⟩
  · rcases h3 with h3 | h3
    · rw [h3]; simp
    · exact List.mem_cons_of_mem _ h3
  · intro v hv
    rcases List.mem_cons.1 hv with rfl | hv
    · exact h1
    · exact h2 v hv

omit [FloatLaws F] in
theorem npDiff_getElem? (l : List F) (i : Nat) (a b : F) (ha : l[i]? = some a) (hb : l[i + 1]? = some b) :
    (npDiff l)[i]? = some (b - a) := by
  induction l generalizing i with
  | nil => simp at ha
  | cons x l ih =>
    cases l with
    | nil => simp at hb
    | cons y l =>
      cases i with
      | zero => simp_all [npDiff]
      | succ i =>
        rw [npDiff, List.getElem?_cons_succ]
        exact ih i (by simpa using ha) (by simpa using hb)

/-- **C57 (partial).** Full statement: for every coordinate axis, including axes with a single point. Proved for axes of at
least two points whose spacings are numbers: the tolerance is positive, and it is at most a tenth of every
spacing, or it is the floating point resolution 1e-15. On a one-point axis the function raises (`C57_fails`). -/
theorem C57_partial [FloatMono F] (dim : List F) (h2 : 2 ≤ dim.length)
    (hn : ∀ v ∈ npDiff dim, fabs v / lit 10 ≠ nan) :
    ∃ tol, getTolerance dim = .ok tol ∧ flt (lit 0) tol = true ∧
      (tol = lit 1e-15 ∨
        ∀ i a b, dim[i]? = some a → dim[i + 1]? = some b → fle tol (fabs (b - a) / lit 10) = true) := by
  have hne : (npDiff dim).map fabs ≠ [] := by
    match dim, h2 with
    | a :: b :: l, _ => simp [npDiff]
  have habs : ∀ v ∈ (npDiff dim).map fabs, v ≠ nan ∧ v / lit 10 ≠ nan := by
    intro v hv
    obtain ⟨w, hw, rfl⟩ := List.mem_map.1 hv
    refine ⟨?_, hn w hw⟩
    intro hc
    exact hn w hw (by rw [hc]; simp)
  obtain ⟨m, hm, hok, hmin⟩ := amin_min _ hne (fun v hv => (habs v hv).1)
  have hm10 := (habs m hm).2
  have hpos : flt (lit 0 : F) (lit 1e-15) = true := FloatLaws.lit_pos _ (by norm_num)
  unfold getTolerance
  simp only [hok, bind, Except.bind, pure, Except.pure]
  refine ⟨_, rfl, ?_, ?_⟩
  · split
    · exact hpos
    · rename_i h
      exact flt_of_flt_of_fle hpos (fle_of_not_flt hm10 (FloatLaws.lit_ne_nan _) (by simpa using h))
  · split
    · left; rfl
    · right
      intro i a b ha hb
      have hmem : fabs (b - a) ∈ (npDiff dim).map fabs :=
        List.mem_map.2 ⟨_, List.mem_of_getElem? (npDiff_getElem? dim i a b ha hb), rfl⟩
      exact FloatMono.div_le_div_right _ _ _ (hmin _ hmem) (FloatLaws.lit_pos _ (by norm_num)) hm10 (habs _ hmem).2

omit [FloatLaws F] in
/-- **C57 is false for an axis with a single point** (a one-row grid): ValueError. -/
theorem C57_fails (a : F) : getTolerance [a] = .error .valueError := rfl

example : okAnd (getTolerance [Fl.fin (10 : ℚ), .fin 7, .fin (11 / 2)]) (fun t => decide (t = .fin (3 / 20))) = true ∧
    okAnd (getTolerance [Fl.fin (10 : ℚ), .fin 10]) (fun t => decide (t = .fin 1e-15)) = true := by decide +kernel

end

/-! ## C59 -/

/-- sum of the squared differences -/
def sqDist (a b : List ℝ) : ℝ := (List.zipWith (fun x y => (x - y) ^ 2) a b).sum

theorem rmse_eq (E : Ext (Fl ℝ)) (hE : ExtReal E) (a b : List ℝ) (hl : a.length = b.length) (hn : a ≠ []) :
    rmse E (a.map Fl.fin) (b.map Fl.fin) = .ok (.fin (Real.sqrt (sqDist a b / a.length))) := by
  have hz : List.zipWith (fun x y => (x - y) * (x - y)) (a.map Fl.fin) (b.map Fl.fin) =
      (List.zipWith (fun x y => (x - y) ^ 2) a b).map Fl.fin := by
    rw [List.zipWith_map, List.map_zipWith]
    congr 1
    funext x y
    simp [pow_two]
  have hlen : (List.zipWith (fun x y : ℝ => (x - y) ^ 2) a b).length = a.length := by simp [hl]
  have hpos : (0 : ℝ) < a.length := by
    have := List.length_pos_iff.2 hn
    exact_mod_cast this
  have hnn : ∀ a b : List ℝ, 0 ≤ sqDist a b := by
    intro a b
    apply List.sum_nonneg
    intro v hv
    rw [List.mem_iff_getElem?] at hv
    obtain ⟨i, hi⟩ := hv
    rw [List.getElem?_zipWith_eq_some] at hi
    obtain ⟨x, y, _, _, rfl⟩ := hi
    positivity
  unfold rmse broadcast2
  simp only [List.length_map, hl, if_true, hz, bind, Except.bind, pure, Except.pure, Fl.fsum_fin, Fl.lit_def]
  rw [hlen, ← hl]
  have : (((a.length : ℕ) : ℚ) : ℝ) = (a.length : ℝ) := by norm_cast
  rw [this, Fl.fin_div_of_ne _ _ (ne_of_gt hpos)]
  exact congrArg _ (hE.sqrt_nonneg _ (div_nonneg (hnn a b) hpos.le))

theorem sqDist_nil : sqDist [] [] = 0 := rfl
theorem sqDist_cons (x y : ℝ) (a b : List ℝ) : sqDist (x :: a) (y :: b) = (x - y) ^ 2 + sqDist a b := by
  simp [sqDist]

theorem sqDist_nonneg (a b : List ℝ) : 0 ≤ sqDist a b := by
  induction a generalizing b with
  | nil => simp [sqDist]
  | cons x a ih =>
    cases b with
    | nil => simp [sqDist]
    | cons y b => rw [sqDist_cons]; have := ih b; positivity

theorem sqDist_symm (a b : List ℝ) : sqDist a b = sqDist b a := by
  induction a generalizing b with
  | nil => cases b <;> simp [sqDist]
  | cons x a ih =>
    cases b with
    | nil => simp [sqDist]
    | cons y b => rw [sqDist_cons, sqDist_cons, ih]; ring

theorem sqDist_eq_zero (a b : List ℝ) (hl : a.length = b.length) : sqDist a b = 0 ↔ a = b := by
  induction a generalizing b with
  | nil => cases b <;> simp_all [sqDist]
  | cons x a ih =>
    cases b with
    | nil => simp at hl
    | cons y b =>
      rw [sqDist_cons, List.cons.injEq, ← ih b (by simpa using hl)]
      have h1 := sq_nonneg (x - y)
      have h2 := sqDist_nonneg a b
      constructor
      · intro h
        have h3 : (x - y) ^ 2 = 0 := by linarith
        have h4 : x - y = 0 := by simpa using h3
        exact ⟨by linarith, by linarith⟩
      · rintro ⟨rfl, h⟩; rw [h]; ring

theorem sqDist_triangle (a b c : List ℝ) (h1 : a.length = b.length) (h2 : b.length = c.length) :
    Real.sqrt (sqDist a c) ≤ Real.sqrt (sqDist a b) + Real.sqrt (sqDist b c) := by
  -- the mixed term t with t^2 <= D(a,b) D(b,c)
  have key : ∀ a b c : List ℝ, a.length = b.length → b.length = c.length →
      ∃ t, sqDist a c = sqDist a b + 2 * t + sqDist b c ∧ t ^ 2 ≤ sqDist a b * sqDist b c := by
    intro a
    induction a with
    | nil =>
      intro b c hb hc
      cases b <;> cases c <;> simp_all [sqDist]
    | cons x a ih =>
      intro b c hb hc
      cases b with
      | nil => simp at hb
      | cons y b =>
        cases c with
        | nil => simp at hc
        | cons z c =>
          obtain ⟨t, ht, hs⟩ := ih b c (by simpa using hb) (by simpa using hc)
          refine ⟨(x - y) * (y - z) + t, by simp only [sqDist_cons, ht]; ring, ?_⟩
          simp only [sqDist_cons]
          have p0 := sqDist_nonneg a b
          have q0 := sqDist_nonneg b c
          generalize sqDist a b = p at *
          generalize sqDist b c = q at *
          generalize x - y = u
          generalize y - z = v
          have hcross : 2 * u * v * t ≤ u ^ 2 * q + v ^ 2 * p := by
            apply (abs_le_of_sq_le_sq' _ (by positivity)).2
            have h3 : 0 ≤ (u * v) ^ 2 := sq_nonneg _
            have h4 : (u * v) ^ 2 * t ^ 2 ≤ (u * v) ^ 2 * (p * q) := mul_le_mul_of_nonneg_left hs h3
            nlinarith [sq_nonneg (u ^ 2 * q - v ^ 2 * p)]
          nlinarith
  obtain ⟨t, ht, hs⟩ := key a b c h1 h2
  have p0 := sqDist_nonneg a b
  have q0 := sqDist_nonneg b c
  rw [Real.sqrt_le_left (by positivity), ht]
  have hp := Real.sq_sqrt p0
  have hq := Real.sq_sqrt q0
  have : t ≤ Real.sqrt (sqDist a b) * Real.sqrt (sqDist b c) := by
    apply abs_le_of_sq_le_sq' _ (by positivity) |>.2
    rw [mul_pow, hp, hq]; exact hs
  nlinarith

/-- **C59.** On equally long non-empty arrays of numbers `rmse` is a distance: defined and non-negative, symmetric, zero
exactly for equal arrays, triangle inequality. -/
theorem C59_distance (E : Ext (Fl ℝ)) (hE : ExtReal E) (a b c : List ℝ) (hn : a ≠ []) (h1 : a.length = b.length)
    (h2 : b.length = c.length) :
    ∃ dab dba dbc dac : ℝ, rmse E (a.map Fl.fin) (b.map Fl.fin) = .ok (.fin dab) ∧
      rmse E (b.map Fl.fin) (a.map Fl.fin) = .ok (.fin dba) ∧ rmse E (b.map Fl.fin) (c.map Fl.fin) = .ok (.fin dbc) ∧
      rmse E (a.map Fl.fin) (c.map Fl.fin) = .ok (.fin dac) ∧
      0 ≤ dab ∧ dab = dba ∧ (dab = 0 ↔ a = b) ∧ dac ≤ dab + dbc := by
  have hb : b ≠ [] := by rintro rfl; simp at h1; exact hn h1
  have hpos : (0 : ℝ) < a.length := by
    have := List.length_pos_iff.2 hn
    exact_mod_cast this
  refine ⟨_, _, _, _, rmse_eq E hE a b h1 hn, rmse_eq E hE b a h1.symm hb, rmse_eq E hE b c h2 hb,
    rmse_eq E hE a c (h1.trans h2) hn, Real.sqrt_nonneg _, ?_, ?_, ?_⟩
  · rw [sqDist_symm, h1]
  · rw [Real.sqrt_eq_zero (div_nonneg (sqDist_nonneg a b) hpos.le), div_eq_zero_iff, sqDist_eq_zero a b h1]
    constructor
    · rintro (h | h)
      · exact h
      · exact absurd h (ne_of_gt hpos)
    · exact Or.inl
  · rw [← h1, Real.sqrt_div (sqDist_nonneg _ _), Real.sqrt_div (sqDist_nonneg _ _), Real.sqrt_div (sqDist_nonneg _ _),
      ← add_div]
    exact div_le_div_of_nonneg_right (sqDist_triangle a b c h1 h2) (Real.sqrt_nonneg _)

/-- **C59.** Arrays of different sizes (neither of size one) raise ValueError. -/
theorem C59_size {F : Type} [FloatOps F] (E : Ext F) (a b : List F) (h : a.length ≠ b.length) (ha : a.length ≠ 1)
    (hb : b.length ≠ 1) : rmse E a b = .error .valueError := by
  unfold rmse broadcast2
  rw [if_neg h]
  match a, b with
  | [], [_] => simp at hb
  | [_], _ => simp at ha
  | [], [] => simp at h
  | [], _ :: _ :: _ => rfl
  | _ :: _ :: _, [] => rfl
  | _ :: _ :: _, [_] => simp at hb
  | _ :: _ :: _, _ :: _ :: _ => rfl

/-- a concrete distance: between (1, 5) and (4, 1) it is the root of 25/2 -/
example : rmse realExt [.fin 1, .fin 5] [.fin 4, .fin 1] = .ok (.fin (Real.sqrt (25 / 2))) := by
  have := rmse_eq realExt realExt_real [1, 5] [4, 1] rfl (by simp)
  simp only [List.map_cons, List.map_nil] at this
  rw [this]
  norm_num [sqDist]

end CI.Props
