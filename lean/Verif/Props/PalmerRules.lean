import Verif.Props.PalmerSpell
import Verif.Props.PalmerPdsi
import Verif.Spec.PalmerRules

/-!
# Palmer's recursion, the beginning of spells and the bound of the indices (C80, C81)
-/

namespace CI.Props
open Fl Rules

section field
variable {K : Type} [Field K] [LinearOrder K] [IsStrictOrderedRing K]

/-- the indices of a month are numbers that follow those of the month before -/
def FollowsM (x1 x2 x3 z : K) (m : Month (Fl K)) : Prop :=
  ∃ y1 y2 y3, m.px1 = fin y1 ∧ m.px2 = fin y2 ∧ m.px3 = fin y3 ∧ Follows x1 x2 x3 z y1 y2 y3

theorem step_next (x z : K) : (lit 0.897 * fin x + fin z / lit 3 : Fl K) = fin (next x z) := by
  rw [step_fin]; unfold next; norm_num

theorem eval200_follows (x1 x2 x3 z : K) (ppr px3 pv : Fl K) (h : px3 = lit 0 ∨ px3 = fin (next x3 z)) :
    FollowsM x1 x2 x3 z (eval200 (fin x1) (fin x2) (fin z) ppr px3 pv) := by
  have h0 : (lit 0 : Fl K) = fin 0 := by rw [lit_def, Rat.cast_zero]
  have h1 : (lit 1 : Fl K) = fin 1 := by rw [lit_def]; norm_num
  have hm1 : (lit (-1) : Fl K) = fin (-1) := by rw [lit_def]; norm_num
  obtain ⟨y, rfl, hy⟩ : ∃ y, px3 = fin y ∧ (y = 0 ∨ y = next x3 z) := by
    rcases h with h | h
    · exact ⟨0, h.trans h0, Or.inl rfl⟩
    · exact ⟨_, h, Or.inr rfl⟩
  unfold eval200
  rw [step_next, step_next, h0, h1, hm1, pyMax_fin, pyMin_fin]
  simp only [fle_fin, feq_fin, Bool.and_eq_true, decide_eq_true_eq]
  have wet : ∀ {a : K}, (1 : K) ≤ max 0 a → max 0 a = a ∧ 1 ≤ a := by
    intro a ha
    rcases le_max_iff.1 ha with h | h
    · exact absurd h (by norm_num)
    · exact ⟨max_eq_right (by linarith), h⟩
  have dry : ∀ {a : K}, min 0 a ≤ (-1 : K) → min 0 a = a ∧ a ≤ -1 := by
    intro a ha
    rcases min_le_iff.1 ha with h | h
    · exact absurd h (by norm_num)
    · exact ⟨min_eq_right (by linarith), h⟩
  split
  · next hc =>
    obtain ⟨e, hle⟩ := wet hc.1
    exact ⟨_, _, _, rfl, rfl, rfl, by rw [e]; exact .wetBegins hle⟩
  · next hw =>
    split
    · next hc =>
      obtain ⟨e, hle⟩ := dry hc.1
      exact ⟨_, _, _, rfl, rfl, rfl, by rw [e]; exact .droughtBegins hle⟩
    · next hd =>
      have key : Follows x1 x2 x3 z (max 0 (next x1 z)) (min 0 (next x2 z)) y := by
        rcases hy with rfl | rfl
        · refine .nothing ?_ ?_
          · by_contra hc
            exact hw ⟨le_max_of_le_right (not_lt.1 hc), rfl⟩
          · by_contra hc
            exact hd ⟨min_le_of_right_le (not_lt.1 hc), rfl⟩
        · exact .maybeEnds
      split
      · exact ⟨_, _, _, rfl, rfl, rfl, key⟩
      · split <;> exact ⟨_, _, _, rfl, rfl, rfl, key⟩

theorem eval210_follows (x1 x2 x3 z : K) : FollowsM x1 x2 x3 z (eval210 (fin x3) (fin z)) := by
  have h0 : (lit 0 : Fl K) = fin 0 := by rw [lit_def, Rat.cast_zero]
  unfold eval210
  rw [step_next, h0]
  exact ⟨_, _, _, rfl, rfl, rfl, .goesOn⟩

theorem eval190_follows (v pro pv ze : Fl K) (x1 x2 x3 z : K) :
    FollowsM x1 x2 x3 z (eval190 v pro (fin x1) (fin x2) (fin x3) (fin z) pv ze) := by
  unfold eval190
  simp only
  generalize (if feq pro (lit 100) then ze else ze + v) = q
  split
  · exact eval200_follows _ _ _ _ _ _ _ (Or.inl rfl)
  · exact eval200_follows _ _ _ _ _ _ _ (Or.inr (step_next _ _))

theorem monthEval_follows (v pro : Fl K) (x1 x2 x3 z : K) : FollowsM x1 x2 x3 z (monthEval v pro (fin x1) (fin x2) (fin x3) (fin z)) := by
  have h170 : FollowsM x1 x2 x3 z (eval170 v pro (fin x1) (fin x2) (fin x3) (fin z)) := by
    unfold eval170; simp only; split
    · exact eval210_follows _ _ _ _
    · exact eval190_follows _ _ _ _ _ _ _ _
  have h180 : FollowsM x1 x2 x3 z (eval180 v pro (fin x1) (fin x2) (fin x3) (fin z)) := by
    unfold eval180; simp only; split
    · exact eval210_follows _ _ _ _
    · exact eval190_follows _ _ _ _ _ _ _ _
  unfold monthEval
  split
  · split
    · exact eval200_follows _ _ _ _ _ _ _ (Or.inl rfl)
    · split
      · split
        · exact eval210_follows _ _ _ _
        · exact h170
      · split
        · split
          · exact eval210_follows _ _ _ _
          · exact h180
        · exact h170
  · split
    · exact h170
    · split
      · exact h180
      · exact h170

/-- the variables a month starts from -/
structure Before (F : Type) where
  v : F
  pro : F
  x1 : F
  x2 : F
  x3 : F

theorem monthsFrom_get {F : Type} [FloatOps F] (zs : List F) : ∀ (v pro x1 x2 x3 : F) (t : Nat) (z : F), zs[t]? = some z →
    ∃ b : Before F, (monthsFrom v pro x1 x2 x3 zs)[t]? = some (monthEval b.v b.pro b.x1 b.x2 b.x3 z) ∧
      (t = 0 → b = ⟨v, pro, x1, x2, x3⟩) ∧
      (∀ s, t = s + 1 → ∃ m, (monthsFrom v pro x1 x2 x3 zs)[s]? = some m ∧ b = ⟨m.pv, m.ppr, m.px1, m.px2, m.px3⟩) := by
  induction zs with
  | nil => intro v pro x1 x2 x3 t z h; simp at h
  | cons z0 zs ih =>
    intro v pro x1 x2 x3 t z h
    cases t with
    | zero =>
      simp only [List.getElem?_cons_zero, Option.some.injEq] at h
      subst h
      exact ⟨⟨v, pro, x1, x2, x3⟩, rfl, fun _ => rfl, fun s hs => by omega⟩
    | succ t =>
      rw [List.getElem?_cons_succ] at h
      obtain ⟨b, h1, h2, h3⟩ := ih (monthEval v pro x1 x2 x3 z0).pv (monthEval v pro x1 x2 x3 z0).ppr (monthEval v pro x1 x2 x3 z0).px1
        (monthEval v pro x1 x2 x3 z0).px2 (monthEval v pro x1 x2 x3 z0).px3 t z h
      refine ⟨b, h1, fun h => by omega, ?_⟩
      intro s hs
      have hs' : s = t := by omega
      subst hs'
      cases s with
      | zero => exact ⟨_, rfl, h2 rfl⟩
      | succ s =>
        obtain ⟨m, g1, g2⟩ := h3 s rfl
        exact ⟨m, g1, g2⟩

/-- the entries of a completed record carry the numbers of its months -/
theorem cells_get {F : Type} [FloatOps F] (zs : List F) (cells : List (Cell F)) (h : spellCells zs = .ok cells) (t : Nat) (c : Cell F)
    (hc : cells[t]? = some c) : ∃ m, (months zs)[t]? = some m ∧ SameNumbers m.cell c := by
  have hs : ¬ Stuck zs := by
    intro hc
    rw [spellCells_error zs hc] at h
    cases h
  obtain ⟨cells', h1, h2, h3⟩ := spellCells_spec zs hs
  rw [h] at h1
  cases h1
  have hl := lt_of_getElem? hc
  have hm : t < (months zs).length := by rw [months_length]; omega
  obtain ⟨c', hc', hsn, _⟩ := h3 t _ (List.getElem?_eq_getElem hm)
  rw [hc] at hc'
  cases hc'
  exact ⟨_, List.getElem?_eq_getElem hm, hsn⟩

/-- the Z value, the variables before and the decision of a month of a completed record -/
theorem cells_month {F : Type} [FloatOps F] (zs : List F) (cells : List (Cell F)) (h : spellCells zs = .ok cells) (t : Nat) (c : Cell F)
    (hc : cells[t]? = some c) : ∃ z b, zs[t]? = some z ∧ SameNumbers (monthEval b.v b.pro b.x1 b.x2 b.x3 z).cell c ∧
      (t = 0 → b = (⟨lit 0, lit 0, lit 0, lit 0, lit 0⟩ : Before F)) ∧
      (∀ s a, t = s + 1 → cells[s]? = some a → ∃ m, m ∈ months zs ∧ SameNumbers m.cell a ∧ b = ⟨m.pv, m.ppr, m.px1, m.px2, m.px3⟩) := by
  obtain ⟨m, hm, hsn⟩ := cells_get zs cells h t c hc
  have hl := lt_of_getElem? hm
  rw [months_length] at hl
  obtain ⟨b, h1, h2, h3⟩ := monthsFrom_get zs (lit 0) (lit 0) (lit 0) (lit 0) (lit 0) t _ (List.getElem?_eq_getElem hl)
  have e : m = monthEval b.v b.pro b.x1 b.x2 b.x3 zs[t] := Option.some.inj (hm.symm.trans h1)
  refine ⟨_, b, List.getElem?_eq_getElem hl, by rw [← e]; exact hsn, h2, ?_⟩
  intro s a hs ha
  obtain ⟨m', g1, g2⟩ := h3 s hs
  obtain ⟨m'', g3, g4⟩ := cells_get zs cells h s a ha
  have : m' = m'' := Option.some.inj (g1.symm.trans g3)
  subst this
  exact ⟨m', List.mem_of_getElem? g1, g4, g2⟩

/-! ## C81: Palmer's recursion -/

/-- C81, first month: it follows a month in which all indices were zero. -/
theorem C81_first (z : K) (zs : List K) (cells : List (Cell (Fl K))) (h : spellCells ((z :: zs).map Fl.fin) = .ok cells) :
    ∃ c y1 y2 y3, cells[0]? = some c ∧ c.px1 = fin y1 ∧ c.px2 = fin y2 ∧ c.px3 = fin y3 ∧ Follows 0 0 0 z y1 y2 y3 := by
  have hl : cells.length = (z :: zs).length := by simpa using (C40_assigned _ cells h).1
  have h0 : 0 < cells.length := by rw [hl]; simp
  obtain ⟨z', b, hz, ⟨s1, s2, s3, s4, _⟩, hb, _⟩ := cells_month _ cells h 0 _ (List.getElem?_eq_getElem h0)
  simp only [List.map_cons, List.getElem?_cons_zero, Option.some.injEq] at hz
  subst hz
  rw [hb rfl] at s1 s2 s3 s4
  have hz0 : (lit 0 : Fl K) = fin 0 := by rw [lit_def, Rat.cast_zero]
  simp only [hz0] at s1 s2 s3 s4
  obtain ⟨y1, y2, y3, e1, e2, e3, hf⟩ := monthEval_follows (fin (0 : K)) (fin 0) 0 0 0 z
  exact ⟨_, y1, y2, y3, List.getElem?_eq_getElem h0, s2.trans e1, s3.trans e2, s4.trans e3, hf⟩

/-- C81: in every completed record the three indices of each month follow those of the month before by Palmer's recursion, in one of the five
admissible ways; a spell that was not established before becomes established with an index of at least 1 (wet) or at most -1 (drought), or is
the continuation `0.897 * x3 + z / 3` of the previous value. -/
theorem C81_follows (zs : List K) (cells : List (Cell (Fl K))) (h : spellCells (zs.map Fl.fin) = .ok cells) (t : Nat) (a c : Cell (Fl K)) (z : K)
    (ha : cells[t]? = some a) (hc : cells[t + 1]? = some c) (hz : zs[t + 1]? = some z) :
    ∃ x1 x2 x3 y1 y2 y3, a.px1 = fin x1 ∧ a.px2 = fin x2 ∧ a.px3 = fin x3 ∧ c.px1 = fin y1 ∧ c.px2 = fin y2 ∧ c.px3 = fin y3 ∧
      Follows x1 x2 x3 z y1 y2 y3 := by
  obtain ⟨z', b, hz', ⟨s1, s2, s3, s4, _⟩, _, hb⟩ := cells_month _ cells h (t + 1) c hc
  rw [List.getElem?_map, hz] at hz'
  cases hz'
  obtain ⟨m, hm, ⟨r1, r2, r3, r4, _⟩, rfl⟩ := hb t a rfl ha
  obtain ⟨⟨x1, f1⟩, ⟨x2, f2⟩, ⟨x3, f3⟩, _⟩ := months_fin zs m hm
  simp only [f1, f2, f3] at s1 s2 s3 s4
  obtain ⟨y1, y2, y3, e1, e2, e3, hf⟩ := monthEval_follows m.pv m.ppr x1 x2 x3 z
  exact ⟨x1, x2, x3, y1, y2, y3, r2.trans f1, r3.trans f2, r4.trans f3, s2.trans e1, s3.trans e2, s4.trans e3, hf⟩

/-- C81, no spell and no doubt: if the established index is between -0.5 and 0.5 and the probability 0 or 100, the next month has an established
index of 0, or of at least 1, or of at most -1. -/
theorem C81_begins (zs : List K) (cells : List (Cell (Fl K))) (h : spellCells (zs.map Fl.fin) = .ok cells) (t : Nat) (a c : Cell (Fl K)) (x : K)
    (ha : cells[t]? = some a) (hc : cells[t + 1]? = some c) (hx : a.px3 = fin x) (hb1 : |x| ≤ 0.5) (hp : a.ppr = fin 0 ∨ a.ppr = fin 100) :
    ∃ y, c.px3 = fin y ∧ (y = 0 ∨ 1 ≤ |y|) := by
  obtain ⟨z', b, hz', ⟨s1, s2, s3, s4, _⟩, _, hb⟩ := cells_month _ cells h (t + 1) c hc
  rw [List.getElem?_map] at hz'
  obtain ⟨z, _, rfl⟩ := Option.map_eq_some_iff.1 hz'
  obtain ⟨m, hm, ⟨r1, r2, r3, r4, _⟩, rfl⟩ := hb t a rfl ha
  obtain ⟨⟨x1, f1⟩, ⟨x2, f2⟩, ⟨x3, f3⟩, _⟩ := months_fin zs m hm
  have hx3 : x3 = x := Fl.fin.inj ((r4.trans f3).symm.trans hx)
  subst hx3
  have hm' : monthEval m.pv m.ppr m.px1 m.px2 m.px3 (fin z) = eval200 (fin x1) (fin x2) (fin z) (lit 0) (lit 0) (lit 0) := by
    have h100 : (lit 100 : Fl K) = fin 100 := by rw [lit_def]; norm_num
    have h0 : (lit 0 : Fl K) = fin 0 := by rw [lit_def]; norm_num
    have h5 : (lit 0.5 : Fl K) = fin 0.5 := by rw [lit_def]; norm_num
    have h5' : (lit (-0.5) : Fl K) = fin (-0.5) := by rw [lit_def]; norm_num
    have hpm : m.ppr = a.ppr := r1.symm
    unfold monthEval
    rw [if_pos (by
      rw [hpm, h100, h0]
      rcases hp with hp | hp <;> rw [hp, feq_fin, feq_fin] <;> simp), f1, f2, f3, if_pos (by
      rw [h5, h5', fle_fin, fle_fin]
      obtain ⟨g1, g2⟩ := abs_le.1 hb1
      simpa using And.intro g1 g2)]
  rw [hm'] at s4
  have h0 : (lit 0 : Fl K) = fin 0 := by rw [lit_def]; norm_num
  have h1 : (lit 1 : Fl K) = fin 1 := by rw [lit_def]; norm_num
  have hm1 : (lit (-1) : Fl K) = fin (-1) := by rw [lit_def]; norm_num
  rw [s4]
  unfold eval200
  rw [step_next, step_next, h0, h1, hm1, pyMax_fin, pyMin_fin]
  simp only [fle_fin, feq_fin, Bool.and_eq_true, decide_eq_true_eq, Month.cell]
  split
  · next hc => exact ⟨_, rfl, Or.inr (hc.1.trans (le_abs_self _))⟩
  · split
    · next hc => exact ⟨_, rfl, Or.inr (by have := neg_le_abs (min 0 (next x2 z)); linarith [hc.1])⟩
    · split
      · exact ⟨_, rfl, Or.inl rfl⟩
      · split <;> exact ⟨_, rfl, Or.inl rfl⟩

/-- every decision of a record whose established index stays out of the band keeps the invariant of the probability -/
theorem months_stepProb (zs : List K) (h : ∀ m ∈ months (zs.map Fl.fin), ∀ x, m.px3 = fin x → Clear x) :
    ∀ m ∈ months (zs.map Fl.fin), StepProb m := by
  have key : ∀ (zs : List K) (v pro x3 : Fl K) (x1 x2 : K), ProbInv v pro x3 → (∀ x, x3 = fin x → Clear x) →
      (∀ m ∈ monthsFrom v pro (fin x1) (fin x2) x3 (zs.map Fl.fin), ∀ x, m.px3 = fin x → Clear x) →
      ∀ m ∈ monthsFrom v pro (fin x1) (fin x2) x3 (zs.map Fl.fin), StepProb m := by
    intro zs
    induction zs with
    | nil => intro v pro x3 x1 x2 _ _ _ m hm; simp [monthsFrom] at hm
    | cons z zs ih =>
      intro v pro x3 x1 x2 hinv hcl hall m hm
      have hstep := monthEval_prob v pro x3 x1 x2 z hinv hcl
      simp only [List.map_cons, monthsFrom, List.mem_cons] at hm hall
      rcases hm with rfl | hm
      · exact hstep
      · obtain ⟨a, p, x, rfl, rfl, rfl, _⟩ := hinv
        obtain ⟨⟨b1, hb1⟩, ⟨b2, hb2⟩, _⟩ := monthEval_fin a x1 x2 x z (fin p)
        rw [hb1, hb2] at hm hall
        exact ih _ _ _ b1 b2 hstep.1 (hall _ (Or.inl rfl)) (fun m hm => hall m (Or.inr hm)) m hm
  have h0 : (lit 0 : Fl K) = fin 0 := by rw [lit_def, Rat.cast_zero]
  refine key zs _ _ _ _ _ ⟨0, 0, 0, h0, h0, h0, Or.inl ⟨rfl, rfl⟩⟩ ?_ h
  intro x hx
  rw [h0] at hx
  cases hx
  rintro ⟨h1, _⟩
  rw [abs_zero] at h1
  norm_num at h1

/-- C81, beginning of a spell (`_partial`: false in general, see `C81_fails`): if the established index is never in the band of C39, then after a month
without an established spell (index 0) the established index is 0, at least 1 or at most -1: no spell begins with a smaller index. -/
theorem C81_partial (zs : List K) (cells : List (Cell (Fl K))) (h : spellCells (zs.map Fl.fin) = .ok cells)
    (hband : ∀ c ∈ cells, ∀ x, c.px3 = fin x → ¬ (0.5 < |x| ∧ |x| ≤ 1.5 / 2.691)) (t : Nat) (a c : Cell (Fl K))
    (ha : cells[t]? = some a) (hc : cells[t + 1]? = some c) (hx : a.px3 = fin 0) :
    ∃ y, c.px3 = fin y ∧ (y = 0 ∨ 1 ≤ |y|) := by
  refine C81_begins zs cells h t a c 0 ha hc hx (by rw [abs_zero]; norm_num) ?_
  obtain ⟨m, hm, ⟨r1, _, _, r4, _⟩⟩ := cells_get _ cells h t a ha
  have hcl : ∀ m ∈ months (zs.map Fl.fin), ∀ x, m.px3 = fin x → Clear x := by
    intro m' hm' x hx
    obtain ⟨j, hj, hjm⟩ := List.mem_iff_getElem.1 hm'
    have hjc : j < cells.length := by
      have := (C40_assigned _ cells h).1
      rw [months_length] at hj
      omega
    obtain ⟨m'', g1, ⟨_, _, _, s4, _⟩⟩ := cells_get _ cells h j _ (List.getElem?_eq_getElem hjc)
    rw [List.getElem?_eq_getElem hj, hjm] at g1
    cases g1
    exact hband _ (List.getElem_mem hjc) x (s4.trans hx)
  obtain ⟨⟨v, p, x, _, hp, hx', hinv⟩, _⟩ := months_stepProb zs hcl m (List.mem_of_getElem? hm)
  have e : x = 0 := Fl.fin.inj (hx'.symm.trans (r4.symm.trans hx))
  subst e
  rw [show a.ppr = m.ppr from r1, hp]
  rcases hinv with h | h | h
  · exact Or.inl (by rw [h.1])
  · exact Or.inr (by rw [h])
  · exfalso
    rcases h.2.2 with h | h
    · exact absurd h.1 (by norm_num)
    · exact absurd h.1 (by norm_num)

/-! ## C80: bound of the indices -/

theorem follows_bound (x1 x2 x3 z y1 y2 y3 B M : K) (hB : B = M / 0.309) (hM : 0 ≤ M) (hz : |z| ≤ M) (h1 : |x1| ≤ B) (h2 : |x2| ≤ B) (h3 : |x3| ≤ B)
    (h : Follows x1 x2 x3 z y1 y2 y3) : |y1| ≤ B ∧ |y2| ≤ B ∧ |y3| ≤ B := by
  have hB0 : 0 ≤ B := (abs_nonneg _).trans h1
  have hMB : M = 0.309 * B := by rw [hB]; field_simp
  have hn : ∀ x, |x| ≤ B → |next x z| ≤ B := by
    intro x hx
    obtain ⟨a1, a2⟩ := abs_le.1 hx
    obtain ⟨b1, b2⟩ := abs_le.1 hz
    unfold next
    rw [abs_le]
    constructor <;> linarith
  have hmax : ∀ y, |y| ≤ B → |max 0 y| ≤ B := by
    intro y hy
    rcases le_total 0 y with h | h
    · rwa [max_eq_right h]
    · rw [max_eq_left h, abs_zero]; exact hB0
  have hmin : ∀ y, |y| ≤ B → |min 0 y| ≤ B := by
    intro y hy
    rcases le_total 0 y with h | h
    · rw [min_eq_left h, abs_zero]; exact hB0
    · rwa [min_eq_right h]
  have hz0 : |(0 : K)| ≤ B := by rw [abs_zero]; exact hB0
  cases h with
  | goesOn => exact ⟨hz0, hz0, hn _ h3⟩
  | wetBegins _ => exact ⟨hz0, hz0, hn _ h1⟩
  | droughtBegins _ => exact ⟨hmax _ (hn _ h1), hz0, hn _ h2⟩
  | maybeEnds => exact ⟨hmax _ (hn _ h1), hmin _ (hn _ h2), hn _ h3⟩
  | nothing _ _ => exact ⟨hmax _ (hn _ h1), hmin _ (hn _ h2), hz0⟩

/-- the three indices of a month are numbers of absolute value at most `B` -/
def Month.Within (B : K) (m : Month (Fl K)) : Prop :=
  ∃ y1 y2 y3, m.px1 = fin y1 ∧ m.px2 = fin y2 ∧ m.px3 = fin y3 ∧ |y1| ≤ B ∧ |y2| ≤ B ∧ |y3| ≤ B

theorem months_within (M : K) (hM : 0 ≤ M) (zs : List K) (hz : ∀ z ∈ zs, |z| ≤ M) :
    ∀ m ∈ months (zs.map Fl.fin), Month.Within (M / 0.309) m := by
  have key : ∀ (zs : List K) (v pro : Fl K) (x1 x2 x3 : K), (∀ z ∈ zs, |z| ≤ M) → |x1| ≤ M / 0.309 → |x2| ≤ M / 0.309 → |x3| ≤ M / 0.309 →
      ∀ m ∈ monthsFrom v pro (fin x1) (fin x2) (fin x3) (zs.map Fl.fin), Month.Within (M / 0.309) m := by
    intro zs
    induction zs with
    | nil => intro v pro x1 x2 x3 _ _ _ _ m hm; simp [monthsFrom] at hm
    | cons z zs ih =>
      intro v pro x1 x2 x3 hz h1 h2 h3 m hm
      obtain ⟨y1, y2, y3, e1, e2, e3, hf⟩ := monthEval_follows v pro x1 x2 x3 z
      obtain ⟨b1, b2, b3⟩ := follows_bound _ _ _ _ _ _ _ _ M rfl hM (hz z (by simp)) h1 h2 h3 hf
      simp only [List.map_cons, monthsFrom, List.mem_cons] at hm
      rcases hm with rfl | hm
      · exact ⟨y1, y2, y3, e1, e2, e3, b1, b2, b3⟩
      · rw [e1, e2, e3] at hm
        exact ih _ _ y1 y2 y3 (fun z hz' => hz z (by simp [hz'])) b1 b2 b3 m hm
  have h0 : (lit 0 : Fl K) = fin 0 := by rw [lit_def, Rat.cast_zero]
  have hb : |(0 : K)| ≤ M / 0.309 := by rw [abs_zero]; positivity
  unfold months
  rw [h0]
  exact key zs _ _ 0 0 0 hz hb hb hb

/-- `_case` of bounded indices is bounded, whatever the probability is -/
theorem palmerCase_within (p : Fl K) (x1 x2 x3 B : K) (hp : p ≠ .nan) (h1 : |x1| ≤ B) (h2 : |x2| ≤ B) (h3 : |x3| ≤ B) :
    ∃ w, palmerCase p (fin x1) (fin x2) (fin x3) = fin w ∧ |w| ≤ B := by
  cases p with
  | nan => exact absurd rfl hp
  | pinf =>
    unfold palmerCase
    split
    · split
      · exact ⟨_, rfl, h1⟩
      · exact ⟨_, rfl, h2⟩
    · rw [if_pos (by simp [fle, Fl.le, lit_def])]
      exact ⟨_, rfl, h3⟩
  | ninf =>
    unfold palmerCase
    split
    · split
      · exact ⟨_, rfl, h1⟩
      · exact ⟨_, rfl, h2⟩
    · rw [if_pos (by simp [fle, Fl.le, lit_def])]
      exact ⟨_, rfl, h3⟩
  | fin p =>
    by_cases hr : 0 ≤ p ∧ p ≤ 100
    · obtain ⟨w, e, g1, g2, g3⟩ := C45_case p x1 x2 x3 hr.1 hr.2
      refine ⟨w, e, ?_⟩
      have hbet : ∀ a b : K, |a| ≤ B → |b| ≤ B → min a b ≤ w → w ≤ max a b → |w| ≤ B := by
        intro a b ha hb hl hu
        obtain ⟨a1, a2⟩ := abs_le.1 ha
        obtain ⟨b1, b2⟩ := abs_le.1 hb
        exact abs_le.2 ⟨(le_min a1 b1).trans hl, hu.trans (max_le a2 b2)⟩
      rcases lt_trichotomy x3 0 with h | h | h
      · exact hbet x3 x1 h3 h1 (g2 h).1 (g2 h).2
      · rcases (g1 h).1 with rfl | rfl
        · exact h1
        · exact h2
      · exact hbet x3 x2 h3 h2 (g3 h).1 (g3 h).2
    · unfold palmerCase
      have hz : (lit 0 : Fl K) = fin 0 := by rw [lit_def, Rat.cast_zero]
      have hh : (lit 100 : Fl K) = fin 100 := by rw [lit_def]; norm_num
      split
      · split
        · exact ⟨_, rfl, h1⟩
        · exact ⟨_, rfl, h2⟩
      · rw [if_pos (by
          rw [hz, hh, fle_fin, fle_fin]
          by_cases h0 : p ≤ 0
          · simp [h0]
          · have : 100 ≤ p := by
              by_contra hc
              exact hr ⟨(not_le.1 h0).le, (not_le.1 hc).le⟩
            simp [this])]
        exact ⟨_, rfl, h3⟩

/-- C80: the indices are bounded by the Z-index. If no Z value of the record exceeds `M` in absolute value, no PDSI, PHDI or PMDI exceeds
`M / 0.309` (the fixed point of the recursion, `(M / 3) / (1 - 0.897)`) in absolute value, at any month, for records of any length. -/
theorem C80_bounded (M : K) (zs : List K) (hz : ∀ z ∈ zs, |z| ≤ M) (cells : List (Cell (Fl K))) (h : spellCells (zs.map Fl.fin) = .ok cells) :
    ∀ c ∈ cells, ∃ a b d : K, c.pdsi = fin a ∧ c.phdi = fin b ∧ c.wplm = fin d ∧ |a| ≤ M / 0.309 ∧ |b| ≤ M / 0.309 ∧ |d| ≤ M / 0.309 := by
  intro c hc
  have hM : 0 ≤ M := by
    have hl := (C40_assigned _ cells h).1
    cases zs with
    | nil =>
      rw [List.map_nil, List.length_nil, List.length_eq_zero_iff] at hl
      rw [hl] at hc
      simp at hc
    | cons z zs => exact (abs_nonneg z).trans (hz z (by simp))
  have hnum : ∀ c ∈ cells, ∃ y1 y2 y3, c.px1 = fin y1 ∧ c.px2 = fin y2 ∧ c.px3 = fin y3 ∧ |y1| ≤ M / 0.309 ∧ |y2| ≤ M / 0.309 ∧
      |y3| ≤ M / 0.309 ∧ c.ppr ≠ .nan := by
    intro c hc
    obtain ⟨m, hm, ⟨h1, h2, h3, h4, _⟩, _⟩ := mem_cells _ cells h c hc
    obtain ⟨y1, y2, y3, e1, e2, e3, b1, b2, b3⟩ := months_within M hM zs hz m hm
    refine ⟨y1, y2, y3, h2.trans e1, h3.trans e2, h4.trans e3, b1, b2, b3, ?_⟩
    rw [h1]
    exact (months_fin zs m hm).ppr
  obtain ⟨y1, y2, y3, e1, e2, e3, b1, b2, b3, _⟩ := hnum c hc
  obtain ⟨g1, g2, d, hd, g3⟩ := (C40_assigned _ cells h).2 c hc
  have hp : ∃ a, c.pdsi = fin a ∧ |a| ≤ M / 0.309 := by
    rcases g1 with g | g | g
    · exact ⟨_, g.trans e1, b1⟩
    · exact ⟨_, g.trans e2, b2⟩
    · exact ⟨_, g.trans e3, b3⟩
  have hph : ∃ a, c.phdi = fin a ∧ |a| ≤ M / 0.309 := by
    rw [g2]
    split
    · exact hp
    · exact ⟨_, e3, b3⟩
  obtain ⟨a, ha, ha'⟩ := hp
  obtain ⟨b, hb, hb'⟩ := hph
  obtain ⟨z1, z2, z3, k1, k2, k3, l1, l2, l3, hn⟩ := hnum d hd
  obtain ⟨w, hw, hw'⟩ := palmerCase_within d.ppr z1 z2 z3 _ hn l1 l2 l3
  exact ⟨a, b, w, ha, hb, by rw [g3, k1, k2, k3]; exact hw, ha', hb', hw'⟩

/-- C80 for `pdsi`: if the record has whole years and the returned Z-index consists of numbers of absolute value at most `M`, all returned PDSI,
PHDI and PMDI are numbers of absolute value at most `M / 0.309`. -/
theorem C80_pdsi (log10 : Fl K → Fl K) (precips pet : Arr (Fl K)) (awc : Fl K) (ds cs ce : Int) (fp : Option (PalmerDict (Fl K)))
    (out : PalmerOut (Fl K)) (hp : precips.WF) (he : pet.WF) (h : palmerPdsi log10 precips pet awc ds cs ce fp = .ok out)
    (hn : allNan precips.data = false) (hy : precips.data.length % 12 = 0) (M : K) (hz : ∀ v ∈ out.z.data, ∃ z, v = fin z ∧ |z| ≤ M) :
    ∀ v, v ∈ out.pdsi.data ∨ v ∈ out.phdi.data ∨ v ∈ out.pmdi.data → ∃ a, v = fin a ∧ |a| ≤ M / 0.309 := by
  obtain ⟨n, h1, h2, h3⟩ := palmerPdsi_ok log10 precips pet awc ds cs ce fp out hp he hn h
  have hlen := (C40_lengths log10 precips pet awc ds cs ce fp out hp he h).2.2.2
  have hpad : padCount precips.data.length 12 = 0 := by unfold padCount; rw [if_neg (by omega)]
  obtain ⟨ak, cells, _, g2, rfl⟩ := palmerBody_ok _ _ _ _ _ _ _ _ _ _ h3
  rw [hpad] at g2 hz hlen
  simp only [List.replicate_zero, List.append_nil, Arr.of1d] at g2 hz hlen ⊢
  generalize hzs : zValues _ ak _ = zs at g2 hz hlen
  have hzl : zs.length ≤ precips.data.length := by
    rw [← hzs, zValues_length]
    unfold waterBalances
    rw [balances_length, List.length_zip, clipNeg_length, h2, Nat.min_self]
  rw [List.take_of_length_le hzl] at hz
  obtain ⟨ws, hws, hb⟩ : ∃ ws : List K, zs = ws.map Fl.fin ∧ ∀ w ∈ ws, |w| ≤ M := by
    clear hzs g2 hlen hzl
    induction zs with
    | nil => exact ⟨[], rfl, by simp⟩
    | cons v zs ih =>
      obtain ⟨ws, e, hb⟩ := ih (fun v hv => hz v (by simp [hv]))
      obtain ⟨z, rfl, hzM⟩ := hz v (by simp)
      exact ⟨z :: ws, by rw [e, List.map_cons], by
        intro w hw
        rcases List.mem_cons.1 hw with rfl | hw
        · exact hzM
        · exact hb w hw⟩
  rw [hws] at g2
  have key := C80_bounded M ws hb cells g2
  rintro v (hv | hv | hv)
  all_goals
    obtain ⟨c, hc, rfl⟩ := List.mem_map.1 (List.mem_of_mem_take hv)
    obtain ⟨a, b, d, e1, e2, e3, b1, b2, b3⟩ := key c hc
  · exact ⟨a, e1, b1⟩
  · exact ⟨b, e2, b2⟩
  · exact ⟨d, e3, b3⟩

end field

/-! ## Concrete cases and counterexamples (exact rational arithmetic) -/

/-- C80: the bound for |z| <= 3 is 9.708...; 40 months of z = 3 come within 2 % of it (PDSI above 9.5). -/
example : (∀ z ∈ List.replicate 40 (3 : ℚ), |z| ≤ 3) ∧
    okAnd (spellCells ((List.replicate 40 (3 : ℚ)).map Fl.fin)) (fun cells => cells.any (fun c => flt (lit 9.5) c.pdsi)) = true := by
  constructor
  · intro z hz
    rw [List.eq_of_mem_replicate hz]
    norm_num
  · decide +kernel

/-- C81: a record in which all five kinds of steps occur: nothing, wet spell begins, goes on, may be ending (twice), drought begins, goes on, may be
ending -/
example : okAnd (spellCells (([1, 3, 1, 0, -1, -6, -6, 1 / 2] : List ℚ).map Fl.fin)) (fun cells =>
    decide (cells.map (fun c => (c.px1, c.px2, c.px3)) = [(fin (1 / 3), fin 0, fin 0), (fin 0, fin 0, fin (1299 / 1000)),
      (fin 0, fin 0, fin (4495609 / 3000000)), (fin 0, fin 0, fin (1344187091 / 1000000000)),
      (fin 0, fin (-1 / 3), fin (2617207461881 / 3000000000000)), (fin 0, fin 0, fin (-2299 / 1000)),
      (fin 0, fin 0, fin (-4062203 / 1000000)), (fin (1 / 6), fin 0, fin (-10431388273 / 3000000000))])) = true := by
  decide +kernel

/-- C81: the hypotheses of `C81_partial` and `C81_begins` are met by this record: month 0 has no established spell, month 1 has one of 1.299, and no
established index is in the band. -/
example : okAnd (spellCells (([1, 3, 1, 0, -1, -6, -6, 1 / 2] : List ℚ).map Fl.fin)) (fun cells =>
    decide (cells[0]?.map (fun c => (c.px3, c.ppr)) = some (fin 0, fin 0) ∧ cells[1]?.map (·.px3) = some (fin (1299 / 1000))) &&
    cells.all (fun c => match c.px3 with
      | .fin x => decide (¬ (0.5 < |x| ∧ |x| ≤ 1.5 / 2.691))
      | _ => false)) = true := by
  decide +kernel

/-- the established index after a wet month z = 3 and 19 months of z = 0.15: 0.5507 -/
def bandIndex : ℚ := (List.replicate 19 (0.15 : ℚ)).foldl (fun x z => 0.897 * x + z / 3) 1

/-- C81: "a spell begins with an index of at least 1 in absolute value" is false: a wet spell decays into the band of C39, one month then makes the
established index exactly 0 with a probability that is neither 0 nor 100, and the next month has an established index of -0.1. -/
theorem C81_fails : ∃ (zs : List (Fl ℚ)) (t : Nat), okAnd (spellCells zs) (fun cells =>
    decide (cells[t]?.map (·.px3) = some (fin 0) ∧ cells[t + 1]?.map (·.px3) = some (fin (-0.1)))) = true :=
  ⟨(3 :: List.replicate 19 0.15 ++ [-2.691 * bandIndex, -0.3]).map Fl.fin, 20, by decide +kernel⟩

end CI.Props
