import Verif.Lemmas.PalmerMirror

/-!
# The spell machine on a record and on its negative: the whole run
-/

namespace CI.Mirror
open Fl

variable {K : Type} [Field K] [LinearOrder K] [IsStrictOrderedRing K]

/-- a backlog position with wet and dry exchanged -/
def mirSlot (e : Slot (Fl K)) : Slot (Fl K) := ⟨e.idx, -e.sx, -e.sx2, -e.sx1, -e.sx3⟩

/-- a state with wet and dry exchanged -/
def mirSpell (st : Spell (Fl K)) : Spell (Fl K) :=
  ⟨-st.v, st.pro, -st.x2, -st.x1, -st.x3, st.k8, st.k8max, st.slots.map mirSlot, st.cells.map Spec.mirror⟩

theorem feq_neg_zero (a : Fl K) : feq (-a) (lit 0) = feq a (lit 0) := by
  rw [lit0]
  cases a with
  | fin a => rw [fin_neg, feq_fin, feq_fin]; simp
  | nan => rfl
  | pinf => rfl
  | ninf => rfl

/-- the modified index changes sign with wet and dry exchanged -/
def CaseOk (c : Cell (Fl K)) : Prop :=
  palmerCase c.ppr (-c.px2) (-c.px1) (-c.px3) = -palmerCase c.ppr c.px1 c.px2 c.px3

def AllOk (cells : List (Cell (Fl K))) : Prop := ∀ c ∈ cells, CaseOk c

theorem caseOk_same {c c' : Cell (Fl K)} (h : SameNumbers c c') (hc : CaseOk c) : CaseOk c' := by
  obtain ⟨h1, h2, h3, h4, _⟩ := h
  unfold CaseOk
  rw [h1, h2, h3, h4]
  exact hc

theorem caseOk_fin (c : Cell (Fl K)) (p x1 x2 x3 : K) (h1 : c.ppr = fin p) (h2 : c.px1 = fin x1) (h3 : c.px2 = fin x2) (h4 : c.px3 = fin x3)
    (s1 : 0 ≤ x1) (s2 : x2 ≤ 0) (tie : x3 = 0 → x1 + x2 = 0 → x1 = 0) : CaseOk c := by
  unfold CaseOk palmerCase
  have hfabs : ∀ a : K, fabs (fin a : Fl K) = fin |a| := by
    intro a
    unfold fabs
    rw [lit0, flt_fin]
    by_cases ha : a < 0
    · rw [if_pos (decide_eq_true ha), fin_neg, abs_of_neg ha]
    · rw [if_neg (by simpa using ha), abs_of_nonneg (not_lt.1 ha)]
  rw [h1, h2, h3, h4, fin_neg, fin_neg, fin_neg, lit0, lit100, lit1, hfabs, hfabs, hfabs, hfabs, abs_neg, abs_neg, abs_of_nonneg s1, abs_of_nonpos s2]
  simp only [feq_fin, fle_fin, flt_fin, ← Bool.decide_or, decide_eq_true_eq, fin_div_of_ne _ _ (by norm_num : (100 : K) ≠ 0), fin_sub, fin_mul, fin_add]
  by_cases h0 : x3 = 0
  · have h0' : -x3 = 0 := by rw [h0, neg_zero]
    rw [if_pos h0, if_pos h0']
    by_cases ha : -x2 < x1
    · have hb : ¬ x1 < -x2 := not_lt.2 ha.le
      rw [if_pos ha, if_neg hb, fin_neg]
    · rw [if_neg ha]
      by_cases hb : x1 < -x2
      · rw [if_pos hb, fin_neg]
      · have he : x1 + x2 = 0 := by linarith [not_lt.1 ha, not_lt.1 hb]
        have h5 := tie h0 he
        have h6 : x2 = 0 := by linarith
        rw [if_neg hb, h5, h6, fin_neg]
  · have h0' : ¬ -x3 = 0 := neg_ne_zero.2 h0
    rw [if_neg h0, if_neg h0']
    by_cases hp : p ≤ 0 ∨ 100 ≤ p
    · rw [if_pos hp, if_pos hp, fin_neg]
    · rw [if_neg hp, if_neg hp]
      by_cases hx : x3 ≤ 0
      · have hx' : ¬ -x3 ≤ 0 := fun h => h0 (le_antisymm hx (by linarith))
        rw [if_pos hx, if_neg hx', fin_neg]
        congr 1; ring
      · have hx' : -x3 ≤ 0 := by linarith [not_le.1 hx]
        rw [if_neg hx, if_pos hx', fin_neg]
        congr 1; ring

theorem finalCell_mir (c : Cell (Fl K)) (xv : Fl K) (h : CaseOk c) : finalCell (Spec.mirror c) (-xv) = Spec.mirror (finalCell c xv) := by
  unfold finalCell Spec.mirror
  simp only [feq_neg_zero]
  rw [h]
  congr 1
  split <;> rfl

/-! ## Lists -/

theorem getIdx_map {α β : Type} (f : α → β) (l : List α) (i : Nat) : getIdx (l.map f) i = (getIdx l i).map f := by
  unfold getIdx
  rw [List.getElem?_map]
  cases l[i]? <;> rfl

theorem setIdx_map {α β : Type} (f : α → β) (l : List α) (i : Nat) (x : α) : setIdx (l.map f) i (f x) = (setIdx l i x).map (List.map f) := by
  unfold setIdx
  rw [List.length_map]
  split
  · simp [Except.map, List.map_set]
  · rfl

theorem backtrack_mir (i : Nat) (a b : Nat) (s : List (Slot (Fl K))) (h : (a = 1 ∧ b = 2) ∨ (a = 2 ∧ b = 1)) :
    backtrack i b (s.map mirSlot) = (backtrack i a s).map (List.map mirSlot) := by
  induction i generalizing a b s with
  | zero => rfl
  | succ i ih =>
    unfold backtrack
    rw [getIdx_map]
    cases hg : getIdx s i with
    | error e => rfl
    | ok e =>
      simp only [Except.map, bind, Except.bind]
      have hset : ∀ v : Fl K, (s.map mirSlot).set i { mirSlot e with sx := -v } = (s.set i { e with sx := v }).map mirSlot := by
        intro v
        rw [List.map_set]; rfl
      have e1 : feq (mirSlot e).sx1 (lit 0) = feq e.sx2 (lit 0) := feq_neg_zero _
      have e2 : feq (mirSlot e).sx2 (lit 0) = feq e.sx1 (lit 0) := feq_neg_zero _
      rw [e1, e2]
      rcases h with ⟨rfl, rfl⟩ | ⟨rfl, rfl⟩
      · rw [if_pos rfl, if_neg (show ¬ (1 : Nat) = 2 by decide)]
        split
        · exact (congrArg _ (hset e.sx2)).trans (ih 2 1 _ (Or.inr ⟨rfl, rfl⟩))
        · exact (congrArg _ (hset e.sx1)).trans (ih 1 2 _ (Or.inl ⟨rfl, rfl⟩))
      · rw [if_pos rfl, if_neg (show ¬ (1 : Nat) = 2 by decide)]
        split
        · exact (congrArg _ (hset e.sx1)).trans (ih 1 2 _ (Or.inl ⟨rfl, rfl⟩))
        · exact (congrArg _ (hset e.sx2)).trans (ih 2 1 _ (Or.inr ⟨rfl, rfl⟩))

theorem takeX3_mir (i : Nat) (s : List (Slot (Fl K))) : takeX3 i (s.map mirSlot) = (takeX3 i s).map (List.map mirSlot) := by
  induction i with
  | zero => rfl
  | succ i ih =>
    unfold takeX3
    rw [ih]
    cases takeX3 i s with
    | error e => rfl
    | ok s1 =>
      simp only [Except.map, bind, Except.bind]
      rw [getIdx_map]
      cases getIdx s1 i with
      | error e => rfl
      | ok e => exact setIdx_map mirSlot s1 i { e with sx := e.sx3 }

theorem mem_setIdx {α : Type} {l l' : List α} {i : Nat} {x : α} (h : setIdx l i x = .ok l') : ∀ y ∈ l', y ∈ l ∨ y = x := by
  unfold setIdx at h
  split at h
  · cases h
    exact fun y hy => List.mem_or_eq_of_mem_set hy
  · cases h

theorem mem_getIdx {α : Type} {l : List α} {i : Nat} {x : α} (h : getIdx l i = .ok x) : x ∈ l := by
  unfold getIdx at h
  split at h
  · next hx => cases h; exact List.mem_of_getElem? hx
  · cases h

theorem outputLoop_mir (slots : List (Slot (Fl K))) (k : Nat) (cells : List (Cell (Fl K))) (h : AllOk cells) :
    outputLoop (slots.map mirSlot) k (cells.map Spec.mirror) = (outputLoop slots k cells).map (List.map Spec.mirror) ∧
      ∀ cells', outputLoop slots k cells = .ok cells' → AllOk cells' := by
  induction k with
  | zero => exact ⟨rfl, fun cells' hc => by cases hc; exact h⟩
  | succ k ih =>
    unfold outputLoop
    rw [ih.1]
    cases ho : outputLoop slots k cells with
    | error e => exact ⟨rfl, fun cells' hc => by cases hc⟩
    | ok c1 =>
      have h1 := ih.2 c1 ho
      simp only [Except.map, bind, Except.bind]
      rw [getIdx_map]
      cases getIdx slots k with
      | error e => exact ⟨rfl, fun cells' hc => by cases hc⟩
      | ok e =>
        simp only [Except.map]
        have hidx : (mirSlot e).idx = e.idx := rfl
        rw [hidx]
        cases e.idx with
        | none => exact ⟨rfl, fun cells' hc => by cases hc⟩
        | some j =>
          simp only
          rw [getIdx_map]
          cases hg : getIdx c1 j with
          | error e => exact ⟨rfl, fun cells' hc => by cases hc⟩
          | ok c =>
            simp only [Except.map]
            have hc := h1 c (mem_getIdx hg)
            have hsx : (mirSlot e).sx = -e.sx := rfl
            rw [hsx, finalCell_mir c e.sx hc]
            refine ⟨setIdx_map _ _ _ _, fun cells' hs y hy => ?_⟩
            rcases mem_setIdx hs y hy with hy | rfl
            · exact h1 y hy
            · exact caseOk_same (finalCell_same c e.sx) hc

theorem allOk_set {cells : List (Cell (Fl K))} (h : AllOk cells) (i : Nat) {c : Cell (Fl K)} (hc : CaseOk c) : AllOk (cells.set i c) := by
  intro y hy
  rcases List.mem_or_eq_of_mem_set hy with hy | rfl
  · exact h y hy
  · exact hc

theorem chooseSx_mir (a b k : Nat) (s : List (Slot (Fl K))) (h : (a = 1 ∧ b = 2) ∨ (a = 2 ∧ b = 1) ∨ (a = 3 ∧ b = 3)) :
    chooseSx b k (s.map mirSlot) = (chooseSx a k s).map (List.map mirSlot) := by
  unfold chooseSx
  rcases h with ⟨rfl, rfl⟩ | ⟨rfl, rfl⟩ | ⟨rfl, rfl⟩
  · rw [if_neg (by decide), if_neg (by decide)]; exact backtrack_mir _ _ _ _ (Or.inl ⟨rfl, rfl⟩)
  · rw [if_neg (by decide), if_neg (by decide)]; exact backtrack_mir _ _ _ _ (Or.inr ⟨rfl, rfl⟩)
  · rw [if_pos rfl, if_pos rfl]; exact takeX3_mir _ _

theorem assign_mir (st : Spell (Fl K)) (t a b : Nat) (hall : AllOk st.cells)
    (h : (a = 1 ∧ b = 2) ∨ (a = 2 ∧ b = 1) ∨ (a = 3 ∧ b = 3)) :
    assign (mirSpell st) t b = (assign st t a).map mirSpell := by
  unfold assign
  have hc : (mirSpell st).cells = st.cells.map Spec.mirror := rfl
  have hs : (mirSpell st).slots = st.slots.map mirSlot := rfl
  have hk : (mirSpell st).k8 = st.k8 := rfl
  rw [hc, hs, hk, getIdx_map]
  cases hg : getIdx st.cells t with
  | error e => rfl
  | ok c =>
    simp only [Except.map, bind, Except.bind]
    rw [getIdx_map]
    cases getIdx st.slots st.k8 with
    | error e => rfl
    | ok e =>
      simp only [Except.map]
      have hse : setIdx (st.slots.map mirSlot) st.k8 { mirSlot e with sx := (Spec.mirror c).x } =
          (setIdx st.slots st.k8 { e with sx := c.x }).map (List.map mirSlot) := setIdx_map mirSlot st.slots st.k8 { e with sx := c.x }
      rw [hse]
      cases setIdx st.slots st.k8 { e with sx := c.x } with
      | error e => rfl
      | ok slots =>
        simp only [Except.map]
        by_cases h0 : st.k8 = 0
        · rw [if_pos h0, if_pos h0]
          have hf : finalCell (Spec.mirror c) (Spec.mirror c).x = Spec.mirror (finalCell c c.x) := finalCell_mir c c.x (hall c (mem_getIdx hg))
          rw [hf, ← List.map_set]
          rfl
        · rw [if_neg h0, if_neg h0, chooseSx_mir a b _ _ h]
          cases chooseSx a st.k8 slots with
          | error e => rfl
          | ok slots2 =>
            simp only [Except.map]
            rw [(outputLoop_mir slots2 (st.k8 + 1) st.cells hall).1]
            cases outputLoop slots2 (st.k8 + 1) st.cells with
            | error e => rfl
            | ok cells => rfl

theorem backtrack_zero (i a b : Nat) (s : List (Slot (Fl K))) (h : ∀ k e, k < i → s[k]? = some e → e.sx1 = fin 0 ∧ e.sx2 = fin 0) :
    backtrack i a s = backtrack i b s := by
  induction i generalizing a b s with
  | zero => rfl
  | succ i ih =>
    unfold backtrack
    unfold getIdx
    cases hg : s[i]? with
    | none => rfl
    | some e =>
      obtain ⟨h1, h2⟩ := h i e (by omega) hg
      obtain ⟨idx, sx, sx1, sx2, sx3⟩ := e
      simp only at h1 h2
      subst h1 h2
      simp only [bind, Except.bind]
      have hn : ∀ (v : Fl K) (k : Nat) (e' : Slot (Fl K)), k < i → (s.set i ⟨idx, v, fin 0, fin 0, sx3⟩)[k]? = some e' → e'.sx1 = fin 0 ∧ e'.sx2 = fin 0 := by
        intro v k e' hk he'
        rw [List.getElem?_set_ne (by omega)] at he'
        exact h k e' (by omega) he'
      have hz : feq (fin 0 : Fl K) (lit 0) = true := by rw [lit0, feq_fin]; simp
      simp only [hz, if_true]
      have heq : ∀ c d, backtrack i c (s.set i ⟨idx, fin 0, fin 0, fin 0, sx3⟩) = backtrack i d (s.set i ⟨idx, fin 0, fin 0, fin 0, sx3⟩) :=
        fun c d => ih c d _ (hn (fin 0))
      split <;> split <;> exact heq _ _

theorem assign_zero (st : Spell (Fl K)) (t : Nat) (h : ∀ k e, k < st.k8 → st.slots[k]? = some e → e.sx1 = fin 0 ∧ e.sx2 = fin 0) :
    assign st t 2 = assign st t 1 := by
  unfold assign
  cases getIdx st.cells t with
  | error e => rfl
  | ok c =>
    simp only [bind, Except.bind]
    cases getIdx st.slots st.k8 with
    | error e => rfl
    | ok e =>
      simp only
      cases hs : setIdx st.slots st.k8 { e with sx := c.x } with
      | error e => rfl
      | ok slots =>
        simp only
        split
        · rfl
        · have hch : chooseSx 2 st.k8 slots = chooseSx 1 st.k8 slots := by
            unfold chooseSx
            rw [if_neg (by decide), if_neg (by decide)]
            refine backtrack_zero _ _ _ _ (fun k e' hk he' => ?_)
            unfold setIdx at hs
            split at hs
            · cases hs
              rw [List.getElem?_set_ne (by omega)] at he'
              exact h k e' hk he'
            · cases hs
          rw [hch]

theorem statement220_mir (st : Spell (Fl K)) (t : Nat) (pv : Fl K) :
    statement220 (mirSpell st) t (-pv) = (statement220 st t pv).map mirSpell := by
  unfold statement220
  have hc : (mirSpell st).cells = st.cells.map Spec.mirror := rfl
  rw [hc, getIdx_map]
  cases getIdx st.cells t with
  | error e => rfl
  | ok c => rfl

theorem growSlots_mir (k : Nat) (s : List (Slot (Fl K))) : growSlots k (s.map mirSlot) = (growSlots k s).map mirSlot := by
  unfold growSlots
  rw [List.length_map]
  split
  · rw [List.map_append, List.map_replicate]
    congr 2
    unfold mirSlot
    rw [lit0, fin_neg, neg_zero]
  · rfl

theorem commit_mir (st : Spell (Fl K)) (t : Nat) (m m' : Month (Fl K)) (hall : AllOk st.cells) (hm : Mir m m') (hok : CaseOk m.cell)
    (hz : m.dec = .choose 2 → m.px1 = fin 0 → m.px2 = fin 0 → m.x = fin 0 →
      ∀ k e, k < st.k8 → st.slots[k]? = some e → e.sx1 = fin 0 ∧ e.sx2 = fin 0) :
    commit (mirSpell st) t m' = (commit st t m).map mirSpell := by
  have hcell : m'.cell = Spec.mirror m.cell := by
    unfold Month.cell Spec.mirror
    rw [hm.ppr, hm.px1, hm.px2, hm.px3, hm.x]
    rfl
  have hx : m'.x = -m.x := hm.x
  have hset : (mirSpell st).cells.set t m'.cell = (st.cells.set t m.cell).map Spec.mirror := by
    rw [hcell, List.map_set]; rfl
  have hst1 : ({ mirSpell st with cells := (mirSpell st).cells.set t m'.cell } : Spell (Fl K)) =
      mirSpell { st with cells := st.cells.set t m.cell } := by
    rw [hset]; rfl
  have hall1 : AllOk (st.cells.set t m.cell) := allOk_set hall t hok
  have hasg : ∀ a b, ((a = 1 ∧ b = 2) ∨ (a = 2 ∧ b = 1) ∨ (a = 3 ∧ b = 3)) →
      assign (mirSpell { st with cells := st.cells.set t m.cell }) t b =
        (assign { st with cells := st.cells.set t m.cell } t a).map mirSpell :=
    fun a b h => assign_mir _ t a b hall1 h
  unfold commit
  simp only [hst1, hm.pv]
  have fin220 : ∀ r : Res (Spell (Fl K)), (r.map mirSpell >>= fun s => statement220 s t (-m.pv)) =
      (r >>= fun s => statement220 s t m.pv).map mirSpell := by
    intro r
    cases r with
    | error e => rfl
    | ok s => exact statement220_mir s t m.pv
  have hk : (mirSpell st).k8 = st.k8 := rfl
  rcases hm.dec with ⟨h1, h2⟩ | ⟨h1, h2⟩ | ⟨h1, h2⟩ | ⟨h1, h2⟩ | ⟨h1, h2, h3, h4, h5⟩
  · rw [h1, h2]
    simp only
    rw [hk]
    by_cases h0 : st.k8 = 0
    · rw [if_pos h0, if_pos h0]
      have hf : finalCell m'.cell m'.x = Spec.mirror (finalCell m.cell m.x) := by
        rw [hcell, hx]; exact finalCell_mir _ _ hok
      rw [hset, hf, ← List.map_set]
      exact fin220 (pure { st with cells := (st.cells.set t m.cell).set t (finalCell m.cell m.x) })
    · rw [if_neg h0, if_neg h0, hasg 3 3 (Or.inr (Or.inr ⟨rfl, rfl⟩))]
      exact fin220 _
  · rw [h1, h2]
    simp only
    rw [hk]
    have hsl : (mirSpell st).slots = st.slots.map mirSlot := rfl
    rw [hsl, growSlots_mir, getIdx_map]
    cases getIdx (growSlots st.k8 st.slots) st.k8 with
    | error e => rfl
    | ok e =>
      simp only [Except.map, bind, Except.bind]
      have hse : setIdx ((growSlots st.k8 st.slots).map mirSlot) st.k8 { mirSlot e with sx1 := m'.px1, sx2 := m'.px2, sx3 := m'.px3 } =
          (setIdx (growSlots st.k8 st.slots) st.k8 { e with sx1 := m.px1, sx2 := m.px2, sx3 := m.px3 }).map (List.map mirSlot) := by
        rw [← setIdx_map, hm.px1, hm.px2, hm.px3]
        rfl
      rw [hse]
      cases setIdx (growSlots st.k8 st.slots) st.k8 { e with sx1 := m.px1, sx2 := m.px2, sx3 := m.px3 } with
      | error e => rfl
      | ok slots =>
        simp only [Except.map]
        rw [hset]
        exact statement220_mir { st with cells := st.cells.set t m.cell, slots := slots, k8 := st.k8 + 1, k8max := st.k8 + 1 } t m.pv
  · rw [h1, h2]
    simp only
    rw [hasg 1 2 (Or.inl ⟨rfl, rfl⟩)]
    exact fin220 _
  · rw [h1, h2]
    simp only
    rw [hasg 2 1 (Or.inr (Or.inl ⟨rfl, rfl⟩))]
    exact fin220 _
  · rw [h1, h2]
    simp only
    rw [hasg 1 2 (Or.inl ⟨rfl, rfl⟩),
      assign_zero { st with cells := st.cells.set t m.cell } t (hz h1 h3 h4 h5)]
    exact fin220 _

theorem mirror_cellInit : Spec.mirror (cellInit : Cell (Fl K)) = cellInit := by
  unfold Spec.mirror cellInit
  rw [lit0, fin_neg, neg_zero]
  rfl

theorem spellMonth_mir (t : Nat) (st : Spell (Fl K)) (z : Fl K) (hfresh : st.cells[t]? = some cellInit)
    (hm : Mir (monthOf st z) (monthOf (mirSpell st) (-z))) (hall : AllOk st.cells) (hok : CaseOk (monthOf st z).cell)
    (hz : (monthOf st z).dec = .choose 2 → (monthOf st z).px1 = fin 0 → (monthOf st z).px2 = fin 0 → (monthOf st z).x = fin 0 →
      ∀ k e, k < st.k8 → st.slots[k]? = some e → e.sx1 = fin 0 ∧ e.sx2 = fin 0) :
    spellMonth (mirSpell st) t (-z) = (spellMonth st t z).map mirSpell := by
  unfold spellMonth
  have hs : (mirSpell st).slots = st.slots.map mirSlot := rfl
  have hk : (mirSpell st).k8 = st.k8 := rfl
  rw [hs, hk, getIdx_map]
  cases getIdx st.slots st.k8 with
  | error e => rfl
  | ok e =>
    simp only [Except.map, bind, Except.bind]
    have hse : setIdx (st.slots.map mirSlot) st.k8 { mirSlot e with idx := some t } =
        (setIdx st.slots st.k8 { e with idx := some t }).map (List.map mirSlot) := by
      rw [← setIdx_map]; rfl
    rw [hse]
    cases hsl : setIdx st.slots st.k8 { e with idx := some t } with
    | error e => rfl
    | ok slots =>
      simp only [Except.map]
      have hfresh' : (mirSpell st).cells[t]? = some cellInit := by
        show (st.cells.map Spec.mirror)[t]? = _
        rw [List.getElem?_map, hfresh, Option.map_some, mirror_cellInit]
      refine (spellBranch_eq (mirSpell { st with slots := slots }) t (-z) hfresh').trans ?_
      rw [spellBranch_eq { st with slots := slots } t z hfresh]
      refine commit_mir { st with slots := slots } t (monthOf st z) (monthOf (mirSpell st) (-z)) hall hm hok ?_
      intro h1 h2 h3 h4 k e' hk' he'
      unfold setIdx at hsl
      split at hsl
      · cases hsl
        simp only at hk' he'
        rw [List.getElem?_set_ne (by omega)] at he'
        exact hz h1 h2 h3 h4 k e' hk' he'
      · cases hsl

/-- if both incipient indices are zero they were zero the month before -/
theorem Pair.zero {x1 x2 x3 z : K} {m m' : Month (Fl K)} (h : Pair x1 x2 x3 z m m') (ho : Ordered x1 x2 x3)
    (hd : m.dec = .wait ∨ (m.dec = .choose 2 ∧ m.x = fin 0)) (h1 : m.px1 = fin 0) (h2 : m.px2 = fin 0) : x1 = 0 ∧ x2 = 0 := by
  have key : up x1 z = 0 → down x2 z = 0 → x1 = 0 ∧ x2 = 0 := by
    intro hu hdn
    have e1 : 0.897 * x1 + z / 3 ≤ 0 := by rw [← hu]; exact le_max_right _ _
    have e2 : 0 ≤ 0.897 * x2 + z / 3 := by
      have : down x2 z ≤ 0.897 * x2 + z / 3 := min_le_right _ _
      rw [hdn] at this; exact this
    obtain ⟨o1, o2, _⟩ := ho
    have : 0.897 * x1 ≤ 0.897 * x2 := by linarith
    have : x1 ≤ x2 := le_of_mul_le_mul_left this (by norm_num)
    exact ⟨by linarith, by linarith⟩
  rcases h with ⟨rfl, _⟩ | ⟨q, y, w, rfl, _, h⟩
  · rcases hd with hd | hd
    · cases hd
    · cases hd.1
  · rw [eval200_K] at hd h1 h2
    split at hd
    · rcases hd with hd | hd
      · cases hd
      · cases hd.1
    · next c1 =>
      rw [if_neg c1] at h1 h2
      split at hd
      · next c2 =>
        rcases hd with hd | ⟨_, hd⟩
        · cases hd
        · simp only [Fl.fin.injEq] at hd
          have := c2.1
          rw [hd] at this
          norm_num at this
      · next c2 =>
        rw [if_neg c2] at h1 h2
        split at h1
        · simp only [Fl.fin.injEq] at h1
          next c3 =>
          rw [if_pos c3] at h2
          simp only [Fl.fin.injEq] at h2
          exact key h1 h2
        · next c3 =>
          rw [if_neg c3] at h2
          split at h1
          · next c4 =>
            rw [if_pos c4] at h2
            simp only [Fl.fin.injEq] at h1 h2
            exact key h1 h2
          · next c4 =>
            rw [if_neg c4] at h2
            simp only [Fl.fin.injEq] at h1 h2
            exact key h1 h2

/-- undecided months before a month with two zero incipient indices have zero incipient indices -/
def ZeroBack (t : Nat) (st : Spell (Fl K)) : Prop :=
  st.x1 = fin 0 → st.x2 = fin 0 → ∀ i c, i < st.k8 → st.cells[t - st.k8 + i]? = some c → c.px1 = fin 0 ∧ c.px2 = fin 0

/-- no tie between the incipient indices of a month -/
def NoTie (m : Month (Fl K)) : Prop := m.px3 = fin 0 → m.px1 + m.px2 = fin 0 → m.px1 = fin 0

theorem run_mir (n : Nat) (zs : List K) : ∀ (t : Nat) (st : Spell (Fl K)) (v p x1 x2 x3 : K), Inv n t st → t + zs.length ≤ n →
    st.v = fin v → st.pro = fin p → st.x1 = fin x1 → st.x2 = fin x2 → st.x3 = fin x3 → State v p x1 x2 x3 → AllOk st.cells → ZeroBack t st →
    (∀ m ∈ monthsFrom (fin v) (fin p) (fin x1) (fin x2) (fin x3) (zs.map Fl.fin), (∀ x, m.px3 = fin x → Clear x) ∧ NoneLeft m ∧ NoTie m) →
    (∀ m ∈ monthsFrom (fin (-v)) (fin p) (fin (-x2)) (fin (-x1)) (fin (-x3)) ((zs.map (fun z => -z)).map Fl.fin), NoneLeft m) →
    spellRun ((zs.map (fun z => -z)).map Fl.fin) t (mirSpell st) = (spellRun (zs.map Fl.fin) t st).map mirSpell ∧
      ∀ st', spellRun (zs.map Fl.fin) t st = .ok st' → AllOk st'.cells := by
  induction zs with
  | nil => intro t st v p x1 x2 x3 _ _ _ _ _ _ _ _ hall _ _ _; exact ⟨rfl, fun st' h => by cases h; exact hall⟩
  | cons z zs ih =>
    intro t st v p x1 x2 x3 hinv hn e1 e2 e3 e4 e5 hst hall hzb hA hB
    simp only [List.length_cons] at hn
    simp only [List.map_cons, monthsFrom, List.mem_cons] at hA hB
    obtain ⟨hAc, hAl, hAt⟩ := hA _ (Or.inl rfl)
    have hBl := hB _ (Or.inl rfl)
    have hpair := pair_month v p x1 x2 x3 z hst
    obtain ⟨hmir, v', p', y1, y2, y3, g1, g2, g3, g4, g5, hst'⟩ := month_mir z hst hAc hAl hBl
    have hmo : monthOf st (fin z) = monthEval (fin v) (fin p) (fin x1) (fin x2) (fin x3) (fin z) := by
      unfold monthOf; rw [e1, e2, e3, e4, e5]
    have hmo' : monthOf (mirSpell st) (-fin z) = monthEval (fin (-v)) (fin p) (fin (-x2)) (fin (-x1)) (fin (-x3)) (fin (-z)) := by
      unfold monthOf mirSpell; simp only; rw [e1, e2, e3, e4, e5]; rfl
    rw [← hmo] at hpair hmir g1 g2 g3 g4 g5 hAt hA
    rw [← hmo'] at hpair hmir hB
    have hok : CaseOk (monthOf st (fin z)).cell := by
      refine caseOk_fin _ p' y1 y2 y3 g2 g3 g4 g5 hst'.ord.1 hst'.ord.2.1 (fun h0 hs => ?_)
      have := hAt (by rw [g5, h0]) (by rw [g3, g4, fin_add, hs])
      rw [g3] at this
      exact Fl.fin.inj this
    have hslots : (monthOf st (fin z)).dec = .choose 2 → (monthOf st (fin z)).px1 = fin 0 → (monthOf st (fin z)).px2 = fin 0 →
        (monthOf st (fin z)).x = fin 0 → ∀ k e, k < st.k8 → st.slots[k]? = some e → e.sx1 = fin 0 ∧ e.sx2 = fin 0 := by
      intro h1 h2 h3 h4 k e hk he
      obtain ⟨q1, q2⟩ := hpair.zero hst.ord (Or.inr ⟨h1, h4⟩) h2 h3
      obtain ⟨e', c, w1, _, w3, w4, w5, _⟩ := hinv.pend k hk
      rw [he] at w1
      cases w1
      rw [w4, w5]
      exact hzb (by rw [e3, q1]) (by rw [e4, q2]) k c hk w3
    have hmonth := spellMonth_mir t st (fin z) (hinv.fresh t le_rfl (by omega)) hmir hall hok hslots
    simp only [List.map_cons, spellRun]
    have hneg : (fin (-z) : Fl K) = -fin z := rfl
    rw [hneg, hmonth]
    obtain ⟨herr, hokm⟩ := spellMonth_spec n t st (fin z) hinv (by omega)
    by_cases hk : st.k8 = k8Size
    · rw [herr hk]
      exact ⟨rfl, fun st' h => by cases h⟩
    · have hkle : st.k8 ≤ k8Size := le_trans hinv.k8_max hinv.max_le
      obtain ⟨st1, h1, h2, h3, h4⟩ := hokm (by omega)
      rw [h1]
      simp only [Except.map, bind, Except.bind]
      have hall1 : AllOk st1.cells := by
        intro c hc
        obtain ⟨j, hj, hjc⟩ := List.mem_iff_getElem.1 hc
        have hjc' : st1.cells[j]? = some c := by rw [List.getElem?_eq_getElem hj, hjc]
        by_cases hjt : j = t
        · obtain ⟨c', hc', hs'⟩ := h2.now
          rw [← hjt, hjc'] at hc'
          cases hc'
          exact caseOk_same hs' hok
        · have hjl : j < st.cells.length := by
            rw [hinv.cellsLen, ← h2.inv.cellsLen]; exact hj
          obtain ⟨c', hc', hs'⟩ := h2.same j _ hjt (List.getElem?_eq_getElem hjl)
          rw [hjc'] at hc'
          cases hc'
          exact caseOk_same hs' (hall _ (List.getElem_mem hjl))
      have hzb1 : ZeroBack (t + 1) st1 := by
        intro hx1 hx2 i c hi hc
        by_cases hd : (monthOf st (fin z)).dec = .wait
        · obtain ⟨k1, _⟩ := h4 hd
          rw [h2.x1] at hx1
          rw [h2.x2] at hx2
          obtain ⟨q1, q2⟩ := hpair.zero hst.ord (Or.inl hd) hx1 hx2
          have hkt := hinv.k8_t
          rw [k1] at hi hc
          by_cases hik : i = st.k8
          · rw [show t + 1 - (st.k8 + 1) + i = t by omega] at hc
            obtain ⟨c', hc', _, s2, s3, _⟩ := h2.now
            rw [hc] at hc'
            cases hc'
            exact ⟨s2.trans hx1, s3.trans hx2⟩
          · rw [show t + 1 - (st.k8 + 1) + i = t - st.k8 + i by omega] at hc
            obtain ⟨_, c0, _, _, w3, _⟩ := hinv.pend i (by omega)
            obtain ⟨c', hc', _, s2, s3, _⟩ := h2.same _ c0 (by omega) w3
            rw [hc] at hc'
            cases hc'
            obtain ⟨r1, r2⟩ := hzb (by rw [e3, q1]) (by rw [e4, q2]) i c0 (by omega) w3
            exact ⟨s2.trans r1, s3.trans r2⟩
        · rw [(h3 hd).1] at hi
          omega
      refine ih (t + 1) st1 v' p' y1 y2 y3 h2.inv (by omega) (by rw [h2.v, g1]) (by rw [h2.pro, g2]) (by rw [h2.x1, g3]) (by rw [h2.x2, g4])
        (by rw [h2.x3, g5]) hst' hall1 hzb1 ?_ ?_
      · intro m hm
        refine hA m (Or.inr ?_)
        rw [g1, g2, g3, g4, g5]
        exact hm
      · intro m hm
        refine hB m (Or.inr ?_)
        rw [hmir.pv, hmir.ppr, hmir.px1, hmir.px2, hmir.px3, g1, g2, g3, g4, g5]
        exact hm

/-! ## The final clean-up -/

theorem finishLoop_mir (slots : List (Slot (Fl K))) (last : Cell (Fl K)) (hl : CaseOk last) (k : Nat) (cells : List (Cell (Fl K))) :
    finishLoop (slots.map mirSlot) (Spec.mirror last) k (cells.map Spec.mirror) = (finishLoop slots last k cells).map (List.map Spec.mirror) := by
  induction k with
  | zero => rfl
  | succ k ih =>
    unfold finishLoop
    rw [ih]
    cases finishLoop slots last k cells with
    | error e => rfl
    | ok c1 =>
      simp only [Except.map, bind, Except.bind]
      rw [getIdx_map]
      cases getIdx slots k with
      | error e => rfl
      | ok e =>
        simp only [Except.map]
        have hidx : (mirSlot e).idx = e.idx := rfl
        rw [hidx]
        cases e.idx with
        | none => rfl
        | some j =>
          simp only
          rw [getIdx_map]
          cases getIdx c1 j with
          | error e => rfl
          | ok c =>
            simp only [Except.map]
            have hp : ({ Spec.mirror c with
                pdsi := (Spec.mirror c).x
                phdi := if feq (Spec.mirror c).px3 (lit 0) then (Spec.mirror c).x else (Spec.mirror c).px3
                wplm := palmerCase (Spec.mirror last).ppr (Spec.mirror last).px1 (Spec.mirror last).px2 (Spec.mirror last).px3 } : Cell (Fl K)) =
                Spec.mirror { c with
                  pdsi := c.x
                  phdi := if feq c.px3 (lit 0) then c.x else c.px3
                  wplm := palmerCase last.ppr last.px1 last.px2 last.px3 } := by
              have hl' : palmerCase (Spec.mirror last).ppr (Spec.mirror last).px1 (Spec.mirror last).px2 (Spec.mirror last).px3 =
                -palmerCase last.ppr last.px1 last.px2 last.px3 := hl
              rw [hl']
              have hph : (if feq (Spec.mirror c).px3 (lit 0) then (Spec.mirror c).x else (Spec.mirror c).px3) =
                  -(if feq c.px3 (lit 0) then c.x else c.px3) := by
                have hf : feq (Spec.mirror c).px3 (lit 0) = feq c.px3 (lit 0) := feq_neg_zero _
                rw [hf]
                split <;> rfl
              rw [hph]
              rfl
            rw [hp]
            exact setIdx_map _ _ _ _

theorem finishUp_mir (st : Spell (Fl K)) (h : AllOk st.cells) : finishUp (mirSpell st) = (finishUp st).map (List.map Spec.mirror) := by
  unfold finishUp
  have hc : (mirSpell st).cells = st.cells.map Spec.mirror := rfl
  rw [hc, List.getLast?_map]
  cases hl : st.cells.getLast? with
  | none => rfl
  | some last => exact finishLoop_mir st.slots last (h last (List.mem_of_getLast? hl)) st.k8max st.cells

theorem mirror_init (n : Nat) : mirSpell (spellInit n : Spell (Fl K)) = spellInit n := by
  unfold mirSpell spellInit
  simp only [List.map_replicate, mirror_cellInit]
  have hs : mirSlot (slotInit : Slot (Fl K)) = slotInit := by
    unfold mirSlot slotInit
    rw [lit0, fin_neg, neg_zero]
  rw [hs, lit0, fin_neg, neg_zero]

theorem spellCells_mir (zs : List K)
    (hA : ∀ m ∈ months (zs.map Fl.fin), (∀ x, m.px3 = fin x → Clear x) ∧ NoneLeft m ∧ NoTie m)
    (hB : ∀ m ∈ months ((zs.map (fun z => -z)).map Fl.fin), NoneLeft m) :
    spellCells ((zs.map (fun z => -z)).map Fl.fin) = (spellCells (zs.map Fl.fin)).map (List.map Spec.mirror) := by
  unfold spellCells
  have hlen : ((zs.map (fun z => -z)).map Fl.fin : List (Fl K)).length = (zs.map Fl.fin).length := by simp
  rw [hlen]
  have hclear : Clear (0 : K) := by
    rintro ⟨h1, _⟩
    rw [abs_zero] at h1
    norm_num at h1
  have hstate : State (0 : K) 0 0 0 0 :=
    ⟨⟨le_rfl, le_rfl, fun h => h.le, fun h => h.le, fun _ => ⟨by norm_num, by norm_num⟩⟩, Or.inl ⟨rfl, rfl⟩, hclear⟩
  have hall : AllOk (spellInit (zs.map Fl.fin).length : Spell (Fl K)).cells := by
    intro c hc
    have : c = cellInit := by
      unfold spellInit at hc
      exact List.eq_of_mem_replicate hc
    subst this
    exact caseOk_fin _ 0 0 0 0 lit0 lit0 lit0 lit0 le_rfl le_rfl (fun _ _ => rfl)
  unfold months at hA hB
  rw [lit0] at hA hB
  obtain ⟨h1, h2⟩ := run_mir (zs.map Fl.fin).length zs 0 (spellInit (zs.map Fl.fin).length) 0 0 0 0 0 (inv_init _) (by simp) lit0 lit0 lit0 lit0 lit0
    hstate hall (by intro _ _ i c hi; simp [spellInit] at hi) hA (by rw [neg_zero]; exact hB)
  rw [mirror_init] at h1
  rw [h1]
  cases hr : spellRun (zs.map Fl.fin) 0 (spellInit (zs.map Fl.fin).length) with
  | error e => rfl
  | ok st => exact finishUp_mir st (h2 st hr)

end CI.Mirror
