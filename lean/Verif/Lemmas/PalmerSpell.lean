import Verif.Model.PalmerSpell

/-!
# The spell machine: decision of one month, backlog invariant
-/

namespace CI
variable {F : Type} [FloatOps F]

/-! ## Reading and writing -/

theorem getIdx_some {α : Type} {l : List α} {i : Nat} {x : α} (h : l[i]? = some x) : getIdx l i = .ok x := by
  unfold getIdx; rw [h]

theorem setIdx_lt {α : Type} {l : List α} {i : Nat} (x : α) (h : i < l.length) : setIdx l i x = .ok (l.set i x) := by
  unfold setIdx; rw [if_pos h]

theorem getIdx_none {α : Type} {l : List α} {i : Nat} (h : l.length ≤ i) : getIdx l i = .error .indexError := by
  unfold getIdx; rw [List.getElem?_eq_none h]

theorem lt_of_getElem? {α : Type} {l : List α} {i : Nat} {x : α} (h : l[i]? = some x) : i < l.length := by
  by_contra hc
  rw [List.getElem?_eq_none (by omega)] at h
  cases h

/-! ## The decision of one month as a function of the spell variables -/

/-- what happens to the backlog: accept all stored x3 (statement 210), choose x1 or x2 and backtrack, or wait -/
inductive Dec where
  | accept
  | choose (iass : Nat)
  | wait
  deriving DecidableEq

/-- the numbers of one month -/
structure Month (F : Type) where
  ppr : F
  px1 : F
  px2 : F
  px3 : F
  x : F
  pv : F
  dec : Dec

/-- statement 200 on numbers -/
def eval200 (x1 x2 z ppr px3 pv : F) : Month F :=
  let px1 := pyMax (lit 0) (lit 0.897 * x1 + z / lit 3)
  let px2 := pyMin (lit 0) (lit 0.897 * x2 + z / lit 3)
  if fle (lit 1) px1 && feq px3 (lit 0) then ⟨ppr, lit 0, lit 0, px1, px1, pv, .choose 1⟩
  else if fle px2 (lit (-1)) && feq px3 (lit 0) then ⟨ppr, px1, lit 0, px2, px2, pv, .choose 2⟩
  else if feq px3 (lit 0) && feq px1 (lit 0) then ⟨ppr, px1, px2, px3, px2, pv, .choose 2⟩
  else if feq px3 (lit 0) && feq px2 (lit 0) then ⟨ppr, px1, px2, px3, px1, pv, .choose 1⟩
  else ⟨ppr, px1, px2, px3, px3, pv, .wait⟩

/-- statement 210 on numbers -/
def eval210 (x3 z : F) : Month F :=
  let px3 := lit 0.897 * x3 + z / lit 3
  ⟨lit 0, lit 0, lit 0, px3, px3, lit 0, .accept⟩

/-- statement 190 on numbers -/
def eval190 (v pro x1 x2 x3 z pv ze : F) : Month F :=
  let q := if feq pro (lit 100) then ze else ze + v
  let ppr := (pv / q) * lit 100
  if fle (lit 100) ppr then eval200 x1 x2 z (lit 100) (lit 0) pv
  else eval200 x1 x2 z ppr (lit 0.897 * x3 + z / lit 3) pv

/-- statement 180 on numbers -/
def eval180 (v pro x1 x2 x3 z : F) : Month F :=
  let pv := (z + lit 0.15) + pyMax v (lit 0)
  if fle pv (lit 0) then eval210 x3 z else eval190 v pro x1 x2 x3 z pv (lit (-2.691) * x3 - lit 1.5)

/-- statement 170 on numbers -/
def eval170 (v pro x1 x2 x3 z : F) : Month F :=
  let pv := (z - lit 0.15) + pyMin v (lit 0)
  if fle (lit 0) pv then eval210 x3 z else eval190 v pro x1 x2 x3 z pv (lit (-2.691) * x3 + lit 1.5)

/-- the branching of one month on numbers -/
def monthEval (v pro x1 x2 x3 z : F) : Month F :=
  if feq pro (lit 100) || feq pro (lit 0) then
    if fle (lit (-0.5)) x3 && fle x3 (lit 0.5) then eval200 x1 x2 z (lit 0) (lit 0) (lit 0)
    else if flt (lit 0.5) x3 then
      if fle (lit 0.15) z then eval210 x3 z else eval170 v pro x1 x2 x3 z
    else if flt x3 (lit (-0.5)) then
      if fle z (lit (-0.15)) then eval210 x3 z else eval180 v pro x1 x2 x3 z
    else eval170 v pro x1 x2 x3 z
  else
    if flt (lit 0) x3 then eval170 v pro x1 x2 x3 z
    else if fle x3 (lit 0) then eval180 v pro x1 x2 x3 z
    else eval170 v pro x1 x2 x3 z

/-- the decision for a state -/
def monthOf (st : Spell F) (z : F) : Month F := monthEval st.v st.pro st.x1 st.x2 st.x3 z

/-- the entry stored for a month before the three indices are assigned -/
def Month.cell (m : Month F) : Cell F := ⟨nan, nan, nan, m.ppr, m.px1, m.px2, m.px3, m.x⟩

/-- effect of a decision on the state -/
def commit (st : Spell F) (t : Nat) (m : Month F) : Res (Spell F) :=
  let st1 : Spell F := { st with cells := st.cells.set t m.cell }
  match m.dec with
  | .accept => do
    let st2 ← if st.k8 = 0 then pure { st1 with cells := st1.cells.set t (finalCell m.cell m.x) } else assign st1 t 3
    statement220 st2 t m.pv
  | .choose i => do
    let st2 ← assign st1 t i
    statement220 st2 t m.pv
  | .wait => do
    let slots := growSlots st.k8 st.slots
    let e ← getIdx slots st.k8
    let slots ← setIdx slots st.k8 { e with sx1 := m.px1, sx2 := m.px2, sx3 := m.px3 }
    statement220 { st1 with slots := slots, k8 := st.k8 + 1, k8max := st.k8 + 1 } t m.pv

theorem statement210_eq (st : Spell F) (t : Nat) (z : F) (h : st.cells[t]? = some cellInit) :
    statement210 st t z = commit st t (eval210 st.x3 z) := by
  unfold statement210 commit eval210
  rw [getIdx_some h]
  simp only [bind, Except.bind, Month.cell, cellInit]

theorem statement200_eq (st : Spell F) (t : Nat) (z pv ppr px3 : F) (c : Cell F)
    (hc : c = { (cellInit : Cell F) with ppr := ppr, px3 := px3 }) :
    statement200 { st with cells := st.cells.set t c } t z pv c = commit st t (eval200 st.x1 st.x2 z ppr px3 pv) := by
  unfold statement200 eval200
  subst hc
  simp only [cellInit]
  split
  · simp only [commit, Month.cell, List.set_set, bind, Except.bind]
  · split
    · simp only [commit, Month.cell, List.set_set, bind, Except.bind]
    · split
      · simp only [commit, Month.cell, List.set_set, bind, Except.bind]
      · split
        · simp only [commit, Month.cell, List.set_set, bind, Except.bind]
        · simp only [commit, Month.cell, List.set_set, bind, Except.bind]

theorem statement190_eq (st : Spell F) (t : Nat) (z pv ze : F) (h : st.cells[t]? = some cellInit) :
    statement190 st t z pv ze = commit st t (eval190 st.v st.pro st.x1 st.x2 st.x3 z pv ze) := by
  unfold statement190 eval190
  rw [getIdx_some h]
  simp only [bind, Except.bind]
  generalize (if feq st.pro (lit 100) then ze else ze + st.v) = q
  split
  · exact statement200_eq st t z pv (lit 100) (lit 0) _ rfl
  · exact statement200_eq st t z pv _ _ _ rfl

theorem statement180_eq (st : Spell F) (t : Nat) (z : F) (h : st.cells[t]? = some cellInit) :
    statement180 st t z = commit st t (eval180 st.v st.pro st.x1 st.x2 st.x3 z) := by
  unfold statement180 eval180
  simp only
  split
  · exact statement210_eq st t z h
  · exact statement190_eq st t z _ _ h

theorem statement170_eq (st : Spell F) (t : Nat) (z : F) (h : st.cells[t]? = some cellInit) :
    statement170 st t z = commit st t (eval170 st.v st.pro st.x1 st.x2 st.x3 z) := by
  unfold statement170 eval170
  simp only
  split
  · exact statement210_eq st t z h
  · exact statement190_eq st t z _ _ h

/-- the branching on a fresh month is the decision on numbers followed by its effect on the state -/
theorem spellBranch_eq (st : Spell F) (t : Nat) (z : F) (h : st.cells[t]? = some cellInit) :
    spellBranch st t z = commit st t (monthOf st z) := by
  unfold spellBranch monthOf monthEval
  rw [statement210_eq st t z h, statement170_eq st t z h, statement180_eq st t z h, getIdx_some h]
  simp only [bind, Except.bind]
  rw [statement200_eq st t z (lit 0) (lit 0) (lit 0) _ rfl]
  split
  · split
    · rfl
    · split
      · split <;> rfl
      · split
        · split <;> rfl
        · rfl
  · split
    · rfl
    · split <;> rfl

/-! ## Backtracking -/

/-- the backlog after the choice: the first `i` entries carry one of their three stored values, nothing else changes -/
def SxChoice (i : Nat) (s s' : List (Slot F)) : Prop :=
  s'.length = s.length ∧ ∀ (k : Nat) (e : Slot F), s[k]? = some e → ∃ e', s'[k]? = some e' ∧ e'.idx = e.idx ∧
    e'.sx1 = e.sx1 ∧ e'.sx2 = e.sx2 ∧ e'.sx3 = e.sx3 ∧
    (k < i → e'.sx = e.sx1 ∨ e'.sx = e.sx2 ∨ e'.sx = e.sx3) ∧ (i ≤ k → e'.sx = e.sx)

theorem SxChoice.refl (s : List (Slot F)) : SxChoice 0 s s :=
  ⟨rfl, fun k e h => ⟨e, h, rfl, rfl, rfl, rfl, fun h => absurd h (by omega), fun _ => rfl⟩⟩

theorem sxChoice_step (i : Nat) (s s' : List (Slot F)) (e : Slot F) (v : F) (he : s[i]? = some e)
    (hv : v = e.sx1 ∨ v = e.sx2 ∨ v = e.sx3) (h : SxChoice i (s.set i { e with sx := v }) s') : SxChoice (i + 1) s s' := by
  obtain ⟨hl, hk⟩ := h
  have hi := lt_of_getElem? he
  refine ⟨by rw [hl, List.length_set], ?_⟩
  intro k f hf
  by_cases hki : k = i
  · subst hki
    rw [he] at hf
    cases hf
    obtain ⟨e', h1, h2, h3, h4, h5, _, h7⟩ := hk k { e with sx := v } (by rw [List.getElem?_set_self hi])
    refine ⟨e', h1, h2, h3, h4, h5, fun _ => ?_, fun hc => absurd hc (by omega)⟩
    rw [h7 (le_refl _)]
    exact hv
  · obtain ⟨e', h1, h2, h3, h4, h5, h6, h7⟩ := hk k f (by rw [List.getElem?_set_ne (Ne.symm hki)]; exact hf)
    exact ⟨e', h1, h2, h3, h4, h5, fun hc => h6 (by omega), fun hc => h7 (by omega)⟩

theorem backtrack_spec (i isave : Nat) (s : List (Slot F)) (h : i ≤ s.length) :
    ∃ s', backtrack i isave s = .ok s' ∧ SxChoice i s s' := by
  induction i generalizing isave s with
  | zero => exact ⟨s, rfl, SxChoice.refl s⟩
  | succ i ih =>
    have hi : i < s.length := by omega
    have he : s[i]? = some s[i] := List.getElem?_eq_getElem hi
    unfold backtrack
    rw [getIdx_some he]
    simp only [bind, Except.bind]
    have go : ∀ (isave : Nat) (v : F), (v = s[i].sx1 ∨ v = s[i].sx2 ∨ v = s[i].sx3) →
        ∃ s', backtrack i isave (s.set i { s[i] with sx := v }) = .ok s' ∧ SxChoice (i + 1) s s' := by
      intro isave v hv
      obtain ⟨s', hs', hc⟩ := ih isave (s.set i { s[i] with sx := v }) (by rw [List.length_set]; omega)
      exact ⟨s', hs', sxChoice_step i s s' _ v he hv hc⟩
    split
    · split
      · exact go 1 _ (Or.inl rfl)
      · exact go 2 _ (Or.inr (Or.inl rfl))
    · split
      · exact go 2 _ (Or.inr (Or.inl rfl))
      · exact go 1 _ (Or.inl rfl)

theorem takeX3_spec (i : Nat) (s : List (Slot F)) (h : i ≤ s.length) :
    ∃ s', takeX3 i s = .ok s' ∧ SxChoice i s s' ∧ ∀ k e', k < i → s'[k]? = some e' → e'.sx = e'.sx3 := by
  induction i with
  | zero => exact ⟨s, rfl, SxChoice.refl s, fun k e' hk => absurd hk (by omega)⟩
  | succ i ih =>
    obtain ⟨s', hs', ⟨hl, hk⟩, hx⟩ := ih (by omega)
    have hi : i < s'.length := by omega
    have he : s'[i]? = some s'[i] := List.getElem?_eq_getElem hi
    unfold takeX3
    rw [hs']
    simp only [bind, Except.bind]
    rw [getIdx_some he]
    simp only
    rw [setIdx_lt _ hi]
    refine ⟨_, rfl, ⟨by rw [List.length_set, hl], ?_⟩, ?_⟩
    · intro k e hke
      obtain ⟨e', h1, h2, h3, h4, h5, h6, h7⟩ := hk k e hke
      by_cases hki : k = i
      · subst hki
        rw [h1] at he
        injection he with he
        refine ⟨_, List.getElem?_set_self hi, ?_, ?_, ?_, ?_, ?_, ?_⟩
        · rw [← he]; exact h2
        · rw [← he]; exact h3
        · rw [← he]; exact h4
        · rw [← he]; exact h5
        · intro _; rw [← he]; right; right; exact h5
        · intro hc; omega
      · refine ⟨e', by rw [List.getElem?_set_ne (Ne.symm hki)]; exact h1, h2, h3, h4, h5, ?_, ?_⟩
        · intro hc; exact h6 (by omega)
        · intro hc; exact h7 (by omega)
    · intro k e' hk' hg
      by_cases hki : k = i
      · subst hki
        rw [List.getElem?_set_self hi] at hg
        cases hg; rfl
      · rw [List.getElem?_set_ne (Ne.symm hki)] at hg
        exact hx k e' (by omega) hg

/-- the output loop writes the three indices of the months `b, ..., b + k - 1` -/
theorem outputLoop_spec (slots : List (Slot F)) (b k : Nat) (cells : List (Cell F))
    (hs : ∀ i, i < k → ∃ e, slots[i]? = some e ∧ e.idx = some (b + i)) (hb : b + k ≤ cells.length) :
    ∃ cells', outputLoop slots k cells = .ok cells' ∧ cells'.length = cells.length ∧
      ∀ j, cells'[j]? = if b ≤ j ∧ j < b + k then (cells[j]?).bind (fun c => (slots[j - b]?).map (fun e => finalCell c e.sx))
        else cells[j]? := by
  induction k with
  | zero => exact ⟨cells, rfl, rfl, fun j => by rw [if_neg (by omega)]⟩
  | succ k ih =>
    obtain ⟨cells', hc, hl, hj⟩ := ih (fun i hi => hs i (by omega)) (by omega)
    obtain ⟨e, he, hidx⟩ := hs k (by omega)
    unfold outputLoop
    rw [hc]
    simp only [bind, Except.bind]
    rw [getIdx_some he]
    simp only [hidx]
    have hbk : b + k < cells'.length := by omega
    have hcell : cells'[b + k]? = cells[b + k]? := by rw [hj, if_neg (by omega)]
    have hsome : cells[b + k]? = some cells[b + k] := List.getElem?_eq_getElem (by omega)
    rw [getIdx_some (hcell.trans hsome)]
    simp only
    rw [setIdx_lt _ hbk]
    refine ⟨_, rfl, by rw [List.length_set, hl], ?_⟩
    intro j
    by_cases hjk : j = b + k
    · subst hjk
      rw [List.getElem?_set_self hbk, if_pos (by omega), hsome, Nat.add_sub_cancel_left, he]
      rfl
    · rw [List.getElem?_set_ne (Ne.symm hjk), hj]
      by_cases h1 : b ≤ j ∧ j < b + k
      · rw [if_pos h1, if_pos (by omega)]
      · rw [if_neg h1, if_neg (by omega)]

/-! ## The invariant -/

/-- a month whose three indices have been assigned: the PDSI is one of the month's three indices, the PHDI is the established index or, if there is none, the
PDSI; the PMDI is `_case` of the month's own values -/
structure Resolved (c : Cell F) : Prop where
  pdsi : c.pdsi = c.px1 ∨ c.pdsi = c.px2 ∨ c.pdsi = c.px3
  phdi : c.phdi = if feq c.px3 (lit 0) then c.pdsi else c.px3
  wplm : c.wplm = palmerCase c.ppr c.px1 c.px2 c.px3

theorem finalCell_resolved (c : Cell F) (xv : F) (h : xv = c.px1 ∨ xv = c.px2 ∨ xv = c.px3) : Resolved (finalCell c xv) :=
  ⟨h, rfl, rfl⟩

/-- same numbers, possibly different assigned indices -/
def SameNumbers (c c' : Cell F) : Prop :=
  c'.ppr = c.ppr ∧ c'.px1 = c.px1 ∧ c'.px2 = c.px2 ∧ c'.px3 = c.px3 ∧ c'.x = c.x

theorem SameNumbers.refl (c : Cell F) : SameNumbers c c := ⟨rfl, rfl, rfl, rfl, rfl⟩

theorem finalCell_same (c : Cell F) (xv : F) : SameNumbers c (finalCell c xv) := ⟨rfl, rfl, rfl, rfl, rfl⟩

/-- invariant after `t` months of a record of `n` months: the undecided months are the last `k8` ones -/
structure Inv (n t : Nat) (st : Spell F) : Prop where
  slotsLen : st.slots.length = k8Size
  cellsLen : st.cells.length = n
  k8_t : st.k8 ≤ t
  k8_max : st.k8 ≤ st.k8max
  max_le : st.k8max ≤ k8Size
  idxs : ∀ i, i < st.k8max → ∃ e j, st.slots[i]? = some e ∧ e.idx = some j ∧ j < t
  pend : ∀ i, i < st.k8 → ∃ e c, st.slots[i]? = some e ∧ e.idx = some (t - st.k8 + i) ∧ st.cells[t - st.k8 + i]? = some c ∧
    e.sx1 = c.px1 ∧ e.sx2 = c.px2 ∧ e.sx3 = c.px3 ∧ c.x = c.px3
  res : ∀ j c, j < t - st.k8 → st.cells[j]? = some c → Resolved c
  chosen : ∀ j c, j < t → st.cells[j]? = some c → c.x = c.px1 ∨ c.x = c.px2 ∨ c.x = c.px3
  fresh : ∀ j, t ≤ j → j < n → st.cells[j]? = some cellInit

theorem inv_init (n : Nat) : Inv n 0 (spellInit n : Spell F) where
  slotsLen := by simp [spellInit]
  cellsLen := by simp [spellInit]
  k8_t := by simp [spellInit]
  k8_max := by simp [spellInit]
  max_le := by simp [spellInit]
  idxs := by intro i hi; simp [spellInit] at hi
  pend := by intro i hi; simp [spellInit] at hi
  res := by intro j c hj; simp [spellInit] at hj
  chosen := by intro j c hj; omega
  fresh := by
    intro j _ hj
    simp only [spellInit]
    rw [List.getElem?_replicate_of_lt hj]

/-- state of a month being processed: entered in the index arrays -/
structure Entered (n t : Nat) (st : Spell F) : Prop where
  slotsLen : st.slots.length = k8Size
  cellsLen : st.cells.length = n
  t_lt : t < n
  k8_t : st.k8 ≤ t
  k8_max : st.k8 ≤ st.k8max
  k8_lt : st.k8 < k8Size
  max_le : st.k8max ≤ k8Size
  idxs : ∀ i, i < st.k8max → ∃ e j, st.slots[i]? = some e ∧ e.idx = some j ∧ j < t + 1
  cur : ∃ e, st.slots[st.k8]? = some e ∧ e.idx = some t
  pend : ∀ i, i < st.k8 → ∃ e c, st.slots[i]? = some e ∧ e.idx = some (t - st.k8 + i) ∧ st.cells[t - st.k8 + i]? = some c ∧
    e.sx1 = c.px1 ∧ e.sx2 = c.px2 ∧ e.sx3 = c.px3 ∧ c.x = c.px3
  res : ∀ j c, j < t - st.k8 → st.cells[j]? = some c → Resolved c
  chosen : ∀ j c, j < t → st.cells[j]? = some c → c.x = c.px1 ∨ c.x = c.px2 ∨ c.x = c.px3
  fresh : ∀ j, t ≤ j → j < n → st.cells[j]? = some cellInit

/-- what one month does, whatever the decision -/
structure StepOk (n t : Nat) (st : Spell F) (m : Month F) (st' : Spell F) : Prop where
  inv : Inv n (t + 1) st'
  kept : ∀ j, j < t - st.k8 → st'.cells[j]? = st.cells[j]?
  same : ∀ j c, j ≠ t → st.cells[j]? = some c → ∃ c', st'.cells[j]? = some c' ∧ SameNumbers c c'
  now : ∃ c, st'.cells[t]? = some c ∧ SameNumbers m.cell c
  v : st'.v = m.pv
  pro : st'.pro = m.ppr
  x1 : st'.x1 = m.px1
  x2 : st'.x2 = m.px2
  x3 : st'.x3 = m.px3

/-- the chosen value of a decision is one of the three indices -/
def Month.Chosen (m : Month F) : Prop := m.x = m.px1 ∨ m.x = m.px2 ∨ m.x = m.px3

theorem eval200_chosen (x1 x2 z ppr px3 pv : F) : (eval200 x1 x2 z ppr px3 pv).Chosen := by
  unfold eval200 Month.Chosen
  simp only
  split
  · simp
  · split
    · simp
    · split
      · simp
      · split <;> simp

theorem eval210_chosen (x3 z : F) : (eval210 x3 z).Chosen := Or.inr (Or.inr rfl)

theorem eval190_chosen (v pro x1 x2 x3 z pv ze : F) : (eval190 v pro x1 x2 x3 z pv ze).Chosen := by
  unfold eval190; simp only
  generalize (if feq pro (lit 100) then ze else ze + v) = q
  split <;> exact eval200_chosen _ _ _ _ _ _

theorem eval180_chosen (v pro x1 x2 x3 z : F) : (eval180 v pro x1 x2 x3 z).Chosen := by
  unfold eval180; simp only; split
  · exact eval210_chosen _ _
  · exact eval190_chosen _ _ _ _ _ _ _ _

theorem eval170_chosen (v pro x1 x2 x3 z : F) : (eval170 v pro x1 x2 x3 z).Chosen := by
  unfold eval170; simp only; split
  · exact eval210_chosen _ _
  · exact eval190_chosen _ _ _ _ _ _ _ _

theorem monthEval_chosen (v pro x1 x2 x3 z : F) : (monthEval v pro x1 x2 x3 z).Chosen := by
  unfold monthEval
  split
  · split
    · exact eval200_chosen _ _ _ _ _ _
    · split
      · split
        · exact eval210_chosen _ _
        · exact eval170_chosen _ _ _ _ _ _
      · split
        · split
          · exact eval210_chosen _ _
          · exact eval180_chosen _ _ _ _ _ _
        · exact eval170_chosen _ _ _ _ _ _
  · split
    · exact eval170_chosen _ _ _ _ _ _
    · split
      · exact eval180_chosen _ _ _ _ _ _
      · exact eval170_chosen _ _ _ _ _ _

/-- while waiting, the stored value is `x3` -/
def Month.WaitX3 (m : Month F) : Prop := m.dec = .wait → m.x = m.px3

theorem eval200_wait (x1 x2 z ppr px3 pv : F) : (eval200 x1 x2 z ppr px3 pv).WaitX3 := by
  unfold eval200 Month.WaitX3
  simp only
  split
  · simp
  · split
    · simp
    · split
      · simp
      · split <;> simp

theorem eval210_wait (x3 z : F) : (eval210 x3 z).WaitX3 := fun _ => rfl

theorem eval190_wait (v pro x1 x2 x3 z pv ze : F) : (eval190 v pro x1 x2 x3 z pv ze).WaitX3 := by
  unfold eval190; simp only
  generalize (if feq pro (lit 100) then ze else ze + v) = q
  split <;> exact eval200_wait _ _ _ _ _ _

theorem eval180_wait (v pro x1 x2 x3 z : F) : (eval180 v pro x1 x2 x3 z).WaitX3 := by
  unfold eval180; simp only; split
  · exact eval210_wait _ _
  · exact eval190_wait _ _ _ _ _ _ _ _

theorem eval170_wait (v pro x1 x2 x3 z : F) : (eval170 v pro x1 x2 x3 z).WaitX3 := by
  unfold eval170; simp only; split
  · exact eval210_wait _ _
  · exact eval190_wait _ _ _ _ _ _ _ _

theorem monthEval_wait (v pro x1 x2 x3 z : F) : (monthEval v pro x1 x2 x3 z).WaitX3 := by
  unfold monthEval
  split
  · split
    · exact eval200_wait _ _ _ _ _ _
    · split
      · split
        · exact eval210_wait _ _
        · exact eval170_wait _ _ _ _ _ _
      · split
        · split
          · exact eval210_wait _ _
          · exact eval180_wait _ _ _ _ _ _
        · exact eval170_wait _ _ _ _ _ _
  · split
    · exact eval170_wait _ _ _ _ _ _
    · split
      · exact eval180_wait _ _ _ _ _ _
      · exact eval170_wait _ _ _ _ _ _

/-- effect of `_assign` on a month that has been entered and given its numbers -/
theorem assign_spec (n t : Nat) (st : Spell F) (c : Cell F) (iass : Nat) (h : Entered n t st)
    (hcx : c.x = c.px1 ∨ c.x = c.px2 ∨ c.x = c.px3) :
    ∃ st', assign { st with cells := st.cells.set t c } t iass = .ok st' ∧ st'.k8 = 0 ∧ st'.k8max = st.k8max ∧
      st'.slots.length = k8Size ∧ st'.cells.length = n ∧
      (∀ (i : Nat) (e : Slot F), st.slots[i]? = some e → ∃ e', st'.slots[i]? = some e' ∧ e'.idx = e.idx) ∧
      (∀ j, j < t - st.k8 → st'.cells[j]? = st.cells[j]?) ∧
      (∀ j, t < j → st'.cells[j]? = st.cells[j]?) ∧
      (∀ j c', t - st.k8 ≤ j → j < t → st.cells[j]? = some c' → ∃ c'', st'.cells[j]? = some c'' ∧ SameNumbers c' c'' ∧ Resolved c'') ∧
      (∃ c', st'.cells[t]? = some c' ∧ SameNumbers c c' ∧ Resolved c') := by
  obtain ⟨ecur, hecur, hidx⟩ := h.cur
  have htl : t < st.cells.length := by rw [h.cellsLen]; exact h.t_lt
  have hk : st.k8 < st.slots.length := by rw [h.slotsLen]; exact h.k8_lt
  have hct : (st.cells.set t c)[t]? = some c := List.getElem?_set_self htl
  unfold assign
  simp only
  rw [getIdx_some hct, getIdx_some hecur]
  simp only [bind, Except.bind, pure, Except.pure]
  rw [setIdx_lt _ hk]
  simp only
  by_cases h0 : st.k8 = 0
  · rw [if_pos h0]
    refine ⟨_, rfl, h0, rfl, by rw [List.length_set, h.slotsLen], by rw [List.length_set, List.length_set, h.cellsLen], ?_, ?_, ?_, ?_, ?_⟩
    · intro i e he
      by_cases hi : i = st.k8
      · subst hi
        rw [hecur] at he; cases he
        exact ⟨_, List.getElem?_set_self hk, rfl⟩
      · exact ⟨e, by rw [List.getElem?_set_ne (Ne.symm hi)]; exact he, rfl⟩
    · intro j hj
      simp only
      rw [List.getElem?_set_ne (by omega), List.getElem?_set_ne (by omega)]
    · intro j hj
      simp only
      rw [List.getElem?_set_ne (by omega), List.getElem?_set_ne (by omega)]
    · intro j c' h1 h2; omega
    · refine ⟨finalCell c c.x, ?_, finalCell_same _ _, finalCell_resolved _ _ hcx⟩
      simp only
      rw [List.getElem?_set_self (by rw [List.length_set]; exact htl)]
  · rw [if_neg h0]
    generalize hs0 : st.slots.set st.k8 { ecur with sx := c.x } = s0
    have hs0len : s0.length = k8Size := by rw [← hs0, List.length_set, h.slotsLen]
    have hchoice : ∃ s', chooseSx iass st.k8 s0 = .ok s' ∧ SxChoice st.k8 s0 s' := by
      have hle : st.k8 ≤ s0.length := by rw [hs0len]; exact h.k8_lt.le
      unfold chooseSx
      split
      · obtain ⟨s', h1, h2, _⟩ := takeX3_spec st.k8 s0 hle
        exact ⟨s', h1, h2⟩
      · exact backtrack_spec st.k8 iass s0 hle
    obtain ⟨s', hs', hlen', hch⟩ := hchoice
    rw [hs']
    simp only
    -- the stored entries
    have hslot : ∀ i, i < st.k8 + 1 → ∃ e, s'[i]? = some e ∧ e.idx = some (t - st.k8 + i) := by
      intro i hi
      by_cases hik : i = st.k8
      · subst hik
        obtain ⟨e', h1, h2, _⟩ := hch st.k8 { ecur with sx := c.x } (by rw [← hs0]; exact List.getElem?_set_self hk)
        refine ⟨e', h1, ?_⟩
        rw [h2]
        show ecur.idx = _
        rw [hidx]
        congr 1
        have := h.k8_t
        omega
      · obtain ⟨e, cc, h1, h2, _⟩ := h.pend i (by omega)
        obtain ⟨e', h3, h4, _⟩ := hch i e (by rw [← hs0, List.getElem?_set_ne (Ne.symm hik)]; exact h1)
        exact ⟨e', h3, by rw [h4, h2]⟩
    have hb : t - st.k8 + (st.k8 + 1) ≤ (st.cells.set t c).length := by
      rw [List.length_set, h.cellsLen]
      have := h.k8_t
      have := h.t_lt
      omega
    obtain ⟨cells', hc', hcl, hcj⟩ := outputLoop_spec s' (t - st.k8) (st.k8 + 1) (st.cells.set t c) hslot hb
    rw [hc']
    have hk8t := h.k8_t
    refine ⟨_, rfl, rfl, rfl, by rw [hlen', hs0len], by rw [hcl, List.length_set, h.cellsLen], ?_, ?_, ?_, ?_, ?_⟩
    · intro i e he
      by_cases hik : i = st.k8
      · subst hik
        rw [hecur] at he; cases he
        obtain ⟨e', h1, h2, _⟩ := hch st.k8 { ecur with sx := c.x } (by rw [← hs0]; exact List.getElem?_set_self hk)
        exact ⟨e', h1, h2⟩
      · obtain ⟨e', h3, h4, _⟩ := hch i e (by rw [← hs0, List.getElem?_set_ne (Ne.symm hik)]; exact he)
        exact ⟨e', h3, h4⟩
    · intro j hj
      show cells'[j]? = _
      rw [hcj, if_neg (by omega), List.getElem?_set_ne (by omega)]
    · intro j hj
      show cells'[j]? = _
      rw [hcj, if_neg (by omega), List.getElem?_set_ne (by omega)]
    · intro j c' h1 h2 h3
      obtain ⟨e, cc, p1, p2, p3, p4, p5, p6, p7⟩ := h.pend (j - (t - st.k8)) (by omega)
      have hjj : t - st.k8 + (j - (t - st.k8)) = j := by omega
      rw [hjj, h3] at p3
      cases p3
      obtain ⟨e', q1, q2, q3, q4, q5, q6, _⟩ := hch (j - (t - st.k8)) e (by
        rw [← hs0, List.getElem?_set_ne (by omega)]; exact p1)
      refine ⟨finalCell c' e'.sx, ?_, finalCell_same _ _, finalCell_resolved _ _ ?_⟩
      · show cells'[j]? = _
        rw [hcj, if_pos (by omega), List.getElem?_set_ne (by omega), h3, q1]
        rfl
      · rcases q6 (by omega) with q | q | q
        · left; rw [q, p4]
        · right; left; rw [q, p5]
        · right; right; rw [q, p6]
    · obtain ⟨e', q1, q2, q3, q4, q5, _, q7⟩ := hch st.k8 { ecur with sx := c.x } (by
        rw [← hs0]; exact List.getElem?_set_self hk)
      refine ⟨finalCell c e'.sx, ?_, finalCell_same _ _, finalCell_resolved _ _ ?_⟩
      · show cells'[t]? = _
        rw [hcj, if_pos (by omega), hct, show t - (t - st.k8) = st.k8 by omega, q1]
        rfl
      · rw [q7 (le_refl _)]; exact hcx

/-- after the assignment of the three indices, statement 220 closes the month -/
theorem close_month (n t : Nat) (st st2 : Spell F) (m : Month F) (h : Entered n t st)
    (hk8 : st2.k8 = 0) (hmax : st2.k8max = st.k8max) (hsl : st2.slots.length = k8Size) (hcl : st2.cells.length = n)
    (hidx : ∀ (i : Nat) (e : Slot F), st.slots[i]? = some e → ∃ e', st2.slots[i]? = some e' ∧ e'.idx = e.idx)
    (hlow : ∀ j, j < t - st.k8 → st2.cells[j]? = st.cells[j]?) (hhigh : ∀ j, t < j → st2.cells[j]? = st.cells[j]?)
    (hmid : ∀ j c', t - st.k8 ≤ j → j < t → st.cells[j]? = some c' → ∃ c'', st2.cells[j]? = some c'' ∧ SameNumbers c' c'' ∧ Resolved c'')
    (hnow : ∃ c', st2.cells[t]? = some c' ∧ SameNumbers m.cell c' ∧ Resolved c') (hch : m.Chosen) :
    ∃ st', statement220 st2 t m.pv = .ok st' ∧ StepOk n t st m st' := by
  obtain ⟨c', hc', hsame, hres⟩ := hnow
  unfold statement220
  rw [getIdx_some hc']
  refine ⟨_, rfl, ?_⟩
  have htn := h.t_lt
  refine ⟨⟨hsl, hcl, by simp only [hk8]; omega, by simp only [hk8]; omega, by rw [hmax]; exact h.max_le, ?_, ?_, ?_, ?_, ?_⟩,
    hlow, ?_, ⟨c', hc', hsame⟩, rfl, hsame.1, hsame.2.1, hsame.2.2.1, hsame.2.2.2.1⟩
  · intro i hi
    simp only [hmax] at hi
    obtain ⟨e, j, h1, h2, h3⟩ := h.idxs i hi
    obtain ⟨e', h4, h5⟩ := hidx i e h1
    exact ⟨e', j, h4, by rw [h5, h2], h3⟩
  · intro i hi
    simp only [hk8] at hi
    omega
  · intro j c hj hc
    simp only at hc
    by_cases h1 : j < t - st.k8
    · rw [hlow j h1] at hc
      exact h.res j c h1 hc
    · by_cases h2 : j = t
      · subst h2
        rw [hc'] at hc; cases hc; exact hres
      · simp only [hk8] at hj
        have hjl : j < st.cells.length := by rw [h.cellsLen]; omega
        obtain ⟨c'', h3, _, h5⟩ := hmid j _ (by omega) (by omega) (List.getElem?_eq_getElem hjl)
        rw [h3] at hc; cases hc; exact h5
  · intro j c hj hc
    simp only at hc
    by_cases h1 : j < t - st.k8
    · rw [hlow j h1] at hc
      exact h.chosen j c (by omega) hc
    · by_cases h2 : j = t
      · subst h2
        rw [hc'] at hc; cases hc
        obtain ⟨_, s1, s2, s3, s4⟩ := hsame
        rw [s1, s2, s3, s4]
        exact hch
      · have hjl : j < st.cells.length := by rw [h.cellsLen]; omega
        obtain ⟨c'', h3, ⟨_, s1, s2, s3, s4⟩, _⟩ := hmid j _ (by omega) (by omega) (List.getElem?_eq_getElem hjl)
        rw [h3] at hc; cases hc
        rw [s1, s2, s3, s4]
        exact h.chosen j _ (by omega) (List.getElem?_eq_getElem hjl)
  · intro j hj1 hj2
    simp only
    rw [hhigh j (by omega)]
    exact h.fresh j (by omega) hj2
  · intro j c hj hc
    simp only
    by_cases h1 : j < t - st.k8
    · exact ⟨c, by rw [hlow j h1]; exact hc, SameNumbers.refl c⟩
    · by_cases h2 : t < j
      · exact ⟨c, by rw [hhigh j h2]; exact hc, SameNumbers.refl c⟩
      · obtain ⟨c'', h3, h4, _⟩ := hmid j c (by omega) (by omega) hc
        exact ⟨c'', h3, h4⟩

theorem commit_spec (n t : Nat) (st : Spell F) (m : Month F) (h : Entered n t st) (hch : m.Chosen) (hw : m.WaitX3) :
    ∃ st', commit st t m = .ok st' ∧ StepOk n t st m st' ∧ (m.dec ≠ .wait → st'.k8 = 0 ∧ st'.k8max = st.k8max) ∧
      (m.dec = .wait → st'.k8 = st.k8 + 1 ∧ st'.k8max = st.k8 + 1) := by
  have htl : t < st.cells.length := by rw [h.cellsLen]; exact h.t_lt
  have hasg : ∀ iass, ∃ st', (assign { st with cells := st.cells.set t m.cell } t iass >>= fun st2 => statement220 st2 t m.pv) = .ok st' ∧
      StepOk n t st m st' ∧ st'.k8 = 0 ∧ st'.k8max = st.k8max := by
    intro iass
    obtain ⟨st2, h1, hk8, hmax, hsl, hcl, hidx, hlow, hhigh, hmid, hnow⟩ := assign_spec n t st m.cell iass h hch
    obtain ⟨st', h2, h3⟩ := close_month n t st st2 m h hk8 hmax hsl hcl hidx hlow hhigh hmid hnow hch
    refine ⟨st', by rw [h1]; exact h2, h3, ?_, ?_⟩
    · unfold statement220 at h2
      obtain ⟨c', hc', _⟩ := hnow
      rw [getIdx_some hc'] at h2
      cases h2; exact hk8
    · unfold statement220 at h2
      obtain ⟨c', hc', _⟩ := hnow
      rw [getIdx_some hc'] at h2
      cases h2; exact hmax
  unfold commit
  simp only
  cases hd : m.dec with
  | accept =>
    simp only
    by_cases h0 : st.k8 = 0
    · rw [if_pos h0]
      have hcell : ((st.cells.set t m.cell).set t (finalCell m.cell m.x))[t]? = some (finalCell m.cell m.x) :=
        List.getElem?_set_self (by rw [List.length_set]; exact htl)
      obtain ⟨st', h2, h3⟩ := close_month n t st
        { st with cells := (st.cells.set t m.cell).set t (finalCell m.cell m.x) } m h h0 rfl h.slotsLen
        (by rw [List.length_set, List.length_set, h.cellsLen]) (fun i e he => ⟨e, he, rfl⟩)
        (by intro j hj; rw [List.getElem?_set_ne (by omega), List.getElem?_set_ne (by omega)])
        (by intro j hj; rw [List.getElem?_set_ne (by omega), List.getElem?_set_ne (by omega)])
        (by intro j c' h1 h2; omega)
        ⟨_, hcell, finalCell_same _ _, finalCell_resolved _ _ hch⟩ hch
      refine ⟨st', h2, h3, ?_, by intro hc; cases hc⟩
      intro _
      unfold statement220 at h2
      simp only at h2
      rw [getIdx_some hcell] at h2
      cases h2
      exact ⟨h0, rfl⟩
    · rw [if_neg h0]
      obtain ⟨st', h1, h2, h3⟩ := hasg 3
      exact ⟨st', h1, h2, fun _ => h3, by intro hc; cases hc⟩
  | choose i =>
    simp only
    obtain ⟨st', h1, h2, h3⟩ := hasg i
    exact ⟨st', h1, h2, fun _ => h3, by intro hc; cases hc⟩
  | wait =>
    simp only
    obtain ⟨ecur, hecur, hidx⟩ := h.cur
    have hk : st.k8 < st.slots.length := by rw [h.slotsLen]; exact h.k8_lt
    have hgrow : growSlots st.k8 st.slots = st.slots := by
      unfold growSlots; rw [if_neg (by omega)]
    rw [hgrow, getIdx_some hecur]
    simp only [bind, Except.bind]
    rw [setIdx_lt _ hk]
    simp only
    unfold statement220
    simp only
    have hct : (st.cells.set t m.cell)[t]? = some m.cell := List.getElem?_set_self htl
    rw [getIdx_some hct]
    have hk8t := h.k8_t
    have hk8lt := h.k8_lt
    have htn := h.t_lt
    refine ⟨_, rfl, ⟨⟨by simp only [List.length_set]; exact h.slotsLen, by simp only [List.length_set]; exact h.cellsLen,
      by simp only; omega, by simp only; omega, by simp only; omega, ?_, ?_, ?_, ?_, ?_⟩, ?_, ?_,
      ⟨_, hct, SameNumbers.refl _⟩, rfl, rfl, rfl, rfl, rfl⟩, by intro hc; exact absurd rfl hc, fun _ => ⟨rfl, rfl⟩⟩
    · intro i hi
      simp only at hi ⊢
      by_cases hik : i = st.k8
      · subst hik
        exact ⟨_, t, List.getElem?_set_self hk, hidx, by omega⟩
      · obtain ⟨e, c, h1, h2, _⟩ := h.pend i (by omega)
        exact ⟨e, _, by rw [List.getElem?_set_ne (Ne.symm hik)]; exact h1, h2, by omega⟩
    · intro i hi
      simp only at hi ⊢
      by_cases hik : i = st.k8
      · subst hik
        refine ⟨_, m.cell, List.getElem?_set_self hk, ?_, ?_, rfl, rfl, rfl, hw hd⟩
        · show ecur.idx = _
          rw [hidx]; congr 1; omega
        · rw [show t + 1 - (st.k8 + 1) + st.k8 = t by omega]; exact hct
      · obtain ⟨e, c, h1, h2, h3, h4⟩ := h.pend i (by omega)
        refine ⟨e, c, by rw [List.getElem?_set_ne (Ne.symm hik)]; exact h1, ?_, ?_, h4⟩
        · rw [h2]; congr 1; omega
        · rw [show t + 1 - (st.k8 + 1) + i = t - st.k8 + i by omega, List.getElem?_set_ne (by omega)]; exact h3
    · intro j c hj hc
      simp only at hj hc
      rw [List.getElem?_set_ne (by omega)] at hc
      exact h.res j c (by omega) hc
    · intro j c hj hc
      simp only at hc
      by_cases hjt : j = t
      · subst hjt
        rw [hct] at hc; cases hc
        exact hch
      · rw [List.getElem?_set_ne (Ne.symm hjt)] at hc
        exact h.chosen j c (by omega) hc
    · intro j h1 h2
      simp only
      rw [List.getElem?_set_ne (by omega)]
      exact h.fresh j (by omega) h2
    · intro j hj
      simp only
      rw [List.getElem?_set_ne (by omega)]
    · intro j c hj hc
      simp only
      exact ⟨c, by rw [List.getElem?_set_ne (Ne.symm hj)]; exact hc, SameNumbers.refl c⟩

/-- one month: IndexError when 40 months are undecided; otherwise the effect of the decision -/
theorem spellMonth_spec (n t : Nat) (st : Spell F) (z : F) (h : Inv n t st) (ht : t < n) :
    (st.k8 = k8Size → spellMonth st t z = .error .indexError) ∧
    (st.k8 < k8Size → ∃ st', spellMonth st t z = .ok st' ∧ StepOk n t st (monthOf st z) st' ∧
      ((monthOf st z).dec ≠ .wait → st'.k8 = 0 ∧ st'.k8max = st.k8max) ∧
      ((monthOf st z).dec = .wait → st'.k8 = st.k8 + 1 ∧ st'.k8max = st.k8 + 1)) := by
  constructor
  · intro hk
    unfold spellMonth
    rw [getIdx_none (by rw [h.slotsLen, hk])]
    rfl
  · intro hk
    have hkl : st.k8 < st.slots.length := by rw [h.slotsLen]; exact hk
    have he : st.slots[st.k8]? = some st.slots[st.k8] := List.getElem?_eq_getElem hkl
    unfold spellMonth
    rw [getIdx_some he]
    simp only [bind, Except.bind]
    rw [setIdx_lt _ hkl]
    simp only
    have hent : Entered n t { st with slots := st.slots.set st.k8 { st.slots[st.k8] with idx := some t } } := by
      refine ⟨by simp only [List.length_set]; exact h.slotsLen, h.cellsLen, ht, h.k8_t, h.k8_max, hk, h.max_le, ?_, ?_, ?_, h.res, h.chosen, h.fresh⟩
      · intro i hi
        simp only at hi ⊢
        by_cases hik : i = st.k8
        · subst hik
          exact ⟨_, t, List.getElem?_set_self hkl, rfl, by omega⟩
        · obtain ⟨e, j, h1, h2, h3⟩ := h.idxs i hi
          exact ⟨e, j, by rw [List.getElem?_set_ne (Ne.symm hik)]; exact h1, h2, by omega⟩
      · exact ⟨_, List.getElem?_set_self hkl, rfl⟩
      · intro i hi
        simp only at hi ⊢
        obtain ⟨e, c, h1, h2⟩ := h.pend i hi
        exact ⟨e, c, by rw [List.getElem?_set_ne (by omega)]; exact h1, h2⟩
    rw [spellBranch_eq { st with slots := st.slots.set st.k8 { st.slots[st.k8] with idx := some t } } t z (h.fresh t (le_refl _) ht)]
    obtain ⟨st', h1, h2, h3⟩ := commit_spec n t _ (monthOf st z) hent (monthEval_chosen _ _ _ _ _ _) (monthEval_wait _ _ _ _ _ _)
    exact ⟨st', h1, ⟨h2.inv, h2.kept, h2.same, h2.now, h2.v, h2.pro, h2.x1, h2.x2, h2.x3⟩, h3⟩

end CI
