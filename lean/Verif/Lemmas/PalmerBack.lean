import Verif.Lemmas.PalmerNum

/-!
# The spell machine: which index the backtracking chooses
-/

namespace CI
variable {F : Type} [FloatOps F]

/-- the incipient index of one of the two kinds -/
def Slot.kind (dry : Bool) (e : Slot F) : F := if dry then e.sx2 else e.sx1

/-- the kind of incipient index used for a month, given the kind used for the month after it: the same kind, unless that index is zero -/
def backKind (after : Bool) (e : Slot F) : Bool := if feq (e.kind after) (lit 0) then !after else after

theorem backtrack_exact (i isave : Nat) (s : List (Slot F)) (h : i ≤ s.length) (hs : isave = 1 ∨ isave = 2) :
    ∃ (s' : List (Slot F)) (dry : Nat → Bool), backtrack i isave s = .ok s' ∧ dry i = decide (isave = 2) ∧
      ∀ (k : Nat) (e e' : Slot F), k < i → s[k]? = some e → s'[k]? = some e' → e'.sx = e.kind (dry k) ∧ dry k = backKind (dry (k + 1)) e := by
  induction i generalizing isave s with
  | zero => exact ⟨s, fun _ => decide (isave = 2), rfl, rfl, fun k e e' hk => by omega⟩
  | succ i ih =>
    have hi : i < s.length := by omega
    have he : s[i]? = some s[i] := List.getElem?_eq_getElem hi
    unfold backtrack
    rw [getIdx_some he]
    simp only [bind, Except.bind]
    have go : ∀ (isave' : Nat), (isave' = 1 ∨ isave' = 2) → decide (isave' = 2) = backKind (decide (isave = 2)) s[i] →
        ∃ (s' : List (Slot F)) (dry : Nat → Bool),
          backtrack i isave' (s.set i { s[i] with sx := s[i].kind (decide (isave' = 2)) }) = .ok s' ∧
          dry (i + 1) = decide (isave = 2) ∧
          ∀ (k : Nat) (e e' : Slot F), k < i + 1 → s[k]? = some e → s'[k]? = some e' →
            e'.sx = e.kind (dry k) ∧ dry k = backKind (dry (k + 1)) e := by
      intro isave' hs' hk'
      have hlen : i ≤ (s.set i { s[i] with sx := s[i].kind (decide (isave' = 2)) }).length := by rw [List.length_set]; omega
      obtain ⟨s', dry, h1, h2, h3⟩ := ih isave' (s.set i { s[i] with sx := s[i].kind (decide (isave' = 2)) }) hlen hs'
      obtain ⟨s'', g1, g2, g3⟩ := backtrack_spec i isave' _ hlen
      rw [h1] at g1
      cases g1
      refine ⟨s', fun k => if k = i + 1 then decide (isave = 2) else dry k, h1, if_pos rfl, ?_⟩
      intro k e e' hk hke hke'
      by_cases hki : k = i
      · subst hki
        rw [he] at hke
        cases hke
        obtain ⟨e'', q1, _, _, _, _, _, q7⟩ := g3 k _ (List.getElem?_set_self hi)
        rw [hke'] at q1
        cases q1
        simp only [if_true]
        rw [if_neg (by omega), h2]
        exact ⟨q7 (le_refl _), hk'⟩
      · obtain ⟨q1, q2⟩ := h3 k e e' (by omega) (by rw [List.getElem?_set_ne (Ne.symm hki)]; exact hke) hke'
        simp only
        rw [if_neg (by omega), if_neg (by omega)]
        exact ⟨q1, q2⟩
    rcases hs with rfl | rfl
    · rw [if_neg (by decide)]
      split
      · next hz => exact go 2 (Or.inr rfl) (by simp [backKind, Slot.kind, hz])
      · next hz => exact go 1 (Or.inl rfl) (by simp [backKind, Slot.kind, hz])
    · rw [if_pos rfl]
      split
      · next hz => exact go 1 (Or.inl rfl) (by simp [backKind, Slot.kind, hz])
      · next hz => exact go 2 (Or.inr rfl) (by simp [backKind, Slot.kind, hz])

/-- the incipient index of one of the two kinds -/
def Cell.kind (dry : Bool) (c : Cell F) : F := if dry then c.px2 else c.px1

/-- which PDSI `_assign` gives to the undecided months and to the current month -/
theorem assign_exact (n t : Nat) (st st' : Spell F) (c : Cell F) (iass : Nat) (h : Entered n t st) (hi : iass = 1 ∨ iass = 2 ∨ iass = 3)
    (ha : assign { st with cells := st.cells.set t c } t iass = .ok st') :
    (∃ c', st'.cells[t]? = some c' ∧ c'.pdsi = c.x ∧ SameNumbers c c') ∧
    (iass = 3 → ∀ j c', t - st.k8 ≤ j → j < t → st'.cells[j]? = some c' → c'.pdsi = c'.px3) ∧
    (iass ≠ 3 → ∃ dry : Nat → Bool, dry t = decide (iass = 2) ∧
      ∀ j c', t - st.k8 ≤ j → j < t → st'.cells[j]? = some c' → c'.pdsi = c'.kind (dry j) ∧
        dry j = if feq (c'.kind (dry (j + 1))) (lit 0) then !dry (j + 1) else dry (j + 1)) := by
  obtain ⟨ecur, hecur, hidx⟩ := h.cur
  have htl : t < st.cells.length := by rw [h.cellsLen]; exact h.t_lt
  have hk : st.k8 < st.slots.length := by rw [h.slotsLen]; exact h.k8_lt
  have hct : (st.cells.set t c)[t]? = some c := List.getElem?_set_self htl
  unfold assign at ha
  simp only at ha
  rw [getIdx_some hct, getIdx_some hecur] at ha
  simp only [bind, Except.bind, pure, Except.pure] at ha
  rw [setIdx_lt _ hk] at ha
  simp only at ha
  by_cases h0 : st.k8 = 0
  · rw [if_pos h0] at ha
    cases ha
    refine ⟨⟨finalCell c c.x, ?_, rfl, finalCell_same _ _⟩, ?_, ?_⟩
    · simp only
      rw [List.getElem?_set_self (by rw [List.length_set]; exact htl)]
    · intro _ j c' h1 h2; omega
    · intro _
      exact ⟨fun _ => decide (iass = 2), rfl, fun j c' h1 h2 => by omega⟩
  · rw [if_neg h0] at ha
    generalize hs0 : st.slots.set st.k8 { ecur with sx := c.x } = s0 at ha
    have hs0len : s0.length = k8Size := by rw [← hs0, List.length_set, h.slotsLen]
    have hle : st.k8 ≤ s0.length := by rw [hs0len]; exact h.k8_lt.le
    obtain ⟨s', hs', hch, hx3, hbk⟩ : ∃ s', chooseSx iass st.k8 s0 = .ok s' ∧ SxChoice st.k8 s0 s' ∧
        (iass = 3 → ∀ k e', k < st.k8 → s'[k]? = some e' → e'.sx = e'.sx3) ∧
        (iass ≠ 3 → ∃ dry : Nat → Bool, dry st.k8 = decide (iass = 2) ∧ ∀ (k : Nat) (e e' : Slot F), k < st.k8 → s0[k]? = some e → s'[k]? = some e' →
          e'.sx = e.kind (dry k) ∧ dry k = backKind (dry (k + 1)) e) := by
      unfold chooseSx
      split
      · next h3 =>
        obtain ⟨s', h1, h2, h3'⟩ := takeX3_spec st.k8 s0 hle
        exact ⟨s', h1, h2, fun _ => h3', fun hc => absurd h3 hc⟩
      · next h3 =>
        obtain ⟨s', dry, h1, h2, h3'⟩ := backtrack_exact st.k8 iass s0 hle (by omega)
        obtain ⟨s'', g1, g2⟩ := backtrack_spec st.k8 iass s0 hle
        rw [h1] at g1
        cases g1
        exact ⟨s', h1, g2, fun hc => absurd hc h3, fun _ => ⟨dry, h2, h3'⟩⟩
    obtain ⟨hlen', hch⟩ := hch
    rw [hs'] at ha
    simp only at ha
    have hk8t := h.k8_t
    have hslot : ∀ i, i < st.k8 + 1 → ∃ e, s'[i]? = some e ∧ e.idx = some (t - st.k8 + i) := by
      intro i hi
      by_cases hik : i = st.k8
      · subst hik
        obtain ⟨e', h1, h2, _⟩ := hch st.k8 { ecur with sx := c.x } (by rw [← hs0]; exact List.getElem?_set_self hk)
        refine ⟨e', h1, ?_⟩
        rw [h2]
        show ecur.idx = _
        rw [hidx]
        congr 1
        omega
      · obtain ⟨e, cc, h1, h2, _⟩ := h.pend i (by omega)
        obtain ⟨e', h3, h4, _⟩ := hch i e (by rw [← hs0, List.getElem?_set_ne (Ne.symm hik)]; exact h1)
        exact ⟨e', h3, by rw [h4, h2]⟩
    have hb : t - st.k8 + (st.k8 + 1) ≤ (st.cells.set t c).length := by
      rw [List.length_set, h.cellsLen]
      have := h.t_lt
      omega
    obtain ⟨cells', hc', hcl, hcj⟩ := outputLoop_spec s' (t - st.k8) (st.k8 + 1) (st.cells.set t c) hslot hb
    rw [hc'] at ha
    cases ha
    -- one undecided month
    have hmid : ∀ j c', t - st.k8 ≤ j → j < t → cells'[j]? = some c' → ∃ e e', s0[j - (t - st.k8)]? = some e ∧
        s'[j - (t - st.k8)]? = some e' ∧ c'.pdsi = e'.sx ∧ e.sx1 = c'.px1 ∧ e.sx2 = c'.px2 ∧ e.sx3 = c'.px3 ∧ e'.sx3 = c'.px3 := by
      intro j c' h1 h2 h3
      obtain ⟨e, cc, p1, p2, p3, p4, p5, p6, p7⟩ := h.pend (j - (t - st.k8)) (by omega)
      rw [show t - st.k8 + (j - (t - st.k8)) = j by omega] at p3
      have p1' : s0[j - (t - st.k8)]? = some e := by rw [← hs0, List.getElem?_set_ne (by omega)]; exact p1
      obtain ⟨e', q1, q2, q3, q4, q5, q6, _⟩ := hch (j - (t - st.k8)) e p1'
      rw [hcj, if_pos (by omega), List.getElem?_set_ne (by omega), p3, q1] at h3
      simp only [Option.bind_some, Option.map_some, Option.some.injEq] at h3
      subst h3
      exact ⟨e, e', p1', q1, rfl, p4, p5, p6, q5.trans p6⟩
    refine ⟨?_, ?_, ?_⟩
    · obtain ⟨e', q1, q2, q3, q4, q5, _, q7⟩ := hch st.k8 { ecur with sx := c.x } (by
        rw [← hs0]; exact List.getElem?_set_self hk)
      refine ⟨finalCell c e'.sx, ?_, q7 (le_refl _), finalCell_same _ _⟩
      show cells'[t]? = _
      rw [hcj, if_pos (by omega), hct, show t - (t - st.k8) = st.k8 by omega, q1]
      rfl
    · intro h3 j c' h1 h2 hc
      obtain ⟨e, e', p1, p2, p3, _, _, _, p7⟩ := hmid j c' h1 h2 hc
      rw [p3, hx3 h3 _ e' (by omega) p2, p7]
    · intro h3
      obtain ⟨dry, hd, hdk⟩ := hbk h3
      refine ⟨fun j => dry (j - (t - st.k8)), ?_, ?_⟩
      · simp only
        rw [show t - (t - st.k8) = st.k8 by omega, hd]
      · intro j c' h1 h2 hc
        obtain ⟨e, e', p1, p2, p3, p4, p5, _, _⟩ := hmid j c' h1 h2 hc
        obtain ⟨q1, q2⟩ := hdk _ e e' (by omega) p1 p2
        have hkind : ∀ d, e.kind d = c'.kind d := by
          intro d
          unfold Slot.kind Cell.kind
          rw [p4, p5]
        simp only
        rw [show j + 1 - (t - st.k8) = j - (t - st.k8) + 1 by omega]
        refine ⟨by rw [p3, q1, hkind], ?_⟩
        rw [← hkind]
        exact q2

/-- the value and the kind of a decision that begins or excludes a spell -/
def Month.ChoiceSign (m : Month F) : Prop :=
  (m.dec = .choose 1 → fle (lit 0) m.x = true) ∧ (m.dec = .choose 2 → fle m.x (lit 0) = true) ∧
    (m.dec = .accept → m.x = m.px3) ∧ ∀ i, m.dec = .choose i → i = 1 ∨ i = 2

section laws
variable [FloatLaws F]

theorem eval200_choice (x1 x2 z ppr px3 pv : F) : (eval200 x1 x2 z ppr px3 pv).ChoiceSign := by
  have h1 := zero_le_pyMax (lit 0.897 * x1 + z / lit 3)
  have h2 := pyMin_le_zero (lit 0.897 * x2 + z / lit 3)
  unfold eval200 Month.ChoiceSign
  simp only
  split
  · exact ⟨fun _ => h1, (by intro h; cases h), (by intro h; cases h), (by intro i h; cases h; simp)⟩
  · split
    · exact ⟨(by intro h; cases h), fun _ => h2, (by intro h; cases h), (by intro i h; cases h; simp)⟩
    · split
      · exact ⟨(by intro h; cases h), fun _ => h2, (by intro h; cases h), (by intro i h; cases h; simp)⟩
      · split
        · exact ⟨fun _ => h1, (by intro h; cases h), (by intro h; cases h), (by intro i h; cases h; simp)⟩
        · exact ⟨(by intro h; cases h), (by intro h; cases h), (by intro h; cases h), (by intro i h; cases h)⟩

theorem eval210_choice (x3 z : F) : (eval210 x3 z).ChoiceSign :=
  ⟨(by intro h; cases h), (by intro h; cases h), fun _ => rfl, (by intro i h; cases h)⟩

theorem monthEval_choice (v pro x1 x2 x3 z : F) : (monthEval v pro x1 x2 x3 z).ChoiceSign := by
  have h190 : ∀ pv ze, (eval190 v pro x1 x2 x3 z pv ze).ChoiceSign := by
    intro pv ze
    unfold eval190; simp only
    generalize (if feq pro (lit 100) then ze else ze + v) = q
    split <;> exact eval200_choice _ _ _ _ _ _
  have h170 : (eval170 v pro x1 x2 x3 z).ChoiceSign := by
    unfold eval170; simp only; split
    · exact eval210_choice _ _
    · exact h190 _ _
  have h180 : (eval180 v pro x1 x2 x3 z).ChoiceSign := by
    unfold eval180; simp only; split
    · exact eval210_choice _ _
    · exact h190 _ _
  unfold monthEval
  split
  · split
    · exact eval200_choice _ _ _ _ _ _
    · split
      · split
        · exact eval210_choice _ _
        · exact h170
      · split
        · split
          · exact eval210_choice _ _
          · exact h180
        · exact h170
  · split
    · exact h170
    · split
      · exact h180
      · exact h170

/-- what a month that ends a stretch of undecided months does to them -/
theorem spellMonth_exact (n t : Nat) (st st' : Spell F) (z : F) (h : Inv n t st) (ht : t < n) (hm : spellMonth st t z = .ok st') (h0 : st'.k8 = 0) :
    (∃ c, st'.cells[t]? = some c ∧ c.pdsi = c.px3 ∧ ∀ j c', t - st.k8 ≤ j → j < t → st'.cells[j]? = some c' → c'.pdsi = c'.px3) ∨
    (∃ dry : Nat → Bool, (∃ c, st'.cells[t]? = some c ∧ (dry t = true → fle c.pdsi (lit 0) = true) ∧ (dry t = false → fle (lit 0) c.pdsi = true)) ∧
      ∀ j c', t - st.k8 ≤ j → j < t → st'.cells[j]? = some c' → c'.pdsi = c'.kind (dry j) ∧
        dry j = if feq (c'.kind (dry (j + 1))) (lit 0) then !dry (j + 1) else dry (j + 1)) := by
  have hk : st.k8 < k8Size := by
    by_contra hc
    have h1 := h.k8_max
    have h2 := h.max_le
    rw [(spellMonth_spec n t st z h ht).1 (by omega)] at hm
    cases hm
  have hkl : st.k8 < st.slots.length := by rw [h.slotsLen]; exact hk
  have he : st.slots[st.k8]? = some st.slots[st.k8] := List.getElem?_eq_getElem hkl
  unfold spellMonth at hm
  rw [getIdx_some he] at hm
  simp only [bind, Except.bind] at hm
  rw [setIdx_lt _ hkl] at hm
  simp only at hm
  have hent : Entered n t { st with slots := st.slots.set st.k8 { st.slots[st.k8] with idx := some t } } := by
    refine ⟨by simp only [List.length_set]; exact h.slotsLen, h.cellsLen, ht, h.k8_t, h.k8_max, hk, h.max_le, ?_, ?_, ?_, h.res, h.chosen, h.fresh⟩
    · intro i hi
      simp only at hi ⊢
      by_cases hik : i = st.k8
      · subst hik
        exact ⟨_, t, List.getElem?_set_self hkl, rfl, by omega⟩
      · obtain ⟨e, j, h1, h2, h3⟩ := h.idxs i hi
        exact ⟨e, j, by rw [List.getElem?_set_ne (Ne.symm hik)]; exact h1, h2, by omega⟩
    · exact ⟨_, List.getElem?_set_self hkl, rfl⟩
    · intro i hi
      simp only at hi ⊢
      obtain ⟨e, c, h1, h2⟩ := h.pend i hi
      exact ⟨e, c, by rw [List.getElem?_set_ne (by omega)]; exact h1, h2⟩
  rw [spellBranch_eq { st with slots := st.slots.set st.k8 { st.slots[st.k8] with idx := some t } } t z (h.fresh t (le_refl _) ht)] at hm
  obtain ⟨s1, h1, _, _, hw⟩ := commit_spec n t _ (monthOf st z) hent (monthEval_chosen _ _ _ _ _ _) (monthEval_wait _ _ _ _ _ _)
  have hmm : monthOf { st with slots := st.slots.set st.k8 { st.slots[st.k8] with idx := some t } } z = monthOf st z := rfl
  rw [hmm] at hm
  rw [hm] at h1
  cases h1
  have hnw : (monthOf st z).dec ≠ .wait := by
    intro hc
    have := (hw hc).1
    omega
  obtain ⟨c1, c2, c3, c4⟩ := monthEval_choice st.v st.pro st.x1 st.x2 st.x3 z
  have c4 : ∀ i, (monthOf st z).dec = .choose i → i = 1 ∨ i = 2 := c4
  have c1 : (monthOf st z).dec = .choose 1 → fle (lit 0) (monthOf st z).x = true := c1
  have c2 : (monthOf st z).dec = .choose 2 → fle (monthOf st z).x (lit 0) = true := c2
  have c3 : (monthOf st z).dec = .accept → (monthOf st z).x = (monthOf st z).px3 := c3
  generalize monthOf st z = m at hm hnw c1 c2 c3 c4
  have htl : t < st.cells.length := by rw [h.cellsLen]; exact ht
  have h220 : ∀ s2 s3 : Spell F, statement220 s2 t m.pv = .ok s3 → s3.cells = s2.cells := by
    intro s2 s3 hs
    unfold statement220 at hs
    cases hg : getIdx s2.cells t with
    | error e => rw [hg] at hs; cases hs
    | ok c => rw [hg] at hs; cases hs; rfl
  unfold commit at hm
  simp only at hm
  cases hd : m.dec with
  | wait => exact absurd hd hnw
  | accept =>
    left
    rw [hd] at hm
    simp only at hm
    by_cases hk0 : st.k8 = 0
    · rw [if_pos hk0] at hm
      have hc := h220 _ _ hm
      refine ⟨finalCell m.cell m.x, ?_, c3 hd, ?_⟩
      · rw [hc]
        exact List.getElem?_set_self (by rw [List.length_set]; exact htl)
      · intro j c' g1 g2; omega
    · rw [if_neg hk0] at hm
      simp only [bind, Except.bind] at hm
      cases hg : assign { st with slots := st.slots.set st.k8 { st.slots[st.k8] with idx := some t }, cells := st.cells.set t m.cell } t 3 with
      | error e => rw [hg] at hm; cases hm
      | ok s2 =>
        rw [hg] at hm
        have hc := h220 _ _ hm
        obtain ⟨⟨c, g1, g2, g3⟩, g4, _⟩ := assign_exact n t _ s2 m.cell 3 hent (by simp) hg
        rw [hc]
        refine ⟨c, g1, ?_, g4 rfl⟩
        rw [g2, g3.2.2.2.1]
        exact c3 hd
  | choose i =>
    right
    rw [hd] at hm
    simp only [bind, Except.bind] at hm
    have hi := c4 i hd
    cases hg : assign { st with slots := st.slots.set st.k8 { st.slots[st.k8] with idx := some t }, cells := st.cells.set t m.cell } t i with
    | error e => rw [hg] at hm; cases hm
    | ok s2 =>
      rw [hg] at hm
      have hc := h220 _ _ hm
      obtain ⟨⟨c, g1, g2, g3⟩, _, g4⟩ := assign_exact n t _ s2 m.cell i hent (by omega) hg
      obtain ⟨dry, d1, d2⟩ := g4 (by omega)
      rw [hc]
      refine ⟨dry, ⟨c, g1, ?_, ?_⟩, d2⟩
      · intro hdt
        rw [d1] at hdt
        have hi2 : i = 2 := by simpa using hdt
        rw [g2]
        exact c2 (by rw [hd, hi2])
      · intro hdt
        rw [d1] at hdt
        have hi2 : i ≠ 2 := by simpa using hdt
        rw [g2]
        exact c1 (by rw [hd, hi.resolve_right hi2])

end laws
end CI
