import Verif.Props.PalmerBack
import Verif.Lemmas.PalmerMirror
import Verif.Lemmas.PalmerNan

/-!
# The last month of a record, and how it depends on its Z value
-/

namespace CI
section laws
variable {F : Type} [FloatOps F] [FloatLaws F]

/-- a month that is decided at once has its own value as PDSI -/
theorem spellMonth_now (n t : Nat) (st st' : Spell F) (z : F) (h : Inv n t st) (ht : t < n) (hm : spellMonth st t z = .ok st') (h0 : st'.k8 = 0) :
    ∃ c, st'.cells[t]? = some c ∧ c.pdsi = (monthOf st z).x := by
  have hk : st.k8 < k8Size := by
    by_contra hc
    have h1 := h.k8_max
    have h2 := h.max_le
    rw [(spellMonth_spec n t st z h ht).1 (by omega)] at hm
    cases hm
  have hkl : st.k8 < st.slots.length := by rw [h.slotsLen]; exact hk
  have he : st.slots[st.k8]? = some st.slots[st.k8] := List.getElem?_eq_getElem hkl
  unfold spellMonth at hm
  rw [getIdx_some he] at hm
  simp only [bind, Except.bind] at hm
  rw [setIdx_lt _ hkl] at hm
  simp only at hm
  have hent : Entered n t { st with slots := st.slots.set st.k8 { st.slots[st.k8] with idx := some t } } := by
    refine ⟨by simp only [List.length_set]; exact h.slotsLen, h.cellsLen, ht, h.k8_t, h.k8_max, hk, h.max_le, ?_, ?_, ?_, h.res, h.chosen, h.fresh⟩
    · intro i hi
      simp only at hi ⊢
      by_cases hik : i = st.k8
      · subst hik
        exact ⟨_, t, List.getElem?_set_self hkl, rfl, by omega⟩
      · obtain ⟨e, j, h1, h2, h3⟩ := h.idxs i hi
        exact ⟨e, j, by rw [List.getElem?_set_ne (Ne.symm hik)]; exact h1, h2, by omega⟩
    · exact ⟨_, List.getElem?_set_self hkl, rfl⟩
    · intro i hi
      simp only at hi ⊢
      obtain ⟨e, c, h1, h2⟩ := h.pend i hi
      exact ⟨e, c, by rw [List.getElem?_set_ne (by omega)]; exact h1, h2⟩
  rw [spellBranch_eq { st with slots := st.slots.set st.k8 { st.slots[st.k8] with idx := some t } } t z (h.fresh t (le_refl _) ht)] at hm
  obtain ⟨s1, h1, _, _, hw⟩ := commit_spec n t _ (monthOf st z) hent (monthEval_chosen _ _ _ _ _ _) (monthEval_wait _ _ _ _ _ _)
  have hmm : monthOf { st with slots := st.slots.set st.k8 { st.slots[st.k8] with idx := some t } } z = monthOf st z := rfl
  rw [hmm] at hm
  rw [hm] at h1
  cases h1
  have hnw : (monthOf st z).dec ≠ .wait := by
    intro hc
    have := (hw hc).1
    omega
  obtain ⟨_, _, _, c4⟩ := monthEval_choice st.v st.pro st.x1 st.x2 st.x3 z
  have c4 : ∀ i, (monthOf st z).dec = .choose i → i = 1 ∨ i = 2 := c4
  generalize monthOf st z = m at hm hnw c4
  have htl : t < st.cells.length := by rw [h.cellsLen]; exact ht
  have h220 : ∀ s2 s3 : Spell F, statement220 s2 t m.pv = .ok s3 → s3.cells = s2.cells := by
    intro s2 s3 hs
    unfold statement220 at hs
    cases hg : getIdx s2.cells t with
    | error e => rw [hg] at hs; cases hs
    | ok c => rw [hg] at hs; cases hs; rfl
  unfold commit at hm
  simp only at hm
  cases hd : m.dec with
  | wait => exact absurd hd hnw
  | accept =>
    rw [hd] at hm
    simp only at hm
    by_cases hk0 : st.k8 = 0
    · rw [if_pos hk0] at hm
      have hc := h220 _ _ hm
      refine ⟨finalCell m.cell m.x, ?_, rfl⟩
      rw [hc]
      exact List.getElem?_set_self (by rw [List.length_set]; exact htl)
    · rw [if_neg hk0] at hm
      simp only [bind, Except.bind] at hm
      cases hg : assign { st with slots := st.slots.set st.k8 { st.slots[st.k8] with idx := some t }, cells := st.cells.set t m.cell } t 3 with
      | error e => rw [hg] at hm; cases hm
      | ok s2 =>
        rw [hg] at hm
        have hc := h220 _ _ hm
        obtain ⟨⟨c, g1, g2, _⟩, _⟩ := assign_exact n t _ s2 m.cell 3 hent (by simp) hg
        exact ⟨c, by rw [hc]; exact g1, g2⟩
  | choose i =>
    rw [hd] at hm
    simp only [bind, Except.bind] at hm
    have hi := c4 i hd
    cases hg : assign { st with slots := st.slots.set st.k8 { st.slots[st.k8] with idx := some t }, cells := st.cells.set t m.cell } t i with
    | error e => rw [hg] at hm; cases hm
    | ok s2 =>
      rw [hg] at hm
      have hc := h220 _ _ hm
      obtain ⟨⟨c, g1, g2, _⟩, _⟩ := assign_exact n t _ s2 m.cell i hent (by omega) hg
      exact ⟨c, by rw [hc]; exact g1, g2⟩

/-- the last month of a record always has its own value as PDSI and its own modified index as PMDI -/
theorem last_cell (zs : List F) (cells : List (Cell F)) (h : spellCells zs = .ok cells) (m : Month F) (hm : (months zs).getLast? = some m) :
    ∃ c, cells.getLast? = some c ∧ SameNumbers m.cell c ∧ c.pdsi = m.x ∧ c.phdi = (if feq m.px3 (lit 0) then m.x else m.px3) ∧
      c.wplm = palmerCase m.ppr m.px1 m.px2 m.px3 := by
  have hs : ¬ Stuck zs := by
    intro hc
    rw [spellCells_error zs hc] at h
    cases h
  obtain ⟨cells', h1, h2, h3⟩ := spellCells_spec zs hs
  rw [h] at h1
  cases h1
  have hm' := hm
  rw [List.getLast?_eq_getElem?] at hm
  obtain ⟨c, hc, hsn, hf⟩ := h3 _ m hm
  have hlc : cells.getLast? = some c := by rw [List.getLast?_eq_getElem?, h2, ← months_length zs]; exact hc
  have hF := hf m hm'
  obtain ⟨s1, s2, s3, s4, s5⟩ := hsn
  have s1' : c.ppr = m.ppr := s1
  have s2' : c.px1 = m.px1 := s2
  have s3' : c.px2 = m.px2 := s3
  have s4' : c.px3 = m.px3 := s4
  have hw : c.wplm = palmerCase m.ppr m.px1 m.px2 m.px3 := by
    rcases hF.wplm with h | h
    · rw [h, s1', s2', s3', s4']
    · exact h
  suffices hp : c.pdsi = m.x by
    refine ⟨c, hlc, ⟨s1, s2, s3, s4, s5⟩, hp, ?_, hw⟩
    rw [hF.phdi, s4', hp]
  obtain ⟨st, cells1, k1, k2, k3, k4⟩ := spellCells_ok zs hs
  rw [h] at k4
  cases k4
  have hinv := k2.inv
  rw [Nat.zero_add] at hinv
  obtain ⟨c0, hc0, hs0⟩ := k2.numbers _ m hm
  rw [Nat.zero_add] at hc0
  have hx0 : c0.x = m.x := hs0.2.2.2.2
  have hlast : ∃ l, st.cells.getLast? = some l :=
    ⟨c0, by rw [List.getLast?_eq_getElem?, hinv.cellsLen, ← months_length zs]; exact hc0⟩
  obtain ⟨l, hl⟩ := hlast
  unfold finishUp at k3
  rw [hl] at k3
  simp only at k3
  obtain ⟨cells2, f1, _, f3, f4⟩ := finishLoop_spec st.slots l st.k8max st.cells (by
    intro i hi
    rw [hinv.cellsLen]
    exact hinv.idxs i hi)
  rw [k3] at f1
  cases f1
  by_cases hv : visited st.slots st.k8max ((months zs).length - 1)
  · have := f3 _ hv
    rw [hc, hc0] at this
    have e : c = patched l c0 := Option.some.inj this
    rw [e]
    exact hx0
  · have := f4 _ hv
    rw [hc, hc0] at this
    have e : c = c0 := Option.some.inj this
    have hlen := lt_of_getElem? hm
    rw [months_length] at hlen hv
    have hk0 : st.k8 = 0 := by
      by_contra hk
      obtain ⟨e, c', g1, g2, _⟩ := hinv.pend (st.k8 - 1) (by omega)
      have hkt := hinv.k8_t
      rw [show zs.length - st.k8 + (st.k8 - 1) = zs.length - 1 by omega] at g2
      exact hv ⟨_, e, by have := hinv.k8_max; omega, g1, g2⟩
    have hne : zs ≠ [] := by rintro rfl; simp at hlen
    obtain ⟨ys, z, rfl⟩ : ∃ ys z, zs = ys ++ [z] := ⟨_, _, (List.dropLast_append_getLast hne).symm⟩
    have hrun : ∃ s1, spellRun ys 0 (spellInit (ys ++ [z]).length) = .ok s1 ∧
        RunOk (ys ++ [z]).length 0 (spellInit (ys ++ [z]).length) ys (months ys) s1 := by
      refine (spellRun_spec (ys ++ [z]).length ys 0 (spellInit _) (inv_init _) (by simp)).2 ?_
      intro i hi hb
      refine hs ⟨i, by simp; omega, ?_⟩
      have e1 : (months (ys ++ [z])).take i = (months ys).take i := by
        unfold months
        rw [monthsFrom_take, monthsFrom_take, List.take_append_of_le_length hi.le]
      rw [e1]
      exact hb
    obtain ⟨s1, r1, r2⟩ := hrun
    rw [Props.spellRun_snoc ys z 0 _ s1 r1, Nat.zero_add] at k1
    have hinv1 := r2.inv
    rw [Nat.zero_add] at hinv1
    obtain ⟨c1, g1, g2⟩ := spellMonth_now _ ys.length s1 st z hinv1 (by simp) k1 hk0
    obtain ⟨_, hok⟩ := spellMonth_spec _ ys.length s1 z hinv1 (by simp)
    have hk8 : s1.k8 < k8Size := by
      by_contra hcon
      have h1 := hinv1.k8_max
      have h2 := hinv1.max_le
      rw [(spellMonth_spec _ ys.length s1 z hinv1 (by simp)).1 (by omega)] at k1
      cases k1
    obtain ⟨st'', q1, q2, _⟩ := hok hk8
    rw [k1] at q1
    cases q1
    obtain ⟨c2, u1, u2⟩ := q2.now
    rw [g1] at u1
    cases u1
    have hpos : (months (ys ++ [z])).length - 1 = ys.length := by rw [months_length]; simp
    rw [hpos, g1] at hc0
    cases hc0
    rw [e, g2, ← hx0]
    exact u2.2.2.2.2.symm

end laws

namespace Mirror
open Fl
variable {K : Type} [Field K] [LinearOrder K] [IsStrictOrderedRing K]

/-- the value of a month without an established spell, from its incipient indices -/
def pick (p q : K) : K := if 1 ≤ p then p else if q ≤ -1 then q else if p = 0 then q else if q = 0 then p else 0

theorem pick_le {p q : K} (hp : 0 ≤ p) (hq : q ≤ 0) : pick p q ≤ p := by
  unfold pick
  split
  · exact le_rfl
  · split
    · linarith
    · split
      · linarith
      · split <;> linarith

theorem le_pick {p q : K} (hp : 0 ≤ p) (hq : q ≤ 0) : q ≤ pick p q := by
  unfold pick
  split
  · linarith
  · split
    · exact le_rfl
    · split
      · exact le_rfl
      · split <;> linarith

theorem pick_mono {p q p' q' : K} (hp : 0 ≤ p) (hq : q ≤ 0) (hq' : q' ≤ 0) (h1 : p ≤ p') (h2 : q ≤ q') : pick p q ≤ pick p' q' := by
  have hp' := hp.trans h1
  by_cases a1 : 1 ≤ p'
  · refine (pick_le hp hq).trans ?_
    rw [pick, if_pos a1]; exact h1
  by_cases a2 : q ≤ -1
  · have : pick p q = q := by rw [pick, if_neg (fun h => a1 (h.trans h1)), if_pos a2]
    rw [this]
    exact h2.trans (le_pick hp' hq')
  by_cases a3 : p = 0
  · have : pick p q = q := by rw [pick, if_neg (fun h => a1 (h.trans h1)), if_neg a2, if_pos a3]
    rw [this]
    exact h2.trans (le_pick hp' hq')
  have hpp : 0 < p := lt_of_le_of_ne hp (Ne.symm a3)
  have e' : pick p' q' = if q' = 0 then p' else 0 := by
    rw [pick, if_neg a1, if_neg (fun h => a2 (h2.trans h)), if_neg (by intro h; linarith)]
  have e : pick p q = if q = 0 then p else 0 := by
    rw [pick, if_neg (fun h => a1 (h.trans h1)), if_neg a2, if_neg a3]
  rw [e, e']
  split
  · next hq0 =>
    rw [if_pos (le_antisymm hq' (by linarith))]
    exact h1
  · split <;> linarith

theorem up_mono {x z z' : K} (h : z ≤ z') : up x z ≤ up x z' := max_le_max le_rfl (by linarith)
theorem down_mono {x z z' : K} (h : z ≤ z') : down x z ≤ down x z' := min_le_min le_rfl (by linarith)

/-- the value of a month after statement 200 -/
theorem eval200_x (x1 x2 z q y w : K) :
    (eval200 (fin x1) (fin x2) (fin z) (fin q) (fin y) (fin w)).x = fin (if y = 0 then pick (up x1 z) (down x2 z) else y) := by
  rw [eval200_K]
  unfold pick
  by_cases hy : y = 0
  · subst hy
    by_cases h1 : 1 ≤ up x1 z
    · rw [if_pos ⟨h1, rfl⟩, if_pos rfl, if_pos h1]
    · rw [if_neg (fun h => h1 h.1), if_pos rfl, if_neg h1]
      by_cases h2 : down x2 z ≤ -1
      · rw [if_pos ⟨h2, rfl⟩, if_pos h2]
      · rw [if_neg (fun h => h2 h.1), if_neg h2]
        by_cases h3 : up x1 z = 0
        · rw [if_pos ⟨rfl, h3⟩, if_pos h3]
        · rw [if_neg (fun h => h3 h.2), if_neg h3]
          by_cases h4 : down x2 z = 0
          · rw [if_pos ⟨rfl, h4⟩, if_pos h4]
          · rw [if_neg (fun h => h4 h.2), if_neg h4]
  · rw [if_neg (fun h => hy h.2), if_neg (fun h => hy h.2), if_neg (fun h => hy h.1), if_neg (fun h => hy h.1), if_neg hy]

/-- the value of a month in a wet spell: the spell goes on, or has ended with an index of at most 0.55 -/
def WetX (x1 x2 x3 z : K) (m : Month (Fl K)) : Prop :=
  ∃ a, m.x = fin a ∧ ((a = 0.897 * x3 + z / 3 ∧ 0.55 < 0.897 * x3 + z / 3) ∨
    (a = pick (up x1 z) (down x2 z) ∧ 0.897 * x3 + z / 3 ≤ 0.55))

/-- the value of a month in a drought -/
def DryX (x1 x2 x3 z : K) (m : Month (Fl K)) : Prop :=
  ∃ a, m.x = fin a ∧ ((a = 0.897 * x3 + z / 3 ∧ 0.897 * x3 + z / 3 < -0.55) ∨
    (a = pick (up x1 z) (down x2 z) ∧ -0.55 ≤ 0.897 * x3 + z / 3))

theorem x170 (v p x1 x2 x3 z : K) (hx : 1.5 / 2.691 < x3) (hv : (p = 100 ∧ 0 ≤ v) ∨ (p ≠ 100 ∧ v ≤ 0)) :
    WetX x1 x2 x3 z (eval170 (fin v) (fin p) (fin x1) (fin x2) (fin x3) (fin z)) := by
  have hx' : 1.5 < 2.691 * x3 := by rw [div_lt_iff₀ (by norm_num)] at hx; linarith
  unfold eval170
  simp only [pv170]
  have h15 : ((0.15 : ℚ) : K) = 0.15 := by norm_num
  rw [h15, lit0, fle_fin]
  by_cases hpv : 0 ≤ z - 0.15 + min v 0
  · rw [if_pos (decide_eq_true hpv)]
    unfold eval210
    rw [step_fin]
    refine ⟨_, rfl, Or.inl ⟨rfl, ?_⟩⟩
    have : min v 0 ≤ 0 := min_le_right _ _
    linarith
  · rw [if_neg (by simpa using hpv)]
    have hpv : z - 0.15 + min v 0 < 0 := not_le.1 hpv
    have hze : (lit (-2.691) * fin x3 + lit 1.5 : Fl K) = fin (-2.691 * x3 + 1.5) := by
      rw [lit_def, lit_def, fin_mul, fin_add]; norm_num
    rw [hze]
    unfold eval190
    simp only
    have hq : ∃ q : K, (if feq (fin p) (lit 100) then fin (-2.691 * x3 + 1.5) else fin (-2.691 * x3 + 1.5) + fin v) = (fin q : Fl K) ∧
        q < 0 ∧ q - min v 0 = -2.691 * x3 + 1.5 := by
      rw [lit100, feq_fin]
      by_cases hp : p = 100
      · have hv' := (hv.resolve_right (fun h => h.1 hp)).2
        exact ⟨-2.691 * x3 + 1.5, by simp [hp], by linarith, by rw [min_eq_right hv']; ring⟩
      · have hv' := (hv.resolve_left (fun h => hp h.1)).2
        exact ⟨-2.691 * x3 + 1.5 + v, by simp [hp], by linarith, by rw [min_eq_left hv']; ring⟩
    obtain ⟨q, hq1, hq2, hq3⟩ := hq
    rw [hq1, ratio_fin _ _ hq2.ne, lit100, fle_fin]
    by_cases hr : (100 : K) ≤ (z - 0.15 + min v 0) / q * 100
    · rw [if_pos (by simpa using hr), lit0]
      have h1 : 1 ≤ (z - 0.15 + min v 0) / q := by linarith
      rw [le_div_iff_of_neg hq2, one_mul] at h1
      exact ⟨_, by rw [eval200_x, if_pos rfl], Or.inr ⟨rfl, by linarith⟩⟩
    · rw [if_neg (by simpa using hr), step_fin]
      have h1 : (z - 0.15 + min v 0) / q < 1 := by linarith [not_le.1 hr]
      rw [div_lt_one_of_neg hq2] at h1
      have hy : 0.55 < 0.897 * x3 + z / 3 := by linarith
      have hy0 : 0.897 * x3 + z / 3 ≠ 0 := by
        intro h; rw [h] at hy; norm_num at hy
      exact ⟨_, by rw [eval200_x, if_neg hy0], Or.inl ⟨rfl, hy⟩⟩

theorem x180 (v p x1 x2 x3 z : K) (hx : x3 < -(1.5 / 2.691)) (hv : (p = 100 ∧ v ≤ 0) ∨ (p ≠ 100 ∧ 0 ≤ v)) :
    DryX x1 x2 x3 z (eval180 (fin v) (fin p) (fin x1) (fin x2) (fin x3) (fin z)) := by
  have hx' : 2.691 * x3 < -1.5 := by rw [lt_neg, div_lt_iff₀ (by norm_num)] at hx; linarith
  unfold eval180
  simp only [pv180]
  have h15 : ((0.15 : ℚ) : K) = 0.15 := by norm_num
  rw [h15, lit0, fle_fin]
  by_cases hpv : z + 0.15 + max v 0 ≤ 0
  · rw [if_pos (decide_eq_true hpv)]
    unfold eval210
    rw [step_fin]
    refine ⟨_, rfl, Or.inl ⟨rfl, ?_⟩⟩
    have : 0 ≤ max v 0 := le_max_right _ _
    linarith
  · rw [if_neg (by simpa using hpv)]
    have hpv : 0 < z + 0.15 + max v 0 := not_le.1 hpv
    have hze : (lit (-2.691) * fin x3 - lit 1.5 : Fl K) = fin (-2.691 * x3 - 1.5) := by
      rw [lit_def, lit_def, fin_mul, fin_sub]; norm_num
    rw [hze]
    unfold eval190
    simp only
    have hq : ∃ q : K, (if feq (fin p) (lit 100) then fin (-2.691 * x3 - 1.5) else fin (-2.691 * x3 - 1.5) + fin v) = (fin q : Fl K) ∧
        0 < q ∧ q - max v 0 = -2.691 * x3 - 1.5 := by
      rw [lit100, feq_fin]
      by_cases hp : p = 100
      · have hv' := (hv.resolve_right (fun h => h.1 hp)).2
        exact ⟨-2.691 * x3 - 1.5, by simp [hp], by linarith, by rw [max_eq_right hv']; ring⟩
      · have hv' := (hv.resolve_left (fun h => hp h.1)).2
        exact ⟨-2.691 * x3 - 1.5 + v, by simp [hp], by linarith, by rw [max_eq_left hv']; ring⟩
    obtain ⟨q, hq1, hq2, hq3⟩ := hq
    rw [hq1, ratio_fin _ _ hq2.ne', lit100, fle_fin]
    by_cases hr : (100 : K) ≤ (z + 0.15 + max v 0) / q * 100
    · rw [if_pos (by simpa using hr), lit0]
      have h1 : 1 ≤ (z + 0.15 + max v 0) / q := by linarith
      rw [le_div_iff₀ hq2, one_mul] at h1
      exact ⟨_, by rw [eval200_x, if_pos rfl], Or.inr ⟨rfl, by linarith⟩⟩
    · rw [if_neg (by simpa using hr), step_fin]
      have h1 : (z + 0.15 + max v 0) / q < 1 := by linarith [not_le.1 hr]
      rw [div_lt_one hq2] at h1
      have hy : 0.897 * x3 + z / 3 < -0.55 := by linarith
      have hy0 : 0.897 * x3 + z / 3 ≠ 0 := by
        intro h; rw [h] at hy; norm_num at hy
      exact ⟨_, by rw [eval200_x, if_neg hy0], Or.inl ⟨rfl, hy⟩⟩

/-- the value of a month: in a wet spell, in a drought, or without a spell -/
theorem month_x {v p x1 x2 x3 : K} (z : K) (h : State v p x1 x2 x3) :
    (0.5 < x3 → WetX x1 x2 x3 z (monthEval (fin v) (fin p) (fin x1) (fin x2) (fin x3) (fin z))) ∧
    (x3 < -0.5 → DryX x1 x2 x3 z (monthEval (fin v) (fin p) (fin x1) (fin x2) (fin x3) (fin z))) ∧
    (-0.5 ≤ x3 → x3 ≤ 0.5 → (monthEval (fin v) (fin p) (fin x1) (fin x2) (fin x3) (fin z)).x = fin (pick (up x1 z) (down x2 z))) := by
  have h5 : (lit 0.5 : Fl K) = fin 0.5 := by rw [lit_def]; norm_num
  have h5' : (lit (-0.5) : Fl K) = fin (-0.5) := by rw [lit_def]; norm_num
  have h15 : (lit 0.15 : Fl K) = fin 0.15 := by rw [lit_def]; norm_num
  have h15' : (lit (-0.15) : Fl K) = fin (-0.15) := by rw [lit_def]; norm_num
  unfold monthEval
  rw [h5, h5', h15, h15', lit0, lit100]
  simp only [fle_fin, flt_fin, feq_fin, ← Bool.decide_and, ← Bool.decide_or, decide_eq_true_eq]
  refine ⟨fun hx => ?_, fun hx => ?_, fun hd hw => ?_⟩
  · have hpos : 0 < x3 := lt_trans (by norm_num) hx
    have hl := h.large hx
    have key := x170 v p x1 x2 x3 z hl (h.v170 hpos)
    by_cases hp : p = 100 ∨ p = 0
    · rw [if_pos hp, if_neg (fun h => absurd h.2 (not_le.2 hx)), if_pos hx]
      by_cases hz : 0.15 ≤ z
      · rw [if_pos hz]
        unfold eval210
        rw [step_fin]
        rw [div_lt_iff₀ (by norm_num)] at hl
        exact ⟨_, rfl, Or.inl ⟨rfl, by linarith⟩⟩
      · rw [if_neg hz]; exact key
    · rw [if_neg hp, if_pos hpos]; exact key
  · have hneg : x3 < 0 := lt_trans hx (by norm_num)
    have hl : x3 < -(1.5 / 2.691) := by
      have := h.neg.large (by linarith : (0.5 : K) < -x3)
      linarith
    have hv : (p = 100 ∧ v ≤ 0) ∨ (p ≠ 100 ∧ 0 ≤ v) := by
      rcases h.neg.v170 (by linarith) with ⟨h1, h2⟩ | ⟨h1, h2⟩
      · exact Or.inl ⟨h1, by linarith⟩
      · exact Or.inr ⟨h1, by linarith⟩
    have key := x180 v p x1 x2 x3 z hl hv
    by_cases hp : p = 100 ∨ p = 0
    · rw [if_pos hp, if_neg (fun h => absurd h.1 (not_le.2 hx)), if_neg (by linarith), if_pos hx]
      by_cases hz : z ≤ -0.15
      · rw [if_pos hz]
        unfold eval210
        rw [step_fin]
        rw [lt_neg, div_lt_iff₀ (by norm_num)] at hl
        exact ⟨_, rfl, Or.inl ⟨rfl, by linarith⟩⟩
      · rw [if_neg hz]; exact key
    · rw [if_neg hp, if_neg (by linarith), if_pos hneg.le]; exact key
  · have hp : p = 100 ∨ p = 0 := by
      rcases h.prob with ⟨h1, _⟩ | ⟨h1, _⟩ | ⟨_, _, h3⟩
      · exact Or.inr h1
      · exact Or.inl h1
      · rcases h3 with ⟨h3, _⟩ | ⟨h3, _⟩
        · norm_num at h3 hw; linarith
        · norm_num at h3 hd; linarith
    rw [if_pos hp, if_pos ⟨hd, hw⟩, eval200_x, if_pos rfl]

/-- the value of a month does not decrease with its Z value -/
theorem month_mono {v p x1 x2 x3 : K} {z z' : K} (h : State v p x1 x2 x3) (hz : z ≤ z') :
    ∃ a b, (monthEval (fin v) (fin p) (fin x1) (fin x2) (fin x3) (fin z)).x = fin a ∧
      (monthEval (fin v) (fin p) (fin x1) (fin x2) (fin x3) (fin z')).x = fin b ∧ a ≤ b := by
  obtain ⟨w1, d1, n1⟩ := month_x z h
  obtain ⟨w2, d2, n2⟩ := month_x z' h
  have hmono := pick_mono (up_nonneg x1 z) (down_nonpos x2 z) (down_nonpos x2 z') (up_mono (x := x1) hz) (down_mono (x := x2) hz)
  have h55 : (0 : K) ≤ 0.55 := by norm_num
  by_cases hw : 0.5 < x3
  · obtain ⟨a, ha, ha'⟩ := w1 hw
    obtain ⟨b, hb, hb'⟩ := w2 hw
    refine ⟨a, b, ha, hb, ?_⟩
    have ho : x1 ≤ x3 := h.ord.2.2.1 (lt_trans (by norm_num) hw)
    rcases ha' with ⟨rfl, ha'⟩ | ⟨rfl, ha'⟩ <;> rcases hb' with ⟨rfl, hb'⟩ | ⟨rfl, hb'⟩
    · linarith
    · linarith
    · refine (pick_le (up_nonneg x1 z) (down_nonpos x2 z)).trans (le_trans (max_le h55 ?_) hb'.le)
      linarith
    · exact hmono
  · by_cases hd : x3 < -0.5
    · obtain ⟨a, ha, ha'⟩ := d1 hd
      obtain ⟨b, hb, hb'⟩ := d2 hd
      refine ⟨a, b, ha, hb, ?_⟩
      have ho : x3 ≤ x2 := h.ord.2.2.2.1 (lt_trans hd (by norm_num))
      rcases ha' with ⟨rfl, ha'⟩ | ⟨rfl, ha'⟩ <;> rcases hb' with ⟨rfl, hb'⟩ | ⟨rfl, hb'⟩
      · linarith
      · refine le_trans (le_trans ha'.le (le_min (by linarith) ?_)) (le_pick (up_nonneg x1 z') (down_nonpos x2 z'))
        linarith
      · linarith
      · exact hmono
    · exact ⟨_, _, n1 (not_lt.1 hd) (not_lt.1 hw), n2 (not_lt.1 hd) (not_lt.1 hw), hmono⟩

/-- an established index different from zero is the value of the month -/
theorem month_same (v p x1 x2 x3 z : K) (h : State v p x1 x2 x3) :
    (monthEval (fin v) (fin p) (fin x1) (fin x2) (fin x3) (fin z)).px3 = fin 0 ∨
    (monthEval (fin v) (fin p) (fin x1) (fin x2) (fin x3) (fin z)).px3 = (monthEval (fin v) (fin p) (fin x1) (fin x2) (fin x3) (fin z)).x := by
  rcases pair_month v p x1 x2 x3 z h with ⟨h1, _⟩ | ⟨q, y, w, h1, _⟩
  · rw [h1]
    exact Or.inr rfl
  · rw [h1, eval200_K]
    split
    · exact Or.inr rfl
    · split
      · exact Or.inr rfl
      · split
        · next hy => exact Or.inl (by rw [hy.1])
        · split
          · next hy => exact Or.inl (by rw [hy.1])
          · exact Or.inr rfl

/-- the last month is evaluated from a state that the earlier months determine -/
theorem last_state (zs : List K) : ∀ (v p x1 x2 x3 : K), State v p x1 x2 x3 →
    (∀ m ∈ monthsFrom (fin v) (fin p) (fin x1) (fin x2) (fin x3) (zs.map Fl.fin), ∀ x, m.px3 = fin x → Clear x) →
    ∃ v' p' y1 y2 y3 : K, State v' p' y1 y2 y3 ∧ ∀ z : K,
      (monthsFrom (fin v) (fin p) (fin x1) (fin x2) (fin x3) ((zs ++ [z]).map Fl.fin)).getLast? =
        some (monthEval (fin v') (fin p') (fin y1) (fin y2) (fin y3) (fin z)) := by
  induction zs with
  | nil => intro v p x1 x2 x3 h _; exact ⟨v, p, x1, x2, x3, h, fun z => rfl⟩
  | cons z zs ih =>
    intro v p x1 x2 x3 h hc
    simp only [List.map_cons, monthsFrom, List.mem_cons] at hc
    have hs := monthEval_prob (fin v) (fin p) (fin x3) x1 x2 z h.probInv (fun x hx => by cases hx; exact h.clear)
    obtain ⟨v1, p1, y1, y2, y3, e1, e2, e3, e4, e5, hst⟩ := (pair_month v p x1 x2 x3 z h).next hs (hc _ (Or.inl rfl))
    rw [e1, e2, e3, e4, e5] at hc
    obtain ⟨v', p', w1, w2, w3, g1, g2⟩ := ih v1 p1 y1 y2 y3 hst (fun m hm => hc m (Or.inr hm))
    refine ⟨v', p', w1, w2, w3, g1, fun z' => ?_⟩
    rw [← g2 z', List.cons_append, List.map_cons]
    simp only [monthsFrom]
    rw [e1, e2, e3, e4, e5]
    rw [List.getLast?_cons]
    cases hl : (monthsFrom (fin v1) (fin p1) (fin y1) (fin y2) (fin y3) ((zs ++ [z']).map Fl.fin)).getLast? with
    | none => rw [g2 z'] at hl; cases hl
    | some m => rfl

end Mirror
end CI
