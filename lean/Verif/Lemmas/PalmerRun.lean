import Verif.Lemmas.PalmerSpell

/-!
# The spell machine over an entire record
-/

namespace CI
variable {F : Type} [FloatOps F]

/-- the decisions of the months, starting from given spell variables -/
def monthsFrom : F → F → F → F → F → List F → List (Month F)
  | _, _, _, _, _, [] => []
  | v, pro, x1, x2, x3, z :: zs =>
    let m := monthEval v pro x1 x2 x3 z
    m :: monthsFrom m.pv m.ppr m.px1 m.px2 m.px3 zs

/-- the decisions of a record -/
def months (zs : List F) : List (Month F) := monthsFrom (lit 0) (lit 0) (lit 0) (lit 0) (lit 0) zs

theorem monthsFrom_length (v pro x1 x2 x3 : F) (zs : List F) : (monthsFrom v pro x1 x2 x3 zs).length = zs.length := by
  induction zs generalizing v pro x1 x2 x3 with
  | nil => rfl
  | cons z zs ih => simp only [monthsFrom, List.length_cons, ih]

theorem months_length (zs : List F) : (months zs).length = zs.length := monthsFrom_length _ _ _ _ _ _

/-- number of undecided months at the end, `k` months being undecided before -/
def backlog : Nat → List (Month F) → Nat
  | k, [] => k
  | k, m :: ms => backlog (if m.dec = .wait then k + 1 else 0) ms

/-- what the months `t, ..., t + zs.length - 1` do to a state -/
structure RunOk (n t : Nat) (st : Spell F) (zs : List F) (ms : List (Month F)) (st' : Spell F) : Prop where
  inv : Inv n (t + zs.length) st'
  k8 : st'.k8 = backlog st.k8 ms
  kept : ∀ j, j < t - st.k8 → st'.cells[j]? = st.cells[j]?
  same : ∀ j c, j < t → st.cells[j]? = some c → ∃ c', st'.cells[j]? = some c' ∧ SameNumbers c c'
  numbers : ∀ i m, ms[i]? = some m → ∃ c, st'.cells[t + i]? = some c ∧ SameNumbers m.cell c

theorem SameNumbers.trans {a b c : Cell F} (h1 : SameNumbers a b) (h2 : SameNumbers b c) : SameNumbers a c := by
  obtain ⟨p1, p2, p3, p4, p5⟩ := h1
  obtain ⟨q1, q2, q3, q4, q5⟩ := h2
  exact ⟨q1.trans p1, q2.trans p2, q3.trans p3, q4.trans p4, q5.trans p5⟩

theorem spellRun_spec (n : Nat) (zs : List F) : ∀ (t : Nat) (st : Spell F), Inv n t st → t + zs.length ≤ n →
    ((∃ i, i < zs.length ∧ backlog st.k8 ((monthsFrom st.v st.pro st.x1 st.x2 st.x3 zs).take i) = k8Size) →
      spellRun zs t st = .error .indexError) ∧
    ((∀ i, i < zs.length → backlog st.k8 ((monthsFrom st.v st.pro st.x1 st.x2 st.x3 zs).take i) ≠ k8Size) →
      ∃ st', spellRun zs t st = .ok st' ∧ RunOk n t st zs (monthsFrom st.v st.pro st.x1 st.x2 st.x3 zs) st') := by
  induction zs with
  | nil =>
    intro t st h _
    refine ⟨fun ⟨i, hi, _⟩ => absurd hi (by simp), fun _ => ⟨st, rfl, h, rfl, fun _ _ => rfl, fun j c _ hc => ⟨c, hc, SameNumbers.refl c⟩, ?_⟩⟩
    intro i m hm
    simp [monthsFrom] at hm
  | cons z zs ih =>
    intro t st h hn
    simp only [List.length_cons] at hn
    obtain ⟨herr, hok⟩ := spellMonth_spec n t st z h (by omega)
    by_cases hk : st.k8 = k8Size
    · constructor
      · intro _
        unfold spellRun
        rw [herr hk]; rfl
      · intro hc
        exact absurd hk (by simpa [backlog] using hc 0 (by simp))
    · have hklt : st.k8 < k8Size := by
        have h1 := h.k8_max
        have h2 := h.max_le
        omega
      obtain ⟨st1, h1, hstep, hnw, hwait⟩ := hok hklt
      have hm : monthOf st z = monthEval st.v st.pro st.x1 st.x2 st.x3 z := rfl
      have hk1 : st1.k8 = if (monthOf st z).dec = .wait then st.k8 + 1 else 0 := by
        split
        · next hd => exact (hwait hd).1
        · next hd => exact (hnw hd).1
      obtain ⟨ih1, ih2⟩ := ih (t + 1) st1 hstep.inv (by omega)
      have hms : monthsFrom st.v st.pro st.x1 st.x2 st.x3 (z :: zs) =
          monthOf st z :: monthsFrom st1.v st1.pro st1.x1 st1.x2 st1.x3 zs := by
        rw [hstep.v, hstep.pro, hstep.x1, hstep.x2, hstep.x3]
        rfl
      have hrun : spellRun (z :: zs) t st = spellRun zs (t + 1) st1 := by
        conv_lhs => unfold spellRun
        rw [h1]; rfl
      have hbl : ∀ i, backlog st.k8 ((monthsFrom st.v st.pro st.x1 st.x2 st.x3 (z :: zs)).take (i + 1)) =
          backlog st1.k8 ((monthsFrom st1.v st1.pro st1.x1 st1.x2 st1.x3 zs).take i) := by
        intro i
        rw [hms, List.take_succ_cons, backlog, hk1]
      rw [hrun]
      constructor
      · rintro ⟨i, hi, hb⟩
        cases i with
        | zero => exact absurd hb (by simpa [backlog] using hk)
        | succ i =>
          rw [hbl] at hb
          exact ih1 ⟨i, by simpa using hi, hb⟩
      · intro hall
        obtain ⟨st', h2, hr⟩ := ih2 (fun i hi => by
          have := hall (i + 1) (by simp only [List.length_cons]; omega)
          rwa [hbl] at this)
        refine ⟨st', h2, ?_, ?_, ?_, ?_, ?_⟩
        · have := hr.inv
          rwa [show t + 1 + zs.length = t + (z :: zs).length by simp only [List.length_cons]; omega] at this
        · rw [hr.k8, hms, backlog, hk1]
        · intro j hj
          have hj' : j < t + 1 - st1.k8 := by
            rw [hk1]; split <;> omega
          rw [hr.kept j hj', hstep.kept j hj]
        · intro j c hj hc
          obtain ⟨c1, hc1, hs1⟩ := hstep.same j c (by omega) hc
          obtain ⟨c2, hc2, hs2⟩ := hr.same j c1 (by omega) hc1
          exact ⟨c2, hc2, hs1.trans hs2⟩
        · intro i m hi
          rw [hms] at hi
          cases i with
          | zero =>
            simp only [List.getElem?_cons_zero, Option.some.injEq] at hi
            subst hi
            obtain ⟨c1, hc1, hs1⟩ := hstep.now
            obtain ⟨c2, hc2, hs2⟩ := hr.same t c1 (by omega) hc1
            exact ⟨c2, by simpa using hc2, hs1.trans hs2⟩
          | succ i =>
            rw [List.getElem?_cons_succ] at hi
            obtain ⟨c, hc, hs⟩ := hr.numbers i m hi
            exact ⟨c, by rw [show t + (i + 1) = t + 1 + i by omega]; exact hc, hs⟩

/-! ## `_finish_up` -/

/-- what `_finish_up` writes into the entry of a month -/
def patched (last c : Cell F) : Cell F :=
  { c with
    pdsi := c.x
    phdi := if feq c.px3 (lit 0) then c.x else c.px3
    wplm := palmerCase last.ppr last.px1 last.px2 last.px3 }

theorem patched_patched (last c : Cell F) : patched last (patched last c) = patched last c := rfl

/-- the months `_finish_up` visits: the first `k` positions of the index arrays, stale ones included -/
def visited (slots : List (Slot F)) (k j : Nat) : Prop := ∃ i e, i < k ∧ slots[i]? = some e ∧ e.idx = some j

theorem finishLoop_spec (slots : List (Slot F)) (last : Cell F) (k : Nat) (cells : List (Cell F))
    (hs : ∀ i, i < k → ∃ e j, slots[i]? = some e ∧ e.idx = some j ∧ j < cells.length) :
    ∃ cells', finishLoop slots last k cells = .ok cells' ∧ cells'.length = cells.length ∧
      (∀ j, visited slots k j → cells'[j]? = (cells[j]?).map (patched last)) ∧
      (∀ j, ¬ visited slots k j → cells'[j]? = cells[j]?) := by
  induction k with
  | zero =>
    refine ⟨cells, rfl, rfl, ?_, fun _ _ => rfl⟩
    rintro j ⟨i, e, hi, _⟩
    omega
  | succ k ih =>
    obtain ⟨cells', hc, hl, hv, hn⟩ := ih (fun i hi => hs i (by omega))
    obtain ⟨e, j, he, hidx, hj⟩ := hs k (by omega)
    unfold finishLoop
    rw [hc]
    simp only [bind, Except.bind]
    rw [getIdx_some he]
    simp only [hidx]
    have hjl : j < cells'.length := by omega
    have hcj : cells'[j]? = some cells'[j] := List.getElem?_eq_getElem hjl
    rw [getIdx_some hcj]
    simp only
    rw [setIdx_lt _ hjl]
    have hset : ∀ i, (cells'.set j (patched last cells'[j]))[i]? = if i = j then (cells[j]?).map (patched last) else cells'[i]? := by
      intro i
      by_cases hij : i = j
      · subst hij
        rw [List.getElem?_set_self hjl, if_pos rfl]
        by_cases hvis : visited slots k i
        · have h1 := hv i hvis
          rw [hcj] at h1
          rw [List.getElem?_eq_getElem hj, Option.map_some] at h1 ⊢
          injection h1 with h1
          rw [h1, patched_patched]
        · have h1 := hn i hvis
          rw [hcj] at h1
          rw [← h1, Option.map_some]
      · rw [List.getElem?_set_ne (Ne.symm hij), if_neg hij]
    refine ⟨_, rfl, by rw [List.length_set, hl], ?_, ?_⟩
    · rintro i ⟨i', e', hi', he', hidx'⟩
      show (cells'.set j (patched last cells'[j]))[i]? = _
      rw [hset]
      by_cases hij : i = j
      · rw [if_pos hij, hij]
      · rw [if_neg hij]
        refine hv i ⟨i', e', ?_, he', hidx'⟩
        by_contra hc
        have : i' = k := by omega
        subst this
        rw [he] at he'
        cases he'
        rw [hidx] at hidx'
        exact hij (Option.some.inj hidx').symm
    · intro i hi
      show (cells'.set j (patched last cells'[j]))[i]? = _
      have hij : i ≠ j := by
        intro hc
        subst hc
        exact hi ⟨k, e, by omega, he, hidx⟩
      rw [hset, if_neg hij]
      refine hn i ?_
      rintro ⟨i', e', hi', h'⟩
      exact hi ⟨i', e', by omega, h'⟩

/-- what `_finish_up` leaves of a completed run: every month is resolved, or has been visited and carries its own `x` and the modified index of the last
month -/
structure Final (last c : Cell F) : Prop where
  pdsi : c.pdsi = c.px1 ∨ c.pdsi = c.px2 ∨ c.pdsi = c.px3
  phdi : c.phdi = if feq c.px3 (lit 0) then c.pdsi else c.px3
  wplm : c.wplm = palmerCase c.ppr c.px1 c.px2 c.px3 ∨ c.wplm = palmerCase last.ppr last.px1 last.px2 last.px3

theorem finishUp_spec (n : Nat) (st : Spell F) (h : Inv n n st) :
    ∃ cells', finishUp st = .ok cells' ∧ cells'.length = n ∧
      (∀ j c, st.cells[j]? = some c → ∃ c', cells'[j]? = some c' ∧ SameNumbers c c' ∧
        (∀ last, st.cells.getLast? = some last → Final last c') ∧ (¬ visited st.slots st.k8max j → c' = c ∧ Resolved c)) := by
  unfold finishUp
  cases hlast : st.cells.getLast? with
  | none =>
    have h0 : st.cells = [] := by
      rcases hc : st.cells with _ | ⟨c, cs⟩
      · rfl
      · rw [hc] at hlast; simp at hlast
    refine ⟨st.cells, rfl, h.cellsLen, ?_⟩
    intro j c hc
    rw [h0] at hc
    simp at hc
  | some last =>
    simp only
    have hidx : ∀ i, i < st.k8max → ∃ e j, st.slots[i]? = some e ∧ e.idx = some j ∧ j < st.cells.length := by
      intro i hi
      rw [h.cellsLen]
      exact h.idxs i hi
    obtain ⟨cells', hc, hl, hv, hn⟩ := finishLoop_spec st.slots last st.k8max st.cells hidx
    refine ⟨cells', hc, by rw [hl, h.cellsLen], ?_⟩
    intro j c hcj
    have hjn : j < n := by
      have := lt_of_getElem? hcj
      rwa [h.cellsLen] at this
    by_cases hvis : visited st.slots st.k8max j
    · refine ⟨patched last c, by rw [hv j hvis, hcj]; rfl, ⟨rfl, rfl, rfl, rfl, rfl⟩, ?_, fun hc => absurd hvis hc⟩
      intro last' hl'
      cases hl'
      exact ⟨h.chosen j c hjn hcj, rfl, Or.inr rfl⟩
    · have hres : Resolved c := by
        refine h.res j c ?_ hcj
        by_contra hc
        have hk8n := h.k8_t
        obtain ⟨e, c', h1, h2, _⟩ := h.pend (j - (n - st.k8)) (by omega)
        rw [show n - st.k8 + (j - (n - st.k8)) = j by omega] at h2
        refine hvis ⟨_, e, ?_, h1, h2⟩
        have := h.k8_max
        omega
      refine ⟨c, by rw [hn j hvis, hcj], SameNumbers.refl c, ?_, fun _ => ⟨rfl, hres⟩⟩
      intro last' _
      exact ⟨hres.pdsi, hres.phdi, Or.inl hres.wplm⟩

/-- a record is too long undecided: `k8Size` months in a row are undecided and another month follows -/
def Stuck (zs : List F) : Prop := ∃ i, i < zs.length ∧ backlog 0 ((months zs).take i) = k8Size

theorem spellCells_error (zs : List F) (h : Stuck zs) : spellCells zs = .error .indexError := by
  unfold spellCells
  rw [(spellRun_spec zs.length zs 0 (spellInit zs.length) (inv_init _) (by omega)).1 h]
  rfl

theorem spellCells_ok (zs : List F) (h : ¬ Stuck zs) :
    ∃ st cells, spellRun zs 0 (spellInit zs.length) = .ok st ∧ RunOk zs.length 0 (spellInit zs.length) zs (months zs) st ∧
      finishUp st = .ok cells ∧ spellCells zs = .ok cells := by
  obtain ⟨st, h1, h2⟩ := (spellRun_spec zs.length zs 0 (spellInit zs.length) (inv_init _) (by omega)).2 (fun i hi hc => h ⟨i, hi, hc⟩)
  have hinv := h2.inv
  rw [Nat.zero_add] at hinv
  obtain ⟨cells, h3, _⟩ := finishUp_spec zs.length st hinv
  refine ⟨st, cells, h1, h2, h3, ?_⟩
  unfold spellCells
  rw [h1]
  exact h3

/-- the whole machine: which months' numbers are reported and what the three indices are -/
theorem spellCells_spec (zs : List F) (h : ¬ Stuck zs) :
    ∃ cells, spellCells zs = .ok cells ∧ cells.length = zs.length ∧
      ∀ (j : Nat) (m : Month F), (months zs)[j]? = some m → ∃ c, cells[j]? = some c ∧ SameNumbers m.cell c ∧
        ∀ ml, (months zs).getLast? = some ml → Final ml.cell c := by
  obtain ⟨st, cells, h1, h2, h3, h4⟩ := spellCells_ok zs h
  have hinv := h2.inv
  rw [Nat.zero_add] at hinv
  obtain ⟨cells', h5, h6, h7⟩ := finishUp_spec zs.length st hinv
  rw [h3] at h5
  cases h5
  refine ⟨cells, h4, h6, ?_⟩
  intro j m hm
  obtain ⟨c, hc, hs⟩ := h2.numbers j m hm
  rw [Nat.zero_add] at hc
  obtain ⟨c', hc', hs', hf, _⟩ := h7 j c hc
  refine ⟨c', hc', hs.trans hs', ?_⟩
  intro ml hml
  -- the last entry
  have hlen : (months zs).length = zs.length := months_length zs
  rw [List.getLast?_eq_getElem?] at hml
  obtain ⟨cl, hcl, hsl⟩ := h2.numbers _ ml hml
  rw [Nat.zero_add] at hcl
  have hlast : st.cells.getLast? = some cl := by
    rw [List.getLast?_eq_getElem?, hinv.cellsLen, ← hlen]; exact hcl
  obtain ⟨f1, f2, f3⟩ := hf cl hlast
  obtain ⟨s1, s2, s3, s4, _⟩ := hsl
  rw [s1, s2, s3, s4] at f3
  exact ⟨f1, f2, f3⟩

theorem spellCells_error_iff (zs : List F) : (∃ e, spellCells zs = .error e) ↔ Stuck zs := by
  constructor
  · rintro ⟨e, he⟩
    by_contra hc
    obtain ⟨_, _, _, _, _, h⟩ := spellCells_ok zs hc
    rw [h] at he
    cases he
  · intro h
    exact ⟨_, spellCells_error zs h⟩

end CI
