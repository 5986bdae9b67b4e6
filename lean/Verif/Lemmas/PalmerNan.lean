import Verif.Lemmas.PalmerRun

/-!
# Missing Z values in the spell machine
-/

namespace CI
variable {F : Type} [FloatOps F] [FloatLaws F]

theorem feq_lit_self (q : ℚ) : feq (lit q : F) (lit q) = true :=
  (FloatLaws.feq_iff _ _).2 ⟨FloatLaws.lit_mono _ _ le_rfl, FloatLaws.lit_mono _ _ le_rfl⟩

theorem not_fle_one_zero : fle (lit 1 : F) (lit 0) = false := by
  have h := (FloatLaws.flt_iff _ _).1 (lit_zero_lt_one (F := F))
  exact h.2

theorem not_fle_zero_neg_one : fle (lit 0 : F) (lit (-1)) = false := by
  have h := (FloatLaws.flt_iff _ _).1 (lit_neg_one_lt_zero (F := F))
  exact h.2

theorem pyMax_nan (a : F) : pyMax a nan = a := by unfold pyMax; rw [flt_nan_right, if_neg (by simp)]
theorem pyMin_nan (a : F) : pyMin a nan = a := by unfold pyMin; rw [flt_nan_left, if_neg (by simp)]
theorem nan_pyMax (a : F) : pyMax nan a = nan := by unfold pyMax; rw [flt_nan_left, if_neg (by simp)]
theorem nan_pyMin (a : F) : pyMin nan a = nan := by unfold pyMin; rw [flt_nan_right, if_neg (by simp)]

/-- no spell: the numbers of a month without any departure -/
def blankMonth : Month F := ⟨lit 0, lit 0, lit 0, lit 0, lit 0, lit 0, .choose 2⟩

/-- no spell is established or ending: the machine is in the first branch of `_calc_zindex` -/
def Neutral (pro x3 : F) : Bool :=
  (feq pro (lit 100) || feq pro (lit 0)) && (fle (lit (-0.5)) x3 && fle x3 (lit 0.5))

theorem eval200_blank (x1 x2 : F) : eval200 x1 x2 nan (lit 0) (lit 0) (lit 0) = (blankMonth : Month F) := by
  unfold eval200 blankMonth
  simp only [FloatLaws.nan_div, FloatLaws.add_nan, pyMax_nan, pyMin_nan, not_fle_one_zero, not_fle_zero_neg_one, feq_lit_self,
    Bool.false_and, Bool.false_eq_true, if_false, Bool.and_self, if_true]

/-- a missing Z value when no spell is established gives a month of zeros -/
theorem monthEval_nan_neutral (v pro x1 x2 x3 : F) (h : Neutral pro x3 = true) :
    monthEval v pro x1 x2 x3 nan = blankMonth := by
  unfold Neutral at h
  rw [Bool.and_eq_true] at h
  unfold monthEval
  rw [if_pos h.1, if_pos h.2, eval200_blank]

/-- once `px3` and the probability are NaN the month is never decided -/
def Dead (m : Month F) : Prop := m.ppr = nan ∧ m.px3 = nan ∧ m.x = nan ∧ m.pv = nan ∧ m.dec = .wait

omit [FloatLaws F] in
theorem eval200_dead [FloatLaws F] (x1 x2 z : F) : Dead (eval200 x1 x2 z nan nan nan : Month F) := by
  unfold eval200 Dead
  simp only [feq_nan_left, Bool.and_false, Bool.false_eq_true, if_false, Bool.false_and, and_self]

theorem eval190_dead (v pro x1 x2 x3 z ze : F) (h : lit 0.897 * x3 + z / lit 3 = (nan : F)) :
    Dead (eval190 v pro x1 x2 x3 z nan ze : Month F) := by
  unfold eval190
  simp only [FloatLaws.nan_div, FloatLaws.nan_mul, FloatLaws.fle_nan_right, Bool.false_eq_true, if_false, h]
  exact eval200_dead _ _ _

theorem eval170_nan (v pro x1 x2 x3 : F) : Dead (eval170 v pro x1 x2 x3 nan : Month F) := by
  unfold eval170
  simp only [FloatLaws.nan_sub, FloatLaws.nan_add, FloatLaws.fle_nan_right, Bool.false_eq_true, if_false]
  exact eval190_dead _ _ _ _ _ _ _ (by simp)

theorem eval180_nan (v pro x1 x2 x3 : F) : Dead (eval180 v pro x1 x2 x3 nan : Month F) := by
  unfold eval180
  simp only [FloatLaws.nan_add, FloatLaws.fle_nan_left, Bool.false_eq_true, if_false]
  exact eval190_dead _ _ _ _ _ _ _ (by simp)

/-- a missing Z value during a spell makes the month NaN and undecided -/
theorem monthEval_nan_spell (v pro x1 x2 x3 : F) (h : Neutral pro x3 = false) : Dead (monthEval v pro x1 x2 x3 nan : Month F) := by
  unfold Neutral at h
  rw [Bool.and_eq_false_iff] at h
  unfold monthEval
  by_cases h1 : (feq pro (lit 100) || feq pro (lit 0)) = true
  · rw [if_pos h1]
    rcases h with h | h
    · rw [h1] at h; cases h
    · rw [if_neg (by rw [h]; simp)]
      simp only [FloatLaws.fle_nan_right, FloatLaws.fle_nan_left, Bool.false_eq_true, if_false]
      split
      · exact eval170_nan _ _ _ _ _
      · split
        · exact eval180_nan _ _ _ _ _
        · exact eval170_nan _ _ _ _ _
  · rw [if_neg h1]
    split
    · exact eval170_nan _ _ _ _ _
    · split
      · exact eval180_nan _ _ _ _ _
      · exact eval170_nan _ _ _ _ _

/-- a NaN state stays NaN for ever -/
theorem monthEval_dead (x1 x2 z : F) : Dead (monthEval nan nan x1 x2 nan z : Month F) := by
  unfold monthEval
  simp only [feq_nan_left, Bool.or_self, Bool.false_eq_true, if_false, flt_nan_right, FloatLaws.fle_nan_left]
  unfold eval170
  simp only [nan_pyMin, FloatLaws.add_nan, FloatLaws.fle_nan_right, Bool.false_eq_true, if_false]
  exact eval190_dead _ _ _ _ _ _ _ (by simp)

theorem monthsFrom_dead (x1 x2 : F) (zs : List F) : ∀ m ∈ monthsFrom nan nan x1 x2 nan zs, Dead m := by
  induction zs generalizing x1 x2 with
  | nil => intro m hm; simp [monthsFrom] at hm
  | cons z zs ih =>
    intro m hm
    obtain ⟨h1, h2, h3, h4, h5⟩ := monthEval_dead x1 x2 z
    simp only [monthsFrom, List.mem_cons] at hm
    rcases hm with rfl | hm
    · exact ⟨h1, h2, h3, h4, h5⟩
    · rw [h1, h2, h4] at hm
      exact ih _ _ m hm

omit [FloatLaws F] in
theorem backlog_dead [FloatLaws F] (k : Nat) (ms : List (Month F)) (h : ∀ m ∈ ms, Dead m) : backlog k ms = k + ms.length := by
  induction ms generalizing k with
  | nil => rfl
  | cons m ms ih =>
    unfold backlog
    rw [if_pos (h m (by simp)).2.2.2.2, ih _ (fun m hm => h m (by simp [hm])), List.length_cons]
    omega

omit [FloatLaws F] in
theorem backlog_append (k : Nat) (a b : List (Month F)) : backlog k (a ++ b) = backlog (backlog k a) b := by
  induction a generalizing k with
  | nil => rfl
  | cons m a ih => simp only [List.cons_append, backlog, ih]

/-- the spell variables after some months -/
def stateAfter : F → F → F → F → F → List F → F × F × F × F × F
  | v, pro, x1, x2, x3, [] => (v, pro, x1, x2, x3)
  | v, pro, x1, x2, x3, z :: zs =>
    let m := monthEval v pro x1 x2 x3 z
    stateAfter m.pv m.ppr m.px1 m.px2 m.px3 zs

omit [FloatLaws F] in
theorem monthsFrom_append (v pro x1 x2 x3 : F) (a b : List F) :
    monthsFrom v pro x1 x2 x3 (a ++ b) = monthsFrom v pro x1 x2 x3 a ++
      (fun s : F × F × F × F × F => monthsFrom s.1 s.2.1 s.2.2.1 s.2.2.2.1 s.2.2.2.2 b) (stateAfter v pro x1 x2 x3 a) := by
  induction a generalizing v pro x1 x2 x3 with
  | nil => rfl
  | cons z a ih => simp only [List.cons_append, monthsFrom, stateAfter, ih]

omit [FloatLaws F] in
theorem monthsFrom_take (v pro x1 x2 x3 : F) (zs : List F) (i : Nat) :
    (monthsFrom v pro x1 x2 x3 zs).take i = monthsFrom v pro x1 x2 x3 (zs.take i) := by
  induction zs generalizing v pro x1 x2 x3 i with
  | nil => simp [monthsFrom]
  | cons z zs ih =>
    cases i with
    | zero => simp [monthsFrom]
    | succ i => simp only [monthsFrom, List.take_succ_cons, ih]

omit [FloatLaws F] in
theorem stateAfter_append (v pro x1 x2 x3 : F) (a b : List F) :
    stateAfter v pro x1 x2 x3 (a ++ b) =
      (fun s : F × F × F × F × F => stateAfter s.1 s.2.1 s.2.2.1 s.2.2.2.1 s.2.2.2.2 b) (stateAfter v pro x1 x2 x3 a) := by
  induction a generalizing v pro x1 x2 x3 with
  | nil => rfl
  | cons z a ih => simp only [List.cons_append, stateAfter, ih]

/-- the state before the month after `a` is that of the last month of `a`, or the initial one -/
def prevState (a : List F) : F × F :=
  match (months a).getLast? with
  | none => (lit 0, lit 0)
  | some m => (m.ppr, m.px3)

omit [FloatLaws F] in
theorem prevState_eq (a : List F) :
    prevState a = (fun s : F × F × F × F × F => (s.2.1, s.2.2.2.2)) (stateAfter (lit 0) (lit 0) (lit 0) (lit 0) (lit 0) a) := by
  rcases List.eq_nil_or_concat a with rfl | ⟨b, z, rfl⟩
  · rfl
  · rw [List.concat_eq_append]
    unfold prevState months
    rw [monthsFrom_append, stateAfter_append]
    simp only [monthsFrom, stateAfter, List.getLast?_append, List.getLast?_singleton, Option.some_or]

/-- the two outcomes of a missing Z value at the month after `a` -/
theorem months_nan_neutral (a b : List F) (h : Neutral (prevState a).1 (prevState a).2 = true) :
    months (a ++ nan :: b) = months a ++ blankMonth :: months b := by
  rw [prevState_eq] at h
  unfold months
  rw [monthsFrom_append]
  revert h
  obtain ⟨v, pro, x1, x2, x3⟩ := stateAfter (lit 0) (lit 0) (lit 0) (lit 0) (lit 0) a
  intro h
  simp only [monthsFrom]
  rw [monthEval_nan_neutral _ _ _ _ _ h]
  rfl

theorem months_nan_spell (a b : List F) (h : Neutral (prevState a).1 (prevState a).2 = false) :
    ∃ ms : List (Month F), months (a ++ nan :: b) = months a ++ ms ∧ ms.length = b.length + 1 ∧ ∀ m ∈ ms, Dead m := by
  rw [prevState_eq] at h
  unfold months
  rw [monthsFrom_append]
  revert h
  obtain ⟨v, pro, x1, x2, x3⟩ := stateAfter (lit 0) (lit 0) (lit 0) (lit 0) (lit 0) a
  intro h
  simp only [monthsFrom]
  obtain ⟨h1, h2, h3, h4, h5⟩ := monthEval_nan_spell v pro x1 x2 x3 h
  refine ⟨_, rfl, by rw [List.length_cons, monthsFrom_length], ?_⟩
  intro m hm
  rcases List.mem_cons.1 hm with rfl | hm
  · exact ⟨h1, h2, h3, h4, h5⟩
  · rw [h1, h2, h4] at hm
    exact monthsFrom_dead _ _ _ m hm

/-- a record of missing Z values: every month is blank -/
theorem months_replicate_nan (n : Nat) : months (List.replicate n (nan : F)) = List.replicate n blankMonth := by
  unfold months
  induction n with
  | zero => rfl
  | succ n ih =>
    rw [List.replicate_succ, monthsFrom]
    rw [monthEval_nan_neutral _ _ _ _ _ (by
      unfold Neutral
      rw [feq_lit_self, FloatLaws.lit_mono _ _ (by norm_num), FloatLaws.lit_mono _ _ (by norm_num)]
      simp)]
    rw [List.replicate_succ]
    exact congrArg (List.cons _) ih

omit [FloatLaws F] in
theorem backlog_choose (ms : List (Month F)) (h : ∀ m ∈ ms, m.dec ≠ .wait) : backlog 0 ms = 0 := by
  induction ms with
  | nil => rfl
  | cons m ms ih =>
    unfold backlog
    rw [if_neg (h m (by simp))]
    exact ih (fun m hm => h m (by simp [hm]))

/-- `_case` of a blank month -/
theorem palmerCase_zero : palmerCase (lit 0 : F) (lit 0) (lit 0) (lit 0) = lit 0 := by
  unfold palmerCase
  rw [if_pos (feq_lit_self 0)]
  split <;> rfl

theorem palmerCase_nan (x1 x2 : F) : palmerCase (nan : F) x1 x2 nan = nan := by
  unfold palmerCase
  simp

/-- a record of missing Z values gives zeros in all three indices -/
theorem spellCells_replicate_nan (n : Nat) :
    ∃ cells, spellCells (List.replicate n (nan : F)) = .ok cells ∧ cells.length = n ∧
      ∀ c ∈ cells, c.pdsi = lit 0 ∧ c.phdi = lit 0 ∧ c.wplm = lit 0 := by
  have hs : ¬ Stuck (List.replicate n (nan : F)) := by
    rintro ⟨i, _, h⟩
    rw [months_replicate_nan, List.take_replicate, backlog_choose] at h
    · cases h
    · intro m hm
      rw [List.eq_of_mem_replicate hm]
      simp [blankMonth]
  obtain ⟨cells, h1, h2, h3⟩ := spellCells_spec _ hs
  rw [months_replicate_nan] at h3
  rw [List.length_replicate] at h2
  refine ⟨cells, h1, h2, ?_⟩
  intro c hc
  obtain ⟨j, hj, rfl⟩ := List.mem_iff_getElem.1 hc
  have hjn : j < n := by omega
  obtain ⟨c', hc', ⟨s1, s2, s3, s4, s5⟩, hf⟩ := h3 j blankMonth (by rw [List.getElem?_replicate, if_pos hjn])
  rw [List.getElem?_eq_getElem hj] at hc'
  cases hc'
  obtain ⟨f1, f2, f3⟩ := hf blankMonth (by rw [List.getLast?_replicate, if_neg (by omega)])
  simp only [Month.cell, blankMonth] at s1 s2 s3 s4 s5 f3
  rw [s2, s3, s4] at f1
  have hp : cells[j].pdsi = lit 0 := by tauto
  refine ⟨hp, ?_, ?_⟩
  · rw [f2, s4, if_pos (feq_lit_self 0), hp]
  · rw [s1, s2, s3, s4, palmerCase_zero] at f3
    rcases f3 with f3 | f3 <;> exact f3

omit [FloatLaws F] in
/-- a month that is undecided at the end of the record receives its own `x` as PDSI -/
theorem spellCells_pending (zs : List F) (cells : List (Cell F)) (h : spellCells zs = .ok cells) (j : Nat)
    (h1 : zs.length - backlog 0 (months zs) ≤ j) (h2 : j < zs.length) :
    ∃ c, cells[j]? = some c ∧ c.pdsi = c.x := by
  have hs : ¬ Stuck zs := by
    intro hc
    rw [spellCells_error zs hc] at h
    cases h
  obtain ⟨st, cells', g1, g2, g3, g4⟩ := spellCells_ok zs hs
  rw [h] at g4
  cases g4
  have hinv := g2.inv
  rw [Nat.zero_add] at hinv
  have hk : st.k8 = backlog 0 (months zs) := g2.k8
  rw [← hk] at h1
  have hk8 := hinv.k8_t
  have hmax := hinv.k8_max
  unfold finishUp at g3
  cases hlast : st.cells.getLast? with
  | none =>
    have : st.cells = [] := by
      rcases hc : st.cells with _ | ⟨c, cs⟩
      · rfl
      · rw [hc] at hlast; simp at hlast
    have hl := hinv.cellsLen
    rw [this] at hl
    simp at hl
    omega
  | some last =>
    rw [hlast] at g3
    simp only at g3
    obtain ⟨cells'', f1, f2, f3, f4⟩ := finishLoop_spec st.slots last st.k8max st.cells (by
      intro i hi
      rw [hinv.cellsLen]
      exact hinv.idxs i hi)
    rw [f1] at g3
    cases g3
    obtain ⟨e, c, e1, e2, e3, _⟩ := hinv.pend (j - (zs.length - st.k8)) (by omega)
    rw [show zs.length - st.k8 + (j - (zs.length - st.k8)) = j by omega] at e2 e3
    have hv : visited st.slots st.k8max j := ⟨_, e, by omega, e1, e2⟩
    refine ⟨patched last c, by rw [f3 j hv, e3]; rfl, rfl⟩

omit [FloatLaws F] in
theorem backlog_le_size (zs zs' : List F) (hs : ¬ Stuck (zs ++ zs')) : backlog 0 (months zs) ≤ k8Size := by
  obtain ⟨st, _, h2⟩ := (spellRun_spec zs.length zs 0 (spellInit zs.length) (inv_init _) (by omega)).2 (by
    intro i hi hc
    refine hs ⟨i, by rw [List.length_append]; omega, ?_⟩
    unfold months
    rw [monthsFrom_take, List.take_append_of_le_length (by omega), ← monthsFrom_take]
    exact hc)
  have hk : st.k8 = backlog 0 (months zs) := h2.k8
  rw [← hk]
  exact le_trans h2.inv.k8_max h2.inv.max_le

theorem stuck_of_nan (a b : List F) (h : Neutral (prevState a).1 (prevState a).2 = false) (hb : 40 ≤ b.length) :
    Stuck (a ++ nan :: b) := by
  by_contra hs
  have hk := backlog_le_size a _ hs
  obtain ⟨ms, h1, h2, h3⟩ := months_nan_spell a b h
  refine hs ⟨a.length + (k8Size - backlog 0 (months a)), ?_, ?_⟩
  · rw [List.length_append, List.length_cons]
    unfold k8Size
    omega
  · rw [h1, List.take_append, backlog_append, months_length, List.take_of_length_le (by rw [months_length]; omega),
      backlog_dead _ _ (fun m hm => h3 m (List.mem_of_mem_take hm)), List.length_take, h2]
    unfold k8Size at hk ⊢
    omega

end CI
