import Verif.Lemmas.PalmerNum
import Mathlib.Tactic.Ring

/-!
# Palmer spell machine (C39, C40, C41, C42, C45)

`spellCells zs` is the month loop of `_calc_zindex` followed by `_finish_up`, as a function of the Z values. Theorems over `[FloatLaws F]` hold for rounded
arithmetic; theorems over a field `K` are about exact arithmetic.
-/

namespace CI.Props
open Fl

section laws
variable {F : Type} [FloatOps F]

/-- C39 (signs): at every month the incipient wet index is `>= 0`, the incipient dry index is `<= 0`, and the probability never exceeds 100; for all Z
histories, missing values included. -/
theorem C39_signs [FloatLaws F] (zs : List F) (cells : List (Cell F)) (h : spellCells zs = .ok cells) :
    ∀ c ∈ cells, fle (lit 0) c.px1 = true ∧ fle c.px2 (lit 0) = true ∧ flt (lit 100) c.ppr = false := by
  intro c hc
  obtain ⟨m, hm, ⟨h1, h2, h3, _⟩, _⟩ := mem_cells zs cells h c hc
  have := months_all Month.Signs (fun _ _ _ _ _ _ => monthEval_signs _ _ _ _ _ _) zs m hm
  rw [h1, h2, h3]
  exact this

/-- C40: every month has been assigned a PDSI (one of its three indices) and a PHDI (the established index, or the PDSI if there is none), and
a PMDI; there is one entry per month. -/
theorem C40_assigned (zs : List F) (cells : List (Cell F)) (h : spellCells zs = .ok cells) :
    cells.length = zs.length ∧
    ∀ c ∈ cells, (c.pdsi = c.px1 ∨ c.pdsi = c.px2 ∨ c.pdsi = c.px3) ∧
      c.phdi = (if feq c.px3 (lit 0) then c.pdsi else c.px3) ∧
      ∃ d ∈ cells, c.wplm = palmerCase d.ppr d.px1 d.px2 d.px3 := by
  have hs : ¬ Stuck zs := by
    intro hc
    rw [spellCells_error zs hc] at h
    cases h
  obtain ⟨cells', h1, h2, h3⟩ := spellCells_spec zs hs
  rw [h] at h1
  cases h1
  refine ⟨h2, ?_⟩
  intro c hc
  obtain ⟨m, hm, hsame, hf⟩ := mem_cells zs cells h c hc
  have hne : months zs ≠ [] := List.ne_nil_of_mem hm
  have hlast : (months zs).getLast? = some ((months zs).getLast hne) := List.getLast?_eq_some_getLast hne
  obtain ⟨f1, f2, f3⟩ := hf _ hlast
  refine ⟨f1, f2, ?_⟩
  rcases f3 with f3 | f3
  · exact ⟨c, hc, f3⟩
  · have hl' := hlast
    rw [List.getLast?_eq_getElem?] at hl'
    obtain ⟨d, hd, ⟨s1, s2, s3, s4, _⟩, _⟩ := h3 _ _ hl'
    refine ⟨d, List.mem_of_getElem? hd, ?_⟩
    rw [s1, s2, s3, s4]
    exact f3

/-- number of months still undecided after the months `zs` of a record of `n` months; `none` if the run has failed -/
def undecidedAfter (n : Nat) (zs : List F) : Option Nat :=
  match spellRun zs 0 (spellInit n) with
  | .ok st => some st.k8
  | .error _ => none

theorem monthsFrom_take (v pro x1 x2 x3 : F) (zs : List F) (i : Nat) :
    monthsFrom v pro x1 x2 x3 (zs.take i) = (monthsFrom v pro x1 x2 x3 zs).take i := by
  induction zs generalizing v pro x1 x2 x3 i with
  | nil => simp [monthsFrom]
  | cons z zs ih =>
    cases i with
    | zero => simp [monthsFrom]
    | succ i => simp only [List.take_succ_cons, monthsFrom, ih]

/-- an undecided stretch of 40 months is first reached with exactly 40 -/
theorem undecided_take (zs : List F) (i : Nat) (hi : i ≤ zs.length)
    (h : ∀ k, k < i → backlog 0 ((months zs).take k) ≠ k8Size) :
    undecidedAfter zs.length (zs.take i) = some (backlog 0 ((months zs).take i)) := by
  have hmt : ∀ k, k ≤ i → (months (zs.take i)).take k = (months zs).take k := by
    intro k hk
    unfold months
    rw [monthsFrom_take, List.take_take, min_eq_left hk]
  obtain ⟨st, h1, h2⟩ := (spellRun_spec zs.length (zs.take i) 0 (spellInit zs.length) (inv_init _) (by rw [List.length_take]; omega)).2 (by
    intro k hk
    have hk' : k < i := by
      rw [List.length_take] at hk; omega
    show backlog 0 ((months (zs.take i)).take k) ≠ _
    rw [hmt k hk'.le]
    exact h k hk')
  unfold undecidedAfter
  rw [h1]
  simp only
  rw [h2.k8]
  show some (backlog 0 (months (zs.take i))) = _
  have hlen : (months (zs.take i)).length ≤ i := by rw [months_length, List.length_take]; omega
  have := hmt i (le_refl _)
  rw [List.take_of_length_le hlen] at this
  rw [this]

/-- C41 (`_partial`: "never fails" is false, see `C41_fails`): the backtracking fails exactly when 40 months in a row are undecided and another month follows,
and it then fails with IndexError. -/
theorem C41_partial (zs : List F) :
    ((∃ e, spellCells zs = .error e) ↔ ∃ i, i < zs.length ∧ undecidedAfter zs.length (zs.take i) = some 40) ∧
    ∀ e, spellCells zs = .error e → e = .indexError := by
  constructor
  · rw [spellCells_error_iff]
    constructor
    · intro hs
      -- the first position
      classical
      let i := Nat.find hs
      obtain ⟨h1, h2⟩ := Nat.find_spec hs
      refine ⟨Nat.find hs, h1, ?_⟩
      rw [undecided_take zs _ h1.le, h2]
      · rfl
      · intro k hk hc
        exact Nat.find_min hs hk ⟨by omega, hc⟩
    · rintro ⟨i, hi, hu⟩
      by_contra hns
      have hall : ∀ k, k < zs.length → backlog 0 ((months zs).take k) ≠ k8Size := fun k hk hc => hns ⟨k, hk, hc⟩
      rw [undecided_take zs i hi.le (fun k hk => hall k (by omega))] at hu
      exact hall i hi (Option.some.inj hu)
  · intro e he
    have hs := (spellCells_error_iff zs).1 ⟨e, he⟩
    rw [spellCells_error zs hs] at he
    cases he
    rfl

omit [FloatOps F] in
theorem backlog_le (k : Nat) (ms : List (Month F)) : backlog k ms ≤ k + ms.length := by
  induction ms generalizing k with
  | nil => simp [backlog]
  | cons m ms ih =>
    rw [backlog, List.length_cons]
    refine le_trans (ih _) ?_
    split <;> omega

/-- C41 for short records: up to 40 months never fail. -/
theorem C41_short (zs : List F) (h : zs.length ≤ 40) : ∃ cells, spellCells zs = .ok cells := by
  have hs : ¬ Stuck zs := by
    rintro ⟨i, hi, hb⟩
    have := backlog_le 0 ((months zs).take i)
    rw [hb, List.length_take, months_length] at this
    unfold k8Size at this
    omega
  obtain ⟨_, cells, _, _, _, h4⟩ := spellCells_ok zs hs
  exact ⟨cells, h4⟩

/-- C42 (`_partial`: true of the month loop, false of the entire `pdsi`, see `C42_fails`): the months that are decided after the first months `zs` of a
record keep all their indices during the rest of the month loop. -/
theorem C42_partial (n : Nat) (zs zs' : List F) (st st' : Spell F) (hn : (zs ++ zs').length ≤ n)
    (h : spellRun zs 0 (spellInit n) = .ok st) (h' : spellRun (zs ++ zs') 0 (spellInit n) = .ok st') :
    ∀ j, j < zs.length - st.k8 → st'.cells[j]? = st.cells[j]? := by
  rw [List.length_append] at hn
  have key : ∀ (zs : List F) (t : Nat) (s : Spell F), Inv n t s → t + zs.length ≤ n → ∀ s', spellRun zs t s = .ok s' →
      RunOk n t s zs (monthsFrom s.v s.pro s.x1 s.x2 s.x3 zs) s' := by
    intro zs t s hinv hl s' hr
    obtain ⟨h1, h2⟩ := spellRun_spec n zs t s hinv hl
    by_cases hc : ∃ i, i < zs.length ∧ backlog s.k8 ((monthsFrom s.v s.pro s.x1 s.x2 s.x3 zs).take i) = k8Size
    · rw [h1 hc] at hr; cases hr
    · obtain ⟨s'', h3, h4⟩ := h2 (fun i hi hb => hc ⟨i, hi, hb⟩)
      rw [hr] at h3
      cases h3
      exact h4
  have happ : ∀ (zs zs' : List F) (t : Nat) (s s1 : Spell F), spellRun zs t s = .ok s1 →
      spellRun (zs ++ zs') t s = spellRun zs' (t + zs.length) s1 := by
    intro zs
    induction zs with
    | nil => intro zs' t s s1 hr; cases hr; rfl
    | cons z zs ih =>
      intro zs' t s s1 hr
      rw [List.cons_append]
      unfold spellRun at hr
      conv_lhs => unfold spellRun
      cases hm : spellMonth s t z with
      | error e => rw [hm] at hr; cases hr
      | ok s2 =>
        rw [hm] at hr
        simp only [bind, Except.bind] at hr ⊢
        rw [ih zs' (t + 1) s2 s1 hr, List.length_cons, show t + (zs.length + 1) = t + 1 + zs.length by omega]
  have h1 := key zs 0 (spellInit n) (inv_init n) (by omega) st h
  rw [happ zs zs' 0 (spellInit n) st h] at h'
  have h2 := key zs' (0 + zs.length) st h1.inv (by omega) st' h'
  intro j hj
  exact h2.kept j (by omega)

end laws

/-! ## Exact arithmetic -/

section field
variable {K : Type} [Field K] [LinearOrder K] [IsStrictOrderedRing K]

/-- C40 (no missing values): for Z values that are numbers all three indices of every month are numbers. -/
theorem C40_finite (zs : List K) (cells : List (Cell (Fl K))) (h : spellCells (zs.map Fl.fin) = .ok cells) :
    ∀ c ∈ cells, (∃ a, c.pdsi = fin a) ∧ (∃ a, c.phdi = fin a) ∧ ∃ a, c.wplm = fin a := by
  have hnum : ∀ c ∈ cells, (∃ a, c.px1 = fin a) ∧ (∃ a, c.px2 = fin a) ∧ (∃ a, c.px3 = fin a) ∧ c.ppr ≠ .nan := by
    intro c hc
    obtain ⟨m, hm, ⟨h1, h2, h3, h4, _⟩, _⟩ := mem_cells _ cells h c hc
    obtain ⟨f1, f2, f3, _, f5⟩ := months_fin zs m hm
    rw [h1, h2, h3, h4]
    exact ⟨f1, f2, f3, f5⟩
  have hcase : ∀ d ∈ cells, ∃ a, palmerCase d.ppr d.px1 d.px2 d.px3 = fin a := by
    intro d hd
    obtain ⟨⟨a1, h1⟩, ⟨a2, h2⟩, ⟨a3, h3⟩, h4⟩ := hnum d hd
    rw [h1, h2, h3]
    unfold palmerCase
    simp only
    split
    · split <;> exact ⟨_, rfl⟩
    · split
      · exact ⟨_, rfl⟩
      · next hp =>
        cases hppr : d.ppr with
        | nan => exact absurd hppr h4
        | ninf => rw [hppr] at hp; exact absurd rfl hp
        | pinf => rw [hppr] at hp; exact absurd (by simp [fle, Fl.le, lit_def]) hp
        | fin p =>
          have hh : (lit 100 : Fl K) = fin 100 := by rw [lit_def]; norm_num
          rw [hh, fin_div_of_ne _ _ (by norm_num), show (lit 1 : Fl K) = fin ((1 : ℚ) : K) from rfl, fin_sub]
          split <;> exact ⟨_, rfl⟩
  intro c hc
  obtain ⟨⟨a1, h1⟩, ⟨a2, h2⟩, ⟨a3, h3⟩, _⟩ := hnum c hc
  obtain ⟨g1, g2, d, hd, g3⟩ := (C40_assigned _ cells h).2 c hc
  have hp : ∃ a, c.pdsi = fin a := by
    rcases g1 with g | g | g
    · exact ⟨_, g.trans h1⟩
    · exact ⟨_, g.trans h2⟩
    · exact ⟨_, g.trans h3⟩
  refine ⟨hp, ?_, ?_⟩
  · rw [g2]
    split
    · exact hp
    · exact ⟨_, h3⟩
  · rw [g3]
    exact hcase d hd

/-- C39 (probability; `_partial`: false in general, see `C39_fails`): the probability is within 0..100 at every month, if the established
index is never in the band 0.5 < |x3| <= 1.5/2.691 (0.557...), in which the code's denominator `-2.691 * x3 ± 1.5` has the wrong sign. -/
theorem C39_partial (zs : List K) (cells : List (Cell (Fl K))) (h : spellCells (zs.map Fl.fin) = .ok cells)
    (hband : ∀ c ∈ cells, ∀ x, c.px3 = fin x → ¬ (0.5 < |x| ∧ |x| ≤ 1.5 / 2.691)) :
    ∀ c ∈ cells, ∃ p : K, c.ppr = fin p ∧ 0 ≤ p ∧ p ≤ 100 := by
  intro c hc
  obtain ⟨m, hm, ⟨h1, _⟩, _⟩ := mem_cells _ cells h c hc
  rw [h1]
  refine months_prob zs ?_ m hm
  intro m' hm' x hx
  obtain ⟨j, hj, hjm⟩ := List.mem_iff_getElem.1 hm'
  have hs : ¬ Stuck (zs.map Fl.fin) := by
    intro hc
    rw [spellCells_error _ hc] at h
    cases h
  obtain ⟨cells', g1, _, g3⟩ := spellCells_spec _ hs
  rw [h] at g1
  cases g1
  obtain ⟨c', hc', ⟨_, _, _, s4, _⟩, _⟩ := g3 j m' (by rw [List.getElem?_eq_getElem hj, hjm])
  refine hband c' (List.mem_of_getElem? hc') x ?_
  rw [s4]
  exact hx

/-- C45 for all values: with no established spell the modified index is x1 or x2 (the larger one in magnitude); with an established drought it lies
between x3 and x1, with an established wet spell between x3 and x2. -/
theorem C45_case (p x1 x2 x3 : K) (h0 : 0 ≤ p) (h1 : p ≤ 100) :
    ∃ w, palmerCase (fin p) (fin x1) (fin x2) (fin x3) = fin w ∧
      (x3 = 0 → (w = x1 ∨ w = x2) ∧ |w| = max |x1| |x2|) ∧
      (x3 < 0 → min x3 x1 ≤ w ∧ w ≤ max x3 x1) ∧
      (0 < x3 → min x3 x2 ≤ w ∧ w ≤ max x3 x2) := by
  have habs : ∀ a : K, fabs (fin a) = (fin |a| : Fl K) := by
    intro a
    unfold fabs
    rw [lit_def, Rat.cast_zero, flt_fin]
    by_cases ha : a < 0
    · rw [if_pos (by simpa using ha), fin_neg, abs_of_neg ha]
    · rw [if_neg (by simpa using ha), abs_of_nonneg (not_lt.1 ha)]
  unfold palmerCase
  have hz : (lit 0 : Fl K) = fin 0 := by rw [lit_def, Rat.cast_zero]
  have hh : (lit 100 : Fl K) = fin 100 := by rw [lit_def]; norm_num
  have ho : (lit 1 : Fl K) = fin 1 := by rw [lit_def]; norm_num
  rw [hz, hh, ho, feq_fin, habs, habs, flt_fin, fle_fin, fle_fin, fle_fin]
  by_cases hx : x3 = 0
  · rw [if_pos (by simpa using hx)]
    by_cases hlt : |x2| < |x1|
    · rw [if_pos (by simpa using hlt)]
      refine ⟨x1, rfl, fun _ => ⟨Or.inl rfl, ?_⟩, fun h => absurd hx h.ne, fun h => absurd hx h.ne'⟩
      rw [max_eq_left hlt.le]
    · rw [if_neg (by simpa using hlt)]
      refine ⟨x2, rfl, fun _ => ⟨Or.inr rfl, ?_⟩, fun h => absurd hx h.ne, fun h => absurd hx h.ne'⟩
      rw [max_eq_right (not_lt.1 hlt)]
  · rw [if_neg (by simpa using hx)]
    by_cases hp : p ≤ 0 ∨ 100 ≤ p
    · rw [if_pos (by simpa using hp)]
      exact ⟨x3, rfl, fun h => absurd h hx, fun _ => ⟨min_le_left _ _, le_max_left _ _⟩, fun _ => ⟨min_le_left _ _, le_max_left _ _⟩⟩
    · rw [if_neg (by simpa using hp)]
      simp only
      rw [fin_div_of_ne _ _ (by norm_num), fin_sub, fin_mul, fin_mul, fin_mul, fin_add, fin_add]
      have hq0 : 0 ≤ p / 100 := by positivity
      have hq1 : p / 100 ≤ 1 := by rw [div_le_one (by norm_num)]; exact h1
      have conv : ∀ y : K, min x3 y ≤ (1 - p / 100) * x3 + p / 100 * y ∧ (1 - p / 100) * x3 + p / 100 * y ≤ max x3 y := by
        intro y
        generalize p / 100 = q at hq0 hq1
        have hr : 0 ≤ 1 - q := by linarith
        constructor
        · calc min x3 y = (1 - q) * min x3 y + q * min x3 y := by ring
            _ ≤ _ := add_le_add (mul_le_mul_of_nonneg_left (min_le_left _ _) hr) (mul_le_mul_of_nonneg_left (min_le_right _ _) hq0)
        · calc _ ≤ (1 - q) * max x3 y + q * max x3 y :=
                add_le_add (mul_le_mul_of_nonneg_left (le_max_left _ _) hr) (mul_le_mul_of_nonneg_left (le_max_right _ _) hq0)
            _ = _ := by ring
      by_cases hn : x3 ≤ 0
      · rw [if_pos (by simpa using hn)]
        exact ⟨_, rfl, fun h => absurd h hx, fun _ => conv x1, fun h => absurd hn (not_le.2 h)⟩
      · rw [if_neg (by simpa using hn)]
        exact ⟨_, rfl, fun h => absurd h hx, fun h => absurd h.le hn, fun _ => conv x2⟩

end field

/-- C45 for reported months (`_partial`: false for the months that `_finish_up` visits, see `C45_fails`): if no month of the record was ever left undecided,
the modified index of every month is `_case` of that month's own values, to which `C45_case` applies. Without that hypothesis it is
`_case` of the values of some month of the record (`C40_assigned`). -/
theorem C45_partial {F : Type} [FloatOps F] (zs : List F) (cells : List (Cell F)) (h : spellCells zs = .ok cells)
    (hk : ∀ i, i ≤ zs.length → undecidedAfter zs.length (zs.take i) = some 0) :
    ∀ c ∈ cells, c.wplm = palmerCase c.ppr c.px1 c.px2 c.px3 := by
  have hs : ¬ Stuck zs := by
    intro hc
    rw [spellCells_error zs hc] at h
    cases h
  obtain ⟨st, cells', h1, h2, h3, h4⟩ := spellCells_ok zs hs
  rw [h] at h4
  cases h4
  have hinv := h2.inv
  rw [Nat.zero_add] at hinv
  -- nothing was ever written to the backlog
  have hmax : ∀ (zs : List F) (t : Nat) (s s' : Spell F), Inv (t + zs.length) t s → spellRun zs t s = .ok s' → s.k8max = 0 → s.k8 = 0 →
      (∀ i, i ≤ zs.length → ∀ s'', spellRun (zs.take i) t s = .ok s'' → s''.k8 = 0) → s'.k8max = 0 := by
    intro zs
    induction zs with
    | nil => intro t s s' _ hr h0 _ _; cases hr; exact h0
    | cons z zs ih =>
      intro t s s' hi hr h0 hk0 hall
      obtain ⟨_, hok⟩ := spellMonth_spec _ t s z hi (by rw [List.length_cons]; omega)
      obtain ⟨s1, hs1, hstep, hnw, hw⟩ := hok (by rw [hk0]; unfold k8Size; omega)
      have hrun : ∀ zs : List F, spellRun (z :: zs) t s = spellRun zs (t + 1) s1 := by
        intro zs
        conv_lhs => unfold spellRun
        rw [hs1]; rfl
      have hk1 : s1.k8 = 0 := hall 1 (by rw [List.length_cons]; omega) s1 (by
        rw [List.take_succ_cons, List.take_zero, hrun]; rfl)
      have hnotw : (monthOf s z).dec ≠ .wait := by
        intro hc
        have := (hw hc).1
        omega
      rw [hrun] at hr
      refine ih (t + 1) s1 s' ?_ hr ((hnw hnotw).2.trans h0) hk1 ?_
      · have := hstep.inv
        rwa [List.length_cons, show t + (zs.length + 1) = t + 1 + zs.length by omega] at this
      · intro i hi' s'' hs''
        refine hall (i + 1) (by rw [List.length_cons]; omega) s'' ?_
        rw [List.take_succ_cons, hrun]; exact hs''
  have h0 : st.k8max = 0 := by
    refine hmax zs 0 (spellInit zs.length) st ?_ h1 rfl rfl ?_
    · rw [Nat.zero_add]; exact inv_init _
    · intro i hi s'' hs''
      have := hk i hi
      unfold undecidedAfter at this
      rw [hs''] at this
      exact Option.some.inj this
  obtain ⟨cells'', g1, g2, g3⟩ := finishUp_spec zs.length st hinv
  rw [h3] at g1
  cases g1
  intro c hc
  obtain ⟨j, hj, hjc⟩ := List.mem_iff_getElem.1 hc
  have hjl : j < st.cells.length := by rw [hinv.cellsLen]; omega
  obtain ⟨c', hc', _, _, hv⟩ := g3 j _ (List.getElem?_eq_getElem hjl)
  obtain ⟨e1, e2⟩ := hv (by
    rintro ⟨i, e, hi, _⟩
    rw [h0] at hi
    omega)
  rw [List.getElem?_eq_getElem hj, hjc] at hc'
  cases hc'
  rw [e1]
  exact e2.wplm

/-! ## Concrete cases and counterexamples (exact rational arithmetic) -/

/-- a record in which a wet spell is established, abates and a month is undecided in between -/
def zsWet : List (Fl ℚ) := [fin 6, fin 0, fin 1]

/-- C39, C40: the theorems apply (the run succeeds, with a probability strictly between 0 and 100). -/
example : okAnd (spellCells zsWet) (fun cells => decide (cells.map (·.ppr) = [fin 0, fin (2500 / 647), fin 0])) = true := by
  decide +kernel

/-- C39: the band is not met by this record (px3 is 2, 1.794, 1.94...). -/
example : okAnd (spellCells zsWet) (fun cells => decide (cells.map (·.px3) = [fin 2, fin 1.794, fin (2 * 0.897 * 0.897 + 1 / 3)])) = true := by
  decide +kernel

/-- C39: the claim that the probability is never negative is false: a wet spell decays slowly into the band (z = 0.15 for 19 months) and one
month of z = 0 gives a probability below -300. -/
theorem C39_fails : ∃ zs : List (Fl ℚ), okAnd (spellCells zs) (fun cells => cells.any (fun c => flt c.ppr (lit (-300)))) = true :=
  ⟨fin 3 :: List.replicate 19 (fin 0.15) ++ [fin 0], by decide +kernel⟩

/-- C41: "never fails" is false: a weak wet month, a weak dry month and 40 ordinary months. -/
theorem C41_fails : ∃ zs : List (Fl ℚ), zs.length = 42 ∧ spellCells zs = .error .indexError :=
  ⟨fin 1.5 :: fin (-0.6) :: List.replicate 40 (fin 0), by decide, by decide +kernel⟩

/-- one month less succeeds -/
example : okAnd (spellCells (fin 1.5 :: fin (-0.6) :: List.replicate 39 (fin (0 : ℚ)))) (fun cells => decide (cells.length = 41)) = true := by
  decide +kernel

/-- C42: "no later month changes a resolved month" is false for the entire computation: in this record all months are decided when the month loop ends
(the PDSI of the second month is 1/6), and `_finish_up` replaces it by 0, because `k8max` is never reset. -/
theorem C42_fails : ∃ zs : List (Fl ℚ),
    okAnd (spellRun zs 0 (spellInit zs.length)) (fun st => decide (st.k8 = 0 ∧ st.cells[1]?.map (·.pdsi) = some (fin (1 / 6)))) = true ∧
    okAnd (spellCells zs) (fun cells => decide (cells[1]?.map (·.pdsi) = some (fin 0))) = true :=
  ⟨[fin (-2), fin (1 / 2), fin 2], by decide +kernel, by decide +kernel⟩

/-- C42: the hypotheses of the partial statement are met: after two months the first one is decided, the second is not. -/
example : okAnd (spellRun [fin (-2), fin (1 / 2)] 0 (spellInit 3 : Spell (Fl ℚ))) (fun st => decide (st.k8 = 1)) = true ∧
    okAnd (spellRun ([fin (-2), fin (1 / 2)] ++ [fin 2]) 0 (spellInit 3 : Spell (Fl ℚ))) (fun st => decide (st.k8 = 0)) = true := by
  constructor <;> decide +kernel

/-- C45: false for reported months: with no established spell (x3 = 0) and x1 = 1/6, x2 = -647/1500 the reported PMDI is 4897/6000. -/
theorem C45_fails : ∃ zs : List (Fl ℚ), okAnd (spellCells zs) (fun cells => cells.any (fun c =>
    feq c.px3 (lit 0) && feq c.ppr (lit 0) && !feq c.wplm c.px1 && !feq c.wplm c.px2)) = true :=
  ⟨[fin (-2), fin (1 / 2), fin 2], by decide +kernel⟩

/-- C45: a record without undecided months -/
example : ∀ i, i ≤ 3 → undecidedAfter 3 ([fin 3, fin 3, (fin 3 : Fl ℚ)].take i) = some 0 := by
  decide +kernel

/-- C45: the case analysis on numbers: drought of -2 ending with probability 40, incipient wet index 0.5 -/
example : palmerCase (fin 40) (fin 0.5) (fin 0) (fin (-2) : Fl ℚ) = fin (-1) := by decide +kernel

end CI.Props
