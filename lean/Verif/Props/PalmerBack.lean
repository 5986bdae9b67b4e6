import Verif.Lemmas.PalmerBack
import Verif.Props.PalmerSpell

/-!
# How undecided months are resolved (C82)
-/

namespace CI.Props
open Fl

section laws
variable {F : Type} [FloatOps F]

theorem spellRun_snoc (zs : List F) (z : F) : ∀ (t : Nat) (s s1 : Spell F), spellRun zs t s = .ok s1 →
    spellRun (zs ++ [z]) t s = spellMonth s1 (t + zs.length) z := by
  induction zs with
  | nil =>
    intro t s s1 hr
    cases hr
    rw [List.nil_append]
    unfold spellRun spellRun
    simp only [bind, Except.bind, List.length_nil, Nat.add_zero]
    cases spellMonth s t z <;> rfl
  | cons y zs ih =>
    intro t s s1 hr
    rw [List.cons_append]
    unfold spellRun at hr
    conv_lhs => unfold spellRun
    cases hm : spellMonth s t y with
    | error e => rw [hm] at hr; cases hr
    | ok s2 =>
      rw [hm] at hr
      simp only [bind, Except.bind] at hr ⊢
      rw [ih (t + 1) s2 s1 hr, List.length_cons, show t + (zs.length + 1) = t + 1 + zs.length by omega]

/-- the incipient index of a month: the dry one or the wet one -/
def incipient (dry : Bool) (c : Cell F) : F := if dry then c.px2 else c.px1

/-- the PDSI of the undecided months `b, ..., t - 1` was chosen by going back from month `t`: each month has the incipient index of the kind that
was used for the month after it, unless that index is zero; then it has the index of the other kind. For month `t` itself the kind is that of its PDSI. -/
def GoneBack (cells : List (Cell F)) (b t : Nat) : Prop :=
  ∃ dry : Nat → Bool,
    (∃ c, cells[t]? = some c ∧ (dry t = true → fle c.pdsi (lit 0) = true) ∧ (dry t = false → fle (lit 0) c.pdsi = true)) ∧
    ∀ j c, b ≤ j → j < t → cells[j]? = some c →
      c.pdsi = incipient (dry j) c ∧
      (feq (incipient (dry (j + 1)) c) (lit 0) = false → dry j = dry (j + 1)) ∧
      (feq (incipient (dry (j + 1)) c) (lit 0) = true → dry j ≠ dry (j + 1))

/-- C82: as soon as a month is decided, the months left undecided before it are resolved, in one of two ways: if the established spell certainly goes on, they
all get the established index; otherwise they get incipient indices by going back from the decided month. For all Z histories, in any arithmetic. -/
theorem C82_resolved [FloatLaws F] (n : Nat) (zs : List F) (z : F) (st st' : Spell F) (hn : zs.length < n)
    (h : spellRun zs 0 (spellInit n) = .ok st) (h' : spellRun (zs ++ [z]) 0 (spellInit n) = .ok st') (hd : st'.k8 = 0) :
    (∃ c, st'.cells[zs.length]? = some c ∧ c.pdsi = c.px3 ∧
      ∀ j c', zs.length - st.k8 ≤ j → j < zs.length → st'.cells[j]? = some c' → c'.pdsi = c'.px3) ∨
    GoneBack st'.cells (zs.length - st.k8) zs.length := by
  rw [spellRun_snoc zs z 0 _ st h, Nat.zero_add] at h'
  have hinv : Inv n zs.length st := by
    obtain ⟨h1, h2⟩ := spellRun_spec n zs 0 (spellInit n) (inv_init n) (by omega)
    by_cases hc : ∃ i, i < zs.length ∧ backlog (spellInit n : Spell F).k8 ((monthsFrom (spellInit n : Spell F).v (spellInit n : Spell F).pro
        (spellInit n : Spell F).x1 (spellInit n : Spell F).x2 (spellInit n : Spell F).x3 zs).take i) = k8Size
    · rw [h1 hc] at h; cases h
    · obtain ⟨s'', h3, h4⟩ := h2 (fun i hi hb => hc ⟨i, hi, hb⟩)
      rw [h] at h3
      cases h3
      simpa using h4.inv
  rcases spellMonth_exact n zs.length st st' z hinv hn h' hd with hl | ⟨dry, hr1, hr2⟩
  · exact Or.inl hl
  · refine Or.inr ⟨dry, hr1, ?_⟩
    intro j c h1 h2 h3
    obtain ⟨g1, g2⟩ := hr2 j c h1 h2 h3
    refine ⟨g1, ?_, ?_⟩
    · intro hz
      rw [g2]
      exact if_neg (by rw [show c.kind (dry (j + 1)) = incipient (dry (j + 1)) c from rfl, hz]; simp)
    · intro hz
      rw [g2, if_pos (show feq (c.kind (dry (j + 1))) (lit 0) = true from hz)]
      cases dry (j + 1) <;> simp

/-- C82, no lost index: a month resolved by going back has a PDSI of zero only if both of its incipient indices are zero. -/
theorem C82_zero (cells : List (Cell F)) (b t : Nat) (h : GoneBack cells b t) :
    ∀ j c, b ≤ j → j < t → cells[j]? = some c → feq c.pdsi (lit 0) = true → feq c.px1 (lit 0) = true ∧ feq c.px2 (lit 0) = true := by
  obtain ⟨dry, _, hr⟩ := h
  intro j c h1 h2 h3 h0
  obtain ⟨g1, g2, g3⟩ := hr j c h1 h2 h3
  rw [g1] at h0
  cases hz : feq (incipient (dry (j + 1)) c) (lit 0) with
  | false =>
    rw [g2 hz, hz] at h0
    cases h0
  | true =>
    have hne := g3 hz
    unfold incipient at h0 hz
    cases hd : dry j <;> cases hd' : dry (j + 1) <;> simp only [hd, hd', ne_eq, not_true_eq_false] at hne <;> simp [hd, hd'] at h0 hz
    · exact ⟨h0, hz⟩
    · exact ⟨hz, h0⟩

end laws

/-! ## Concrete cases (exact rational arithmetic) -/

/-- C82, going back: two months in which a wet spell may be ending are undecided when a drought begins. Going back, the later one has no dry index and gets
its wet index 0.35; the earlier one has no wet index and gets its dry index -1/3. -/
example : okAnd (spellRun [fin 6, fin (-1), fin (21 / 20)] 0 (spellInit 4 : Spell (Fl ℚ))) (fun st => decide (st.k8 = 2)) = true ∧
    okAnd (spellRun ([fin 6, fin (-1), fin (21 / 20)] ++ [fin (-9)]) 0 (spellInit 4 : Spell (Fl ℚ))) (fun st => decide (st.k8 = 0 ∧
      st.cells.map (·.pdsi) = [fin 2, fin (-1 / 3), fin (7 / 20), fin (-3)])) = true := by
  constructor <;> decide +kernel

/-- C82, the spell goes on: two months in which a wet spell may be ending, then a wet month -/
example : okAnd (spellRun [fin 6, fin (-1), fin (-1)] 0 (spellInit 4 : Spell (Fl ℚ))) (fun st => decide (st.k8 = 2)) = true ∧
    okAnd (spellRun ([fin 6, fin (-1), fin (-1)] ++ [fin 6]) 0 (spellInit 4 : Spell (Fl ℚ))) (fun st => decide (st.k8 = 0 ∧
      st.cells.map (·.pdsi) = st.cells.map (·.px3))) = true := by
  constructor <;> decide +kernel

end CI.Props
