import Verif.Lemmas.PalmerMirrorRun
import Mathlib.Data.Rat.Cast.Order

/-!
# C87: wet and dry spells are treated alike

Palmer defines droughts and wet spells by the same rules with the signs exchanged. The theorems compare the spell machine on a history of
Z values with the machine on the negative history. Exact arithmetic.
-/

namespace CI.Props
open Fl

section
variable {K : Type} [Field K] [LinearOrder K] [IsStrictOrderedRing K]

/-- C87 (`_partial`: false in general, see `C87_fails`): if all Z values change sign, PDSI, PHDI and PMDI of every month change sign and the
incipient wet and dry indices change places. It holds for histories
* in which the established index is never in the band 0.5 < |x3| <= 1.5/2.691 (as in C39),
* in which no drought begins, in either history, while an incipient wet index is left: in a month in which the probability is 0 or 100 and a drought is
  established there is no wet index (a wet spell always begins without a dry index),
* without a month outside spells whose incipient indices have exactly the same size. -/
theorem C87_partial (zs : List K) (cells cells' : List (Cell (Fl K)))
    (h : spellCells (zs.map Fl.fin) = .ok cells) (h' : spellCells ((zs.map (fun z => -z)).map Fl.fin) = .ok cells')
    (hband : ∀ c ∈ cells, ∀ x, c.px3 = fin x → ¬ (0.5 < |x| ∧ |x| ≤ 1.5 / 2.691))
    (hleft : ∀ c ∈ cells ++ cells', (c.ppr = fin 0 ∨ c.ppr = fin 100) → (∃ x, x < 0 ∧ c.px3 = fin x) → c.px1 = fin 0)
    (htie : ∀ c ∈ cells, c.px3 = fin 0 → c.px1 + c.px2 = fin 0 → c.px1 = fin 0) :
    cells' = cells.map Spec.mirror := by
  have back : ∀ (ws : List (Fl K)) (cs : List (Cell (Fl K))), spellCells ws = .ok cs → ∀ m ∈ months ws, ∃ c ∈ cs, SameNumbers m.cell c := by
    intro ws cs hcs m hm
    obtain ⟨j, hj, hjm⟩ := List.mem_iff_getElem.1 hm
    have hs : ¬ Stuck ws := by
      intro hc
      rw [spellCells_error _ hc] at hcs
      cases hcs
    obtain ⟨cs', g1, _, g3⟩ := spellCells_spec _ hs
    rw [hcs] at g1
    cases g1
    obtain ⟨c, hc, hsn, _⟩ := g3 j m (by rw [List.getElem?_eq_getElem hj, hjm])
    exact ⟨c, List.mem_of_getElem? hc, hsn⟩
  have key := Mirror.spellCells_mir zs ?_ ?_
  · rw [h, h'] at key
    exact Except.ok.inj key
  · intro m hm
    obtain ⟨c, hc, s1, s2, s3, s4, _⟩ := back _ _ h m hm
    refine ⟨fun x hx => hband c hc x (s4.trans hx), ?_, ?_⟩
    · rintro hp ⟨x, hx, hx3⟩
      have h1 : c.ppr = m.ppr := s1
      have := hleft c (List.mem_append_left _ hc) (by rw [h1]; exact hp) ⟨x, hx, s4.trans hx3⟩
      exact s2.symm.trans this
    · intro h0 hs
      have h1 : c.px1 = m.px1 := s2
      have h2 : c.px2 = m.px2 := s3
      have := htie c hc (s4.trans h0) (by rw [h1, h2]; exact hs)
      exact s2.symm.trans this
  · intro m hm
    obtain ⟨c, hc, s1, s2, s3, s4, _⟩ := back _ _ h' m hm
    rintro hp ⟨x, hx, hx3⟩
    have h1 : c.ppr = m.ppr := s1
    have := hleft c (List.mem_append_right _ hc) (by rw [h1]; exact hp) ⟨x, hx, s4.trans hx3⟩
    exact s2.symm.trans this

end

/-! ## Counterexamples and a case -/

/-- a wet spell that ends in a month with 0 < z: the drought that begins then keeps the wet index 0.01 of that month -/
def leftovers : List (Fl ℚ) := [fin 6, fin (-3.582), fin 0.03, fin 0.1, fin 2.5]

/-- C87 is false: when a drought begins the code keeps the incipient wet index, when a wet spell begins the dry one is dropped. After
`leftovers` the PDSI of the last month is 0.871, after the negative history -0.863. -/
theorem C87_fails : ∃ zs : List (Fl ℚ), ∃ cells cells', spellCells zs = .ok cells ∧ spellCells (zs.map (fun z => -z)) = .ok cells' ∧
    cells'.map (·.pdsi) ≠ cells.map (fun c => -c.pdsi) := by
  have h : okAnd (spellCells leftovers) (fun cells => okAnd (spellCells (leftovers.map (fun z => -z))) (fun cells' =>
      decide (cells'.map (·.pdsi) ≠ cells.map (fun c => -c.pdsi)))) = true := by decide +kernel
  refine ⟨leftovers, ?_⟩
  unfold okAnd at h
  cases h1 : spellCells leftovers with
  | error e => rw [h1] at h; cases h
  | ok cells =>
    rw [h1] at h
    cases h2 : spellCells (leftovers.map (fun z => -z)) with
    | error e => rw [h2] at h; cases h
    | ok cells' =>
      rw [h2] at h
      exact ⟨cells, cells', rfl, rfl, of_decide_eq_true h⟩

/-- C87 is false also without spells: incipient indices of the same size (0.40365 and -0.40365) always give the dry index as PMDI. -/
theorem C87_tie_fails : okAnd (spellCells ([fin 2.7, fin (-1.21095)] : List (Fl ℚ))) (fun cells =>
    okAnd (spellCells ([fin (-2.7), fin 1.21095] : List (Fl ℚ))) (fun cells' =>
      decide (cells.map (·.wplm) = [fin 0.9, fin (-0.40365)]) &&
      decide (cells'.map (·.wplm) = [fin (-0.9), fin (-0.40365)]))) = true := by decide +kernel

/-- a wet spell, its abatement, a drought and its abatement -/
def thereAndBack : List ℚ := [6, -3, -6, 1.5]

/-- the conditions of `C87_partial` for one month -/
def fair (c : Cell (Fl ℚ)) : Bool :=
  match c.px3 with
  | .fin x => !(decide (0.5 < |x|) && decide (|x| ≤ 1.5 / 2.691)) &&
      (!((decide (c.ppr = fin 0) || decide (c.ppr = fin 100)) && decide (x < 0)) || decide (c.px1 = fin 0)) &&
      (!(decide (x = 0) && decide (c.px1 + c.px2 = fin 0)) || decide (c.px1 = fin 0))
  | _ => true

/-- C87: the theorem applies to `thereAndBack`, with PDSI 2, -1, -2.897, -2.098609. -/
example : okAnd (spellCells (thereAndBack.map Fl.fin)) (fun cells =>
    okAnd (spellCells ((thereAndBack.map (fun z => -z)).map Fl.fin)) (fun cells' => (cells ++ cells').all fair &&
      decide (cells.map (·.pdsi) = [fin 2, fin (-1), fin (-2.897), fin (-2.098609)]) &&
      decide (cells' = cells.map Spec.mirror))) = true := by decide +kernel

end CI.Props
