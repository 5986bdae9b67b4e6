import Verif.Lemmas.PalmerLast
import Verif.Props.PalmerRules

/-!
# C94: a wetter month never lowers the index of that month
-/

namespace CI.Props
open CI Fl Mirror
variable {K : Type} [Field K] [LinearOrder K] [IsStrictOrderedRing K]

/-- the months of the past of a completed record -/
theorem past_clear (zs : List K) (z : K) (cells : List (Cell (Fl K))) (h : spellCells ((zs ++ [z]).map Fl.fin) = .ok cells)
    (hband : ∀ c ∈ cells.dropLast, ∀ x, c.px3 = fin x → ¬ (0.5 < |x| ∧ |x| ≤ 1.5 / 2.691)) :
    ∀ m ∈ months (zs.map Fl.fin), ∀ x, m.px3 = fin x → Clear x := by
  intro m hm x hx
  obtain ⟨j, hj, hjm⟩ := List.mem_iff_getElem.1 hm
  have hlen := (C40_assigned _ cells h).1
  rw [months_length, List.length_map] at hj
  rw [List.length_map, List.length_append, List.length_singleton] at hlen
  have hjc : j < cells.length := by omega
  obtain ⟨m'', g1, ⟨_, _, _, s4, _⟩⟩ := cells_get _ cells h j _ (List.getElem?_eq_getElem hjc)
  have e : (months ((zs ++ [z]).map Fl.fin))[j]? = (months (zs.map Fl.fin))[j]? := by
    have : ((months ((zs ++ [z]).map Fl.fin)).take zs.length)[j]? = (months (zs.map Fl.fin))[j]? := by
      unfold months
      rw [← monthsFrom_take, List.map_append, List.take_append_of_le_length (by simp), List.take_of_length_le (by simp)]
    rw [← this, List.getElem?_take_of_lt hj]
  rw [e, List.getElem?_eq_getElem (by rw [months_length, List.length_map]; exact hj), hjm] at g1
  cases g1
  refine hband cells[j] ?_ x (s4.trans hx)
  rw [List.mem_iff_getElem]
  exact ⟨j, by rw [List.length_dropLast]; omega, by rw [List.getElem_dropLast]⟩

/-- C94 (`_partial`: false for a record whose established index has been in the band of C39, see `C94_fails`): two records with the same past; the Z value
of the current month is larger in the second. If the established index of the past months was never in the band, the current PDSI is not smaller in the
second record, the current PHDI is the current PDSI in both. -/
theorem C94_partial (zs : List K) (z z' : K) (hz : z ≤ z') (cells cells' : List (Cell (Fl K)))
    (h : spellCells ((zs ++ [z]).map Fl.fin) = .ok cells) (h' : spellCells ((zs ++ [z']).map Fl.fin) = .ok cells')
    (hband : ∀ c ∈ cells.dropLast, ∀ x, c.px3 = fin x → ¬ (0.5 < |x| ∧ |x| ≤ 1.5 / 2.691)) :
    ∃ (c c' : Cell (Fl K)) (a b : K), cells.getLast? = some c ∧ cells'.getLast? = some c' ∧
      c.pdsi = fin a ∧ c'.pdsi = fin b ∧ c.phdi = fin a ∧ c'.phdi = fin b ∧ a ≤ b := by
  have hcl := past_clear zs z cells h hband
  have h0 : State (0 : K) 0 0 0 0 := by
    refine ⟨⟨le_rfl, le_rfl, fun h => h.le, fun h => h.le, fun _ => ⟨by norm_num, by norm_num⟩⟩, Or.inl ⟨rfl, rfl⟩, ?_⟩
    rintro ⟨h1, _⟩
    rw [abs_zero] at h1
    norm_num at h1
  unfold months at hcl
  rw [lit0] at hcl
  obtain ⟨v, p, x1, x2, x3, hst, hlast⟩ := last_state zs 0 0 0 0 0 h0 hcl
  have key : ∀ (z : K) (cells : List (Cell (Fl K))), spellCells ((zs ++ [z]).map Fl.fin) = .ok cells →
      ∃ c, cells.getLast? = some c ∧ c.pdsi = (monthEval (fin v) (fin p) (fin x1) (fin x2) (fin x3) (fin z)).x ∧ c.phdi = c.pdsi := by
    intro z cells h
    have hm := hlast z
    rw [← lit0] at hm
    obtain ⟨c, h1, _, h3, h4, _⟩ := last_cell _ cells h _ hm
    refine ⟨c, h1, h3, ?_⟩
    rw [h4, h3]
    rcases month_same v p x1 x2 x3 z hst with h5 | h5
    · rw [h5, lit0, feq_fin, decide_eq_true rfl, if_pos rfl]
    · rw [h5, ite_self]
  obtain ⟨c, g1, g2, g3⟩ := key z cells h
  obtain ⟨c', k1, k2, k3⟩ := key z' cells' h'
  obtain ⟨a, b, e1, e2, hab⟩ := month_mono hst hz
  exact ⟨c, c', a, b, g1, k1, g2.trans e1, k2.trans e2, g3.trans (g2.trans e1), k3.trans (k2.trans e2), hab⟩

/-- the hypotheses of `C94_partial` are met: a drought that lasts with Z = 0.2 and ends with Z = 0.3 -/
example : okAnd (spellCells (([-3.6, 0.5] ++ List.replicate 12 (-0.2) ++ [0.2] : List ℚ).map (Fl.fin : ℚ → Fl ℚ))) (fun cells =>
      decide (∀ c ∈ cells.dropLast, ¬ (flt (lit 0.5) (fabs c.px3) = true ∧ fle (fabs c.px3) (lit (1.5 / 2.691)) = true)) &&
      (match cells.getLast?.map (·.pdsi) with | some (fin a) => decide (a < -0.57) | _ => false)) = true ∧
    okAnd (spellCells (([-3.6, 0.5] ++ List.replicate 12 (-0.2) ++ [0.3] : List ℚ).map (Fl.fin : ℚ → Fl ℚ))) (fun cells =>
      decide (cells.getLast?.map (·.pdsi) = some (fin (0 : ℚ)))) = true := by decide +kernel

/-- C94: false if the established index has been in the band: of two current months with the same past, the wetter one has the smaller PDSI. -/
theorem C94_fails : ∃ (zs : List ℚ) (z z' : ℚ), z < z' ∧
    okAnd (spellCells ((zs ++ [z]).map Fl.fin)) (fun cells => okAnd (spellCells ((zs ++ [z']).map Fl.fin)) (fun cells' =>
      match cells.getLast?.map (·.pdsi), cells'.getLast?.map (·.pdsi) with
      | some (fin a), some (fin b) => decide (b < a - 0.3)
      | _, _ => false)) = true :=
  ⟨3 :: List.replicate 19 0.15, -2.691 * bandIndex - 0.3, -2.691 * bandIndex, by decide +kernel⟩

/-- C94 holds for the current PDSI and PHDI only, not for the current PMDI: at the end of a drought (no established index in the band) a wetter current
month lowers the PMDI from 0.068 to -0.251. -/
theorem C94_pmdi_fails : ∃ (zs : List ℚ) (z z' : ℚ), z < z' ∧
    okAnd (spellCells ((zs ++ [z]).map Fl.fin)) (fun cells => okAnd (spellCells ((zs ++ [z']).map Fl.fin)) (fun cells' =>
      decide (∀ c ∈ cells.dropLast, ¬ (flt (lit 0.5) (fabs c.px3) = true ∧ fle (fabs c.px3) (lit (1.5 / 2.691)) = true)) &&
      match cells.getLast?.map (·.wplm), cells'.getLast?.map (·.wplm) with
      | some (fin a), some (fin b) => decide (b < a - 0.3)
      | _, _ => false)) = true :=
  ⟨[-3.6, 0.5] ++ List.replicate 10 (-0.2), 0.3, 0.4, by decide +kernel⟩

/-- C94 holds for the current month only: a wetter earlier month can lower the current PDSI. With Z = 2.7, -1.05 the second PDSI is 0, with Z = 3, -1.05
it is -0.35: the first month begins a wet spell, which deletes the incipient wet index, and the second month ends it. -/
theorem C94_earlier_fails :
    okAnd (spellCells ([2.7, -1.05].map (Fl.fin : ℚ → Fl ℚ))) (fun cells => okAnd (spellCells ([3, -1.05].map (Fl.fin : ℚ → Fl ℚ))) (fun cells' =>
      decide (cells[1]?.map (·.pdsi) = some (fin (0 : ℚ)) ∧ cells'[1]?.map (·.pdsi) = some (fin (-0.35 : ℚ))))) = true := by
  decide +kernel

end CI.Props
