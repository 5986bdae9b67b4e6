import Verif.Props.SpiMono
import Verif.Props.Arrays
import Verif.Spec.Thornthwaite

/-!
# C17: negative precipitation in records with a missing value

`C17_fails` (Props/SpiMono) is one record. Here: what happens in every record with a missing value.
-/

namespace CI.Props
open CI CI.Spec

section
variable {F : Type} [FloatOps F] [FloatLaws F]

theorem amin_missing {l : List F} (h : ∃ v ∈ l, isNan v = true) : amin l = .ok nan := by
  obtain ⟨v, hv, hn⟩ := h
  cases l with
  | nil => cases hv
  | cons a l => unfold amin; simp only; rw [if_pos (List.any_eq_true.2 ⟨v, hv, hn⟩)]

/-- **C17 is false for every record with a missing value.** Whatever the record, if it has a missing value and a number, no value is clipped: the accumulated values from which parameters and index are
computed are the sums of the windows of the record as it is, negative values included. -/
theorem C17_kept_fails (x : List F) (n : Nat) (per : Periodicity) (hper : per ≠ .other) (h1 : 1 ≤ n) (h2 : n ≤ x.length) (hm : ∃ v ∈ x, isNan v = true) (hv : ∃ v ∈ x, isNan v = false) :
    ∃ acc, scaleValues (Arr.of1d x) n per = .ok acc ∧
      ∀ i, n ≤ i + 1 → i < x.length → acc.data[i]? = if n = 1 then x[i]? else some (fsum ((x.drop (i + 1 - n)).take n)) := by
  obtain ⟨out, ho, hl, _, hw, _⟩ := C07_windows_partial x n h1 h2
  obtain ⟨k, hk, _⟩ := reshapeValues_total out per hper
  refine ⟨⟨[k, per.steps], out ++ List.replicate (padCount out.length per.steps) nan⟩, ?_, ?_⟩
  · unfold scaleValues
    rw [if_pos (.inr rfl)]
    show (if allNan x then _ else _) = _
    rw [if_neg (by rw [allNan_false hv]; simp)]
    show (amin x >>= _) = _
    rw [amin_missing hm]
    show (sumToScale (if flt nan (lit 0) = true then _ else x) n >>= _) = _
    rw [flt_nan_left, if_neg (by simp), ho]
    exact hk
  · intro i hi hi'
    rw [List.getElem?_append_left (by omega), hw i hi hi']
    unfold slice
    rw [show i + 1 - (i + 1 - n) = n by omega]

end

/-- the part of a precipitation value that is not negative, and the negative part -/
noncomputable def wetPart (v : Option ℝ) : Option ℝ := v.map (fun u => max u 0)
noncomputable def lackOf (v : Option ℝ) : ℝ := (v.map (fun u => max (-u) 0)).getD 0

/-- **C17 is false for the SPEI of every record with a missing value** (exact arithmetic): the answer (also an exception) is that for the clipped precipitation with the negative amounts added to the
evapotranspiration of their time steps. -/
theorem C17_spei_kept_fails (E : Ext (Fl ℝ)) (rain pet : List (Option ℝ)) (hlen : rain.length = pet.length) (scale : Int) (dist : Distribution) (per : Periodicity) (ds cs ce : Int)
    (fp : Option (FitDict (Fl ℝ))) (hm : none ∈ rain) (hv : ∃ u, some u ∈ rain) :
    spei E (Arr.of1d (rain.map toFl)) (Arr.of1d (pet.map toFl)) scale dist per ds cs ce fp =
      spei E (Arr.of1d ((rain.map wetPart).map toFl)) (Arr.of1d ((List.zipWith (fun v e => e.map (· + lackOf v)) rain pet).map toFl)) scale dist per ds cs ce fp := by
  have a1 : amin (rain.map toFl) = .ok (nan : Fl ℝ) := amin_missing ⟨_, List.mem_map.2 ⟨none, hm, rfl⟩, rfl⟩
  have a2 : amin ((rain.map wetPart).map toFl) = .ok (nan : Fl ℝ) := amin_missing ⟨_, List.mem_map.2 ⟨none, List.mem_map.2 ⟨none, hm, rfl⟩, rfl⟩, rfl⟩
  obtain ⟨u, hu⟩ := hv
  have b1 : allNan (rain.map toFl) = false := allNan_false ⟨toFl (some u), List.mem_map.2 ⟨_, hu, rfl⟩, rfl⟩
  have b2 : allNan ((rain.map wetPart).map toFl) = false := allNan_false ⟨toFl (some (max u 0)), List.mem_map.2 ⟨some (max u 0), List.mem_map.2 ⟨_, hu, rfl⟩, rfl⟩, rfl⟩
  have e : List.zipWith (fun a b => (a - b) + lit 1000) (rain.map toFl) (pet.map toFl) =
      List.zipWith (fun a b => (a - b) + lit 1000) ((rain.map wetPart).map toFl) ((List.zipWith (fun v e => e.map (· + lackOf v)) rain pet).map toFl) := by
    clear a1 a2 b1 b2 hm hu
    induction rain generalizing pet with
    | nil => simp
    | cons v rain ih =>
      cases pet with
      | nil => simp at hlen
      | cons q pet =>
        simp only [List.map_cons, List.zipWith_cons_cons]
        rw [ih pet (by simpa using hlen)]
        congr 1
        cases v with
        | none => cases q <;> rfl
        | some v =>
          cases q with
          | none => rfl
          | some q =>
            have : v - q = max v 0 - (q + max (-v) 0) := by
              rcases le_total v 0 with hc | hc
              · rw [max_eq_right hc, max_eq_left (by linarith)]; ring
              · rw [max_eq_left hc, max_eq_right (by linarith)]; ring
            show (Fl.fin (v - q) + lit 1000 : Fl ℝ) = Fl.fin (max v 0 - (q + max (-v) 0)) + lit 1000
            rw [this]
  unfold spei
  simp only [Arr.of1d, a1, a2, b1, b2, Bool.false_eq_true, if_false, List.length_map, List.length_zipWith, hlen, min_self, ne_eq, not_true_eq_false, bind, Except.bind, flt_nan_left, e]

/-- a record with a missing value and a negative one: it reaches the fit -/
example : ∃ acc : Arr (Fl ℚ), scaleValues (Arr.of1d [.fin 3, .nan, .fin 5, .fin (-4), .fin 1]) 2 .monthly = .ok acc ∧ acc.data[4]? = some (.fin (-3)) := by
  obtain ⟨acc, h1, h2⟩ := C17_kept_fails [Fl.fin (3 : ℚ), .nan, .fin 5, .fin (-4), .fin 1] 2 .monthly (by decide) (by decide) (by decide) ⟨.nan, by decide +kernel, rfl⟩ ⟨.fin 3, by decide +kernel, rfl⟩
  exact ⟨acc, h1, (h2 4 (by decide) (by decide)).trans (by decide +kernel)⟩

example (E : Ext (Fl ℝ)) := C17_spei_kept_fails E [some 3, none, some (-4)] [some 1, some 2, some 3] rfl 1 .pearson .monthly 1990 1990 1990 none (by simp) ⟨3, by simp⟩

end CI.Props
