import Verif.Props.Stats

/-!
# C59: the value of `rmse`

The laws of a distance (`C59_distance`) also hold for other functions, for instance the root of the mean absolute difference. The value is stated here.
-/

namespace CI.Props

open CI

/-- **C59, value.** On equally long non-empty arrays of numbers `rmse` (utils.py:179-190) is the root of the mean of the squared differences. -/
theorem C59_value (E : Ext (Fl ℝ)) (hE : ExtReal E) (a b : List ℝ) (hn : a ≠ []) (hl : a.length = b.length) :
    rmse E (a.map Fl.fin) (b.map Fl.fin) = .ok (.fin (Real.sqrt (((a.zip b).map (fun p => (p.1 - p.2) ^ 2)).sum / a.length))) := by
  have key : ∀ a b : List ℝ, sqDist a b = ((a.zip b).map (fun p => (p.1 - p.2) ^ 2)).sum := by
    intro a
    induction a with
    | nil => intro b; simp [sqDist]
    | cons x a ih =>
      intro b
      cases b with
      | nil => simp [sqDist]
      | cons y b => rw [sqDist_cons, ih]; simp
  rw [rmse_eq E hE a b hl hn, key]

/-- between (1, 5) and (4, 1) it is the root of 25/2; the root of the mean absolute difference would be that of 7/2 -/
example : rmse realExt [.fin 1, .fin 5] [.fin 4, .fin 1] = .ok (.fin (Real.sqrt (25 / 2))) := by
  have := C59_value realExt realExt_real [1, 5] [4, 1] (by simp) rfl
  simp only [List.map_cons, List.map_nil] at this
  rw [this]
  norm_num

end CI.Props
