import Verif.Props.SpiMisc

/-!
# C18: given gamma parameters are the ones that are used

`C18_gamma` compares the index for the fitted parameters with the index without parameters; a program that ignores given parameters satisfies it. This is the counterpart of `C27_all` (Pearson).
-/

namespace CI.Props

open CI FloatOps

variable {F : Type} [FloatOps F]

/-- **C18, given parameters.** With shapes `alpha` and scales `beta` for all calendar steps, `transform_fitted_gamma` (compute.py:760-831) on `n` years gives for the value `x` at position `i` the normal
quantile of `q + (1 - q) G(x)`, where `G` is the gamma distribution function with the given parameters of the calendar step of `i` and `q` the proportion of zeros at that step (zeros themselves are missing).
Start year and calibration years do not matter. -/
theorem C18_given (E : Ext F) (n : Nat) (data : List F) (ds cs ce : Int) (per : Periodicity) (alpha beta : List F) (hper : per ≠ .other) (hlen : data.length = n * per.steps)
    (hn : ∃ v ∈ data, isNan v = false) (l1 : alpha.length = per.steps) (l2 : beta.length = per.steps) :
    ∃ t, transformFittedGamma E ⟨[n, per.steps], data⟩ ds cs ce per (some alpha) (some beta) = .ok t ∧ t.shape = [n, per.steps] ∧ t.data.length = data.length ∧
      ∀ i x a b, data[i]? = some x → alpha[i % per.steps]? = some a → beta[i % per.steps]? = some b → ∀ q : F,
        q = lit ((data.zipIdx.filter (fun v => feq v.1 (lit 0) && v.2 % per.steps == i % per.steps)).length : ℚ) / lit (n : ℚ) →
        t.data[i]? = some (E.normPpf (q + (lit 1 - q) * E.gammaCdf (if feq x (lit 0) then nan else x) a b)) := by
  refine ⟨_, transformFittedGamma_given E n _ data ds cs ce per alpha beta alpha beta (steps_12_366 per hper) (allNan_false hn) (bcast_length _ _ l1) (bcast_length _ _ l2), rfl, ?_, ?_⟩
  · exact (gammaOut_length E n _ data alpha beta hlen l1 l2).trans hlen.symm
  · intro i x a b hx ha hb q hq
    obtain ⟨a', b', ha', hb', h⟩ := gammaOut_getElem? E n _ data alpha beta hlen l1 l2 i x hx
    rw [ha] at ha'
    rw [hb] at hb'
    cases ha'
    cases hb'
    show (gammaOut E n per.steps data alpha beta)[i]? = _
    rw [h, hq]
    unfold gammaTransform1 p0Col stride zeroToNan
    rw [List.countP_map, List.countP_filter, List.countP_eq_length_filter]
    rfl

/-- `toyExt` with a gamma distribution function that depends on the scale -/
def scaleExt : Ext (Fl ℚ) := { toyExt with gammaCdf := fun x a s => if isNan a || isNan s then .nan else toyCdf (x / s) }

/-- five years of monthly values: other parameters give another index, other calibration years do not -/
example : okAnd (transformFittedGamma scaleExt ⟨[5, 12], five1⟩ 1990 1990 1994 .monthly (some (List.replicate 12 (.fin 2))) (some (List.replicate 12 (.fin 3)))) (fun t =>
    okAnd (transformFittedGamma scaleExt ⟨[5, 12], five1⟩ 1990 1990 1994 .monthly (some (List.replicate 12 (.fin 2))) (some (List.replicate 12 (.fin 7)))) (fun u =>
    okAnd (transformFittedGamma scaleExt ⟨[5, 12], five1⟩ 1990 1991 1992 .monthly (some (List.replicate 12 (.fin 2))) (some (List.replicate 12 (.fin 3)))) (fun v =>
      decide (t.data[3]? ≠ u.data[3]? ∧ t.data = v.data)))) = true := by
  decide +kernel

end CI.Props
