import Verif.Props.Float64Soil
import Verif.Props.PalmerMirror
import Verif.Props.PalmerMono
import Verif.Props.PalmerSpell

/-!
# Counterexamples of the spell rules in binary64 arithmetic

The counterexamples to C41, C42, C45, C81, C87 and C94 are runs in exact arithmetic. Here the same records (numbers in decimal notation) are run in binary64: the
behaviour is not an artefact of exact arithmetic. The runs do not use `np.sum`, so the order of additions does not matter.
-/

namespace CI.Props
open B64

/-- binary64 numbers; the order of additions in `np.sum` plays no part here -/
abbrev D64 := B64 leftToRight

/-- a record of Z values in decimal notation -/
def z64 (zs : List ℚ) : List D64 := zs.map CI.lit

/-- C41 in float64: a weak wet month, a weak dry month and 40 ordinary months end with an IndexError -/
theorem C41_fails_float64 : (match spellCells (z64 (1.5 :: -0.6 :: List.replicate 40 0)) with
    | .error .indexError => true
    | _ => false) = true := by decide +kernel

/-- C42 in float64: the PDSI of the second month, decided before the third, is replaced by 0 at the end -/
theorem C42_fails_float64 :
    okAnd (spellRun (z64 [-2, 0.5, 2]) 0 (spellInit 3)) (fun st => decide (st.k8 = 0 ∧ st.cells[1]?.map (fun c => (ratOf c.pdsi).map (fun q => decide (0.16 < q))) = some (some true))) = true ∧
    okAnd (spellCells (z64 [-2, 0.5, 2])) (fun cells => decide (cells[1]?.map (fun c => ratOf c.pdsi) = some (some 0))) = true := by
  constructor <;> decide +kernel

/-- C45 in float64: no established spell, and a PMDI that is neither of the incipient indices -/
theorem C45_fails_float64 : okAnd (spellCells (z64 [-2, 0.5, 2])) (fun cells => cells.any (fun c =>
    feq c.px3 (lit 0) && feq c.ppr (lit 0) && !feq c.wplm c.px1 && !feq c.wplm c.px2)) = true := by decide +kernel

/-- a wet spell that has decayed to 0.538 (the band of C39) -/
def decayed : List ℚ := 3 :: List.replicate 21 0.15

/-- C81 in float64: after `decayed` one month makes the established index exactly 0, and in the next month the established index is -0.1 -/
theorem C81_fails_float64 : okAnd (spellCells (z64 (decayed ++ [-1.4475623676486047, -0.3]))) (fun cells =>
    decide (cells[22]?.map (fun c => ratOf c.px3) = some (some 0)) &&
    (match cells[23]?.map (fun c => ratOf c.px3) with
      | some (some a) => decide (-0.11 < a ∧ a < 0)
      | _ => false)) = true := by decide +kernel

/-- C94 in float64: after `decayed`, the wetter of two current months has the smaller PDSI -/
theorem C94_fails_float64 :
    okAnd (spellCells (z64 (decayed ++ [-1.7475623676486047]))) (fun cells =>
    okAnd (spellCells (z64 (decayed ++ [-1.4475623676486047]))) (fun cells' =>
      match cells.getLast?.map (fun c => ratOf c.pdsi), cells'.getLast?.map (fun c => ratOf c.pdsi) with
      | some (some a), some (some b) => decide (b < a - 0.3)
      | _, _ => false)) = true := by decide +kernel

/-- C87 in float64: the PDSI of the last month is 0.871, with all signs changed -0.863 -/
theorem C87_fails_float64 :
    okAnd (spellCells (z64 [6, -3.582, 0.03, 0.1, 2.5])) (fun cells =>
    okAnd (spellCells (z64 [-6, 3.582, -0.03, -0.1, -2.5])) (fun cells' =>
      match cells.getLast?.map (fun c => ratOf c.pdsi), cells'.getLast?.map (fun c => ratOf c.pdsi) with
      | some (some a), some (some b) => decide (0.87 < a ∧ -0.87 < b)
      | _, _ => false)) = true := by decide +kernel

/-- C39 in float64: an ending probability below -300 -/
theorem C39_fails_float64 : okAnd (spellCells (z64 (3 :: List.replicate 19 0.15 ++ [0]))) (fun cells =>
    cells.any (fun c => flt c.ppr (lit (-300)))) = true := by decide +kernel

end CI.Props
