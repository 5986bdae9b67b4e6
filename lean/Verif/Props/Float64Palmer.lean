import Verif.Lemmas.Palmer64
import Verif.Props.PalmerSpell
import Verif.Props.PalmerRules
import Verif.Props.Float64Replay

/-!
# C103: the Palmer indices are bounded in binary64

C80 bounds the Palmer indices by `M / 0.309` in exact arithmetic. Here the arithmetic is IEEE binary64 with round to nearest, for every order
of summation. The recursion `x = 0.897 * x + z / 3` multiplies by a number below 1, so rounding errors do not build up, however long the
record is.
-/

namespace CI.Props
open FloatOps CI.B64

variable {σ : SumOrder}

/-- C103: if the Z values of a record are finite binary64 numbers of absolute value at most `M <= 2^100`, all PDSI, PHDI and PMDI are finite
binary64 numbers whose absolute value is at most `M / 0.309`, up to one part in 10^12 (and 10^-60): no NaN, no infinity, no growth of rounding
errors, for records of any length. -/
theorem C103_bounded (M : ℚ) (hM : M ≤ 2 ^ 100) (zs : List (B64 σ)) (hz : ∀ z ∈ zs, ∃ q, ext z = .fin q ∧ |q| ≤ M)
    (cells : List (Cell (B64 σ))) (h : spellCells zs = .ok cells) :
    ∀ c ∈ cells, ∃ a b d : ℚ, ext c.pdsi = .fin a ∧ ext c.phdi = .fin b ∧ ext c.wplm = .fin d ∧
      |a| ≤ M / 0.309 * (1 + 1 / 10 ^ 12) + 1 / 10 ^ 60 ∧ |b| ≤ M / 0.309 * (1 + 1 / 10 ^ 12) + 1 / 10 ^ 60 ∧
      |d| ≤ M / 0.309 * (1 + 1 / 10 ^ 12) + 1 / 10 ^ 60 := by
  intro c hc
  have hM0 : 0 ≤ M := by
    have hl := (C40_assigned _ cells h).1
    cases zs with
    | nil =>
      rw [List.length_nil, List.length_eq_zero_iff] at hl
      rw [hl] at hc
      simp at hc
    | cons z zs =>
      obtain ⟨q, _, hq⟩ := hz z (by simp)
      exact (abs_nonneg q).trans hq
  have hnum : ∀ c ∈ cells, Below (inner M) c.px1 ∧ Below (inner M) c.px2 ∧ Below (inner M) c.px3 ∧ c.ppr ≠ .nan := by
    intro c hc
    obtain ⟨m, hm, ⟨h1, h2, h3, h4, _⟩, _⟩ := mem_cells _ cells h c hc
    have hs := months_sized hM0 hM zs hz m hm
    rw [h2, h3, h4, h1]
    exact ⟨hs.px1, hs.px2, hs.px3, hs.ppr⟩
  have hio := inner_le_outer hM0
  obtain ⟨e1, e2, e3, _⟩ := hnum c hc
  obtain ⟨g1, g2, d, hd, g3⟩ := (C40_assigned _ cells h).2 c hc
  have hp : Below (outer M) c.pdsi := by
    rcases g1 with g | g | g <;> rw [g]
    · exact e1.mono hio
    · exact e2.mono hio
    · exact e3.mono hio
  have hph : Below (outer M) c.phdi := by
    rw [g2]
    split
    · exact hp
    · exact e3.mono hio
  obtain ⟨k1, k2, k3, hn⟩ := hnum d hd
  have hw := case64 hM0 hM hn k1 k2 k3
  rw [← g3] at hw
  obtain ⟨a, ea, ha⟩ := hp
  obtain ⟨b, eb, hb⟩ := hph
  obtain ⟨w, ew, hw⟩ := hw
  exact ⟨a, b, w, ea, eb, ew, ha, hb, hw⟩

/-- C103 for `pdsi`: if the record has whole years and the returned Z-index consists of finite numbers of absolute value at most `M <= 2^100`, all
returned PDSI, PHDI and PMDI are finite and at most `M / 0.309` in absolute value, up to one part in 10^12 (and 10^-60). -/
theorem C103_pdsi (log10 : B64 σ → B64 σ) (precips pet : Arr (B64 σ)) (awc : B64 σ) (ds cs ce : Int) (fp : Option (PalmerDict (B64 σ)))
    (out : PalmerOut (B64 σ)) (hp : precips.WF) (he : pet.WF) (h : palmerPdsi log10 precips pet awc ds cs ce fp = .ok out)
    (hn : allNan precips.data = false) (hy : precips.data.length % 12 = 0) (M : ℚ) (hM : M ≤ 2 ^ 100)
    (hz : ∀ v ∈ out.z.data, ∃ q, ext v = .fin q ∧ |q| ≤ M) :
    ∀ v, v ∈ out.pdsi.data ∨ v ∈ out.phdi.data ∨ v ∈ out.pmdi.data →
      ∃ a, ext v = .fin a ∧ |a| ≤ M / 0.309 * (1 + 1 / 10 ^ 12) + 1 / 10 ^ 60 := by
  obtain ⟨n, h1, h2, h3⟩ := palmerPdsi_ok log10 precips pet awc ds cs ce fp out hp he hn h
  have hpad : padCount precips.data.length 12 = 0 := by unfold padCount; rw [if_neg (by omega)]
  obtain ⟨ak, cells, _, g2, rfl⟩ := palmerBody_ok _ _ _ _ _ _ _ _ _ _ h3
  rw [hpad] at g2 hz
  simp only [List.replicate_zero, List.append_nil, Arr.of1d] at g2 hz ⊢
  generalize hzs : zValues _ ak _ = zs at g2 hz
  have hzl : zs.length ≤ precips.data.length := by
    rw [← hzs, zValues_length]
    unfold waterBalances
    rw [balances_length, List.length_zip, clipNeg_length, h2, Nat.min_self]
  rw [List.take_of_length_le hzl] at hz
  have key := C103_bounded M hM zs hz cells g2
  rintro v (hv | hv | hv)
  all_goals
    obtain ⟨c, hc, rfl⟩ := List.mem_map.1 (List.mem_of_mem_take hv)
    obtain ⟨a, b, d, e1, e2, e3, b1, b2, b3⟩ := key c hc
  · exact ⟨a, e1, b1⟩
  · exact ⟨b, e2, b2⟩
  · exact ⟨d, e3, b3⟩

/-! ## Concrete cases -/

/-- an index above a rational number -/
def above (q : ℚ) (x : D64) : Bool := match ext x with
  | .fin a => decide (q < a)
  | _ => false

/-- C103: a record of eight months in which a wet spell begins, may be ending and is followed by a drought; the PMDI of the fifth month is
interpolated. All Z values are at most 6 in absolute value and the smallest PDSI is below -4. -/
example : (∀ z ∈ z64 [1, 3, 1, 0, -1, -6, -6, 1 / 2], ∃ q, ext z = .fin q ∧ |q| ≤ 6) ∧
    okAnd (spellCells (z64 [1, 3, 1, 0, -1, -6, -6, 1 / 2])) (fun cells =>
      cells.all (fun c => above (-5) c.pdsi && above (-5) c.wplm) && cells.any (fun c => !above (-4) c.pdsi) &&
      cells.any (fun c => above 0 c.wplm && !above 0.8 c.wplm)) = true := by
  constructor
  · intro z hz
    have h : (z64 [1, 3, 1, 0, -1, -6, -6, 1 / 2]).all (fun z => match ext z with | .fin q => decide (|q| ≤ 6) | _ => false) = true := by
      decide +kernel
    have := List.all_eq_true.1 h z hz
    cases he : ext z with
    | fin q =>
      rw [he] at this
      exact ⟨q, rfl, by simpa using this⟩
    | nan => rw [he] at this; cases this
    | pinf => rw [he] at this; cases this
    | ninf => rw [he] at this; cases this
  · decide +kernel

/-- **The bound of C80 is not exact in binary64.** 330 months of `z = 1`: the PDSI exceeds `1 / 0.309` (by less than 10^-15). -/
theorem C103_exact_fails : okAnd (spellCells (List.replicate 330 (CI.lit 1 : D64))) (fun cells =>
    cells.any (fun c => above (1 / 0.309) c.pdsi)) = true := by
  decide +kernel

/-- **Without a bound of the Z values the indices overflow.** Ten months of `z = 10^308`: the PDSI becomes infinite. -/
theorem C103_overflow_fails : okAnd (spellCells (List.replicate 10 (CI.lit (10 ^ 308) : D64))) (fun cells =>
    cells.any (fun c => decide (ext c.pdsi = .pinf))) = true := by
  decide +kernel

end CI.Props
