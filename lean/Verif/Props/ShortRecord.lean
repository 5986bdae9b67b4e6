import Verif.Props.Arrays
import Verif.Props.Spei

/-!
# C142: records of at most three years are never refused

The only data for which the indices raise are degenerate calibration samples of the Pearson fit (C10, C24). A record of at most three years has none, in any arithmetic: fewer than four values are never fitted
(compute.py:252).
-/

namespace CI.Props

open CI FloatOps FloatLaws

variable {F : Type} [FloatOps F]

/-- fewer than four values are never fitted -/
theorem timeStep_short (fit : List F → Res (F × F × F)) (l : List F) (h : l.length ≤ 3) : calculateTimeStepParams fit l = .ok ⟨lit 0, lit 0, lit 0, lit 0⟩ := by
  have h2 : (countZerosAndNonMissings l).2 ≤ 3 := by
    rw [C08_counts]
    exact (List.length_filter_le _ _).trans h
  unfold calculateTimeStepParams
  generalize countZerosAndNonMissings l = q at h2
  obtain ⟨z, m⟩ := q
  simp only at h2 ⊢
  rw [if_pos (by omega)]

theorem pearsonFits_short (fit : List F → Res (F × F × F)) (n p : ℕ) (data : List F) (hl : data.length = n * p) (hn : n ≤ 3) (ds cs ce : ℤ) : ∃ ps, pearsonFits fit n p data ds cs ce = .ok ps := by
  unfold pearsonFits
  refine mapM_ok _ _ fun j hj => ⟨_, timeStep_short fit _ ?_⟩
  have hj' := List.mem_range.1 hj
  by_contra hc
  have hc : 3 < (stride p j (calibrationValues data n p ds cs ce)).length := not_le.1 hc
  have h3 := List.getElem?_eq_getElem hc
  rw [stride_getElem? p j _ hj'] at h3
  have h4 := (List.getElem?_eq_some_iff.1 h3).1
  have h5 : (calibrationValues data n p ds cs ce).length ≤ n * p := by
    unfold calibrationValues rowSlice
    rw [slice_length', ← hl]
    omega
  have h6 : n * p ≤ 3 * p := Nat.mul_le_mul_right p hn
  omega

/-- the transform of a short record is total, for both distributions -/
theorem distTransform_short (E : Ext F) (dist : Distribution) (hd : dist ≠ .other) (n : ℕ) (data : List F) (ds cs ce : ℤ) (per : Periodicity) (hper : per ≠ .other) (hl : data.length = n * per.steps) (hn : n ≤ 3) :
    ∃ t, distTransform E ⟨[n, per.steps], data⟩ dist ds cs ce per none = .ok t ∧ t.data.length = data.length := by
  cases dist with
  | other => exact absurd rfl hd
  | gamma =>
    obtain ⟨t, ht, h2⟩ := gamma_total E n data ds cs ce per hper hl
    exact ⟨t, by simp only [distTransform, getGammaArgs, bind, Except.bind, ht], h2⟩
  | pearson =>
    simp only [distTransform, getPearsonArgs, bind, Except.bind]
    cases hna : allNan data with
    | true =>
      refine ⟨⟨[n, per.steps], data⟩, ?_, rfl⟩
      unfold transformFittedPearson
      simp [hna]
    | false =>
      rw [transformFittedPearson_fit E _ n _ _ ds cs ce per hper rfl hna]
      obtain ⟨ps, hps⟩ := pearsonFits_short (lmomentsFit E) n per.steps data hl hn ds cs ce
      rw [hps]
      refine ⟨_, rfl, pearsonFit_length _ _ _ ?_⟩
      rw [tile_length, pearsonFits_length _ _ _ _ _ _ _ _ hps, hl]

theorem short_years {l per} (n : ℕ) (h : l + padCount l per = n * per) (hp : 0 < per) (hl : l ≤ 3 * per) : n ≤ 3 := by
  have := padCount_lt l per hp
  by_contra hc
  have h4 : 4 * per ≤ n * per := Nat.mul_le_mul_right per (by omega)
  omega

/-- **C142, SPI.** In any arithmetic, for any record of at most three years (missing, infinite or negative numbers included), both distributions, any scale up to its length and any calibration years: the
SPI is computed without exception and has one value per input value. -/
theorem C142_spi [FloatLaws F] (E : Ext F) (x : List F) (k : ℕ) (h1 : 1 ≤ k) (h2 : k ≤ x.length) (dist : Distribution) (hd : dist ≠ .other) (ds cs ce : ℤ) (per : Periodicity) (hper : per ≠ .other)
    (h3 : x.length ≤ 3 * per.steps) : ∃ out, spi E (Arr.of1d x) k dist ds cs ce per none = .ok out ∧ out.length = x.length := by
  cases hn : allNan x with
  | true =>
    refine ⟨x, ?_, rfl⟩
    unfold spi
    rw [if_pos (show (Arr.of1d x).shape.length = 2 ∨ (Arr.of1d x).shape.length = 1 from Or.inr rfl), if_pos (show allNan (Arr.of1d x).data = true from hn)]
    rfl
  | false =>
    rw [spi_eq E (Arr.of1d x) k dist ds cs ce per none (Or.inr rfl) hn]
    have hcl : (clipNeg (Arr.of1d x).data).length = x.length := clipNeg_length _
    obtain ⟨s, hs, hsl, _⟩ := C07_windows_partial (clipNeg (Arr.of1d x).data) k h1 (by rw [hcl]; exact h2)
    obtain ⟨n, hr, hlen⟩ := reshapeValues_total s per hper
    obtain ⟨t, ht, htl⟩ := distTransform_short E dist hd n _ ds cs ce per hper hlen
      (short_years n (by rw [← hlen, List.length_append, List.length_replicate]) (steps_pos per hper) (by rw [hsl, hcl]; exact h3))
    refine ⟨clipFlattenTruncate t x.length, ?_, ?_⟩
    · simp only [bind, Except.bind, hs, hr]
      rw [ht]
      rfl
    · unfold clipFlattenTruncate
      rw [List.length_take, List.length_map, htl, List.length_append, hsl, hcl]
      omega

/-- **C142, SPEI.** The same for the SPEI of any precipitation and evapotranspiration of the same length. -/
theorem C142_spei [FloatLaws F] (E : Ext F) (p e : List F) (hl : p.length = e.length) (k : ℕ) (h1 : 1 ≤ k) (h2 : k ≤ p.length) (dist : Distribution) (hd : dist ≠ .other) (per : Periodicity) (hper : per ≠ .other)
    (ds cs ce : ℤ) (h3 : p.length ≤ 3 * per.steps) : ∃ out, spei E (Arr.of1d p) (Arr.of1d e) k dist per ds cs ce none = .ok out ∧ out.data.length = p.length := by
  cases hn : allNan p with
  | true =>
    refine ⟨Arr.of1d p, ?_, rfl⟩
    unfold spei
    rw [if_pos (show allNan (Arr.of1d p).data = true from hn)]
  | false =>
    rw [spei_eq E (Arr.of1d p) (Arr.of1d e) k dist per ds cs ce none hn hl]
    have hcl : (clipNeg (Arr.of1d p).data).length = p.length := clipNeg_length _
    have hbl : (balance (clipNeg (Arr.of1d p).data) (Arr.of1d e).data).length = p.length := by rw [balance_length _ _ (by rw [hcl]; exact hl), hcl]
    obtain ⟨s, hs, hsl, _⟩ := C07_windows_partial (balance (clipNeg (Arr.of1d p).data) (Arr.of1d e).data) k h1 (by rw [hbl]; exact h2)
    rw [hs]
    obtain ⟨n, hr, hlen⟩ := reshapeValues_total s per hper
    obtain ⟨t, ht, htl⟩ := distTransform_short E dist hd n _ ds cs ce per hper hlen
      (short_years n (by rw [← hlen, List.length_append, List.length_replicate]) (steps_pos per hper) (by rw [hsl, hbl]; exact h3))
    have h12 := distTransform_1d_2d E s dist ds cs ce per none hper p.length (by rw [hsl, hbl])
    rw [hr, show (Except.ok ⟨[n, per.steps], s ++ List.replicate (padCount s.length per.steps) nan⟩ : Res (Arr F)).bind (fun a => distTransform E a dist ds cs ce per none) = .ok t from ht] at h12
    cases hd' : distTransform E (Arr.of1d s) dist ds cs ce per none with
    | error err => rw [hd'] at h12; cases h12
    | ok t' =>
      rw [hd'] at h12
      have h12' : clipFlattenTruncate t' p.length = clipFlattenTruncate t p.length := Except.ok.inj h12
      refine ⟨Arr.of1d (clipFlattenTruncate t' p.length), ?_, ?_⟩
      · simp only [bind, Except.bind]
        rw [show (normFitdict none : Option (FitDict F)) = none from rfl, hd']
        rfl
      · rw [h12']
        show (clipFlattenTruncate t p.length).length = _
        unfold clipFlattenTruncate
        rw [List.length_take, List.length_map, htl, List.length_append, hsl, hbl]
        omega

/-- three years of a constant amount: accepted, though five such years are refused (`C10_fails_pearson`) -/
example : (∃ out, spi toyExt (Arr.of1d (List.replicate 36 (Fl.fin (1 : ℚ)))) (2 : ℕ) .pearson 1990 1990 1992 .monthly none = .ok out ∧ out.length = 36) ∧
    ∃ out, spei toyExt (Arr.of1d (List.replicate 36 (Fl.fin (1 : ℚ)))) (Arr.of1d (Fl.nan :: List.replicate 35 (Fl.fin 3))) (2 : ℕ) .pearson .monthly 1990 1990 1992 none = .ok out ∧ out.data.length = 36 :=
  ⟨C142_spi toyExt _ 2 (by norm_num) (by simp) .pearson (by decide) 1990 1990 1992 .monthly (by decide) (by simp [Periodicity.steps]),
    C142_spei toyExt _ _ (by simp) 2 (by norm_num) (by simp) .pearson (by decide) .monthly (by decide) 1990 1990 1992 (by simp [Periodicity.steps])⟩

end CI.Props
