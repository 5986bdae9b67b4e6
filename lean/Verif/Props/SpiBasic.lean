import Verif.Lemmas.SpiPipe

/-!
# C09, C10, C11: range, size and missing values of SPI / SPEI

Generic float type: valid for IEEE arithmetic with rounding. `Ext` is arbitrary; where a law about the special
functions is needed it is the hypothesis `ExtNan` (NaN in, NaN out), satisfied by `toyExt`.
-/

namespace CI.Props

variable {F : Type} [FloatOps F]

/-- twelve different positive months, five years, the first value missing -/
def demo : List (Fl ℚ) := .nan :: (List.range 59).map (fun i => .fin ((((i + 1) * (i + 3)) % 17 + 1 : Nat) : ℚ))

theorem allNan_false {l : List F} (hn : ∃ x ∈ l, isNan x = false) : allNan l = false := by
  obtain ⟨x, hx, hx'⟩ := hn
  rw [← Bool.not_eq_true]; intro hc
  unfold allNan at hc; rw [List.all_eq_true] at hc
  simp [hc x hx] at hx'

/-! ## C09 -/

theorem npClip_range [FloatLaws F] (lo hi x : F) (h : fle lo hi = true) :
    isNan (npClip lo hi x) = true ∨ (fle lo (npClip lo hi x) = true ∧ fle (npClip lo hi x) hi = true) := by
  have hlo := ne_nan_of_fle_left h
  have hhi := ne_nan_of_fle_right h
  unfold npClip
  by_cases h0 : isNan x = true
  · left; rw [if_pos h0]; exact h0
  · right
    rw [if_neg h0]
    have hx : x ≠ nan := by rw [← isNan_eq_false_iff]; simpa using h0
    by_cases h1 : flt x lo = true
    · rw [if_pos h1]; exact ⟨FloatLaws.fle_refl _ hlo, h⟩
    · rw [if_neg h1]
      by_cases h2 : flt hi x = true
      · rw [if_pos h2]; exact ⟨h, FloatLaws.fle_refl _ hhi⟩
      · rw [if_neg h2]
        exact ⟨fle_of_not_flt hx hlo (by simpa using h1), fle_of_not_flt hhi hx (by simpa using h2)⟩

theorem clipFlattenTruncate_range [FloatLaws F] (t : Arr F) (n : Nat) (x : F) (hx : x ∈ clipFlattenTruncate t n) :
    isNan x = true ∨ (fle (lit (-3.09)) x = true ∧ fle x (lit 3.09) = true) := by
  unfold clipFlattenTruncate at hx
  obtain ⟨y, _, rfl⟩ := List.mem_map.1 (List.mem_of_mem_take hx)
  exact npClip_range _ _ _ (FloatLaws.lit_mono _ _ (by unfold fittedMin fittedMax; norm_num))

/-- **C09 (SPI).** Every value of a computed SPI is missing or in [-3.09, 3.09], for all inputs, special
functions and fitting parameters. -/
theorem C09_spi [FloatLaws F] (E : Ext F) (values : Arr F) (scale : Int) (dist : Distribution) (ds cs ce : Int)
    (per : Periodicity) (fp : Option (FitDict F)) (out : List F) (hn : ∃ x ∈ values.data, isNan x = false)
    (h : spi E values scale dist ds cs ce per fp = .ok out) :
    ∀ x ∈ out, isNan x = true ∨ (fle (lit (-3.09)) x = true ∧ fle x (lit 3.09) = true) := by
  have hn' : allNan values.data = false := allNan_false hn
  obtain ⟨_, ⟨h1, _⟩ | ⟨_, _, _, t, _, _, _, rfl⟩⟩ := spi_inv E values scale dist ds cs ce per fp out h
  · rw [hn'] at h1; cases h1
  · intro x hx; exact clipFlattenTruncate_range t _ x hx

/-- **C09 (SPEI).** -/
theorem C09_spei [FloatLaws F] (E : Ext F) (precips pet : Arr F) (scale : Int) (dist : Distribution)
    (per : Periodicity) (ds cs ce : Int) (fp : Option (FitDict F)) (out : Arr F)
    (hn : ∃ x ∈ precips.data, isNan x = false)
    (h : spei E precips pet scale dist per ds cs ce fp = .ok out) :
    ∀ x ∈ out.data, isNan x = true ∨ (fle (lit (-3.09)) x = true ∧ fle x (lit 3.09) = true) := by
  have hn' : allNan precips.data = false := allNan_false hn
  rcases spei_inv E precips pet scale dist per ds cs ce fp out h with ⟨h1, _⟩ | ⟨_, _, _, t, _, _, rfl⟩
  · rw [hn'] at h1; cases h1
  · intro x hx; exact clipFlattenTruncate_range t _ x hx

example : okAnd (spi toyExt (Arr.of1d demo) 2 .gamma 1990 1990 1994 .monthly none)
    (fun out => decide (Fl.fin (3.09 : ℚ) ∈ out ∧ out.length = 60)) = true := by decide +kernel

example : okAnd (spei toyExt (Arr.of1d demo) (Arr.of1d (List.replicate 60 (.fin 3))) 1 .gamma .monthly 1990 1990 1994 none)
    (fun out => decide (out.data.length = 60)) = true := by decide +kernel

/-! ## C10 -/

/-- **C10.** An array that is neither 1-D nor 2-D raises ValueError. -/
theorem C10_bad_shape (E : Ext F) (values : Arr F) (scale : Int) (dist : Distribution) (ds cs ce : Int)
    (per : Periodicity) (fp : Option (FitDict F)) (h1 : values.shape.length ≠ 1) (h2 : values.shape.length ≠ 2) :
    spi E values scale dist ds cs ce per fp = .error .valueError := by
  unfold spi; rw [if_neg (by omega)]

example : spi toyExt (⟨[1, 1, 2], [.fin 1, .fin 2]⟩ : Arr (Fl ℚ)) 1 .gamma 1990 1990 1990 .monthly none
    = .error .valueError := by decide +kernel

/-- **C10.** An entirely missing input is returned (flattened), whatever the other arguments. -/
theorem C10_all_missing (E : Ext F) (values : Arr F) (scale : Int) (dist : Distribution) (ds cs ce : Int)
    (per : Periodicity) (fp : Option (FitDict F)) (hdim : values.shape.length = 1 ∨ values.shape.length = 2)
    (hn : ∀ x ∈ values.data, isNan x = true) :
    spi E values scale dist ds cs ce per fp = .ok values.data := by
  unfold spi; rw [if_pos hdim.symm, if_pos (by unfold allNan; rw [List.all_eq_true]; exact hn)]

/-- **C10.** For an input with at least one number: a scale below one, an unknown periodicity or an unknown
distribution raises ValueError. -/
theorem C10_bad_args (E : Ext F) (values : Arr F) (scale : Int) (dist : Distribution) (ds cs ce : Int)
    (per : Periodicity) (fp : Option (FitDict F)) (hn : ∃ x ∈ values.data, isNan x = false)
    (hbad : scale < 1 ∨ per = .other ∨ dist = .other) :
    spi E values scale dist ds cs ce per fp = .error .valueError := by
  by_cases hdim : values.shape.length = 2 ∨ values.shape.length = 1
  swap
  · unfold spi; rw [if_neg hdim]
  have hn' : allNan values.data = false := allNan_false hn
  have hs : ∀ x : List F, (∃ s, sumToScale x scale = .ok s) ∨ sumToScale x scale = .error .valueError := by
    intro x
    unfold sumToScale convolveOnes
    split
    · left; exact ⟨_, rfl⟩
    · split
      · right; rfl
      · simp only; split <;> exact Or.inl ⟨_, rfl⟩
  rw [spi_eq E values scale dist ds cs ce per fp hdim hn']
  simp only [bind, Except.bind]
  rcases hs (clipNeg values.data) with ⟨s, hs⟩ | hs
  · rw [hs]
    simp only
    rcases hbad with h | h | h
    · unfold sumToScale convolveOnes at hs
      rw [if_neg (by omega), if_pos (Or.inl (by omega))] at hs; cases hs
    · subst h; rfl
    · subst h
      unfold reshapeValues
      cases per with
      | other => rfl
      | monthly => rw [reshapeTo2d_of1d s 12 (by norm_num)]; rfl
      | daily => rw [reshapeTo2d_of1d s 366 (by norm_num)]; rfl
  · rw [hs]

example : spi toyExt (Arr.of1d demo) 0 .gamma 1990 1990 1994 .monthly none = .error .valueError := by decide +kernel

theorem sumToScale_length_ge (x : List F) (scale : Int) (s : List F) (h : sumToScale x scale = .ok s) :
    x.length ≤ s.length := by
  unfold sumToScale at h
  split at h
  · cases h; exact le_refl _
  · unfold convolveOnes at h
    split at h
    · cases h
    · by_cases hk : scale.toNat ≤ x.length
      · simp only [bind, Except.bind, pure, Except.pure, hk, if_true] at h
        cases h
        simp only [List.length_append, List.length_replicate, List.length_map, List.length_range]; omega
      · simp only [bind, Except.bind, pure, Except.pure, hk, if_false] at h
        cases h
        simp only [List.length_append, List.length_replicate]; omega

theorem sumToScale_total (x : List F) (scale : Int) (hs : 1 ≤ scale) (hx : x ≠ []) :
    ∃ s, sumToScale x scale = .ok s := by
  unfold sumToScale convolveOnes
  split
  · exact ⟨_, rfl⟩
  · rw [if_neg (by rintro (h | h); omega; exact hx h)]
    simp only; split <;> exact ⟨_, rfl⟩

theorem innerGamma_ok (E : Ext F) (n : Nat) (data : List F) (ds cs ce : Int) (per : Periodicity)
    (hper : per ≠ .other) :
    ∃ al be, innerGammaParameters E n per.steps data ds cs ce per = .ok (al, be) ∧ al.length = per.steps ∧
      be.length = per.steps := by
  unfold innerGammaParameters
  cases hn : allNan (data.map zeroToNan) with
  | true =>
    unfold gammaParameters
    simp only [hn, if_true]
    cases per with
    | other => exact absurd rfl hper
    | monthly => exact ⟨_, _, rfl, by simp [Periodicity.steps], by simp [Periodicity.steps]⟩
    | daily => exact ⟨_, _, rfl, List.length_replicate, List.length_replicate⟩
  | false =>
    exact ⟨_, _, gammaParameters_2d E n _ _ ds cs ce per (steps_12_366 per hper) hn,
      by rw [List.length_map, gammaFits_length], by rw [List.length_map, gammaFits_length]⟩

theorem gamma_total (E : Ext F) (n : Nat) (data : List F) (ds cs ce : Int) (per : Periodicity)
    (hper : per ≠ .other) (hlen : data.length = n * per.steps) :
    ∃ t, transformFittedGamma E ⟨[n, per.steps], data⟩ ds cs ce per none none = .ok t ∧
      t.data.length = data.length := by
  cases hn : allNan data with
  | true =>
    exact ⟨⟨[n, per.steps], data⟩, by unfold transformFittedGamma; simp only [hn, if_true], rfl⟩
  | false =>
    obtain ⟨al, be, hin, hal, hbe⟩ := innerGamma_ok E n data ds cs ce per hper
    refine ⟨_, transformFittedGamma_fit E n _ data ds cs ce per none none al be al be (steps_12_366 per hper) hn
      (Or.inl rfl) hin (bcast_length _ _ hal) (bcast_length _ _ hbe), ?_⟩
    rw [gammaOut_length E n _ data al be hlen hal hbe, hlen]

/-- **C10 (gamma).** For every 1-D or 2-D array with at least one number, every scale >= 1 (also larger than the
record), both periodicities and all calibration years, the gamma SPI has exactly one value per input value. -/
theorem C10_gamma (E : Ext F) (values : Arr F) (scale : Int) (ds cs ce : Int) (per : Periodicity)
    (hdim : values.shape.length = 1 ∨ values.shape.length = 2) (hper : per = .monthly ∨ per = .daily)
    (hs : 1 ≤ scale) (hn : ∃ x ∈ values.data, isNan x = false) :
    ∃ out, spi E values scale .gamma ds cs ce per none = .ok out ∧ out.length = values.data.length := by
  have hn' : allNan values.data = false := allNan_false hn
  have hper' : per ≠ .other := by rcases hper with h | h <;> simp [h]
  rw [spi_eq E values scale .gamma ds cs ce per none hdim.symm hn']
  have hne : clipNeg values.data ≠ [] := by
    intro h
    have := clipNeg_length values.data
    rw [h] at this
    exact ne_nil_of_allNan _ hn' (List.length_eq_zero_iff.1 this.symm)
  obtain ⟨s, hs'⟩ := sumToScale_total _ scale hs hne
  have hge := sumToScale_length_ge _ _ _ hs'
  obtain ⟨n, hr, hl⟩ := reshapeValues_total s per hper'
  obtain ⟨t, ht, htl⟩ := gamma_total E n _ ds cs ce per hper' hl
  refine ⟨clipFlattenTruncate t values.data.length, ?_, ?_⟩
  · simp only [bind, Except.bind, hs', hr, distTransform, getGammaArgs, ht]; rfl
  · rw [clipNeg_length] at hge
    unfold clipFlattenTruncate
    rw [List.length_take, List.length_map, htl, List.length_append, List.length_replicate]
    omega

example : ∃ out, spi toyExt (Arr.of1d demo) 70 .gamma 1990 1990 1994 .monthly none = .ok out ∧ out.length = 60 := by
  exact C10_gamma toyExt _ _ _ _ _ _ (Or.inl rfl) (Or.inl rfl) (by norm_num) ⟨.fin 4, by decide +kernel, rfl⟩

theorem lmomentsFit_error (E : Ext F) (l : List F) (e : PyErr) (h : lmomentsFit E l = .error e) : e = .valueError := by
  unfold lmomentsFit at h
  simp only [bind, Except.bind] at h
  split at h
  · rename_i e' he
    unfold estimateLmoments at he
    simp only at he
    split at he
    · cases he; cases h; rfl
    · split at he <;> cases he
  · split at h
    · cases h; rfl
    · unfold estimatePearson3Parameters at h
      simp only at h
      split at h
      · cases h; rfl
      · split at h <;> cases h

theorem calculateTimeStepParams_error (E : Ext F) (l : List F) (e : PyErr)
    (h : calculateTimeStepParams (lmomentsFit E) l = .error e) : e = .valueError := by
  unfold calculateTimeStepParams at h
  simp only [bind, Except.bind, pure, Except.pure] at h
  split at h
  · cases h
  · split at h
    · split at h
      · rename_i e' he; cases h; exact lmomentsFit_error E _ _ he
      · cases h
    · cases h

theorem pearsonFits_error (E : Ext F) (n p : Nat) (data : List F) (ds cs ce : Int) :
    (∃ ps, pearsonFits (lmomentsFit E) n p data ds cs ce = .ok ps) ∨
      pearsonFits (lmomentsFit E) n p data ds cs ce = .error .valueError := by
  unfold pearsonFits
  by_cases h : ∀ j ∈ List.range p,
      ∃ b, calculateTimeStepParams (lmomentsFit E) (stride p j (calibrationValues data n p ds cs ce)) = .ok b
  · exact Or.inl (mapM_ok _ _ h)
  · right
    push Not at h
    obtain ⟨j, hj, hb⟩ := h
    have key : ∀ c, (∃ b, calculateTimeStepParams (lmomentsFit E) (stride p c (calibrationValues data n p ds cs ce)) = .ok b)
        ∨ calculateTimeStepParams (lmomentsFit E) (stride p c (calibrationValues data n p ds cs ce)) = .error .valueError := by
      intro c
      cases hc : calculateTimeStepParams (lmomentsFit E) (stride p c (calibrationValues data n p ds cs ce)) with
      | ok b => exact Or.inl ⟨b, rfl⟩
      | error e => rw [calculateTimeStepParams_error E _ e hc]; exact Or.inr rfl
    refine mapM_error _ _ _ j hj ?_ (fun c _ => key c)
    rcases key j with ⟨b, h1⟩ | h1
    · exact absurd h1 (hb b)
    · exact h1

/-- **C10 (Pearson, partial).** Full statement: as for gamma. The code can only be shown to return one value per input
value *or* raise ValueError, because the L-moment fit refuses degenerate samples (`C10_fails_pearson`, C24, C26). -/
theorem C10_pearson_partial (E : Ext F) (values : Arr F) (scale : Int) (ds cs ce : Int) (per : Periodicity)
    (hdim : values.shape.length = 1 ∨ values.shape.length = 2) (hper : per = .monthly ∨ per = .daily)
    (hs : 1 ≤ scale) (hn : ∃ x ∈ values.data, isNan x = false) :
    (∃ out, spi E values scale .pearson ds cs ce per none = .ok out ∧ out.length = values.data.length) ∨
    spi E values scale .pearson ds cs ce per none = .error .valueError := by
  have hn' : allNan values.data = false := allNan_false hn
  have hper' : per ≠ .other := by rcases hper with h | h <;> simp [h]
  rw [spi_eq E values scale .pearson ds cs ce per none hdim.symm hn']
  have hne : clipNeg values.data ≠ [] := by
    intro h
    have := clipNeg_length values.data
    rw [h] at this
    exact ne_nil_of_allNan _ hn' (List.length_eq_zero_iff.1 this.symm)
  obtain ⟨s, hs'⟩ := sumToScale_total _ scale hs hne
  have hge := sumToScale_length_ge _ _ _ hs'
  obtain ⟨n, hr, hl⟩ := reshapeValues_total s per hper'
  simp only [bind, Except.bind, hs', hr, distTransform, getPearsonArgs]
  have hfin : ∀ t : Arr F, t.data.length = (s ++ List.replicate (padCount s.length per.steps) (nan : F)).length →
      (clipFlattenTruncate t values.data.length).length = values.data.length := by
    intro t ht
    rw [clipNeg_length] at hge
    unfold clipFlattenTruncate
    rw [List.length_take, List.length_map, ht, List.length_append, List.length_replicate]
    omega
  cases hna : allNan (s ++ List.replicate (padCount s.length per.steps) (nan : F)) with
  | true =>
    left
    refine ⟨_, ?_, hfin ⟨[n, per.steps], s ++ List.replicate (padCount s.length per.steps) nan⟩ rfl⟩
    unfold transformFittedPearson
    simp [hna]
    rfl
  | false =>
    rw [transformFittedPearson_fit E _ n _ _ ds cs ce per hper' rfl hna]
    rcases pearsonFits_error E n per.steps (s ++ List.replicate (padCount s.length per.steps) (nan : F)) ds cs ce
      with ⟨ps, hps⟩ | hps
    · left
      rw [hps]
      refine ⟨_, rfl, hfin _ ?_⟩
      apply pearsonFit_length
      rw [tile_length, pearsonFits_length _ _ _ _ _ _ _ _ hps, hl]
    · right; rw [hps]

/-- **C10 is false for Pearson**: five years of a constant monthly value raise ValueError. -/
theorem C10_fails_pearson :
    spi toyExt (Arr.of1d (List.replicate 60 (Fl.fin (1 : ℚ)))) 1 .pearson 1990 1990 1994 .monthly none
      = .error .valueError := by decide +kernel

example : okAnd (spi toyExt (Arr.of1d demo) 1 .pearson 1990 1990 1994 .monthly none)
    (fun out => decide (out.length = 60)) = true := by decide +kernel

/-- **C10.** Whatever the arguments (also with supplied fitting parameters): if `spi` returns, it returns one value per
input value. -/
theorem C10_size [FloatLaws F] (E : Ext F) (hE : ExtNan E) (values : Arr F) (scale : Int) (dist : Distribution)
    (ds cs ce : Int) (per : Periodicity) (fp : Option (FitDict F)) (out : List F)
    (h : spi E values scale dist ds cs ce per fp = .ok out) : out.length = values.data.length := by
  obtain ⟨_, ⟨_, rfl⟩ | ⟨_, s, a, t, hs, ha, ht, rfl⟩⟩ := spi_inv E values scale dist ds cs ce per fp out h
  · rfl
  · have hge := sumToScale_length_ge _ _ _ hs
    rw [clipNeg_length] at hge
    obtain ⟨hper, n, hsh, hlen, hdata⟩ := reshapeValues_ok s per a ha
    obtain ⟨sh, d⟩ := a
    simp only at hsh hdata hlen
    subst hsh
    obtain ⟨htl, _⟩ := distTransform_point E hE n d dist ds cs ce per fp t hper hlen ht
    unfold clipFlattenTruncate
    rw [List.length_take, List.length_map, htl, hdata, List.length_append, List.length_replicate]
    omega

/-! ## C11 -/

theorem clipNeg_nan [FloatLaws F] (x : List F) (i : Nat) (h : x[i]? = some nan) : (clipNeg x)[i]? = some nan := by
  unfold clipNeg
  split
  · split
    · rw [List.getElem?_map, h]; simp [npClipMin]
    · exact h
  · exact h

theorem sumToScale_nan [FloatLaws F] (x : List F) (scale : Int) (s : List F) (h : sumToScale x scale = .ok s)
    (i : Nat) (hi : i < x.length)
    (hm : (i : Int) + 1 < scale ∨ ∃ k : Nat, (k : Int) < scale ∧ k ≤ i ∧ x[i - k]? = some nan) : s[i]? = some nan := by
  unfold sumToScale at h
  split at h
  · rename_i h1
    cases h
    rcases hm with hm | ⟨k, hk, _, hx⟩
    · omega
    · have : k = 0 := by omega
      subst this; simpa using hx
  · unfold convolveOnes at h
    split at h
    · cases h
    · rename_i h1 h2
      by_cases hk : scale.toNat ≤ x.length
      · simp only [bind, Except.bind, pure, Except.pure, hk, if_true] at h
        cases h
        by_cases hfull : (i : Int) + 1 < scale
        · rw [List.getElem?_append_left (by rw [List.length_replicate]; omega), List.getElem?_replicate,
            if_pos (by omega)]
        · rcases hm with hm | ⟨k, hk, hki, hx⟩
          · exact absurd hm hfull
          rw [List.getElem?_append_right (by rw [List.length_replicate]; omega), List.length_replicate,
            List.getElem?_map, List.getElem?_range (by omega)]
          simp only [Option.map_some]
          rw [FloatLaws.fsum_nan]
          rw [List.mem_iff_getElem?]
          refine ⟨scale.toNat - 1 - k, ?_⟩
          rw [slice_getElem? _ _ _ _ (by omega), ← hx]
          congr 1; omega
      · simp only [bind, Except.bind, pure, Except.pure, hk, if_false] at h
        cases h
        rw [List.getElem?_append_left (by rw [List.length_replicate]; omega), List.getElem?_replicate,
          if_pos (by omega)]

/-- **C11.** In the SPI of a series that has at least one number, time step `i` is missing if the window of `scale`
steps ending there starts before the record, or contains a missing value; for both distributions, all scales
and all fitting parameters. -/
theorem C11_missing [FloatLaws F] (E : Ext F) (hE : ExtNan E) (values : Arr F) (scale : Int) (dist : Distribution)
    (ds cs ce : Int) (per : Periodicity) (fp : Option (FitDict F)) (out : List F)
    (hn : ∃ x ∈ values.data, isNan x = false)
    (h : spi E values scale dist ds cs ce per fp = .ok out) (i : Nat) (hi : i < values.data.length)
    (hm : (i : Int) + 1 < scale ∨ ∃ k : Nat, (k : Int) < scale ∧ k ≤ i ∧ values.data[i - k]? = some nan) :
    out[i]? = some nan := by
  have hn' : allNan values.data = false := allNan_false hn
  obtain ⟨_, ⟨h1, _⟩ | ⟨_, s, a, t, hs, ha, ht, rfl⟩⟩ := spi_inv E values scale dist ds cs ce per fp out h
  · rw [hn'] at h1; cases h1
  · have hge := sumToScale_length_ge _ _ _ hs
    rw [clipNeg_length] at hge
    have hsi : s[i]? = some nan := by
      refine sumToScale_nan _ _ _ hs i (by rw [clipNeg_length]; exact hi) ?_
      rcases hm with hm | ⟨k, hk, hki, hx⟩
      · exact Or.inl hm
      · exact Or.inr ⟨k, hk, hki, clipNeg_nan _ _ hx⟩
    obtain ⟨hper, n, hsh, hlen, hdata⟩ := reshapeValues_ok s per a ha
    obtain ⟨sh, d⟩ := a
    simp only at hsh hdata hlen
    subst hsh
    obtain ⟨htl, f, hf, hval⟩ := distTransform_point E hE n d dist ds cs ce per fp t hper hlen ht
    have hdi : d[i]? = some nan := by
      rw [hdata, List.getElem?_append_left (by omega)]; exact hsi
    have := hval i nan hdi
    rw [hf] at this
    unfold clipFlattenTruncate
    rw [List.getElem?_take_of_lt hi, List.getElem?_map, this]
    simp [npClip_nan]

example : (∃ x ∈ (Arr.of1d demo).data, isNan x = false) ∧ (Arr.of1d demo).data[2 - 2]? = some (nan : Fl ℚ) ∧
    okAnd (spi toyExt (Arr.of1d demo) 3 .gamma 1990 1990 1994 .monthly none)
      (fun out => decide (out.take 3 = [.nan, .nan, .nan] ∧ out[3]? ≠ some .nan)) = true := by
  exact ⟨⟨.fin 4, by decide +kernel, rfl⟩, by decide +kernel, by decide +kernel⟩

end CI.Props
