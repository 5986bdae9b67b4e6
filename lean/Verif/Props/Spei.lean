import Verif.Props.SpiMono

/-!
# C89: the SPEI is the SPI of the water balance raised by 1000

`indices.py:207-346` against `indices.py:69-204`.
-/

namespace CI.Props
open FloatOps Fl

section
variable {F : Type} [FloatOps F]

/-- the series that `spei` standardises: precipitation minus evapotranspiration plus 1000 -/
def balance (p e : List F) : List F := List.zipWith (fun a b => (a - b) + lit 1000) p e

theorem balance_length (p e : List F) (h : p.length = e.length) : (balance p e).length = p.length := by
  unfold balance; rw [List.length_zipWith]; omega

/-- `spei` on data that are not entirely missing -/
theorem spei_eq (E : Ext F) (precips pet : Arr F) (scale : Int) (dist : Distribution) (per : Periodicity)
    (ds cs ce : Int) (fp : Option (FitDict F)) (hn : allNan precips.data = false) (hl : precips.data.length = pet.data.length) :
    spei E precips pet scale dist per ds cs ce fp = (do
      let scaled ← sumToScale (balance (clipNeg precips.data) pet.data) scale
      let t ← distTransform E (Arr.of1d scaled) dist ds cs ce per (normFitdict fp)
      pure (Arr.of1d (clipFlattenTruncate t precips.data.length))) := by
  obtain ⟨m, hm⟩ := amin_ok _ (ne_nil_of_allNan _ hn)
  have hc : clipNeg precips.data =
      if flt m (lit 0) then precips.data.map (npClipMin (lit 0)) else precips.data := by
    unfold clipNeg; rw [hm]
  have hlen : (clipNeg precips.data).length = precips.data.length := clipNeg_length _
  unfold spei balance
  have g : ¬ precips.data.length ≠ pet.data.length := by simpa using hl
  simp only [hn, Bool.false_eq_true, if_false, g, hm, bind, Except.bind, ← hc, hlen]
  cases sumToScale (List.zipWith (fun a b => (a - b) + lit 1000) (clipNeg precips.data) pet.data) scale with
  | error err => rfl
  | ok scaled =>
    cases dist with
    | other => rfl
    | gamma =>
      simp only [distTransform, bind, Except.bind]
      cases getGammaArgs (normFitdict fp) <;> rfl
    | pearson =>
      simp only [distTransform, bind, Except.bind]
      cases getPearsonArgs (normFitdict fp) <;> rfl

/-- the transform of a 1-D series and of its 2-D arrangement differ at most in the padding -/
theorem distTransform_1d_2d [FloatLaws F] (E : Ext F) (l : List F) (dist : Distribution) (ds cs ce : Int) (per : Periodicity)
    (fp : Option (FitDict F)) (hper : per ≠ .other) (k : Nat) (hk : k ≤ l.length) :
    (distTransform E (Arr.of1d l) dist ds cs ce per fp).map (fun t => clipFlattenTruncate t k) =
      ((reshapeValues (Arr.of1d l) per).bind (fun a => distTransform E a dist ds cs ce per fp)).map (fun t => clipFlattenTruncate t k) := by
  obtain ⟨n', hr, hl'⟩ := reshapeValues_total l per hper
  rw [hr]
  cases hn : allNan l with
  | false =>
    obtain ⟨n, hl, he⟩ := distTransform_of1d E l dist ds cs ce per fp hn hper
    have : n = n' := by
      rw [hl] at hl'
      exact Nat.eq_of_mul_eq_mul_right (steps_pos per hper) hl'
    subst this
    rw [he]
    rfl
  | true =>
    have hn1 : allNan (Arr.of1d l).data = true := hn
    have hn2 : allNan (l ++ List.replicate (padCount l.length per.steps) (nan : F)) = true := by rw [allNan_append_nan, hn]
    have hc : ∀ (s : List Nat) (m : Nat), clipFlattenTruncate (⟨s, l ++ List.replicate m nan⟩ : Arr F) k = clipFlattenTruncate (Arr.of1d l) k := by
      intro s m
      unfold clipFlattenTruncate
      simp only [Arr.of1d, List.map_append]
      rw [List.take_append_of_le_length (by simpa using hk)]
    cases dist with
    | other => rfl
    | gamma =>
      simp only [distTransform, bind, Except.bind]
      cases getGammaArgs fp with
      | error err => rfl
      | ok ab => simp only [transformFittedGamma, hn1, hn2, if_true, Except.map, hc]
    | pearson =>
      simp only [distTransform, bind, Except.bind]
      cases getPearsonArgs fp with
      | error err => rfl
      | ok args =>
        simp only [transformFittedPearson, hn1, hn2, if_true]
        split
        · rfl
        · simp only [Except.map, hc]

/-- **C89.** For precipitation without negative values and a water balance (plus 1000) without negative values, not entirely missing: `spei` is `spi` of that series, with the
same scale, distribution, periodicity, calibration years and (normalised) fitting parameters; also when one of them raises. -/
theorem C89_partial [FloatLaws F] (E : Ext F) (p e : Arr F) (scale : Int) (dist : Distribution) (per : Periodicity) (ds cs ce : Int)
    (fp : Option (FitDict F)) (hlen : p.data.length = e.data.length) (hp : ∀ v ∈ p.data, flt v (lit 0) = false)
    (hb : ∀ v ∈ balance p.data e.data, flt v (lit 0) = false) (hn : ∃ v ∈ balance p.data e.data, isNan v = false)
    (hper : per ≠ .other) :
    spei E p e scale dist per ds cs ce fp =
      (spi E (Arr.of1d (balance p.data e.data)) scale dist ds cs ce per (normFitdict fp)).map Arr.of1d := by
  have hnp : allNan p.data = false := by
    by_contra hc
    have hc : allNan p.data = true := by simpa using hc
    obtain ⟨v, hv, h1⟩ := hn
    obtain ⟨i, hi⟩ := List.getElem?_of_mem hv
    unfold balance at hi
    rw [List.getElem?_zipWith] at hi
    cases h2 : p.data[i]? with
    | none => rw [h2] at hi; cases hi
    | some a =>
      cases h3 : e.data[i]? with
      | none => rw [h2, h3] at hi; cases hi
      | some b =>
        rw [h2, h3] at hi
        simp only [Option.some.injEq] at hi
        rw [eq_nan_of_allNan _ hc i a h2] at hi
        rw [← hi] at h1
        simp at h1
  have hnb : allNan (Arr.of1d (balance p.data e.data)).data = false := allNan_false hn
  rw [spei_eq E p e scale dist per ds cs ce fp hnp hlen, spi_eq E _ scale dist ds cs ce per _ (Or.inr rfl) hnb, clipNeg_id _ hp]
  have hnb' : (Arr.of1d (balance p.data e.data)).data = balance p.data e.data := rfl
  rw [hnb', clipNeg_id _ hb]
  simp only [bind, Except.bind]
  cases hs : sumToScale (balance p.data e.data) scale with
  | error err => rfl
  | ok s =>
    have hk : p.data.length ≤ s.length := by
      have := sumToScale_length_ge _ _ _ hs
      rwa [balance_length _ _ hlen] at this
    have := distTransform_1d_2d E s dist ds cs ce per (normFitdict fp) hper p.data.length hk
    simp only [balance_length _ _ hlen]
    simp only [Except.bind] at this
    cases h1 : distTransform E (Arr.of1d s) dist ds cs ce per (normFitdict fp) with
    | error err =>
      rw [h1] at this
      cases h2 : reshapeValues (Arr.of1d s) per with
      | error err' => rw [h2] at this; cases this; rfl
      | ok a =>
        rw [h2] at this
        simp only at this ⊢
        cases h3 : distTransform E a dist ds cs ce per (normFitdict fp) with
        | error err' => rw [h3] at this; cases this; rfl
        | ok t => rw [h3] at this; cases this
    | ok t1 =>
      rw [h1] at this
      cases h2 : reshapeValues (Arr.of1d s) per with
      | error err' => rw [h2] at this; cases this
      | ok a =>
        rw [h2] at this
        simp only at this ⊢
        cases h3 : distTransform E a dist ds cs ce per (normFitdict fp) with
        | error err' => rw [h3] at this; cases this
        | ok t =>
          rw [h3] at this
          simp only [Except.map, Except.ok.injEq] at this
          simp only [pure, Except.pure, Except.map, this]

/-- **C89 (order).** Under the hypotheses of `C89_partial`: within one calendar step a larger accumulated water balance never gets a smaller gamma SPEI (rounded arithmetic, computed or
supplied parameters). -/
theorem C89_gamma_mono [FloatLaws F] [FloatMono F] (E : Ext F) (hE : ExtNan E) (hM : ExtMono E) (p e acc : Arr F) (scale : Int) (per : Periodicity) (ds cs ce : Int)
    (fp : Option (FitDict F)) (hlen : p.data.length = e.data.length) (hp : ∀ v ∈ p.data, flt v (lit 0) = false)
    (hb : ∀ v ∈ balance p.data e.data, flt v (lit 0) = false) (hn : ∃ v ∈ balance p.data e.data, isNan v = false)
    (hper : per ≠ .other) (hs : scaleValues (Arr.of1d (balance p.data e.data)) scale per = .ok acc) (hsize : acc.data.length ≤ 2 ^ 53)
    (out : Arr F) (h : spei E p e scale .gamma per ds cs ce fp = .ok out)
    (i k : Nat) (hik : i % per.steps = k % per.steps) (a b u v : F)
    (ha : acc.data[i]? = some a) (hb' : acc.data[k]? = some b) (hab : fle a b = true)
    (hu : out.data[i]? = some u) (hv : out.data[k]? = some v) (hun : u ≠ nan) (hvn : v ≠ nan) : fle u v = true := by
  rw [C89_partial E p e scale .gamma per ds cs ce fp hlen hp hb hn hper] at h
  cases hspi : spi E (Arr.of1d (balance p.data e.data)) scale .gamma ds cs ce per (normFitdict fp) with
  | error err => rw [hspi] at h; cases h
  | ok l =>
    rw [hspi] at h
    cases h
    exact C15_gamma E hE hM (Arr.of1d (balance p.data e.data)) acc scale ds cs ce per (normFitdict fp) l hn hs hsize hspi i k hik a b u v ha hb' hab hu hv hun hvn

end

/-- five years of precipitation against an evapotranspiration of 1000: the hypotheses are met and the common result is not constant -/
example : (∀ v ∈ five1, flt v (lit 0) = false) ∧ (∀ v ∈ balance five1 (List.replicate 60 (fin 1000)), flt v (lit 0) = false) ∧
    (∃ v ∈ balance five1 (List.replicate 60 (fin (1000 : ℚ))), isNan v = false) ∧
    okAnd (spei toyExt (Arr.of1d five1) (Arr.of1d (List.replicate 60 (fin 1000))) 1 .gamma .monthly 1990 1990 1994 none)
      (fun o => decide (o.data.length = 60 ∧ o.data[5]? = some (fin (3.09 : ℚ)) ∧ o.data[17]? = some (fin (2.4 : ℚ)))) = true := by
  refine ⟨by decide +kernel, by decide +kernel, ?_, by decide +kernel⟩
  exact ⟨fin 15, by decide +kernel, rfl⟩

/-- **C89 needs the balance not to be below -1000**: with an evapotranspiration of 2000 in the first month `spei` keeps the negative number (the month gets -3.09), while `spi` of the same
series replaces it by zero and reports no value for the month. -/
theorem C89_negative_fails :
    let e : List (Fl ℚ) := (List.replicate 60 (fin 3)).set 0 (fin 2000)
    okAnd (spei toyExt (Arr.of1d five1) (Arr.of1d e) 1 .gamma .monthly 1990 1990 1994 none) (fun o => decide (o.data[0]? = some (fin (-3.09 : ℚ)))) = true ∧
    okAnd (spi toyExt (Arr.of1d (balance five1 e)) 1 .gamma 1990 1990 1994 .monthly none) (fun o => decide (o[0]? = some (nan : Fl ℚ))) = true := by
  constructor <;> decide +kernel

end CI.Props
