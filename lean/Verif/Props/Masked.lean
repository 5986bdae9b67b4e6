import Verif.Model.Masked
import Verif.Props.SpiMono
import Verif.Props.Pnp

/-!
# C110, C111: masked arrays
-/

namespace CI.Props
variable {F : Type} [FloatOps F] [FloatLaws F]

/-- the values of a masked array as a plain array: NaN at the masked places (`a.filled(np.nan)`) -/
def filledNan (a : MArr F) : List F := List.zipWith (fun v m => if m then nan else v) a.data a.mask

theorem shown_mem (a : MArr F) (v : F) (h : v ∈ a.shown) : v ∈ a.data := by
  unfold MArr.shown at h
  obtain ⟨q, hq, he⟩ := List.mem_filterMap.1 h
  split at he
  · cases he
  · cases he; exact (List.of_mem_zip hq).1

theorem amin_nonneg (l : List F) (m : F) (hl : ∀ v ∈ l, flt v (lit 0) = false) (h : amin l = .ok m) : flt m (lit 0) = false := by
  have h0 : ∀ (l : List F) (m : F), flt m (lit 0) = false → (∀ v ∈ l, flt v (lit 0) = false) →
      flt (l.foldl (fun m y => if flt y m then y else m) m) (lit 0) = false := by
    intro l
    induction l with
    | nil => intro m hm _; exact hm
    | cons a l ih =>
      intro m hm hl
      simp only [List.foldl_cons]
      apply ih
      · split
        · exact hl a (by simp)
        · exact hm
      · intro v hv; exact hl v (by simp [hv])
  unfold amin at h
  cases l with
  | nil => cases h
  | cons a l =>
    simp only at h
    split at h
    · cases h; simp
    · cases h
      exact h0 l a (hl a (by simp)) (fun v hv => hl v (by simp [hv]))

theorem shown_not_allMasked (a : MArr F) (h : ∃ v ∈ a.shown, isNan v = false) : (a.allMasked || allNan a.shown) = false := by
  obtain ⟨v, hv, hn⟩ := h
  rw [allNan_false ⟨v, hv, hn⟩, Bool.or_false]
  unfold MArr.shown at hv
  obtain ⟨q, hq, he⟩ := List.mem_filterMap.1 hv
  unfold MArr.allMasked
  rw [Bool.and_eq_false_iff]
  right
  rw [List.all_eq_false]
  refine ⟨q.2, (List.of_mem_zip hq).2, ?_⟩
  intro h
  rw [if_pos (show q.2 = true from h)] at he
  cases he

/-- a plain array as masked array without masked values -/
def plain (l : List F) : MArr F := ⟨[l.length], l, List.replicate l.length false⟩

/-- **C110 is false**: for scales of at least 2 the mask is ignored. For every masked array with at least one visible number and
without negative values, the SPI is that of the data with the values under the mask taken as precipitation (all arrays, masks, scales,
distributions, calibration periods, fitting parameters, special functions; also the same exceptions). -/
theorem C110_spi_fails (E : Ext F) (a : MArr F) (hs : ∃ v ∈ a.shown, isNan v = false) (hneg : ∀ v ∈ a.data, flt v (lit 0) = false)
    (k : ℕ) (dist : Distribution) (ds cs ce : ℤ) (per : Periodicity) (fp : Option (FitDict F)) :
    spiMasked E a k dist ds cs ce per fp = (spi E ⟨a.shape, a.data⟩ (k + 2) dist ds cs ce per fp).map plain := by
  by_cases hdim : a.shape.length = 2 ∨ a.shape.length = 1
  · obtain ⟨v, hv, hvn⟩ := hs
    have hn : allNan a.data = false := allNan_false ⟨v, shown_mem a v hv, hvn⟩
    have hne : a.shown ≠ [] := List.ne_nil_of_mem hv
    obtain ⟨m, hm⟩ := amin_ok a.shown hne
    have hm0 := amin_nonneg _ _ (fun w hw => hneg w (shown_mem a w hw)) hm
    rw [spi_eq E ⟨a.shape, a.data⟩ (k + 2) dist ds cs ce per fp hdim hn, clipNeg_id a.data hneg]
    unfold spiMasked
    rw [if_pos hdim, shown_not_allMasked a ⟨v, hv, hvn⟩]
    simp only [Bool.false_eq_true, if_false, hm, hm0, bind, Except.bind, pure, Except.pure]
    cases sumToScale a.data (k + 2) with
    | error e => rfl
    | ok scaled =>
      cases per
      · simp only [reshapeValues]
        cases reshapeTo2d (Arr.of1d scaled) 12 with
        | error e => rfl
        | ok b =>
          cases dist
          · simp only [distTransform, bind, Except.bind]
            cases getPearsonArgs fp with
            | error e => rfl
            | ok q =>
              simp only
              cases transformFittedPearson E (lmomentsFit E) b ds cs ce .monthly q <;> rfl
          · simp only [distTransform, bind, Except.bind]
            cases getGammaArgs fp with
            | error e => rfl
            | ok q =>
              simp only
              cases transformFittedGamma E b ds cs ce .monthly q.1 q.2 <;> rfl
          · rfl
      · simp only [reshapeValues]
        cases reshapeTo2d (Arr.of1d scaled) 366 with
        | error e => rfl
        | ok b =>
          cases dist
          · simp only [distTransform, bind, Except.bind]
            cases getPearsonArgs fp with
            | error e => rfl
            | ok q =>
              simp only
              cases transformFittedPearson E (lmomentsFit E) b ds cs ce .daily q <;> rfl
          · simp only [distTransform, bind, Except.bind]
            cases getGammaArgs fp with
            | error e => rfl
            | ok q =>
              simp only
              cases transformFittedGamma E b ds cs ce .daily q.1 q.2 <;> rfl
          · rfl
      · rfl
  · unfold spiMasked spi
    rw [if_neg hdim, if_neg hdim]
    rfl

/-- **C110 (partial).** If the data under the mask are NaN and no visible value is negative, masked values are treated as missing: the SPI
is that of the array with NaN at the masked places. Entirely masked arrays are returned unchanged. -/
theorem C110_spi_partial (E : Ext F) (a : MArr F) (hnan : filledNan a = a.data) (hneg : ∀ v ∈ a.shown, flt v (lit 0) = false)
    (hlen : a.mask.length = a.data.length) (k : ℕ) (dist : Distribution) (ds cs ce : ℤ) (per : Periodicity) (fp : Option (FitDict F)) :
    ((∃ v ∈ a.shown, isNan v = false) →
      spiMasked E a k dist ds cs ce per fp = (spi E ⟨a.shape, filledNan a⟩ (k + 2) dist ds cs ce per fp).map plain) ∧
    ((a.shape.length = 2 ∨ a.shape.length = 1) → a.mask ≠ [] → (∀ m ∈ a.mask, m = true) →
      spiMasked E a k dist ds cs ce per fp = .ok ⟨[a.data.length], a.data, a.mask⟩) := by
  constructor
  · intro hs
    rw [hnan]
    apply C110_spi_fails E a hs
    intro v hv
    obtain ⟨i, hi⟩ := List.getElem?_of_mem hv
    have hi' := (List.getElem?_eq_some_iff.1 hi).1
    have hm : a.mask[i]? = some a.mask[i] := List.getElem?_eq_getElem (by omega)
    cases hb : a.mask[i] with
    | true =>
      have : (filledNan a)[i]? = some nan := by
        unfold filledNan
        rw [List.getElem?_zipWith, hi, hm, hb]
        rfl
      rw [hnan, hi] at this
      cases this
      simp
    | false =>
      apply hneg
      unfold MArr.shown
      refine List.mem_filterMap.2 ⟨(v, false), ?_, rfl⟩
      rw [hb] at hm
      exact List.mem_of_getElem? (i := i) (by rw [List.getElem?_zip_eq_some]; exact ⟨hi, hm⟩)
  · intro hdim hne hall
    unfold spiMasked
    rw [if_pos hdim]
    have : a.allMasked = true := by
      unfold MArr.allMasked
      rw [Bool.and_eq_true, List.any_eq_true, List.all_eq_true]
      constructor
      · cases hm : a.mask with
        | nil => exact absurd hm hne
        | cons b l => exact ⟨b, by simp, hall b (by simp [hm])⟩
      · intro b hb; exact hall b hb
    rw [this]
    rfl

/-- five years of precipitation; the 21st month is masked, with the fill value 9999 under the mask -/
def oneMasked : MArr (Fl ℚ) := ⟨[60], five1.set 20 (.fin 9999), (List.replicate 60 false).set 20 true⟩

/-- **C110 is false**, a case: at scale 2 the masked month and the month after it get the SPI 3.09 (extremely wet)
instead of a missing value. -/
theorem C110_fails :
    okAnd (spiMasked toyExt oneMasked 0 .pearson 1990 1990 1994 .monthly none) (fun out =>
      okAnd (spi toyExt (Arr.of1d (filledNan oneMasked)) 2 .pearson 1990 1990 1994 .monthly none) (fun wish =>
        decide (wish[20]? = some .nan ∧ wish[21]? = some .nan ∧ out.data[20]? = some (.fin 3.09) ∧ out.data[21]? = some (.fin 3.09)))) = true := by decide +kernel

/-- **C110 is false** for the percentage of normal, for every record and scale of at least 2: unless everything is masked, two arrays with
the same data and any two masks give the same result. -/
theorem C110_pnp_fails (d : List F) (m m' : List Bool) (hm : (⟨[d.length], d, m⟩ : MArr F).allMasked = false)
    (hm' : (⟨[d.length], d, m'⟩ : MArr F).allMasked = false) (k : ℕ) (ds cs ce : ℤ) (per : Periodicity) :
    pnpMasked ⟨[d.length], d, m⟩ k ds cs ce per = pnpMasked ⟨[d.length], d, m'⟩ k ds cs ce per := by
  unfold pnpMasked
  simp [hm, hm']

/-- the fill value appears in the percentage of normal: 9999 mm is taken as rain of the masked month -/
example : okAnd (pnpMasked oneMasked 0 1990 1990 1994 .monthly) (fun out =>
      okAnd (percentageOfNormal (filledNan oneMasked) (some 2) 1990 1990 1994 .monthly) (fun wish =>
        decide (wish[20]? = some .nan ∧ out.data[20]? ≠ some .nan ∧ out.data[32]? ≠ wish[32]?))) = true ∧
    oneMasked.allMasked = false ∧ (∃ v ∈ oneMasked.shown, isNan v = false) ∧ (∀ v ∈ oneMasked.data, flt v (lit 0) = false) := by decide +kernel

/-- NaN under the mask: the hypotheses of `C110_spi_partial` -/
example : let a : MArr (Fl ℚ) := ⟨[60], five1.set 20 .nan, (List.replicate 60 false).set 20 true⟩
    filledNan a = a.data ∧ (∀ v ∈ a.shown, flt v (lit 0) = false) ∧ a.mask.length = a.data.length ∧ (∃ v ∈ a.shown, isNan v = false) ∧
    okAnd (spiMasked toyExt a 0 .pearson 1990 1990 1994 .monthly none) (fun out => decide (out.data[20]? = some .nan ∧ out.data[32]? ≠ some .nan)) = true := by
  decide +kernel

/-! ## C111 -/

/-- **C111 (plain arrays).** A plain array is valid exactly if it has an element that is not NaN. -/
theorem C111_plain (l : List F) : isDataValid l = true ↔ ∃ v ∈ l, v ≠ nan := by
  unfold isDataValid
  rw [Bool.not_eq_true', List.all_eq_false]
  constructor
  · rintro ⟨v, hv, h⟩
    exact ⟨v, hv, fun e => h ((FloatLaws.isNan_iff v).2 e)⟩
  · rintro ⟨v, hv, h⟩
    exact ⟨v, hv, fun e => h ((FloatLaws.isNan_iff v).1 e)⟩

/-- **C111 (masked arrays, partial).** A masked array with a visible number is valid, an entirely masked one is not. -/
theorem C111_masked_partial (a : MArr F) :
    ((∃ (i : ℕ) (v : F), a.data[i]? = some v ∧ a.mask[i]? = some false ∧ v ≠ nan) → isDataValidMasked a = true) ∧
    ((∀ m ∈ a.mask, m = true) → isDataValidMasked a = false) := by
  constructor
  · rintro ⟨i, v, hv, hm, -⟩
    have : v ∈ a.shown := by
      unfold MArr.shown
      refine List.mem_filterMap.2 ⟨(v, false), ?_, rfl⟩
      exact List.mem_of_getElem? (i := i) (by rw [List.getElem?_zip_eq_some]; exact ⟨hv, hm⟩)
    unfold isDataValidMasked
    rw [decide_eq_true_iff]
    exact fun h => List.ne_nil_of_mem this (List.length_eq_zero_iff.1 h)
  · intro h
    have : a.shown = [] := by
      unfold MArr.shown
      rw [List.filterMap_eq_nil_iff]
      intro q hq
      rw [if_pos (h q.2 (List.of_mem_zip hq).2)]
    unfold isDataValidMasked
    rw [this]
    rfl

/-- **C111 is false for masked arrays**: a masked array with any visible element is reported as valid, even if all visible elements are NaN. -/
theorem C111_masked_fails (a : MArr F) (hs : a.shown ≠ []) (_ : ∀ v ∈ a.shown, v = nan) : isDataValidMasked a = true := by
  unfold isDataValidMasked
  rw [decide_eq_true_iff]
  exact fun h => hs (List.length_eq_zero_iff.1 h)

example : let a : MArr (Fl ℚ) := ⟨[3], [.nan, .fin 5, .nan], [false, true, false]⟩
    a.shown ≠ [] ∧ (∀ v ∈ a.shown, v = nan) ∧ isDataValidMasked a = true ∧ isDataValid (filledNan a) = false ∧
    isDataValid [Fl.nan, .fin (2 : ℚ)] = true ∧ isDataValidMasked ⟨[1], [Fl.fin (5 : ℚ)], [true]⟩ = false := by decide +kernel

end CI.Props
