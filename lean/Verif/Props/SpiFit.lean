import Verif.Lemmas.SpiFit
import Verif.Props.SpiBasic

/-!
# C12, C13, C14, C18: what the fit uses

Generic float type (IEEE arithmetic), arbitrary special functions that map NaN to NaN.
-/

namespace CI.Props

variable {F : Type} [FloatOps F] [FloatLaws F]

/-! ## C12 -/

omit [FloatLaws F] in
theorem sumToScale_len (x : List F) (scale : Int) (s : List F) (h : sumToScale x scale = .ok s) :
    s.length = if scale ≤ x.length then x.length else if scale = 1 then x.length else 2 * scale.toNat - x.length := by
  unfold sumToScale at h
  split at h
  · cases h; split <;> simp_all
  · rename_i h1
    unfold convolveOnes at h
    split at h
    · cases h
    · rename_i h2
      by_cases hk : scale.toNat ≤ x.length
      · simp only [bind, Except.bind, pure, Except.pure, hk, if_true] at h
        cases h
        rw [if_pos (by omega)]
        simp only [List.length_append, List.length_replicate, List.length_map, List.length_range]; omega
      · simp only [bind, Except.bind, pure, Except.pure, hk, if_false] at h
        cases h
        rw [if_neg (by omega), if_neg h1]
        simp only [List.length_append, List.length_replicate]; omega

omit [FloatLaws F] in
theorem scaleValues_eq (values : Arr F) (scale : Int) (per : Periodicity) (a : Arr F)
    (hn : allNan values.data = false) (h : scaleValues values scale per = .ok a) :
    (values.shape.length = 2 ∨ values.shape.length = 1) ∧
    ∃ s, sumToScale (clipNeg values.data) scale = .ok s ∧ reshapeValues (Arr.of1d s) per = .ok a := by
  obtain ⟨m, hm⟩ := amin_ok _ (ne_nil_of_allNan _ hn)
  have hc : clipNeg values.data =
      if flt m (lit 0) then values.data.map (npClipMin (lit 0)) else values.data := by
    unfold clipNeg; rw [hm]
  unfold scaleValues at h
  split at h
  · rename_i hdim
    refine ⟨hdim, ?_⟩
    rw [hc]
    simp only [hn, Bool.false_eq_true, if_false, hm, bind, Except.bind] at h
    split at h
    · cases h
    · rename_i s hs
      refine ⟨s, hs, ?_⟩
      cases per <;> exact h
  · cases h

/-- what a successful `spi` computes, in terms of `scale_values` -/
theorem spi_scaled (E : Ext F) (hE : ExtNan E) (values a : Arr F) (scale : Int) (dist : Distribution)
    (ds cs ce : Int) (per : Periodicity) (fp : Option (FitDict F)) (out : List F)
    (hn : ∃ v ∈ values.data, isNan v = false) (hs : scaleValues values scale per = .ok a)
    (h : spi E values scale dist ds cs ce per fp = .ok out) :
    per ≠ .other ∧ out.length = values.data.length ∧ ∃ n t, a = ⟨[n, per.steps], a.data⟩ ∧
      a.data.length = n * per.steps ∧ values.data.length ≤ a.data.length ∧
      distTransform E ⟨[n, per.steps], a.data⟩ dist ds cs ce per fp = .ok t ∧
      (∃ s, sumToScale (clipNeg values.data) scale = .ok s ∧ s.length ≤ a.data.length ∧ a.data.length < s.length + 366) ∧
      ∀ i, i < values.data.length → out[i]? = (t.data[i]?).map (npClip (lit (-3.09)) (lit 3.09)) := by
  have l1 := C10_size E hE _ _ _ _ _ _ _ _ _ h
  obtain ⟨hper, s, n, t, hs', hl, ht, hout⟩ := spi_point E _ _ _ _ _ _ _ _ _ (allNan_false hn) h
  obtain ⟨_, s2, hs2, hr⟩ := scaleValues_eq values scale per a (allNan_false hn) hs
  rw [hs'] at hs2
  cases hs2
  obtain ⟨n', hr', hl'⟩ := reshapeValues_total s per hper
  rw [hr] at hr'
  cases hr'
  have hp := steps_pos per hper
  have hnn : n = n' := by rw [hl] at hl'; exact Nat.eq_of_mul_eq_mul_right hp hl'
  subst hnn
  refine ⟨hper, l1, n, t, rfl, hl, ?_, ht, ⟨s, hs', ?_, ?_⟩, hout⟩
  · have := sumToScale_length_ge _ _ _ hs'
    rw [clipNeg_length] at this
    simp only [List.length_append]; omega
  · simp only [List.length_append]; omega
  · have h2 : padCount s.length per.steps < per.steps := by unfold padCount; split <;> omega
    have : per.steps ≤ 366 := by rcases steps_12_366 per hper with h | h <;> omega
    simp only [List.length_append, List.length_replicate]; omega

omit [FloatLaws F] in
theorem scaled_length (x y : List F) (scale : Int) (per : Periodicity) (ax ay : Arr F) (hper : per ≠ .other)
    (hlen : x.length = y.length) (hx : ∃ v ∈ x, isNan v = false) (hy : ∃ v ∈ y, isNan v = false)
    (hsx : scaleValues (Arr.of1d x) scale per = .ok ax) (hsy : scaleValues (Arr.of1d y) scale per = .ok ay) :
    ax.data.length = ay.data.length := by
  obtain ⟨_, s, hs, hr⟩ := scaleValues_eq _ scale per ax (allNan_false hx) hsx
  obtain ⟨_, s', hs', hr'⟩ := scaleValues_eq _ scale per ay (allNan_false hy) hsy
  obtain ⟨n, e, _⟩ := reshapeValues_total s per hper
  obtain ⟨n', e', _⟩ := reshapeValues_total s' per hper
  rw [hr] at e; rw [hr'] at e'
  cases e; cases e'
  have h1 := sumToScale_len (clipNeg x) _ _ hs
  have h2 := sumToScale_len (clipNeg y) _ _ hs'
  have : s.length = s'.length := by
    rw [h1, h2, clipNeg_length, clipNeg_length, hlen]
  simp [this]

/-- **C12.** Two accumulated arrays (years x calendar steps) that agree on calendar column `j` get identical
transformed values on that column; both distributions, any fitting parameters. (If the two calls raise there is
nothing to compare: the Pearson fit of another column can raise, see C26.) -/
theorem C12_columns (E : Ext F) (hE : ExtNan E) (n : Nat) (x y : List F) (dist : Distribution) (ds cs ce : Int)
    (per : Periodicity) (fp : Option (FitDict F)) (tx ty : Arr F) (j : Nat)
    (hper : per ≠ .other) (hx : x.length = n * per.steps) (hy : y.length = n * per.steps)
    (hagree : ∀ i, i % per.steps = j → x[i]? = y[i]?)
    (h1 : distTransform E ⟨[n, per.steps], x⟩ dist ds cs ce per fp = .ok tx)
    (h2 : distTransform E ⟨[n, per.steps], y⟩ dist ds cs ce per fp = .ok ty) :
    ∀ i, i % per.steps = j → tx.data[i]? = ty.data[i]? := by
  have l1 := (distTransform_point E hE n x dist ds cs ce per fp tx hper hx h1).1
  have l2 := (distTransform_point E hE n y dist ds cs ce per fp ty hper hy h2).1
  have hlen : x.length = y.length := by rw [hx, hy]
  intro i hij
  cases hxi : x[i]? with
  | none =>
    have hi := List.getElem?_eq_none_iff.1 hxi
    rw [List.getElem?_eq_none (by omega), List.getElem?_eq_none (by omega)]
  | some v =>
    have hyi : y[i]? = some v := by rw [← hagree i hij, hxi]
    cases dist with
    | other => cases h1
    | gamma =>
      unfold distTransform at h1 h2
      simp only [bind, Except.bind] at h1 h2
      cases hg : getGammaArgs fp with
      | error e => rw [hg] at h1; cases h1
      | ok ab =>
        rw [hg] at h1 h2
        rw [gamma_value E hE n x ds cs ce per _ _ tx hper hx h1 i v hxi,
          gamma_value E hE n y ds cs ce per _ _ ty hper hy h2 i v hyi]
        have hp0 : p0Col n (stride per.steps (i % per.steps) x) = p0Col n (stride per.steps (i % per.steps) y) := by
          rw [hij, stride_congr per.steps j x y hlen hagree]
        have hpar : gammaParamAt E n per.steps x ds cs ce ab.1 ab.2 (i % per.steps) =
            gammaParamAt E n per.steps y ds cs ce ab.1 ab.2 (i % per.steps) := by
          unfold gammaParamAt
          split
          · rfl
          · rw [hij, stride_calib_congr (x.map zeroToNan) (y.map zeroToNan) n per.steps j ds cs ce (by simp [hlen])]
            intro k hk
            rw [List.getElem?_map, List.getElem?_map, hagree k hk]
        rw [hp0, hpar]
    | pearson =>
      unfold distTransform at h1 h2
      simp only [bind, Except.bind] at h1 h2
      cases hg : getPearsonArgs fp with
      | error e => rw [hg] at h1; cases h1
      | ok args =>
        rw [hg] at h1 h2
        have hpar : pearsonParamAt (lmomentsFit E) n per.steps x ds cs ce args (i % per.steps) =
            pearsonParamAt (lmomentsFit E) n per.steps y ds cs ce args (i % per.steps) := by
          unfold pearsonParamAt
          split
          · rfl
          · rw [hij, stride_calib_congr x y n per.steps j ds cs ce hlen hagree]
        have nanx : ∀ z : List F, allNan z = true → z[i]? = some v → v = nan := fun z hz hzi =>
          eq_nan_of_allNan z hz i v hzi
        rcases pearson_value E hE _ n x ds cs ce per args tx hper hx h1 i v hxi with ⟨ha, hb⟩ | ⟨q, hq, hb⟩
        · have hv := nanx x ha hxi
          subst hv
          rcases pearson_value E hE _ n y ds cs ce per args ty hper hy h2 i nan hyi with ⟨_, hd⟩ | ⟨q', _, hd⟩
          · rw [hb, hd]
          · rw [hb, hd, pearsonTransform1_nan E hE]
        · rcases pearson_value E hE _ n y ds cs ce per args ty hper hy h2 i v hyi with ⟨hc, hd⟩ | ⟨q', hq', hd⟩
          · have hv := nanx y hc hyi
            subst hv
            rw [hb, hd, pearsonTransform1_nan E hE]
          · rw [hpar] at hq
            rw [hq] at hq'
            cases hq'
            rw [hb, hd]

/-- **C12 (spi).** Two series of the same length (each with at least one number) whose accumulated values
(`scale_values`) agree on calendar step `j` get the same SPI on that calendar step. -/
theorem C12_spi (E : Ext F) (hE : ExtNan E) (x y : List F) (scale : Int) (dist : Distribution) (ds cs ce : Int)
    (per : Periodicity) (fp : Option (FitDict F)) (ax ay : Arr F) (ox oy : List F) (j : Nat)
    (hlen : x.length = y.length) (hx : ∃ v ∈ x, isNan v = false) (hy : ∃ v ∈ y, isNan v = false)
    (hsx : scaleValues (Arr.of1d x) scale per = .ok ax) (hsy : scaleValues (Arr.of1d y) scale per = .ok ay)
    (hagree : ∀ i, i % per.steps = j → ax.data[i]? = ay.data[i]?)
    (h1 : spi E (Arr.of1d x) scale dist ds cs ce per fp = .ok ox)
    (h2 : spi E (Arr.of1d y) scale dist ds cs ce per fp = .ok oy) :
    ∀ i, i % per.steps = j → ox[i]? = oy[i]? := by
  obtain ⟨hper, l1, n, t, e1, hl, _, ht, _, hout⟩ := spi_scaled E hE _ ax _ _ _ _ _ _ _ _ hx hsx h1
  obtain ⟨_, l2, n', t', e2, hl', _, ht', _, hout'⟩ := spi_scaled E hE _ ay _ _ _ _ _ _ _ _ hy hsy h2
  have hll := scaled_length x y scale per ax ay hper hlen hx hy hsx hsy
  have hnn : n = n' := by
    rw [hl, hl'] at hll; exact Nat.eq_of_mul_eq_mul_right (steps_pos per hper) hll
  subst hnn
  simp only [Arr.of1d] at l1 l2 hout hout'
  intro i hi
  by_cases hb : i < x.length
  · rw [hout i hb, hout' i (by omega),
      C12_columns E hE n _ _ dist ds cs ce per fp t t' j hper hl hl' hagree ht ht' i hi]
  · rw [List.getElem?_eq_none (by omega), List.getElem?_eq_none (by omega)]

/-- demonstration data: five years of positive months -/
def five (f : Nat → Nat) : List (Fl ℚ) := (List.range 60).map (fun i => .fin ((f i : Nat) : ℚ))

def five1 : List (Fl ℚ) := five (fun i => ((i + 1) * (i + 3)) % 17 + 1)
/-- as `five1`, but all months other than January are different -/
def five2 : List (Fl ℚ) := five (fun i => if i % 12 = 0 then ((i + 1) * (i + 3)) % 17 + 1 else (i * i) % 23 + 2)

example : (∀ i < 60, i % 12 = 0 → five1[i]? = five2[i]?) ∧ five1 ≠ five2 ∧
    okAnd (distTransform toyExt ⟨[5, 12], five1⟩ .pearson 1990 1990 1994 .monthly none) (fun _ => true) = true ∧
    okAnd (distTransform toyExt ⟨[5, 12], five2⟩ .pearson 1990 1990 1994 .monthly none) (fun _ => true) = true ∧
    okAnd (distTransform toyExt ⟨[5, 12], five2⟩ .gamma 1990 1990 1994 .monthly none) (fun _ => true) = true := by
  decide +kernel

/-! ## C13 -/

omit [FloatOps F] [FloatLaws F] in
/-- same calibration years, same calibration rows -/
theorem calib_eq (n : Nat) (x y : List F) (p : Nat) (ds cs ce : Int) (h1 : ds ≤ cs) (h2 : cs ≤ ce)
    (h3 : ce < ds + n) (hp : 0 < p)
    (hagree : ∀ i : Nat, cs ≤ ds + (i / p : Nat) → ds + (i / p : Nat) ≤ ce → x[i]? = y[i]?) :
    calibrationValues x n p ds cs ce = calibrationValues y n p ds cs ce := by
  rw [calibrationValues_within x n p ds cs ce h1 (by omega) (by omega),
    calibrationValues_within y n p ds cs ce h1 (by omega) (by omega)]
  apply slice_congr
  intro i hi hi'
  have a1 : (cs - ds).toNat ≤ i / p := (Nat.le_div_iff_mul_le hp).2 hi
  have a2 : i / p < (ce + 1 - ds).toNat := (Nat.div_lt_iff_lt_mul hp).2 hi'
  exact hagree i (by omega) (by omega)

omit [FloatLaws F] in
/-- **C13 (Pearson).** If two accumulated arrays agree on the calibration years (the period lies within the record),
then `pearson_parameters` gives the same result (parameters or exception). -/
theorem C13_pearson_params (E : Ext F) (n : Nat) (x y : List F) (ds cs ce : Int) (per : Periodicity)
    (hper : per ≠ .other) (h1 : ds ≤ cs) (h2 : cs ≤ ce) (h3 : ce < ds + n)
    (hagree : ∀ i : Nat, cs ≤ ds + (i / per.steps : Nat) → ds + (i / per.steps : Nat) ≤ ce → x[i]? = y[i]?) :
    pearsonParameters (lmomentsFit E) ⟨[n, per.steps], x⟩ ds cs ce per =
      pearsonParameters (lmomentsFit E) ⟨[n, per.steps], y⟩ ds cs ce per := by
  rw [pearsonParameters_2d _ n _ x ds cs ce per hper rfl, pearsonParameters_2d _ n _ y ds cs ce per hper rfl]
  unfold pearsonFits
  rw [calib_eq n x y per.steps ds cs ce h1 h2 h3 (steps_pos per hper) hagree]

/-- **C13 (Pearson).** ... and every value that is the same in both arrays gets the same index. -/
theorem C13_pearson_index (E : Ext F) (hE : ExtNan E) (n : Nat) (x y : List F) (ds cs ce : Int) (per : Periodicity)
    (tx ty : Arr F) (hper : per ≠ .other) (hx : x.length = n * per.steps) (hy : y.length = n * per.steps)
    (h1 : ds ≤ cs) (h2 : cs ≤ ce) (h3 : ce < ds + n)
    (hagree : ∀ i : Nat, cs ≤ ds + (i / per.steps : Nat) → ds + (i / per.steps : Nat) ≤ ce → x[i]? = y[i]?)
    (hok1 : transformFittedPearson E (lmomentsFit E) ⟨[n, per.steps], x⟩ ds cs ce per ⟨none, none, none, none⟩ = .ok tx)
    (hok2 : transformFittedPearson E (lmomentsFit E) ⟨[n, per.steps], y⟩ ds cs ce per ⟨none, none, none, none⟩ = .ok ty) :
    ∀ i : Nat, x[i]? = y[i]? → tx.data[i]? = ty.data[i]? := by
  have e := calib_eq n x y per.steps ds cs ce h1 h2 h3 (steps_pos per hper) hagree
  intro i hi
  cases hxi : x[i]? with
  | none =>
    have := List.getElem?_eq_none_iff.1 hxi
    have l1 := (distTransform_point E hE n x .pearson ds cs ce per none tx hper hx hok1).1
    have l2 := (distTransform_point E hE n y .pearson ds cs ce per none ty hper hy hok2).1
    rw [List.getElem?_eq_none (by omega), List.getElem?_eq_none (by omega)]
  | some v =>
    have hyi : y[i]? = some v := by rw [← hi, hxi]
    rcases pearson_value E hE _ n x ds cs ce per _ tx hper hx hok1 i v hxi with ⟨ha, hb⟩ | ⟨q, hq, hb⟩
    · have hv := eq_nan_of_allNan x ha i v hxi
      subst hv
      rcases pearson_value E hE _ n y ds cs ce per _ ty hper hy hok2 i nan hyi with ⟨_, hd⟩ | ⟨q', _, hd⟩
      · rw [hb, hd]
      · rw [hb, hd, pearsonTransform1_nan E hE]
    · rcases pearson_value E hE _ n y ds cs ce per _ ty hper hy hok2 i v hyi with ⟨hc, hd⟩ | ⟨q', hq', hd⟩
      · have hv := eq_nan_of_allNan y hc i v hyi
        subst hv
        rw [hb, hd, pearsonTransform1_nan E hE]
      · unfold pearsonParamAt at hq hq'
        simp only at hq hq'
        rw [e, hq'] at hq
        cases hq
        rw [hb, hd]

/-- **C13 (Pearson, spi).** Two series of the same length (each with at least one number) whose accumulated values
(`scale_values`) agree on the calibration years: wherever the accumulated values agree, the Pearson SPI agrees. -/
theorem C13_pearson_spi (E : Ext F) (hE : ExtNan E) (x y : List F) (scale ds cs ce : Int)
    (per : Periodicity) (ax ay : Arr F) (ox oy : List F)
    (hlen : x.length = y.length) (hx : ∃ v ∈ x, isNan v = false) (hy : ∃ v ∈ y, isNan v = false)
    (hsx : scaleValues (Arr.of1d x) scale per = .ok ax) (hsy : scaleValues (Arr.of1d y) scale per = .ok ay)
    (h1 : ds ≤ cs) (h2 : cs ≤ ce) (h3 : (ce - ds + 1) * per.steps ≤ ax.data.length)
    (hagree : ∀ i : Nat, cs ≤ ds + (i / per.steps : Nat) → ds + (i / per.steps : Nat) ≤ ce → ax.data[i]? = ay.data[i]?)
    (hok1 : spi E (Arr.of1d x) scale .pearson ds cs ce per none = .ok ox)
    (hok2 : spi E (Arr.of1d y) scale .pearson ds cs ce per none = .ok oy) :
    ∀ i : Nat, ax.data[i]? = ay.data[i]? → ox[i]? = oy[i]? := by
  obtain ⟨hper, l1, n, t, e1, hl, _, ht, _, hout⟩ := spi_scaled E hE _ ax _ _ _ _ _ _ _ _ hx hsx hok1
  obtain ⟨_, l2, n', t', e2, hl', _, ht', _, hout'⟩ := spi_scaled E hE _ ay _ _ _ _ _ _ _ _ hy hsy hok2
  have hp := steps_pos per hper
  have hll := scaled_length x y scale per ax ay hper hlen hx hy hsx hsy
  have hnn : n = n' := by rw [hl, hl'] at hll; exact Nat.eq_of_mul_eq_mul_right hp hll
  subst hnn
  have hce : ce < ds + n := by
    have a1 : (ce - ds + 1) * (per.steps : Int) ≤ (n : Int) * per.steps := by
      rw [← Nat.cast_mul, ← hl]; exact h3
    have := Int.le_of_mul_le_mul_right a1 (by exact_mod_cast hp)
    omega
  simp only [Arr.of1d] at l1 l2 hout hout'
  intro i hi
  by_cases hb : i < x.length
  · rw [hout i hb, hout' i (by omega),
      C13_pearson_index E hE n _ _ ds cs ce per t t' hper hl hl' h1 h2 hce hagree ht ht' i hi]
  · rw [List.getElem?_eq_none (by omega), List.getElem?_eq_none (by omega)]

/-- `five1` with January of the last year replaced by zero -/
def five1z : List (Fl ℚ) := five1.set 48 (.fin 0)

example : (∀ i < 60, (1990 : Int) ≤ 1990 + (i / 12 : Nat) → 1990 + (i / 12 : Nat) ≤ 1993 → five1[i]? = five1z[i]?) ∧
    okAnd (transformFittedPearson toyExt (lmomentsFit toyExt) ⟨[5, 12], five1⟩ 1990 1990 1993 .monthly ⟨none, none, none, none⟩)
      (fun _ => true) = true ∧
    okAnd (transformFittedPearson toyExt (lmomentsFit toyExt) ⟨[5, 12], five1z⟩ 1990 1990 1993 .monthly ⟨none, none, none, none⟩)
      (fun _ => true) = true := by decide +kernel

/-- **C13 (gamma, partial).** Full statement: the parameters and the index of an unchanged value do not depend on data
outside the calibration years. For gamma the parameters alpha and beta have this property; the index has it
only if the number of zeros in the calendar column of the *whole* record is unchanged (`C13_fails`). -/
theorem C13_gamma_partial (E : Ext F) (hE : ExtNan E) (n : Nat) (x y : List F) (ds cs ce : Int) (per : Periodicity)
    (tx ty : Arr F) (hper : per ≠ .other) (hx : x.length = n * per.steps) (hy : y.length = n * per.steps)
    (h1 : ds ≤ cs) (h2 : cs ≤ ce) (h3 : ce < ds + n)
    (hagree : ∀ i : Nat, cs ≤ ds + (i / per.steps : Nat) → ds + (i / per.steps : Nat) ≤ ce → x[i]? = y[i]?)
    (hok1 : transformFittedGamma E ⟨[n, per.steps], x⟩ ds cs ce per none none = .ok tx)
    (hok2 : transformFittedGamma E ⟨[n, per.steps], y⟩ ds cs ce per none none = .ok ty) :
    gammaParameters E ⟨[n, per.steps], x⟩ ds cs ce per = gammaParameters E ⟨[n, per.steps], y⟩ ds cs ce per ∧
    ∀ i : Nat, x[i]? = y[i]? →
      (stride per.steps (i % per.steps) x).countP (fun v => feq v (lit 0)) =
        (stride per.steps (i % per.steps) y).countP (fun v => feq v (lit 0)) →
      tx.data[i]? = ty.data[i]? := by
  have e : calibrationValues (x.map zeroToNan) n per.steps ds cs ce =
      calibrationValues (y.map zeroToNan) n per.steps ds cs ce := by
    rw [calibrationValues_map, calibrationValues_map,
      calib_eq n x y per.steps ds cs ce h1 h2 h3 (steps_pos per hper) hagree]
  constructor
  · rw [gammaParameters_fits E hE n x ds cs ce per hper, gammaParameters_fits E hE n y ds cs ce per hper]
    unfold gammaFits
    rw [e]
  · intro i hi hz
    cases hxi : x[i]? with
    | none =>
      have := List.getElem?_eq_none_iff.1 hxi
      have l1 := (distTransform_point E hE n x .gamma ds cs ce per none tx hper hx hok1).1
      have l2 := (distTransform_point E hE n y .gamma ds cs ce per none ty hper hy hok2).1
      rw [List.getElem?_eq_none (by omega), List.getElem?_eq_none (by omega)]
    | some v =>
      have hyi : y[i]? = some v := by rw [← hi, hxi]
      rw [gamma_value E hE n x ds cs ce per _ _ tx hper hx hok1 i v hxi,
        gamma_value E hE n y ds cs ce per _ _ ty hper hy hok2 i v hyi]
      unfold p0Col gammaParamAt
      simp only
      rw [hz, e]

/-- **C13 is false for gamma**: the two series differ only in January 1994, the calibration period is 1990-1993,
and the SPI of January 1990 differs. -/
theorem C13_fails :
    (∀ i < 60, i ≠ 48 → five1[i]? = five1z[i]?) ∧
    (spi toyExt (Arr.of1d five1) 1 .gamma 1990 1990 1993 .monthly none).toOption.map (·[0]?) ≠
      (spi toyExt (Arr.of1d five1z) 1 .gamma 1990 1990 1993 .monthly none).toOption.map (·[0]?) := by
  decide +kernel

/-! ## C14 -/

/-- **C14 (gamma).** When the requested period `cs..ce` lies within the record, the fit of the record is the fit of the
sub-record that consists of exactly the rows of the years `cs..ce`. -/
theorem C14_gamma_within (E : Ext F) (hE : ExtNan E) (n : Nat) (x : List F) (ds cs ce : Int) (per : Periodicity)
    (hper : per ≠ .other) (hx : x.length = n * per.steps) (h1 : ds ≤ cs) (h2 : cs ≤ ce) (h3 : ce < ds + n) :
    gammaParameters E ⟨[n, per.steps], x⟩ ds cs ce per =
      gammaParameters E ⟨[(ce - cs + 1).toNat, per.steps],
        (x.drop ((cs - ds).toNat * per.steps)).take ((ce - cs + 1).toNat * per.steps)⟩ cs cs ce per := by
  rw [gammaParameters_fits E hE _ _ ds cs ce per hper, gammaParameters_fits E hE _ _ cs cs ce per hper]
  have hsub : slice x ((cs - ds).toNat * per.steps) ((ce + 1 - ds).toNat * per.steps) =
      (x.drop ((cs - ds).toNat * per.steps)).take ((ce - cs + 1).toNat * per.steps) := by
    unfold slice
    rw [← Nat.sub_mul]
    congr 2; omega
  have hle : ((cs - ds).toNat + (ce - cs + 1).toNat) * per.steps ≤ n * per.steps :=
    Nat.mul_le_mul_right _ (by omega)
  rw [Nat.add_mul] at hle
  unfold gammaFits
  rw [calibrationValues_map, calibrationValues_map, calibrationValues_within x n _ ds cs ce h1 (by omega) (by omega),
    calibrationValues_within _ _ _ cs cs ce (le_refl _) (by omega) (by omega), hsub]
  have e1 : (cs - cs).toNat * per.steps = 0 := by simp
  rw [e1, slice_all]
  rw [List.length_take, List.length_drop, hx]
  have : (ce + 1 - cs).toNat = (ce - cs + 1).toNat := by omega
  rw [this]; omega

omit [FloatLaws F] in
/-- **C14 (Pearson).** The same for `pearson_parameters`. -/
theorem C14_pearson_within (E : Ext F) (n : Nat) (x : List F) (ds cs ce : Int) (per : Periodicity)
    (hper : per ≠ .other) (hx : x.length = n * per.steps) (h1 : ds ≤ cs) (h2 : cs ≤ ce) (h3 : ce < ds + n) :
    pearsonParameters (lmomentsFit E) ⟨[n, per.steps], x⟩ ds cs ce per =
      pearsonParameters (lmomentsFit E) ⟨[(ce - cs + 1).toNat, per.steps],
        (x.drop ((cs - ds).toNat * per.steps)).take ((ce - cs + 1).toNat * per.steps)⟩ cs cs ce per := by
  rw [pearsonParameters_2d _ _ _ _ ds cs ce per hper rfl, pearsonParameters_2d _ _ _ _ cs cs ce per hper rfl]
  have hsub : slice x ((cs - ds).toNat * per.steps) ((ce + 1 - ds).toNat * per.steps) =
      (x.drop ((cs - ds).toNat * per.steps)).take ((ce - cs + 1).toNat * per.steps) := by
    unfold slice
    rw [← Nat.sub_mul]
    congr 2; omega
  have hle : ((cs - ds).toNat + (ce - cs + 1).toNat) * per.steps ≤ n * per.steps :=
    Nat.mul_le_mul_right _ (by omega)
  rw [Nat.add_mul] at hle
  unfold pearsonFits
  rw [calibrationValues_within x n _ ds cs ce h1 (by omega) (by omega),
    calibrationValues_within _ _ _ cs cs ce (le_refl _) (by omega) (by omega), hsub]
  have e1 : (cs - cs).toNat * per.steps = 0 := by simp
  rw [e1, slice_all]
  rw [List.length_take, List.length_drop, hx]
  have : (ce + 1 - cs).toNat = (ce - cs + 1).toNat := by omega
  rw [this]; omega

/-- **C14 (partial).** Full statement: a period that does not lie within the record leads to the use of all years. Proved
for periods that start before the record or end more than one year after it. It is false for periods that end
exactly one year after the record (`C14_fails_one_after`) or before it (`C14_fails_before`). -/
theorem C14_outside_partial (E : Ext F) (hE : ExtNan E) (n : Nat) (x : List F) (ds cs ce : Int) (per : Periodicity)
    (hper : per ≠ .other) (hx : x.length = n * per.steps) (h : cs < ds ∨ ds + n < ce) :
    gammaParameters E ⟨[n, per.steps], x⟩ ds cs ce per =
      gammaParameters E ⟨[n, per.steps], x⟩ ds ds (ds + n - 1) per ∧
    pearsonParameters (lmomentsFit E) ⟨[n, per.steps], x⟩ ds cs ce per =
      pearsonParameters (lmomentsFit E) ⟨[n, per.steps], x⟩ ds ds (ds + n - 1) per := by
  have e : ∀ (z : List F), z.length = n * per.steps →
      calibrationValues z n per.steps ds cs ce = calibrationValues z n per.steps ds ds (ds + n - 1) := by
    intro z hz
    rw [calibrationValues_outside z n _ ds cs ce h hz,
      calibrationValues_within z n _ ds ds (ds + n - 1) (le_refl _) (by omega) (by omega)]
    have e1 : (ds - ds).toNat * per.steps = 0 := by simp
    have e2 : (ds + n - 1 + 1 - ds).toNat = n := by omega
    rw [e1, e2, slice_all _ _ (by omega)]
  constructor
  · rw [gammaParameters_fits E hE _ _ ds cs ce per hper, gammaParameters_fits E hE _ _ ds ds _ per hper]
    unfold gammaFits
    rw [e _ (by simp [hx])]
  · rw [pearsonParameters_2d _ _ _ _ ds cs ce per hper rfl, pearsonParameters_2d _ _ _ _ ds ds _ per hper rfl]
    unfold pearsonFits
    rw [e _ hx]

example : five1.length = 5 * Periodicity.steps .monthly ∧ ((1989 : Int) < 1990 ∨ (1990 : Int) + 5 < 1994) := by
  decide +kernel

/-- **C14, periods that end exactly one year after the record** (for every record, both distributions): the years used are
those from the requested start up to the end of the record, not all years. -/
theorem C14_one_after (E : Ext F) (hE : ExtNan E) (n : Nat) (x : List F) (ds cs : Int) (per : Periodicity)
    (hper : per ≠ .other) (hx : x.length = n * per.steps) (h1 : ds ≤ cs) (h2 : cs ≤ ds + n) :
    gammaParameters E ⟨[n, per.steps], x⟩ ds cs (ds + n) per =
      gammaParameters E ⟨[n, per.steps], x⟩ ds cs (ds + n - 1) per ∧
    pearsonParameters (lmomentsFit E) ⟨[n, per.steps], x⟩ ds cs (ds + n) per =
      pearsonParameters (lmomentsFit E) ⟨[n, per.steps], x⟩ ds cs (ds + n - 1) per := by
  have e : ∀ (z : List F), calibrationValues z n per.steps ds cs (ds + n) = calibrationValues z n per.steps ds cs (ds + n - 1) := by
    intro z
    unfold calibrationValues rowSlice adjustCalibrationYears
    simp only
    rw [if_neg (by omega), if_neg (by omega)]
    simp only
    rw [sliceBound_nonneg _ (ds + n - ds + 1) (by omega), sliceBound_nonneg _ (ds + n - 1 - ds + 1) (by omega)]
    congr 2
    omega
  constructor
  · rw [gammaParameters_fits E hE _ _ ds cs _ per hper, gammaParameters_fits E hE _ _ ds cs _ per hper]
    unfold gammaFits
    rw [e]
  · rw [pearsonParameters_2d _ _ _ _ ds cs _ per hper rfl, pearsonParameters_2d _ _ _ _ ds cs _ per hper rfl]
    unfold pearsonFits
    rw [e]

example : five1.length = 5 * Periodicity.steps .monthly ∧ (1990 : Int) ≤ 1993 ∧ (1993 : Int) ≤ 1990 + 5 := by decide +kernel

/-- **C14, reversed periods that end at least two years before the record** (for every record, both distributions): the end counts
from the end of the record, the years used are those from the requested start to `ce + n`, `n` the number of years of the record. -/
theorem C14_before (E : Ext F) (hE : ExtNan E) (n : Nat) (x : List F) (ds cs ce : Int) (per : Periodicity)
    (hper : per ≠ .other) (h1 : ds ≤ cs) (h2 : ce + 1 < ds) (h3 : cs ≤ ce + n + 1) :
    gammaParameters E ⟨[n, per.steps], x⟩ ds cs ce per =
      gammaParameters E ⟨[n, per.steps], x⟩ ds cs (ce + n) per ∧
    pearsonParameters (lmomentsFit E) ⟨[n, per.steps], x⟩ ds cs ce per =
      pearsonParameters (lmomentsFit E) ⟨[n, per.steps], x⟩ ds cs (ce + n) per := by
  have e : ∀ (z : List F), calibrationValues z n per.steps ds cs ce = calibrationValues z n per.steps ds cs (ce + n) := by
    intro z
    unfold calibrationValues rowSlice adjustCalibrationYears
    simp only
    rw [if_neg (by omega), if_neg (by omega)]
    simp only
    rw [sliceBound_nonneg _ (ce + n - ds + 1) (by omega)]
    congr 2
    unfold sliceBound
    rw [if_pos (by omega)]
    omega
  constructor
  · rw [gammaParameters_fits E hE _ _ ds cs _ per hper, gammaParameters_fits E hE _ _ ds cs _ per hper]
    unfold gammaFits
    rw [e]
  · rw [pearsonParameters_2d _ _ _ _ ds cs _ per hper rfl, pearsonParameters_2d _ _ _ _ ds cs _ per hper rfl]
    unfold pearsonFits
    rw [e]

example : (1990 : Int) ≤ 1990 ∧ (1987 : Int) + 1 < 1990 ∧ (1990 : Int) ≤ 1987 + 5 + 1 := by decide

/-- **C14 is false** when the period ends exactly one year after the record: record 1990-1994, period 1993-1995; the
fit is that of 1993-1994, not that of the whole record. -/
theorem C14_fails_one_after :
    gammaParameters toyExt ⟨[5, 12], five1⟩ 1990 1993 1995 .monthly =
      gammaParameters toyExt ⟨[5, 12], five1⟩ 1990 1993 1994 .monthly ∧
    gammaParameters toyExt ⟨[5, 12], five1⟩ 1990 1993 1995 .monthly ≠
      gammaParameters toyExt ⟨[5, 12], five1⟩ 1990 1990 1994 .monthly := by decide +kernel

/-- **C14 is false** when the period ends before the record (reversed period): record 1990-1994, start 1990, end 1987;
the negative slice bound selects the years 1990-1992. -/
theorem C14_fails_before :
    gammaParameters toyExt ⟨[5, 12], five1⟩ 1990 1990 1987 .monthly =
      gammaParameters toyExt ⟨[5, 12], five1⟩ 1990 1990 1992 .monthly ∧
    gammaParameters toyExt ⟨[5, 12], five1⟩ 1990 1990 1987 .monthly ≠
      gammaParameters toyExt ⟨[5, 12], five1⟩ 1990 1990 1994 .monthly := by decide +kernel

/-! ## C18 -/

/-- **C18 (gamma).** `spi` with the parameters that `gamma_parameters` computes from `scale_values` of the same series
returns exactly what `spi` returns without parameters. -/
theorem C18_gamma (E : Ext F) (hE : ExtNan E) (values a : Arr F) (scale ds cs ce : Int) (per : Periodicity)
    (al be : List F) (hs : scaleValues values scale per = .ok a)
    (hp : gammaParameters E a ds cs ce per = .ok (al, be)) :
    spi E values scale .gamma ds cs ce per (some [("alpha", some al), ("beta", some be)]) =
      spi E values scale .gamma ds cs ce per none := by
  cases hn : allNan values.data with
  | true =>
    unfold spi
    simp only [hn, if_true]
  | false =>
    obtain ⟨hdim, s, hs1, hs2⟩ := scaleValues_eq values scale per a hn hs
    rw [spi_eq E values scale .gamma ds cs ce per none hdim hn,
      spi_eq E values scale .gamma ds cs ce per (some [("alpha", some al), ("beta", some be)]) hdim hn]
    obtain ⟨hper, n, hsh, hlen, hdata⟩ := reshapeValues_ok s per a hs2
    obtain ⟨sh, d⟩ := a
    simp only at hsh hdata hlen
    subst hsh
    simp only [bind, Except.bind, hs1, hs2]
    have hk : distTransform E ⟨[n, per.steps], d⟩ .gamma ds cs ce per (some [("alpha", some al), ("beta", some be)]) =
        distTransform E ⟨[n, per.steps], d⟩ .gamma ds cs ce per none := by
      show transformFittedGamma E ⟨[n, per.steps], d⟩ ds cs ce per (some al) (some be) =
        transformFittedGamma E ⟨[n, per.steps], d⟩ ds cs ce per none none
      cases hnd : allNan d with
      | true => unfold transformFittedGamma; simp only [hnd, if_true]
      | false =>
        rw [gammaParameters_fits E hE n d ds cs ce per hper] at hp
        injection hp with hp; injection hp with h1 h2
        have hl1 : al.length = per.steps := by rw [← h1, List.length_map, gammaFits_length]
        have hl2 : be.length = per.steps := by rw [← h2, List.length_map, gammaFits_length]
        have hin := innerGamma_fits E hE n d ds cs ce per hper
        rw [h1, h2] at hin
        rw [transformFittedGamma_given E n _ d ds cs ce per al be al be (steps_12_366 per hper) hnd
            (bcast_length _ _ hl1) (bcast_length _ _ hl2),
          transformFittedGamma_fit E n _ d ds cs ce per none none al be al be (steps_12_366 per hper) hnd (Or.inl rfl) hin
            (bcast_length _ _ hl1) (bcast_length _ _ hl2)]
    rw [hk]

example : okAnd (scaleValues (Arr.of1d demo) 3 .monthly) (fun a =>
    okAnd (gammaParameters toyExt a 1990 1991 1993 .monthly) (fun ab => decide (ab.1.length = 12 ∧ ab.1 ≠ ab.2))) = true := by
  decide +kernel

/-- the dictionary built from Pearson parameters -/
def pearsonDict (ps : List (PearsonParams F)) : FitDict F :=
  [("prob_zero", some (ps.map PearsonParams.probZero)), ("loc", some (ps.map PearsonParams.loc)),
   ("scale", some (ps.map PearsonParams.scale)), ("skew", some (ps.map PearsonParams.skew))]

omit [FloatOps F] [FloatLaws F] in
theorem zipParams_map (ps : List (PearsonParams F)) :
    zipParams (ps.map PearsonParams.probZero) (ps.map PearsonParams.loc) (ps.map PearsonParams.scale)
      (ps.map PearsonParams.skew) = ps := by
  unfold zipParams
  induction ps with
  | nil => rfl
  | cons q ps ih => simp only [List.map_cons, List.zip_cons_cons, List.zipWith_cons_cons]; rw [ih]

omit [FloatLaws F] in
/-- **C18 (Pearson).** The same with `pearson_parameters`. -/
theorem C18_pearson (E : Ext F) (values a : Arr F) (scale ds cs ce : Int) (per : Periodicity)
    (ps : List (PearsonParams F)) (hs : scaleValues values scale per = .ok a)
    (hp : pearsonParameters (lmomentsFit E) a ds cs ce per = .ok ps) :
    spi E values scale .pearson ds cs ce per (some (pearsonDict ps)) =
      spi E values scale .pearson ds cs ce per none := by
  cases hn : allNan values.data with
  | true =>
    unfold spi
    simp only [hn, if_true]
  | false =>
    obtain ⟨hdim, s, hs1, hs2⟩ := scaleValues_eq values scale per a hn hs
    rw [spi_eq E values scale .pearson ds cs ce per none hdim hn,
      spi_eq E values scale .pearson ds cs ce per (some (pearsonDict ps)) hdim hn]
    obtain ⟨hper, n, hsh, hlen, hdata⟩ := reshapeValues_ok s per a hs2
    obtain ⟨sh, d⟩ := a
    simp only at hsh hdata hlen
    subst hsh
    simp only [bind, Except.bind, hs1, hs2]
    have hk : distTransform E ⟨[n, per.steps], d⟩ .pearson ds cs ce per (some (pearsonDict ps)) =
        distTransform E ⟨[n, per.steps], d⟩ .pearson ds cs ce per none := by
      show transformFittedPearson E (lmomentsFit E) ⟨[n, per.steps], d⟩ ds cs ce per
          ⟨some (ps.map PearsonParams.probZero), some (ps.map PearsonParams.loc),
            some (ps.map PearsonParams.scale), some (ps.map PearsonParams.skew)⟩ =
        transformFittedPearson E (lmomentsFit E) ⟨[n, per.steps], d⟩ ds cs ce per ⟨none, none, none, none⟩
      cases hnd : allNan d with
      | true => unfold transformFittedPearson; simp [hnd]
      | false =>
        rw [pearsonParameters_2d _ n _ d ds cs ce per hper rfl] at hp
        have hl := pearsonFits_length _ _ _ _ _ _ _ _ hp
        rw [transformFittedPearson_given E _ n _ d ds cs ce per _ _ _ _ _ _ _ _ (steps_12_366 per hper) hnd
            (bcast_length _ _ (by rw [List.length_map, hl])) (bcast_length _ _ (by rw [List.length_map, hl]))
            (bcast_length _ _ (by rw [List.length_map, hl])) (bcast_length _ _ (by rw [List.length_map, hl])),
          zipParams_map, transformFittedPearson_fit E _ n _ d ds cs ce per hper rfl hnd, hp]
    rw [hk]

example : okAnd (scaleValues (Arr.of1d demo) 1 .monthly) (fun a =>
    okAnd (pearsonParameters (lmomentsFit toyExt) a 1990 1990 1994 .monthly) (fun ps => decide (ps.length = 12))) = true := by
  decide +kernel

end CI.Props
