import Verif.Model.OldScipy
import Verif.Lemmas.SpiPipe
import Verif.Props.McKeePearson

/-!
# C109: the workaround for old releases of scipy

The comments at compute.py:504-517 say what the workaround is for: before scipy 1.6.0 the Pearson type III distribution
function came out as NaN outside the support, and as one minus the right value for negative skew.
-/

namespace CI.Props

variable {K : Type} [Field K] [LinearOrder K] [IsStrictOrderedRing K]

/-- `x` is at or beyond the end of the support of the distribution with these parameters -/
def beyond (x skew loc scale : Fl K) : Prop :=
  (fle x (minimumPossible skew loc scale) = true ∧ fle (lit 0) skew = true) ∨
  (fle (minimumPossible skew loc scale) x = true ∧ flt skew (lit 0) = true)

/-- How the functions `E'` of an old release of scipy differ from those of a new one, `E`, according to the comments in the code. -/
structure OldRelease (E E' : Ext (Fl K)) : Prop where
  ppf : E'.normPpf = E.normPpf
  outside : ∀ x skew loc scale, beyond x skew loc scale → E'.pearson3Cdf x skew loc scale = nan
  inside : ∀ x skew loc scale, ¬ beyond x skew loc scale → flt skew (lit 0) = false → E'.pearson3Cdf x skew loc scale = E.pearson3Cdf x skew loc scale
  negative : ∀ x skew loc scale, ¬ beyond x skew loc scale → flt skew (lit 0) = true → E'.pearson3Cdf x skew loc scale = lit 1 - E.pearson3Cdf x skew loc scale

instance (x skew loc scale : Fl K) : Decidable (beyond x skew loc scale) := by unfold beyond; infer_instance

/-- an old release made from a new one -/
def oldOf (E : Ext (Fl K)) : Ext (Fl K) :=
  { E with pearson3Cdf := fun x skew loc scale =>
      if beyond x skew loc scale then nan
      else if flt skew (lit 0) = true then lit 1 - E.pearson3Cdf x skew loc scale else E.pearson3Cdf x skew loc scale }

/-- old releases exist for all special functions -/
theorem oldOf_release (E : Ext (Fl K)) : OldRelease E (oldOf E) where
  ppf := rfl
  outside x skew loc scale h := by simp [oldOf, h]
  inside x skew loc scale h h' := by simp [oldOf, h, h']
  negative x skew loc scale h h' := by simp [oldOf, h, h']

theorem one_sub_one_sub (c : Fl K) : (lit 1 : Fl K) - (lit 1 - c) = c := by
  cases c with
  | fin a =>
    rw [Fl.lit_def, Fl.fin_sub, Fl.fin_sub]
    congr 1; ring
  | _ => rfl

theorem prob_old (E E' : Ext (Fl K)) (hE : OldRelease E E') (q : PearsonParams (Fl K)) (x : Fl K) (hx : flt x (lit 0.0005) = false) :
    pearsonProbOld1 E' q x = pearsonProb1 E q x := by
  unfold pearsonProbOld1 pearsonProb1
  simp only [hx, Bool.false_and, Bool.false_eq_true, if_false]
  by_cases hb : beyond x q.skew q.loc q.scale
  · rw [hE.outside _ _ _ _ hb]
    rcases hb with ⟨h1, h2⟩ | ⟨h1, h2⟩
    · have h3 : flt q.skew (lit 0) = false := by
        rw [Fl.lit_def] at h2 ⊢
        cases hs : q.skew with
        | fin a => rw [hs, Fl.fle_fin] at h2; rw [Fl.flt_fin]; simpa using h2
        | nan => rfl
        | pinf => rfl
        | ninf => rw [hs] at h2; cases h2
      simp [h1, h2, h3]
    · have h3 : fle (lit 0) q.skew = false := by
        rw [Fl.lit_def] at h2 ⊢
        cases hs : q.skew with
        | fin a => rw [hs, Fl.flt_fin] at h2; rw [Fl.fle_fin]; simpa using h2
        | nan => rfl
        | pinf => rw [hs] at h2; cases h2
        | ninf => rfl
      simp only [h1, h2, h3, Bool.and_false, Bool.false_and, Bool.false_eq_true, if_false, Bool.and_self, Bool.true_and, if_true]
      simp only [show isNan (nan : Fl K) = true from rfl, if_true]
      rw [Fl.lit_def, Fl.lit_def, Fl.lit_def, Fl.fin_sub]
      congr 1; push_cast; norm_num
  · have h1 : (fle x (minimumPossible q.skew q.loc q.scale) && fle (lit 0) q.skew) = false := by
      by_contra h; exact hb (Or.inl (by simpa using h))
    have h2 : (fle (minimumPossible q.skew q.loc q.scale) x && flt q.skew (lit 0)) = false := by
      by_contra h; exact hb (Or.inr (by simpa using h))
    simp only [h1, h2, Bool.false_and, Bool.false_eq_true, if_false]
    cases hs : flt q.skew (lit 0) with
    | false => simp [hE.inside _ _ _ _ hb hs]
    | true => simp only [if_true]; rw [hE.negative _ _ _ _ hb hs, one_sub_one_sub]

theorem fit_old (E E' : Ext (Fl K)) (hE : OldRelease E E') (data : List (Fl K)) (hd : ∀ x ∈ data, flt x (lit 0.0005) = false)
    (ps : List (PearsonParams (Fl K))) : pearsonFitOld E' data ps = pearsonFit E data ps := by
  have : List.zipWith (fun x q => pearsonProbOld1 E' q x) data ps = List.zipWith (fun x q => pearsonProb1 E q x) data ps := by
    induction data generalizing ps with
    | nil => rfl
    | cons x l ih =>
      cases ps with
      | nil => rfl
      | cons q ps =>
        simp only [List.zipWith_cons_cons]
        rw [prob_old E E' hE q x (hd x (by simp)), ih (fun y hy => hd y (by simp [hy]))]
  unfold pearsonFitOld pearsonFit
  rw [this, hE.ppf]

theorem reshape_mem (values : Arr (Fl K)) (c : ℕ) (v : Arr (Fl K)) (h : reshapeTo2d values c = .ok v) (x : Fl K) (hx : x ∈ v.data) :
    x ∈ values.data ∨ x = nan := by
  unfold reshapeTo2d at h
  split at h
  · split at h
    · cases h; exact Or.inl hx
    · cases h
  · split at h
    · cases h
    · cases h
      simp only at hx
      split at hx
      · rcases List.mem_append.1 hx with hx | hx
        · exact Or.inl hx
        · exact Or.inr (List.eq_of_mem_replicate hx)
      · exact Or.inl hx
  · cases h

theorem validate_mem (values v : Arr (Fl K)) (per : Periodicity) (h : validateArray values per = .ok v) (x : Fl K) (hx : x ∈ v.data) :
    x ∈ values.data ∨ x = nan := by
  unfold validateArray at h
  split at h
  · split at h
    · exact reshape_mem _ _ _ h x hx
    · exact reshape_mem _ _ _ h x hx
    · cases h
  · split at h
    · cases h; exact Or.inl hx
    · cases h
  · cases h

/-- **C109 (partial).** If no value lies below 0.0005 (missing values are allowed), an old release of scipy with the workaround
gives exactly the index that a new release gives: for every array, every calibration period, computed parameters and parameters
supplied for each calendar step, and also the same exceptions. Exact arithmetic. -/
theorem C109_partial (E E' : Ext (Fl K)) (hE : OldRelease E E') (fit : List (Fl K) → Res (Fl K × Fl K × Fl K)) (values : Arr (Fl K))
    (hv : ∀ x ∈ values.data, flt x (lit 0.0005) = false) (ds cs ce : ℤ) (per : Periodicity) (args : PearsonArgs (Fl K))
    (ha : ∀ s, args.skews = some s → s.length ≠ 1) :
    transformFittedPearsonOld E' fit values ds cs ce per args = transformFittedPearson E fit values ds cs ce per args := by
  unfold transformFittedPearsonOld transformFittedPearson
  simp only
  split
  · rfl
  · split
    · rfl
    · cases hval : validateArray values per with
      | error e => rfl
      | ok v =>
        have hd : ∀ x ∈ v.data, flt x (lit 0.0005) = false := by
          intro x hx
          rcases validate_mem _ _ _ hval x hx with h | rfl
          · exact hv x h
          · rfl
        simp only [bind, Except.bind, pure, Except.pure]
        obtain ⟨sh, dat⟩ := v
        simp only at hd
        rcases sh with _ | ⟨n, _ | ⟨p, _ | _⟩⟩ <;> try rfl
        simp only [fit_old E E' hE dat hd]
        obtain ⟨a, b, c, d⟩ := args
        rcases a with _ | a <;> rcases b with _ | b <;> rcases c with _ | c <;> rcases d with _ | d <;> try rfl
        simp only
        cases h1 : bcast p a with
        | error e => rfl
        | ok a' =>
          cases h2 : bcast p b with
          | error e => rfl
          | ok b' =>
            cases h3 : bcast p c with
            | error e => rfl
            | ok c' =>
              cases h4 : bcast p d with
              | error e => rfl
              | ok d' =>
                have hl : d.length = p := by
                  unfold bcast at h4
                  split at h4
                  · assumption
                  · split at h4
                    · exact absurd rfl (ha _ rfl)
                    · cases h4
                simp [hl]

/-- years of precipitation without dry months: both releases give the index, with values inside and outside the support and both signs of the skew -/
example : (∀ x ∈ five1, flt x (lit 0.0005) = false) ∧
    okAnd (transformFittedPearsonOld (oldOf toyExt) (lmomentsFit toyExt) ⟨[5, 12], five1⟩ 1990 1990 1994 .monthly ⟨none, none, none, none⟩)
      (fun out => out.data.any (fun v => !isNan v)) = true ∧
    okAnd (pearsonParameters (lmomentsFit toyExt) ⟨[5, 12], five1⟩ 1990 1990 1994 .monthly) (fun ps =>
      decide ((∃ q ∈ ps, flt q.skew (lit 0) = true) ∧ ∃ q ∈ ps, flt (lit 0) q.skew = true)) = true := by decide +kernel

theorem fitOld_value (E : Ext (Fl K)) (data : List (Fl K)) (ps : List (PearsonParams (Fl K))) (i : ℕ) (x : Fl K) (q : PearsonParams (Fl K))
    (hx : data[i]? = some x) (hq : ps[i]? = some q) (hxn : x ≠ nan) (hpn : pearsonProbOld1 E q x ≠ nan) :
    (pearsonFitOld E data ps)[i]? = some (E.normPpf (npClip (lit 0) (lit 1) (q.probZero + (lit 1 - q.probZero) * pearsonProbOld1 E q x))) := by
  have hv : (List.zipWith (fun x q => pearsonProbOld1 E q x) data ps)[i]? = some (pearsonProbOld1 E q x) := by
    rw [List.getElem?_zipWith, hx, hq]
  unfold pearsonFitOld
  rw [if_neg, if_neg, List.getElem?_zipWith, hv, hq]
  · intro h
    unfold allNan at h
    rw [List.all_eq_true] at h
    exact hpn ((FloatLaws.isNan_iff _).1 (h _ (List.mem_of_getElem? hv)))
  · intro h
    unfold allNan at h
    rw [List.all_eq_true] at h
    exact hxn ((FloatLaws.isNan_iff _).1 (h _ (List.mem_of_getElem? hx)))

theorem fitNew_value (E : Ext (Fl K)) (data : List (Fl K)) (ps : List (PearsonParams (Fl K))) (i : ℕ) (x : Fl K) (q : PearsonParams (Fl K))
    (hx : data[i]? = some x) (hq : ps[i]? = some q) (hxn : x ≠ nan) (hpn : pearsonProb1 E q x ≠ nan) :
    (pearsonFit E data ps)[i]? = some (E.normPpf (npClip (lit 0) (lit 1) (q.probZero + (lit 1 - q.probZero) * pearsonProb1 E q x))) := by
  have hv : (List.zipWith (fun x q => pearsonProb1 E q x) data ps)[i]? = some (pearsonProb1 E q x) := by
    rw [List.getElem?_zipWith, hx, hq]
  unfold pearsonFit
  rw [if_neg, if_neg, List.getElem?_zipWith, hv, hq]
  · intro h
    unfold allNan at h
    rw [List.all_eq_true] at h
    exact hpn ((FloatLaws.isNan_iff _).1 (h _ (List.mem_of_getElem? hv)))
  · intro h
    unfold allNan at h
    rw [List.all_eq_true] at h
    exact hxn ((FloatLaws.isNan_iff _).1 (h _ (List.mem_of_getElem? hx)))

theorem transformOld_fit (E : Ext (Fl K)) (fit : List (Fl K) → Res (Fl K × Fl K × Fl K)) (n p : Nat) (data : List (Fl K))
    (ds cs ce : Int) (per : Periodicity) (hper : per ≠ .other) (hp : per.steps = p) (hn : allNan data = false) :
    transformFittedPearsonOld E fit ⟨[n, p], data⟩ ds cs ce per ⟨none, none, none, none⟩ =
      (match pearsonParameters fit ⟨[n, p], data⟩ ds cs ce per with
       | .error e => .error e
       | .ok ps => .ok ⟨[n, p], pearsonFitOld E data (tile n ps)⟩) := by
  have hp' : p = 12 ∨ p = 366 := by
    cases per <;> simp [Periodicity.steps] at hp hper <;> omega
  unfold transformFittedPearsonOld
  simp only [Option.isNone_none, Bool.and_self, Bool.or_self, Bool.not_true, Bool.and_false,
    Bool.false_eq_true, if_false, hn, validateArray_2d n p data per hp', bind, Except.bind, pure, Except.pure]
  rw [pearsonParameters_2d fit n p data _ _ _ per hper hp, pearsonParameters_2d fit n p data _ _ _ per hper hp]
  unfold pearsonFits
  simp only [calibrationValues_adjust]
  cases List.mapM (m := Res) (fun j => calculateTimeStepParams fit
    (stride p j (calibrationValues data n p ds cs ce))) (List.range p) <;> rfl

/-- **C109 is false** for calendar steps with negative skew and some dry years: with an old release of scipy every dry value
(`x < 0.0005`) gets the probability 1, as if it were the wettest value possible (the probability 0 of a dry value is set before "one
minus" is taken for negative skew); with a new release it gets the probability of zero. Every array of whole years, every
calibration period, all special functions (`E'` old, `E` new). -/
theorem C109_negative_fails (E E' : Ext (Fl K)) (fit : List (Fl K) → Res (Fl K × Fl K × Fl K)) (n p : ℕ) (data : List (Fl K))
    (hdata : data.length = n * p) (ds cs ce : ℤ) (per : Periodicity) (hper : per ≠ .other) (hp : per.steps = p)
    (ps : List (PearsonParams (Fl K))) (hps : pearsonParameters fit ⟨[n, p], data⟩ ds cs ce per = .ok ps)
    (i : ℕ) (x p0 : K) (hx : data[i]? = some (.fin x)) (hx5 : x < ((0.0005 : ℚ) : K)) (q : PearsonParams (Fl K)) (hq : ps[i % p]? = some q)
    (hp0 : q.probZero = .fin p0) (h0 : 0 < p0) (h1 : p0 < 1) (hskew : flt q.skew (lit 0) = true)
    (hin : fle (minimumPossible q.skew q.loc q.scale) (.fin x) = false) (old new : Arr (Fl K))
    (ho : transformFittedPearsonOld E' fit ⟨[n, p], data⟩ ds cs ce per ⟨none, none, none, none⟩ = .ok old)
    (hn : transformFittedPearson E fit ⟨[n, p], data⟩ ds cs ce per ⟨none, none, none, none⟩ = .ok new) :
    old.data[i]? = some (E'.normPpf (.fin 1)) ∧ new.data[i]? = some (E.normPpf (.fin p0)) := by
  have hnan : allNan data = false := allNan_false ⟨_, List.mem_of_getElem? hx, rfl⟩
  have hpl : ps.length = p := by
    rw [pearsonParameters_2d fit n p data _ _ _ per hper hp] at hps
    exact pearsonFits_length _ _ _ _ _ _ _ _ hps
  have hi : i < n * p := by
    rw [← hdata]; exact (List.getElem?_eq_some_iff.1 hx).1
  have hq' : (tile n ps)[i]? = some q := by
    rw [tile_getElem? n ps i (by rw [hpl]; exact hi), hpl, hq]
  rw [transformOld_fit E' fit n p data ds cs ce per hper hp hnan, hps] at ho
  rw [transformFittedPearson_fit E fit n p data ds cs ce per hper hp hnan, ← pearsonParameters_2d fit n p data _ _ _ per hper hp, hps] at hn
  cases ho
  cases hn
  have hskew' : fle (lit 0) q.skew = false := by
    rw [Fl.lit_def] at hskew ⊢
    cases hs : q.skew with
    | fin a => rw [hs, Fl.flt_fin] at hskew; rw [Fl.fle_fin]; simpa using hskew
    | nan => rfl
    | pinf => rw [hs] at hskew; cases hskew
    | ninf => rfl
  have hz : flt (Fl.fin x) (lit 0.0005) = true := by rw [Fl.lit_def, Fl.flt_fin]; simpa using hx5
  have hp1 : flt (lit 0) q.probZero = true := by rw [Fl.lit_def, hp0, Fl.flt_fin]; simpa using h0
  have hp2 : fle q.probZero (lit 0) = false := by rw [Fl.lit_def, hp0, Fl.fle_fin]; simpa using h0
  have e1 : pearsonProbOld1 E' q (.fin x) = .fin 1 := by
    unfold pearsonProbOld1
    have : isNan (lit 0 : Fl K) = false := rfl
    simp only [hz, hp1, hp2, hskew, hskew', Bool.and_false, Bool.and_true, Bool.false_and, if_true, Bool.false_eq_true, if_false, this]
    simp [Fl.lit_def]
  have e2 : pearsonProb1 E q (.fin x) = .fin 0 := by
    unfold pearsonProb1
    simp only [hz, hp1, hp2, hskew, hskew', hin, Bool.and_false, Bool.and_true, if_true, Bool.false_eq_true, if_false]
    simp [Fl.lit_def]
  constructor
  · rw [fitOld_value E' data _ i _ q hx hq' (by intro h; cases h) (by rw [e1]; intro h; cases h), e1, hp0]
    have : npClip (lit 0) (lit 1) (Fl.fin p0 + (lit 1 - Fl.fin p0) * Fl.fin 1) = (Fl.fin 1 : Fl K) := by
      unfold npClip
      simp [Fl.lit_def]
    rw [this]
  · rw [fitNew_value E data _ i _ q hx hq' (by intro h; cases h) (by rw [e2]; intro h; cases h), e2, hp0]
    have : npClip (lit 0) (lit 1) (Fl.fin p0 + (lit 1 - Fl.fin p0) * Fl.fin 0) = (Fl.fin p0 : Fl K) := by
      unfold npClip
      simp [Fl.lit_def, not_lt.2 h0.le, not_lt.2 h1.le]
    rw [this]

/-- **C109 is false** also for positive skew: a dry value at or below the lower end of the support (which is positive for most
climates) gets the probability of zero `p0` from an old release and `p0 + (1 - p0) * 0.0005` from a new one. -/
theorem C109_positive_fails (E E' : Ext (Fl K)) (fit : List (Fl K) → Res (Fl K × Fl K × Fl K)) (n p : ℕ) (data : List (Fl K))
    (hdata : data.length = n * p) (ds cs ce : ℤ) (per : Periodicity) (hper : per ≠ .other) (hp : per.steps = p)
    (ps : List (PearsonParams (Fl K))) (hps : pearsonParameters fit ⟨[n, p], data⟩ ds cs ce per = .ok ps)
    (i : ℕ) (x p0 : K) (hx : data[i]? = some (.fin x)) (hx5 : x < ((0.0005 : ℚ) : K)) (q : PearsonParams (Fl K)) (hq : ps[i % p]? = some q)
    (hp0 : q.probZero = .fin p0) (h0 : 0 < p0) (h1 : p0 < 1) (hskew : fle (lit 0) q.skew = true)
    (hout : fle (.fin x) (minimumPossible q.skew q.loc q.scale) = true) (old new : Arr (Fl K))
    (ho : transformFittedPearsonOld E' fit ⟨[n, p], data⟩ ds cs ce per ⟨none, none, none, none⟩ = .ok old)
    (hn : transformFittedPearson E fit ⟨[n, p], data⟩ ds cs ce per ⟨none, none, none, none⟩ = .ok new) :
    old.data[i]? = some (E'.normPpf (.fin p0)) ∧ new.data[i]? = some (E.normPpf (.fin (p0 + (1 - p0) * ((0.0005 : ℚ) : K)))) := by
  have hnan : allNan data = false := allNan_false ⟨_, List.mem_of_getElem? hx, rfl⟩
  have hpl : ps.length = p := by
    rw [pearsonParameters_2d fit n p data _ _ _ per hper hp] at hps
    exact pearsonFits_length _ _ _ _ _ _ _ _ hps
  have hi : i < n * p := by
    rw [← hdata]; exact (List.getElem?_eq_some_iff.1 hx).1
  have hq' : (tile n ps)[i]? = some q := by
    rw [tile_getElem? n ps i (by rw [hpl]; exact hi), hpl, hq]
  rw [transformOld_fit E' fit n p data ds cs ce per hper hp hnan, hps] at ho
  rw [transformFittedPearson_fit E fit n p data ds cs ce per hper hp hnan, ← pearsonParameters_2d fit n p data _ _ _ per hper hp, hps] at hn
  cases ho
  cases hn
  have hskew' : flt q.skew (lit 0) = false := by
    rw [Fl.lit_def] at hskew ⊢
    cases hs : q.skew with
    | fin a => rw [hs, Fl.fle_fin] at hskew; rw [Fl.flt_fin]; simpa using hskew
    | nan => rfl
    | pinf => rfl
    | ninf => rw [hs] at hskew; cases hskew
  have hz : flt (Fl.fin x) (lit 0.0005) = true := by rw [Fl.lit_def, Fl.flt_fin]; simpa using hx5
  have hp1 : flt (lit 0) q.probZero = true := by rw [Fl.lit_def, hp0, Fl.flt_fin]; simpa using h0
  have hp2 : fle q.probZero (lit 0) = false := by rw [Fl.lit_def, hp0, Fl.fle_fin]; simpa using h0
  have e1 : pearsonProbOld1 E' q (.fin x) = .fin 0 := by
    unfold pearsonProbOld1
    have : isNan (lit 0 : Fl K) = false := rfl
    simp only [hz, hp1, hp2, hskew, hskew', Bool.and_false, Bool.and_true, Bool.false_and, if_true, Bool.false_eq_true, if_false, this]
    simp [Fl.lit_def]
  have e2 : pearsonProb1 E q (.fin x) = .fin ((0.0005 : ℚ) : K) := by
    unfold pearsonProb1
    simp only [hz, hp1, hp2, hskew, hskew', hout, Bool.and_false, Bool.and_true, if_true, Bool.false_eq_true, if_false]
    simp [Fl.lit_def]
  have h5 : (0 : K) ≤ ((0.0005 : ℚ) : K) := by exact_mod_cast (by norm_num : (0 : ℚ) ≤ 0.0005)
  have h6 : ((0.0005 : ℚ) : K) ≤ 1 := by exact_mod_cast (by norm_num : (0.0005 : ℚ) ≤ 1)
  have b1 : 0 ≤ p0 + (1 - p0) * ((0.0005 : ℚ) : K) := by
    have := mul_nonneg (sub_nonneg.2 h1.le) h5; linarith
  have b2 : p0 + (1 - p0) * ((0.0005 : ℚ) : K) ≤ 1 := by
    have := mul_le_mul_of_nonneg_left h6 (sub_nonneg.2 h1.le); linarith
  constructor
  · rw [fitOld_value E' data _ i _ q hx hq' (by intro h; cases h) (by rw [e1]; intro h; cases h), e1, hp0]
    have : npClip (lit 0) (lit 1) (Fl.fin p0 + (lit 1 - Fl.fin p0) * Fl.fin 0) = (Fl.fin p0 : Fl K) := by
      unfold npClip
      simp [Fl.lit_def, not_lt.2 h0.le, not_lt.2 h1.le]
    rw [this]
  · rw [fitNew_value E data _ i _ q hx hq' (by intro h; cases h) (by rw [e2]; intro h; cases h), e2, hp0]
    have : npClip (lit 0) (lit 1) (Fl.fin p0 + (lit 1 - Fl.fin p0) * Fl.fin ((0.0005 : ℚ) : K)) = (Fl.fin (p0 + (1 - p0) * ((0.0005 : ℚ) : K)) : Fl K) := by
      unfold npClip
      simp only [Fl.lit_def, Fl.fin_sub, Fl.fin_mul, Fl.fin_add, Rat.cast_one, Rat.cast_zero, Fl.flt_fin]
      rw [show isNan (Fl.fin (p0 + (1 - p0) * ((0.0005 : ℚ) : K)) : Fl K) = false from rfl]
      simp only [decide_eq_false (not_lt.2 b1), decide_eq_false (not_lt.2 b2), Bool.false_eq_true, if_false]
    rw [this]

/-- five Januaries with one dry month; the skew is negative -/
def dryNegative : List (Fl ℚ) := ((((five1.set 0 (.fin 0)).set 12 (.fin 8)).set 24 (.fin 9)).set 36 (.fin 10)).set 48 (.fin 10)

/-- five Januaries with one dry month; the skew is positive -/
def dryPositive : List (Fl ℚ) := ((((five1.set 0 (.fin 0)).set 12 (.fin 1)).set 24 (.fin 1)).set 36 (.fin 1)).set 48 (.fin 30)

/-- The dry January gets the probability 1/5 from the new release and 1 from the old one (`toyExt` has the quantile `8 p - 4`). -/
example : okAnd (pearsonParameters (lmomentsFit toyExt) ⟨[5, 12], dryNegative⟩ 1990 1990 1994 .monthly) (fun ps =>
      match ps[0]? with
      | some q => flt q.skew (lit 0) && !fle (minimumPossible q.skew q.loc q.scale) (.fin 0) && decide (q.probZero = .fin (1 / 5))
      | none => false) = true ∧
    okAnd (transformFittedPearsonOld (oldOf toyExt) (lmomentsFit toyExt) ⟨[5, 12], dryNegative⟩ 1990 1990 1994 .monthly ⟨none, none, none, none⟩) (fun old =>
      okAnd (transformFittedPearson toyExt (lmomentsFit toyExt) ⟨[5, 12], dryNegative⟩ 1990 1990 1994 .monthly ⟨none, none, none, none⟩) (fun new =>
        decide (old.data[0]? = some (toyExt.normPpf (.fin 1)) ∧ new.data[0]? = some (toyExt.normPpf (.fin (1 / 5))) ∧ old.data[0]? ≠ new.data[0]?))) = true := by
  decide +kernel

example : okAnd (pearsonParameters (lmomentsFit toyExt) ⟨[5, 12], dryPositive⟩ 1990 1990 1994 .monthly) (fun ps =>
      match ps[0]? with
      | some q => fle (lit 0) q.skew && fle (.fin 0) (minimumPossible q.skew q.loc q.scale) && decide (q.probZero = .fin (1 / 5))
      | none => false) = true ∧
    okAnd (transformFittedPearsonOld (oldOf toyExt) (lmomentsFit toyExt) ⟨[5, 12], dryPositive⟩ 1990 1990 1994 .monthly ⟨none, none, none, none⟩) (fun old =>
      okAnd (transformFittedPearson toyExt (lmomentsFit toyExt) ⟨[5, 12], dryPositive⟩ 1990 1990 1994 .monthly ⟨none, none, none, none⟩) (fun new =>
        decide (old.data[0]? = some (toyExt.normPpf (.fin (1 / 5))) ∧ old.data[0]? ≠ new.data[0]?))) = true := by
  decide +kernel

end CI.Props
