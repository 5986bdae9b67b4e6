import Verif.Props.PearsonUnfit
import Verif.Props.ShortRecord
import Verif.Props.Float64Accum

/-!
# C141 in binary64 arithmetic: the Pearson SPI where no distribution can be fitted
-/

namespace CI.Props

open CI FloatOps FloatLaws B64 Spec Spec.McKee

variable {σ τ : SumOrder}

/-! ## Constants do not depend on the order of summation -/

/-- the same number for another order of summation -/
def recast : B64 σ → B64 τ
  | .nan => .nan
  | .inf s => .inf s
  | .fin s m h => .fin s m h

def code : B64 σ → ℕ × Bool × ℚ
  | .nan => (0, false, 0)
  | .inf s => (1, s, 0)
  | .fin s m _ => (2, s, m)

theorem code_inj {x y : B64 σ} (h : code x = code y) : x = y := by
  cases x <;> cases y <;> simp_all [code]

theorem code_recast (x : B64 σ) : code (recast x : B64 τ) = code x := by cases x <;> rfl

theorem recast_round (z : Bool) (q : ℚ) : (recast (B64.round z q : B64 σ) : B64 τ) = B64.round z q := by
  unfold B64.round
  dsimp only
  split <;> rfl

theorem recast_lit (q : ℚ) : (recast (lit q : B64 σ) : B64 τ) = lit q := recast_round false q

theorem recast_add (x y : B64 σ) : (recast (x + y) : B64 τ) = recast x + recast y := by
  show recast (B64.add x y) = B64.add (recast x) (recast y)
  cases x <;> cases y <;> simp only [B64.add, recast]
  · rename_i s t
    by_cases h : s = t <;> simp [h, recast]
  · exact recast_round _ _

theorem recast_sub (x y : B64 σ) : (recast (x - y) : B64 τ) = recast x - recast y := by
  have : (recast (B64.neg y) : B64 τ) = B64.neg (recast y) := by cases y <;> rfl
  show recast (x + B64.neg y) = recast x + B64.neg (recast y)
  rw [recast_add, this]

theorem recast_mul (x y : B64 σ) : (recast (x * y) : B64 τ) = recast x * recast y := by
  show recast (B64.mul x y) = B64.mul (recast x) (recast y)
  cases x <;> cases y <;> simp only [B64.mul, recast]
  · rename_i m _
    by_cases h : m = 0 <;> simp [h, recast]
  · rename_i m _ _
    by_cases h : m = 0 <;> simp [h, recast]
  · exact recast_round _ _

theorem recast_div (x y : B64 σ) : (recast (x / y) : B64 τ) = recast x / recast y := by
  show recast (B64.div x y) = B64.div (recast x) (recast y)
  cases x <;> cases y <;> simp only [B64.div, recast]
  rename_i _ a _ _ b _
  by_cases h : b = 0
  · by_cases h' : a = 0 <;> simp [h, h', recast]
  · rw [if_neg h, if_neg h]
    exact recast_round _ _

theorem by_code {x y : B64 σ} (h : code (recast x : B64 leftToRight) = code (recast y : B64 leftToRight)) : x = y := by
  rw [code_recast, code_recast] at h
  exact code_inj h

theorem minimum_unfit : minimumPossible (lit 0 : B64 σ) (lit 0) (lit 0) = B64.nan := by
  apply by_code
  unfold minimumPossible
  simp only [recast_sub, recast_div, recast_mul, recast_lit]
  show _ = (0, false, 0)
  decide +kernel

theorem trace_exact : (lit 0 : B64 σ) + (lit 1 - lit 0) * lit 0.0005 = lit 0.0005 := by
  apply by_code
  simp only [recast_add, recast_sub, recast_mul, recast_lit]
  decide +kernel

theorem ext_trace : ext (lit 0.0005 : B64 σ) = ext (lit 0.0005 : B64 leftToRight) := by
  show ext (B64.round false 0.0005) = ext (B64.round false 0.0005)
  rw [ext_round, ext_round]

theorem clip_trace : npClip (lit 0) (lit 1) (lit 0.0005 : B64 σ) = lit 0.0005 := by
  have h1 : flt (lit 0.0005 : B64 σ) (lit 0) = false := by
    show (Fl.le (ext (B64.round false 0.0005)) (ext (B64.round false 0)) && !Fl.le (ext (B64.round false 0)) (ext (B64.round false 0.0005))) = false
    rw [ext_round, ext_round]
    decide +kernel
  have h2 : flt (lit 1) (lit 0.0005 : B64 σ) = false := by
    show (Fl.le (ext (B64.round false 1)) (ext (B64.round false 0.0005)) && !Fl.le (ext (B64.round false 0.0005)) (ext (B64.round false 1))) = false
    rw [ext_round, ext_round]
    decide +kernel
  unfold npClip
  rw [h1, h2]
  simp

/-- the probability with four zeros as parameters -/
theorem transform_zero (E : Ext (B64 σ)) (hE : ExtNan E) (hcdf : ∀ v : B64 σ, E.pearson3Cdf v (lit 0) (lit 0) (lit 0) = nan) (u : B64 σ) :
    pearsonTransform1 E ⟨lit 0, lit 0, lit 0, lit 0⟩ u = if flt u (lit 0.0005) then E.normPpf (lit 0.0005) else nan := by
  have hm : fle u (B64.nan : B64 σ) = false := by
    show Fl.le (ext u) .nan = false
    cases ext u <;> rfl
  have h00 : fle (lit 0 : B64 σ) (lit 0) = true := by rw [fle_ext ext_lit_zero ext_lit_zero]; simp
  have h01 : flt (lit 0 : B64 σ) (lit 0) = false := by rw [flt_ext ext_lit_zero ext_lit_zero]; simp
  unfold pearsonTransform1 pearsonProb1
  dsimp only
  rw [minimum_unfit, hm, h00, h01, hcdf]
  cases flt u (lit 0.0005) with
  | true =>
    simp only [Bool.false_and, Bool.and_false, Bool.and_true, if_true, Bool.false_eq_true, if_false]
    rw [trace_exact, clip_trace]
  | false =>
    simp only [Bool.false_and, Bool.and_false, Bool.and_true, Bool.false_eq_true, if_false]
    have e : (lit 0 : B64 σ) + (lit 1 - lit 0) * nan = nan := by
      rw [FloatLaws.mul_nan, FloatLaws.add_nan]
    rw [e, npClip_nan, hE.normPpf_nan]

/-! ## The fit -/

theorem unfit_count (l : List (B64 σ)) (hl : ∀ v ∈ l, Rain v) :
    ((countZerosAndNonMissings l).2 : ℤ) - ((countZerosAndNonMissings l).1 : ℤ) = ((realAmounts l).length : ℤ) := by
  rw [C08_counts]
  unfold realAmounts amounts
  rw [List.length_map]
  induction l with
  | nil => rfl
  | cons v l ih =>
    have ih := ih fun w hw => hl w (List.mem_cons_of_mem _ hw)
    simp only at ih ⊢
    rcases hl v (by simp) with rfl | ⟨q, h1, h2, _⟩
    · rw [List.filter_cons_of_neg (by rw [Bool.not_eq_true]; rfl), List.filter_cons_of_neg (by rw [Bool.not_eq_true]; rfl)]
      simpa [List.filterMap_cons, ext] using ih
    · have hn : isNan v = false := by
        cases v <;> first | rfl | cases h1
      rcases h2 with h2 | h2
      · rw [List.filter_cons_of_pos (by rw [hn]; rfl), List.filter_cons_of_pos (by rw [feq_ext h1 ext_lit_zero]; simpa using h2), List.filterMap_cons]
        simp only [h1, h2, lt_irrefl, if_false, List.length_cons]
        push_cast
        omega
      · have hq : 0 < q := lt_of_lt_of_le (by positivity) h2
        rw [List.filter_cons_of_pos (by rw [hn]; rfl), List.filter_cons_of_neg (by rw [feq_ext h1 ext_lit_zero]; simpa using hq.ne'), List.filterMap_cons]
        simp only [h1, hq, if_true, List.length_cons]
        push_cast
        omega

theorem timeStep_unfit64 (fit : List (B64 σ) → Res (B64 σ × B64 σ × B64 σ)) (l : List (B64 σ)) (hl : ∀ v ∈ l, Rain v) (h4 : (realAmounts l).length < 4) :
    calculateTimeStepParams fit l = .ok ⟨lit 0, lit 0, lit 0, lit 0⟩ := by
  have := unfit_count l hl
  unfold calculateTimeStepParams
  generalize countZerosAndNonMissings l = q at this
  obtain ⟨z, m⟩ := q
  simp only at this ⊢
  rw [if_pos (by omega)]

/-- **C141 in binary64.** Wherever the calibration years have fewer than four positive accumulations of a calendar step, the Pearson SPI of that step in IEEE float64 arithmetic is the clamped quantile of
exactly the probability 0.0005 at accumulations below 0.0005, zeros included, and missing at the others. -/
theorem C141_float64 (E : Ext (B64 σ)) (hE : ExtNan E) (hcdf : ∀ v : B64 σ, E.pearson3Cdf v (lit 0) (lit 0) (lit 0) = nan)
    (x : List (B64 σ)) (hx : ∀ v ∈ x, StepAmount v) (k : ℕ) (h1 : 1 ≤ k) (h2 : k ≤ x.length) (per : Periodicity) (hper : per ≠ .other) (ds cs ce : ℤ) (c1 : ds ≤ cs) (c2 : cs ≤ ce)
    (c3 : ce < ds + yearsOf x.length per.steps) (hsome : ∃ v ∈ x, isNan v = false) (acc : List (B64 σ)) (hacc : sumToScale x k = .ok acc)
    (m : ℕ) (hm : (m : ℤ) = ce - cs + 1) (hxl : x.length ≤ 2 ^ 40) (out : List (B64 σ)) (ho : spi E (Arr.of1d x) k .pearson ds cs ce per none = .ok out)
    (t : ℕ) (u : B64 σ) (hu : acc[t]? = some u) (hnu : isNan u = false)
    (h4 : (wet (sample (acc.map real64) 1 per.steps (t % per.steps) (cs - ds).toNat m)).length < 4) :
    (flt u (lit 0.0005) = true → out[t]? = some (npClip (lit (-3.09)) (lit 3.09) (E.normPpf (lit 0.0005)))) ∧ (flt u (lit 0.0005) = false → out[t]? = some nan) := by
  have hp := steps_pos per hper
  have hr := sums_rain hx k h1 (h2.trans hxl) h2 acc hacc
  have hlen : acc.length = x.length := by
    obtain ⟨o, h3, h4, _⟩ := C07_windows_partial x k h1 h2
    rw [hacc] at h3
    cases h3
    exact h4
  have htx : t < x.length := by
    have := (List.getElem?_eq_some_iff.1 hu).1
    omega
  obtain ⟨_, s', n', tr, hs', hlen', htr, hout⟩ := spi_point E _ _ _ _ _ _ _ _ _ (allNan_false hsome) ho
  have hclip : clipNeg (Arr.of1d x).data = x := by
    apply clipNeg_id
    intro w hw
    rcases hx w hw with rfl | ⟨a, ha, ha2, _⟩
    · rfl
    · rw [flt_ext ha ext_lit_zero, decide_eq_false_iff_not, not_lt]
      rcases ha2 with ha2 | ha2
      · exact ha2.ge
      · exact le_trans (by positivity) ha2
  rw [hclip, hacc] at hs'
  cases hs'
  have hdata : acc.length + padCount acc.length per.steps = n' * per.steps := by simpa using hlen'
  have hn : n' = yearsOf x.length per.steps := by
    show n' = (x.length + per.steps - 1) / per.steps
    rw [← hlen]
    have := padCount_lt acc.length per.steps hp
    symm
    rw [Nat.div_eq_iff hp]
    constructor
    · omega
    · have : n' * per.steps + per.steps = (n' + 1) * per.steps := by ring
      omega
  rw [show (nan : B64 σ) = B64.nan from rfl, pad_range acc _ _ hdata] at htr
  generalize hd : (List.range (n' * per.steps)).map (fun t => acc.getD t B64.nan) = data at htr
  have hdl : data.length = n' * per.steps := by rw [← hd]; simp
  have hcp : t % per.steps < per.steps := Nat.mod_lt _ hp
  have htn : t < n' * per.steps := by omega
  have hget : data[t]? = some u := by
    rw [← hd, List.getElem?_map, List.getElem?_range htn, Option.map_some, List.getD_eq_getElem?_getD, hu]
    rfl
  have hmn : (cs - ds).toNat + m ≤ n' := by rw [← hn] at c3; omega
  have hcol : stride per.steps (t % per.steps) (calibrationValues data n' per.steps ds cs ce) =
      (List.range m).map (fun y => acc.getD (((cs - ds).toNat + y) * per.steps + t % per.steps) B64.nan) := by
    rw [← hn] at c3
    rw [calibrationValues_within data n' _ ds cs ce c1 (by omega) (by omega), ← hd]
    have : (ce + 1 - ds).toNat = (cs - ds).toNat + m := by omega
    rw [this, stride_slice_range _ _ _ _ _ _ hcp hmn]
  have hq : calculateTimeStepParams (lmomentsFit E) (stride per.steps (t % per.steps) (calibrationValues data n' per.steps ds cs ce)) = .ok ⟨lit 0, lit 0, lit 0, lit 0⟩ := by
    apply timeStep_unfit64
    · intro w hw
      rw [hcol] at hw
      obtain ⟨i, _, rfl⟩ := List.mem_map.1 hw
      rw [List.getD_eq_getElem?_getD]
      cases hi : acc[((cs - ds).toNat + i) * per.steps + t % per.steps]? with
      | none => exact Or.inl rfl
      | some u => exact hr u (List.mem_of_getElem? hi)
    · rw [hcol, realAmounts_wet]
      unfold sample at h4
      simp only [accum_real] at h4
      exact h4
  have htr' : transformFittedPearson E (lmomentsFit E) ⟨[n', per.steps], data⟩ ds cs ce per ⟨none, none, none, none⟩ = .ok tr := htr
  rw [hout t htx]
  rcases pearson_value E hE _ _ _ ds cs ce per _ tr hper hdl htr' t _ hget with ⟨hn, _⟩ | ⟨q', hq', hval⟩
  · exfalso
    have := List.all_eq_true.1 hn _ (List.mem_of_getElem? hget)
    rw [hnu] at this
    cases this
  · have : q' = ⟨lit 0, lit 0, lit 0, lit 0⟩ := by
      have e : pearsonParamAt (lmomentsFit E) n' per.steps data ds cs ce ⟨none, none, none, none⟩ (t % per.steps) =
        (calculateTimeStepParams (lmomentsFit E) (stride per.steps (t % per.steps) (calibrationValues data n' per.steps ds cs ce))).toOption := rfl
      rw [e, hq] at hq'
      exact (Option.some.inj (show some _ = some q' from hq')).symm
    rw [this] at hval
    rw [hval, Option.map_some, transform_zero E hE hcdf]
    refine ⟨fun h5 => ?_, fun h5 => ?_⟩
    · rw [h5, if_pos rfl]
    · rw [h5, if_neg (by decide), npClip_nan]

/-- **C141 is false in binary64**: in a desert (every value zero or missing) the Pearson SPI is computed without exception, and every step whose accumulation is known gets the clamped quantile of the
probability 0.0005 although it is as dry as all the others. Any record, scale, periodicity and calibration period inside the record. -/
theorem C141_fails_float64 (E : Ext (B64 σ)) (hE : ExtNan E) (hcdf : ∀ v : B64 σ, E.pearson3Cdf v (lit 0) (lit 0) (lit 0) = nan)
    (x : List (B64 σ)) (hx : ∀ v ∈ x, v = .nan ∨ ext v = .fin 0) (k : ℕ) (h1 : 1 ≤ k) (h2 : k ≤ x.length) (per : Periodicity) (hper : per ≠ .other) (ds cs ce : ℤ) (c1 : ds ≤ cs) (c2 : cs ≤ ce)
    (c3 : ce < ds + yearsOf x.length per.steps) (hsome : ∃ v ∈ x, isNan v = false) (hxl : x.length ≤ 2 ^ 40) :
    ∃ out, spi E (Arr.of1d x) k .pearson ds cs ce per none = .ok out ∧
      ∀ t a, accum (x.map real64) k t = some a → out[t]? = some (npClip (lit (-3.09)) (lit 3.09) (E.normPpf (lit 0.0005))) := by
  have hst : ∀ v ∈ x, StepAmount v := by
    intro v hv
    rcases hx v hv with h | h
    · exact Or.inl h
    · exact Or.inr ⟨0, h, Or.inl rfl, by positivity⟩
  obtain ⟨acc, hacc, hal, hav⟩ := C135_accumulations x hst k h1 h2 (h2.trans hxl)
  have hax : ∀ t a, accum (x.map real64) k t = some a → a = 0 := by
    refine accum_zero _ (fun a ha => ?_) k
    obtain ⟨v, hv, hva⟩ := List.mem_map.1 ha
    rcases hx v hv with rfl | h
    · cases hva
    · unfold real64 at hva
      rw [h] at hva
      simpa using hva.symm
  have hzero : ∀ t u, acc[t]? = some u → (accum (x.map real64) k t = none ∧ u = .nan) ∨ (accum (x.map real64) k t = some 0 ∧ ext u = .fin 0) := by
    intro t u hu
    have ht : t < x.length := by
      have := (List.getElem?_eq_some_iff.1 hu).1
      omega
    have h := hav t ht
    cases ha : accum (x.map real64) k t with
    | none =>
      rw [ha] at h
      simp only at h
      rw [hu] at h
      exact Or.inl ⟨rfl, Option.some.inj h⟩
    | some a =>
      rw [ha] at h
      obtain ⟨v, g1, _, g3⟩ := h
      have h0 := hax t a ha
      subst h0
      rw [zero_mul, sub_zero] at g3
      have hv0 : v = 0 := abs_eq_zero.1 (le_antisymm g3 (abs_nonneg _))
      refine Or.inr ⟨rfl, ?_⟩
      rw [List.getElem?_map, hu, Option.map_some] at g1
      have g1 : real64 u = some v := Option.some.inj g1
      unfold real64 at g1
      cases he : ext u with
      | fin q =>
        rw [he] at g1
        simp only [Option.some.injEq] at g1
        rw [hv0] at g1
        have : q = 0 := by exact_mod_cast g1
        rw [this]
      | _ => rw [he] at g1; cases g1
  have hclip : clipNeg x = x := by
    apply clipNeg_id
    intro w hw
    rcases hx w hw with rfl | h
    · rfl
    · rw [flt_ext h ext_lit_zero]
      simp
  have hcol : ∀ l : List (B64 σ), (∀ v ∈ l, v ∈ acc ∨ v = .nan) → (∀ v ∈ l, Rain v) ∧ realAmounts l = [] := by
    intro l hl
    have h0 : ∀ v ∈ l, v = .nan ∨ ext v = .fin 0 := by
      intro v hv
      rcases hl v hv with h | h
      · obtain ⟨t, ht⟩ := List.mem_iff_getElem?.1 h
        rcases hzero t v ht with ⟨_, h⟩ | ⟨_, h⟩
        · exact Or.inl h
        · exact Or.inr h
      · exact Or.inl h
    refine ⟨fun v hv => ?_, ?_⟩
    · rcases h0 v hv with h | h
      · exact Or.inl h
      · exact Or.inr ⟨0, h, Or.inl rfl, by positivity⟩
    · unfold realAmounts amounts
      rw [List.map_eq_nil_iff, List.filterMap_eq_nil_iff]
      intro v hv
      rcases h0 v hv with rfl | h
      · rfl
      · rw [h]
        simp
  obtain ⟨out, ho⟩ : ∃ out, spi E (Arr.of1d x) k .pearson ds cs ce per none = .ok out := by
    rw [spi_eq E (Arr.of1d x) k .pearson ds cs ce per none (Or.inr rfl) (allNan_false hsome), show clipNeg (Arr.of1d x).data = x from hclip]
    obtain ⟨n, hr, hlen⟩ := reshapeValues_total acc per hper
    obtain ⟨tr, htr⟩ : ∃ tr, distTransform E ⟨[n, per.steps], acc ++ List.replicate (padCount acc.length per.steps) nan⟩ .pearson ds cs ce per none = .ok tr := by
      simp only [distTransform, getPearsonArgs, bind, Except.bind]
      cases hna : allNan (acc ++ List.replicate (padCount acc.length per.steps) nan) with
      | true =>
        refine ⟨⟨[n, per.steps], acc ++ List.replicate (padCount acc.length per.steps) nan⟩, ?_⟩
        unfold transformFittedPearson
        simp [hna]
      | false =>
        rw [transformFittedPearson_fit E _ n _ _ ds cs ce per hper rfl hna]
        obtain ⟨ps, hps⟩ : ∃ ps, pearsonFits (lmomentsFit E) n per.steps (acc ++ List.replicate (padCount acc.length per.steps) nan) ds cs ce = .ok ps := by
          unfold pearsonFits
          refine mapM_ok _ _ fun j hj => ⟨⟨lit 0, lit 0, lit 0, lit 0⟩, ?_⟩
          obtain ⟨q1, q2⟩ := hcol (stride per.steps j (calibrationValues (acc ++ List.replicate (padCount acc.length per.steps) nan) n per.steps ds cs ce)) (fun v hv => by
            rcases List.mem_append.1 (mem_calibrationValues _ _ _ _ _ _ _ (mem_of_mem_stride _ _ _ _ hv)) with h | h
            · exact Or.inl h
            · exact Or.inr (List.eq_of_mem_replicate h))
          exact timeStep_unfit64 _ _ q1 (by rw [q2]; simp)
        rw [hps]
        exact ⟨_, rfl⟩
    refine ⟨clipFlattenTruncate tr x.length, ?_⟩
    simp only [bind, Except.bind, hacc, hr]
    rw [htr]
    rfl
  refine ⟨out, ho, fun t a ha => ?_⟩
  have htx : t < x.length := by
    unfold accum at ha
    dsimp only at ha
    split at ha
    · next h => simpa using h.2.1
    · cases ha
  have hget : acc[t]? = some (acc[t]'(by omega)) := List.getElem?_eq_getElem (by omega)
  rcases hzero t _ hget with ⟨h, _⟩ | ⟨_, hz⟩
  · rw [ha] at h; cases h
  · obtain ⟨m, hm⟩ : ∃ m : ℕ, (m : ℤ) = ce - cs + 1 := ⟨(ce - cs + 1).toNat, by omega⟩
    refine (C141_float64 E hE hcdf x hst k h1 h2 per hper ds cs ce c1 c2 c3 hsome acc hacc m hm hxl out ho t _ hget ?_ ?_).1 ?_
    · generalize acc[t] = u at hz
      cases u <;> first | rfl | cases hz
    · have : wet (sample (acc.map real64) 1 per.steps (t % per.steps) (cs - ds).toNat m) = [] := by
        unfold sample
        simp only [accum_real]
        rw [← realAmounts_wet]
        refine (hcol _ fun v hv => ?_).2
        obtain ⟨y, _, rfl⟩ := List.mem_map.1 hv
        rw [List.getD_eq_getElem?_getD]
        cases hi : acc[((cs - ds).toNat + y) * per.steps + t % per.steps]? with
        | none => exact Or.inr rfl
        | some u => exact Or.inl (List.mem_of_getElem? hi)
      rw [this]
      simp
    · show (Fl.le (ext acc[t]) (ext (lit 0.0005 : B64 σ)) && !Fl.le (ext (lit 0.0005 : B64 σ)) (ext acc[t])) = true
      rw [hz, ext_trace]
      decide +kernel

/-- a distribution function without values for scale 0, as scipy's -/
@[irreducible] def scaled (P : B64 σ → B64 σ → B64 σ → B64 σ → B64 σ) (x a b c : B64 σ) : B64 σ := if flt (lit 0) c then P x a b c else nan

def strict (E : Ext (B64 σ)) : Ext (B64 σ) := ⟨E.log, E.sqrt, E.exp, E.lgamma, E.pi, E.gammaCdf, scaled E.pearson3Cdf, E.normPpf⟩

theorem strict_nan {E : Ext (B64 σ)} (hE : ExtNan E) : ExtNan (strict E) := by
  refine ⟨hE.log_nan, hE.gammaCdf_nan, hE.gammaCdf_nan_shape, fun a b c => ?_, hE.normPpf_nan⟩
  show scaled E.pearson3Cdf nan a b c = nan
  unfold scaled
  rw [hE.pearson3Cdf_nan, ite_self]

theorem strict_zero (E : Ext (B64 σ)) (v : B64 σ) : (strict E).pearson3Cdf v (lit 0) (lit 0) (lit 0) = nan := by
  have h : flt (lit 0 : B64 σ) (lit 0) = false := by
    rw [flt_ext ext_lit_zero ext_lit_zero]
    simp
  show scaled E.pearson3Cdf v (lit 0) (lit 0) (lit 0) = nan
  unfold scaled
  rw [h, if_neg (by decide)]

theorem strict_ppf (E : Ext (B64 σ)) : (strict E).normPpf = E.normPpf := rfl

/-- five years without rain in binary64: with the quantile function 6 p - 3 every month gets less than -2.99 -/
example : ∃ out, spi (strict nearIndex) (Arr.of1d (List.replicate 60 (lit 0 : B64 leftToRight))) (1 : ℕ) .pearson 2000 2000 2004 .monthly none = .ok out ∧
    ∀ t < 60, ∃ z : ℚ, (out[t]?).map ext = some (.fin z) ∧ (z : ℝ) ≤ -2.99 := by
  obtain ⟨out, ho, hv⟩ := C141_fails_float64 (strict nearIndex) (strict_nan nearIndex_nan) (strict_zero _) (List.replicate 60 (lit 0 : B64 leftToRight)) (by
      intro v hv
      rw [List.eq_of_mem_replicate hv]
      exact Or.inr ext_lit_zero) 1 le_rfl (by rw [List.length_replicate]; norm_num) .monthly (by decide) 2000 2000 2004 le_rfl (by norm_num)
      (by rw [List.length_replicate]; norm_num [yearsOf, Periodicity.steps]) ⟨lit 0, List.mem_replicate.2 ⟨by norm_num, Eq.refl _⟩, by decide +kernel⟩ (by rw [List.length_replicate]; norm_num)
  refine ⟨out, ho, fun t ht => ?_⟩
  have h0 : real64 (lit 0 : B64 leftToRight) = some 0 := by
    unfold real64
    rw [ext_lit_zero]
    simp
  rw [hv t 0 (by
    unfold accum
    dsimp only
    rw [List.map_replicate, h0, List.drop_replicate, List.take_replicate, if_pos]
    · rw [show min 1 (60 - (t + 1 - 1)) = 1 by omega]
      simp
    · refine ⟨by omega, by simpa using ht, ?_⟩
      rw [List.all_replicate]
      simp)]
  rw [strict_ppf]
  have he : ext (lit 0.0005 : B64 leftToRight) = .fin (rnd 0.0005) := ext_lit64 _ (below_max (by norm_num [abs_of_nonneg]))
  have hlo : (1 : ℚ) / 4096 ≤ rnd 0.0005 := by decide +kernel
  have hhi : rnd 0.0005 ≤ (1 : ℚ) / 1024 := by decide +kernel
  obtain ⟨r, hr, hre⟩ := nearIndex_near.ppf (lit 0.0005) (rnd 0.0005) he (lt_of_lt_of_le (by norm_num) hlo) (lt_of_le_of_lt hhi (by norm_num))
  have hhi' : ((rnd 0.0005 : ℚ) : ℝ) ≤ ((1 / 1024 : ℚ) : ℝ) := by exact_mod_cast hhi
  push_cast at hhi'
  refine ⟨_, by rw [Option.map_some, npClip_fin (r := r) hr], ?_⟩
  have hc := (abs_le.1 (clamp_near hre)).2
  have : clamp (6 * ((rnd 0.0005 : ℚ) : ℝ) - 3) ≤ -2.994 := by
    unfold clamp
    refine max_le (by norm_num) ((min_le_right _ _).trans ?_)
    linarith
  have hd : (1 : ℝ) / 2 ^ 50 + 1 / 2 ^ 50 ≤ 0.001 := by norm_num
  linarith

end CI.Props
