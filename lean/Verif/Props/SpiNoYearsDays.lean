import Verif.Props.SpiNoYears
import Verif.Props.SpiToolDays
import Verif.Props.ShortRecordRuns

/-!
# C121 for daily values: the SPI tool without calibration years
-/

namespace CI.Props
open CI Spec Spec.McKee

section
variable {F : Type} [FloatOps F]

/-! ## One series -/

theorem scaleValues_daily (l : List F) (scale : Int) (hs : 1 ≤ scale) :
    ∃ b, scaleValues (Arr.of1d l) scale .daily = .ok b ∧ (b.shape = [b.data.length] ∨ ∃ n, b.shape = [n, 366]) ∧ (allNan b.data = false → ∃ n, b.shape = [n, 366]) := by
  cases hn : allNan l with
  | true =>
    refine ⟨Arr.of1d l, ?_, .inl rfl, ?_⟩
    · unfold scaleValues
      rw [if_pos (.inr rfl)]
      simp only [Arr.of1d, hn, if_true]
    · intro h
      simp only [Arr.of1d, hn] at h
      cases h
  | false =>
    rw [scaleValues_shape (Arr.of1d l) scale .daily (.inr rfl) hn]
    have hne : clipNeg (Arr.of1d l).data ≠ [] := by
      intro h
      have := clipNeg_length (Arr.of1d l).data
      rw [h] at this
      exact ne_nil_of_allNan _ hn (List.length_eq_zero_iff.1 this.symm)
    obtain ⟨s, h1⟩ := sumToScale_total _ scale hs hne
    obtain ⟨n, h2, _⟩ := reshapeValues_total s .daily (by decide)
    refine ⟨_, by simp only [bind, Except.bind, h1, h2]; rfl, .inr ⟨n, rfl⟩, fun _ => ⟨n, rfl⟩⟩

/-- no year to compare with: the Pearson fit of a series -/
theorem noYears_pearson_days (l : List F) (scale : Int) (hs : 1 ≤ scale) : cellOp (fitOpNoYears .pearson scale .daily) l = .error .typeError := by
  obtain ⟨b, hb, hsh, _⟩ := scaleValues_daily l scale hs
  unfold cellOp fitOpNoYears
  rcases scaleValuesH_runs [l] ⟨0, [l.length]⟩ (Arr.of1d l) (of1d_arr l) (of1d_WF l) scale .daily with ⟨e, h', h1, _⟩ | ⟨a', r', h', h1, h2, h3⟩
  · rw [hb] at h1
    cases h1
  · rw [hb] at h1
    cases h1
    simp only
    rw [H_bind_ok h2, H_get_bind, h3.arr]
    have hv : ∃ v n, reshapeValues b .daily = .ok v ∧ v.shape = [n, 366] := by
      obtain ⟨sh, dat⟩ := b
      rcases hsh with hsh | ⟨n, hsh⟩
      · simp only at hsh
        subst hsh
        obtain ⟨n, h4, _⟩ := reshapeValues_total dat .daily (by decide)
        exact ⟨_, n, h4, rfl⟩
      · simp only at hsh
        subst hsh
        exact ⟨⟨[n, 366], dat⟩, n, by simp [reshapeValues, reshapeTo2d], rfl⟩
    obtain ⟨v, n, h4, h5⟩ := hv
    have h6 : validateValuesShape v = .ok 366 := by unfold validateValuesShape; rw [h5]; rfl
    rw [h4, liftRes_bind, h6, liftRes_bind]
    rfl

/-- no year to compare with: the gamma fit of a series that has an accumulation -/
theorem noYears_gamma_days (l : List F) (scale : Int) (b : Arr F) (hb : scaleValues (Arr.of1d l) scale .daily = .ok b) (hs : 1 ≤ scale) (hn : allNan b.data = false) :
    cellOp (fitOpNoYears .gamma scale .daily) l = .error .typeError := by
  obtain ⟨b', hb', _, hsh⟩ := scaleValues_daily l scale hs
  rw [hb] at hb'
  cases hb'
  obtain ⟨n, hsh⟩ := hsh hn
  unfold cellOp fitOpNoYears
  rcases scaleValuesH_runs [l] ⟨0, [l.length]⟩ (Arr.of1d l) (of1d_arr l) (of1d_WF l) scale .daily with ⟨e, h', h1, _⟩ | ⟨a', r', h', h1, h2, h3⟩
  · rw [hb] at h1
    cases h1
  · rw [hb] at h1
    cases h1
    simp only
    rw [H_bind_ok h2, H_get_bind, h3.arr]
    simp only [hn, Bool.false_eq_true, if_false]
    have h4 : r'.shape = [n, 366] := by
      have := congrArg Arr.shape h3.arr
      rw [hsh] at this
      exact this
    have h5 : (validateArrayH r' .daily : H F Ref) h' = (.ok r', h') := by
      unfold validateArrayH
      rw [h4]
      rfl
    rw [H_bind_ok h5]
    rfl

/-- no year to compare with: the gamma fit of a series that has no accumulation does not look at the years -/
theorem noYears_missing_days (E : Ext F) (l : List F) (scale ds cs ce : Int) (b : Arr F) (hb : scaleValues (Arr.of1d l) scale .daily = .ok b) (hn : allNan b.data = true) :
    cellOp (fitOpNoYears .gamma scale .daily) l = cellOp (fitOp E .gamma scale ds cs ce .daily) l := by
  unfold cellOp fitOpNoYears fitOp fitGammaH
  rcases scaleValuesH_runs [l] ⟨0, [l.length]⟩ (Arr.of1d l) (of1d_arr l) (of1d_WF l) scale .daily with ⟨e, h', h1, _⟩ | ⟨a', r', h', h1, h2, h3⟩
  · rw [hb] at h1
    cases h1
  · rw [hb] at h1
    cases h1
    have hn' : allNan (h'.arr r').data = true := by rw [h3.arr]; exact hn
    simp only
    rw [H_bind_ok h2, H_get_bind, H_bind_ok h2, h3.arr]
    have g := gammaParametersH_nan E h' r' ds cs ce .daily hn'
    rw [h3.arr] at g
    have g2 : gammaParameters E b ds cs ce .daily = .ok (List.replicate 366 nan, List.replicate 366 nan) := by
      unfold gammaParameters
      simp only [hn, if_true]
    rw [g2] at g
    rw [H_bind_ok g]
    simp only [hn, if_true]


/-! ## The run -/

theorem missing_fit_days (E : Ext F) (l : List F) (scale ds cs ce : Int) (b : Arr F) (hb : scaleValues (Arr.of1d l) scale .daily = .ok b) (hn : allNan b.data = true) :
    ∃ fp, fitVal E .gamma l scale ds cs ce .daily = .ok fp := by
  simp only [fitVal, fitGammaVal, hb, bind, Except.bind]
  unfold gammaParameters
  simp only [hn, if_true]
  exact ⟨_, rfl⟩

/-- at the place the series has an accumulation over `s` days -/
def AccumulatesDays (l : List F) (s : Int) : Prop := ∃ b, scaleValues (Arr.of1d l) s .daily = .ok b ∧ allNan b.data = false

theorem not_accumulates_days {l : List F} {s : Int} (hs : 1 ≤ s) (h : ¬ AccumulatesDays l s) : ∃ b, scaleValues (Arr.of1d l) s .daily = .ok b ∧ allNan b.data = true := by
  obtain ⟨b, hb, _⟩ := scaleValues_daily l s hs
  refine ⟨b, hb, ?_⟩
  cases hn : allNan b.data with
  | true => rfl
  | false => exact absurd ⟨b, hb, hn⟩ h

theorem spi_gamma_total_days [FloatLaws F] (E : Ext F) (l : List F) (s : Int) (hs : 1 ≤ s) (ds cs ce : Int) : ∃ out, spi E (Arr.of1d l) s .gamma ds cs ce .daily none = .ok out := by
  by_cases hn : ∃ x ∈ (Arr.of1d l).data, isNan x = false
  · obtain ⟨out, ho, _⟩ := C10_gamma E (Arr.of1d l) s ds cs ce .daily (.inl rfl) (.inr rfl) hs hn
    exact ⟨out, ho⟩
  · have : allNan (Arr.of1d l).data = true := by
      unfold allNan
      rw [List.all_eq_true]
      intro v hv
      cases hv' : isNan v with
      | true => rfl
      | false => exact absurd ⟨v, hv, hv'⟩ hn
    refine ⟨(Arr.of1d l).data, ?_⟩
    unfold spi
    simp only [this, if_true]
    rfl

variable [FloatLaws F]

theorem noYears_run_days (E : Ext F) (hE : ExtNan E) (yearOf : F → Int) (lower : String → String) (cs ce : Option Int) (base : String) (wk : Nat) (hwk : 1 ≤ wk) (a : SpiArgs) (w : World F)
    {d : NcFile F} {x t lat lon : NcVar F} {A B N Y : Nat} {mm : List F} {y0 : Int} (h : SpiDays lower yearOf a w d x t lat lon A B N mm y0 Y) (hy : YearMissing y0 cs ce)
    {s : Int} {rest : List Int} (hs : a.scales = some (s :: rest)) (h1 : 1 ≤ s) (hpos : ∀ r ∈ rest, 0 ≤ r) :
    ∃ w', spiMainOpt E yearOf lower cs ce base wk a w = (.error .typeError, w') ∧
      ((∃ i < A, ∃ k < B, AccumulatesDays (place366 y0 Y (seriesAt B N i k mm)) s) → w'.files = w.files ∧ w'.written = w.written) ∧
      ((¬ ∃ i < A, ∃ k < B, AccumulatesDays (place366 y0 Y (seriesAt B N i k mm)) s) →
        (∀ f, f ≠ fileName base (spiName .gamma s true) → w'.files f = w.files f) ∧ w'.written = w.written ++ [(fileName base (spiName .gamma s true), spiName .gamma s true)] ∧
        SpiHolds w'.files base .gamma s true t lat lon A B N (fun i k => toolDays E (cs.getD 0) (ce.getD 0) y0 Y [s] s .gamma (seriesAt B N i k mm))) := by
  have hpos' : ∀ r ∈ s :: rest, 0 ≤ r := by
    intro r hr
    rcases List.mem_cons.1 hr with rfl | hr
    · omega
    · exact hpos r hr
  obtain ⟨m1, m2, m3, m4⟩ := days_values h.toSpiSource h.toWholeYears
  obtain ⟨f, d', fitting, sh, hval, hprepf, hprep, p2, p3, p4, hlive, hvar, hvk, hbuild, hfits⟩ := spiRun_start_gen (cs.getD 0) (ce.getD 0) base wk h.toSpiUsable hs hpos' (by rw [h.daily]; rfl) m1 m2 m3 (by simp) m4
  obtain ⟨pA, pB⟩ := h.places
  generalize hj : spiJob a .grid f (cs.getD 0) (ce.getD 0) base wk = j at hprep hlive hvar hvk
  have hu : j.per.unit = .ok "day" := by rw [← hj]; show a.periodicity.unit = _; rw [h.daily]; rfl
  have hjp : j.per = .daily := by rw [← hj]; exact h.daily
  have hscj : j.scales = s :: rest := by rw [← hj]; show a.scales.getD [] = _; rw [hs]; rfl
  have hload : j.load = none := by rw [← hj]; exact h.load
  have hit : j.inputType = .grid := by rw [← hj]; rfl
  have hw : 1 ≤ j.workers := by rw [← hj]; exact hwk
  have hbase : j.base = base := by rw [← hj]; rfl
  have hrun : spiMainOpt E yearOf lower cs ce base wk a w = (do
      let g ← spiScalesOpt E cs ce j "day" y0 d' (s :: rest) fitting
      spiSave j g : SE (World F) Unit) { w with shared := sh } := by
    unfold spiMainOpt
    have g1 : (getFiles : SE (World F) (Files F)) w = (.ok w.files, w) := rfl
    have g2 : (SE.lift (spiValidateArgs w.files a) : SE (World F) InputType) w = (.ok .grid, w) := by rw [hval]; rfl
    have g3 : (SE.lift (prepareFile w.files a.netcdfPrecip a.varNamePrecip) : SE (World F) String) w = (.ok f, w) := by rw [hprepf]; rfl
    rw [SE.bind_run _ _ _ _ _ g1, SE.bind_run _ _ _ _ _ g2, SE.bind_run _ _ _ _ _ g3, hj]
    unfold spiComputeWriteOpt
    rw [hprep, hu, hscj]
  rw [hrun]
  unfold spiScalesOpt
  -- the pearson fit fails
  have hpearson : ∀ (done : List (Int × Distribution)) (w1 : World F), Live j "day" (s :: rest) A B (Y * 366) [A, B, Y * 366] (fun i k => place366 y0 Y (seriesAt B N i k mm)) done w1.shared →
      spiPairOpt E cs ce j "day" y0 d' (s, .pearson) w1 = (.error .typeError, w1) := by
    intro done w1 hl
    obtain ⟨dat, c1, c2, c3⟩ := hl.cells.1
    have hcell : ∀ l : List F, cellOp (fitOpOpt E .pearson s y0 cs ce j.per) l = .error .typeError := by
      intro l
      rw [fitOpOpt_missing hy, hjp]
      exact noYears_pearson_days l s h1
    have := fitStageOpt_failed (E := E) (cs := cs) (ce := ce) (ds := y0) (dist := .pearson) hit hw c1 c2 (hl.six s (by simp)) (fun i hi k hk => .inr (hcell _)) ⟨0, pA, 0, pB, hcell _⟩
    unfold spiPairOpt spiComputeOpt spiFitOpt
    simp only [hload, this, bind, Except.bind]
  obtain ⟨dat, c1, c2, c3⟩ := hlive.cells.1
  have hcell : ∀ i < A, ∀ k < B, seriesAt B (Y * 366) i k dat = place366 y0 Y (seriesAt B N i k mm) := by
    intro i hi k hk
    have := c3 i hi k hk
    beta_reduce at this
    rw [cellAfter_nil] at this
    exact this
  have hmiss : ∀ i < A, ∀ k < B, ¬ AccumulatesDays (place366 y0 Y (seriesAt B N i k mm)) s → cellOp (fitOpOpt E .gamma s y0 cs ce j.per) (seriesAt B (Y * 366) i k dat) = cellOp (fitOp E .gamma s y0 j.calStart j.calEnd j.per) (seriesAt B (Y * 366) i k dat) := by
    intro i hi k hk hn
    obtain ⟨b, hb, hb'⟩ := not_accumulates_days h1 hn
    rw [fitOpOpt_missing hy, hjp, hcell i hi k hk]
    exact noYears_missing_days E _ s y0 _ _ b hb hb'
  have hfit : ∀ i < A, ∀ k < B, ¬ AccumulatesDays (place366 y0 Y (seriesAt B N i k mm)) s → ∃ fp, fitVal E .gamma (place366 y0 Y (seriesAt B N i k mm)) s y0 j.calStart j.calEnd j.per = .ok fp := by
    intro i hi k hk hn
    obtain ⟨b, hb, hb'⟩ := not_accumulates_days h1 hn
    rw [hjp]
    exact missing_fit_days E _ s y0 _ _ b hb hb'
  by_cases hacc : ∃ i < A, ∃ k < B, AccumulatesDays (place366 y0 Y (seriesAt B N i k mm)) s
  · have hst := fitStageOpt_failed (E := E) (cs := cs) (ce := ce) (ds := y0) (dist := .gamma) (u := "day") hit hw c1 c2 (hlive.six s (by simp)) (e := .typeError) (fun i hi k hk => by
      by_cases hn : AccumulatesDays (place366 y0 Y (seriesAt B N i k mm)) s
      · right
        obtain ⟨b, hb, hb'⟩ := hn
        rw [fitOpOpt_missing hy, hjp, hcell i hi k hk]
        exact noYears_gamma_days _ s b hb h1 hb'
      · left
        obtain ⟨fp, hfp⟩ := hfit i hi k hk hn
        obtain ⟨r, hr⟩ := cellOp_fit_exists E .gamma _ s y0 j.calStart j.calEnd j.per hfp
        obtain ⟨ps, hps⟩ := fit_storable hfp
        refine ⟨fp, r, ps, ?_, hps⟩
        rw [hmiss i hi k hk hn, hcell i hi k hk]
        exact hr) (by
      obtain ⟨i, hi, k, hk, b, hb, hb'⟩ := hacc
      refine ⟨i, hi, k, hk, ?_⟩
      rw [fitOpOpt_missing hy, hjp, hcell i hi k hk]
      exact noYears_gamma_days _ s b hb h1 hb')
    have hg : spiPairOpt E cs ce j "day" y0 d' (s, .gamma) { w with shared := sh } = (.error .typeError, { w with shared := sh }) := by
      unfold spiPairOpt spiComputeOpt spiFitOpt
      simp only [hload, hst, bind, Except.bind]
    refine ⟨{ w with shared := sh }, ?_, fun _ => ⟨rfl, rfl⟩, fun hn => absurd hacc hn⟩
    rw [SE.bind_err (SE.bind_err hg)]
  · have hn : ∀ i < A, ∀ k < B, ¬ AccumulatesDays (place366 y0 Y (seriesAt B N i k mm)) s := fun i hi k hk hc => hacc ⟨i, hi, k, hk, hc⟩
    have hst := fitStageOpt_agree (E := E) (cs := cs) (ce := ce) (u := "day") (ds := y0) (scale := s) (dist := .gamma) c1 c2 (fun i hi k hk => hmiss i hi k hk (hn i hi k hk))
    have hpair : spiPairOpt E cs ce j "day" y0 d' (s, .gamma) { w with shared := sh } = spiPair E j "day" y0 d' (s, .gamma) { w with shared := sh } := by
      unfold spiPairOpt spiPair spiComputeOpt spiCompute spiFitOpt spiFit
      simp only [hload, hst]
      rfl
    obtain ⟨w1, g1, g2, g3, g6, g7⟩ := (spiPair_live hE (j := j) (u := "day") (ds := y0) (d := d') (sd := (s, .gamma)) (w := { w with shared := sh }) (SS := s :: rest)
      hload hit hw (by simp) hvar hvk (fun s v hv => keyResult_ne "day" s v hv) pA pB (shape := [A, B, Y * 366]) (n0 := A) rfl hlive (by
        intro rdat hr
        have hb := hbuild (spiOutName .gamma s "day") rdat hr
        rw [h.daily] at hb
        rw [hjp]
        exact hb)).1 (by
      intro i hi k hk
      rw [cellAfter_nil]
      refine ⟨hfit i hi k hk (hn i hi k hk), ?_⟩
      rw [hjp]
      exact spi_gamma_total_days E _ s h1 _ _ _)
    refine ⟨w1, ?_, fun hc => absurd hc hacc, fun _ => ?_⟩
    · rw [SE.bind_err]
      rw [SE.bind_run _ _ _ _ _ (hpair.trans g1), SE.bind_err (hpearson _ w1 g2)]
    · have hd : (Distribution.gamma = .gamma ∨ Distribution.gamma = .pearson) := .inl rfl
      have hdl : isDaily j.per = true := by rw [hjp]; rfl
      have hfile : spiOutFile j.base "day" s .gamma = fileName base (spiName .gamma s true) := by rw [outFile_eq hu _ _ hd, hdl, hbase]
      have hname : spiOutName .gamma s "day" = spiName .gamma s true := by rw [spiName_eq hu _ hd, hdl]
      simp only [hfile, hname] at g6 g7
      refine ⟨g6, g7, ?_⟩
      have o' := g3
      simp only at o'
      have o'' := out_days hjp hd p2 p3 p4 h.input.time.2.2 h.years h.dates.1 h.dates.2 o'
      rw [hbase] at o''
      obtain ⟨file, y, e1, e2, e3, e4, e5, e6, e7, e8, e9⟩ := o''
      refine ⟨file, y, e1, e2, e3, e4, e5, e6, e7, e8, fun i hi k hk => ?_⟩
      have e9 := e9 i hi k hk
      beta_reduce at e9
      rw [List.nil_append, hjp, cellAfter_prefix _ (ss := [s]) (done := [(s, .gamma)]) (rest := [(s, .pearson)]) rfl .daily, ← hj] at e9
      exact e9

/-- **C121 for daily values, any arithmetic.** For the days of whole years and a first scale of at least 1, the SPI tool called without a first year (or without a last year, if the first one is not before the
record) always ends with TypeError. If some place has an accumulation of `s` successive days, `s` the first scale, no file is written or changed; otherwise exactly the gamma file of the first scale is written,
with the index of the years of 366 days. -/
theorem C121_daily (E : Ext F) (hE : ExtNan E) (toInt : String → Option Int) (ht : ∀ n : Int, toInt (toString n) = some n) (cpus : Nat) (lower : String → String) (yearOf : F → Int)
    (q : String → Bool) (c : SpiCommand) (hc : SpiWritable q c) (hcpu : 1 ≤ numberOfWorkers c.multiprocessing cpus) (w : World F) {d : NcFile F} {x t lat lon : NcVar F} {A B N Y : Nat} {mm : List F}
    {y0 : Int} (h : SpiDays lower yearOf c.args w d x t lat lon A B N mm y0 Y) (hy : YearMissing y0 c.calibrationStart c.calibrationEnd)
    {s : Int} {rest : List Int} (hs : c.args.scales = some (s :: rest)) (h1 : 1 ≤ s) (hpos : ∀ r ∈ rest, 0 ≤ r) :
    ∃ w', spiTool E toInt cpus lower yearOf (spiCommandLine q c) w = (.ended (.error .typeError), w') ∧
      ((∃ i < A, ∃ k < B, AccumulatesDays (place366 y0 Y (seriesAt B N i k mm)) s) → w'.files = w.files ∧ w'.written = w.written) ∧
      ((¬ ∃ i < A, ∃ k < B, AccumulatesDays (place366 y0 Y (seriesAt B N i k mm)) s) →
        (∀ f, f ≠ fileName c.outputFileBase (spiName .gamma s true) → w'.files f = w.files f) ∧
        w'.written = w.written ++ [(fileName c.outputFileBase (spiName .gamma s true), spiName .gamma s true)] ∧
        SpiHolds w'.files c.outputFileBase .gamma s true t lat lon A B N
          (fun i k => toolDays E (c.calibrationStart.getD 0) (c.calibrationEnd.getD 0) y0 Y [s] s .gamma (seriesAt B N i k mm))) := by
  obtain ⟨w', r1, r2, r3⟩ := noYears_run_days E hE yearOf lower c.calibrationStart c.calibrationEnd c.outputFileBase (numberOfWorkers c.multiprocessing cpus) hcpu c.args w h hy hs h1 hpos
  refine ⟨w', ?_, r2, r3⟩
  unfold spiTool
  rw [C105_spi toInt ht q c hc]
  simp only [r1]

end

/-- `process_climate_indices` of the SPI tool for daily values without years -/
def openDays : SpiCommand := ⟨dayArgs [1, 30], "out", none, none, .single⟩

theorem openDays_writable : SpiWritable (fun _ => false) openDays := by
  refine ⟨⟨rfl, rfl⟩, (by decide : Periodicity.daily ≠ .other), ?_⟩
  intro p hp _ t ht
  simp only [openDays, dayArgs, List.mem_cons, List.not_mem_nil, or_false] at hp
  rcases hp with rfl | rfl | rfl | rfl | rfl <;> cases ht <;> exact .inl (by decide)

/-- five years of days with the same value on all days of a year: no run without years, whatever the values are -/
example (E : Ext (Fl ℝ)) (hE : ExtNan E) (toInt : String → Option Int) (ht : ∀ n : Int, toInt (toString n) = some n) (u : ℕ → ℝ) :
    ∃ w', spiTool E toInt 1 id fiveYear (spiCommandLine (fun _ => false) openDays) (plotWorld u) = (.ended (.error .typeError), w') := by
  obtain ⟨w', h1, _⟩ := C121_daily E hE toInt ht 1 id fiveYear (fun _ => false) openDays openDays_writable (by decide) (plotWorld u) (plot_days u [1, 30]) (.inl rfl) rfl (by norm_num) (by simp)
  exact ⟨w', h1⟩

/-- the days of one leap year at two places: nothing is written -/
example (E : Ext Q) (hE : ExtNan E) (toInt : String → Option Int) (ht : ∀ n : Int, toInt (toString n) = some n) :
    ∃ w', spiTool E toInt 1 id (fun _ => 2000) (spiCommandLine (fun _ => false) openDays) leapWorld = (.ended (.error .typeError), w') ∧ w'.files = leapWorld.files ∧ w'.written = leapWorld.written := by
  obtain ⟨w', h1, h2, _⟩ := C121_daily E hE toInt ht 1 id (fun _ => 2000) (fun _ => false) openDays openDays_writable (by decide) leapWorld leap_days (.inl rfl) rfl (by norm_num) (by simp)
  have hb : okAnd (scaleValues (Arr.of1d (place366 2000 1 (seriesAt 2 366 0 0 leapVar.data))) 1 .daily) (fun b => !allNan b.data) = true := by decide +kernel
  cases e : scaleValues (Arr.of1d (place366 2000 1 (seriesAt 2 366 0 0 leapVar.data))) 1 .daily with
  | error _ => rw [e] at hb; cases hb
  | ok b =>
    rw [e] at hb
    exact ⟨w', h1, h2 ⟨0, by norm_num, 0, by norm_num, b, e, by simpa [okAnd] using hb⟩⟩

end CI.Props
