import Verif.Props.SpiCommand

/-!
# C121: the SPI tool without calibration years
-/

namespace CI.Props
open CI Spec Spec.McKee

section
variable {F : Type} [FloatOps F]

/-! ## One series -/

theorem scaleValues_monthly (l : List F) (scale : Int) (hs : 1 ≤ scale) :
    ∃ b, scaleValues (Arr.of1d l) scale .monthly = .ok b ∧ (b.shape = [b.data.length] ∨ ∃ n, b.shape = [n, 12]) ∧ (allNan b.data = false → ∃ n, b.shape = [n, 12]) := by
  cases hn : allNan l with
  | true =>
    refine ⟨Arr.of1d l, ?_, .inl rfl, ?_⟩
    · unfold scaleValues
      rw [if_pos (.inr rfl)]
      simp only [Arr.of1d, hn, if_true]
    · intro h
      simp only [Arr.of1d, hn] at h
      cases h
  | false =>
    rw [scaleValues_shape (Arr.of1d l) scale .monthly (.inr rfl) hn]
    have hne : clipNeg (Arr.of1d l).data ≠ [] := by
      intro h
      have := clipNeg_length (Arr.of1d l).data
      rw [h] at this
      exact ne_nil_of_allNan _ hn (List.length_eq_zero_iff.1 this.symm)
    obtain ⟨s, h1⟩ := sumToScale_total _ scale hs hne
    obtain ⟨n, h2, _⟩ := reshapeValues_total s .monthly (by decide)
    refine ⟨_, by simp only [bind, Except.bind, h1, h2]; rfl, .inr ⟨n, rfl⟩, fun _ => ⟨n, rfl⟩⟩

/-- no year to compare with: the Pearson fit of a series -/
theorem noYears_pearson (l : List F) (scale : Int) (hs : 1 ≤ scale) : cellOp (fitOpNoYears .pearson scale .monthly) l = .error .typeError := by
  obtain ⟨b, hb, hsh, _⟩ := scaleValues_monthly l scale hs
  unfold cellOp fitOpNoYears
  rcases scaleValuesH_runs [l] ⟨0, [l.length]⟩ (Arr.of1d l) (of1d_arr l) (of1d_WF l) scale .monthly with ⟨e, h', h1, _⟩ | ⟨a', r', h', h1, h2, h3⟩
  · rw [hb] at h1
    cases h1
  · rw [hb] at h1
    cases h1
    simp only
    rw [H_bind_ok h2, H_get_bind, h3.arr]
    have hv : ∃ v n, reshapeValues b .monthly = .ok v ∧ v.shape = [n, 12] := by
      obtain ⟨sh, dat⟩ := b
      rcases hsh with hsh | ⟨n, hsh⟩
      · simp only at hsh
        subst hsh
        obtain ⟨n, h4, _⟩ := reshapeValues_total dat .monthly (by decide)
        exact ⟨_, n, h4, rfl⟩
      · simp only at hsh
        subst hsh
        exact ⟨⟨[n, 12], dat⟩, n, by simp [reshapeValues, reshapeTo2d], rfl⟩
    obtain ⟨v, n, h4, h5⟩ := hv
    have h6 : validateValuesShape v = .ok 12 := by unfold validateValuesShape; rw [h5]; rfl
    rw [h4, liftRes_bind, h6, liftRes_bind]
    rfl

/-- no year to compare with: the gamma fit of a series that has an accumulation -/
theorem noYears_gamma (l : List F) (scale : Int) (b : Arr F) (hb : scaleValues (Arr.of1d l) scale .monthly = .ok b) (hs : 1 ≤ scale) (hn : allNan b.data = false) :
    cellOp (fitOpNoYears .gamma scale .monthly) l = .error .typeError := by
  obtain ⟨b', hb', _, hsh⟩ := scaleValues_monthly l scale hs
  rw [hb] at hb'
  cases hb'
  obtain ⟨n, hsh⟩ := hsh hn
  unfold cellOp fitOpNoYears
  rcases scaleValuesH_runs [l] ⟨0, [l.length]⟩ (Arr.of1d l) (of1d_arr l) (of1d_WF l) scale .monthly with ⟨e, h', h1, _⟩ | ⟨a', r', h', h1, h2, h3⟩
  · rw [hb] at h1
    cases h1
  · rw [hb] at h1
    cases h1
    simp only
    rw [H_bind_ok h2, H_get_bind, h3.arr]
    simp only [hn, Bool.false_eq_true, if_false]
    have h4 : r'.shape = [n, 12] := by
      have := congrArg Arr.shape h3.arr
      rw [hsh] at this
      exact this
    have h5 : (validateArrayH r' .monthly : H F Ref) h' = (.ok r', h') := by
      unfold validateArrayH
      rw [h4]
      rfl
    rw [H_bind_ok h5]
    rfl

/-- no year to compare with: the gamma fit of a series that has no accumulation does not look at the years -/
theorem noYears_missing (E : Ext F) (l : List F) (scale ds cs ce : Int) (b : Arr F) (hb : scaleValues (Arr.of1d l) scale .monthly = .ok b) (hn : allNan b.data = true) :
    cellOp (fitOpNoYears .gamma scale .monthly) l = cellOp (fitOp E .gamma scale ds cs ce .monthly) l := by
  unfold cellOp fitOpNoYears fitOp fitGammaH
  rcases scaleValuesH_runs [l] ⟨0, [l.length]⟩ (Arr.of1d l) (of1d_arr l) (of1d_WF l) scale .monthly with ⟨e, h', h1, _⟩ | ⟨a', r', h', h1, h2, h3⟩
  · rw [hb] at h1
    cases h1
  · rw [hb] at h1
    cases h1
    have hn' : allNan (h'.arr r').data = true := by rw [h3.arr]; exact hn
    simp only
    rw [H_bind_ok h2, H_get_bind, H_bind_ok h2, h3.arr]
    have g := gammaParametersH_nan E h' r' ds cs ce .monthly hn'
    rw [h3.arr] at g
    have g2 : gammaParameters E b ds cs ce .monthly = .ok (List.replicate 12 nan, List.replicate 12 nan) := by
      unfold gammaParameters
      simp only [hn, if_true]
    rw [g2] at g
    rw [H_bind_ok g]
    simp only [hn, if_true]

/-! ## Stages -/

omit [FloatOps F] in
theorem applyChunks_failed {ρ σ : Type} {g : List ρ → Res (List σ)} {e : PyErr} {rows : List ρ} (hg : ∀ l, (∀ x ∈ l, x ∈ rows) → (∃ o, g l = .ok o) ∨ g l = .error e) :
    ∀ (cs : List (Nat × Option Nat)) (out : List σ), (∃ r, applyChunks g rows cs out = .ok r) ∨ applyChunks g rows cs out = .error e := by
  intro cs
  induction cs with
  | nil => intro out; exact .inl ⟨out, rfl⟩
  | cons c cs ih =>
    intro out
    rcases hg ((rows.take (c.2.getD rows.length)).drop c.1) (fun x hx => List.mem_of_mem_take (List.mem_of_mem_drop hx)) with ⟨new, hn⟩ | hn
    · rcases ih (out.take c.1 ++ new ++ out.drop (c.2.getD out.length)) with ⟨r, hr⟩ | hr
      · exact .inl ⟨r, by unfold applyChunks; rw [hn]; exact hr⟩
      · exact .inr (by unfold applyChunks; rw [hn]; exact hr)
    · exact .inr (by unfold applyChunks; rw [hn]; rfl)

omit [FloatOps F] in
theorem mapM_failed {α β : Type} {f : α → Res β} {e : PyErr} {l : List α} (h : ∀ x ∈ l, (∃ b, f x = .ok b) ∨ f x = .error e) : (∃ o, l.mapM f = .ok o) ∨ l.mapM f = .error e := by
  by_cases hb : ∃ a ∈ l, f a = .error e
  · obtain ⟨a, ha, hf⟩ := hb
    exact .inr (CI.mapM_error f l e a ha hf h)
  · refine .inl (mapM_exists (fun x hx => ?_))
    rcases h x hx with h' | h'
    · exact h'
    · exact absurd ⟨x, hx, h'⟩ hb

/-- one row, if every series can be fitted or raises `e`, and one of them raises `e` -/
theorem fitRow_failed {op : Ref → H F (FitDict F)} {cols n p : Nat} {row : List F} {e : PyErr}
    (h : ∀ k < cols, (∃ fp r ps, cellOp op ((row.drop (k * n)).take n) = .ok (fp, r) ∧ fp.mapM (fun kv => assignSeries p (kv.2.getD [])) = .ok ps) ∨
      cellOp op ((row.drop (k * n)).take n) = .error e) :
    ((∃ o, fitRow op cols n p row = .ok o) ∨ fitRow op cols n p row = .error e) ∧
      ((∃ k < cols, cellOp op ((row.drop (k * n)).take n) = .error e) → fitRow op cols n p row = .error e) := by
  have key : ∀ j ∈ List.range cols, (∃ b, (do
      let r ← cellOp op ((row.drop (j * n)).take n)
      let ps ← r.1.mapM (fun kv => assignSeries p (kv.2.getD []))
      pure (r.2, ps) : Res (List F × List (List F))) = .ok b) ∨ (do
      let r ← cellOp op ((row.drop (j * n)).take n)
      let ps ← r.1.mapM (fun kv => assignSeries p (kv.2.getD []))
      pure (r.2, ps) : Res (List F × List (List F))) = .error e := by
    intro k hk
    rcases h k (List.mem_range.1 hk) with ⟨fp, r, ps, h1, h2⟩ | h1
    · exact .inl ⟨(r, ps), by simp only [h1, bind, Except.bind, h2]; rfl⟩
    · exact .inr (by simp only [h1, bind, Except.bind])
  constructor
  · unfold fitRow
    rcases mapM_failed key with ⟨o, ho⟩ | ho
    · exact .inl ⟨_, by rw [ho]; rfl⟩
    · exact .inr (by rw [ho]; rfl)
  · rintro ⟨k, hk, h1⟩
    unfold fitRow
    rw [CI.mapM_error _ _ e k (List.mem_range.2 hk) (by simp only [h1, bind, Except.bind]) key]
    rfl

/-- the fitting stage, if at every place the series can be fitted or raises `e`, and at one of them it raises `e` -/
theorem fitStageOpt_failed {E : Ext F} {cs ce : Option Int} {j : SpiJob} {u : String} {ds scale : Int} {dist : Distribution} {sh : Dict (Arr F)} (hit : j.inputType = .grid) (hw : 1 ≤ j.workers)
    {a b n : Nat} {dat : List F} (hv : sh j.var = some ⟨[a, b, n], dat⟩) (hdat : dat.length = a * (b * n)) (h6 : SixArrays u j.per.steps a b scale sh) {e : PyErr}
    (h : ∀ i < a, ∀ k < b, (∃ fp r ps, cellOp (fitOpOpt E dist scale ds cs ce j.per) (seriesAt b n i k dat) = .ok (fp, r) ∧ fp.mapM (fun kv => assignSeries j.per.steps (kv.2.getD [])) = .ok ps) ∨
      cellOp (fitOpOpt E dist scale ds cs ce j.per) (seriesAt b n i k dat) = .error e)
    (hbad : ∃ i < a, ∃ k < b, cellOp (fitOpOpt E dist scale ds cs ce j.per) (seriesAt b n i k dat) = .error e) : fitStageOpt E cs ce j u ds scale dist sh = .error e := by
  obtain ⟨six, e6⟩ := mapM_exists (l := fittingVariables) (f := fun v => sh.at (spiFitName u scale v)) (fun v hv => by
    obtain ⟨x, hx, _⟩ := h6 v hv
    exact ⟨x, dictAt_some hx⟩)
  have hsix : ∀ x ∈ six, x.shape = [a, b, j.per.steps] := by
    intro x hx
    obtain ⟨v, hv, h2⟩ := mapM_mem e6 x hx
    obtain ⟨y, hy, hs⟩ := h6 v hv
    rw [dictAt_some hy] at h2
    cases h2
    exact hs
  obtain ⟨fits, ef⟩ := mapM_exists (l := distVars dist) (f := fun v => sh.at (spiFitName u scale v)) (fun v hv => by
    obtain ⟨x, hx, _⟩ := h6 v (distVars_fitting hv)
    exact ⟨x, dictAt_some hx⟩)
  have hlen := mapM_len e6
  obtain ⟨first, rest, rfl⟩ : ∃ x l, six = x :: l := by
    cases six with
    | nil => simp [fittingVariables] at hlen
    | cons x l => exact ⟨x, l, rfl⟩
  have hfirst : first.shape = [a, b, j.per.steps] := hsix first (by simp)
  have hany : ((first :: rest).any fun x => x.shape != [a, b, j.per.steps]) = false := by
    rw [List.any_eq_false]
    intro x hx
    rw [hsix x hx]
    simp
  have hchain := (spiChunks_chain (spiChunks_spec a j.workers hw)).2
  have hrow : ∀ r ∈ rowsOf a dat, ((∃ o, fitRow (fitOpOpt E dist scale ds cs ce j.per) b n j.per.steps r = .ok o) ∨ fitRow (fitOpOpt E dist scale ds cs ce j.per) b n j.per.steps r = .error e) := by
    intro r hr
    obtain ⟨i, hi, hri⟩ := List.mem_iff_getElem.1 hr
    have hia : i < a := by simpa [rowsOf_length] using hi
    have hrow := rowsOf_get hdat i hia
    rw [List.getElem?_eq_getElem hi, hri] at hrow
    cases hrow
    refine (fitRow_failed (fun k hk => ?_)).1
    rw [row_series b n i k hk]
    exact h i hia k hk
  obtain ⟨i, hi, k, hk, hbad⟩ := hbad
  have hrowbad : fitRow (fitOpOpt E dist scale ds cs ce j.per) b n j.per.steps ((dat.drop (i * (b * n))).take (b * n)) = .error e := by
    refine (fitRow_failed (fun k hk => ?_)).2 ⟨k, hk, ?_⟩
    · rw [row_series b n i k hk]
      exact h i hi k hk
    · rw [row_series b n i k hk]
      exact hbad
  unfold fitStageOpt
  rw [e6]
  simp only [bind, Except.bind, getIdx, List.getElem?_cons_zero, hany, Bool.false_eq_true, if_false, hfirst, List.head?_cons, orElseRaise, spiChunks_spec a j.workers hw,
    dictAt_some hv, ef, hit, and_self, if_true]
  have hfail : applyChunks (fun rs => rs.mapM (fitRow (fitOpOpt E dist scale ds cs ce j.per) b n j.per.steps)) (rowsOf a dat) (if a < j.workers then smallChunks a else regularChunks a j.workers)
      ((List.range a).map (fun i => (((rowsOf a dat)[i]?).getD [], (List.range b).map (fun k => fits.map (fun x => (x.data.drop ((i * b + k) * j.per.steps)).take j.per.steps))))) = .error e := by
    rcases applyChunks_failed (rows := rowsOf a dat) (g := fun rs => rs.mapM (fitRow (fitOpOpt E dist scale ds cs ce j.per) b n j.per.steps)) (e := e)
      (fun l hl => mapM_failed (fun r hr => hrow r (hl r hr))) (if a < j.workers then smallChunks a else regularChunks a j.workers)
      ((List.range a).map (fun i => (((rowsOf a dat)[i]?).getD [], (List.range b).map (fun k => fits.map (fun x => (x.data.drop ((i * b + k) * j.per.steps)).take j.per.steps))))) with ⟨r, hr⟩ | hr
    · exfalso
      obtain ⟨r', h1, _⟩ := applyChunks_mapM _ _ _ 0 _ r hchain (by simp [rowsOf_length]) hr
      rw [List.drop_zero] at h1
      obtain ⟨y, _, hy⟩ := mapM_get h1 i _ (rowsOf_get hdat i hi)
      rw [hrowbad] at hy
      cases hy
    · exact hr
  rw [hfail]

omit [FloatOps F] in
theorem applyChunks_agree {ρ σ : Type} {f g : List ρ → Res (List σ)} {rows : List ρ} (h : ∀ l, (∀ x ∈ l, x ∈ rows) → f l = g l) :
    ∀ (cs : List (Nat × Option Nat)) (out : List σ), applyChunks f rows cs out = applyChunks g rows cs out := by
  intro cs
  induction cs with
  | nil => intro out; rfl
  | cons c cs ih =>
    intro out
    unfold applyChunks
    rw [h _ (fun x hx => List.mem_of_mem_take (List.mem_of_mem_drop hx))]
    simp only [ih]

/-- the fitting stage, if at every place the fit is that with the years of the job -/
theorem fitStageOpt_agree {E : Ext F} {cs ce : Option Int} {j : SpiJob} {u : String} {ds scale : Int} {dist : Distribution} {sh : Dict (Arr F)}
    {a b n : Nat} {dat : List F} (hv : sh j.var = some ⟨[a, b, n], dat⟩) (hdat : dat.length = a * (b * n))
    (h : ∀ i < a, ∀ k < b, cellOp (fitOpOpt E dist scale ds cs ce j.per) (seriesAt b n i k dat) = cellOp (fitOp E dist scale ds j.calStart j.calEnd j.per) (seriesAt b n i k dat)) :
    fitStageOpt E cs ce j u ds scale dist sh = fitStage E j u ds scale dist sh := by
  have hrow : ∀ p, ∀ r ∈ rowsOf a dat, fitRow (fitOpOpt E dist scale ds cs ce j.per) b n p r = fitRow (fitOp E dist scale ds j.calStart j.calEnd j.per) b n p r := by
    intro p r hr
    obtain ⟨i, hi, hri⟩ := List.mem_iff_getElem.1 hr
    have hia : i < a := by simpa [rowsOf_length] using hi
    have hrow := rowsOf_get hdat i hia
    rw [List.getElem?_eq_getElem hi, hri] at hrow
    cases hrow
    unfold fitRow
    have := mapM_agree (l := List.range b) (f := fun k => (do
      let r ← cellOp (fitOpOpt E dist scale ds cs ce j.per) ((((dat.drop (i * (b * n))).take (b * n)).drop (k * n)).take n)
      let ps ← r.1.mapM (fun kv => assignSeries p (kv.2.getD []))
      pure (r.2, ps) : Res (List F × List (List F)))) (g := fun k => (do
      let r ← cellOp (fitOp E dist scale ds j.calStart j.calEnd j.per) ((((dat.drop (i * (b * n))).take (b * n)).drop (k * n)).take n)
      let ps ← r.1.mapM (fun kv => assignSeries p (kv.2.getD []))
      pure (r.2, ps) : Res (List F × List (List F)))) (fun k hk => by
        rw [row_series b n i k (List.mem_range.1 hk), h i hia k (List.mem_range.1 hk)])
    rw [this]
  have hch : ∀ p chunks start, applyChunks (fun rs => rs.mapM (fitRow (fitOpOpt E dist scale ds cs ce j.per) b n p)) (rowsOf a dat) chunks start =
      applyChunks (fun rs => rs.mapM (fitRow (fitOp E dist scale ds j.calStart j.calEnd j.per) b n p)) (rowsOf a dat) chunks start :=
    fun p chunks start => applyChunks_agree (fun l hl => mapM_agree (fun r hr => hrow p r (hl r hr))) chunks start
  unfold fitStageOpt fitStage
  rw [dictAt_some hv]
  cases h1 : fittingVariables.mapM (fun v => sh.at (spiFitName u scale v)) with
  | error e => rfl
  | ok six =>
    simp only [bind, Except.bind]
    cases h2 : getIdx six 0 with
    | error e => rfl
    | ok first =>
      simp only
      by_cases hany : (six.any fun x => x.shape != first.shape) = true
      · rw [if_pos hany, if_pos hany]
      · rw [if_neg hany, if_neg hany]
        cases h3 : orElseRaise first.shape.head? PyErr.indexError with
        | error e => rfl
        | ok n0 =>
          simp only
          cases h4 : spiChunks n0 j.workers with
          | error e => rfl
          | ok chunks =>
            simp only
            cases h5 : (distVars dist).mapM (fun v => sh.at (spiFitName u scale v)) with
            | error e => rfl
            | ok fits =>
              simp only
              cases hit : j.inputType with
              | divisions => rfl
              | timeseries => rfl
              | grid =>
                rcases hfs : first.shape with _ | ⟨a', _ | ⟨b', _ | ⟨p, _ | _⟩⟩⟩
                · rfl
                · rfl
                · rfl
                · simp only [hch]
                · rfl

/-! ## The run -/

/-- the years are compared with `None`: no first year, or a first year that is not before the record and no last year -/
def YearMissing (y0 : Int) (cs ce : Option Int) : Prop := cs = none ∨ (∃ c, cs = some c ∧ y0 ≤ c) ∧ ce = none

theorem fitOpOpt_missing {y0 : Int} {cs ce : Option Int} (h : YearMissing y0 cs ce) (E : Ext F) (dist : Distribution) (scale : Int) (per : Periodicity) :
    fitOpOpt E dist scale y0 cs ce per = fitOpNoYears dist scale per := by
  funext r
  rcases h with rfl | ⟨⟨c, rfl, hc⟩, rfl⟩
  · rfl
  · simp only [fitOpOpt, if_neg (not_lt.2 hc)]

theorem missing_fit (E : Ext F) (l : List F) (scale ds cs ce : Int) (b : Arr F) (hb : scaleValues (Arr.of1d l) scale .monthly = .ok b) (hn : allNan b.data = true) :
    ∃ fp, fitVal E .gamma l scale ds cs ce .monthly = .ok fp := by
  simp only [fitVal, fitGammaVal, hb, bind, Except.bind]
  unfold gammaParameters
  simp only [hn, if_true]
  exact ⟨_, rfl⟩

/-- at the place the series has an accumulation over `s` months -/
def Accumulates (l : List F) (s : Int) : Prop := ∃ b, scaleValues (Arr.of1d l) s .monthly = .ok b ∧ allNan b.data = false

theorem not_accumulates {l : List F} {s : Int} (hs : 1 ≤ s) (h : ¬ Accumulates l s) : ∃ b, scaleValues (Arr.of1d l) s .monthly = .ok b ∧ allNan b.data = true := by
  obtain ⟨b, hb, _⟩ := scaleValues_monthly l s hs
  refine ⟨b, hb, ?_⟩
  cases hn : allNan b.data with
  | true => rfl
  | false => exact absurd ⟨b, hb, hn⟩ h

theorem spi_gamma_total [FloatLaws F] (E : Ext F) (l : List F) (s : Int) (hs : 1 ≤ s) (ds cs ce : Int) : ∃ out, spi E (Arr.of1d l) s .gamma ds cs ce .monthly none = .ok out := by
  by_cases hn : ∃ x ∈ (Arr.of1d l).data, isNan x = false
  · obtain ⟨out, ho, _⟩ := C10_gamma E (Arr.of1d l) s ds cs ce .monthly (.inl rfl) (.inl rfl) hs hn
    exact ⟨out, ho⟩
  · have : allNan (Arr.of1d l).data = true := by
      unfold allNan
      rw [List.all_eq_true]
      intro v hv
      cases hv' : isNan v with
      | true => rfl
      | false => exact absurd ⟨v, hv, hv'⟩ hn
    refine ⟨(Arr.of1d l).data, ?_⟩
    unfold spi
    simp only [this, if_true]
    rfl

variable [FloatLaws F]

theorem noYears_run (E : Ext F) (hE : ExtNan E) (yearOf : F → Int) (lower : String → String) (cs ce : Option Int) (base : String) (wk : Nat) (hwk : 1 ≤ wk) (a : SpiArgs) (w : World F)
    {d : NcFile F} {x t lat lon : NcVar F} {A B N : Nat} {mm : List F} {y0 : Int} (h : SpiReady lower yearOf a w d x t lat lon A B N mm y0) (hy : YearMissing y0 cs ce)
    {s : Int} {rest : List Int} (hs : a.scales = some (s :: rest)) (h1 : 1 ≤ s) (hpos : ∀ r ∈ rest, 0 ≤ r) :
    ∃ w', spiMainOpt E yearOf lower cs ce base wk a w = (.error .typeError, w') ∧
      ((∃ i < A, ∃ k < B, Accumulates (seriesAt B N i k mm) s) → w'.files = w.files ∧ w'.written = w.written) ∧
      ((¬ ∃ i < A, ∃ k < B, Accumulates (seriesAt B N i k mm) s) →
        (∀ f, f ≠ fileName base (spiName .gamma s false) → w'.files f = w.files f) ∧ w'.written = w.written ++ [(fileName base (spiName .gamma s false), spiName .gamma s false)] ∧
        SpiFileHolds w'.files (fileName base (spiName .gamma s false)) (spiName .gamma s false) t lat lon A B N
          (fun i k out => spi E (Arr.of1d (toolSeries .monthly [s] (seriesAt B N i k mm))) s .gamma y0 (cs.getD 0) (ce.getD 0) .monthly none = .ok out)) := by
  have hpos' : ∀ r ∈ s :: rest, 0 ≤ r := by
    intro r hr
    rcases List.mem_cons.1 hr with rfl | hr
    · omega
    · exact hpos r hr
  obtain ⟨f, d', fitting, sh, hval, hprepf, hprep, p2, p3, p4, hlive, hvar, hvk, hbuild, hfits⟩ := spiRun_start (cs.getD 0) (ce.getD 0) base wk h hs hpos'
  obtain ⟨pA, pB⟩ := h.places
  generalize hj : spiJob a .grid f (cs.getD 0) (ce.getD 0) base wk = j at hprep hlive hvar hvk
  have hu : j.per.unit = .ok "month" := by rw [← hj]; show a.periodicity.unit = _; rw [h.monthly]; rfl
  have hjp : j.per = .monthly := by rw [← hj]; exact h.monthly
  have hscj : j.scales = s :: rest := by rw [← hj]; show a.scales.getD [] = _; rw [hs]; rfl
  have hload : j.load = none := by rw [← hj]; exact h.load
  have hit : j.inputType = .grid := by rw [← hj]; rfl
  have hw : 1 ≤ j.workers := by rw [← hj]; exact hwk
  have hbase : j.base = base := by rw [← hj]; rfl
  have hrun : spiMainOpt E yearOf lower cs ce base wk a w = (do
      let g ← spiScalesOpt E cs ce j "month" y0 d' (s :: rest) fitting
      spiSave j g : SE (World F) Unit) { w with shared := sh } := by
    unfold spiMainOpt
    have g1 : (getFiles : SE (World F) (Files F)) w = (.ok w.files, w) := rfl
    have g2 : (SE.lift (spiValidateArgs w.files a) : SE (World F) InputType) w = (.ok .grid, w) := by rw [hval]; rfl
    have g3 : (SE.lift (prepareFile w.files a.netcdfPrecip a.varNamePrecip) : SE (World F) String) w = (.ok f, w) := by rw [hprepf]; rfl
    rw [SE.bind_run _ _ _ _ _ g1, SE.bind_run _ _ _ _ _ g2, SE.bind_run _ _ _ _ _ g3, hj]
    unfold spiComputeWriteOpt
    rw [hprep, hu, hscj]
  rw [hrun]
  unfold spiScalesOpt
  -- the pearson fit fails
  have hpearson : ∀ (done : List (Int × Distribution)) (w1 : World F), Live j "month" (s :: rest) A B N [A, B, N] (fun i k => seriesAt B N i k mm) done w1.shared →
      spiPairOpt E cs ce j "month" y0 d' (s, .pearson) w1 = (.error .typeError, w1) := by
    intro done w1 hl
    obtain ⟨dat, c1, c2, c3⟩ := hl.cells.1
    have hcell : ∀ l : List F, cellOp (fitOpOpt E .pearson s y0 cs ce j.per) l = .error .typeError := by
      intro l
      rw [fitOpOpt_missing hy, hjp]
      exact noYears_pearson l s h1
    have := fitStageOpt_failed (E := E) (cs := cs) (ce := ce) (ds := y0) (dist := .pearson) hit hw c1 c2 (hl.six s (by simp)) (fun i hi k hk => .inr (hcell _)) ⟨0, pA, 0, pB, hcell _⟩
    unfold spiPairOpt spiComputeOpt spiFitOpt
    simp only [hload, this, bind, Except.bind]
  obtain ⟨dat, c1, c2, c3⟩ := hlive.cells.1
  have hcell : ∀ i < A, ∀ k < B, seriesAt B N i k dat = seriesAt B N i k mm := by
    intro i hi k hk
    have := c3 i hi k hk
    beta_reduce at this
    rw [cellAfter_nil] at this
    exact this
  have hmiss : ∀ i < A, ∀ k < B, ¬ Accumulates (seriesAt B N i k mm) s → cellOp (fitOpOpt E .gamma s y0 cs ce j.per) (seriesAt B N i k dat) = cellOp (fitOp E .gamma s y0 j.calStart j.calEnd j.per) (seriesAt B N i k dat) := by
    intro i hi k hk hn
    obtain ⟨b, hb, hb'⟩ := not_accumulates h1 hn
    rw [fitOpOpt_missing hy, hjp, hcell i hi k hk]
    exact noYears_missing E _ s y0 _ _ b hb hb'
  have hfit : ∀ i < A, ∀ k < B, ¬ Accumulates (seriesAt B N i k mm) s → ∃ fp, fitVal E .gamma (seriesAt B N i k mm) s y0 j.calStart j.calEnd j.per = .ok fp := by
    intro i hi k hk hn
    obtain ⟨b, hb, hb'⟩ := not_accumulates h1 hn
    rw [hjp]
    exact missing_fit E _ s y0 _ _ b hb hb'
  by_cases hacc : ∃ i < A, ∃ k < B, Accumulates (seriesAt B N i k mm) s
  · have hst := fitStageOpt_failed (E := E) (cs := cs) (ce := ce) (ds := y0) (dist := .gamma) (u := "month") hit hw c1 c2 (hlive.six s (by simp)) (e := .typeError) (fun i hi k hk => by
      by_cases hn : Accumulates (seriesAt B N i k mm) s
      · right
        obtain ⟨b, hb, hb'⟩ := hn
        rw [fitOpOpt_missing hy, hjp, hcell i hi k hk]
        exact noYears_gamma _ s b hb h1 hb'
      · left
        obtain ⟨fp, hfp⟩ := hfit i hi k hk hn
        obtain ⟨r, hr⟩ := cellOp_fit_exists E .gamma _ s y0 j.calStart j.calEnd j.per hfp
        obtain ⟨ps, hps⟩ := fit_storable hfp
        refine ⟨fp, r, ps, ?_, hps⟩
        rw [hmiss i hi k hk hn, hcell i hi k hk]
        exact hr) (by
      obtain ⟨i, hi, k, hk, b, hb, hb'⟩ := hacc
      refine ⟨i, hi, k, hk, ?_⟩
      rw [fitOpOpt_missing hy, hjp, hcell i hi k hk]
      exact noYears_gamma _ s b hb h1 hb')
    have hg : spiPairOpt E cs ce j "month" y0 d' (s, .gamma) { w with shared := sh } = (.error .typeError, { w with shared := sh }) := by
      unfold spiPairOpt spiComputeOpt spiFitOpt
      simp only [hload, hst, bind, Except.bind]
    refine ⟨{ w with shared := sh }, ?_, fun _ => ⟨rfl, rfl⟩, fun hn => absurd hacc hn⟩
    rw [SE.bind_err (SE.bind_err hg)]
  · have hn : ∀ i < A, ∀ k < B, ¬ Accumulates (seriesAt B N i k mm) s := fun i hi k hk hc => hacc ⟨i, hi, k, hk, hc⟩
    have hst := fitStageOpt_agree (E := E) (cs := cs) (ce := ce) (u := "month") (ds := y0) (scale := s) (dist := .gamma) c1 c2 (fun i hi k hk => hmiss i hi k hk (hn i hi k hk))
    have hpair : spiPairOpt E cs ce j "month" y0 d' (s, .gamma) { w with shared := sh } = spiPair E j "month" y0 d' (s, .gamma) { w with shared := sh } := by
      unfold spiPairOpt spiPair spiComputeOpt spiCompute spiFitOpt spiFit
      simp only [hload, hst]
      rfl
    obtain ⟨w1, g1, g2, g3, g6, g7⟩ := (spiPair_live hE (j := j) (u := "month") (ds := y0) (d := d') (sd := (s, .gamma)) (w := { w with shared := sh }) (SS := s :: rest)
      hload hit hw (by simp) hvar hvk (fun s v hv => keyResult_ne "month" s v hv) pA pB (shape := [A, B, N]) (n0 := A) rfl hlive (by
        intro rdat hr
        have hb := hbuild (spiOutName .gamma s "month") rdat hr
        rw [h.monthly] at hb
        rw [hjp]
        exact hb)).1 (by
      intro i hi k hk
      rw [cellAfter_nil]
      refine ⟨hfit i hi k hk (hn i hi k hk), ?_⟩
      rw [hjp]
      exact spi_gamma_total E _ s h1 _ _ _)
    refine ⟨w1, ?_, fun hc => absurd hc hacc, fun _ => ?_⟩
    · rw [SE.bind_err]
      rw [SE.bind_run _ _ _ _ _ (hpair.trans g1), SE.bind_err (hpearson _ w1 g2)]
    · have hd : (Distribution.gamma = .gamma ∨ Distribution.gamma = .pearson) := .inl rfl
      have hdl : isDaily j.per = false := by rw [hjp]; rfl
      have hfile : spiOutFile j.base "month" s .gamma = fileName base (spiName .gamma s false) := by rw [outFile_eq hu _ _ hd, hdl, hbase]
      have hname : spiOutName .gamma s "month" = spiName .gamma s false := by rw [spiName_eq hu _ hd, hdl]
      simp only [hfile, hname] at g6 g7
      refine ⟨g6, g7, ?_⟩
      have o' := g3
      simp only at o'
      rw [show [A, B, N] = SpiShape .monthly x t lat lon y0 from h.input.grid.2.1.symm] at o'
      obtain ⟨file, y, e1, e2, e3, e4, e5, e6, e7, e8, e9⟩ := out_monthly hjp hu hd h.input.grid.2.1 p2 p3 p4 o'
      rw [hbase] at e1
      refine ⟨file, y, e1, e2, e3, e4, e5, e6, e7, e8, fun i hi k hk => ?_⟩
      have e9 := e9 i hi k hk
      beta_reduce at e9
      rw [List.nil_append, hjp, cellAfter_prefix _ (ss := [s]) (done := [(s, .gamma)]) (rest := [(s, .pearson)]) rfl, ← hj] at e9
      exact e9

/-- **C121, any arithmetic.** The calibration years are documented as optional. For a usable monthly grid and a first scale of at least 1, the SPI tool called without a first year (or without a
last year, if the first one is not before the record) always ends with TypeError; nothing is written but, at most, the gamma file of the first scale. -/
theorem C121_any (E : Ext F) (hE : ExtNan E) (toInt : String → Option Int) (ht : ∀ n : Int, toInt (toString n) = some n) (cpus : Nat) (lower : String → String) (yearOf : F → Int)
    (q : String → Bool) (c : SpiCommand) (hc : SpiWritable q c) (hcpu : 1 ≤ numberOfWorkers c.multiprocessing cpus) (w : World F) {d : NcFile F} {x t lat lon : NcVar F} {A B N : Nat} {mm : List F}
    {y0 : Int} (h : SpiReady lower yearOf c.args w d x t lat lon A B N mm y0) (hy : YearMissing y0 c.calibrationStart c.calibrationEnd)
    {s : Int} {rest : List Int} (hs : c.args.scales = some (s :: rest)) (h1 : 1 ≤ s) (hpos : ∀ r ∈ rest, 0 ≤ r) :
    ∃ w', spiTool E toInt cpus lower yearOf (spiCommandLine q c) w = (.ended (.error .typeError), w') ∧
      (∀ f, f ≠ fileName c.outputFileBase (spiName .gamma s false) → w'.files f = w.files f) ∧
      (w'.written = w.written ∨ w'.written = w.written ++ [(fileName c.outputFileBase (spiName .gamma s false), spiName .gamma s false)]) := by
  obtain ⟨w', r1, r2, r3⟩ := noYears_run E hE yearOf lower c.calibrationStart c.calibrationEnd c.outputFileBase (numberOfWorkers c.multiprocessing cpus) hcpu c.args w h hy hs h1 hpos
  refine ⟨w', ?_, ?_⟩
  · unfold spiTool
    rw [C105_spi toInt ht q c hc]
    simp only [r1]
  · by_cases hacc : ∃ i < A, ∃ k < B, Accumulates (seriesAt B N i k mm) s
    · obtain ⟨k1, k2⟩ := r2 hacc
      exact ⟨fun f _ => by rw [k1], .inl k2⟩
    · obtain ⟨k1, k2, _⟩ := r3 hacc
      exact ⟨k1, .inr k2⟩

end

section
variable {F : Type} [FloatOps F]

/-! ## When a missing year does not matter -/

theorem calibrationValues_start {α : Type} (data : List α) (n p : Nat) (ds c e e' : Int) (h : c < ds) : calibrationValues data n p ds c e = calibrationValues data n p ds c e' := by
  unfold calibrationValues adjustCalibrationYears
  simp only
  rw [if_pos (.inl h), if_pos (.inl h)]

theorem fitOp_start (E : Ext F) (dist : Distribution) (scale ds c e e' : Int) (per : Periodicity) (h : c < ds) : fitOp E dist scale ds c e per = fitOp E dist scale ds c e' per := by
  have h1 : ∀ a : Arr F, gammaFitArr E a ds c e = gammaFitArr E a ds c e' := by
    intro a
    unfold gammaFitArr
    simp only [fun (x : List F) n p => calibrationValues_start x n p ds c e e' h]
  have h2 : ∀ r : Ref, gammaParametersH E r ds c e per = gammaParametersH E r ds c e' per := by
    intro r
    unfold gammaParametersH
    simp only [h1]
  have h3 : ∀ a : Arr F, pearsonParameters (lmomentsFit E) a ds c e per = pearsonParameters (lmomentsFit E) a ds c e' per := by
    intro a
    unfold pearsonParameters
    simp only [fun (x : List F) n p => calibrationValues_start x n p ds c e e' h]
  funext r
  cases dist with
  | gamma => simp only [fitOp, fitGammaH, h2]
  | pearson => simp only [fitOp, fitPearsonH, h3]
  | other => rfl

theorem fitOpOpt_start (E : Ext F) (dist : Distribution) (scale ds c e : Int) (per : Periodicity) (h : c < ds) : fitOpOpt E dist scale ds (some c) none per = fitOp E dist scale ds c e per := by
  funext r
  simp only [fitOpOpt, if_pos h]
  rw [fitOp_start E dist scale ds c ds e per h]

/-- **C121, first year before the record.** Without a last year, but with a first year before the record, the run is the one with any last year: the whole record is the calibration period. -/
theorem C121_before [FloatLaws F] (E : Ext F) (yearOf : F → Int) (lower : String → String) (c e : Int) (base : String) (wk : Nat) (a : SpiArgs) (w : World F)
    {d : NcFile F} {x t lat lon : NcVar F} {A B N : Nat} {mm : List F} {y0 : Int} (h : SpiReady lower yearOf a w d x t lat lon A B N mm y0) (hc : c < y0)
    {scales : List Int} (hs : a.scales = some scales) (hpos : ∀ s ∈ scales, 0 ≤ s) :
    spiMainOpt E yearOf lower (some c) none base wk a w = spiMain E yearOf lower c e base wk a w := by
  obtain ⟨f, d', fitting, sh, hval, hprepf, hprep, _⟩ := spiRun_start c e base wk h hs hpos
  have hst : ∀ u scale dist sh, fitStageOpt E (some c) none (spiJob a .grid f c 0 base wk) u y0 scale dist sh = fitStage E (spiJob a .grid f c e base wk) u y0 scale dist sh := by
    intro u scale dist sh
    unfold fitStageOpt fitStage
    simp only [fitOpOpt_start E dist scale y0 c e _ hc]
    rfl
  have hpair : ∀ u d sd, spiPairOpt E (some c) none (spiJob a .grid f c 0 base wk) u y0 d sd = spiPair E (spiJob a .grid f c e base wk) u y0 d sd := by
    intro u d sd
    funext w
    unfold spiPairOpt spiPair spiComputeOpt spiCompute spiFitOpt spiFit
    simp only [hst, spiStage_given E a .grid f c 0 c e]
    rfl
  have hsc : ∀ u d l g, spiScalesOpt E (some c) none (spiJob a .grid f c 0 base wk) u y0 d l g = spiScales E (spiJob a .grid f c e base wk) u y0 d l g := by
    intro u d l
    induction l with
    | nil => intro g; rfl
    | cons s l ih =>
      intro g
      unfold spiScalesOpt spiScales
      simp only [hpair, ih]
  have hprep' : spiPrepare yearOf lower (spiJob a .grid f c 0 base wk) w = .ok (d', fitting, y0, sh) := hprep
  unfold spiMainOpt spiMain
  have g1 : (getFiles : SE (World F) (Files F)) w = (.ok w.files, w) := rfl
  have g2 : (SE.lift (spiValidateArgs w.files a) : SE (World F) InputType) w = (.ok .grid, w) := by rw [hval]; rfl
  have g3 : (SE.lift (prepareFile w.files a.netcdfPrecip a.varNamePrecip) : SE (World F) String) w = (.ok f, w) := by rw [hprepf]; rfl
  rw [SE.bind_run _ _ _ _ _ g1, SE.bind_run _ _ _ _ _ g2, SE.bind_run _ _ _ _ _ g3, SE.bind_run _ _ _ _ _ g1, SE.bind_run _ _ _ _ _ g2, SE.bind_run _ _ _ _ _ g3]
  show spiComputeWriteOpt E (some c) none yearOf lower (spiJob a .grid f c 0 base wk) w = spiComputeWrite E yearOf lower (spiJob a .grid f c e base wk) w
  unfold spiComputeWriteOpt spiComputeWrite
  rw [hprep, hprep']
  have hu : ∀ e, (spiJob a .grid f c e base wk).per.unit = .ok "month" := by
    intro e
    show a.periodicity.unit = _
    rw [h.monthly]
    rfl
  rw [hu, hu]
  simp only [hsc]
  rfl

/-- **C121, loaded parameters.** With `--load_params` the years do not matter, given or not. -/
theorem C121_loaded (E : Ext F) (yearOf : F → Int) (lower : String → String) (cs ce : Option Int) (c e : Int) (base : String) (wk : Nat) (a : SpiArgs) (hl : a.loadParams.isSome) (w : World F) :
    spiMainOpt E yearOf lower cs ce base wk a w = spiMain E yearOf lower c e base wk a w := by
  rw [C107_loaded E yearOf lower c e (cs.getD 0) (ce.getD 0) base wk a hl w]
  have hpair : ∀ it f u ds d sd, spiPairOpt E cs ce (spiJob a it f (cs.getD 0) (ce.getD 0) base wk) u ds d sd = spiPair E (spiJob a it f (cs.getD 0) (ce.getD 0) base wk) u ds d sd := by
    intro it f u ds d sd
    obtain ⟨g, hg⟩ := Option.isSome_iff_exists.1 hl
    funext w
    unfold spiPairOpt spiPair spiComputeOpt spiCompute spiFitOpt spiFit
    rw [show (spiJob a it f (cs.getD 0) (ce.getD 0) base wk).load = some g from hg]
    rfl
  have hsc : ∀ it f u ds d l g, spiScalesOpt E cs ce (spiJob a it f (cs.getD 0) (ce.getD 0) base wk) u ds d l g = spiScales E (spiJob a it f (cs.getD 0) (ce.getD 0) base wk) u ds d l g := by
    intro it f u ds d l
    induction l with
    | nil => intro g; rfl
    | cons s l ih =>
      intro g
      unfold spiScalesOpt spiScales
      simp only [hpair, ih]
  have h : ∀ it f, spiComputeWriteOpt E cs ce yearOf lower (spiJob a it f (cs.getD 0) (ce.getD 0) base wk) = spiComputeWrite E yearOf lower (spiJob a it f (cs.getD 0) (ce.getD 0) base wk) := by
    intro it f
    funext w
    unfold spiComputeWriteOpt spiComputeWrite
    simp only [hsc]
    rfl
  unfold spiMainOpt spiMain
  simp only [h]

end

theorem accumulates_iff (x : List (Option ℝ)) (hx : ∀ a, some a ∈ x → 0 ≤ a) (k : ℕ) (h1 : 1 ≤ k) (h2 : k ≤ x.length) :
    Accumulates (x.map toFl) (k : Int) ↔ ∃ t v, accum x k t = some v := by
  by_cases hs : ∃ a, some a ∈ x
  · have hsc := scaleValues_toFl x hx k h1 h2 .monthly (by decide) hs
    constructor
    · rintro ⟨b, hb, hn⟩
      rw [hsc] at hb
      cases hb
      by_contra hc
      push Not at hc
      have : allNan (accumData x k Periodicity.monthly.steps) = true := by
        unfold allNan
        rw [List.all_eq_true]
        intro v hv
        obtain ⟨t, _, rfl⟩ := List.mem_map.1 hv
        cases he : accum x k t with
        | none => rfl
        | some a => exact absurd he (hc t a)
      simp only at hn
      rw [this] at hn
      cases hn
    · rintro ⟨t, v, hv⟩
      refine ⟨_, hsc, ?_⟩
      apply allNan_false
      refine ⟨toFl (some v), List.mem_map.2 ⟨t, ?_, by rw [hv]⟩, rfl⟩
      have ht : t < x.length := by
        by_contra hc
        unfold accum at hv
        simp only at hv
        rw [if_neg (by tauto)] at hv
        cases hv
      rw [List.mem_range]
      have : x.length ≤ yearsOf x.length Periodicity.monthly.steps * Periodicity.monthly.steps := by
        unfold yearsOf
        show _ ≤ _ * 12
        simp only [Periodicity.steps]
        omega
      omega
  · constructor
    · rintro ⟨b, hb, hn⟩
      exfalso
      have hall : allNan (x.map toFl) = true := by
        unfold allNan
        rw [List.all_eq_true]
        intro v hv
        obtain ⟨o, ho, rfl⟩ := List.mem_map.1 hv
        cases o with
        | none => rfl
        | some a => exact absurd ⟨a, ho⟩ hs
      unfold scaleValues at hb
      rw [if_pos (.inr rfl)] at hb
      simp only [Arr.of1d, hall, if_true] at hb
      cases hb
      simp only [hall] at hn
      cases hn
    · rintro ⟨t, v, hv⟩
      exfalso
      unfold accum at hv
      simp only at hv
      split at hv
      swap
      · cases hv
      next hc =>
      have hne : (x.drop (t + 1 - k)).take k ≠ [] := by
        rw [← List.length_pos_iff, List.length_take, List.length_drop]
        omega
      obtain ⟨o, ho⟩ := List.exists_mem_of_ne_nil _ hne
      obtain ⟨a, rfl⟩ := Option.isSome_iff_exists.1 (List.all_eq_true.1 hc.2.2 o ho)
      exact hs ⟨a, List.mem_of_mem_drop (List.mem_of_mem_take ho)⟩

/-- the gamma SPI of a record without accumulations -/
theorem spi_no_accumulation (E : Ext (Fl ℝ)) (hE : ExtNan E) (x : List (Option ℝ)) (s : ℕ) (h1 : 1 ≤ s) (hno : ∀ t, accum x s t = none) (ds cs ce : Int) (out : List (Fl ℝ))
    (h : spi E (Arr.of1d ((remaining [s] x).map toFl)) s .gamma ds cs ce .monthly none = .ok out) : ∀ v ∈ out, v = .nan := by
  have hlenr := remaining_length [s] x
  have hout := C10_size E hE _ _ _ _ _ _ _ _ _ h
  have hol : out.length = x.length := by rw [hout]; simp [Arr.of1d, hlenr]
  by_cases hs : ∃ a, some a ∈ remaining [s] x
  · intro v hv
    obtain ⟨i, hi, rfl⟩ := List.mem_iff_getElem.1 hv
    have hix : i < x.length := by omega
    have hn : ∃ v ∈ (Arr.of1d ((remaining [s] x).map toFl)).data, isNan v = false := by
      obtain ⟨a, ha⟩ := hs
      exact ⟨toFl (some a), List.mem_map.2 ⟨_, ha, rfl⟩, rfl⟩
    have hkeep : ∀ n : ℕ, x[n]? = some none → (remaining [s] x)[n]? = some none := by
      intro n hn
      unfold remaining
      split
      · simp [List.getElem?_map, hn]
      · exact hn
    have key := C11_missing E hE _ _ _ _ _ _ _ _ _ hn h i (by simp [Arr.of1d, hlenr, hix]) (by
      by_cases hlt : i + 1 < s
      · left
        exact_mod_cast hlt
      · right
        have ha := hno i
        unfold accum at ha
        simp only at ha
        split at ha
        · cases ha
        next hc =>
        have hall : ¬ ((x.drop (i + 1 - s)).take s).all Option.isSome = true := fun hall => hc ⟨by omega, hix, hall⟩
        rw [List.all_eq_true] at hall
        push Not at hall
        obtain ⟨o, ho, hno'⟩ := hall
        obtain ⟨n, hn', rfl⟩ := List.mem_iff_getElem.1 ho
        rw [List.length_take, List.length_drop] at hn'
        have hno' : x[i + 1 - s + n]? = some none := by
          rw [List.getElem_take, List.getElem_drop] at hno'
          rw [List.getElem?_eq_getElem (by omega)]
          simpa using hno'
        refine ⟨s - 1 - n, by omega, by omega, ?_⟩
        have e : i - (s - 1 - n) = i + 1 - s + n := by omega
        rw [e]
        show ((remaining [s] x).map toFl)[i + 1 - s + n]? = _
        rw [List.getElem?_map, hkeep _ hno']
        rfl)
    rw [List.getElem?_eq_getElem hi] at key
    exact Option.some.inj key
  · rw [spi_missing E _ hs] at h
    cases h
    intro v hv
    obtain ⟨o, ho, rfl⟩ := List.mem_map.1 hv
    cases o with
    | none => rfl
    | some a => exact absurd ⟨a, ho⟩ hs

/-- **C121, exactly.** In exact arithmetic, for precipitation that is not negative: the SPI tool called without the calibration years (as in `YearMissing`) ends with TypeError. If some place has
`s` successive months with values, `s` the first scale, then no file is written or changed. Otherwise exactly the gamma file of the first scale is written, with missing values only. -/
theorem C121_exact (E : Ext (Fl ℝ)) (hE : ExtNan E) (toInt : String → Option Int) (ht : ∀ n : Int, toInt (toString n) = some n) (cpus : Nat) (lower : String → String) (yearOf : Fl ℝ → Int)
    (q : String → Bool) (c : SpiCommand) (hc : SpiWritable q c) (hcpu : 1 ≤ numberOfWorkers c.multiprocessing cpus) (w : World (Fl ℝ)) {d : NcFile (Fl ℝ)} {x t lat lon : NcVar (Fl ℝ)}
    {A B N : Nat} {vals : List (Option ℝ)} {y0 : Int} (h : SpiReady lower yearOf c.args w d x t lat lon A B N (vals.map toFl) y0) (hnn : ∀ u, some u ∈ vals → 0 ≤ u)
    (hy : YearMissing y0 c.calibrationStart c.calibrationEnd) (s : ℕ) (rest : List ℕ) (hs : c.args.scales = some ((s :: rest).map Int.ofNat)) (h1 : 1 ≤ s) (h2 : s ≤ N) :
    ∃ w', spiTool E toInt cpus lower yearOf (spiCommandLine q c) w = (.ended (.error .typeError), w') ∧
      ((∃ i < A, ∃ k < B, ∃ t v, accum (seriesAt B N i k vals) s t = some v) → w'.files = w.files ∧ w'.written = w.written) ∧
      ((∀ i < A, ∀ k < B, ∀ t, accum (seriesAt B N i k vals) s t = none) →
        w'.written = w.written ++ [(c.outputFileBase ++ "_spi_gamma_" ++ toString s ++ "_month.nc", "spi_gamma_" ++ toString s ++ "_month")] ∧
        (∀ f, f ≠ c.outputFileBase ++ "_spi_gamma_" ++ toString s ++ "_month.nc" → w'.files f = w.files f) ∧
        SpiFileHolds w'.files (c.outputFileBase ++ "_spi_gamma_" ++ toString s ++ "_month.nc") ("spi_gamma_" ++ toString s ++ "_month") t lat lon A B N
          (fun _ _ out => ∀ v ∈ out, v = .nan)) := by
  have hlen : ∀ i < A, ∀ k < B, (seriesAt B N i k vals).length = N := by
    intro i hi k hk
    obtain ⟨u, hu, hc⟩ := h.units
    have := seriesAt_len (.inl ⟨rfl, h.input.grid.2.1⟩ : IsLayout .grid x.shape A B N) (by rw [convert_length.1 hc, h.input.grid.2.1]; simpa using h.input.grid.2.2) hi hk
    rw [seriesAt_toFl, List.length_map] at this
    exact this
  have hiff : (∃ i < A, ∃ k < B, Accumulates (seriesAt B N i k (vals.map toFl)) (Int.ofNat s)) ↔ ∃ i < A, ∃ k < B, ∃ t v, accum (seriesAt B N i k vals) s t = some v := by
    have key : ∀ i < A, ∀ k < B, (Accumulates (seriesAt B N i k (vals.map toFl)) (Int.ofNat s) ↔ ∃ t v, accum (seriesAt B N i k vals) s t = some v) := by
      intro i hi k hk
      rw [seriesAt_toFl]
      exact accumulates_iff _ (fun u hu => hnn u (List.mem_of_mem_drop (List.mem_of_mem_take hu))) s h1 (by have := hlen i hi k hk; unfold seriesAt at this; rw [this]; exact h2)
    constructor
    · rintro ⟨i, hi, k, hk, hq⟩
      exact ⟨i, hi, k, hk, (key i hi k hk).1 hq⟩
    · rintro ⟨i, hi, k, hk, hq⟩
      exact ⟨i, hi, k, hk, (key i hi k hk).2 hq⟩
  obtain ⟨w', r1, r2, r3⟩ := noYears_run E hE yearOf lower c.calibrationStart c.calibrationEnd c.outputFileBase (numberOfWorkers c.multiprocessing cpus) hcpu c.args w h hy
    (s := Int.ofNat s) (rest := rest.map Int.ofNat) hs (by show (1 : Int) ≤ (s : Int); exact_mod_cast h1) (by
      intro r hr
      obtain ⟨n, _, rfl⟩ := List.mem_map.1 hr
      exact Int.natCast_nonneg n)
  obtain ⟨n1, n2, n3, n4⟩ := spi_names c.outputFileBase s
  refine ⟨w', ?_, fun hacc => r2 (hiff.2 hacc), fun hno => ?_⟩
  · unfold spiTool
    rw [C105_spi toInt ht q c hc]
    simp only [r1]
  · obtain ⟨k1, k2, k3⟩ := r3 (by
      rw [hiff]
      rintro ⟨i, hi, k, hk, t, v, hv⟩
      rw [hno i hi k hk t] at hv
      cases hv)
    rw [show Int.ofNat s = (s : Int) from rfl] at k1 k2 k3
    rw [n3] at k1 k2 k3
    rw [n1] at k2 k3
    obtain ⟨file, y, e1, e2, e3, e4, e5, e6, e7, e8, e9⟩ := k3
    refine ⟨k2, k1, file, y, e1, e2, e3, e4, e5, e6, e7, e8, fun i hi k hk => ?_⟩
    have e9 := e9 i hi k hk
    beta_reduce at e9 ⊢
    have hx : ∀ u, some u ∈ seriesAt B N i k vals → 0 ≤ u := fun u hu => hnn u (List.mem_of_mem_drop (List.mem_of_mem_take hu))
    rw [seriesAt_toFl, show [(s : Int)] = [s].map Int.ofNat from rfl, toolSeries_toFl [s] _ hx] at e9
    exact spi_no_accumulation E hE _ s h1 (hno i hi k hk) _ _ _ _ e9

/-! ## Concrete cases -/

/-- the command for the place with 0, 1, 2, 4 and 8 mm, without calibration years -/
def openCommand : SpiCommand := ⟨spiArgs [1, 3] none none, "out", none, none, .single⟩

theorem open_writable : SpiWritable (fun _ => false) openCommand := by
  refine ⟨⟨rfl, rfl⟩, (by decide : Periodicity.monthly ≠ .other), ?_⟩
  intro p hp _ t ht
  simp only [openCommand, spiArgs, List.mem_cons, List.not_mem_nil, or_false] at hp
  rcases hp with rfl | rfl | rfl | rfl | rfl <;> cases ht <;> exact .inl (by decide)

example : spiCommandLine (fun _ => false) openCommand =
    ["--periodicity", "monthly", "--scales", "1", "3", "--netcdf_precip", "p.nc", "--var_name_precip", "prcp", "--output_file_base", "out", "--multiprocessing", "single"] := by decide +kernel

/-- without years nothing is computed for that place -/
example (toInt : String → Option Int) (ht : ∀ n : Int, toInt (toString n) = some n) :
    ∃ w', spiTool unitExt toInt 1 id pairYear (spiCommandLine (fun _ => false) openCommand) gaugeWorld = (.ended (.error .typeError), w') ∧ w'.files = gaugeWorld.files ∧ w'.written = [] := by
  obtain ⟨w', h1, h2, _⟩ := C121_exact unitExt unitExt_nan toInt ht 1 id pairYear (fun _ => false) openCommand open_writable (by decide) gaugeWorld (gauge_ready [1, 3]) steps5_nonneg (.inl rfl)
    1 [3] rfl le_rfl (by norm_num)
  obtain ⟨h3, h4⟩ := h2 ⟨0, by norm_num, 0, by norm_num, 0, _, by rw [solo_series]; exact accum_steps5 0 (by norm_num)⟩
  exact ⟨w', h1, h3, h4⟩

/-- C121 for a first year before the record -/
example := C121_before toyExt rainYear id 1990 2001 "out" 3 (spiArgs [1, 3] none none) rainWorld (rain_ready [1, 3] none (by intro f hf; cases hf)) (by norm_num) rfl (by decide)

example : (spiMainOpt toyExt rainYear id (some 1990) none "out" 3 (spiArgs [3] none none) rainWorld).1 = .ok () := by decide +kernel
example : (spiMainOpt toyExt rainYear id (some 2000) none "out" 3 (spiArgs [3] none none) rainWorld).1 = .error .typeError := by decide +kernel

end CI.Props
