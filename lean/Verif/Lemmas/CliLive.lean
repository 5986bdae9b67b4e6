import Verif.Lemmas.CliCells

/-!
# Lemmas about when a computation of the command line tool finishes
-/

namespace CI
open Spec

theorem mapM_exists {α β : Type} {f : α → Res β} : ∀ {l : List α}, (∀ x ∈ l, ∃ y, f x = .ok y) → ∃ o, l.mapM f = .ok o := by
  intro l
  induction l with
  | nil => intro _; exact ⟨[], rfl⟩
  | cons x l ih =>
    intro h
    obtain ⟨y, hy⟩ := h x (by simp)
    obtain ⟨o, ho⟩ := ih (fun z hz => h z (by simp [hz]))
    exact ⟨y :: o, by rw [List.mapM_cons, hy, ho]; rfl⟩

theorem applyChunks_exists {ρ σ : Type} {g : List ρ → Res (List σ)} {rows : List ρ} (hg : ∀ l, (∀ x ∈ l, x ∈ rows) → ∃ o, g l = .ok o) :
    ∀ (cs : List (Nat × Option Nat)) (out : List σ), ∃ r, applyChunks g rows cs out = .ok r := by
  intro cs
  induction cs with
  | nil => intro out; exact ⟨out, rfl⟩
  | cons c cs ih =>
    intro out
    obtain ⟨new, hn⟩ := hg ((rows.take (c.2.getD rows.length)).drop c.1) (fun x hx => List.mem_of_mem_take (List.mem_of_mem_drop hx))
    obtain ⟨r, hr⟩ := ih (out.take c.1 ++ new ++ out.drop (c.2.getD out.length))
    refine ⟨r, ?_⟩
    rw [applyChunks, hn]
    exact hr

theorem rowFunc_exists {F : Type} {func : List F → List F → Res (List F)} {cols n : Nat} {r : List F × List F}
    (h : ∀ k < cols, ∃ s t, func ((r.1.drop (k * n)).take n) ((r.2.drop (k * n)).take n) = .ok s ∧ assignSeries n s = .ok t) : ∃ o, rowFunc func cols n false r = .ok o := by
  obtain ⟨parts, hp⟩ := mapM_exists (l := List.range cols)
    (f := fun j => do
      let out ← func ((r.1.drop (j * n)).take n) (if false then r.2 else (r.2.drop (j * n)).take n)
      assignSeries n out) (fun k hk => by
    obtain ⟨s, t, h1, h2⟩ := h k (List.mem_range.1 hk)
    refine ⟨t, ?_⟩
    simp only [Bool.false_eq_true, if_false, h1]
    exact h2)
  refine ⟨parts.flatten, ?_⟩
  unfold rowFunc
  simp only [hp]
  rfl

/-- all rows of a grid -/
theorem rows_exist {F : Type} {func : List F → List F → Res (List F)} {a b n : Nat} {x : List F} (cs : List (Nat × Option Nat)) (o : List (List F)) (hx : x.length = a * (b * n))
    (h : ∀ i < a, ∀ k < b, ∃ s t, func (seriesAt b n i k x) (seriesAt b n i k x) = .ok s ∧ assignSeries n s = .ok t) :
    ∃ out, applyChunks (fun rs => rs.mapM (rowFunc func b n false)) ((rowsOf a x).zip (rowsOf a x)) cs o = .ok out := by
  refine applyChunks_exists (fun l hl => mapM_exists (fun r hr => ?_)) cs o
  have hm := hl r hr
  obtain ⟨i, hi, hri⟩ := List.mem_iff_getElem.1 hm
  have hia : i < a := by simpa [rowsOf_length] using hi
  have hrow := rowsOf_get hx i hia
  have e : r = ((x.drop (i * (b * n))).take (b * n), (x.drop (i * (b * n))).take (b * n)) := by
    have := List.getElem?_eq_getElem hi
    rw [hri, List.getElem?_zip_eq_some] at this
    rw [hrow] at this
    exact Prod.ext (Option.some.inj this.1).symm (Option.some.inj this.2).symm
  subst e
  refine rowFunc_exists (fun k hk => ?_)
  simp only [row_series b n i k hk]
  exact h i hia k hk

section
variable {F : Type} [FloatOps F]

omit [FloatOps F] in
/-- the parallel computation of SPI or PNP finishes if it does at every place -/
theorem parallelProcess_exists {K : Job → List F → List F → Res (List F)} {wk : Nat} {j : Job} {arr res : Arr F} {a b n : Nat} (hi : j.index = "spi" ∨ j.index = "pnp")
    (hl : IsLayout j.inputType arr.shape a b n) (hf : arr.WF) (hr : res.shape = arr.shape ∧ res.WF) (ha : 1 ≤ a) (hw : 1 ≤ wk)
    (h : ∀ i < a, ∀ k < b, ∃ s t, K j (seriesAt b n i k arr.data) (seriesAt b n i k arr.data) = .ok s ∧ assignSeries n s = .ok t) :
    ∃ out, parallelProcess K wk j arr arr res = .ok out := by
  have hnp : (j.index == "pet") = false := by rcases hi with hi | hi <;> rw [hi] <;> decide
  have hmem : j.index ∈ ["spi", "pnp", "spei", "pet"] := by rcases hi with hi | hi <;> rw [hi] <;> decide
  have hnp' : j.index ≠ "pet" := by rcases hi with hi | hi <;> rw [hi] <;> decide
  have hns : j.index ≠ "spei" := by rcases hi with hi | hi <;> rw [hi] <;> decide
  have hlen : arr.data.length = a * (b * n) := layout_length hl hf
  have hh : orElseRaise res.shape.head? PyErr.indexError = .ok a := by
    rw [hr.1]
    rcases hl with ⟨_, e⟩ | ⟨_, e, _⟩ <;> rw [e] <;> rfl
  have hv : viewShape j arr arr res = .ok arr.shape := by
    unfold viewShape
    have e1 : arr.data.length = res.data.length := by rw [hr.2, hr.1]; exact hf
    rw [if_neg (by push_neg; exact ⟨e1, hr.2⟩), if_neg hns, if_neg hnp']
  obtain ⟨out, ho⟩ := rows_exist (func := K j) (regularChunks a (min a wk)) (rowsOf a res.data) hlen h
  refine ⟨out.flatten, ?_⟩
  unfold parallelProcess
  rw [hh]
  simp only [bind, Except.bind, mainChunks_spec a wk ha hw, if_pos hmem, hv, hnp]
  rcases hl with ⟨e1, e2⟩ | ⟨e1, e2, e3⟩
  · rw [e1, e2]
    simp only [ho]
    rfl
  · rw [e1, e2]
    rw [e3] at ho
    simp only [ho]
    rfl

variable {K : Int → Job → List F → List F → Res (List F)} {wk : Nat} {lower : String → String} {yearOf : F → Int}

/-- a failed computation leaves all files and the log as they are -/
theorem cwi_error {j : Job} {w w' : World F} {e : PyErr} (h : computeWriteIndex K wk lower yearOf j w = (.error e, w')) : w'.files = w.files ∧ w'.written = w.written := by
  unfold computeWriteIndex at h
  split at h
  · cases h; exact ⟨rfl, rfl⟩
  · split at h
    · simp only [Prod.mk.injEq] at h
      rw [← h.2]
      exact ⟨rfl, rfl⟩
    · simp only [] at h
      split at h
      · cases h; exact ⟨rfl, rfl⟩
      · split at h
        · cases h; exact ⟨rfl, rfl⟩
        · cases h

/-- what a computation of SPI or PNP from monthly precipitation needs: file, variable, coordinates, units -/
structure Loadable (lower : String → String) (yearOf : F → Int) (it : InputType) (fs : Files F) (f v : String) (d : NcFile F) (x : NcVar F) (mm : List F) (y0 : Int) : Prop where
  opened : fs f = some d
  found : List.lookup v d = some x
  wf : x.data.length = x.shape.foldr (· * ·) 1
  name : v ≠ "lat" ∧ v ≠ keyResult
  year : firstYear yearOf d = .ok y0
  units : ∃ u, x.units = some u ∧ convertPrecip (lower u) x.data = .ok mm
  dims : dropDimsOk it x.dims = true
  place : it = .grid ∨ it = .divisions ∧ x.shape.length = 2 ∧ ∃ l, List.lookup "lat" d = some l ∧ divisionDimsOk l.dims = true ∧ l.shape.length ≠ 2

theorem loadInputs_precip {j : Job} {w : World F} {f v : String} {d : NcFile F} {x : NcVar F} {mm : List F} {y0 : Int} (hi : j.index = "spi" ∨ j.index = "pnp") (hp : j.precip = some (f, v))
    (ht : j.temp = none) (he : j.pet = none) (hper : j.periodicity ≠ .daily) (hL : Loadable lower yearOf j.inputType w.files f v d x mm y0) :
    ∃ sh : Dict (Arr F), loadInputs lower yearOf j w = .ok (d, y0, x, sh, x.shape) ∧ sh v = some ⟨x.shape, mm⟩ ∧ sh keyResult = w.shared keyResult := by
  obtain ⟨u, hu, hc⟩ := hL.units
  have hopen : openAll w.files ((j.precip.toList ++ j.temp.toList ++ j.pet.toList).map Prod.fst) = .ok d := by
    rw [hp, ht, he]
    simp [openAll, openFile, hL.opened, coordsAgree, bind, Except.bind, pure, Except.pure]
  have hlike : outputLike j = .ok v := by unfold outputLike; rw [hp]
  have hget : d.get v = .ok x := by unfold NcFile.get; rw [hL.found]
  have hp1 : convertInput lower convertPrecip d j.precip = .ok [(v, { x with data := mm })] := by
    rw [hp]
    simp only [convertInput, hget, bind, Except.bind, convertVar, hu, hc]
    rfl
  have hmem : j.index ∈ ["spi", "spei", "pnp", "palmers", "pet"] := by rcases hi with hi | hi <;> rw [hi] <;> decide
  have hdv : ∀ p : String × NcVar F, dropDimsOk j.inputType p.2.dims = true → dropVar yearOf j d p = .ok p := by
    intro p hd
    unfold dropVar
    rw [if_pos hd]
    have : dailyValues yearOf j.periodicity d p.2 = .ok ⟨p.2.shape, p.2.data⟩ := by
      unfold dailyValues
      split
      · next e => exact absurd e hper
      · rfl
    split
    · rfl
    · rw [this]; rfl
  rcases hL.place with hit | ⟨hit, hsh, l, hl1, hl2, hl3⟩
  · have hcv : convertInputs lower d j = .ok [(v, { x with data := mm })] := by
      unfold convertInputs
      rw [hp1, ht, he, hit]
      rfl
    have hm : [(v, { x with data := mm })].mapM (dropVar yearOf j d) = .ok [(v, { x with data := mm })] := by
      simp [List.mapM_cons, hdv (v, { x with data := mm }) hL.dims, bind, Except.bind, pure, Except.pure]
    refine ⟨w.shared.put v ⟨x.shape, mm⟩, ?_, by simp [Dict.put], by simp [Dict.put, hL.name.2.symm]⟩
    unfold loadInputs
    simp only [bind, Except.bind, hopen, hL.year, hlike, hget, hcv]
    unfold dropData
    simp only [bind, Except.bind, hm, hit]
    simp only [outputShape, List.getLast?_singleton, Option.map_some, if_pos hmem, List.foldl]
    rfl
  · have hgl : d.get "lat" = .ok l := by unfold NcFile.get; rw [hl1]
    have hcv : convertInputs lower d j = .ok [(v, { x with data := mm }), ("lat", l)] := by
      unfold convertInputs
      rw [hp1, ht, he, hit]
      simp only [latInput, hgl, convertInput, bind, Except.bind]
      rfl
    have hm : [(v, { x with data := mm }), ("lat", l)].mapM (dropVar yearOf j d) = .ok [(v, { x with data := mm }), ("lat", l)] := by
      simp [List.mapM_cons, hdv (v, { x with data := mm }) hL.dims, hdv ("lat", l) (by rw [hit]; exact hl2), bind, Except.bind, pure, Except.pure]
    refine ⟨(w.shared.put v ⟨x.shape, mm⟩).put "lat" ⟨l.shape, l.data⟩, ?_, by simp [Dict.put, hL.name.1], by
      have : keyResult ≠ "lat" := by decide
      simp [Dict.put, hL.name.2.symm, this]⟩
    unfold loadInputs
    simp only [bind, Except.bind, hopen, hL.year, hlike, hget, hcv]
    unfold dropData
    simp only [bind, Except.bind, hm, hit]
    simp only [outputShape, List.filter, hsh, hl3, decide_true, decide_false, List.getLast?_singleton, Option.map_some, if_pos hmem, List.foldl]
    rfl

/-- the result array of earlier computations of the process fits -/
def ResFits (shape : List Nat) (sh : Dict (Arr F)) : Prop := ∀ r, sh keyResult = some r → r.shape = shape ∧ r.WF

/-- **SPI and PNP, one computation**: it finishes if (and only if, `cwi_precip`) it does at every place. -/
theorem cwi_exists {j : Job} {w : World F} {f v name : String} {d : NcFile F} {x : NcVar F} {mm : List F} {y0 : Int} {a b n : Nat} (hi : j.index = "spi" ∨ j.index = "pnp") (hp : j.precip = some (f, v))
    (ht : j.temp = none) (he : j.pet = none) (hper : j.periodicity ≠ .daily) (hL : Loadable lower yearOf j.inputType w.files f v d x mm y0) (hl : IsLayout j.inputType x.shape a b n)
    (ha : 1 ≤ a) (hw : 1 ≤ wk) (hr : ResFits x.shape w.shared) (hn : variableName j = .ok name)
    (h : ∀ i < a, ∀ k < b, ∃ s t, K y0 j (seriesAt b n i k mm) (seriesAt b n i k mm) = .ok s ∧ assignSeries n s = .ok t) :
    ∃ w', computeWriteIndex K wk lower yearOf j w = (.ok (fileName j.base name, name), w') ∧ ResFits x.shape w'.shared ∧ w'.written = w.written ++ [(fileName j.base name, name)] := by
  obtain ⟨sh, h1, h2, h3⟩ := loadInputs_precip hi hp ht he hper hL
  obtain ⟨u, hu, hc⟩ := hL.units
  have hnpa : j.index ≠ "palmers" := by rcases hi with hi | hi <;> rw [hi] <;> decide
  have hnp : j.index ≠ "pet" := by rcases hi with hi | hi <;> rw [hi] <;> decide
  have hns : j.index ≠ "spei" := by rcases hi with hi | hi <;> rw [hi] <;> decide
  have hres : (resultArray sh x.shape).shape = x.shape ∧ (resultArray sh x.shape).WF := by
    unfold resultArray
    rw [h3]
    cases hk : w.shared keyResult with
    | none => exact ⟨rfl, by simp [Arr.WF]⟩
    | some r => exact hr r hk
  have hwf : (⟨x.shape, mm⟩ : Arr F).WF := by
    show mm.length = _
    rw [convert_length.1 hc]
    exact hL.wf
  obtain ⟨out, hout⟩ := parallelProcess_exists (K := K y0) (arr := ⟨x.shape, mm⟩) hi hl hwf hres ha hw h
  have hol := parallelProcess_length hout hwf hres.2
  have hcv : computeValues (K y0) wk d j (sh.put keyResult (resultArray sh x.shape)) (resultArray sh x.shape) = .ok out := by
    have hfn : firstName j = .ok v := by unfold firstName; rw [if_neg hnp, hp]
    have hsn : secondName j v = .ok v := by unfold secondName; rw [if_neg hns, if_neg hnp]
    have hat : (sh.put keyResult (resultArray sh x.shape)).at v = .ok ⟨x.shape, mm⟩ := by
      unfold Dict.at Dict.put
      rw [if_neg hL.name.2, h2]
    unfold computeValues putLat
    simp only [if_neg hnp, pure, Except.pure, bind, Except.bind, hfn, hsn, hat]
    exact hout
  have hof : outputFile d y0 x j (resultArray sh x.shape).shape out = .ok (fileName j.base name, name, coordsOf d ++ [(name, ⟨x.dims, x.shape, outputUnits j, out⟩)]) := by
    unfold outputFile
    have : outputValues j.periodicity y0 (x.shape.getLastD 0) (resultArray sh x.shape).shape out = .ok ⟨x.shape, out⟩ := by
      unfold outputValues
      split
      · next e => exact absurd e hper
      · rw [hres.1]
    simp only [bind, Except.bind, hn, this, if_true]
    rfl
  refine ⟨_, by unfold computeWriteIndex; simp only [h1, if_neg hnpa, hcv, hof]; rfl, ?_, rfl⟩
  intro r hrr
  simp only [Dict.put, if_true, Option.some.injEq] at hrr
  subst hrr
  refine ⟨hres.1, ?_⟩
  show out.length = _
  rw [hol]
  exact hres.2

/-- a list of computations of which each finishes or fails whatever came before: those before the first failing one are done -/
theorem runJobs_prefix {Inv : World F → Prop} {P : Job → Bool} {nm : Job → String} : ∀ (js : List Job) (w : World F), Inv w →
    (∀ j ∈ js, P j = true → ∀ v, Inv v → ∃ v', computeWriteIndex K wk lower yearOf j v = (.ok (fileName j.base (nm j), nm j), v') ∧ Inv v' ∧ v'.written = v.written ++ [(fileName j.base (nm j), nm j)]) →
    (∀ j ∈ js, P j = false → ∀ v, Inv v → ∃ e v', computeWriteIndex K wk lower yearOf j v = (.error e, v')) →
    ∃ w'', runJobs K wk lower yearOf (js.takeWhile P) w = (.ok (), w'') ∧ w''.written = w.written ++ (js.takeWhile P).map (fun j => (fileName j.base (nm j), nm j)) ∧
      ((∀ j ∈ js, P j = true) → runJobs K wk lower yearOf js w = (.ok (), w'')) ∧
      ((∃ j ∈ js, P j = false) → ∃ e w', runJobs K wk lower yearOf js w = (.error e, w') ∧ w'.files = w''.files ∧ w'.written = w''.written) := by
  intro js
  induction js with
  | nil =>
    intro w _ _ _
    exact ⟨w, rfl, by simp, fun _ => rfl, by rintro ⟨j, hj, _⟩; simp at hj⟩
  | cons j js ih =>
    intro w hw hok herr
    cases hP : P j with
    | true =>
      obtain ⟨v, h1, h2, h3⟩ := hok j (by simp) hP w hw
      obtain ⟨w'', k1, k2, k3, k4⟩ := ih v h2 (fun i hi => hok i (by simp [hi])) (fun i hi => herr i (by simp [hi]))
      have step : ∀ l, runJobs K wk lower yearOf (j :: l) w = runJobs K wk lower yearOf l v := by
        intro l
        show SE.bind (computeWriteIndex K wk lower yearOf j) (fun _ => runJobs K wk lower yearOf l) w = _
        unfold SE.bind
        rw [h1]
      rw [List.takeWhile_cons_of_pos hP]
      refine ⟨w'', by rw [step]; exact k1, by rw [k2, h3]; simp, fun h => by rw [step]; exact k3 (fun i hi => h i (by simp [hi])), fun h => ?_⟩
      rw [step]
      obtain ⟨i, hi, hPi⟩ := h
      rcases List.mem_cons.1 hi with rfl | hi
      · rw [hP] at hPi; cases hPi
      · exact k4 ⟨i, hi, hPi⟩
    | false =>
      obtain ⟨e, v, h1⟩ := herr j (by simp) hP w hw
      obtain ⟨h2, h3⟩ := cwi_error h1
      rw [List.takeWhile_cons_of_neg (by rw [hP]; decide)]
      refine ⟨w, rfl, by simp, fun h => ?_, fun _ => ⟨e, v, ?_, h2, h3⟩⟩
      · have := h j (by simp)
        rw [hP] at this
        cases this
      · show SE.bind (computeWriteIndex K wk lower yearOf j) (fun _ => runJobs K wk lower yearOf js) w = _
        unfold SE.bind
        rw [h1]

end

end CI
