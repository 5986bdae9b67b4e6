import Verif.Lemmas.CliLive

/-!
# Lemmas about when a computation of SPEI by the command line tool finishes, and about runs of several computations
-/

namespace CI
open Spec

/-- all rows of two grids -/
theorem rows_exist₂ {F : Type} {func : List F → List F → Res (List F)} {a b n : Nat} {x y : List F} (cs : List (Nat × Option Nat)) (o : List (List F)) (hx : x.length = a * (b * n))
    (hy : y.length = a * (b * n)) (h : ∀ i < a, ∀ k < b, ∃ s t, func (seriesAt b n i k x) (seriesAt b n i k y) = .ok s ∧ assignSeries n s = .ok t) :
    ∃ out, applyChunks (fun rs => rs.mapM (rowFunc func b n false)) ((rowsOf a x).zip (rowsOf a y)) cs o = .ok out := by
  refine applyChunks_exists (fun l hl => mapM_exists (fun r hr => ?_)) cs o
  have hm := hl r hr
  obtain ⟨i, hi, hri⟩ := List.mem_iff_getElem.1 hm
  have hia : i < a := by simpa [rowsOf_length] using hi
  have hrow := rowsOf_get hx i hia
  have hrow' := rowsOf_get hy i hia
  have e : r = ((x.drop (i * (b * n))).take (b * n), (y.drop (i * (b * n))).take (b * n)) := by
    have := List.getElem?_eq_getElem hi
    rw [hri, List.getElem?_zip_eq_some] at this
    rw [hrow, hrow'] at this
    exact Prod.ext (Option.some.inj this.1).symm (Option.some.inj this.2).symm
  subst e
  refine rowFunc_exists (fun k hk => ?_)
  simp only [row_series b n i k hk]
  exact h i hia k hk

section
variable {F : Type} [FloatOps F]

omit [FloatOps F] in
/-- the parallel computation of SPEI finishes if it does at every place -/
theorem parallelProcess_spei_exists {K : Job → List F → List F → Res (List F)} {wk : Nat} {j : Job} {arr sec res : Arr F} {a b n : Nat} (hi : j.index = "spei")
    (hl : IsLayout j.inputType arr.shape a b n) (hf : arr.WF) (hs : sec.shape = arr.shape ∧ sec.WF) (hr : res.shape = arr.shape ∧ res.WF) (ha : 1 ≤ a) (hw : 1 ≤ wk)
    (h : ∀ i < a, ∀ k < b, ∃ s t, K j (seriesAt b n i k arr.data) (seriesAt b n i k sec.data) = .ok s ∧ assignSeries n s = .ok t) :
    ∃ out, parallelProcess K wk j arr sec res = .ok out := by
  have hnp : (j.index == "pet") = false := by rw [hi]; decide
  have hmem : j.index ∈ ["spi", "pnp", "spei", "pet"] := by rw [hi]; decide
  have hlen : arr.data.length = a * (b * n) := layout_length hl hf
  have hlen2 : sec.data.length = a * (b * n) := layout_length (by rw [hs.1]; exact hl) hs.2
  have hh : orElseRaise res.shape.head? PyErr.indexError = .ok a := by
    rw [hr.1]
    rcases hl with ⟨_, e⟩ | ⟨_, e, _⟩ <;> rw [e] <;> rfl
  have hv : viewShape j arr sec res = .ok arr.shape := by
    unfold viewShape
    have e1 : arr.data.length = res.data.length := by rw [hr.2, hr.1]; exact hf
    have e2 : sec.data.length = res.data.length := by rw [hr.2, hr.1, ← hs.1]; exact hs.2
    rw [if_neg (by push_neg; exact ⟨e1, hr.2⟩), if_pos hi, if_neg (by push_neg; exact e2), hr.1]
  obtain ⟨out, ho⟩ := rows_exist₂ (func := K j) (regularChunks a (min a wk)) (rowsOf a res.data) hlen hlen2 h
  refine ⟨out.flatten, ?_⟩
  unfold parallelProcess
  rw [hh]
  simp only [bind, Except.bind, mainChunks_spec a wk ha hw, if_pos hmem, hv, hnp]
  rcases hl with ⟨e1, e2⟩ | ⟨e1, e2, e3⟩
  · rw [e1, e2]
    simp only [ho]
    rfl
  · rw [e1, e2]
    rw [e3] at ho
    simp only [ho]
    rfl

variable {K : Int → Job → List F → List F → Res (List F)} {wk : Nat} {lower : String → String} {yearOf : F → Int}

/-- what SPEI needs of the PET file, beside `Loadable` for the precipitation -/
structure LoadablePet (lower : String → String) (it : InputType) (fs : Files F) (d : NcFile F) (x : NcVar F) (v : String) (fe ve : String) (de : NcFile F) (xe : NcVar F) (pe : List F) : Prop where
  opened : fs fe = some de
  found : List.lookup ve de = some xe
  first : List.lookup ve d = none ∨ List.lookup ve d = some xe
  wf : xe.data.length = xe.shape.foldr (· * ·) 1
  name : ve ≠ "lat" ∧ ve ≠ keyResult
  differ : v ≠ ve
  units : ∃ u, xe.units = some u ∧ convertPet (lower u) xe.data = .ok pe
  dims : dropDimsOk it xe.dims = true
  shape : xe.shape = x.shape
  same : SameCoords d de

theorem loadInputs_spei [FloatLaws F] {j : Job} {w : World F} {f v fe ve : String} {d de : NcFile F} {x xe : NcVar F} {mm pe : List F} {y0 : Int} (hi : j.index = "spei") (hp : j.precip = some (f, v))
    (ht : j.temp = none) (he : j.pet = some (fe, ve)) (hper : j.periodicity ≠ .daily) (hL : Loadable lower yearOf j.inputType w.files f v d x mm y0)
    (hE : LoadablePet lower j.inputType w.files d x v fe ve de xe pe) :
    ∃ sh : Dict (Arr F), loadInputs lower yearOf j w = .ok (d ++ de, y0, x, sh, x.shape) ∧ sh v = some ⟨x.shape, mm⟩ ∧ sh ve = some ⟨x.shape, pe⟩ ∧ sh keyResult = w.shared keyResult := by
  obtain ⟨u, hu, hc⟩ := hL.units
  obtain ⟨ue, hue, hce⟩ := hE.units
  have hopen : openAll w.files ((j.precip.toList ++ j.temp.toList ++ j.pet.toList).map Prod.fst) = .ok (d ++ de) := by
    rw [hp, ht, he]
    have := openAll_pair hL.opened hE.opened
    rw [merged_agree (agree_of_same hE.same)] at this
    exact this
  have hlike : outputLike j = .ok v := by unfold outputLike; rw [hp]
  have hget : (d ++ de).get v = .ok x := by unfold NcFile.get; rw [lookup_append_some hL.found]
  have hgete : (d ++ de).get ve = .ok xe := by
    unfold NcFile.get
    have : List.lookup ve (d ++ de) = some xe := by
      rcases hE.first with h | h
      · rw [lookup_append_none h]; exact hE.found
      · exact lookup_append_some h
    rw [this]
  have hyear : firstYear yearOf (d ++ de) = .ok y0 := by
    have hy := hL.year
    unfold firstYear NcFile.get at hy ⊢
    cases ht : List.lookup "time" d with
    | none => rw [ht] at hy; cases hy
    | some t => rw [ht] at hy; rw [lookup_append_some ht]; exact hy
  have hp1 : convertInput lower convertPrecip (d ++ de) j.precip = .ok [(v, { x with data := mm })] := by
    rw [hp]
    simp only [convertInput, hget, bind, Except.bind, convertVar, hu, hc]
    rfl
  have hp2 : convertInput lower convertPet (d ++ de) j.pet = .ok [(ve, { xe with data := pe })] := by
    rw [he]
    simp only [convertInput, hgete, bind, Except.bind, convertVar, hue, hce]
    rfl
  have hmem : j.index ∈ ["spi", "spei", "pnp", "palmers", "pet"] := by rw [hi]; decide
  have hdv : ∀ p : String × NcVar F, dropDimsOk j.inputType p.2.dims = true → dropVar yearOf j (d ++ de) p = .ok p := by
    intro p hd
    unfold dropVar
    rw [if_pos hd]
    have : dailyValues yearOf j.periodicity (d ++ de) p.2 = .ok ⟨p.2.shape, p.2.data⟩ := by
      unfold dailyValues
      split
      · next e => exact absurd e hper
      · rfl
    split
    · rfl
    · rw [this]; rfl
  rcases hL.place with hit | ⟨hit, hsh, l, hl1, hl2, hl3⟩
  · have hcv : convertInputs lower (d ++ de) j = .ok [(v, { x with data := mm }), (ve, { xe with data := pe })] := by
      unfold convertInputs
      rw [hp1, ht, hp2, hit]
      rfl
    have hm : [(v, { x with data := mm }), (ve, { xe with data := pe })].mapM (dropVar yearOf j (d ++ de)) = .ok [(v, { x with data := mm }), (ve, { xe with data := pe })] := by
      simp [List.mapM_cons, hdv (v, { x with data := mm }) hL.dims, hdv (ve, { xe with data := pe }) hE.dims, bind, Except.bind, pure, Except.pure]
    refine ⟨(w.shared.put v ⟨x.shape, mm⟩).put ve ⟨x.shape, pe⟩, ?_, by simp [Dict.put, hE.differ], by simp [Dict.put], by simp [Dict.put, hL.name.2.symm, hE.name.2.symm]⟩
    unfold loadInputs
    simp only [bind, Except.bind, hopen, hyear, hlike, hget, hcv]
    unfold dropData
    simp only [bind, Except.bind, hm, hit]
    simp only [outputShape, List.getLast?_cons_cons, List.getLast?_singleton, Option.map_some, if_pos hmem, List.foldl, hE.shape]
    rfl
  · have hgl : (d ++ de).get "lat" = .ok l := by unfold NcFile.get; rw [lookup_append_some hl1]
    have hcv : convertInputs lower (d ++ de) j = .ok [(v, { x with data := mm }), (ve, { xe with data := pe }), ("lat", l)] := by
      unfold convertInputs
      rw [hp1, ht, hp2, hit]
      simp only [latInput, hgl, convertInput, bind, Except.bind]
      rfl
    have hm : [(v, { x with data := mm }), (ve, { xe with data := pe }), ("lat", l)].mapM (dropVar yearOf j (d ++ de)) =
        .ok [(v, { x with data := mm }), (ve, { xe with data := pe }), ("lat", l)] := by
      simp [List.mapM_cons, hdv (v, { x with data := mm }) hL.dims, hdv (ve, { xe with data := pe }) hE.dims, hdv ("lat", l) (by rw [hit]; exact hl2), bind, Except.bind, pure, Except.pure]
    refine ⟨((w.shared.put v ⟨x.shape, mm⟩).put ve ⟨x.shape, pe⟩).put "lat" ⟨l.shape, l.data⟩, ?_, by simp [Dict.put, hL.name.1, hE.differ], by simp [Dict.put, hE.name.1], by
      have : keyResult ≠ "lat" := by decide
      simp [Dict.put, hL.name.2.symm, hE.name.2.symm, this]⟩
    unfold loadInputs
    simp only [bind, Except.bind, hopen, hyear, hlike, hget, hcv]
    unfold dropData
    simp only [bind, Except.bind, hm, hit]
    have hshe : xe.shape.length = 2 := by rw [hE.shape]; exact hsh
    simp only [outputShape, List.filter, hsh, hshe, hl3, decide_true, decide_false, List.getLast?_cons_cons, List.getLast?_singleton, Option.map_some, if_pos hmem, List.foldl, hE.shape]
    rfl

/-- **SPEI, one computation**: it finishes if (and only if, `cwi_spei`) it does at every place. -/
theorem cwi_spei_exists [FloatLaws F] {j : Job} {w : World F} {f v fe ve name : String} {d de : NcFile F} {x xe : NcVar F} {mm pe : List F} {y0 : Int} {a b n : Nat} (hi : j.index = "spei")
    (hp : j.precip = some (f, v)) (ht : j.temp = none) (he : j.pet = some (fe, ve)) (hper : j.periodicity ≠ .daily) (hL : Loadable lower yearOf j.inputType w.files f v d x mm y0)
    (hE : LoadablePet lower j.inputType w.files d x v fe ve de xe pe) (hl : IsLayout j.inputType x.shape a b n)
    (ha : 1 ≤ a) (hw : 1 ≤ wk) (hr : ResFits x.shape w.shared) (hn : variableName j = .ok name)
    (h : ∀ i < a, ∀ k < b, ∃ s t, K y0 j (seriesAt b n i k mm) (seriesAt b n i k pe) = .ok s ∧ assignSeries n s = .ok t) :
    ∃ w', computeWriteIndex K wk lower yearOf j w = (.ok (fileName j.base name, name), w') ∧ ResFits x.shape w'.shared ∧ w'.written = w.written ++ [(fileName j.base name, name)] := by
  obtain ⟨sh, h1, h2, h2', h3⟩ := loadInputs_spei hi hp ht he hper hL hE
  obtain ⟨u, hu, hc⟩ := hL.units
  obtain ⟨ue, hue, hce⟩ := hE.units
  have hnpa : j.index ≠ "palmers" := by rw [hi]; decide
  have hnp : j.index ≠ "pet" := by rw [hi]; decide
  have hres : (resultArray sh x.shape).shape = x.shape ∧ (resultArray sh x.shape).WF := by
    unfold resultArray
    rw [h3]
    cases hk : w.shared keyResult with
    | none => exact ⟨rfl, by simp [Arr.WF]⟩
    | some r => exact hr r hk
  have hwf : (⟨x.shape, mm⟩ : Arr F).WF := by
    show mm.length = _
    rw [convert_length.1 hc]
    exact hL.wf
  have hwfe : (⟨x.shape, pe⟩ : Arr F).WF := by
    show pe.length = _
    rw [convert_length.2.2 hce, ← hE.shape]
    exact hE.wf
  obtain ⟨out, hout⟩ := parallelProcess_spei_exists (K := K y0) (arr := ⟨x.shape, mm⟩) (sec := ⟨x.shape, pe⟩) hi hl hwf ⟨rfl, hwfe⟩ hres ha hw h
  have hol := parallelProcess_length hout hwf hres.2
  have hcv : computeValues (K y0) wk (d ++ de) j (sh.put keyResult (resultArray sh x.shape)) (resultArray sh x.shape) = .ok out := by
    have hfn : firstName j = .ok v := by unfold firstName; rw [if_neg hnp, hp]
    have hsn : secondName j v = .ok ve := by unfold secondName; rw [if_pos hi, he]
    have hat : (sh.put keyResult (resultArray sh x.shape)).at v = .ok ⟨x.shape, mm⟩ := by
      unfold Dict.at Dict.put
      rw [if_neg hL.name.2, h2]
    have hat2 : (sh.put keyResult (resultArray sh x.shape)).at ve = .ok ⟨x.shape, pe⟩ := by
      unfold Dict.at Dict.put
      rw [if_neg hE.name.2, h2']
    unfold computeValues putLat
    simp only [if_neg hnp, pure, Except.pure, bind, Except.bind, hfn, hsn, hat, hat2]
    exact hout
  have hof : outputFile (d ++ de) y0 x j (resultArray sh x.shape).shape out = .ok (fileName j.base name, name, coordsOf (d ++ de) ++ [(name, ⟨x.dims, x.shape, outputUnits j, out⟩)]) := by
    unfold outputFile
    have : outputValues j.periodicity y0 (x.shape.getLastD 0) (resultArray sh x.shape).shape out = .ok ⟨x.shape, out⟩ := by
      unfold outputValues
      split
      · next e => exact absurd e hper
      · rw [hres.1]
    simp only [bind, Except.bind, hn, this, if_true]
    rfl
  refine ⟨_, by unfold computeWriteIndex; simp only [h1, if_neg hnpa, hcv, hof]; rfl, ?_, rfl⟩
  intro r hrr
  simp only [Dict.put, if_true, Option.some.injEq] at hrr
  subst hrr
  refine ⟨hres.1, ?_⟩
  show out.length = _
  rw [hol]
  exact hres.2

/-- two lists of jobs one after the other -/
theorem runJobs_append (l l' : List Job) : runJobs K wk lower yearOf (l ++ l') = (do runJobs K wk lower yearOf l; runJobs K wk lower yearOf l') := by
  induction l with
  | nil => rfl
  | cons j l ih =>
    funext w
    show SE.bind (computeWriteIndex K wk lower yearOf j) (fun _ => runJobs K wk lower yearOf (l ++ l')) w =
      SE.bind (SE.bind (computeWriteIndex K wk lower yearOf j) (fun _ => runJobs K wk lower yearOf l)) (fun _ => runJobs K wk lower yearOf l') w
    rw [ih]
    unfold SE.bind
    rcases computeWriteIndex K wk lower yearOf j w with ⟨r, w'⟩
    cases r with
    | error e => rfl
    | ok r => rfl

/-- a list of computations of which each finishes or fails whatever came before: those before the first failing one are done (as `runJobs_prefix`, with the invariant at the end) -/
theorem runJobs_prefix_inv {Inv : World F → Prop} {P : Job → Bool} {nm : Job → String} : ∀ (js : List Job) (w : World F), Inv w →
    (∀ j ∈ js, P j = true → ∀ v, Inv v → ∃ v', computeWriteIndex K wk lower yearOf j v = (.ok (fileName j.base (nm j), nm j), v') ∧ Inv v' ∧ v'.written = v.written ++ [(fileName j.base (nm j), nm j)]) →
    (∀ j ∈ js, P j = false → ∀ v, Inv v → ∃ e v', computeWriteIndex K wk lower yearOf j v = (.error e, v')) →
    ∃ w'', runJobs K wk lower yearOf (js.takeWhile P) w = (.ok (), w'') ∧ Inv w'' ∧ w''.written = w.written ++ (js.takeWhile P).map (fun j => (fileName j.base (nm j), nm j)) ∧
      ((∀ j ∈ js, P j = true) → runJobs K wk lower yearOf js w = (.ok (), w'')) ∧
      ((∃ j ∈ js, P j = false) → ∃ e w', runJobs K wk lower yearOf js w = (.error e, w') ∧ w'.files = w''.files ∧ w'.written = w''.written) := by
  intro js
  induction js with
  | nil =>
    intro w hw _ _
    exact ⟨w, rfl, hw, by simp, fun _ => rfl, by rintro ⟨j, hj, _⟩; simp at hj⟩
  | cons j js ih =>
    intro w hw hok herr
    cases hP : P j with
    | true =>
      obtain ⟨v, h1, h2, h3⟩ := hok j (by simp) hP w hw
      obtain ⟨w'', k1, k0, k2, k3, k4⟩ := ih v h2 (fun i hi => hok i (by simp [hi])) (fun i hi => herr i (by simp [hi]))
      have step : ∀ l, runJobs K wk lower yearOf (j :: l) w = runJobs K wk lower yearOf l v := by
        intro l
        show SE.bind (computeWriteIndex K wk lower yearOf j) (fun _ => runJobs K wk lower yearOf l) w = _
        unfold SE.bind
        rw [h1]
      rw [List.takeWhile_cons_of_pos hP]
      refine ⟨w'', by rw [step]; exact k1, k0, by rw [k2, h3]; simp, fun h => by rw [step]; exact k3 (fun i hi => h i (by simp [hi])), fun h => ?_⟩
      rw [step]
      obtain ⟨i, hi, hPi⟩ := h
      rcases List.mem_cons.1 hi with rfl | hi
      · rw [hP] at hPi; cases hPi
      · exact k4 ⟨i, hi, hPi⟩
    | false =>
      obtain ⟨e, v, h1⟩ := herr j (by simp) hP w hw
      obtain ⟨h2, h3⟩ := cwi_error h1
      rw [List.takeWhile_cons_of_neg (by rw [hP]; decide)]
      refine ⟨w, rfl, hw, by simp, fun h => ?_, fun _ => ⟨e, v, ?_, h2, h3⟩⟩
      · have := h j (by simp)
        rw [hP] at this
        cases this
      · show SE.bind (computeWriteIndex K wk lower yearOf j) (fun _ => runJobs K wk lower yearOf js) w = _
        unfold SE.bind
        rw [h1]

open Classical in
/-- **A run of computations, one for every output.** `C o`: output `o` can be computed, `V o`: its values. If every computation finishes exactly if it can be computed, then the run finishes exactly if all
can be computed; those before the first one that cannot be are written. `G`: the input files. -/
theorem runOutputs {outs : List Output} {job : Output → Job} {G : List (String × NcFile F)} {C : Output → Prop} {V : Output → Nat → Nat → Res (List F)} {base : String} {d : NcFile F} {x : NcVar F} {A b n : Nat} {rs : List Nat}
    (hname : ∀ o ∈ outs, variableName (job o) = .ok o.name) (hbase : ∀ o ∈ outs, (job o).base = base) (hG : ∀ p ∈ G, ∀ o ∈ outs, p.1 ≠ fileName base o.name)
    (hex : ∀ o ∈ outs, C o → ∀ v : World F, (∀ p ∈ G, v.files p.1 = some p.2) → ResFits rs v.shared →
      ∃ v', computeWriteIndex K wk lower yearOf (job o) v = (.ok (fileName base o.name, o.name), v') ∧ ResFits rs v'.shared ∧ v'.written = v.written ++ [(fileName base o.name, o.name)])
    (hback : ∀ o ∈ outs, ∀ (v v' : World F) (r : String × String), (∀ p ∈ G, v.files p.1 = some p.2) → computeWriteIndex K wk lower yearOf (job o) v = (.ok r, v') →
      C o ∧ ∃ new y, v'.files r.1 = some new ∧ (r.2, y) ∈ new ∧ (y.dims = x.dims ∧ Carries d new) ∧ (y.shape = x.shape ∧ y.data.length = x.shape.foldr (· * ·) 1) ∧
        ∀ i < A, ∀ k < b, V o i k = .ok (seriesAt b n i k y.data))
    (w : World F) (hw : ∀ p ∈ G, w.files p.1 = some p.2) (hr : ResFits rs w.shared) :
    ∃ res w', runJobs K wk lower yearOf (outs.map job) w = (res, w') ∧ (res = .ok () ↔ ∀ o ∈ outs, C o) ∧ (res = .ok () → ResFits rs w'.shared) ∧
      w'.written = w.written ++ entries base (outs.takeWhile (fun o => decide (C o))) ∧
      (∀ o ∈ outs.takeWhile (fun o => decide (C o)), Holds w'.files base o d x A b n (V o)) ∧
      ∀ g, (∀ o ∈ outs.takeWhile (fun o => decide (C o)), g ≠ fileName base o.name) → w'.files g = w.files g := by
  let P : Job → Bool := fun j => decide (∃ o ∈ outs, j = job o ∧ C o)
  have hinj : ∀ o ∈ outs, ∀ o' ∈ outs, job o = job o' → o = o' := by
    intro o ho o' ho' h
    have h1 := hname o ho
    rw [h, hname o' ho', Except.ok.injEq] at h1
    exact output_name_inj h1.symm
  have hP : ∀ o ∈ outs, P (job o) = decide (C o) := by
    intro o ho
    by_cases hcm : C o
    · simp only [P, hcm, decide_true, decide_eq_true_eq]
      exact ⟨o, ho, rfl, hcm⟩
    · simp only [P, hcm, decide_false, decide_eq_false_iff_not]
      rintro ⟨o', ho', he, hc'⟩
      rw [hinj o ho o' ho' he] at hcm
      exact hcm hc'
  have htw : (outs.map job).takeWhile P = (outs.takeWhile (fun o => decide (C o))).map job := by
    rw [List.takeWhile_map]
    congr 1
    have gen : ∀ l : List Output, (∀ o ∈ l, o ∈ outs) → l.takeWhile (P ∘ job) = l.takeWhile (fun o => decide (C o)) := by
      intro l
      induction l with
      | nil => intro _; rfl
      | cons o l ih =>
        intro hl'
        have := hP o (hl' o (by simp))
        rw [List.takeWhile_cons, List.takeWhile_cons, ih (fun z hz => hl' z (by simp [hz]))]
        simp only [Function.comp, this]
    exact gen outs (fun _ h => h)
  let nm : Job → String := fun j => match variableName j with | .ok s => s | .error _ => ""
  have hnm : ∀ o ∈ outs, nm (job o) = o.name := by
    intro o ho
    simp only [nm, hname o ho]
  obtain ⟨w'', r1, r0, r2, r3, r4⟩ := runJobs_prefix_inv (K := K) (wk := wk) (lower := lower) (yearOf := yearOf)
    (Inv := fun v' => (∀ p ∈ G, v'.files p.1 = some p.2) ∧ ResFits rs v'.shared) (P := P) (nm := nm) (outs.map job) w ⟨hw, hr⟩
    (by
      intro j hj hPj v' hv'
      obtain ⟨o, ho, rfl⟩ := List.mem_map.1 hj
      rw [hP o ho, decide_eq_true_eq] at hPj
      obtain ⟨v'', k1, k2, k3⟩ := hex o ho hPj v' hv'.1 hv'.2
      rw [hnm o ho, hbase o ho]
      refine ⟨v'', k1, ⟨fun p hp => ?_, k2⟩, k3⟩
      rw [(cwi_files k1).2.2 p.1 (hG p hp o ho)]
      exact hv'.1 p hp)
    (by
      intro j hj hPj v' hv'
      obtain ⟨o, ho, rfl⟩ := List.mem_map.1 hj
      rw [hP o ho, decide_eq_false_iff_not] at hPj
      rcases hres : computeWriteIndex K wk lower yearOf (job o) v' with ⟨r, v''⟩
      cases r with
      | error e => exact ⟨e, v'', rfl⟩
      | ok r => exact absurd (hback o ho v' v'' r hv'.1 hres).1 hPj)
  rw [htw] at r1 r2
  generalize hpre : outs.takeWhile (fun o => decide (C o)) = pre at r1 r2 ⊢
  have hpm : ∀ o ∈ pre, o ∈ outs := by
    intro o ho
    rw [← hpre] at ho
    exact List.takeWhile_subset _ ho
  have hent : (pre.map job).map (fun j => (fileName j.base (nm j), nm j)) = entries base pre := by
    unfold entries
    rw [List.map_map]
    refine List.map_congr_left (fun o ho => ?_)
    simp only [Function.comp, hnm o (hpm o ho), hbase o (hpm o ho)]
  rw [hent] at r2
  have hholds : ∀ o ∈ pre, Holds w''.files base o d x A b n (V o) := by
    have key := (runJobs_each (G := G) (P := fun j new => ∀ o ∈ pre, j = job o → ∃ y, (o.name, y) ∈ new ∧ (y.dims = x.dims ∧ Carries d new) ∧ (y.shape = x.shape ∧ y.data.length = x.shape.foldr (· * ·) 1) ∧
        ∀ i < A, ∀ k < b, V o i k = .ok (seriesAt b n i k y.data)) (pre.map job) ?_ ?_ ?_ ?_ hw r1).2
    · intro o ho
      obtain ⟨m, new, k1, k2, k3⟩ := key (job o) (List.mem_map_of_mem ho)
      rw [hname o (hpm o ho), Except.ok.injEq] at k1
      subst k1
      obtain ⟨y, k4, k5, k6, k7⟩ := k3 o ho rfl
      rw [hbase o (hpm o ho)] at k2
      exact ⟨new, y, k2, k4, k5, k6, k7⟩
    · intro p hp j hj m hm
      obtain ⟨o, ho, rfl⟩ := List.mem_map.1 hj
      rw [hname o (hpm o ho), Except.ok.injEq] at hm
      subst hm
      rw [hbase o (hpm o ho)]
      exact hG p hp o (hpm o ho)
    · intro j hj j' hj' m hm hm'
      obtain ⟨o, ho, rfl⟩ := List.mem_map.1 hj
      obtain ⟨o', ho', rfl⟩ := List.mem_map.1 hj'
      rw [hname o (hpm o ho), Except.ok.injEq] at hm
      rw [hname o' (hpm o' ho'), Except.ok.injEq] at hm'
      rw [output_name_inj (hm.trans hm'.symm)]
    · intro j hj j' hj'
      obtain ⟨o, ho, rfl⟩ := List.mem_map.1 hj
      obtain ⟨o', ho', rfl⟩ := List.mem_map.1 hj'
      rw [hbase o (hpm o ho), hbase o' (hpm o' ho')]
    · intro j hj v1 v2 r hfs hr
      obtain ⟨o, ho, rfl⟩ := List.mem_map.1 hj
      obtain ⟨_, new, y, c3, c4, c5, c6, c7⟩ := hback o (hpm o ho) v1 v2 r hfs hr
      have hrn := (cwi_files hr).1
      rw [hname o (hpm o ho), Except.ok.injEq] at hrn
      refine ⟨new, c3, fun o' ho' he => ?_⟩
      have hoo := hinj o (hpm o ho) o' (hpm o' ho') he
      subst hoo
      exact ⟨y, by rw [hrn]; exact c4, c5, c6, c7⟩
  have hrest : ∀ g, (∀ o ∈ pre, g ≠ fileName base o.name) → w''.files g = w.files g := by
    intro g hg
    refine runJobs_files _ r1 ?_
    intro j hj m hm
    obtain ⟨o, ho, rfl⟩ := List.mem_map.1 hj
    rw [hname o (hpm o ho), Except.ok.injEq] at hm
    subst hm
    rw [hbase o (hpm o ho)]
    exact hg o ho
  by_cases hall : ∀ o ∈ outs, C o
  · refine ⟨.ok (), w'', r3 ?_, ⟨fun _ => hall, fun _ => rfl⟩, fun _ => r0.2, r2, hholds, hrest⟩
    intro j hj
    obtain ⟨o, ho, rfl⟩ := List.mem_map.1 hj
    rw [hP o ho]
    exact decide_eq_true (hall o ho)
  · push_neg at hall
    obtain ⟨o, ho, hno⟩ := hall
    obtain ⟨e, w', q1, q2, q3⟩ := r4 ⟨_, List.mem_map_of_mem ho, by rw [hP o ho]; exact decide_eq_false hno⟩
    exact ⟨.error e, w', q1, ⟨fun h => by (cases h), fun h => absurd (h o ho) hno⟩, fun h => by (cases h), by rw [q3]; exact r2, by rw [q2]; exact hholds, by rw [q2]; exact hrest⟩

end

end CI
