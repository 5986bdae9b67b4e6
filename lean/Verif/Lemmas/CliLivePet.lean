import Verif.Lemmas.CliLiveSpei

/-!
# Lemmas about when a computation of PET by the command line tool finishes
-/

namespace CI
open Spec

/-- one row with a latitude -/
theorem rowFunc_exists_lat {F : Type} {func : List F → List F → Res (List F)} {cols n : Nat} {r : List F × List F}
    (h : ∀ k < cols, ∃ s t, func ((r.1.drop (k * n)).take n) r.2 = .ok s ∧ assignSeries n s = .ok t) : ∃ o, rowFunc func cols n true r = .ok o := by
  obtain ⟨parts, hp⟩ := mapM_exists (l := List.range cols)
    (f := fun j => do
      let out ← func ((r.1.drop (j * n)).take n) (if true then r.2 else (r.2.drop (j * n)).take n)
      assignSeries n out) (fun k hk => by
    obtain ⟨s, t, h1, h2⟩ := h k (List.mem_range.1 hk)
    refine ⟨t, ?_⟩
    simp only [if_true, h1]
    exact h2)
  refine ⟨parts.flatten, ?_⟩
  unfold rowFunc
  rw [hp]
  rfl

/-- all rows of a grid with their latitudes -/
theorem rows_exist_lat {F : Type} {func : List F → List F → Res (List F)} {a b n : Nat} {x y : List F} (cs : List (Nat × Option Nat)) (o : List (List F)) (hx : x.length = a * (b * n))
    (hy : y.length = a) (h : ∀ i < a, ∀ k < b, ∃ s t, func (seriesAt b n i k x) ((y.drop i).take 1) = .ok s ∧ assignSeries n s = .ok t) :
    ∃ out, applyChunks (fun rs => rs.mapM (rowFunc func b n true)) ((rowsOf a x).zip (rowsOf a y)) cs o = .ok out := by
  refine applyChunks_exists (fun l hl => mapM_exists (fun r hr => ?_)) cs o
  have hm := hl r hr
  obtain ⟨i, hi, hri⟩ := List.mem_iff_getElem.1 hm
  have hia : i < a := by simpa [rowsOf_length] using hi
  have hrow := rowsOf_get hx i hia
  have hrow' := rowsOf_get (m := 1) (by rw [hy, Nat.mul_one]) i hia
  rw [Nat.mul_one] at hrow'
  have e : r = ((x.drop (i * (b * n))).take (b * n), (y.drop i).take 1) := by
    have := List.getElem?_eq_getElem hi
    rw [hri, List.getElem?_zip_eq_some] at this
    rw [hrow, hrow'] at this
    exact Prod.ext (Option.some.inj this.1).symm (Option.some.inj this.2).symm
  subst e
  refine rowFunc_exists_lat (fun k hk => ?_)
  simp only [row_series b n i k hk]
  exact h i hia k hk

section
variable {F : Type} [FloatOps F]

omit [FloatOps F] in
/-- the parallel computation of PET finishes if it does at every place -/
theorem parallelProcess_pet_exists {K : Job → List F → List F → Res (List F)} {wk : Nat} {j : Job} {arr sec res : Arr F} {a b n : Nat} (hi : j.index = "pet")
    (hl : IsLayout j.inputType arr.shape a b n) (hf : arr.WF) (hs : sec.data.length = a) (hr : res.shape = arr.shape ∧ res.WF) (ha : 1 ≤ a) (hw : 1 ≤ wk)
    (h : ∀ i < a, ∀ k < b, ∃ s t, K j (seriesAt b n i k arr.data) ((sec.data.drop i).take 1) = .ok s ∧ assignSeries n s = .ok t) :
    ∃ out, parallelProcess K wk j arr sec res = .ok out := by
  have hnp : (j.index == "pet") = true := by rw [hi]; decide
  have hmem : j.index ∈ ["spi", "pnp", "spei", "pet"] := by rw [hi]; decide
  have hlen : arr.data.length = a * (b * n) := layout_length hl hf
  have hh : orElseRaise res.shape.head? PyErr.indexError = .ok a := by
    rw [hr.1]
    rcases hl with ⟨_, e⟩ | ⟨_, e, _⟩ <;> rw [e] <;> rfl
  have hv : viewShape j arr sec res = .ok arr.shape := by
    unfold viewShape
    have e1 : arr.data.length = res.data.length := by rw [hr.2, hr.1]; exact hf
    rw [if_neg (by push_neg; exact ⟨e1, hr.2⟩), if_neg (by rw [hi]; decide), if_pos hi, hr.1]
    rcases hl with ⟨_, e⟩ | ⟨_, e, _⟩
    · simp only [e]
      rw [if_neg (by push_neg; exact hs)]
    · simp only [e]
      rw [if_neg (by push_neg; exact hs)]
  obtain ⟨out, ho⟩ := rows_exist_lat (func := K j) (regularChunks a (min a wk)) (rowsOf a res.data) hlen hs h
  refine ⟨out.flatten, ?_⟩
  unfold parallelProcess
  rw [hh]
  simp only [bind, Except.bind, mainChunks_spec a wk ha hw, if_pos hmem, hv, hnp]
  rcases hl with ⟨e1, e2⟩ | ⟨e1, e2, e3⟩
  · rw [e1, e2]
    simp only [ho]
    rfl
  · rw [e1, e2]
    rw [e3] at ho
    simp only [ho]
    rfl

variable {K : Int → Job → List F → List F → Res (List F)} {wk : Nat} {lower : String → String} {yearOf : F → Int}

/-- what a computation of PET from monthly temperature needs: file, variable, coordinates with the latitudes, units -/
structure LoadableTemp (lower : String → String) (yearOf : F → Int) (it : InputType) (fs : Files F) (f v : String) (d : NcFile F) (x : NcVar F) (cel : List F) (y0 : Int) (xl : NcVar F) : Prop where
  opened : fs f = some d
  found : List.lookup v d = some x
  wf : x.data.length = x.shape.foldr (· * ·) 1
  name : v ≠ "lat" ∧ v ≠ keyResult
  year : firstYear yearOf d = .ok y0
  units : ∃ u, x.units = some u ∧ convertTemp (lower u) x.data = .ok cel
  dims : dropDimsOk it x.dims = true
  lat : List.lookup "lat" d = some xl
  place : it = .grid ∨ it = .divisions ∧ x.shape.length = 2 ∧ divisionDimsOk xl.dims = true ∧ xl.shape.length ≠ 2

theorem loadInputs_temp {j : Job} {w : World F} {f v : String} {d : NcFile F} {x xl : NcVar F} {cel : List F} {y0 : Int} (hi : j.index = "pet") (hp : j.precip = none)
    (ht : j.temp = some (f, v)) (he : j.pet = none) (hper : j.periodicity ≠ .daily) (hL : LoadableTemp lower yearOf j.inputType w.files f v d x cel y0 xl) :
    ∃ sh : Dict (Arr F), loadInputs lower yearOf j w = .ok (d, y0, x, sh, x.shape) ∧ sh v = some ⟨x.shape, cel⟩ ∧ sh keyResult = w.shared keyResult := by
  obtain ⟨u, hu, hc⟩ := hL.units
  have hopen : openAll w.files ((j.precip.toList ++ j.temp.toList ++ j.pet.toList).map Prod.fst) = .ok d := by
    rw [hp, ht, he]
    simp [openAll, openFile, hL.opened, coordsAgree, bind, Except.bind, pure, Except.pure]
  have hlike : outputLike j = .ok v := by unfold outputLike; rw [hp, ht]
  have hget : d.get v = .ok x := by unfold NcFile.get; rw [hL.found]
  have hp1 : convertInput lower convertTemp d j.temp = .ok [(v, { x with data := cel })] := by
    rw [ht]
    simp only [convertInput, hget, bind, Except.bind, convertVar, hu, hc]
    rfl
  have hmem : j.index ∈ ["spi", "spei", "pnp", "palmers", "pet"] := by rw [hi]; decide
  have hdv : ∀ p : String × NcVar F, dropDimsOk j.inputType p.2.dims = true → dropVar yearOf j d p = .ok p := by
    intro p hd
    unfold dropVar
    rw [if_pos hd]
    have : dailyValues yearOf j.periodicity d p.2 = .ok ⟨p.2.shape, p.2.data⟩ := by
      unfold dailyValues
      split
      · next e => exact absurd e hper
      · rfl
    split
    · rfl
    · rw [this]; rfl
  rcases hL.place with hit | ⟨hit, hsh, hl2, hl3⟩
  · have hcv : convertInputs lower d j = .ok [(v, { x with data := cel })] := by
      unfold convertInputs
      rw [hp1, hp, he, hit]
      rfl
    have hm : [(v, { x with data := cel })].mapM (dropVar yearOf j d) = .ok [(v, { x with data := cel })] := by
      simp [List.mapM_cons, hdv (v, { x with data := cel }) hL.dims, bind, Except.bind, pure, Except.pure]
    refine ⟨w.shared.put v ⟨x.shape, cel⟩, ?_, by simp [Dict.put], by simp [Dict.put, hL.name.2.symm]⟩
    unfold loadInputs
    simp only [bind, Except.bind, hopen, hL.year, hlike, hget, hcv]
    unfold dropData
    simp only [bind, Except.bind, hm, hit]
    simp only [outputShape, List.getLast?_singleton, Option.map_some, if_pos hmem, List.foldl]
    rfl
  · have hgl : d.get "lat" = .ok xl := by unfold NcFile.get; rw [hL.lat]
    have hcv : convertInputs lower d j = .ok [(v, { x with data := cel }), ("lat", xl)] := by
      unfold convertInputs
      rw [hp1, hp, he, hit]
      simp only [latInput, hgl, convertInput, bind, Except.bind]
      rfl
    have hm : [(v, { x with data := cel }), ("lat", xl)].mapM (dropVar yearOf j d) = .ok [(v, { x with data := cel }), ("lat", xl)] := by
      simp [List.mapM_cons, hdv (v, { x with data := cel }) hL.dims, hdv ("lat", xl) (by rw [hit]; exact hl2), bind, Except.bind, pure, Except.pure]
    refine ⟨(w.shared.put v ⟨x.shape, cel⟩).put "lat" ⟨xl.shape, xl.data⟩, ?_, by simp [Dict.put, hL.name.1], by
      have : keyResult ≠ "lat" := by decide
      simp [Dict.put, hL.name.2.symm, this]⟩
    unfold loadInputs
    simp only [bind, Except.bind, hopen, hL.year, hlike, hget, hcv]
    unfold dropData
    simp only [bind, Except.bind, hm, hit]
    simp only [outputShape, List.filter, hsh, hl3, decide_true, decide_false, List.getLast?_singleton, Option.map_some, if_pos hmem, List.foldl]
    rfl

/-- **PET, one computation**: it finishes if (and only if, `cwi_pet`) it does at every place. -/
theorem cwi_pet_exists {j : Job} {w : World F} {f v name : String} {d : NcFile F} {x xl : NcVar F} {cel : List F} {y0 : Int} {a b n : Nat} (hi : j.index = "pet") (hp : j.precip = none)
    (ht : j.temp = some (f, v)) (he : j.pet = none) (hper : j.periodicity ≠ .daily) (hL : LoadableTemp lower yearOf j.inputType w.files f v d x cel y0 xl) (hl : IsLayout j.inputType x.shape a b n)
    (hlat : xl.data.length = a) (ha : 1 ≤ a) (hw : 1 ≤ wk) (hr : ResFits x.shape w.shared) (hn : variableName j = .ok name)
    (h : ∀ i < a, ∀ k < b, ∃ s t, K y0 j (seriesAt b n i k cel) ((xl.data.drop i).take 1) = .ok s ∧ assignSeries n s = .ok t) :
    ∃ w', computeWriteIndex K wk lower yearOf j w = (.ok (fileName j.base name, name), w') ∧ ResFits x.shape w'.shared ∧ w'.written = w.written ++ [(fileName j.base name, name)] := by
  obtain ⟨sh, h1, h2, h3⟩ := loadInputs_temp hi hp ht he hper hL
  obtain ⟨u, hu, hc⟩ := hL.units
  have hnpa : j.index ≠ "palmers" := by rw [hi]; decide
  have hns : j.index ≠ "spei" := by rw [hi]; decide
  have hres : (resultArray sh x.shape).shape = x.shape ∧ (resultArray sh x.shape).WF := by
    unfold resultArray
    rw [h3]
    cases hk : w.shared keyResult with
    | none => exact ⟨rfl, by simp [Arr.WF]⟩
    | some r => exact hr r hk
  have hwf : (⟨x.shape, cel⟩ : Arr F).WF := by
    show cel.length = _
    rw [convert_length.2.1 hc]
    exact hL.wf
  obtain ⟨out, hout⟩ := parallelProcess_pet_exists (K := K y0) (arr := ⟨x.shape, cel⟩) (sec := ⟨xl.shape, xl.data⟩) hi hl hwf hlat hres ha hw h
  have hol := parallelProcess_length hout hwf hres.2
  have hcv : computeValues (K y0) wk d j (sh.put keyResult (resultArray sh x.shape)) (resultArray sh x.shape) = .ok out := by
    have hgl : d.get "lat" = .ok xl := by unfold NcFile.get; rw [hL.lat]
    have hfn : firstName j = .ok v := by unfold firstName; rw [if_pos hi, ht]
    have hsn : secondName j v = .ok keyLat := by unfold secondName; rw [if_neg hns, if_pos hi]
    have hvl : v ≠ keyLat := hL.name.1
    have hat : ((sh.put keyResult (resultArray sh x.shape)).put keyLat ⟨xl.shape, xl.data⟩).at v = .ok ⟨x.shape, cel⟩ := by
      unfold Dict.at Dict.put
      rw [if_neg hvl, if_neg hL.name.2, h2]
    have hat2 : ((sh.put keyResult (resultArray sh x.shape)).put keyLat ⟨xl.shape, xl.data⟩).at keyLat = .ok ⟨xl.shape, xl.data⟩ := by
      unfold Dict.at Dict.put
      rw [if_pos rfl]
    unfold computeValues putLat
    simp only [if_pos hi, pure, Except.pure, bind, Except.bind, hfn, hsn, hgl, hat, hat2]
    exact hout
  have hof : outputFile d y0 x j (resultArray sh x.shape).shape out = .ok (fileName j.base name, name, coordsOf d ++ [(name, ⟨x.dims, x.shape, outputUnits j, out⟩)]) := by
    unfold outputFile
    have : outputValues j.periodicity y0 (x.shape.getLastD 0) (resultArray sh x.shape).shape out = .ok ⟨x.shape, out⟩ := by
      unfold outputValues
      split
      · next e => exact absurd e hper
      · rw [hres.1]
    simp only [bind, Except.bind, hn, this, if_true]
    rfl
  refine ⟨_, by unfold computeWriteIndex; simp only [h1, if_neg hnpa, hcv, hof]; rfl, ?_, rfl⟩
  intro r hrr
  simp only [Dict.put, if_true, Option.some.injEq] at hrr
  subst hrr
  refine ⟨hres.1, ?_⟩
  show out.length = _
  rw [hol]
  exact hres.2

end

end CI
