import Verif.Lemmas.CliLiveDaily
import Verif.Lemmas.CliLiveSpei

/-!
# Liveness of the computation of SPEI from daily values of whole years
-/

namespace CI
open FloatOps FloatLaws Spec

section
variable {F : Type} [FloatOps F] {K : Int → Job → List F → List F → Res (List F)} {wk : Nat} {lower : String → String} {yearOf : F → Int}

/-- daily precipitation and PET of whole years on a grid in shared memory -/
theorem loadInputs_spei_daily [FloatLaws F] {j : Job} {w : World F} {f v fe ve : String} {d de : NcFile F} {x xe : NcVar F} {mm pe : List F} {y0 y1 : Int} {A b n Y : Nat} (hi : j.index = "spei")
    (hp : j.precip = some (f, v)) (ht : j.temp = none) (he : j.pet = some (fe, ve)) (hper : j.periodicity = .daily) (hit : j.inputType = .grid)
    (hL : Loadable lower yearOf j.inputType w.files f v d x mm y0) (hE : LoadablePet lower j.inputType w.files d x v fe ve de xe pe)
    (hsh : x.shape = [A, b, n]) (hA : 1 ≤ A) (hb : 1 ≤ b) (hlast : lastYear yearOf d = .ok y1) (hY : y1 - y0 + 1 = Y) (hn : n = yearsLen y0 Y) :
    ∃ (sh : Dict (Arr F)) (p q : List F), loadInputs lower yearOf j w = .ok (d ++ de, y0, x, sh, [A, b, Y * 366]) ∧ sh v = some ⟨[A, b, Y * 366], p⟩ ∧ sh ve = some ⟨[A, b, Y * 366], q⟩ ∧
      sh keyResult = w.shared keyResult ∧ p.length = A * (b * (Y * 366)) ∧ q.length = A * (b * (Y * 366)) ∧
      (∀ i < A, ∀ k < b, seriesAt b (Y * 366) i k p = days366 (fun e g => (e + g) / lit 2) y0 Y (seriesAt b n i k mm)) ∧
      ∀ i < A, ∀ k < b, seriesAt b (Y * 366) i k q = days366 (fun e g => (e + g) / lit 2) y0 Y (seriesAt b n i k pe) := by
  obtain ⟨u, hu, hc⟩ := hL.units
  obtain ⟨ue, hue, hce⟩ := hE.units
  have hopen : openAll w.files ((j.precip.toList ++ j.temp.toList ++ j.pet.toList).map Prod.fst) = .ok (d ++ de) := by
    rw [hp, ht, he]
    have := openAll_pair hL.opened hE.opened
    rw [merged_agree (agree_of_same hE.same)] at this
    exact this
  have hlike : outputLike j = .ok v := by unfold outputLike; rw [hp]
  have hget : (d ++ de).get v = .ok x := by unfold NcFile.get; rw [lookup_append_some hL.found]
  have hgete : (d ++ de).get ve = .ok xe := by
    unfold NcFile.get
    have : List.lookup ve (d ++ de) = some xe := by
      rcases hE.first with h | h
      · rw [lookup_append_none h]; exact hE.found
      · exact lookup_append_some h
    rw [this]
  have hyear : firstYear yearOf (d ++ de) = .ok y0 := by
    have hy := hL.year
    unfold firstYear NcFile.get at hy ⊢
    cases ht : List.lookup "time" d with
    | none => rw [ht] at hy; cases hy
    | some t => rw [ht] at hy; rw [lookup_append_some ht]; exact hy
  have hyear1 : lastYear yearOf (d ++ de) = .ok y1 := by
    have hy := hlast
    unfold lastYear NcFile.get at hy ⊢
    cases ht : List.lookup "time" d with
    | none => rw [ht] at hy; cases hy
    | some t => rw [ht] at hy; rw [lookup_append_some ht]; exact hy
  have hp1 : convertInput lower convertPrecip (d ++ de) j.precip = .ok [(v, { x with data := mm })] := by
    rw [hp]
    simp only [convertInput, hget, bind, Except.bind, convertVar, hu, hc]
    rfl
  have hp2 : convertInput lower convertPet (d ++ de) j.pet = .ok [(ve, { xe with data := pe })] := by
    rw [he]
    simp only [convertInput, hgete, bind, Except.bind, convertVar, hue, hce]
    rfl
  have hmem : j.index ∈ ["spi", "spei", "pnp", "palmers", "pet"] := by rw [hi]; decide
  have hone : ∀ (name : String) (z : NcVar F) (l : List F), dropDimsOk j.inputType z.dims = true → z.shape = [A, b, n] → l.length = A * (b * n) →
      ∃ p, dropVar yearOf j (d ++ de) (name, { z with data := l }) = .ok (name, { z with shape := [A, b, Y * 366], data := p }) ∧ p.length = A * (b * (Y * 366)) ∧
        ∀ i < A, ∀ k < b, seriesAt b (Y * 366) i k p = days366 (fun e g => (e + g) / lit 2) y0 Y (seriesAt b n i k l) := by
    intro name z l hd hz hml
    have hser : ∀ i < A, ∀ k < b, transformTo366day (Arr.of1d (seriesAt b n i k l)) y0 Y = .ok (days366 (fun e g => (e + g) / lit 2) y0 Y (seriesAt b n i k l)) := by
      intro i hi' k hk
      refine to366_ok _ _ _ ?_
      rw [← hn]
      refine seriesAt_len (it := .grid) (shape := [A, b, n]) (a := A) (.inl ⟨rfl, rfl⟩) ?_ hi' hk
      rw [hml]; simp
    obtain ⟨p, hal⟩ := alongLast_exists (f := fun s => transformTo366day (Arr.of1d s) y0 Y) (m := Y * 366) hml hA hb (fun i hi' k hk => ⟨_, hser i hi' k hk⟩)
    have hdv : dailyValues yearOf j.periodicity (d ++ de) { z with data := l } = .ok ⟨[A, b, Y * 366], p⟩ := by
      unfold dailyValues
      rw [hper]
      simp only [hyear, hyear1, bind, Except.bind]
      rw [if_neg (by omega), show (y1 - y0 + 1).toNat = Y by omega, hz]
      exact hal
    obtain ⟨_, _, _, q4, q5⟩ := alongLast_ok hml (fun s t h => transformTo366_length h) hal
    refine ⟨p, ?_, q4, fun i hi' k hk => ?_⟩
    · unfold dropVar
      rw [if_pos hd, hit]
      simp only [hdv, bind, Except.bind]
      rfl
    · have := q5 i hi' k hk
      rw [hser i hi' k hk, Except.ok.injEq] at this
      exact this.symm
  obtain ⟨p, d1, d2, d3⟩ := hone v x mm hL.dims hsh (by rw [convert_length.1 hc, hL.wf, hsh]; simp)
  obtain ⟨q, g1, g2, g3⟩ := hone ve xe pe hE.dims (by rw [hE.shape, hsh]) (by rw [convert_length.2.2 hce, hE.wf, hE.shape, hsh]; simp)
  refine ⟨(w.shared.put v ⟨[A, b, Y * 366], p⟩).put ve ⟨[A, b, Y * 366], q⟩, p, q, ?_, by simp [Dict.put, hE.differ], by simp [Dict.put], by simp [Dict.put, hL.name.2.symm, hE.name.2.symm], d2, g2, d3, g3⟩
  have hcv : convertInputs lower (d ++ de) j = .ok [(v, { x with data := mm }), (ve, { xe with data := pe })] := by
    unfold convertInputs
    rw [hp1, ht, hp2, hit]
    rfl
  have hm : [(v, { x with data := mm }), (ve, { xe with data := pe })].mapM (dropVar yearOf j (d ++ de)) =
      .ok [(v, { x with shape := [A, b, Y * 366], data := p }), (ve, { xe with shape := [A, b, Y * 366], data := q })] := by
    simp [List.mapM_cons, d1, g1, bind, Except.bind, pure, Except.pure]
  unfold loadInputs
  simp only [bind, Except.bind, hopen, hyear, hlike, hget, hcv]
  unfold dropData
  simp only [bind, Except.bind, hm, hit]
  simp only [outputShape, List.getLast?_cons_cons, List.getLast?_singleton, Option.map_some, if_pos hmem, List.foldl]
  rfl

/-- **SPEI, one computation on daily values of whole years**: it finishes if (and only if, `cwi_spei`) it does at every place. -/
theorem cwi_spei_exists_daily [FloatLaws F] {j : Job} {w : World F} {f v fe ve name : String} {d de : NcFile F} {x xe : NcVar F} {mm pe : List F} {y0 y1 : Int} {A b n Y : Nat} (hi : j.index = "spei")
    (hp : j.precip = some (f, v)) (ht : j.temp = none) (he : j.pet = some (fe, ve)) (hper : j.periodicity = .daily) (hit : j.inputType = .grid)
    (hL : Loadable lower yearOf j.inputType w.files f v d x mm y0) (hE : LoadablePet lower j.inputType w.files d x v fe ve de xe pe)
    (hsh : x.shape = [A, b, n]) (hA : 1 ≤ A) (hb : 1 ≤ b) (hlast : lastYear yearOf d = .ok y1) (hY : y1 - y0 + 1 = Y) (hY1 : 1 ≤ Y) (hn : n = yearsLen y0 Y) (hy0 : 1 ≤ y0) (hy1 : y1 ≤ 9999)
    (hw : 1 ≤ wk) (hr : ResFits [A, b, Y * 366] w.shared) (hnm : variableName j = .ok name)
    (h : ∀ i < A, ∀ k < b, ∃ s t, K y0 j (days366 (fun e g => (e + g) / lit 2) y0 Y (seriesAt b n i k mm)) (days366 (fun e g => (e + g) / lit 2) y0 Y (seriesAt b n i k pe)) = .ok s ∧ assignSeries (Y * 366) s = .ok t) :
    ∃ w', computeWriteIndex K wk lower yearOf j w = (.ok (fileName j.base name, name), w') ∧ ResFits [A, b, Y * 366] w'.shared ∧ w'.written = w.written ++ [(fileName j.base name, name)] := by
  obtain ⟨sh, p, q, h1, h2, h2', h3, h4, h4', h5, h5'⟩ := loadInputs_spei_daily hi hp ht he hper hit hL hE hsh hA hb hlast hY hn
  have hnpa : j.index ≠ "palmers" := by rw [hi]; decide
  have hnp : j.index ≠ "pet" := by rw [hi]; decide
  generalize hS : [A, b, Y * 366] = S at h1 h2 h2' hr
  have hres : (resultArray sh S).shape = S ∧ (resultArray sh S).WF := by
    unfold resultArray
    rw [h3]
    cases hk : w.shared keyResult with
    | none => exact ⟨rfl, by simp [Arr.WF]⟩
    | some r => exact hr r hk
  have hwf : (⟨S, p⟩ : Arr F).WF := by
    show p.length = _
    rw [h4, ← hS]
    simp
  have hwfe : (⟨S, q⟩ : Arr F).WF := by
    show q.length = _
    rw [h4', ← hS]
    simp
  obtain ⟨out, hout⟩ := parallelProcess_spei_exists (K := K y0) (arr := ⟨S, p⟩) (sec := ⟨S, q⟩) (a := A) (b := b) (n := Y * 366) hi (.inl ⟨hit, hS.symm⟩) hwf ⟨rfl, hwfe⟩ hres hA hw (by
    intro i hi' k hk
    show ∃ s t, K y0 j (seriesAt b (Y * 366) i k p) (seriesAt b (Y * 366) i k q) = .ok s ∧ _
    rw [h5 i hi' k hk, h5' i hi' k hk]
    exact h i hi' k hk)
  have hol := parallelProcess_length hout hwf hres.2
  have hcv : computeValues (K y0) wk (d ++ de) j (sh.put keyResult (resultArray sh S)) (resultArray sh S) = .ok out := by
    have hfn : firstName j = .ok v := by unfold firstName; rw [if_neg hnp, hp]
    have hsn : secondName j v = .ok ve := by unfold secondName; rw [if_pos hi, he]
    have hat : (sh.put keyResult (resultArray sh S)).at v = .ok ⟨S, p⟩ := by
      unfold Dict.at Dict.put
      rw [if_neg hL.name.2, h2]
    have hat2 : (sh.put keyResult (resultArray sh S)).at ve = .ok ⟨S, q⟩ := by
      unfold Dict.at Dict.put
      rw [if_neg hE.name.2, h2']
    unfold computeValues putLat
    simp only [if_neg hnp, pure, Except.pure, bind, Except.bind, hfn, hsn, hat, hat2]
    exact hout
  have hout' : out.length = A * (b * (Y * 366)) := by
    rw [hol, hres.2, hres.1, ← hS]
    simp
  have hof : ∃ y, outputFile (d ++ de) y0 x j (resultArray sh S).shape out = .ok (fileName j.base name, name, coordsOf (d ++ de) ++ [(name, y)]) := by
    obtain ⟨g, hg⟩ := alongLast_exists (f := fun s => do
      let g ← transformToGregorian (Arr.of1d s) y0
      if g.length = n then pure g else .error .valueError) (m := n) hout' hA hb (by
        intro i hi' k hk
        have hl : (seriesAt b (Y * 366) i k out).length = Y * 366 := by
          refine seriesAt_len (it := .grid) (shape := [A, b, Y * 366]) (a := A) (.inl ⟨rfl, rfl⟩) ?_ hi' hk
          rw [hout']; simp
        refine ⟨calendarDays y0 Y (seriesAt b (Y * 366) i k out), ?_⟩
        rw [greg_ok _ y0 Y hl hY1 hy0 (by omega)]
        simp only [bind, Except.bind]
        rw [if_pos (by rw [calendarDays_length _ _ _ hl, hn])]
        rfl)
    have e : outputValues j.periodicity y0 (x.shape.getLastD 0) (resultArray sh S).shape out = .ok ⟨x.shape, g⟩ := by
      unfold outputValues
      rw [hper, hres.1, ← hS, hsh]
      exact hg
    refine ⟨⟨x.dims, x.shape, outputUnits j, g⟩, ?_⟩
    unfold outputFile
    simp only [bind, Except.bind, hnm, e, if_true]
    rfl
  obtain ⟨y, hof⟩ := hof
  refine ⟨_, by unfold computeWriteIndex; simp only [h1, if_neg hnpa, hcv, hof]; rfl, ?_, rfl⟩
  intro r hrr
  simp only [Dict.put, if_true, Option.some.injEq] at hrr
  subst hrr
  refine ⟨hres.1, ?_⟩
  show out.length = _
  rw [hol]
  exact hres.2

end

end CI
