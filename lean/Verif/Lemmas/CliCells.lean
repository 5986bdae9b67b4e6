import Verif.Lemmas.CliRun

/-!
# Lemmas about the values in the output files
-/

namespace CI
open Spec

section
variable {F : Type} [FloatOps F] {K : Int → Job → List F → List F → Res (List F)} {wk : Nat} {lower : String → String} {yearOf : F → Int}

omit [FloatOps F] in
theorem lookup_append_none {α : Type} {l l' : List (String × α)} {k : String} (h : List.lookup k l = none) : List.lookup k (l ++ l') = List.lookup k l' := by
  rw [List.lookup_append, h]
  rfl

/-- common coordinates that are the same are equal for the merge of the data sets -/
theorem agree_of_same [FloatLaws F] {d e : NcFile F} (h : SameCoords d e) : agree d e = true := by
  unfold agree
  rw [List.all_eq_true]
  intro p hp
  rw [List.all_eq_true]
  intro q hq
  obtain ⟨hp1, hp2⟩ := List.mem_filter.1 hp
  obtain ⟨hq1, hq2⟩ := List.mem_filter.1 hq
  by_cases he : p.1 = q.1
  · have : p.2.data = q.2.data := by
      refine h p.1 p.2 q.2 hp1 (by rw [he]; exact hq1) (of_decide_eq_true hp2) ?_
      rw [he]
      exact of_decide_eq_true hq2
    rw [this, sameCoord_refl]
    simp
  · simp [he]

/-- **SPEI, one computation.** -/
theorem cwi_spei_md [FloatLaws F] {j : Job} {w w' : World F} {r : String × String} {f v fe ve : String} {d de : NcFile F} {x xe : NcVar F} {a b n : Nat} {y0 y1 : Int}
    (h : computeWriteIndex K wk lower yearOf j w = (.ok r, w')) (hi : j.index = "spei") (hp : j.precip = some (f, v)) (ht : j.temp = none) (he : j.pet = some (fe, ve))
    (hv : v ≠ "lat" ∧ v ≠ keyResult ∧ ve ≠ "lat" ∧ ve ≠ keyResult) (hne : v ≠ ve) (hf : w.files f = some d) (hfe : w.files fe = some de) (hlook : List.lookup v (merged d de) = some x)
    (hlook2 : List.lookup ve (merged d de) = some xe) (hl : IsLayout j.inputType x.shape a b n)
    (hwf : x.data.length = x.shape.foldr (· * ·) 1) (hle : IsLayout j.inputType xe.shape a b n) (hwfe : xe.data.length = xe.shape.foldr (· * ·) 1)
    (hym : Years yearOf (merged d de) y0 y1) :
    ∃ u mm ue pe new y, x.units = some u ∧ convertPrecip (lower u) x.data = .ok mm ∧ xe.units = some ue ∧ convertPet (lower ue) xe.data = .ok pe ∧
      w'.files r.1 = some new ∧ (r.2, y) ∈ new ∧ (y.dims = x.dims ∧ Carries (merged d de) new) ∧ (y.shape = x.shape ∧ y.data.length = x.shape.foldr (· * ·) 1) ∧ dropDimsOk j.inputType x.dims = true ∧
      ∀ i < a, ∀ k < b, ∃ p q s t, preparedIt j.inputType j.periodicity y0 y1 (seriesAt b n i k mm) = .ok p ∧ preparedIt j.inputType j.periodicity y0 y1 (seriesAt b n i k pe) = .ok q ∧
        K y0 j p q = .ok s ∧ assignSeries p.length s = .ok t ∧ restored j.periodicity y0 t = .ok (seriesAt b n i k y.data) := by
  obtain ⟨md, ds, cvars, vars, fn, sn, first, second, res, out, ov, lv, like, h1, h0, h2, h2', h3, h4, ⟨sh, t, h5, h6, h7, h8⟩, h9, h11, h12, h13, h14, h10, _⟩ := cwi_arrays h
  rw [hp, ht, he] at h1
  have h1 : openAll w.files [f, fe] = .ok md := h1
  rw [openAll_pair hf hfe, Except.ok.injEq] at h1
  subst h1
  obtain ⟨hy0, hy1⟩ := years_ok hym
  rw [hy0, Except.ok.injEq] at h0
  subst h0
  have hnp : j.index ≠ "pet" := by rw [hi]; decide
  have hfn : fn = v := by
    unfold firstName at h3
    rw [if_neg hnp, hp] at h3
    cases h3
    rfl
  have hsn : sn = ve := by
    unfold secondName at h4
    rw [if_pos hi, he] at h4
    cases h4
    rfl
  have hv' : lv = v := by
    unfold outputLike at h11
    rw [hp] at h11
    cases h11
    rfl
  rw [hv', hlook] at h12
  cases h12
  obtain ⟨p, tt, e, l, c1, c2, c3, c4, rfl⟩ := convertInputs_ok h2
  rw [ht] at c2
  cases convertInput_none c2
  rw [hp] at c1
  rcases convertInput_ok c1 with ⟨c, _⟩ | ⟨f', v'', x', y, c, rfl, c5, c6⟩
  · cases c
  cases c
  rw [hlook] at c5
  cases c5
  rw [he] at c3
  rcases convertInput_ok c3 with ⟨c, _⟩ | ⟨f', v'', x', ye, c, rfl, c5, c7⟩
  · cases c
  cases c
  rw [hlook2] at c5
  cases c5
  obtain ⟨u, u1, u2, u3, u4⟩ := convertVar_ok c6
  obtain ⟨ue, e1, e2, e3, e4⟩ := convertVar_ok c7
  obtain ⟨q, q1, q2⟩ := drop_at h2' (v := v) (y := y) (by simp) (by
    intro z hz
    simp only [List.append_nil, List.cons_append, List.nil_append, List.mem_cons, Prod.mk.injEq, true_and] at hz
    rcases hz with hz | hz | hz
    · exact hz
    · exact absurd hz.1 hne
    · exact absurd (latInput_names c4 _ hz) hv.1) w.shared
  obtain ⟨qe, g1, g2⟩ := drop_at h2' (v := ve) (y := ye) (by simp) (by
    intro z hz
    simp only [List.append_nil, List.cons_append, List.nil_append, List.mem_cons, Prod.mk.injEq, true_and] at hz
    rcases hz with hz | hz | hz
    · exact absurd hz.1.symm hne
    · exact hz
    · exact absurd (latInput_names c4 _ hz) hv.2.2.1) w.shared
  rw [← h5] at q2 g2
  have ht : t = sh.put keyResult res := by
    unfold putLat at h6
    rw [if_neg hnp] at h6
    cases h6
    rfl
  have at_v : t v = some ⟨q.2.shape, q.2.data⟩ := by
    rw [ht]
    simp [Dict.put, hv.2.1, q2]
  have at_e : t ve = some ⟨qe.2.shape, qe.2.data⟩ := by
    rw [ht]
    simp [Dict.put, hv.2.2.2, g2]
  rw [hfn] at h7
  rw [hsn] at h8
  unfold Dict.at at h7 h8
  rw [at_v] at h7
  rw [at_e] at h8
  cases h7
  cases h8
  obtain ⟨n1, m1, m2, m3, m4, m5, m6⟩ := in_cells (a := a) (b := b) (n := n) q1 (by rw [u3]; exact hl) (by rw [u3, convert_length.1 u4]; exact hwf) hy0 hy1
  obtain ⟨n2, r1, r2, r3, r4, r5, r6⟩ := in_cells (a := a) (b := b) (n := n) g1 (by rw [e3]; exact hle) (by rw [e3, convert_length.2.2 e4]; exact hwfe) hy0 hy1
  have hnn : n2 = n1 := by
    by_cases hd : j.periodicity = .daily
    · rcases hl with ⟨it, _⟩ | ⟨it, _⟩
      · rw [m4 it hd, r4 it hd]
      · rw [m5 it, r5 it]
    · rw [m3 hd, r3 hd]
  subst hnn
  have hcells := cells_out h9 m2 m1 h13 h14 hl m3 (fun _ h => absurd hi h)
  refine ⟨u, y.data, ue, ye.data, _, ⟨x.dims, x.shape, outputUnits j, ov.data⟩, u1, u4, e1, e4, by rw [h10]; exact if_pos rfl, by simp, ⟨rfl, carries_coords⟩, ⟨rfl, outputValues_length h9 m2 h13 h14⟩, by rw [← u2]; exact (dropVar_ok q1).1, ?_⟩
  intro i hi k hk
  obtain ⟨s, t, s1, s2, s3⟩ := hcells i hi k hk
  rw [if_neg hnp] at s1
  refine ⟨_, _, s, t, m6 i hi k hk, r6 i hi k hk, s1, ?_, s3⟩
  rw [seriesAt_len m1 m2 hi hk]
  exact s2

/-- **SPEI, one computation**, with the same coordinates in both files. -/
theorem cwi_spei [FloatLaws F] {j : Job} {w w' : World F} {r : String × String} {f v fe ve : String} {d de : NcFile F} {x xe : NcVar F} {a b n : Nat} {y0 y1 : Int}
    (h : computeWriteIndex K wk lower yearOf j w = (.ok r, w')) (hi : j.index = "spei") (hp : j.precip = some (f, v)) (ht : j.temp = none) (he : j.pet = some (fe, ve))
    (hv : v ≠ "lat" ∧ v ≠ keyResult ∧ ve ≠ "lat" ∧ ve ≠ keyResult) (hne : v ≠ ve) (hf : w.files f = some d) (hfe : w.files fe = some de) (hx : List.lookup v d = some x)
    (hxe : List.lookup ve d = none ∨ List.lookup ve d = some xe) (hxe' : List.lookup ve de = some xe) (hl : IsLayout j.inputType x.shape a b n)
    (hwf : x.data.length = x.shape.foldr (· * ·) 1) (hle : IsLayout j.inputType xe.shape a b n) (hwfe : xe.data.length = xe.shape.foldr (· * ·) 1)
    (hsame : SameCoords d de) (hy : Years yearOf d y0 y1) :
    ∃ u mm ue pe new y, x.units = some u ∧ convertPrecip (lower u) x.data = .ok mm ∧ xe.units = some ue ∧ convertPet (lower ue) xe.data = .ok pe ∧
      w'.files r.1 = some new ∧ (r.2, y) ∈ new ∧ (y.dims = x.dims ∧ Carries d new) ∧ (y.shape = x.shape ∧ y.data.length = x.shape.foldr (· * ·) 1) ∧ dropDimsOk j.inputType x.dims = true ∧
      ∀ i < a, ∀ k < b, ∃ p q s t, preparedIt j.inputType j.periodicity y0 y1 (seriesAt b n i k mm) = .ok p ∧ preparedIt j.inputType j.periodicity y0 y1 (seriesAt b n i k pe) = .ok q ∧
        K y0 j p q = .ok s ∧ assignSeries p.length s = .ok t ∧ restored j.periodicity y0 t = .ok (seriesAt b n i k y.data) := by
  have hm := merged_agree (agree_of_same hsame)
  have hlook2 : List.lookup ve (merged d de) = some xe := by
    rw [hm]
    rcases hxe with hxe | hxe
    · rw [lookup_append_none hxe]
      exact hxe'
    · exact lookup_append_some hxe
  have hym : Years yearOf (merged d de) y0 y1 := by
    obtain ⟨tt, t0, t1, a1, a2⟩ := hy
    exact ⟨tt, t0, t1, by rw [hm]; exact lookup_append_some a1, a2⟩
  obtain ⟨u, mm, ue, pe, new, y, k1, k2, k3, k4, k5, k6, ⟨k7, k8⟩, k9⟩ := cwi_spei_md h hi hp ht he hv hne hf hfe (by rw [hm]; exact lookup_append_some hx) hlook2 hl hwf hle hwfe hym
  exact ⟨u, mm, ue, pe, new, y, k1, k2, k3, k4, k5, k6, ⟨k7, fun c z hc hz => k8 c z (by rw [hm]; exact List.mem_append_left _ hc) hz⟩, k9⟩

/-- **PET, one computation.** -/
theorem cwi_pet {j : Job} {w w' : World F} {r : String × String} {f v : String} {d : NcFile F} {x xl : NcVar F} {a b n : Nat} {y0 y1 : Int}
    (h : computeWriteIndex K wk lower yearOf j w = (.ok r, w')) (hi : j.index = "pet") (hp : j.precip = none) (ht : j.temp = some (f, v)) (he : j.pet = none)
    (hv : v ≠ "lat" ∧ v ≠ keyResult) (hf : w.files f = some d) (hx : List.lookup v d = some x) (hxl : List.lookup "lat" d = some xl) (hl : IsLayout j.inputType x.shape a b n)
    (hwf : x.data.length = x.shape.foldr (· * ·) 1) (hy : Years yearOf d y0 y1) :
    ∃ u cs out, x.units = some u ∧ convertTemp (lower u) x.data = .ok cs ∧ dropDimsOk j.inputType x.dims = true ∧ out.length = x.shape.foldr (· * ·) 1 ∧
      w'.files r.1 = some (coordsOf d ++ [(r.2, ⟨x.dims, x.shape, outputUnits j, out⟩)]) ∧
      ∀ i < a, ∀ k < b, ∃ p s t, preparedIt j.inputType j.periodicity y0 y1 (seriesAt b n i k cs) = .ok p ∧ K y0 j p ((xl.data.drop i).take 1) = .ok s ∧
        assignSeries p.length s = .ok t ∧ restored j.periodicity y0 t = .ok (seriesAt b n i k out) := by
  obtain ⟨md, ds, cvars, vars, fn, sn, first, second, res, out, ov, lv, like, h1, h0, h2, h2', h3, h4, ⟨sh, t, h5, h6, h7, h8⟩, h9, h11, h12, h13, h14, h10, _⟩ := cwi_arrays h
  rw [hp, ht, he] at h1
  have hmd := openAll_one h1
  rw [hf, Option.some.injEq] at hmd
  subst hmd
  obtain ⟨hy0, hy1⟩ := years_ok hy
  rw [hy0, Except.ok.injEq] at h0
  subst h0
  have hfn : fn = v := by
    unfold firstName at h3
    rw [if_pos hi, ht] at h3
    cases h3
    rfl
  have hsn : sn = keyLat := by
    unfold secondName at h4
    rw [if_neg (by rw [hi]; decide), if_pos hi] at h4
    cases h4
    rfl
  have hv' : lv = v := by
    unfold outputLike at h11
    rw [hp, ht] at h11
    cases h11
    rfl
  rw [hv', hx] at h12
  cases h12
  obtain ⟨p, tt, e, l, c1, c2, c3, c4, rfl⟩ := convertInputs_ok h2
  rw [hp] at c1
  cases convertInput_none c1
  rw [he] at c3
  cases convertInput_none c3
  rw [ht] at c2
  rcases convertInput_ok c2 with ⟨c, _⟩ | ⟨f', v'', x', y, c, rfl, c5, c6⟩
  · cases c
  cases c
  rw [hx] at c5
  cases c5
  obtain ⟨u, u1, u2, u3, u4⟩ := convertVar_ok c6
  obtain ⟨q, q1, q2⟩ := drop_at h2' (v := v) (y := y) (by simp) (by
    intro z hz
    simp only [List.append_nil, List.cons_append, List.nil_append, List.mem_cons, Prod.mk.injEq, true_and] at hz
    rcases hz with hz | hz
    · exact hz
    · exact absurd (latInput_names c4 _ hz) hv.1) w.shared
  rw [← h5] at q2
  have htt : t = (sh.put keyResult res).put keyLat ⟨xl.shape, xl.data⟩ := by
    unfold putLat at h6
    rw [if_pos hi] at h6
    obtain ⟨z, hz, h6⟩ := Res.bind_ok h6
    cases h6
    have := get_ok hz
    rw [hxl] at this
    cases this
    rfl
  have at_v : t v = some ⟨q.2.shape, q.2.data⟩ := by
    rw [htt]
    have : v ≠ keyLat := hv.1
    simp [Dict.put, hv.2, this, q2]
  have at_l : t keyLat = some ⟨xl.shape, xl.data⟩ := by
    rw [htt]
    simp [Dict.put]
  rw [hfn] at h7
  rw [hsn] at h8
  unfold Dict.at at h7 h8
  rw [at_v] at h7
  rw [at_l] at h8
  cases h7
  cases h8
  obtain ⟨n1, m1, m2, m3, _, _, m4⟩ := in_cells (a := a) (b := b) (n := n) q1 (by rw [u3]; exact hl) (by rw [u3, convert_length.2.1 u4]; exact hwf) hy0 hy1
  have hcells := cells_out h9 m2 m1 h13 h14 hl m3 (fun h => absurd hi h)
  refine ⟨u, y.data, ov.data, u1, u4, by rw [← u2]; exact (dropVar_ok q1).1, outputValues_length h9 m2 h13 h14, ?_, ?_⟩
  · rw [h10]
    exact if_pos rfl
  intro i hi' k hk
  obtain ⟨s, t, s1, s2, s3⟩ := hcells i hi' k hk
  rw [if_pos hi] at s1
  refine ⟨_, s, t, m4 i hi' k hk, s1, ?_, s3⟩
  rw [seriesAt_len m1 m2 hi' hk]
  exact s2

/-! ## Sequences of computations -/

/-- the file of the output of a finished computation, and all other files -/
theorem cwi_files {j : Job} {w w' : World F} {r : String × String} (h : computeWriteIndex K wk lower yearOf j w = (.ok r, w')) :
    variableName j = .ok r.2 ∧ r.1 = fileName j.base r.2 ∧ ∀ g, g ≠ r.1 → w'.files g = w.files g := by
  obtain ⟨_, _, _, _, _, _, _, _, _, _, _, _, _, _, _, _, _, _, _, _, _, _, _, _, _, h10, h12, h13, _⟩ := cwi_arrays h
  refine ⟨h13, h12, fun g hg => ?_⟩
  rw [h10]
  exact if_neg hg

/-- what each computation establishes for itself and keeps for the others holds for all of them at the end -/
theorem runJobs_inv {I : World F → Prop} {C : Job → World F → Prop} (js : List Job)
    (step : ∀ j ∈ js, ∀ v v' r, I v → computeWriteIndex K wk lower yearOf j v = (.ok r, v') → I v' ∧ C j v' ∧ ∀ j' ∈ js, C j' v → C j' v') {w w' : World F} (hI : I w)
    (h : runJobs K wk lower yearOf js w = (.ok (), w')) : I w' ∧ ∀ j ∈ js, C j w' := by
  have gen : ∀ (l done : List Job), (∀ j ∈ l, j ∈ js) → (∀ j ∈ done, j ∈ js) → ∀ w w' : World F, I w → (∀ j ∈ done, C j w) → runJobs K wk lower yearOf l w = (.ok (), w') →
      I w' ∧ ∀ j, j ∈ done ∨ j ∈ l → C j w' := by
    intro l
    induction l with
    | nil =>
      intro done _ _ w w' hI hC h
      cases h
      exact ⟨hI, fun j hj => hC j (by simpa using hj)⟩
    | cons j l ih =>
      intro done h1 h2 w w' hI hC h
      unfold runJobs at h
      obtain ⟨r, v, ha, hb⟩ := SE.bind_ok h
      obtain ⟨i1, i2, i3⟩ := step j (h1 j (by simp)) w v r hI ha
      obtain ⟨k1, k2⟩ := ih (j :: done) (fun x hx => h1 x (by simp [hx])) (fun x hx => by
        rcases List.mem_cons.1 hx with rfl | hx
        · exact h1 x (by simp)
        · exact h2 x hx) v w' i1 (fun x hx => by
        rcases List.mem_cons.1 hx with rfl | hx
        · exact i2
        · exact i3 x (h2 x hx) (hC x hx)) hb
      refine ⟨k1, fun x hx => k2 x ?_⟩
      simp only [List.mem_cons] at hx ⊢
      tauto
  obtain ⟨h1, h2⟩ := gen js [] (fun _ h => h) (by simp) w w' hI (by simp) h
  exact ⟨h1, fun j hj => h2 j (.inr hj)⟩

/-- files that are not outputs stay as they are -/
theorem runJobs_files (js : List Job) {w w' : World F} (h : runJobs K wk lower yearOf js w = (.ok (), w')) {g : String}
    (hg : ∀ j ∈ js, ∀ n, variableName j = .ok n → g ≠ fileName j.base n) : w'.files g = w.files g := by
  refine (runJobs_inv (I := fun v => v.files g = w.files g) (C := fun _ _ => True) js ?_ rfl h).1
  intro j hj v v' r hv hr
  obtain ⟨h1, h2, h3⟩ := cwi_files hr
  refine ⟨?_, trivial, fun _ _ _ => trivial⟩
  rw [h3 g (by rw [h2]; exact hg j hj _ h1), hv]

/-- a list of computations with pairwise different outputs (or equal computations): what each establishes about its own output file holds at the end; `I` is about files
that are not outputs -/
theorem runJobs_each {G : List (String × NcFile F)} {P : Job → NcFile F → Prop} (js : List Job)
    (hG : ∀ p ∈ G, ∀ j ∈ js, ∀ n, variableName j = .ok n → p.1 ≠ fileName j.base n)
    (hinj : ∀ j ∈ js, ∀ j' ∈ js, ∀ n, variableName j = .ok n → variableName j' = .ok n → j = j')
    (hbase : ∀ j ∈ js, ∀ j' ∈ js, j.base = j'.base)
    (step : ∀ j ∈ js, ∀ v v' r, (∀ p ∈ G, v.files p.1 = some p.2) → computeWriteIndex K wk lower yearOf j v = (.ok r, v') → ∃ new, v'.files r.1 = some new ∧ P j new) {w w' : World F}
    (hw : ∀ p ∈ G, w.files p.1 = some p.2) (h : runJobs K wk lower yearOf js w = (.ok (), w')) :
    (∀ p ∈ G, w'.files p.1 = some p.2) ∧ ∀ j ∈ js, ∃ n new, variableName j = .ok n ∧ w'.files (fileName j.base n) = some new ∧ P j new := by
  refine runJobs_inv (I := fun v => ∀ p ∈ G, v.files p.1 = some p.2) (C := fun j v => ∃ n new, variableName j = .ok n ∧ v.files (fileName j.base n) = some new ∧ P j new) js ?_ hw h
  intro j hj v v' r hv hr
  obtain ⟨h1, h2, h3⟩ := cwi_files hr
  obtain ⟨new, h4, h5⟩ := step j hj v v' r hv hr
  refine ⟨fun p hp => ?_, ⟨r.2, new, h1, by rw [← h2]; exact h4, h5⟩, ?_⟩
  · rw [h3 p.1 (by rw [h2]; exact hG p hp j hj _ h1)]
    exact hv p hp
  · rintro j' hj' ⟨n, new', k1, k2, k3⟩
    by_cases hn : n = r.2
    · subst hn
      have := hinj j hj j' hj' _ h1 k1
      subst this
      exact ⟨r.2, new, h1, by rw [← h2]; exact h4, h5⟩
    · refine ⟨n, new', k1, ?_, k3⟩
      rw [h3 _ (by
        rw [h2, hbase j hj j' hj']
        intro e
        exact hn (fileName_inj e)), k2]

omit [FloatOps F] in
theorem prepareFile_ok {fs : Files F} {file var : Option String} {f : String} (h : prepareFile fs file var = .ok f) : file = some f := by
  unfold prepareFile at h
  obtain ⟨d, h1, h⟩ := Res.bind_ok h
  obtain ⟨x, _, h⟩ := Res.bind_ok h
  obtain ⟨e, _, h⟩ := Res.bind_ok h
  obtain ⟨n, rfl, _⟩ := openFile_ok h1
  split at h
  · cases h
    rfl
  · cases h

omit [FloatOps F] in
theorem assignSeries_same {n : Nat} {s t : List F} (h : assignSeries n s = .ok t) (hs : s.length = n) : t = s := by
  unfold assignSeries at h
  rw [if_pos hs] at h
  cases h
  rfl

end

end CI
