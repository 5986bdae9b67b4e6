import Verif.Props.CliDaily

/-!
# C55 for daily data: several calls in one process
-/

namespace CI.Props
open CI Spec

/-! ## Shapes -/

section
variable {F : Type} [FloatOps F] {lower : String → String} {yearOf : F → Int} {N : List String} {S R : List Nat} {C : String → List F} {div : Bool}

omit [FloatOps F] in
/-- the shape after a conversion along the last axis -/
theorem alongLast_shape {f : List F → Res (List F)} {m : Nat} {shape : List Nat} {data : List F} {r : Arr F} (hf : ∀ s t, f s = .ok t → t.length = m)
    (h : alongLast f m shape data = .ok r) : shape ≠ [] ∧ r.shape = shape.dropLast ++ [m] ∧ r.WF := by
  unfold alongLast at h
  simp only [] at h
  split at h
  · cases h
  next hk =>
  rw [not_or] at hk
  obtain ⟨parts, hp, h⟩ := Res.bind_ok h
  cases h
  have hlen : ∀ x ∈ parts, x.length = m := by
    intro x hx
    obtain ⟨s, _, hs⟩ := mapM_mem hp x hx
    exact hf s x hs
  have hpl := mapM_len hp
  rw [rowsOf_length] at hpl
  refine ⟨hk.1, rfl, ?_⟩
  unfold Arr.WF
  rw [flatten_len hlen, hpl, List.foldr_append]
  simp only [List.foldr_cons, List.foldr_nil, Nat.mul_one]
  have : ∀ (l : List Nat) (a : Nat), l.foldr (· * ·) a = l.foldr (· * ·) 1 * a := by
    intro l a
    induction l with
    | nil => simp
    | cons b l ih => simp only [List.foldr_cons]; rw [ih, Nat.mul_assoc]
  exact (this _ m).symm

/-- the number of values of the years of the time coordinate, in years of 366 days -/
def yearsValues (yearOf : F → Int) (t : List F) : Nat :=
  match t.head?, t.getLast? with
  | some a, some b => (yearOf b - yearOf a + 1).toNat * 366
  | _, _ => 0

/-- the shape of daily values of shape `S` in shared memory: as they are for divisions, otherwise in years of 366 days -/
def sharedShape (yearOf : F → Int) (t : List F) (S : List Nat) (div : Bool) : List Nat := if div then S else S.dropLast ++ [yearsValues yearOf t]

/-- a variable of daily data of one kind -/
def DayVar (N : List String) (S : List Nat) (C : String → List F) (div : Bool) (p : String × NcVar F) : Prop :=
  VarOk N S C p ∧ (p.1 = "time" → p.2.dims = ["time"]) ∧ (p.1 ∈ N → ("division" ∈ p.2.dims ↔ div = true))

/-- all variables of all files are such variables -/
def DayFiles (N : List String) (S : List Nat) (C : String → List F) (div : Bool) (fs : Files F) : Prop := ∀ f d, fs f = some d → ∀ p ∈ d, DayVar N S C div p

/-- same files, same log, possibly different shared arrays -/
def DaySim (N : List String) (S R : List Nat) (C : String → List F) (div : Bool) (w1 w2 : World F) : Prop :=
  w1.files = w2.files ∧ w1.written = w2.written ∧ DayFiles N S C div w1.files ∧ ResOk R w1.shared ∧ ResOk R w2.shared

/-- a job for daily data with inputs of the kind `div` among the named ones -/
def DayJob (N : List String) (div : Bool) (j : Job) : Prop :=
  j.periodicity = .daily ∧ (j.inputType = .divisions ↔ div = true) ∧ ∀ o ∈ [j.precip, j.temp, j.pet], ∀ f v, o = some (f, v) → v ∈ N

/-- the same job for monthly data -/
def monthlyJob (j : Job) : Job := { j with periodicity := .monthly }

theorem DayJob.names {j : Job} (h : DayJob N div j) : JobNames N (monthlyJob j) := ⟨by simp [monthlyJob], h.2.2⟩

/-! ## Loading -/

theorem years_table {d : NcFile F} (hd : ∀ p ∈ d, DayVar N S C div p) {y0 y1 : Int} (h0 : firstYear yearOf d = .ok y0) (h1 : lastYear yearOf d = .ok y1) :
    (y1 - y0 + 1).toNat * 366 = yearsValues yearOf (C "time") := by
  unfold firstYear at h0
  unfold lastYear at h1
  obtain ⟨t, ht, h0⟩ := Res.bind_ok h0
  obtain ⟨t', ht', h1⟩ := Res.bind_ok h1
  rw [ht] at ht'
  cases ht'
  obtain ⟨a, ha, h0⟩ := Res.bind_ok h0
  obtain ⟨b, hb, h1⟩ := Res.bind_ok h1
  cases h0
  cases h1
  obtain ⟨⟨_, e⟩, e1, _⟩ := hd _ (mem_of_lookup (get_ok ht))
  have e : t.data = C "time" := e (e1 rfl)
  rw [e] at ha hb
  have ha' : (C "time").head? = some a := by
    cases hc : C "time" with
    | nil => rw [hc] at ha; simp [getIdx] at ha
    | cons x l =>
      rw [hc] at ha
      simp [getIdx] at ha
      simp [ha]
  have hb' : (C "time").getLast? = some b := by
    cases hc : (C "time").getLast? with
    | none => rw [hc] at hb; cases hb
    | some x => rw [hc] at hb; cases hb; rfl
  unfold yearsValues
  rw [ha', hb']

theorem dropVar_day {j : Job} (hj : DayJob N div j) {d : NcFile F} (hd : ∀ p ∈ d, DayVar N S C div p) {p q : String × NcVar F} (h : dropVar yearOf j d p = .ok q)
    (hp : SizeOk N S p) (hn : p.1 ∈ N ∨ p.1 = "lat" ∧ j.inputType = .divisions) : SizeOk N (sharedShape yearOf (C "time") S div) q ∧ q.1 = p.1 := by
  obtain ⟨a1, a2, a3, a4, a5, _⟩ := dropVar_ok h
  refine ⟨?_, a2⟩
  by_cases hi : j.inputType = .divisions
  · have hdv := hj.2.1.1 hi
    rw [a4 hi]
    unfold sharedShape
    rw [if_pos hdv]
    exact hp
  · have hdv : ¬ div = true := fun h => hi (hj.2.1.2 h)
    have hn : p.1 ∈ N := by
      rcases hn with h | ⟨_, h⟩
      · exact h
      · exact absurd h hi
    have h5 := a5 hi
    unfold dailyValues at h5
    rw [hj.1] at h5
    simp only [] at h5
    obtain ⟨y0, h0, h5⟩ := Res.bind_ok h5
    obtain ⟨y1, h1, h5⟩ := Res.bind_ok h5
    split at h5
    · cases h5
    obtain ⟨b1, b2, b3⟩ := alongLast_shape (fun s t hs => transformTo366_length hs) h5
    rw [years_table hd h0 h1, hp.2.1 hn] at b2
    simp only [] at b2
    refine ⟨b3, fun _ => by unfold sharedShape; rw [if_neg hdv]; exact b2, fun hl => ?_⟩
    have := hp.2.2 (a2 ▸ hl)
    rw [hp.2.1 hn] at this b1
    rw [b2]
    have : 0 < S.length := List.length_pos_of_ne_nil b1
    simp only [List.length_append, List.length_dropLast, List.length_cons, List.length_nil]
    omega

theorem dropVars_day {j : Job} (hj : DayJob N div j) {d : NcFile F} (hd : ∀ p ∈ d, DayVar N S C div p) {l l' : List (String × NcVar F)} (h : l.mapM (dropVar yearOf j d) = .ok l')
    (hl : ∀ p ∈ l, SizeOk N S p ∧ (p.1 ∈ N ∨ p.1 = "lat" ∧ j.inputType = .divisions)) :
    (∀ q ∈ l', SizeOk N (sharedShape yearOf (C "time") S div) q ∧ (q.1 ∈ N ∨ q.1 = "lat" ∧ j.inputType = .divisions)) ∧
    (∀ v y, (v, y) ∈ l → ∃ z, (v, z) ∈ l') ∧ ∀ p ∈ l, dropDimsOk j.inputType p.2.dims = true := by
  refine ⟨?_, ?_, ?_⟩
  · intro q hq
    obtain ⟨p, hp, h1⟩ := mapM_mem h q hq
    obtain ⟨c1, c2⟩ := hl p hp
    obtain ⟨d1, d2⟩ := dropVar_day hj hd h1 c1 c2
    exact ⟨d1, by rw [d2]; exact c2⟩
  · intro v y hy
    obtain ⟨i, hi⟩ := List.mem_iff_getElem?.1 hy
    obtain ⟨z, hz, h1⟩ := mapM_get h i _ hi
    have := (dropVar_ok h1).2.1
    exact ⟨z.2, by rw [← show z.1 = v from this]; exact List.mem_of_getElem? hz⟩
  · intro p hp
    obtain ⟨i, hi⟩ := List.mem_iff_getElem?.1 hp
    obtain ⟨z, _, h1⟩ := mapM_get h i _ hi
    exact (dropVar_ok h1).1

/-- what the two loads have in common -/
def DayLoad (N : List String) (S R : List Nat) (C : String → List F) (div : Bool) (j : Job) :
    Res (NcFile F × Int × NcVar F × Dict (Arr F) × List Nat) → Res (NcFile F × Int × NcVar F × Dict (Arr F) × List Nat) → Prop
  | .error e, r2 => r2 = .error e
  | .ok (d, ds, like, sh1, shape), r2 => ∃ sh2, r2 = .ok (d, ds, like, sh2, shape) ∧ shape = R ∧ like.shape = S ∧ ResOk R sh1 ∧ ResOk R sh2 ∧ (∀ p ∈ d, DayVar N S C div p) ∧
      (∀ o ∈ [j.precip, j.temp, j.pet], ∀ f v, o = some (f, v) → sh1 v = sh2 v ∧ ∃ y, sh1 v = some y ∧ y.WF) ∧ dropDimsOk j.inputType like.dims = true ∧
      ("division" ∈ like.dims ↔ div = true)

theorem load_day [FloatLaws F] (hK : keyResult ∉ N) {j : Job} (hN : DayJob N div j) {w1 w2 : World F} (hR : R = sharedShape yearOf (C "time") S div) (h : DaySim N S R C div w1 w2) :
    DayLoad N S R C div j (loadInputs lower yearOf j w1) (loadInputs lower yearOf j w2) := by
  obtain ⟨hf, _, hg, hr1, hr2⟩ := h
  unfold loadInputs
  rw [← hf]
  cases h1 : openAll w1.files ((j.precip.toList ++ j.temp.toList ++ j.pet.toList).map Prod.fst) with
  | error e => rfl
  | ok d =>
  simp only [bind, Except.bind]
  have hd : ∀ p ∈ d, DayVar N S C div p := by
    intro p hp
    obtain ⟨f, d', h2, h3⟩ := openAll_mem (fun f d hd p hp => (hg f d hd p hp).1) h1 p hp
    exact hg f d' h2 p h3
  cases h0 : firstYear yearOf d with
  | error e => rfl
  | ok ds =>
  simp only []
  cases h2 : outputLike j with
  | error e => rfl
  | ok v =>
  simp only []
  cases h3 : d.get v with
  | error e => rfl
  | ok x =>
  simp only []
  cases h4 : convertInputs lower d j with
  | error e => rfl
  | ok cvars =>
  simp only []
  obtain ⟨hv, hm⟩ := convertInputs_mem (j := monthlyJob j) h4 (fun p hp => (hd p hp).1) hN.names
  unfold dropData
  cases h4' : cvars.mapM (dropVar yearOf j d) with
  | error e => rfl
  | ok vars =>
  obtain ⟨hv', hm', hdims⟩ := dropVars_day hN hd h4' hv
  rw [← hR] at hv'
  simp only [bind, Except.bind]
  cases h5 : outputShape j.inputType vars with
  | none => rfl
  | some s =>
  simp only []
  by_cases hidx : j.index ∈ ["spi", "spei", "pnp", "palmers", "pet"]
  swap
  · rw [if_neg hidx, if_neg hidx]
    rfl
  rw [if_pos hidx, if_pos hidx]
  obtain ⟨a1, a2⟩ := fold_put vars w1.shared w2.shared
  obtain ⟨_, b2⟩ := fold_put vars w2.shared w1.shared
  have hkey : ¬ ∃ y, (keyResult, y) ∈ vars := by
    rintro ⟨y, hy⟩
    rcases (hv' _ hy).2 with h | ⟨h, _⟩
    · exact hK h
    · exact absurd (show keyResult = "lat" from h) (by decide)
  have hvo : ∃ o ∈ [j.precip, j.temp, j.pet], ∃ f, o = some (f, v) := by
    unfold outputLike at h2
    split at h2
    · next f v' hp => cases h2; exact ⟨_, by simp, f, hp⟩
    · next f v' _ ht => cases h2; exact ⟨_, by simp, f, ht⟩
    · cases h2
  have hvN : v ∈ N := by
    obtain ⟨o, ho, f, hof⟩ := hvo
    exact hN.2.2 o ho f v hof
  have hx := hd _ (mem_of_lookup (get_ok h3))
  refine ⟨_, rfl, outputShape_ok h5 hv', hx.1.1.2.1 hvN, ?_, ?_, hd, ?_, ?_, hx.2.2 hvN⟩
  · intro r hr
    rw [a2 _ hkey] at hr
    exact hr1 r hr
  · intro r hr
    rw [b2 _ hkey] at hr
    exact hr2 r hr
  · intro o ho f v hov
    obtain ⟨y, hy⟩ := hm o ho f v hov
    obtain ⟨c1, y, hy, c2⟩ := a1 v (hm' v y hy)
    exact ⟨c1, _, c2, (hv' _ hy).1.1⟩
  · obtain ⟨o, ho, f, hof⟩ := hvo
    obtain ⟨y, hy, hyd⟩ := convertInputs_dims h4 o ho f v hof (get_ok h3)
    rw [← hyd]
    exact hdims _ hy

end

/-! ## One computation, one call -/

section
variable {F : Type} [FloatOps F] {K : Int → Job → List F → List F → Res (List F)} {wk : Nat} {lower : String → String} {yearOf : F → Int} {N : List String} {S R : List Nat}
  {C : String → List F} {div : Bool}

/-- `computeValues_rel` with shared arrays of another shape than the files -/
theorem computeValues_day {K : Job → List F → List F → Res (List F)} (hK : keyResult ∉ N) {j : Job} (hN : ∀ o ∈ [j.precip, j.temp, j.pet], ∀ f v, o = some (f, v) → v ∈ N) {d : NcFile F} {sh1 sh2 : Dict (Arr F)} (hr1 : ResOk S sh1) (hr2 : ResOk S sh2)
    (hd : ∀ p ∈ d, p.2.data.length = p.2.shape.foldr (· * ·) 1)
    (hv : ∀ o ∈ [j.precip, j.temp, j.pet], ∀ f v, o = some (f, v) → sh1 v = sh2 v ∧ ∃ y, sh1 v = some y ∧ y.WF) :
    computeValues K wk d j (sh1.put keyResult (resultArray sh1 S)) (resultArray sh1 S) = computeValues K wk d j (sh2.put keyResult (resultArray sh2 S)) (resultArray sh2 S) ∧
    ∀ out, computeValues K wk d j (sh1.put keyResult (resultArray sh1 S)) (resultArray sh1 S) = .ok out → out.length = S.foldr (· * ·) 1 := by
  obtain ⟨s1, w1⟩ := resultArray_ok hr1
  obtain ⟨s2, w2⟩ := resultArray_ok hr2
  generalize resultArray sh1 S = res1 at *
  generalize resultArray sh2 S = res2 at *
  -- lookups of the inputs
  have look : ∀ (l : Option (Arr F)), (∀ a, l = some a → a.WF) → ∀ o ∈ [j.precip, j.temp, j.pet], ∀ f v, o = some (f, v) →
      ∃ y : Arr F, y.WF ∧ (if v = keyLat ∧ l.isSome then l else (sh1.put keyResult res1) v) = some y ∧ (if v = keyLat ∧ l.isSome then l else (sh2.put keyResult res2) v) = some y := by
    intro l hl o ho f v hov
    have hne : v ≠ keyResult := fun h => hK (h ▸ hN o ho f v hov)
    obtain ⟨c1, y, c2, c3⟩ := hv o ho f v hov
    split
    · next h =>
      obtain ⟨a, ha⟩ := Option.isSome_iff_exists.1 h.2
      exact ⟨a, hl a ha, ha, ha⟩
    · refine ⟨y, c3, ?_, ?_⟩
      · simp [Dict.put, hne, c2]
      · simp [Dict.put, hne, ← c1, c2]
  -- the dictionary after the latitudes
  have hlat : (∃ e, putLat d j (sh1.put keyResult res1) = .error e ∧ putLat d j (sh2.put keyResult res2) = .error e) ∨
      ∃ (l : Option (Arr F)) (t1 t2 : Dict (Arr F)), (∀ a, l = some a → a.WF) ∧ (j.index = "pet" → l.isSome) ∧
        putLat d j (sh1.put keyResult res1) = .ok t1 ∧ putLat d j (sh2.put keyResult res2) = .ok t2 ∧
        (∀ v, t1 v = if v = keyLat ∧ l.isSome then l else (sh1.put keyResult res1) v) ∧ (∀ v, t2 v = if v = keyLat ∧ l.isSome then l else (sh2.put keyResult res2) v) := by
    unfold putLat
    split
    · cases hx : d.get "lat" with
      | error e => left; exact ⟨e, rfl, rfl⟩
      | ok x =>
        right
        refine ⟨some ⟨x.shape, x.data⟩, _, _, ?_, fun _ => rfl, rfl, rfl, ?_, ?_⟩
        · intro a ha
          cases ha
          exact hd _ (mem_of_lookup (get_ok hx))
        · intro v; simp [Dict.put]
        · intro v; simp [Dict.put]
    · next hi =>
      right
      exact ⟨none, _, _, by simp, fun h => absurd h hi, rfl, rfl, by simp, by simp⟩
  unfold computeValues
  rcases hlat with ⟨e, e1, e2⟩ | ⟨l, t1, t2, hl, hpet, e1, e2, f1, f2⟩
  · rw [e1, e2]
    exact ⟨rfl, by rintro out ⟨⟩⟩
  · rw [e1, e2]
    simp only [bind, Except.bind]
    cases hfn : firstName j with
    | error e => exact ⟨rfl, by rintro out ⟨⟩⟩
    | ok fn =>
      simp only []
      have hfn' : ∃ o ∈ [j.precip, j.temp, j.pet], ∃ f, o = some (f, fn) := by
        unfold firstName at hfn
        split at hfn
        · cases hfn
        · next f v hif =>
          cases hfn
          split at hif
          · exact ⟨_, by simp, f, hif⟩
          · exact ⟨_, by simp, f, hif⟩
      obtain ⟨o, ho, f, hof⟩ := hfn'
      obtain ⟨y, hy, g1, g2⟩ := look l hl o ho f fn hof
      have a1 : t1.at fn = .ok y := by unfold Dict.at; rw [f1, g1]
      have a2 : t2.at fn = .ok y := by unfold Dict.at; rw [f2, g2]
      rw [a1, a2]
      simp only []
      cases hsn : secondName j fn with
      | error e => exact ⟨rfl, by rintro out ⟨⟩⟩
      | ok sn =>
        simp only []
        have hsec : t1.at sn = t2.at sn := by
          unfold secondName at hsn
          split at hsn
          · split at hsn
            · cases hsn
            · next f v hp =>
              cases hsn
              obtain ⟨z, _, g1, g2⟩ := look l hl j.pet (by simp) f sn hp
              unfold Dict.at
              rw [f1, f2, g1, g2]
          · split at hsn
            · next hi =>
              cases hsn
              obtain ⟨a, ha⟩ := Option.isSome_iff_exists.1 (hpet hi)
              unfold Dict.at
              rw [f1, f2, if_pos ⟨rfl, hpet hi⟩, if_pos ⟨rfl, hpet hi⟩]
            · cases hsn
              rw [a1, a2]
        rw [hsec]
        cases t2.at sn with
        | error e => exact ⟨rfl, by rintro out ⟨⟩⟩
        | ok z =>
          simp only []
          refine ⟨parallelProcess_indep j y z res1 res2 (by rw [s1, s2]) (by unfold Arr.WF at w1 w2; rw [w1, w2, s1, s2]), ?_⟩
          intro out hout
          rw [parallelProcess_length hout hy w1]
          unfold Arr.WF at w1
          rw [w1, s1]

theorem cwi_day [FloatLaws F] (hK : keyResult ∉ N) (hR : R = sharedShape yearOf (C "time") S div) {j : Job} (hN : DayJob N div j) :
    SE.Rel (DaySim N S R C div) (computeWriteIndex K wk lower yearOf j) (computeWriteIndex K wk lower yearOf j) := by
  intro w1 w2 hs
  have hl := load_day (lower := lower) hK hN hR hs
  obtain ⟨hf, hw, hg, hr1, hr2⟩ := hs
  unfold computeWriteIndex
  cases h1 : loadInputs lower yearOf j w1 with
  | error e =>
    rw [h1] at hl
    simp only [DayLoad] at hl
    rw [hl]
    exact ⟨rfl, hf, hw, hg, hr1, hr2⟩
  | ok q =>
    obtain ⟨d, ds, like, sh1, shape⟩ := q
    rw [h1] at hl
    obtain ⟨sh2, h2, hshape, hlk, r1, r2, hd, hv, hdims, hdv⟩ := hl
    rw [h2]
    clear hR
    subst hshape
    simp only []
    split
    · refine ⟨?_, hf, hw, hg, r1, r2⟩
      unfold computePalmers
      rw [hf]
    · obtain ⟨c1, c2⟩ := computeValues_day (K := K ds) (wk := wk) hK hN.2.2 r1 r2 (fun p hp => (hd p hp).1.1.1) hv
      rw [← c1]
      obtain ⟨s1, x1⟩ := resultArray_ok r1
      obtain ⟨s2, x2⟩ := resultArray_ok r2
      have p1 : ∀ (sh : Dict (Arr F)) (a : Arr F), a.shape = shape → a.WF → ResOk shape (sh.put keyResult a) := by
        intro sh a ha hb r hr
        simp only [Dict.put, if_true, Option.some.injEq] at hr
        subst hr
        exact ⟨ha, hb⟩
      cases hc : computeValues (K ds) wk d j (sh1.put keyResult (resultArray sh1 shape)) (resultArray sh1 shape) with
      | error e => exact ⟨rfl, hf, hw, hg, p1 _ _ s1 x1, p1 _ _ s2 x2⟩
      | ok out =>
        simp only []
        rw [s1, s2]
        have hout := c2 out hc
        cases ho : outputFile d ds like j shape out with
        | error e => exact ⟨rfl, hf, hw, hg, p1 _ _ rfl hout, p1 _ _ rfl hout⟩
        | ok t =>
          obtain ⟨file, name, new⟩ := t
          obtain ⟨nm, v, n1, n2, n4, n3⟩ := outputFile_ok ho
          simp only [Prod.mk.injEq] at n3
          obtain ⟨rfl, rfl, rfl⟩ := n3
          have hvd : v.WF := by
            unfold outputValues at n2
            rw [hN.1] at n2
            refine (alongLast_shape ?_ n2).2.2
            intro s t hs
            obtain ⟨g, _, hs⟩ := Res.bind_ok hs
            split at hs
            · next hg => cases hs; exact hg
            · cases hs
          refine ⟨rfl, ?_, ?_, ?_, p1 _ _ rfl hout, p1 _ _ rfl hout⟩
          · simp only [hf]
          · simp only [hw]
          · intro f d' hfd p hp
            simp only at hfd
            split at hfd
            · cases hfd
              rcases List.mem_append.1 hp with hp | hp
              · exact hd p (List.mem_of_mem_filter hp)
              · simp only [List.mem_singleton] at hp
                subst hp
                refine ⟨⟨⟨by rw [← n4]; exact hvd, fun _ => hlk, fun h => absurd (by rw [n1]; exact congrArg _ h) (variableName_start (j := j) (q := "lat") rfl (by decide) (by decide))⟩, ?_⟩, ?_, fun _ => hdv⟩
                · intro h
                  exact absurd h (dropDims_name n1 hdims)
                · intro h
                  exact absurd (by rw [n1]; exact congrArg _ h) (variableName_start (j := j) (q := "time") rfl (by decide) (by decide))
            · exact hg f d' hfd p hp

theorem runJobs_day [FloatLaws F] (hK : keyResult ∉ N) (js : List Job) (hR : R = sharedShape yearOf (C "time") S div) (hN : ∀ j ∈ js, DayJob N div j) : SE.Rel (DaySim N S R C div) (runJobs K wk lower yearOf js) (runJobs K wk lower yearOf js) := by
  induction js with
  | nil => exact SE.rel_pure _
  | cons j js ih => exact SE.rel_bind (cwi_day hK hR (hN j (by simp))) (fun _ => ih (fun k hk => hN k (by simp [hk])))

omit [FloatOps F] in
theorem getFiles_day {α : Type} {f g : Files F → SE (World F) α} (h : ∀ fs, SE.Rel (DaySim N S R C div) (f fs) (g fs)) : SE.Rel (DaySim N S R C div) (getFiles >>= f) (getFiles >>= g) := by
  intro w1 w2 hs
  have := h w1.files w1 w2 hs
  have e : (getFiles >>= g) w2 = g w1.files w2 := by
    rw [hs.1]
    rfl
  rw [e]
  exact this

/-- the kind of the input that the validation finds -/
theorem kind_day {fs : Files F} (hg : DayFiles N S C div fs) {cmp : CoordCmp F} {a : CliArgs} (hp : a.varNamePrecip.getD "" ∈ N) (ht : a.varNameTemp.getD "" ∈ N) {it : InputType}
    (h : validateArgs cmp fs a = .ok it) : it = .divisions ↔ div = true := by
  have key : ∀ {file var : Option String}, var.getD "" ∈ N → Given fs file var (dataDims it) → (it = .divisions ↔ div = true) := by
    rintro file var hv ⟨f, v, d, x, _, rfl, h1, h2, h3⟩
    rw [← (hg f d h1 _ (mem_of_lookup h2)).2.2 hv]
    simp only []
    cases it <;> simp only [dataDims, List.mem_cons, List.not_mem_nil, or_false] at h3
    · rcases h3 with h3 | h3 <;> rw [h3] <;> decide
    · rcases h3 with h3 | h3 <;> rw [h3] <;> decide
    · rw [h3]; decide
  unfold validateArgs at h
  split at h
  · obtain ⟨⟨it', p⟩, h1, h⟩ := Res.bind_ok h
    obtain ⟨_, _, h⟩ := Res.bind_ok h
    obtain ⟨_, _, h⟩ := Res.bind_ok h
    cases h
    exact key hp (validatePrecip_ok h1).1
  · obtain ⟨it', h1, h⟩ := Res.bind_ok h
    obtain ⟨_, _, h⟩ := Res.bind_ok h
    cases h
    exact key ht (validatePetTemp_ok h1).2

/-- a whole call, with different shared arrays from earlier ones -/
theorem process_day [FloatLaws F] (hK : keyResult ∉ N) (cmp : CoordCmp F) (a : CliArgs) (hR : R = sharedShape yearOf (C "time") S div) (hper : a.periodicity = .daily) (hN : ∀ o ∈ [a.varNamePrecip, a.varNameTemp, a.varNamePet], o.getD "" ∈ N) (hpet : "pet_thornthwaite" ∈ N) :
    SE.Rel (DaySim N S R C div) (processIndices K wk lower yearOf cmp a) (processIndices K wk lower yearOf cmp a) := by
  have hp := hN a.varNamePrecip (by simp)
  have ht := hN a.varNameTemp (by simp)
  have he := hN a.varNamePet (by simp)
  have names : ∀ (it : InputType) (hit : it = .divisions ↔ div = true) (i : String) (s : Option Int) (d : Option Distribution) (p t e c : Option (String × String)),
      (∀ f v, p = some (f, v) → v ∈ N) → (∀ f v, t = some (f, v) → v ∈ N) → (∀ f v, e = some (f, v) → v ∈ N) → DayJob N div (mkJob a it i s d p t e c) := by
    intro it hit i s d p t e c h1 h2 h3
    refine ⟨hper, hit, ?_⟩
    intro o ho f v hov
    simp only [mkJob, List.mem_cons, List.not_mem_nil, or_false] at ho
    rcases ho with rfl | rfl | rfl
    · exact h1 f v hov
    · exact h2 f v hov
    · exact h3 f v hov
  unfold processIndices
  intro w1 w2 hs
  have hg := hs.2.2.1
  have hit : ∀ it, validateArgs cmp w1.files a = .ok it → (it = .divisions ↔ div = true) := fun it h => kind_day hg hp ht h
  have e : ∀ (f : Files F → SE (World F) Unit), (getFiles >>= f) w1 = f w1.files w1 ∧ (getFiles >>= f) w2 = f w1.files w2 := fun f => ⟨rfl, by rw [hs.1]; rfl⟩
  rw [(e _).1, (e _).2]
  cases hva : validateArgs cmp w1.files a with
  | error e => exact ⟨rfl, hs⟩
  | ok it =>
  have hit := hit it hva
  refine SE.rel_bind_post (fun it' => it' = it) (fun s it' s' h => ?_) (SE.rel_lift _) (fun it' hit' => ?_) w1 w2 hs
  · cases h
    rfl
  rw [hit']
  refine SE.rel_bind ?_ (fun _ => ?_)
  · unfold runSpi
    split
    · refine getFiles_day (fun fs => SE.rel_bind (SE.rel_lift _) (fun fp => SE.rel_bind (SE.rel_lift _) (fun sc => runJobs_day hK _ hR ?_)))
      intro j hj
      obtain ⟨s, _, hj⟩ := List.mem_flatMap.1 hj
      obtain ⟨d, _, rfl⟩ := List.mem_map.1 hj
      exact names _ hit _ _ _ _ _ _ _ (by rintro f v ⟨⟩; exact hp) (by rintro f v ⟨⟩) (by rintro f v ⟨⟩)
    · exact SE.rel_pure _
  · -- the name of the PET variable afterwards is among the names or the computed one
    have hcont : ∀ pet : Option String × Option String, pet.2.getD "" ∈ N → SE.Rel (DaySim N S R C div)
        (runSpei K wk lower yearOf a it pet >>= fun _ => runPnp K wk lower yearOf a it >>= fun _ => runPalmers K wk lower yearOf a it pet)
        (runSpei K wk lower yearOf a it pet >>= fun _ => runPnp K wk lower yearOf a it >>= fun _ => runPalmers K wk lower yearOf a it pet) := by
      intro pet hpe
      refine SE.rel_bind ?_ (fun _ => SE.rel_bind ?_ (fun _ => ?_))
      · unfold runSpei
        split
        · refine getFiles_day (fun fs => SE.rel_bind (SE.rel_lift _) (fun fp => SE.rel_bind (SE.rel_lift _) (fun fe => SE.rel_bind (SE.rel_lift _) (fun sc => runJobs_day hK _ hR ?_))))
          intro j hj
          obtain ⟨s, _, hj⟩ := List.mem_flatMap.1 hj
          obtain ⟨d, _, rfl⟩ := List.mem_map.1 hj
          exact names _ hit _ _ _ _ _ _ _ (by rintro f v ⟨⟩; exact hp) (by rintro f v ⟨⟩) (by rintro f v ⟨⟩; exact hpe)
        · exact SE.rel_pure _
      · unfold runPnp
        split
        · refine getFiles_day (fun fs => SE.rel_bind (SE.rel_lift _) (fun fp => SE.rel_bind (SE.rel_lift _) (fun sc => runJobs_day hK _ hR ?_)))
          intro j hj
          obtain ⟨s, _, rfl⟩ := List.mem_map.1 hj
          exact names _ hit _ _ _ _ _ _ _ (by rintro f v ⟨⟩; exact hp) (by rintro f v ⟨⟩) (by rintro f v ⟨⟩)
        · exact SE.rel_pure _
      · unfold runPalmers
        split
        · refine getFiles_day (fun fs => SE.rel_bind (SE.rel_lift _) (fun fp => SE.rel_bind (SE.rel_lift _) (fun fe => SE.rel_bind (SE.rel_lift _) (fun fa => runJobs_day hK _ hR ?_))))
          intro j hj
          simp only [List.mem_singleton] at hj
          subst hj
          exact names _ hit _ _ _ _ _ _ _ (by rintro f v ⟨⟩; exact hp) (by rintro f v ⟨⟩) (by rintro f v ⟨⟩; exact hpe)
        · exact SE.rel_pure _
    refine SE.rel_bind_post (fun pet => pet.2.getD "" ∈ N) ?_ ?_ hcont
    · intro w pet w' h
      unfold runPet at h
      split at h
      · cases hf : a.netcdfPet with
        | some f =>
          rw [hf] at h
          cases h
          exact he
        | none =>
          rw [hf] at h
          have h := getFiles_bind h
          obtain ⟨ft, _, h⟩ := lift_bind h
          obtain ⟨r, w'', h3, h⟩ := SE.bind_ok h
          cases h
          obtain ⟨_, _, _, _, _, _, _, _, _, _, _, _, hn, _⟩ := cwi_parts h3
          have : variableName (mkJob a it "pet" none none none (some (ft, a.varNameTemp.getD "")) none none) = .ok "pet_thornthwaite" := rfl
          rw [this, Except.ok.injEq] at hn
          simp only [Option.getD_some, ← hn]
          exact hpet
      · cases h
        exact he
    · unfold runPet
      split
      · split
        · exact SE.rel_pure _
        · refine getFiles_day (fun fs => SE.rel_bind (SE.rel_lift _) (fun ft => SE.rel_bind (cwi_day hK hR ?_) (fun _ => SE.rel_pure _)))
          exact names _ hit _ _ _ _ _ _ _ (by rintro f v ⟨⟩) (by rintro f v ⟨⟩; exact ht) (by rintro f v ⟨⟩)
      · exact SE.rel_pure _


end

/-! ## C55 for daily data -/

/-- **C55 for daily data, partial.** Any sequence of calls (any arguments for daily data, any index functions) in one process gives the same results or exceptions, the same files
and the same outputs as when each call is made in a new process, if all input variables that the calls name have the same shape `S` and are of one kind (all have a dimension
`division`, or none has) in all files. Here `N`, `S` and `C` are as in `C55_partial`, and a variable `time` is a coordinate. The shared result array then has another shape than the
files: years of 366 days. Missing: data sets of different shapes, see `C55_fails`. -/
theorem C55_daily_partial {F : Type} [FloatOps F] [FloatLaws F] (K : Int → Job → List F → List F → Res (List F)) (wk : Nat) (lower : String → String) (yearOf : F → Int) (cmp : CoordCmp F)
    (as : List CliArgs) (w : World F) (N : List String) (S : List Nat) (C : String → List F) (divisions : Bool)
    (hfiles : ∀ f d, w.files f = some d → ∀ v x, (v, x) ∈ d →
      (x.data.length = x.shape.foldr (· * ·) 1 ∧ (v ∈ N → x.shape = S) ∧ (v = "lat" → x.shape.length ≠ 2)) ∧ (x.dims = [v] → x.data = C v))
    (htime : ∀ f d, w.files f = some d → ∀ x, ("time", x) ∈ d → x.dims = ["time"])
    (hkind : ∀ f d, w.files f = some d → ∀ v x, (v, x) ∈ d → v ∈ N → ("division" ∈ x.dims ↔ divisions = true))
    (hper : ∀ a ∈ as, a.periodicity = .daily)
    (hnames : ∀ a ∈ as, a.varNamePrecip.getD "" ∈ N ∧ a.varNameTemp.getD "" ∈ N ∧ a.varNamePet.getD "" ∈ N) (hpet : "pet_thornthwaite" ∈ N) (hres : "result_array" ∉ N)
    (hstart : w.shared "result_array" = none) :
    let one := sameProcess (processIndices K wk lower yearOf cmp) as w
    let new := newProcesses (processIndices K wk lower yearOf cmp) as w
    one.1 = new.1 ∧ one.2.files = new.2.files ∧ one.2.written = new.2.written := by
  have hr : ResOk (sharedShape yearOf (C "time") S divisions) w.shared := by
    intro r hr
    have : w.shared "result_array" = some r := hr
    rw [hstart] at this
    cases this
  have hs : DaySim N S (sharedShape yearOf (C "time") S divisions) C divisions w w :=
    ⟨rfl, rfl, fun f d hd p hp => ⟨hfiles f d hd p.1 p.2 hp, fun h => htime f d hd p.2 (by rw [← h]; exact hp), hkind f d hd p.1 p.2 hp⟩, hr, hr⟩
  obtain ⟨h1, h2⟩ := sameProcess_rel (R := DaySim N S (sharedShape yearOf (C "time") S divisions) C divisions)
    (fun w1 w2 h => ⟨h.1, h.2.1, h.2.2.1, h.2.2.2.1, fun r hr => by cases hr⟩) as
    (fun a ha => process_day hres cmp a rfl (hper a ha) (by
      intro o ho
      obtain ⟨x1, x2, x3⟩ := hnames a ha
      simp only [List.mem_cons, List.not_mem_nil, or_false] at ho
      rcases ho with rfl | rfl | rfl
      · exact x1
      · exact x2
      · exact x3) hpet) w w hs
  exact ⟨h1, h2.1, h2.2.1⟩

/-- a daily grid and daily divisions meet the hypotheses of `C55_daily_partial`, for all calls on their variable -/
example (n : Nat) : ∀ w ∈ [(gridDays n, [1, 1, n], false), (divisionDays n, [2, n], true)],
    (∀ f d, w.1.files f = some d → ∀ v x, (v, x) ∈ d →
      (x.data.length = x.shape.foldr (· * ·) 1 ∧ (v ∈ ["prcp", "tavg", "", "pet_thornthwaite"] → x.shape = w.2.1) ∧ (v = "lat" → x.shape.length ≠ 2)) ∧
        (x.dims = [v] → x.data = (if v = "lat" then [.fin 40] else if v = "lon" then [.fin 0] else if v = "division" then [.fin 101, .fin 102] else
          (List.range n).map (fun (i : ℕ) => .fin (i : ℚ))))) ∧
    (∀ f d, w.1.files f = some d → ∀ x, ("time", x) ∈ d → x.dims = ["time"]) ∧
    (∀ f d, w.1.files f = some d → ∀ v x, (v, x) ∈ d → v ∈ ["prcp", "tavg", "", "pet_thornthwaite"] → ("division" ∈ x.dims ↔ w.2.2 = true)) ∧
    w.1.shared "result_array" = none := by
  intro w hw
  simp only [List.mem_cons, List.not_mem_nil, or_false] at hw
  rcases hw with rfl | rfl
  · refine ⟨?_, ?_, ?_, rfl⟩
    all_goals
      intro f d hf
      simp only [gridDays, daysOf] at hf
      split at hf
      · cases hf
        intros
        simp_all
        try (casesm* _ ∨ _ <;> simp_all)
      · cases hf
  · refine ⟨?_, ?_, ?_, rfl⟩
    all_goals
      intro f d hf
      simp only [divisionDays, daysOf] at hf
      split at hf
      · cases hf
        intros
        simp_all
        try (casesm* _ ∨ _ <;> simp_all)
      · cases hf

/-- two calls on a daily grid of one leap year in one process -/
example : (sameProcess (processIndices (indexFunction toyExt toyTrig 2000 2000) 2 id daysYear demoCmp) [dailyArgs "spi" [1], dailyArgs "pnp" [1]] (gridDays 366)).1 = [.ok (), .ok ()] := by
  decide +kernel

end CI.Props
