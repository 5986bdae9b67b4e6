import Verif.Lemmas.CliLive
import Verif.Props.CliCells
import Verif.Props.McKeePearson

/-!
# Property C113: which runs of the main tool finish, and what is left when one does not
-/

namespace CI.Props
open CI Spec Spec.McKee

variable {F : Type} [FloatOps F]

/-! ## Specification -/

/-- monthly precipitation as a run needs it: variable `v` of file `f`, of `A` × `b` places (or `A` divisions, `b` = 1) and `n` months, in known units (`mm`: the values in millimetres),
with coordinates, the years `y0` to `y1`, and, for divisions, their latitudes -/
structure Monthly (lower : String → String) (yearOf : F → Int) (a : CliArgs) (w : World F) (f v : String) (d : NcFile F) (x : NcVar F) (A b n : Nat) (mm : List F) (y0 y1 : Int) : Prop where
  input : Input w.files a.outputFileBase a.netcdfPrecip a.varNamePrecip f v d x
  layout : Layout x A b n
  places : 1 ≤ A
  coords : ∀ c ∈ x.dims, ∃ y, List.lookup c d = some y
  lats : "division" ∈ x.dims → ∃ l, List.lookup "lat" d = some l ∧ l.dims = ["division"] ∧ l.shape.length = 1
  years : Years yearOf d y0 y1
  units : ∃ u, x.units = some u ∧ convertPrecip (lower u) x.data = .ok mm
  monthly : a.periodicity = .monthly

/-- the same without the periodicity -/
structure Ready (lower : String → String) (yearOf : F → Int) (a : CliArgs) (w : World F) (f v : String) (d : NcFile F) (x : NcVar F) (A b n : Nat) (mm : List F) (y0 y1 : Int) : Prop where
  input : Input w.files a.outputFileBase a.netcdfPrecip a.varNamePrecip f v d x
  layout : Layout x A b n
  places : 1 ≤ A
  coords : ∀ c ∈ x.dims, ∃ y, List.lookup c d = some y
  lats : "division" ∈ x.dims → ∃ l, List.lookup "lat" d = some l ∧ l.dims = ["division"] ∧ l.shape.length = 1
  years : Years yearOf d y0 y1
  units : ∃ u, x.units = some u ∧ convertPrecip (lower u) x.data = .ok mm

theorem Monthly.ready {lower : String → String} {yearOf : F → Int} {a : CliArgs} {w : World F} {f v : String} {d : NcFile F} {x : NcVar F} {A b n : Nat} {mm : List F} {y0 y1 : Int}
    (h : Monthly lower yearOf a w f v d x A b n mm y0 y1) : Ready lower yearOf a w f v d x A b n mm y0 y1 :=
  ⟨h.input, h.layout, h.places, h.coords, h.lats, h.years, h.units⟩

/-- the result for the series of a place, if it is as long as the series -/
def resultFor (E : Ext F) (cs ce y0 : Int) (o : Output) (l : List F) : Res (List F) :=
  match o with
  | .spi dist s => spi E (Arr.of1d l) s dist y0 cs ce .monthly none
  | .pnp s => do
    let r ← percentageOfNormal l (some (s : Int)) y0 cs ce .monthly
    if r.length = l.length then pure r else .error .valueError
  | _ => .error .valueError

/-- the output can be computed at every place -/
def Computable (E : Ext F) (cs ce y0 : Int) (mm : List F) (A b n : Nat) (o : Output) : Prop := ∀ i < A, ∀ k < b, ∃ r, resultFor E cs ce y0 o (seriesAt b n i k mm) = .ok r

/-! ## The jobs -/

/-- the job of an output -/
def jobOf (a : CliArgs) (it : InputType) (fp : String × String) : Output → Job
  | .spi dist s => mkJob a it "spi" (some (s : Int)) (some dist) (some fp) none none none
  | .pnp s => mkJob a it "pnp" (some (s : Int)) none (some fp) none none none
  | _ => mkJob a it "palmers" none none (some fp) none none none

/-- SPI or PNP with one of the two distributions -/
def Simple : Output → Prop
  | .spi dist _ => dist ∈ distributions
  | .pnp _ => True
  | _ => False

omit [FloatOps F] in
theorem jobOf_name (a : CliArgs) (it : InputType) (fp : String × String) (o : Output) (ho : Simple o) : variableName (jobOf a it fp o) = .ok o.name := by
  cases o with
  | spi dist s =>
    have := vn_spi a it (s : Int) (Int.natCast_nonneg _) dist ho (some fp) none none none
    simpa [jobOf] using this
  | pnp s =>
    have := vn_pnp a it (s : Int) (Int.natCast_nonneg _) (some fp) none none none
    simpa [jobOf] using this
  | spei _ _ => exact ho.elim
  | pet => exact ho.elim

omit [FloatOps F] in
theorem jobOf_facts (a : CliArgs) (it : InputType) (fp : String × String) (o : Output) (ho : Simple o) :
    ((jobOf a it fp o).index = "spi" ∨ (jobOf a it fp o).index = "pnp") ∧ (jobOf a it fp o).precip = some fp ∧ (jobOf a it fp o).temp = none ∧ (jobOf a it fp o).pet = none ∧
      (jobOf a it fp o).periodicity = a.periodicity ∧ (jobOf a it fp o).inputType = it ∧ (jobOf a it fp o).base = a.outputFileBase := by
  cases o with
  | spi dist s => exact ⟨.inl rfl, rfl, rfl, rfl, rfl, rfl, rfl⟩
  | pnp s => exact ⟨.inr rfl, rfl, rfl, rfl, rfl, rfl, rfl⟩
  | spei _ _ => exact ho.elim
  | pet => exact ho.elim

/-- the index function of the job of an output, and its specification -/
theorem jobOf_result [FloatLaws F] (E : Ext F) (hE : ExtNan E) (T : Trig F) (cs ce y0 : Int) (a : CliArgs) (hm : a.periodicity = .monthly) (it : InputType) (fp : String × String) (o : Output) (ho : Simple o) (l r : List F) :
    resultFor E cs ce y0 o l = .ok r ↔ ∃ s, indexFunction E T cs ce y0 (jobOf a it fp o) l l = .ok s ∧ assignSeries l.length s = .ok r := by
  cases o with
  | spi dist s =>
    have e : indexFunction E T cs ce y0 (jobOf a it fp (.spi dist s)) l l = spi E (Arr.of1d l) s dist y0 cs ce .monthly none := by
      rw [← hm]; rfl
    rw [e]
    constructor
    · intro h
      have h' : spi E (Arr.of1d l) s dist y0 cs ce .monthly none = .ok r := h
      refine ⟨r, h', ?_⟩
      unfold assignSeries
      rw [if_pos (show r.length = l.length from C10_size E hE _ _ _ _ _ _ _ _ _ h')]
    · rintro ⟨t, h1, h2⟩
      rw [assignSeries_same h2 (C10_size E hE _ _ _ _ _ _ _ _ _ h1)]
      exact h1
  | pnp s =>
    have e : indexFunction E T cs ce y0 (jobOf a it fp (.pnp s)) l l = percentageOfNormal l (some (s : Int)) y0 cs ce .monthly := by
      rw [← hm]; rfl
    rw [e]
    constructor
    · intro h
      unfold resultFor at h
      obtain ⟨t, h1, h⟩ := Res.bind_ok h
      split at h
      · next hl =>
        cases h
        exact ⟨_, h1, by unfold assignSeries; rw [if_pos hl]⟩
      · cases h
    · rintro ⟨t, h1, h2⟩
      have e := pnp_assign l s y0 cs ce .monthly t r h1 h2
      subst e
      have := assignSeries_ok h2
      unfold resultFor
      simp only [h1, bind, Except.bind, if_pos this]
      rfl
  | spei _ _ => exact ho.elim
  | pet => exact ho.elim

omit [FloatOps F] in
theorem jobOf_inj {a : CliArgs} {it : InputType} {fp : String × String} {o o' : Output} (ho : Simple o) (ho' : Simple o') {n : String}
    (h : variableName (jobOf a it fp o) = .ok n) (h' : variableName (jobOf a it fp o') = .ok n) : o = o' := by
  rw [jobOf_name a it fp o ho] at h
  rw [jobOf_name a it fp o' ho'] at h'
  rw [Except.ok.injEq] at h h'
  exact output_name_inj (h.trans h'.symm)

omit [FloatOps F] in
/-- the validation of the arguments -/
theorem monthly_valid {lower : String → String} {yearOf : F → Int} {a : CliArgs} {w : World F} {f v : String} {d : NcFile F} {x : NcVar F} {A b n : Nat} {mm : List F} {y0 y1 : Int} [FloatOps F]
    (hM : Ready lower yearOf a w f v d x A b n mm y0 y1) (cmp : CoordCmp F) (hi : a.index = "spi" ∨ a.index = "pnp") {scales : List Int} (hs : a.scales = some scales) (hs0 : ∀ s ∈ scales, 0 ≤ s) :
    ∃ it, validateArgs cmp w.files a = .ok it ∧ IsLayout it x.shape A b n ∧ prepareFile w.files a.netcdfPrecip a.varNamePrecip = .ok f ∧ Loadable lower yearOf it w.files f v d x mm y0 := by
  have hget : ∀ c ∈ x.dims, ∃ l, d.coord c = .ok l := by
    intro c hc
    obtain ⟨y, hy⟩ := hM.coords c hc
    exact ⟨y.data, by unfold NcFile.coord NcFile.get; rw [hy]; rfl⟩
  have hidx : a.index ≠ "pet" := by rcases hi with hi | hi <;> rw [hi] <;> decide
  have hoth : ∀ it p, validateOthers cmp w.files a it p = .ok () := by
    intro it p
    unfold validateOthers
    rw [if_neg (by rcases hi with hi | hi <;> rw [hi] <;> decide)]
    rfl
  have hsc : validateScales a = .ok () := by
    unfold validateScales
    rw [if_pos (by rcases hi with hi | hi <;> rw [hi] <;> decide), hs]
    simp only []
    rw [if_neg]
    simp only [List.any_eq_true, decide_eq_true_eq, not_exists, not_and, not_lt]
    exact fun s h => hs0 s h
  have hopen : openFile w.files a.netcdfPrecip = .ok d := by
    unfold openFile
    rw [hM.input.file]
    simp only [hM.input.opened]
  have hgx : d.getOpt a.varNamePrecip = .ok x := by
    unfold NcFile.getOpt NcFile.get
    rw [hM.input.var]
    simp only [hM.input.found]
  have hfirst := (years_ok hM.years).1
  obtain ⟨u, hu, hc⟩ := hM.units
  rcases hM.layout with ⟨hd, hsh⟩ | ⟨hd, hsh, hb⟩
  · have hvp : validatePrecip w.files a = .ok (.grid, d) := by
      obtain ⟨l1, e1⟩ := hget "lat" (by rw [hd]; simp)
      obtain ⟨l2, e2⟩ := hget "lon" (by rw [hd]; simp)
      obtain ⟨l3, e3⟩ := hget "time" (by rw [hd]; simp)
      have ht : inputTypeOf x.dims = .ok .grid := by rw [hd]; rfl
      unfold validatePrecip
      rw [hM.input.file, hM.input.var]
      simp only [openFile, hM.input.opened, NcFile.require, hM.input.found, bind, Except.bind, ht, e1, e2, e3]
      rfl
    refine ⟨.grid, ?_, .inl ⟨rfl, hsh⟩, ?_, ⟨hM.input.opened, hM.input.found, hM.input.wf, hM.input.reserved, hfirst, hM.units, ?_, .inl rfl⟩⟩
    · unfold validateArgs
      rw [if_pos hidx]
      simp only [hvp, hoth, hsc, bind, Except.bind]
      rfl
    · unfold prepareFile
      have he : expectedDims x.dims = .ok ["lat", "lon", "time"] := by rw [hd]; rfl
      have hsd : sameDims x.dims ["lat", "lon", "time"] = true := by rw [hd]; decide
      simp only [hopen, hgx, he, bind, Except.bind, hsd, if_true]
      rw [hM.input.file]
      rfl
    · rw [hd]; decide
  · have hvp : validatePrecip w.files a = .ok (.divisions, d) := by
      obtain ⟨l1, e1⟩ := hget "division" (by rw [hd]; simp)
      obtain ⟨l3, e3⟩ := hget "time" (by rw [hd]; simp)
      have ht : inputTypeOf x.dims = .ok .divisions := by rw [hd]; rfl
      unfold validatePrecip
      rw [hM.input.file, hM.input.var]
      simp only [openFile, hM.input.opened, NcFile.require, hM.input.found, bind, Except.bind, ht, e1, e3]
      rfl
    obtain ⟨l, hl1, hl2, hl3⟩ := hM.lats (by rw [hd]; simp)
    refine ⟨.divisions, ?_, .inr ⟨rfl, hsh, hb⟩, ?_, ⟨hM.input.opened, hM.input.found, hM.input.wf, hM.input.reserved, hfirst, hM.units, ?_, .inr ⟨rfl, by rw [hsh]; rfl, l, hl1, ?_, ?_⟩⟩⟩
    · unfold validateArgs
      rw [if_pos hidx]
      simp only [hvp, hoth, hsc, bind, Except.bind]
      rfl
    · unfold prepareFile
      have he : expectedDims x.dims = .ok ["division", "time"] := by rw [hd]; rfl
      have hsd : sameDims x.dims ["division", "time"] = true := by rw [hd]; decide
      simp only [hopen, hgx, he, bind, Except.bind, hsd, if_true]
      rw [hM.input.file]
      rfl
    · rw [hd]; decide
    · rw [hl2]; decide
    · rw [hl3]; decide

/-- the run is the run of the jobs -/
theorem process_jobs {K : Int → Job → List F → List F → Res (List F)} {wk : Nat} {lower : String → String} {yearOf : F → Int} {a : CliArgs} {w : World F} {f v : String} {d : NcFile F} {x : NcVar F} {A b n : Nat}
    {mm : List F} {y0 y1 : Int} (hM : Ready lower yearOf a w f v d x A b n mm y0 y1) (cmp : CoordCmp F) (hi : a.index = "spi" ∨ a.index = "pnp") {scales : List Nat}
    (hs : a.scales = some (scales.map Int.ofNat)) :
    ∃ it, IsLayout it x.shape A b n ∧ Loadable lower yearOf it w.files f v d x mm y0 ∧
      processIndices K wk lower yearOf cmp a w = runJobs K wk lower yearOf ((documented a.index false scales).map (jobOf a it (f, v))) w := by
  obtain ⟨it, h1, h2, h3, h4⟩ := monthly_valid hM cmp hi hs (by
    intro s hs
    obtain ⟨m, _, rfl⟩ := List.mem_map.1 hs
    exact Int.natCast_nonneg m)
  refine ⟨it, h2, h4, ?_⟩
  have hvar : a.varNamePrecip.getD "" = v := by rw [hM.input.var]; rfl
  have pure_bind : ∀ {α β : Type} (c : α) (g : α → SE (World F) β) (w : World F), ((pure c : SE (World F) α) >>= g) w = g c w := fun _ _ _ => rfl
  have lift_ok : ∀ {α β : Type} (c : α) (g : α → SE (World F) β) (w : World F), ((SE.lift (.ok c) : SE (World F) α) >>= g) w = g c w := fun _ _ _ => rfl
  have get_bind : ∀ {β : Type} (g : Files F → SE (World F) β) (w : World F), ((getFiles : SE (World F) (Files F)) >>= g) w = g w.files w := fun _ _ => rfl
  have bind_pure : ∀ (m : SE (World F) Unit) (g : Unit → SE (World F) Unit) (w : World F), (∀ w', g () w' = (.ok (), w')) → (m >>= g) w = m w := by
    intro m g w hg
    show SE.bind m g w = m w
    unfold SE.bind
    rcases hm : m w with ⟨r, w'⟩
    cases r with
    | error e => rfl
    | ok u => exact hg w'
  have hpal : ∀ pet, runPalmers K wk lower yearOf a it pet = pure () := by
    intro pet
    unfold runPalmers
    rw [if_neg (by rcases hi with hi | hi <;> rw [hi] <;> decide)]
  have hspei : ∀ pet, runSpei K wk lower yearOf a it pet = pure () := by
    intro pet
    unfold runSpei
    rw [if_neg (by rcases hi with hi | hi <;> rw [hi] <;> decide)]
  have hpet : runPet K wk lower yearOf a it = pure (a.netcdfPet, a.varNamePet) := by
    unfold runPet
    rw [if_neg (by rcases hi with hi | hi <;> rw [hi] <;> decide)]
  unfold processIndices
  rw [get_bind, h1, lift_ok]
  rcases hi with hi | hi
  · have hpnp : runPnp K wk lower yearOf a it = pure () := by
      unfold runPnp
      rw [if_neg (by rw [hi]; decide)]
    rw [bind_pure]
    · unfold runSpi
      rw [if_pos (by rw [hi]; decide), get_bind, h3, lift_ok, hs]
      rw [show orElseRaise (some (scales.map Int.ofNat)) PyErr.typeError = .ok (scales.map Int.ofNat) from rfl, lift_ok]
      congr 1
      rw [hi, hvar]
      show _ = (spiOutputs scales).map _
      unfold spiOutputs
      rw [List.map_flatMap, List.flatMap_map]
      rfl
    · intro w'
      rw [hpet, pure_bind, hspei, pure_bind, hpnp, pure_bind, hpal]
      rfl
  · have hspi : runSpi K wk lower yearOf a it = pure () := by
      unfold runSpi
      rw [if_neg (by rw [hi]; decide)]
    rw [hspi, pure_bind, hpet, pure_bind, hspei, pure_bind, bind_pure]
    · unfold runPnp
      rw [if_pos (by rw [hi]; decide), get_bind, h3, lift_ok, hs]
      rw [show orElseRaise (some (scales.map Int.ofNat)) PyErr.typeError = .ok (scales.map Int.ofNat) from rfl, lift_ok]
      congr 1
      rw [hi, hvar]
      show _ = (pnpOutputs scales).map _
      unfold pnpOutputs
      rw [List.map_map, List.map_map]
      rfl
    · intro w'
      rw [hpal]
      rfl

omit [FloatOps F] in
theorem documented_simple {index : String} (hi : index = "spi" ∨ index = "pnp") (scales : List Nat) : ∀ o ∈ documented index false scales, Simple o := by
  intro o ho
  rcases hi with rfl | rfl
  · have ho : o ∈ spiOutputs scales := ho
    unfold spiOutputs at ho
    simp only [List.mem_flatMap, List.mem_cons, List.not_mem_nil, or_false] at ho
    obtain ⟨s, _, rfl | rfl⟩ := ho <;> simp [Simple, distributions]
  · have ho : o ∈ pnpOutputs scales := ho
    unfold pnpOutputs at ho
    obtain ⟨s, _, rfl⟩ := List.mem_map.1 ho
    trivial

open Classical in
/-- the runs of jobs of which each finishes exactly if it has a result at every place -/
theorem precip_run {K : Int → Job → List F → List F → Res (List F)} {wk : Nat} {lower : String → String} {yearOf : F → Int} (a : CliArgs) (it : InputType) (w : World F) {f v : String} {d : NcFile F} {x : NcVar F}
    {A b n : Nat} (outs : List Output) (hsim : ∀ o ∈ outs, Simple o) (shape : List Nat) (R : Output → Nat → Nat → Res (List F)) (Good : Output → Prop)
    (hG : ∀ o, Good o ↔ ∀ i < A, ∀ k < b, ∃ r, R o i k = .ok r)
    (hopen : w.files f = some d) (hkeep : ∀ o : Output, f ≠ fileName a.outputFileBase o.name) (hfresh : w.shared "result_array" = none)
    (hlive : ∀ o ∈ outs, Good o → ∀ v' : World F, v'.files f = some d → ResFits shape v'.shared →
      ∃ v'', computeWriteIndex K wk lower yearOf (jobOf a it (f, v) o) v' = (.ok (fileName a.outputFileBase o.name, o.name), v'') ∧ ResFits shape v''.shared ∧
        v''.written = v'.written ++ [(fileName a.outputFileBase o.name, o.name)])
    (hval : ∀ o ∈ outs, ∀ (v1 v2 : World F) (r : String × String), v1.files f = some d → computeWriteIndex K wk lower yearOf (jobOf a it (f, v) o) v1 = (.ok r, v2) →
      ∃ new y, v2.files r.1 = some new ∧ (r.2, y) ∈ new ∧ (y.dims = x.dims ∧ Carries d new) ∧ (y.shape = x.shape ∧ y.data.length = x.shape.foldr (· * ·) 1) ∧
        ∀ i < A, ∀ k < b, R o i k = .ok (seriesAt b n i k y.data)) :
    ∃ res w', runJobs K wk lower yearOf (outs.map (jobOf a it (f, v))) w = (res, w') ∧
      (res = .ok () ↔ ∀ o ∈ outs, Good o) ∧
      w'.written = w.written ++ entries a.outputFileBase (outs.takeWhile (fun o => decide (Good o))) ∧
      (∀ o ∈ outs.takeWhile (fun o => decide (Good o)), Holds w'.files a.outputFileBase o d x A b n (R o)) ∧
      ∀ g, (∀ o ∈ outs.takeWhile (fun o => decide (Good o)), g ≠ fileName a.outputFileBase o.name) → w'.files g = w.files g := by
  -- the predicate on jobs
  let P : Job → Bool := fun j => decide (∃ o ∈ outs, j = jobOf a it (f, v) o ∧ Good o)
  have hjinj : ∀ o ∈ outs, ∀ o' ∈ outs, jobOf a it (f, v) o = jobOf a it (f, v) o' → o = o' := by
    intro o ho o' ho' h
    exact jobOf_inj (hsim o ho) (hsim o' ho') (jobOf_name a it (f, v) o (hsim o ho)) (by rw [← h]; exact jobOf_name a it (f, v) o (hsim o ho))
  have hP : ∀ o ∈ outs, P (jobOf a it (f, v) o) = decide (Good o) := by
    intro o ho
    by_cases hcm : Good o
    · simp only [P, hcm, decide_true, decide_eq_true_eq]
      exact ⟨o, ho, rfl, hcm⟩
    · simp only [P, hcm, decide_false, decide_eq_false_iff_not]
      rintro ⟨o', ho', he, hc'⟩
      rw [hjinj o ho o' ho' he] at hcm
      exact hcm hc'
  have htw : (outs.map (jobOf a it (f, v))).takeWhile P = (outs.takeWhile (fun o => decide (Good o))).map (jobOf a it (f, v)) := by
    rw [List.takeWhile_map]
    congr 1
    have gen : ∀ l : List Output, (∀ o ∈ l, o ∈ outs) → l.takeWhile (P ∘ jobOf a it (f, v)) = l.takeWhile (fun o => decide (Good o)) := by
      intro l
      induction l with
      | nil => intro _; rfl
      | cons o l ih =>
        intro hl'
        have := hP o (hl' o (by simp))
        rw [List.takeWhile_cons, List.takeWhile_cons, ih (fun z hz => hl' z (by simp [hz]))]
        simp only [Function.comp, this]
    exact gen outs (fun _ h => h)
  let nm : Job → String := fun j => match variableName j with | .ok s => s | .error _ => ""
  have hnm : ∀ o ∈ outs, nm (jobOf a it (f, v) o) = o.name := by
    intro o ho
    simp only [nm, jobOf_name a it (f, v) o (hsim o ho)]
  obtain ⟨w'', r1, r2, r3, r4⟩ := runJobs_prefix (K := K) (wk := wk) (lower := lower) (yearOf := yearOf)
    (Inv := fun v' => v'.files f = some d ∧ ResFits shape v'.shared) (P := P) (nm := nm) (outs.map (jobOf a it (f, v))) w
    ⟨hopen, fun r hr => by rw [show keyResult = "result_array" from rfl, hfresh] at hr; cases hr⟩
    (by
      intro j hj hPj v' hv'
      obtain ⟨o, ho, rfl⟩ := List.mem_map.1 hj
      obtain ⟨e1, e2, e3, e4, e5, e6, e7⟩ := jobOf_facts a it (f, v) o (hsim o ho)
      have hname := jobOf_name a it (f, v) o (hsim o ho)
      rw [hP o ho, decide_eq_true_eq] at hPj
      obtain ⟨v'', k1, k2, k3⟩ := hlive o ho hPj v' hv'.1 hv'.2
      rw [hnm o ho, e7]
      refine ⟨v'', k1, ⟨?_, k2⟩, k3⟩
      rw [(cwi_files k1).2.2 f (hkeep o)]
      exact hv'.1)
    (by
      intro j hj hPj v' hv'
      obtain ⟨o, ho, rfl⟩ := List.mem_map.1 hj
      obtain ⟨e1, e2, e3, e4, e5, e6, e7⟩ := jobOf_facts a it (f, v) o (hsim o ho)
      rw [hP o ho, decide_eq_false_iff_not] at hPj
      rcases hres : computeWriteIndex (K) wk lower yearOf (jobOf a it (f, v) o) v' with ⟨r, v''⟩
      cases r with
      | error e => exact ⟨e, v'', rfl⟩
      | ok r =>
        exfalso
        apply hPj
        obtain ⟨new, y, _, _, _, _, c7⟩ := hval o ho v' v'' r hv'.1 hres
        exact (hG o).2 (fun i hi' k hk => ⟨_, c7 i hi' k hk⟩))
  rw [htw] at r1 r2
  generalize hpre : outs.takeWhile (fun o => decide (Good o)) = pre at r1 r2 ⊢
  have hpm : ∀ o ∈ pre, o ∈ outs := by
    intro o ho
    rw [← hpre] at ho
    exact List.takeWhile_subset _ ho
  have hent : (pre.map (jobOf a it (f, v))).map (fun j => (fileName j.base (nm j), nm j)) = entries a.outputFileBase pre := by
    unfold entries
    rw [List.map_map]
    refine List.map_congr_left (fun o ho => ?_)
    simp only [Function.comp, hnm o (hpm o ho), (jobOf_facts a it (f, v) o (hsim o (hpm o ho))).2.2.2.2.2.2]
  rw [hent] at r2
  have hholds : ∀ o ∈ pre, Holds w''.files a.outputFileBase o d x A b n (R o) := by
    have key := (runJobs_each (G := [(f, d)]) (P := fun j new => ∀ o ∈ pre, j = jobOf a it (f, v) o → ∃ y, (o.name, y) ∈ new ∧ (y.dims = x.dims ∧ Carries d new) ∧ (y.shape = x.shape ∧ y.data.length = x.shape.foldr (· * ·) 1) ∧
        ∀ i < A, ∀ k < b, R o i k = .ok (seriesAt b n i k y.data)) (pre.map (jobOf a it (f, v))) ?_ ?_ ?_ ?_ (by simpa using hopen) r1).2
    · intro o ho
      obtain ⟨m, new, k1, k2, k3⟩ := key (jobOf a it (f, v) o) (List.mem_map_of_mem ho)
      rw [jobOf_name a it (f, v) o (hsim o (hpm o ho)), Except.ok.injEq] at k1
      subst k1
      obtain ⟨y, k4, k5, k6, k7⟩ := k3 o ho rfl
      rw [(jobOf_facts a it (f, v) o (hsim o (hpm o ho))).2.2.2.2.2.2] at k2
      exact ⟨new, y, k2, k4, k5, k6, k7⟩
    · intro p hp j hj m hm
      rw [List.mem_singleton] at hp
      subst hp
      obtain ⟨o, ho, rfl⟩ := List.mem_map.1 hj
      rw [jobOf_name a it (f, v) o (hsim o (hpm o ho)), Except.ok.injEq] at hm
      subst hm
      rw [(jobOf_facts a it (f, v) o (hsim o (hpm o ho))).2.2.2.2.2.2]
      exact hkeep o
    · intro j hj j' hj' m hm hm'
      obtain ⟨o, ho, rfl⟩ := List.mem_map.1 hj
      obtain ⟨o', ho', rfl⟩ := List.mem_map.1 hj'
      rw [jobOf_inj (hsim o (hpm o ho)) (hsim o' (hpm o' ho')) hm hm']
    · intro j hj j' hj'
      obtain ⟨o, ho, rfl⟩ := List.mem_map.1 hj
      obtain ⟨o', ho', rfl⟩ := List.mem_map.1 hj'
      rw [(jobOf_facts a it (f, v) o (hsim o (hpm o ho))).2.2.2.2.2.2, (jobOf_facts a it (f, v) o' (hsim o' (hpm o' ho'))).2.2.2.2.2.2]
    · intro j hj v1 v2 r hfs hr
      obtain ⟨o, ho, rfl⟩ := List.mem_map.1 hj
      obtain ⟨e1, e2, e3, e4, e5, e6, e7⟩ := jobOf_facts a it (f, v) o (hsim o (hpm o ho))
      obtain ⟨new, y, c3, c4, c5, c6, c7⟩ := hval o (hpm o ho) v1 v2 r (hfs (f, d) (by simp)) hr
      have hrn := (cwi_files hr).1
      rw [jobOf_name a it (f, v) o (hsim o (hpm o ho)), Except.ok.injEq] at hrn
      refine ⟨new, c3, fun o' ho' he => ?_⟩
      have hoo := hjinj o (hpm o ho) o' (hpm o' ho') he
      subst hoo
      exact ⟨y, by rw [hrn]; exact c4, c5, c6, c7⟩
  have hrest : ∀ g, (∀ o ∈ pre, g ≠ fileName a.outputFileBase o.name) → w''.files g = w.files g := by
    intro g hg
    refine runJobs_files _ r1 ?_
    intro j hj m hm
    obtain ⟨o, ho, rfl⟩ := List.mem_map.1 hj
    rw [jobOf_name a it (f, v) o (hsim o (hpm o ho)), Except.ok.injEq] at hm
    subst hm
    rw [(jobOf_facts a it (f, v) o (hsim o (hpm o ho))).2.2.2.2.2.2]
    exact hg o ho
  by_cases hall : ∀ o ∈ outs, Good o
  · refine ⟨.ok (), w'', r3 ?_, ⟨fun _ => hall, fun _ => rfl⟩, r2, hholds, hrest⟩
    intro j hj
    obtain ⟨o, ho, rfl⟩ := List.mem_map.1 hj
    rw [hP o ho]
    exact decide_eq_true (hall o ho)
  · push_neg at hall
    obtain ⟨o, ho, hno⟩ := hall
    obtain ⟨e, w', q1, q2, q3⟩ := r4 ⟨_, List.mem_map_of_mem ho, by rw [hP o ho]; exact decide_eq_false hno⟩
    refine ⟨.error e, w', q1, ⟨fun h => by (cases h), fun h => absurd (h o ho) hno⟩, by rw [q3]; exact r2, by rw [q2]; exact hholds, by rw [q2]; exact hrest⟩

/-! ## C113 -/

open Classical in
/-- **C113.** A run of the main tool for SPI or for the percentage of normal from monthly precipitation on a grid or of divisions, in a fresh process, with at least one worker process:
it ends without exception exactly if every output can be computed at every place. In any case the outputs before the first one that cannot be computed somewhere are written, in the
documented order, with the right values at every place; no other file is changed or created. -/
theorem C113_run [FloatLaws F] (E : Ext F) (hE : ExtNan E) (T : Trig F) (cs ce : Int) (wk : Nat) (hwk : 1 ≤ wk) (lower : String → String) (yearOf : F → Int) (cmp : CoordCmp F) (a : CliArgs) (w : World F)
    (hi : a.index = "spi" ∨ a.index = "pnp") {f v : String} {d : NcFile F} {x : NcVar F} {A b n : Nat} {mm : List F} {y0 y1 : Int} (hM : Monthly lower yearOf a w f v d x A b n mm y0 y1)
    (hfresh : w.shared "result_array" = none) (scales : List Nat) (hs : a.scales = some (scales.map Int.ofNat)) :
    ∃ res w', processIndices (indexFunction E T cs ce) wk lower yearOf cmp a w = (res, w') ∧
      (res = .ok () ↔ ∀ o ∈ documented a.index false scales, Computable E cs ce y0 mm A b n o) ∧
      w'.written = w.written ++ entries a.outputFileBase ((documented a.index false scales).takeWhile (fun o => decide (Computable E cs ce y0 mm A b n o))) ∧
      (∀ o ∈ (documented a.index false scales).takeWhile (fun o => decide (Computable E cs ce y0 mm A b n o)),
        Holds w'.files a.outputFileBase o d x A b n (fun i k => resultFor E cs ce y0 o (seriesAt b n i k mm))) ∧
      ∀ g, (∀ o ∈ (documented a.index false scales).takeWhile (fun o => decide (Computable E cs ce y0 mm A b n o)), g ≠ fileName a.outputFileBase o.name) → w'.files g = w.files g := by
  obtain ⟨it, hl, hL, hrun⟩ := process_jobs (K := indexFunction E T cs ce) (wk := wk) hM.ready cmp hi hs
  have hsim := documented_simple hi scales
  generalize documented a.index false scales = outs at hrun hsim ⊢
  rw [hrun]
  obtain ⟨u, hu, hc⟩ := hM.units
  have hser : ∀ i < A, ∀ k < b, (seriesAt b n i k mm).length = n := by
    intro i hi' k hk
    exact seriesAt_len hl (by rw [convert_length.1 hc]; exact hM.input.wf) hi' hk
  refine precip_run a it w outs hsim x.shape (fun o i k => resultFor E cs ce y0 o (seriesAt b n i k mm)) (Computable E cs ce y0 mm A b n) (fun _ => Iff.rfl) hM.input.opened hM.input.notOutput hfresh ?_ ?_
  · intro o ho hcm v' hv1 hv2
    obtain ⟨e1, e2, e3, e4, e5, e6, e7⟩ := jobOf_facts a it (f, v) o (hsim o ho)
    rw [← e7]
    refine cwi_exists (mm := mm) (y0 := y0) (a := A) (b := b) (n := n) e1 e2 e3 e4
      (by rw [e5, hM.monthly]; decide) (by
        rw [e6]
        exact ⟨hv1, hL.found, hL.wf, hL.name, hL.year, hL.units, hL.dims, hL.place⟩) (by rw [e6]; exact hl) hM.places hwk hv2 (jobOf_name a it (f, v) o (hsim o ho)) ?_
    intro i hi' k hk
    obtain ⟨r, hr⟩ := hcm i hi' k hk
    obtain ⟨s, h1, h2⟩ := (jobOf_result E hE T cs ce y0 a hM.monthly it (f, v) o (hsim o ho) _ r).1 hr
    rw [hser i hi' k hk] at h2
    exact ⟨s, r, h1, h2⟩
  · intro o ho v1 v2 r hf hr
    obtain ⟨e1, e2, e3, e4, e5, e6, e7⟩ := jobOf_facts a it (f, v) o (hsim o ho)
    obtain ⟨u', mm', new, y, c1, c2, c3, c4, c5, c6, c6', c7⟩ := cwi_precip hr e1 e2 e3 e4 hM.input.reserved hf hM.input.found (by rw [e6]; exact hl) hM.input.wf hM.years
    rw [hu] at c1
    cases c1
    rw [hc] at c2
    cases c2
    refine ⟨new, y, c3, c4, c5, c6, fun i hi' k hk => ?_⟩
    obtain ⟨p, s, t, t1, t2, t3, t4⟩ := c7 i hi' k hk
    have hpp : p = seriesAt b n i k mm := by
      unfold preparedIt prepared at t1
      rw [e5, hM.monthly] at t1
      split at t1
      · cases t1; rfl
      · simp at t1
        exact t1.symm
    subst hpp
    have ht : t = seriesAt b n i k y.data := by
      unfold restored at t4
      rw [e5, hM.monthly] at t4
      simp at t4
      exact t4
    rw [← ht]
    exact (jobOf_result E hE T cs ce y0 a hM.monthly it (f, v) o (hsim o ho) _ t).2 ⟨s, t2, t3⟩

/-! ### Exactly which precipitation -/

/-- the month `c` of a record is one for which the Pearson fit fails: at least four positive accumulations in the calibration years, and all accumulations but one the same -/
def Unfit (x : List (Option ℝ)) (k c : ℕ) (ds cs ce : ℤ) : Prop :=
  4 ≤ (wet (sample x k 12 c (cs - ds).toNat (ce - cs + 1).toNat)).length ∧ AllButOne (sample x k 12 c (cs - ds).toNat (ce - cs + 1).toNat)

theorem seriesAt_toFl {α β : Type} (g : α → β) (b n i k : Nat) (l : List α) : seriesAt b n i k (l.map g) = (seriesAt b n i k l).map g := by
  unfold seriesAt
  rw [List.map_take, List.map_drop]

/-- the SPI of a record without any value is the record -/
theorem spi_missing (E : Ext (Fl ℝ)) (x : List (Option ℝ)) (hx : ¬ ∃ a, some a ∈ x) (k : Int) (dist : Distribution) (ds cs ce : ℤ) (per : Periodicity) :
    spi E (Arr.of1d (x.map toFl)) k dist ds cs ce per none = .ok (x.map toFl) := by
  have : allNan (Arr.of1d (x.map toFl)).data = true := by
    unfold allNan
    rw [List.all_eq_true]
    intro v hv
    obtain ⟨o, ho, rfl⟩ := List.mem_map.1 hv
    cases o with
    | none => rfl
    | some a => exact absurd ⟨a, ho⟩ hx
  unfold spi
  rw [if_pos (show (Arr.of1d (x.map toFl)).shape.length = 2 ∨ (Arr.of1d (x.map toFl)).shape.length = 1 from Or.inr rfl), if_pos this]
  rfl

/-- a record without any value has no accumulations -/
theorem sample_missing (x : List (Option ℝ)) (hx : ¬ ∃ a, some a ∈ x) (k p c a m : ℕ) (h1 : 1 ≤ k) : sample x k p c a m = [] := by
  unfold sample
  rw [List.filterMap_eq_nil_iff]
  intro y _
  generalize (a + y) * p + c = t
  unfold accum
  simp only []
  rw [if_neg]
  rintro ⟨e1, e2, e3⟩
  have hne : (x.drop (t + 1 - k)).take k ≠ [] := by
    rw [← List.length_pos_iff, List.length_take, List.length_drop]
    omega
  obtain ⟨o, ho⟩ := List.exists_mem_of_ne_nil _ hne
  obtain ⟨v, rfl⟩ := Option.isSome_iff_exists.1 (List.all_eq_true.1 e3 o ho)
  exact hx ⟨v, List.mem_of_mem_drop (List.mem_of_mem_take ho)⟩

/-- when the SPI of a record can be computed -/
theorem resultFor_spi (E : Ext (Fl ℝ)) (hR : ExtReal E) (x : List (Option ℝ)) (hx : ∀ a, some a ∈ x → 0 ≤ a) (k : ℕ) (h1 : 1 ≤ k) (h2 : k ≤ x.length) (ds cs ce : ℤ) (c1 : ds ≤ cs) (c2 : cs ≤ ce)
    (c3 : ce < ds + yearsOf x.length 12) :
    ((∃ r, resultFor E cs ce ds (.spi .pearson k) (x.map toFl) = .ok r) ↔ ∀ c < 12, ¬ Unfit x k c ds cs ce) ∧ ∃ r, resultFor E cs ce ds (.spi .gamma k) (x.map toFl) = .ok r := by
  by_cases hs : ∃ a, some a ∈ x
  · have hn : ∃ v ∈ (Arr.of1d (x.map toFl)).data, isNan v = false := by
      obtain ⟨a, ha⟩ := hs
      exact ⟨toFl (some a), List.mem_map.2 ⟨_, ha, rfl⟩, rfl⟩
    have hk : (1 : Int) ≤ (k : Int) := by exact_mod_cast h1
    constructor
    · have key := C10_pearson_exact E hR x hx k h1 h2 .monthly (by decide) ds cs ce c1 c2 c3 hs
      show (∃ r, spi E (Arr.of1d (x.map toFl)) k .pearson ds cs ce .monthly none = .ok r) ↔ _
      rcases C10_pearson_partial E (Arr.of1d (x.map toFl)) k ds cs ce .monthly (.inl rfl) (.inl rfl) hk hn with ⟨out, ho, _⟩ | he
      · refine ⟨fun _ c hc hbad => ?_, fun _ => ⟨out, ho⟩⟩
        have := key.2 ⟨c, hc, hbad⟩
        rw [ho] at this
        cases this
      · refine ⟨fun ⟨r, hr⟩ => ?_, fun h => ?_⟩
        · rw [he] at hr
          cases hr
        · obtain ⟨c, hc, hbad⟩ := key.1 he
          exact absurd hbad (h c hc)
    · obtain ⟨out, ho, _⟩ := C10_gamma E (Arr.of1d (x.map toFl)) k ds cs ce .monthly (.inl rfl) (.inl rfl) hk hn
      exact ⟨out, ho⟩
  · refine ⟨⟨fun _ c hc hbad => ?_, fun _ => ⟨_, spi_missing E x hs k .pearson ds cs ce .monthly⟩⟩, _, spi_missing E x hs k .gamma ds cs ce .monthly⟩
    have := hbad.1
    rw [sample_missing x hs k 12 c _ _ h1] at this
    simp [wet] at this

/-- **C113, exactly.** In exact arithmetic, for precipitation that is not negative (places may have missing months or no values at all), scales from 1 to the length of the record and
calibration years inside the record, a run for SPI ends without exception exactly if no place, no scale and no calendar month has a sample for which the Pearson fit fails: at least four
positive accumulations in the calibration years, and all accumulations but one the same. -/
theorem C113_spi_exact (E : Ext (Fl ℝ)) (hE : ExtNan E) (hR : ExtReal E) (T : Trig (Fl ℝ)) (cs ce : Int) (wk : Nat) (hwk : 1 ≤ wk) (lower : String → String) (yearOf : Fl ℝ → Int) (cmp : CoordCmp (Fl ℝ))
    (a : CliArgs) (w : World (Fl ℝ)) (hi : a.index = "spi") {f v : String} {d : NcFile (Fl ℝ)} {x : NcVar (Fl ℝ)} {A b n : Nat} {vals : List (Option ℝ)} {y0 y1 : Int}
    (hM : Monthly lower yearOf a w f v d x A b n (vals.map toFl) y0 y1) (hpos : ∀ u, some u ∈ vals → 0 ≤ u) (hfresh : w.shared "result_array" = none) (scales : List Nat)
    (hs : a.scales = some (scales.map Int.ofNat)) (hsc : ∀ s ∈ scales, 1 ≤ s ∧ s ≤ n) (c1 : y0 ≤ cs) (c2 : cs ≤ ce) (c3 : ce < y0 + yearsOf n 12) :
    (∃ w', processIndices (indexFunction E T cs ce) wk lower yearOf cmp a w = (.ok (), w')) ↔
      ∀ s ∈ scales, ∀ i < A, ∀ k < b, ∀ c < 12, ¬ Unfit (seriesAt b n i k vals) s c y0 cs ce := by
  obtain ⟨res, w', h1, h2, _⟩ := C113_run E hE T cs ce wk hwk lower yearOf cmp a w (.inl hi) hM hfresh scales hs
  have hlen : ∀ i < A, ∀ k < b, (seriesAt b n i k vals).length = n := by
    intro i hi' k hk
    obtain ⟨u, hu, hc⟩ := hM.units
    obtain ⟨it, hl⟩ : ∃ it, IsLayout it x.shape A b n := by
      rcases hM.layout with ⟨_, h⟩ | ⟨_, h, hb⟩
      · exact ⟨.grid, .inl ⟨rfl, h⟩⟩
      · exact ⟨.divisions, .inr ⟨rfl, h, hb⟩⟩
    have := seriesAt_len hl (by rw [convert_length.1 hc]; exact hM.input.wf) hi' hk
    rw [seriesAt_toFl, List.length_map] at this
    exact this
  have hmem : ∀ i k u, some u ∈ seriesAt b n i k vals → 0 ≤ u := fun i k u hu => hpos u (List.mem_of_mem_drop (List.mem_of_mem_take hu))
  have hpl : ∀ s ∈ scales, ∀ i (hi' : i < A) k (hk : k < b), _ := fun s hs' i hi' k hk =>
    resultFor_spi E hR (seriesAt b n i k vals) (hmem i k) s (hsc s hs').1 (by rw [hlen i hi' k hk]; exact (hsc s hs').2) y0 cs ce c1 c2 (by rw [hlen i hi' k hk]; exact c3)
  rw [h1]
  have hdoc : ∀ o, o ∈ documented a.index false scales ↔ ∃ s ∈ scales, o = .spi .pearson s ∨ o = .spi .gamma s := by
    intro o
    rw [hi]
    show o ∈ spiOutputs scales ↔ _
    simp [spiOutputs]
  constructor
  · rintro ⟨w'', hw⟩
    have := h2.1 (Prod.ext_iff.1 hw).1
    intro s hs' i hi' k hk
    have := this (.spi .pearson s) ((hdoc _).2 ⟨s, hs', .inl rfl⟩) i hi' k hk
    rw [seriesAt_toFl] at this
    exact (hpl s hs' i hi' k hk).1.1 this
  · intro h
    have hall : ∀ o ∈ documented a.index false scales, Computable E cs ce y0 (vals.map toFl) A b n o := by
      intro o ho i hi' k hk
      obtain ⟨s, hs', rfl | rfl⟩ := (hdoc o).1 ho
      · rw [seriesAt_toFl]
        exact (hpl s hs' i hi' k hk).1.2 (h s hs' i hi' k hk)
      · rw [seriesAt_toFl]
        exact (hpl s hs' i hi' k hk).2
    exact ⟨w', by rw [h2.2 hall]⟩

/-- **C113, one place.** If at a single place the Pearson fit for the first scale fails, the run of the whole grid ends with an exception and writes nothing at all, although the gamma SPI can be
computed everywhere. -/
theorem C113_one_place_fails (E : Ext (Fl ℝ)) (hE : ExtNan E) (hR : ExtReal E) (T : Trig (Fl ℝ)) (cs ce : Int) (wk : Nat) (hwk : 1 ≤ wk) (lower : String → String) (yearOf : Fl ℝ → Int) (cmp : CoordCmp (Fl ℝ))
    (a : CliArgs) (w : World (Fl ℝ)) (hi : a.index = "spi") {f v : String} {d : NcFile (Fl ℝ)} {x : NcVar (Fl ℝ)} {A b n : Nat} {vals : List (Option ℝ)} {y0 y1 : Int}
    (hM : Monthly lower yearOf a w f v d x A b n (vals.map toFl) y0 y1) (hpos : ∀ u, some u ∈ vals → 0 ≤ u) (hfresh : w.shared "result_array" = none) (s : Nat) (scales : List Nat)
    (hs : a.scales = some ((s :: scales).map Int.ofNat)) (hsc : 1 ≤ s ∧ s ≤ n) (c1 : y0 ≤ cs) (c2 : cs ≤ ce) (c3 : ce < y0 + yearsOf n 12)
    {i k c : Nat} (hiA : i < A) (hkb : k < b) (hc12 : c < 12) (hbad : Unfit (seriesAt b n i k vals) s c y0 cs ce) :
    ∃ e w', processIndices (indexFunction E T cs ce) wk lower yearOf cmp a w = (.error e, w') ∧ w'.files = w.files ∧ w'.written = w.written ∧
      ∀ i < A, ∀ k < b, ∃ r, spi E (Arr.of1d (seriesAt b n i k (vals.map toFl))) s .gamma y0 cs ce .monthly none = .ok r := by
  obtain ⟨res, w', h1, h2, h3, _, h5⟩ := C113_run E hE T cs ce wk hwk lower yearOf cmp a w (.inl hi) hM hfresh (s :: scales) hs
  have hlen : ∀ i < A, ∀ k < b, (seriesAt b n i k vals).length = n := by
    intro i hi' k hk
    obtain ⟨u, hu, hc⟩ := hM.units
    obtain ⟨it, hl⟩ : ∃ it, IsLayout it x.shape A b n := by
      rcases hM.layout with ⟨_, h⟩ | ⟨_, h, hb⟩
      · exact ⟨.grid, .inl ⟨rfl, h⟩⟩
      · exact ⟨.divisions, .inr ⟨rfl, h, hb⟩⟩
    have := seriesAt_len hl (by rw [convert_length.1 hc]; exact hM.input.wf) hi' hk
    rw [seriesAt_toFl, List.length_map] at this
    exact this
  have hpl : ∀ i (hi' : i < A) k (hk : k < b), _ := fun i hi' k hk =>
    resultFor_spi E hR (seriesAt b n i k vals) (fun u hu => hpos u (List.mem_of_mem_drop (List.mem_of_mem_take hu))) s hsc.1 (by rw [hlen i hi' k hk]; exact hsc.2) y0 cs ce c1 c2
      (by rw [hlen i hi' k hk]; exact c3)
  have hno : ¬ Computable E cs ce y0 (vals.map toFl) A b n (.spi .pearson s) := by
    intro h
    have := h i hiA k hkb
    rw [seriesAt_toFl] at this
    exact (hpl i hiA k hkb).1.1 this c hc12 hbad
  have hdoc : documented a.index false (s :: scales) = .spi .pearson s :: (.spi .gamma s :: spiOutputs scales) := by
    rw [hi]
    rfl
  rw [hdoc] at h2 h3 h5
  rw [List.takeWhile_cons_of_neg (by simpa using hno)] at h3 h5
  cases res with
  | ok u => exact absurd (h2.1 rfl _ (List.mem_cons_self)) hno
  | error e =>
    refine ⟨e, w', h1, funext (fun g => h5 g (by simp)), by simpa [entries] using h3, ?_⟩
    intro i hi' k hk
    rw [seriesAt_toFl]
    exact (hpl i hi' k hk).2

/-- when the percentage of normal of a record can be computed and is as long as the record -/
theorem resultFor_pnp (E : Ext F) (l : List F) (s : ℕ) (ds cs ce : ℤ) :
    (∃ r, resultFor E cs ce ds (.pnp s) l = .ok r) ↔ ds ≤ cs ∧ (ce - cs + 1) * 12 ≤ l.length ∧ (s = 1 ∨ 1 ≤ s ∧ s ≤ l.length) := by
  unfold resultFor percentageOfNormal
  simp only []
  by_cases h1 : (s : Int) < 1
  · rw [if_pos h1]
    constructor
    · rintro ⟨r, hr⟩
      cases hr
    · rintro ⟨_, _, h | h⟩ <;> omega
  rw [if_neg h1]
  by_cases h2 : ds > cs
  · rw [if_pos h2]
    constructor
    · rintro ⟨r, hr⟩
      cases hr
    · rintro ⟨h, _⟩
      omega
  rw [if_neg h2]
  by_cases h3 : (ce - cs + 1) * 12 > l.length
  · rw [if_pos h3]
    constructor
    · rintro ⟨r, hr⟩
      cases hr
    · rintro ⟨_, h, _⟩
      omega
  rw [if_neg h3]
  unfold sumToScale
  by_cases h4 : (s : Int) = 1
  · rw [if_pos h4]
    simp only [bind, Except.bind, pure, Except.pure, List.length_mapIdx, if_true]
    exact ⟨fun _ => ⟨by omega, by omega, .inl (by omega)⟩, fun _ => ⟨_, rfl⟩⟩
  rw [if_neg h4]
  unfold convolveOnes
  by_cases h5 : l = []
  · rw [if_pos (.inr h5)]
    constructor
    · rintro ⟨r, hr⟩
      cases hr
    · rintro ⟨_, _, h⟩
      rw [h5, List.length_nil] at h
      omega
  rw [if_neg (by rintro (h | h); omega; exact h5 h)]
  have hl : l.length ≠ 0 := by rwa [ne_eq, List.length_eq_zero_iff]
  simp only [Int.toNat_natCast]
  by_cases h6 : s ≤ l.length
  · rw [if_pos h6]
    simp only [bind, Except.bind, pure, Except.pure, List.length_mapIdx]
    rw [if_pos (by simp; omega)]
    exact ⟨fun _ => ⟨by omega, by omega, .inr ⟨by omega, h6⟩⟩, fun _ => ⟨_, rfl⟩⟩
  · rw [if_neg h6]
    simp only [bind, Except.bind, pure, Except.pure, List.length_mapIdx]
    rw [if_neg (by simp; omega)]
    constructor
    · rintro ⟨r, hr⟩
      cases hr
    · rintro ⟨_, _, h⟩
      omega

/-- **C113, percentage of normal.** In every arithmetic, whatever the values: a run for the percentage of normal ends without exception exactly if the calibration does not begin before the
record and is not longer than it, and every scale is at least 1 and at most the length of the record (or 1). -/
theorem C113_pnp_exact [FloatLaws F] (E : Ext F) (hE : ExtNan E) (T : Trig F) (cs ce : Int) (wk : Nat) (hwk : 1 ≤ wk) (lower : String → String) (yearOf : F → Int) (cmp : CoordCmp F)
    (a : CliArgs) (w : World F) (hi : a.index = "pnp") {f v : String} {d : NcFile F} {x : NcVar F} {A b n : Nat} {mm : List F} {y0 y1 : Int}
    (hM : Monthly lower yearOf a w f v d x A b n mm y0 y1) (hb : 1 ≤ b) (hfresh : w.shared "result_array" = none) (scales : List Nat) (hs : a.scales = some (scales.map Int.ofNat)) :
    (∃ w', processIndices (indexFunction E T cs ce) wk lower yearOf cmp a w = (.ok (), w')) ↔
      ∀ s ∈ scales, y0 ≤ cs ∧ (ce - cs + 1) * 12 ≤ n ∧ (s = 1 ∨ 1 ≤ s ∧ s ≤ n) := by
  obtain ⟨res, w', h1, h2, _⟩ := C113_run E hE T cs ce wk hwk lower yearOf cmp a w (.inr hi) hM hfresh scales hs
  have hlen : ∀ i < A, ∀ k < b, (seriesAt b n i k mm).length = n := by
    intro i hi' k hk
    obtain ⟨u, hu, hc⟩ := hM.units
    obtain ⟨it, hl⟩ : ∃ it, IsLayout it x.shape A b n := by
      rcases hM.layout with ⟨_, h⟩ | ⟨_, h, hb⟩
      · exact ⟨.grid, .inl ⟨rfl, h⟩⟩
      · exact ⟨.divisions, .inr ⟨rfl, h, hb⟩⟩
    exact seriesAt_len hl (by rw [convert_length.1 hc]; exact hM.input.wf) hi' hk
  have hdoc : ∀ o, o ∈ documented a.index false scales ↔ ∃ s ∈ scales, o = .pnp s := by
    intro o
    rw [hi]
    show o ∈ pnpOutputs scales ↔ _
    simp [pnpOutputs, eq_comm]
  rw [h1]
  constructor
  · rintro ⟨w'', hw⟩ s hs'
    have := h2.1 (Prod.ext_iff.1 hw).1 (.pnp s) ((hdoc _).2 ⟨s, hs', rfl⟩) 0 hM.places 0 hb
    rw [resultFor_pnp, hlen 0 hM.places 0 hb] at this
    exact this
  · intro h
    have hall : ∀ o ∈ documented a.index false scales, Computable E cs ce y0 mm A b n o := by
      intro o ho i hi' k hk
      obtain ⟨s, hs', rfl⟩ := (hdoc o).1 ho
      rw [resultFor_pnp, hlen i hi' k hk]
      exact h s hs'
    exact ⟨w', by rw [h2.2 hall]⟩

/-! ## Cases -/

/-- the precipitation of the small world meets the hypotheses of C113 -/
theorem demo_monthly (index : String) (scales : List Int) : Monthly id demoYear (demoArgs index scales) demoWorld "p.nc" "prcp" (("prcp", demoPrecip) :: demoCoords) demoPrecip 1 2 12
    (demoPrecip.data.map (fun v => v * lit 25.4)) 2000 2000 := by
  refine ⟨⟨rfl, rfl, rfl, rfl, rfl, by decide, demo_notOutput _ (by decide)⟩, .inl ⟨rfl, rfl⟩, by decide, ?_, ?_, ⟨demoTime, .fin 0, .fin 11, rfl, rfl, rfl, rfl, rfl⟩, ⟨"inches", rfl, ?_⟩, rfl⟩
  · intro c hc
    rcases (show c = "lat" ∨ c = "lon" ∨ c = "time" by simpa [demoPrecip] using hc) with rfl | rfl | rfl
    · exact ⟨demoLat, rfl⟩
    · exact ⟨demoLon, rfl⟩
    · exact ⟨demoTime, rfl⟩
  · intro h
    exact absurd h (by decide)
  · unfold convertPrecip
    rw [if_neg (by decide), if_pos (by decide)]

/-- a run of that world which finishes, and the files it has written -/
example : (processIndices (indexFunction toyExt toyTrig 2000 2000) 2 id demoYear demoCmp (demoArgs "spi" [1, 3]) demoWorld).1 = .ok () ∧
    (processIndices (indexFunction toyExt toyTrig 2000 2000) 2 id demoYear demoCmp (demoArgs "spi" [1, 3]) demoWorld).2.written.map Prod.snd =
      ["spi_pearson_01", "spi_gamma_01", "spi_pearson_03", "spi_gamma_03"] := by decide +kernel

/-- five years at two places: one with 0, 1, 2, 4 and 8 mm in every month, one with 5 mm in every month of the first four years and 7 mm in the last year -/
noncomputable def pairVals : List (Option ℝ) := steps5 ++ (List.range 60).map (fun i : ℕ => some (if i < 48 then 5 else 7 : ℝ))

noncomputable def pairVar : NcVar (Fl ℝ) := ⟨["lat", "lon", "time"], [1, 2, 60], some "mm", pairVals.map toFl⟩

noncomputable def pairFile : NcFile (Fl ℝ) :=
  [("prcp", pairVar), ("lat", ⟨["lat"], [1], none, [.fin 40]⟩), ("lon", ⟨["lon"], [2], none, [.fin 0, .fin 1]⟩), ("time", ⟨["time"], [60], none, (List.range 60).map (fun i : ℕ => .fin (i : ℝ))⟩)]

noncomputable def pairWorld : World (Fl ℝ) := ⟨fun g => if g = "p.nc" then some pairFile else none, fun _ => none, []⟩

/-- months since January 2000 -/
noncomputable def pairYear : Fl ℝ → Int
  | .fin r => 2000 + ⌊r / 12⌋
  | _ => 0

theorem pair_monthly (index : String) (scales : List Int) : Monthly id pairYear (demoArgs index scales) pairWorld "p.nc" "prcp" pairFile pairVar 1 2 60 (pairVals.map toFl) 2000 2004 := by
  refine ⟨⟨rfl, rfl, rfl, rfl, ?_, by decide, demo_notOutput _ (by decide)⟩, .inl ⟨rfl, rfl⟩, by decide, ?_, ?_, ⟨_, .fin ((0 : ℕ) : ℝ), .fin ((59 : ℕ) : ℝ), rfl, rfl, rfl, ?_, ?_⟩, ⟨"mm", rfl, ?_⟩, rfl⟩
  · simp [pairVar, pairVals, steps5]
  · intro c hc
    rcases (show c = "lat" ∨ c = "lon" ∨ c = "time" by simpa [pairVar] using hc) with rfl | rfl | rfl
    · exact ⟨_, rfl⟩
    · exact ⟨_, rfl⟩
    · exact ⟨_, rfl⟩
  · intro h
    exact absurd h (by simp [pairVar])
  · simp [pairYear]
  · show 2000 + ⌊((59 : ℕ) : ℝ) / 12⌋ = 2004
    have : ⌊((59 : ℕ) : ℝ) / 12⌋ = 4 := by
      rw [Int.floor_eq_iff]
      norm_num
    rw [this]
    norm_num
  · unfold convertPrecip
    rw [if_pos (by decide)]
    rfl

/-- the second place is one where the fit fails, in January at scale 1 -/
theorem pair_unfit : Unfit (seriesAt 2 60 0 1 pairVals) 1 0 2000 2000 2004 := by
  have hser : seriesAt 2 60 0 1 pairVals = (List.range 60).map (fun i : ℕ => some (if i < 48 then 5 else 7 : ℝ)) := by
    unfold seriesAt pairVals
    have : steps5.length = 60 := by simp [steps5]
    rw [List.drop_append_of_le_length (by omega), List.drop_of_length_le (by omega), List.nil_append, List.take_of_length_le (by simp)]
  have hsam : sample (seriesAt 2 60 0 1 pairVals) 1 12 0 (2000 - 2000 : Int).toNat (2004 - 2000 + 1 : Int).toNat = [5, 5, 5, 5, 7] := by
    rw [hser]
    simp [sample, accum, List.range_succ, List.filterMap]
  unfold Unfit
  rw [hsam]
  constructor
  · simp [wet]
  · refine ⟨5, 7, ?_⟩
    show List.Perm [5, 5, 5, 5, 7] (7 :: [5, 5, 5, 5])
    exact List.perm_append_comm (l₁ := [(5 : ℝ), 5, 5, 5]) (l₂ := [7])

/-- C113 applies to it: nothing is written -/
example (E : Ext (Fl ℝ)) (hE : ExtNan E) (hR : ExtReal E) (T : Trig (Fl ℝ)) (cmp : CoordCmp (Fl ℝ)) : ∃ e w', processIndices (indexFunction E T 2000 2004) 4 id pairYear cmp (demoArgs "spi" [1, 6]) pairWorld = (.error e, w') ∧
    w'.files = pairWorld.files ∧ w'.written = [] := by
  obtain ⟨e, w', h1, h2, h3, _⟩ := C113_one_place_fails E hE hR T 2000 2004 4 (by decide) id pairYear cmp (demoArgs "spi" [1, 6]) pairWorld rfl (pair_monthly "spi" [1, 6]) (by
    intro u hu
    rcases List.mem_append.1 hu with hu | hu
    · exact steps5_nonneg u hu
    · obtain ⟨i, _, hi⟩ := List.mem_map.1 hu
      rw [Option.some.injEq] at hi
      rw [← hi]
      split <;> norm_num) rfl 1 [6] rfl (by decide) (by decide) (by decide) (by decide) (i := 0) (k := 1) (c := 0) (by decide) (by decide) (by decide) pair_unfit
  exact ⟨e, w', h1, h2, h3⟩

end CI.Props
