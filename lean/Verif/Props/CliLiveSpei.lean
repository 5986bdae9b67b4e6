import Verif.Lemmas.CliLiveSpei
import Verif.Props.CliLive

/-!
# Property C116: which runs of the main tool for SPEI and for all scaled indices finish, and what is left when one does not
-/

namespace CI.Props
open CI Spec Spec.McKee

variable {F : Type} [FloatOps F]

/-! ## Specification -/

/-- a PET file that goes with the precipitation: variable `ve` of file `fe`, with the dimensions and the shape of the precipitation `x`, the same coordinates, in known units (`pe`: the values
in millimetres). The names of the two variables differ; if the precipitation file, too, has a variable with the name of the PET variable, then it is the same. No temperature file is given. -/
structure PetFile (lower : String → String) (cmp : CoordCmp F) (a : CliArgs) (w : World F) (d : NcFile F) (x : NcVar F) (v fe ve : String) (de : NcFile F) (xe : NcVar F) (pe : List F) : Prop where
  input : Input w.files a.outputFileBase a.netcdfPet a.varNamePet fe ve de xe
  dims : xe.dims = x.dims
  shape : xe.shape = x.shape
  differ : v ≠ ve
  first : List.lookup ve d = none ∨ List.lookup ve d = some xe
  coords : ∀ c ∈ x.dims, ∃ y ye, List.lookup c d = some y ∧ List.lookup c de = some ye ∧ ye.data = y.data
  accepted : ∀ c ∈ x.dims, ∀ y, List.lookup c d = some y → cmp.close y.data y.data = .ok true ∧ cmp.equal y.data y.data = true
  same : SameCoords d de
  units : ∃ u, xe.units = some u ∧ convertPet (lower u) xe.data = .ok pe
  noTemp : a.netcdfTemp = none

/-- the result for the series of precipitation and PET of a place -/
def resultFor₂ (E : Ext F) (cs ce y0 : Int) (o : Output) (l e : List F) : Res (List F) :=
  match o with
  | .spei dist s => (spei E (Arr.of1d l) (Arr.of1d e) s dist .monthly y0 cs ce none).map Arr.data
  | o => resultFor E cs ce y0 o l

/-- the output can be computed at every place -/
def Computable₂ (E : Ext F) (cs ce y0 : Int) (mm pe : List F) (A b n : Nat) (o : Output) : Prop :=
  ∀ i < A, ∀ k < b, ∃ r, resultFor₂ E cs ce y0 o (seriesAt b n i k mm) (seriesAt b n i k pe) = .ok r

/-! ## The jobs -/

/-- the job of an output -/
def jobOf₂ (a : CliArgs) (it : InputType) (fp fe : String × String) : Output → Job
  | .spei dist s => mkJob a it "spei" (some (s : Int)) (some dist) (some fp) none (some fe) none
  | o => jobOf a it fp o

/-- SPI, SPEI or PNP with one of the two distributions -/
def Scaled : Output → Prop
  | .spei dist _ => dist ∈ distributions
  | o => Simple o

omit [FloatOps F] in
theorem jobOf₂_name (a : CliArgs) (it : InputType) (fp fe : String × String) (o : Output) (ho : Scaled o) : variableName (jobOf₂ a it fp fe o) = .ok o.name := by
  cases o with
  | spei dist s =>
    have := vn_spei a it (s : Int) (Int.natCast_nonneg _) dist ho (some fp) none (some fe) none
    simpa [jobOf₂] using this
  | spi dist s => exact jobOf_name a it fp (.spi dist s) ho
  | pnp s => exact jobOf_name a it fp (.pnp s) ho
  | pet => exact ho.elim

omit [FloatOps F] in
theorem jobOf₂_base (a : CliArgs) (it : InputType) (fp fe : String × String) (o : Output) (ho : Scaled o) : (jobOf₂ a it fp fe o).base = a.outputFileBase := by
  cases o <;> rfl

omit [FloatOps F] in
/-- the parts of the validation that concern the precipitation -/
theorem monthly_parts [FloatOps F] {lower : String → String} {yearOf : F → Int} {a : CliArgs} {w : World F} {f v : String} {d : NcFile F} {x : NcVar F} {A b n : Nat} {mm : List F} {y0 y1 : Int}
    (hM : Ready lower yearOf a w f v d x A b n mm y0 y1) :
    ∃ it, validatePrecip w.files a = .ok (it, d) ∧ IsLayout it x.shape A b n ∧ (∀ fs : Files F, fs f = some d → prepareFile fs a.netcdfPrecip a.varNamePrecip = .ok f) ∧
      Loadable lower yearOf it w.files f v d x mm y0 ∧ ((it = .grid ∧ x.dims = ["lat", "lon", "time"]) ∨ (it = .divisions ∧ x.dims = ["division", "time"])) := by
  have hget : ∀ c ∈ x.dims, ∃ l, d.coord c = .ok l := by
    intro c hc
    obtain ⟨y, hy⟩ := hM.coords c hc
    exact ⟨y.data, by unfold NcFile.coord NcFile.get; rw [hy]; rfl⟩
  have hgx : d.getOpt a.varNamePrecip = .ok x := by
    unfold NcFile.getOpt NcFile.get
    rw [hM.input.var]
    simp only [hM.input.found]
  have hfirst := (years_ok hM.years).1
  have hprep : ∀ e, expectedDims x.dims = .ok e → sameDims x.dims e = true → ∀ fs : Files F, fs f = some d → prepareFile fs a.netcdfPrecip a.varNamePrecip = .ok f := by
    intro e he hsd fs hfs
    have hopen : openFile fs a.netcdfPrecip = .ok d := by
      unfold openFile
      rw [hM.input.file]
      simp only [hfs]
    unfold prepareFile
    simp only [hopen, hgx, he, bind, Except.bind, hsd, if_true]
    rw [hM.input.file]
    rfl
  rcases hM.layout with ⟨hd, hsh⟩ | ⟨hd, hsh, hb⟩
  · have hvp : validatePrecip w.files a = .ok (.grid, d) := by
      obtain ⟨l1, e1⟩ := hget "lat" (by rw [hd]; simp)
      obtain ⟨l2, e2⟩ := hget "lon" (by rw [hd]; simp)
      obtain ⟨l3, e3⟩ := hget "time" (by rw [hd]; simp)
      have ht : inputTypeOf x.dims = .ok .grid := by rw [hd]; rfl
      unfold validatePrecip
      rw [hM.input.file, hM.input.var]
      simp only [openFile, hM.input.opened, NcFile.require, hM.input.found, bind, Except.bind, ht, e1, e2, e3]
      rfl
    refine ⟨.grid, hvp, .inl ⟨rfl, hsh⟩, hprep ["lat", "lon", "time"] (by rw [hd]; rfl) (by rw [hd]; decide), ⟨hM.input.opened, hM.input.found, hM.input.wf, hM.input.reserved, hfirst, hM.units, ?_, .inl rfl⟩, .inl ⟨rfl, hd⟩⟩
    rw [hd]; decide
  · have hvp : validatePrecip w.files a = .ok (.divisions, d) := by
      obtain ⟨l1, e1⟩ := hget "division" (by rw [hd]; simp)
      obtain ⟨l3, e3⟩ := hget "time" (by rw [hd]; simp)
      have ht : inputTypeOf x.dims = .ok .divisions := by rw [hd]; rfl
      unfold validatePrecip
      rw [hM.input.file, hM.input.var]
      simp only [openFile, hM.input.opened, NcFile.require, hM.input.found, bind, Except.bind, ht, e1, e3]
      rfl
    obtain ⟨l, hl1, hl2, hl3⟩ := hM.lats (by rw [hd]; simp)
    refine ⟨.divisions, hvp, .inr ⟨rfl, hsh, hb⟩, hprep ["division", "time"] (by rw [hd]; rfl) (by rw [hd]; decide),
      ⟨hM.input.opened, hM.input.found, hM.input.wf, hM.input.reserved, hfirst, hM.units, ?_, .inr ⟨rfl, by rw [hsh]; rfl, l, hl1, ?_, ?_⟩⟩, .inr ⟨rfl, hd⟩⟩
    · rw [hd]; decide
    · rw [hl2]; decide
    · rw [hl3]; decide

omit [FloatOps F] in
/-- the parts of the validation that concern the PET file -/
theorem pet_parts [FloatOps F] {lower : String → String} {cmp : CoordCmp F} {a : CliArgs} {w : World F} {v : String} {d : NcFile F} {x : NcVar F} {fe ve : String} {de : NcFile F} {xe : NcVar F} {pe : List F} {it : InputType}
    (hP : PetFile lower cmp a w d x v fe ve de xe pe) (hit : (it = .grid ∧ x.dims = ["lat", "lon", "time"]) ∨ (it = .divisions ∧ x.dims = ["division", "time"])) :
    validateSecond cmp w.files it d (some fe) a.varNamePet = .ok () ∧ (∀ fs : Files F, fs fe = some de → prepareFile fs (some fe) (some ve) = .ok fe) ∧
      LoadablePet lower it w.files d x v fe ve de xe pe := by
  have hget : ∀ c ∈ x.dims, ∃ l, d.coord c = .ok l ∧ de.coord c = .ok l ∧ cmp.close l l = .ok true ∧ cmp.equal l l = true := by
    intro c hc
    obtain ⟨y, ye, h1, h2, h3⟩ := hP.coords c hc
    refine ⟨y.data, by unfold NcFile.coord NcFile.get; rw [h1]; rfl, by unfold NcFile.coord NcFile.get; rw [h2, ← h3]; rfl, hP.accepted c hc y h1⟩
  have hreq : de.require a.varNamePet = .ok xe := by
    unfold NcFile.require
    rw [hP.input.var]
    simp only [hP.input.found]
  have hgx : de.getOpt (some ve) = .ok xe := by
    unfold NcFile.getOpt NcFile.get
    simp only [hP.input.found]
  have hprep : ∀ e, expectedDims x.dims = .ok e → sameDims x.dims e = true → ∀ fs : Files F, fs fe = some de → prepareFile fs (some fe) (some ve) = .ok fe := by
    intro e he hsd fs hfs
    have hopen : openFile fs (some fe) = .ok de := by
      unfold openFile
      simp only [hfs]
    unfold prepareFile
    rw [← hP.dims] at he hsd
    simp only [hopen, hgx, he, bind, Except.bind, hsd, if_true]
    rfl
  have hload : dropDimsOk it xe.dims = true → LoadablePet lower it w.files d x v fe ve de xe pe := fun h =>
    ⟨hP.input.opened, hP.input.found, hP.first, hP.input.wf, hP.input.reserved, hP.differ, hP.units, h, hP.shape, hP.same⟩
  rcases hit with ⟨rfl, hd⟩ | ⟨rfl, hd⟩
  · obtain ⟨l1, a1, b1, c1, e1⟩ := hget "lat" (by rw [hd]; simp)
    obtain ⟨l2, a2, b2, c2, e2⟩ := hget "lon" (by rw [hd]; simp)
    obtain ⟨l3, a3, b3, c3, e3⟩ := hget "time" (by rw [hd]; simp)
    refine ⟨?_, hprep ["lat", "lon", "time"] (by rw [hd]; rfl) (by rw [hd]; decide), hload (by rw [hP.dims, hd]; decide)⟩
    unfold validateSecond
    have hm : xe.dims ∈ dimsGrid := by rw [hP.dims, hd]; decide
    simp only [openFile, hP.input.opened, hreq, bind, Except.bind, if_pos hm, compareSpace, a1, b1, c1, a2, b2, c2, a3, b3, e3, if_true]
    rfl
  · obtain ⟨l1, a1, b1, c1, e1⟩ := hget "division" (by rw [hd]; simp)
    obtain ⟨l3, a3, b3, c3, e3⟩ := hget "time" (by rw [hd]; simp)
    refine ⟨?_, hprep ["division", "time"] (by rw [hd]; rfl) (by rw [hd]; decide), hload (by rw [hP.dims, hd]; decide)⟩
    unfold validateSecond
    have hm : xe.dims ∈ dimsDivisions := by rw [hP.dims, hd]; decide
    simp only [openFile, hP.input.opened, hreq, bind, Except.bind, if_pos hm, compareSpace, a1, b1, e1, a3, b3, e3, if_true]
    rfl

omit [FloatOps F] in
theorem documented_scaled {index : String} (hi : index = "spei" ∨ index = "scaled") (scales : List Nat) : ∀ o ∈ documented index true scales, Scaled o := by
  intro o ho
  have h1 : ∀ o ∈ spiOutputs scales, Scaled o := by
    intro o ho
    have := documented_simple (.inl rfl) scales o ho
    cases o <;> first | exact this | exact this.elim
  have h2 : ∀ o ∈ pnpOutputs scales, Scaled o := by
    intro o ho
    have := documented_simple (.inr rfl) scales o ho
    cases o <;> first | exact this | exact this.elim
  have h3 : ∀ o ∈ speiOutputs scales, Scaled o := by
    intro o ho
    unfold speiOutputs at ho
    simp only [List.mem_flatMap, List.mem_cons, List.not_mem_nil, or_false] at ho
    obtain ⟨s, _, rfl | rfl⟩ := ho <;> simp [Scaled, distributions]
  rcases hi with rfl | rfl
  · exact h3 o ho
  · have ho : o ∈ spiOutputs scales ++ petOutputs true ++ speiOutputs scales ++ pnpOutputs scales := ho
    simp only [petOutputs, if_true, List.append_nil, List.mem_append] at ho
    rcases ho with (ho | ho) | ho
    · exact h1 o ho
    · exact h3 o ho
    · exact h2 o ho

/-- the run is the run of the jobs -/
theorem process_jobs₂ {K : Int → Job → List F → List F → Res (List F)} {wk : Nat} {lower : String → String} {yearOf : F → Int} {cmp : CoordCmp F} {a : CliArgs} {w : World F} {f v : String} {d : NcFile F} {x : NcVar F}
    {A b n : Nat} {mm : List F} {y0 y1 : Int} (hM : Ready lower yearOf a w f v d x A b n mm y0 y1) {fe ve : String} {de : NcFile F} {xe : NcVar F} {pe : List F}
    (hP : PetFile lower cmp a w d x v fe ve de xe pe) (hi : a.index = "spei" ∨ a.index = "scaled") {scales : List Nat} (hs : a.scales = some (scales.map Int.ofNat)) :
    ∃ it, IsLayout it x.shape A b n ∧ Loadable lower yearOf it w.files f v d x mm y0 ∧ LoadablePet lower it w.files d x v fe ve de xe pe ∧
      processIndices K wk lower yearOf cmp a w = runJobs K wk lower yearOf ((documented a.index true scales).map (jobOf₂ a it (f, v) (fe, ve))) w := by
  obtain ⟨it, h1, h2, h3, h4, h5⟩ := monthly_parts hM
  obtain ⟨p1, p2, p3⟩ := pet_parts hP h5
  refine ⟨it, h2, h4, p3, ?_⟩
  have hvar : a.varNamePrecip.getD "" = v := by rw [hM.input.var]; rfl
  have hval : validateArgs cmp w.files a = .ok it := by
    have hidx : a.index ≠ "pet" := by rcases hi with hi | hi <;> rw [hi] <;> decide
    have hoth : validateOthers cmp w.files a it d = .ok () := by
      unfold validateOthers
      rw [if_pos (by rcases hi with hi | hi <;> rw [hi] <;> decide)]
      have : validateTempOrPet cmp w.files a it d = .ok () := by
        unfold validateTempOrPet
        rw [hP.noTemp, hP.input.file]
        exact p1
      simp only [this, bind, Except.bind]
      rw [if_neg (by rcases hi with hi | hi <;> rw [hi] <;> decide)]
      rfl
    have hsc : validateScales a = .ok () := by
      unfold validateScales
      rw [if_pos (by rcases hi with hi | hi <;> rw [hi] <;> decide), hs]
      simp only []
      rw [if_neg]
      simp only [List.any_eq_true, decide_eq_true_eq, not_exists, not_and, not_lt]
      intro s h
      obtain ⟨m, _, rfl⟩ := List.mem_map.1 h
      exact Int.natCast_nonneg m
    unfold validateArgs
    rw [if_pos hidx]
    simp only [h1, hoth, hsc, bind, Except.bind]
    rfl
  have pure_bind : ∀ {α β : Type} (c : α) (g : α → SE (World F) β) (w : World F), ((pure c : SE (World F) α) >>= g) w = g c w := fun _ _ _ => rfl
  have lift_ok : ∀ {α β : Type} (c : α) (g : α → SE (World F) β) (w : World F), ((SE.lift (.ok c) : SE (World F) α) >>= g) w = g c w := fun _ _ _ => rfl
  have get_bind : ∀ {β : Type} (g : Files F → SE (World F) β) (w : World F), ((getFiles : SE (World F) (Files F)) >>= g) w = g w.files w := fun _ _ => rfl
  have bind_pure : ∀ (m : SE (World F) Unit) (g : Unit → SE (World F) Unit) (w : World F), (∀ w', g () w' = (.ok (), w')) → (m >>= g) w = m w := by
    intro m g w hg
    show SE.bind m g w = m w
    unfold SE.bind
    rcases hm : m w with ⟨r, w'⟩
    cases r with
    | error e => rfl
    | ok u => exact hg w'
  have bind_congr : ∀ (m m' : SE (World F) Unit) (g g' : Unit → SE (World F) Unit) (w : World F), m w = m' w → (∀ w', m w = (.ok (), w') → g () w' = g' () w') → (m >>= g) w = (m' >>= g') w := by
    intro m m' g g' w hm hg
    show SE.bind m g w = SE.bind m' g' w
    unfold SE.bind
    rw [← hm]
    rcases hh : m w with ⟨r, w'⟩
    cases r with
    | error e => rfl
    | ok u => exact hg w' hh
  have hpal : ∀ pet, runPalmers K wk lower yearOf a it pet = pure () := by
    intro pet
    unfold runPalmers
    rw [if_neg (by rcases hi with hi | hi <;> rw [hi] <;> decide)]
  have hpet : runPet K wk lower yearOf a it = pure (some fe, some ve) := by
    unfold runPet
    rw [if_pos (by rcases hi with hi | hi <;> rw [hi] <;> decide), hP.input.file, hP.input.var]
  -- the three phases, in any state in which the two input files are as they were
  have hspi : ∀ w' : World F, w'.files f = some d → a.index = "scaled" → runSpi K wk lower yearOf a it w' = runJobs K wk lower yearOf ((spiOutputs scales).map (jobOf₂ a it (f, v) (fe, ve))) w' := by
    intro w' hf hi
    unfold runSpi
    rw [if_pos (by rw [hi]; decide), get_bind, h3 _ hf, lift_ok, hs]
    rw [show orElseRaise (some (scales.map Int.ofNat)) PyErr.typeError = .ok (scales.map Int.ofNat) from rfl, lift_ok]
    congr 1
    rw [hvar]
    unfold spiOutputs
    rw [List.map_flatMap, List.flatMap_map]
    rfl
  have hspei : ∀ w' : World F, w'.files f = some d → w'.files fe = some de →
      runSpei K wk lower yearOf a it (some fe, some ve) w' = runJobs K wk lower yearOf ((speiOutputs scales).map (jobOf₂ a it (f, v) (fe, ve))) w' := by
    intro w' hf hfe
    unfold runSpei
    rw [if_pos (by rcases hi with hi | hi <;> rw [hi] <;> decide), get_bind, h3 _ hf, lift_ok, p2 _ hfe, lift_ok, hs]
    rw [show orElseRaise (some (scales.map Int.ofNat)) PyErr.typeError = .ok (scales.map Int.ofNat) from rfl, lift_ok]
    congr 1
    rw [hvar]
    unfold speiOutputs
    rw [List.map_flatMap, List.flatMap_map]
    rfl
  have hpnp : ∀ w' : World F, w'.files f = some d → a.index = "scaled" → runPnp K wk lower yearOf a it w' = runJobs K wk lower yearOf ((pnpOutputs scales).map (jobOf₂ a it (f, v) (fe, ve))) w' := by
    intro w' hf hi
    unfold runPnp
    rw [if_pos (by rw [hi]; decide), get_bind, h3 _ hf, lift_ok, hs]
    rw [show orElseRaise (some (scales.map Int.ofNat)) PyErr.typeError = .ok (scales.map Int.ofNat) from rfl, lift_ok]
    congr 1
    rw [hvar]
    unfold pnpOutputs
    rw [List.map_map, List.map_map]
    rfl
  have hkeep : ∀ (outs : List Output) (hsim : ∀ o ∈ outs, Scaled o) (g : String) (hg : ∀ o : Output, g ≠ fileName a.outputFileBase o.name) (w1 w2 : World F),
      runJobs K wk lower yearOf (outs.map (jobOf₂ a it (f, v) (fe, ve))) w1 = (.ok (), w2) → w2.files g = w1.files g := by
    intro outs hsim g hg w1 w2 h
    refine runJobs_files _ h ?_
    intro j hj m hm
    obtain ⟨o, ho, rfl⟩ := List.mem_map.1 hj
    rw [jobOf₂_name a it _ _ o (hsim o ho), Except.ok.injEq] at hm
    subst hm
    rw [jobOf₂_base a it _ _ o (hsim o ho)]
    exact hg o
  have hsimAll := documented_scaled (index := "scaled") (.inr rfl) scales
  have hdoc : documented "scaled" true scales = spiOutputs scales ++ (speiOutputs scales ++ pnpOutputs scales) := by
    show spiOutputs scales ++ petOutputs true ++ speiOutputs scales ++ pnpOutputs scales = _
    simp [petOutputs]
  unfold processIndices
  rw [get_bind, hval, lift_ok]
  rcases hi with hi | hi
  · have hnspi : runSpi K wk lower yearOf a it = pure () := by
      unfold runSpi
      rw [if_neg (by rw [hi]; decide)]
    have hnpnp : runPnp K wk lower yearOf a it = pure () := by
      unfold runPnp
      rw [if_neg (by rw [hi]; decide)]
    rw [hnspi, pure_bind, hpet, pure_bind, bind_pure]
    · rw [hspei w hM.input.opened hP.input.opened, hi]
      rfl
    · intro w'
      rw [hnpnp, pure_bind, hpal]
      rfl
  · rw [hi, hdoc, List.map_append, List.map_append, runJobs_append, runJobs_append]
    have f1 := hM.input.opened
    have f2 := hP.input.opened
    refine bind_congr _ _ _ _ w (hspi w f1 hi) ?_
    intro w1 hw1
    rw [hspi w f1 hi] at hw1
    have k1 := hkeep (spiOutputs scales) (fun o ho => hsimAll o (by rw [hdoc]; simp [ho])) f hM.input.notOutput w w1 hw1
    have k2 := hkeep (spiOutputs scales) (fun o ho => hsimAll o (by rw [hdoc]; simp [ho])) fe hP.input.notOutput w w1 hw1
    rw [f1] at k1
    rw [f2] at k2
    rw [hpet, pure_bind]
    refine bind_congr _ _ _ _ w1 (hspei w1 k1 k2) ?_
    intro w2 hw2
    rw [hspei w1 k1 k2] at hw2
    have k3 := hkeep (speiOutputs scales) (fun o ho => hsimAll o (by rw [hdoc]; simp [ho])) f hM.input.notOutput w1 w2 hw2
    rw [k1] at k3
    rw [bind_pure]
    · exact hpnp w2 k3 hi
    · intro w'
      rw [hpal]
      rfl

/-! ## C116 -/

/-- the index function of a job of SPEI -/
theorem spei_result [FloatLaws F] (E : Ext F) (hE : ExtNan E) (T : Trig F) (cs ce y0 : Int) (a : CliArgs) (hm : a.periodicity = .monthly) (it : InputType) (fp fe : String × String) (dist : Distribution) (s : Nat)
    (l e r : List F) :
    resultFor₂ E cs ce y0 (.spei dist s) l e = .ok r ↔ ∃ t, indexFunction E T cs ce y0 (jobOf₂ a it fp fe (.spei dist s)) l e = .ok t ∧ assignSeries l.length t = .ok r := by
  have e1 : indexFunction E T cs ce y0 (jobOf₂ a it fp fe (.spei dist s)) l e = (spei E (Arr.of1d l) (Arr.of1d e) s dist .monthly y0 cs ce none).map Arr.data := by
    rw [← hm]; rfl
  have hlen : ∀ t, (spei E (Arr.of1d l) (Arr.of1d e) s dist .monthly y0 cs ce none).map Arr.data = .ok t → t.length = l.length := by
    intro t ht
    cases hsp : spei E (Arr.of1d l) (Arr.of1d e) s dist .monthly y0 cs ce none with
    | error err => rw [hsp] at ht; cases ht
    | ok o =>
      rw [hsp] at ht
      cases ht
      exact spei_size E hE _ _ _ _ _ _ _ _ _ _ hsp
  rw [e1]
  constructor
  · intro h
    have h' : (spei E (Arr.of1d l) (Arr.of1d e) s dist .monthly y0 cs ce none).map Arr.data = .ok r := h
    refine ⟨r, h', ?_⟩
    unfold assignSeries
    rw [if_pos (hlen r h')]
  · rintro ⟨t, h1, h2⟩
    rw [assignSeries_same h2 (hlen t h1)]
    exact h1

open Classical in
/-- the computations of SPI, SPEI and the percentage of normal from monthly precipitation and a PET file, as a list of jobs -/
theorem scaled_outputs [FloatLaws F] (E : Ext F) (hE : ExtNan E) (T : Trig F) (cs ce : Int) (wk : Nat) (hwk : 1 ≤ wk) {lower : String → String} {yearOf : F → Int} {a : CliArgs} {w : World F}
    {f v fe ve : String} {d de : NcFile F} {x xe : NcVar F} {A b n : Nat} {mm pe : List F} {y0 y1 : Int} (hM : Monthly lower yearOf a w f v d x A b n mm y0 y1) {it : InputType}
    (hl : IsLayout it x.shape A b n) (hL : Loadable lower yearOf it w.files f v d x mm y0) (hLP : LoadablePet lower it w.files d x v fe ve de xe pe) (hfit : ResFits x.shape w.shared)
    (outs : List Output) (hsim : ∀ o ∈ outs, Scaled o) (hnot : ∀ o ∈ outs, fe ≠ fileName a.outputFileBase o.name) :
    ∃ res w', runJobs (indexFunction E T cs ce) wk lower yearOf (outs.map (jobOf₂ a it (f, v) (fe, ve))) w = (res, w') ∧ (res = .ok () ↔ ∀ o ∈ outs, Computable₂ E cs ce y0 mm pe A b n o) ∧
      (res = .ok () → ResFits x.shape w'.shared) ∧ w'.written = w.written ++ entries a.outputFileBase (outs.takeWhile (fun o => decide (Computable₂ E cs ce y0 mm pe A b n o))) ∧
      (∀ o ∈ outs.takeWhile (fun o => decide (Computable₂ E cs ce y0 mm pe A b n o)),
        Holds w'.files a.outputFileBase o d x A b n (fun i k => resultFor₂ E cs ce y0 o (seriesAt b n i k mm) (seriesAt b n i k pe))) ∧
      ∀ g, (∀ o ∈ outs.takeWhile (fun o => decide (Computable₂ E cs ce y0 mm pe A b n o)), g ≠ fileName a.outputFileBase o.name) → w'.files g = w.files g := by
  obtain ⟨u, hu, hc⟩ := hM.units
  obtain ⟨ue, hue, hce⟩ := hLP.units
  have hser : ∀ i < A, ∀ k < b, (seriesAt b n i k mm).length = n := by
    intro i hi' k hk
    exact seriesAt_len hl (by rw [convert_length.1 hc]; exact hM.input.wf) hi' hk
  have hnd : a.periodicity ≠ .daily := by rw [hM.monthly]; decide
  have hprep : ∀ (l p : List F), preparedIt it a.periodicity y0 y1 l = .ok p → p = l := by
    intro l p t1
    unfold preparedIt prepared at t1
    rw [hM.monthly] at t1
    split at t1
    · cases t1; rfl
    · simp at t1
      exact t1.symm
  have hrest : ∀ (t z : List F), restored a.periodicity y0 t = .ok z → t = z := by
    intro t z t4
    unfold restored at t4
    rw [hM.monthly] at t4
    simp at t4
    exact t4
  exact runOutputs (K := indexFunction E T cs ce) (wk := wk) (lower := lower) (yearOf := yearOf) (outs := outs) (job := jobOf₂ a it (f, v) (fe, ve))
    (G := [(f, d), (fe, de)]) (C := Computable₂ E cs ce y0 mm pe A b n) (V := fun o i k => resultFor₂ E cs ce y0 o (seriesAt b n i k mm) (seriesAt b n i k pe)) (base := a.outputFileBase) (d := d) (x := x)
    (A := A) (b := b) (n := n) (fun o ho => jobOf₂_name a it _ _ o (hsim o ho)) (fun o ho => jobOf₂_base a it _ _ o (hsim o ho))
    (by
      intro p hp o ho
      simp only [List.mem_cons, List.not_mem_nil, or_false] at hp
      rcases hp with rfl | rfl
      · exact hM.input.notOutput o
      · exact hnot o ho)
    (by
      intro o ho hC v' hG hfit
      have g1 := hG (f, d) (by simp)
      have g2 := hG (fe, de) (by simp)
      have hL' : Loadable lower yearOf it v'.files f v d x mm y0 := ⟨g1, hL.found, hL.wf, hL.name, hL.year, hL.units, hL.dims, hL.place⟩
      have hLP' : LoadablePet lower it v'.files d x v fe ve de xe pe := ⟨g2, hLP.found, hLP.first, hLP.wf, hLP.name, hLP.differ, hLP.units, hLP.dims, hLP.shape, hLP.same⟩
      have hname := jobOf₂_name a it (f, v) (fe, ve) o (hsim o ho)
      have simple : Simple o → jobOf₂ a it (f, v) (fe, ve) o = jobOf a it (f, v) o → (∀ l e, resultFor₂ E cs ce y0 o l e = resultFor E cs ce y0 o l) →
          ∃ v'', computeWriteIndex (indexFunction E T cs ce) wk lower yearOf (jobOf₂ a it (f, v) (fe, ve) o) v' = (.ok (fileName a.outputFileBase o.name, o.name), v'') ∧ ResFits x.shape v''.shared ∧
            v''.written = v'.written ++ [(fileName a.outputFileBase o.name, o.name)] := by
        intro hs0 he hres
        obtain ⟨e1, e2, e3, e4, e5, e6, e7⟩ := jobOf_facts a it (f, v) o hs0
        rw [he] at hname ⊢
        rw [← e7]
        refine cwi_exists (mm := mm) (y0 := y0) (a := A) (b := b) (n := n) e1 e2 e3 e4 (by rw [e5]; exact hnd) (by rw [e6]; exact hL') (by rw [e6]; exact hl) hM.places hwk hfit hname ?_
        intro i hi' k hk
        obtain ⟨r, hr⟩ := hC i hi' k hk
        rw [hres] at hr
        obtain ⟨s, h1, h2⟩ := (jobOf_result E hE T cs ce y0 a hM.monthly it (f, v) o hs0 _ r).1 hr
        rw [hser i hi' k hk] at h2
        exact ⟨s, r, h1, h2⟩
      cases o with
      | spi dist s => exact simple (hsim _ ho) rfl (fun _ _ => rfl)
      | pnp s => exact simple (hsim _ ho) rfl (fun _ _ => rfl)
      | pet => exact (hsim _ ho).elim
      | spei dist s =>
        refine cwi_spei_exists (mm := mm) (pe := pe) (y0 := y0) (a := A) (b := b) (n := n) rfl rfl rfl rfl hnd hL' hLP' hl hM.places hwk hfit hname ?_
        intro i hi' k hk
        obtain ⟨r, hr⟩ := hC i hi' k hk
        obtain ⟨t, h1, h2⟩ := (spei_result E hE T cs ce y0 a hM.monthly it (f, v) (fe, ve) dist s _ _ r).1 hr
        rw [hser i hi' k hk] at h2
        exact ⟨t, r, h1, h2⟩)
    (by
      intro o ho v1 v2 r hG hr
      have g1 := hG (f, d) (by simp)
      have g2 := hG (fe, de) (by simp)
      have simple : Simple o → jobOf₂ a it (f, v) (fe, ve) o = jobOf a it (f, v) o → (∀ l e, resultFor₂ E cs ce y0 o l e = resultFor E cs ce y0 o l) →
          Computable₂ E cs ce y0 mm pe A b n o ∧ ∃ new y, v2.files r.1 = some new ∧ (r.2, y) ∈ new ∧ (y.dims = x.dims ∧ Carries d new) ∧ (y.shape = x.shape ∧ y.data.length = x.shape.foldr (· * ·) 1) ∧
            ∀ i < A, ∀ k < b, resultFor₂ E cs ce y0 o (seriesAt b n i k mm) (seriesAt b n i k pe) = .ok (seriesAt b n i k y.data) := by
        intro hs0 he hres
        obtain ⟨e1, e2, e3, e4, e5, e6, e7⟩ := jobOf_facts a it (f, v) o hs0
        rw [he] at hr
        obtain ⟨u', mm', new, y, c1, c2, c3, c4, c5, c6, c6', c7⟩ := cwi_precip hr e1 e2 e3 e4 hM.input.reserved g1 hM.input.found (by rw [e6]; exact hl) hM.input.wf hM.years
        rw [hu] at c1
        cases c1
        rw [hc] at c2
        cases c2
        have key : ∀ i < A, ∀ k < b, resultFor₂ E cs ce y0 o (seriesAt b n i k mm) (seriesAt b n i k pe) = .ok (seriesAt b n i k y.data) := by
          intro i hi' k hk
          obtain ⟨p, s, t, t1, t2, t3, t4⟩ := c7 i hi' k hk
          rw [e5, e6] at t1
          rw [e5] at t4
          have hpp := hprep _ _ t1
          subst hpp
          rw [hres, ← hrest _ _ t4]
          exact (jobOf_result E hE T cs ce y0 a hM.monthly it (f, v) o hs0 _ t).2 ⟨s, t2, t3⟩
        exact ⟨fun i hi' k hk => ⟨_, key i hi' k hk⟩, new, y, c3, c4, c5, c6, key⟩
      cases o with
      | spi dist s => exact simple (hsim _ ho) rfl (fun _ _ => rfl)
      | pnp s => exact simple (hsim _ ho) rfl (fun _ _ => rfl)
      | pet => exact (hsim _ ho).elim
      | spei dist s =>
        obtain ⟨u', mm', ue', pe', new, y, c1, c2, c1', c2', c3, c4, c5, c6, c6', c7⟩ := cwi_spei hr rfl rfl rfl rfl ⟨hM.input.reserved.1, hM.input.reserved.2, hLP.name.1, hLP.name.2⟩ hLP.differ g1 g2
          hM.input.found hLP.first hLP.found hl hM.input.wf (by rw [hLP.shape]; exact hl) hLP.wf hLP.same hM.years
        rw [hu] at c1
        cases c1
        rw [hc] at c2
        cases c2
        rw [hue] at c1'
        cases c1'
        rw [hce] at c2'
        cases c2'
        have key : ∀ i < A, ∀ k < b, resultFor₂ E cs ce y0 (.spei dist s) (seriesAt b n i k mm) (seriesAt b n i k pe) = .ok (seriesAt b n i k y.data) := by
          intro i hi' k hk
          obtain ⟨p, q, s', t, t1, t1', t2, t3, t4⟩ := c7 i hi' k hk
          have hpp := hprep _ _ t1
          subst hpp
          have hqq := hprep _ _ t1'
          subst hqq
          rw [← hrest _ _ t4]
          exact (spei_result E hE T cs ce y0 a hM.monthly it (f, v) (fe, ve) dist s _ _ t).2 ⟨s', t2, t3⟩
        exact ⟨fun i hi' k hk => ⟨_, key i hi' k hk⟩, new, y, c3, c4, c5, c6, key⟩)
    w (by
      intro p hp
      simp only [List.mem_cons, List.not_mem_nil, or_false] at hp
      rcases hp with rfl | rfl
      · exact hM.input.opened
      · exact hLP.opened) hfit

open Classical in
/-- **C116.** A run of the main tool for SPEI or for all scaled indices (SPI, SPEI and the percentage of normal) from monthly precipitation and a PET file, on a grid or of divisions, in a fresh process,
with at least one worker process: it ends without exception exactly if every output can be computed at every place. In any case the outputs before the first one that cannot be computed
somewhere are written, in the documented order, with the right values at every place; no other file is changed or created. -/
theorem C116_run [FloatLaws F] (E : Ext F) (hE : ExtNan E) (T : Trig F) (cs ce : Int) (wk : Nat) (hwk : 1 ≤ wk) (lower : String → String) (yearOf : F → Int) (cmp : CoordCmp F) (a : CliArgs) (w : World F)
    (hi : a.index = "spei" ∨ a.index = "scaled") {f v fe ve : String} {d de : NcFile F} {x xe : NcVar F} {A b n : Nat} {mm pe : List F} {y0 y1 : Int} (hM : Monthly lower yearOf a w f v d x A b n mm y0 y1)
    (hP : PetFile lower cmp a w d x v fe ve de xe pe) (hfresh : w.shared "result_array" = none) (scales : List Nat) (hs : a.scales = some (scales.map Int.ofNat)) :
    ∃ res w', processIndices (indexFunction E T cs ce) wk lower yearOf cmp a w = (res, w') ∧
      (res = .ok () ↔ ∀ o ∈ documented a.index true scales, Computable₂ E cs ce y0 mm pe A b n o) ∧
      w'.written = w.written ++ entries a.outputFileBase ((documented a.index true scales).takeWhile (fun o => decide (Computable₂ E cs ce y0 mm pe A b n o))) ∧
      (∀ o ∈ (documented a.index true scales).takeWhile (fun o => decide (Computable₂ E cs ce y0 mm pe A b n o)),
        Holds w'.files a.outputFileBase o d x A b n (fun i k => resultFor₂ E cs ce y0 o (seriesAt b n i k mm) (seriesAt b n i k pe))) ∧
      ∀ g, (∀ o ∈ (documented a.index true scales).takeWhile (fun o => decide (Computable₂ E cs ce y0 mm pe A b n o)), g ≠ fileName a.outputFileBase o.name) → w'.files g = w.files g := by
  obtain ⟨it, hl, hL, hLP, hrun⟩ := process_jobs₂ (K := indexFunction E T cs ce) (wk := wk) hM.ready hP hi hs
  rw [hrun]
  obtain ⟨res, w', r1, r2, _, r3⟩ := scaled_outputs E hE T cs ce wk hwk hM hl hL hLP (fun r hr => by rw [show keyResult = "result_array" from rfl, hfresh] at hr; cases hr)
    (documented a.index true scales) (documented_scaled hi scales) (fun o _ => hP.input.notOutput o)
  exact ⟨res, w', r1, r2, r3⟩

end CI.Props
