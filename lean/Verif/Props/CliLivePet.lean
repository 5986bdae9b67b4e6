import Verif.Lemmas.CliLivePet
import Verif.Props.CliLiveSpei
import Mathlib.Data.List.TakeWhile

/-!
# Property C117: which runs of the main tool that compute PET finish, and what is left when one does not

A concrete run that meets the hypotheses of C117_pet and C117_run is at the end of Props/EndToEndPet.lean (`warmWorld`).
-/

namespace CI.Props
open CI Spec Spec.McKee

variable {F : Type} [FloatOps F]

/-! ## Specification -/

/-- the temperature file of a run: monthly data on a grid (lat, lon, time) or of divisions (division, time), with latitudes, one for each row of the grid or each division; `cel`: the values in
degrees Celsius. No PET file is given. -/
structure MonthlyTemp (lower : String → String) (yearOf : F → Int) (a : CliArgs) (w : World F) (f v : String) (d : NcFile F) (x xl : NcVar F) (A b n : Nat) (cel : List F) (y0 y1 : Int) : Prop where
  input : Input w.files a.outputFileBase a.netcdfTemp a.varNameTemp f v d x
  layout : Layout x A b n
  places : 1 ≤ A
  lat : List.lookup "lat" d = some xl
  lats : xl.data.length = A
  divisions : "division" ∈ x.dims → xl.dims = ["division"] ∧ xl.shape.length = 1
  years : Years yearOf d y0 y1
  units : ∃ u, x.units = some u ∧ convertTemp (lower u) x.data = .ok cel
  monthly : a.periodicity = .monthly
  noPet : a.netcdfPet = none

/-- the temperature file (`dt`, variable `xt`) goes with the precipitation file (`d`, variable `x`): the same dimensions, shape and coordinates; neither has a variable with the name that the PET
will get -/
structure Matching (cmp : CoordCmp F) (d : NcFile F) (x : NcVar F) (dt : NcFile F) (xt : NcVar F) : Prop where
  dims : xt.dims = x.dims
  shape : xt.shape = x.shape
  coords : ∀ c ∈ x.dims, ∃ y yt, List.lookup c d = some y ∧ List.lookup c dt = some yt ∧ yt.data = y.data
  accepted : ∀ c ∈ x.dims, ∀ y, List.lookup c d = some y → cmp.close y.data y.data = .ok true ∧ cmp.equal y.data y.data = true
  same : SameCoords d dt
  free : ∀ y, (Output.pet.name, y) ∉ d ∧ (Output.pet.name, y) ∉ dt

/-- the result for the series of precipitation and temperature of a place at latitude `lat` -/
def resultFor₃ (E : Ext F) (T : Trig F) (cs ce y0 : Int) (lat : Option F) (o : Output) (l t : List F) : Res (List F) :=
  match o with
  | .pet => pet T (Arr.of1d t) lat y0
  | .spei dist s => do
    let e ← pet T (Arr.of1d t) lat y0
    (spei E (Arr.of1d l) (Arr.of1d e) s dist .monthly y0 cs ce none).map Arr.data
  | o => resultFor E cs ce y0 o l

/-- the output can be computed at every place; `lats`: the latitudes of the rows -/
def Computable₃ (E : Ext F) (T : Trig F) (cs ce y0 : Int) (mm cel lats : List F) (A b n : Nat) (o : Output) : Prop :=
  ∀ i < A, ∀ k < b, ∃ r, resultFor₃ E T cs ce y0 lats[i]? o (seriesAt b n i k mm) (seriesAt b n i k cel) = .ok r

/-! ## Runs in several phases -/

section
variable {K : Int → Job → List F → List F → Res (List F)} {wk : Nat} {lower : String → String} {yearOf : F → Int}

open Classical in
/-- one computation for each output: it ends without exception exactly if all outputs can be computed (`C`); those before the first that cannot are there (`H`), nothing else is changed -/
def Ran (K : Int → Job → List F → List F → Res (List F)) (wk : Nat) (lower : String → String) (yearOf : F → Int) (base : String) (shape : List Nat) (job : Output → Job) (C : Output → Prop)
    (H : Files F → Output → Prop) (outs : List Output) (w : World F) : Prop :=
  ∃ res w', runJobs K wk lower yearOf (outs.map job) w = (res, w') ∧ (res = .ok () ↔ ∀ o ∈ outs, C o) ∧ (res = .ok () → ResFits shape w'.shared) ∧
    w'.written = w.written ++ entries base (outs.takeWhile (fun o => decide (C o))) ∧ (∀ o ∈ outs.takeWhile (fun o => decide (C o)), H w'.files o) ∧
    ∀ g, (∀ o ∈ outs.takeWhile (fun o => decide (C o)), g ≠ fileName base o.name) → w'.files g = w.files g

omit [FloatOps F] in
open Classical in
theorem takeWhile_congr {l : List Output} {C C' : Output → Prop} (h : ∀ o ∈ l, C o ↔ C' o) : l.takeWhile (fun o => decide (C o)) = l.takeWhile (fun o => decide (C' o)) := by
  induction l with
  | nil => rfl
  | cons o l ih =>
    rw [List.takeWhile_cons, List.takeWhile_cons, ih (fun z hz => h z (by simp [hz])), decide_eq_decide.2 (h o (by simp))]

theorem Ran.congr {base : String} {shape : List Nat} {job job' : Output → Job} {C C' : Output → Prop} {H H' : Files F → Output → Prop} {outs : List Output} {w : World F}
    (h : Ran K wk lower yearOf base shape job C H outs w) (hj : ∀ o ∈ outs, job o = job' o) (hC : ∀ o ∈ outs, C o ↔ C' o) (hH : ∀ fs, ∀ o ∈ outs, H fs o → H' fs o) :
    Ran K wk lower yearOf base shape job' C' H' outs w := by
  obtain ⟨res, w', h1, h2, h3, h4, h5, h6⟩ := h
  rw [takeWhile_congr hC] at h4 h5 h6
  refine ⟨res, w', ?_, ?_, h3, h4, fun o ho => hH _ o (List.takeWhile_subset _ ho) (h5 o ho), h6⟩
  · rw [← List.map_congr_left hj]
    exact h1
  · rw [h2]
    exact ⟨fun h o ho => (hC o ho).1 (h o ho), fun h o ho => (hC o ho).2 (h o ho)⟩

theorem Ran.append {base : String} {shape : List Nat} {job : Output → Job} {C : Output → Prop} {H : Files F → Output → Prop} {l l' : List Output} {w : World F}
    (h : Ran K wk lower yearOf base shape job C H l w)
    (h' : (∀ o ∈ l, C o) → ∀ w1, runJobs K wk lower yearOf (l.map job) w = (.ok (), w1) → ResFits shape w1.shared → Ran K wk lower yearOf base shape job C H l' w1)
    (hH : ∀ (fs fs' : Files F) o, fs (fileName base o.name) = fs' (fileName base o.name) → H fs o → H fs' o) (hd : ∀ o ∈ l, o ∉ l') :
    Ran K wk lower yearOf base shape job C H (l ++ l') w := by
  classical
  obtain ⟨res, w1, h1, h2, h3, h4, h5, h6⟩ := h
  unfold Ran
  rw [List.map_append, runJobs_append]
  show ∃ res w', SE.bind (runJobs K wk lower yearOf (l.map job)) (fun _ => runJobs K wk lower yearOf (l'.map job)) w = (res, w') ∧ _
  unfold SE.bind
  rw [h1]
  cases res with
  | error e =>
    have hno : ¬ ∀ o ∈ l, C o := fun hc => by have := h2.2 hc; cases this
    have htw : (l ++ l').takeWhile (fun o => decide (C o)) = l.takeWhile (fun o => decide (C o)) := by
      rw [List.takeWhile_append, if_neg]
      intro hlen
      apply hno
      have heq : l.takeWhile (fun o => decide (C o)) = l := (List.takeWhile_prefix _).eq_of_length hlen
      intro o ho
      rw [← heq] at ho
      have hp := List.mem_takeWhile_imp ho
      simpa using hp
    refine ⟨.error e, w1, rfl, ⟨fun h => by (cases h), fun hc => absurd (fun o ho => hc o (by simp [ho])) hno⟩, fun h => by (cases h), ?_, ?_, ?_⟩
    · rw [htw]; exact h4
    · rw [htw]; exact h5
    · rw [htw]; exact h6
  | ok u =>
    have hall := h2.1 rfl
    obtain ⟨res, w2, k1, k2, k3, k4, k5, k6⟩ := h' hall w1 (by rw [h1]) (h3 rfl)
    have heq : l.takeWhile (fun o => decide (C o)) = l := List.takeWhile_eq_self_iff.2 (fun o ho => decide_eq_true (hall o ho))
    have htw : (l ++ l').takeWhile (fun o => decide (C o)) = l ++ l'.takeWhile (fun o => decide (C o)) := by
      rw [List.takeWhile_append, if_pos (by rw [heq])]
    have h4' : w1.written = w.written ++ entries base l := by
      rw [h4]
      congr 2
    have h5' : ∀ o ∈ l, H w1.files o := fun o ho => h5 o (by convert ho using 1)
    have h6' : ∀ g, (∀ o ∈ l, g ≠ fileName base o.name) → w1.files g = w.files g := fun g hg => h6 g (fun o ho => hg o (List.takeWhile_subset _ ho))
    have key : w2.written = w.written ++ entries base (l ++ l'.takeWhile (fun o => decide (C o))) ∧ (∀ o ∈ l ++ l'.takeWhile (fun o => decide (C o)), H w2.files o) ∧
        ∀ g, (∀ o ∈ l ++ l'.takeWhile (fun o => decide (C o)), g ≠ fileName base o.name) → w2.files g = w.files g := by
      refine ⟨?_, ?_, ?_⟩
      · rw [k4, h4']
        unfold entries
        simp
      · intro o ho
        rcases List.mem_append.1 ho with ho | ho
        · refine hH w1.files w2.files o ?_ (h5' o ho)
          refine (k6 _ (fun o' ho' he => ?_)).symm
          have := fileName_inj he
          rw [output_name_inj this] at ho
          exact hd _ ho (List.takeWhile_subset _ ho')
        · exact k5 o (by convert ho using 2)
      · intro g hg
        rw [k6 g (fun o ho => hg o (List.mem_append_right _ (by convert ho using 2)))]
        exact h6' g (fun o ho => hg o (List.mem_append_left _ ho))
    refine ⟨res, w2, k1, ?_, k3, ?_, ?_, ?_⟩
    · rw [k2]
      constructor
      · intro h o ho
        rcases List.mem_append.1 ho with ho | ho
        · exact hall o ho
        · exact h o ho
      · exact fun h o ho => h o (by simp [ho])
    · rw [htw]; exact key.1
    · rw [htw]; exact key.2.1
    · rw [htw]; exact key.2.2

end

/-! ## The phases -/

/-- the job of an output -/
def jobOf₃ (a : CliArgs) (it : InputType) (fp ft : String × String) : Output → Job
  | .pet => mkJob a it "pet" none none none (some ft) none none
  | o => jobOf₂ a it fp (fileName a.outputFileBase Output.pet.name, Output.pet.name) o

omit [FloatOps F] in
/-- the parts of the validation that concern the temperature -/
theorem temp_parts [FloatOps F] {lower : String → String} {yearOf : F → Int} {a : CliArgs} {w : World F} {f v : String} {d : NcFile F} {x xl : NcVar F} {A b n : Nat} {cel : List F} {y0 y1 : Int}
    (hM : MonthlyTemp lower yearOf a w f v d x xl A b n cel y0 y1) :
    ∃ it, validatePetTemp w.files a = .ok it ∧ IsLayout it x.shape A b n ∧ (∀ fs : Files F, fs f = some d → prepareFile fs a.netcdfTemp a.varNameTemp = .ok f) ∧
      LoadableTemp lower yearOf it w.files f v d x cel y0 xl ∧ ((it = .grid ∧ x.dims = ["lat", "lon", "time"]) ∨ (it = .divisions ∧ x.dims = ["division", "time"])) := by
  have hgx : d.getOpt a.varNameTemp = .ok x := by
    unfold NcFile.getOpt NcFile.get
    rw [hM.input.var]
    simp only [hM.input.found]
  have hfirst := (years_ok hM.years).1
  have hprep : ∀ e, expectedDims x.dims = .ok e → sameDims x.dims e = true → ∀ fs : Files F, fs f = some d → prepareFile fs a.netcdfTemp a.varNameTemp = .ok f := by
    intro e he hsd fs hfs
    have hopen : openFile fs a.netcdfTemp = .ok d := by
      unfold openFile
      rw [hM.input.file]
      simp only [hfs]
    unfold prepareFile
    simp only [hopen, hgx, he, bind, Except.bind, hsd, if_true]
    rw [hM.input.file]
    rfl
  have hval : ∀ it, inputTypeOf x.dims = .ok it → validatePetTemp w.files a = .ok it := by
    intro it hit
    unfold validatePetTemp
    rw [hM.input.file, hM.input.var]
    simp only [hM.monthly, openFile, hM.input.opened, NcFile.require, hM.input.found, bind, Except.bind, ne_eq, not_true, if_false, hit]
  rcases hM.layout with ⟨hd, hsh⟩ | ⟨hd, hsh, hb⟩
  · refine ⟨.grid, hval _ (by rw [hd]; rfl), .inl ⟨rfl, hsh⟩, hprep ["lat", "lon", "time"] (by rw [hd]; rfl) (by rw [hd]; decide),
      ⟨hM.input.opened, hM.input.found, hM.input.wf, hM.input.reserved, hfirst, hM.units, ?_, hM.lat, .inl rfl⟩, .inl ⟨rfl, hd⟩⟩
    rw [hd]; decide
  · obtain ⟨hl2, hl3⟩ := hM.divisions (by rw [hd]; simp)
    refine ⟨.divisions, hval _ (by rw [hd]; rfl), .inr ⟨rfl, hsh, hb⟩, hprep ["division", "time"] (by rw [hd]; rfl) (by rw [hd]; decide),
      ⟨hM.input.opened, hM.input.found, hM.input.wf, hM.input.reserved, hfirst, hM.units, ?_, hM.lat, .inr ⟨rfl, by rw [hsh]; rfl, ?_, ?_⟩⟩, .inr ⟨rfl, hd⟩⟩
    · rw [hd]; decide
    · rw [hl2]; decide
    · rw [hl3]; decide

/-- PET can be computed at every place -/
def ComputablePet (T : Trig F) (y0 : Int) (cel lats : List F) (A b n : Nat) : Prop := ∀ i < A, ∀ k < b, ∃ r, pet T (Arr.of1d (seriesAt b n i k cel)) lats[i]? y0 = .ok r

omit [FloatOps F] in
theorem drop_take_head (l : List F) (i : Nat) : ((l.drop i).take 1).head? = l[i]? := by
  rw [List.head?_take]
  simp [List.head?_drop]

/-- the computation of PET writes exactly this file -/
theorem pet_file (E : Ext F) (T : Trig F) (cs ce : Int) (wk : Nat) {lower : String → String} {yearOf : F → Int} {a : CliArgs} {w w' : World F} {f v : String} {d : NcFile F} {x xl : NcVar F}
    {A b n : Nat} {cel : List F} {y0 y1 : Int} (hM : MonthlyTemp lower yearOf a w f v d x xl A b n cel y0 y1) {it : InputType} (hl : IsLayout it x.shape A b n) {r : String × String}
    (h : computeWriteIndex (indexFunction E T cs ce) wk lower yearOf (mkJob a it "pet" none none none (some (f, v)) none none) w = (.ok r, w')) :
    r = (fileName a.outputFileBase Output.pet.name, Output.pet.name) ∧ ∃ out : List F, out.length = x.shape.foldr (· * ·) 1 ∧
      w'.files r.1 = some (coordsOf d ++ [(Output.pet.name, ⟨x.dims, x.shape, some "millimeters", out⟩)]) ∧
      ∀ i < A, ∀ k < b, pet T (Arr.of1d (seriesAt b n i k cel)) xl.data[i]? y0 = .ok (seriesAt b n i k out) := by
  obtain ⟨u, hu, hc⟩ := hM.units
  have hn := (cwi_files h).1
  obtain ⟨u', cel', out, c1, c2, c3, c4, c5, c6⟩ := cwi_pet h rfl rfl rfl rfl hM.input.reserved hM.input.opened hM.input.found hM.lat hl hM.input.wf hM.years
  rw [hu] at c1
  cases c1
  rw [hc] at c2
  cases c2
  have hr2 : r.2 = Output.pet.name := by
    have : variableName (mkJob a it "pet" none none none (some (f, v)) none none) = .ok Output.pet.name := rfl
    rw [this, Except.ok.injEq] at hn
    exact hn.symm
  have hr1 := (cwi_files h).2.1
  have hr : r = (fileName a.outputFileBase Output.pet.name, Output.pet.name) := by
    rw [← hr2]
    exact Prod.ext (by rw [hr1]; rfl) rfl
  refine ⟨hr, out, c4, ?_, ?_⟩
  · rw [c5, hr2]
    rfl
  · intro i hi k hk
    obtain ⟨p, s, t, t1, t2, t3, t4⟩ := c6 i hi k hk
    have hp : p = seriesAt b n i k cel := by
      unfold preparedIt prepared at t1
      have e : (mkJob a it "pet" none none none (some (f, v)) none none).periodicity = .monthly := hM.monthly
      rw [e] at t1
      split at t1
      · cases t1; rfl
      · simp at t1
        exact t1.symm
    subst hp
    have ht : t = seriesAt b n i k out := by
      unfold restored at t4
      have e : (mkJob a it "pet" none none none (some (f, v)) none none).periodicity = .monthly := hM.monthly
      rw [e] at t4
      simp at t4
      exact t4
    subst ht
    have t2' : pet T (Arr.of1d (seriesAt b n i k cel)) xl.data[i]? y0 = .ok s := by
      rw [← drop_take_head]
      exact t2
    rw [t2', assignSeries_same t3 (pet_size T _ _ _ _ t2')]

/-- the computation of PET as a phase of a run -/
theorem pet_outputs (E : Ext F) (T : Trig F) (cs ce : Int) (wk : Nat) (hwk : 1 ≤ wk) {lower : String → String} {yearOf : F → Int} {a : CliArgs} {w : World F} {f v : String} {d : NcFile F} {x xl : NcVar F}
    {A b n : Nat} {cel : List F} {y0 y1 : Int} (hM : MonthlyTemp lower yearOf a w f v d x xl A b n cel y0 y1) {it : InputType} (hl : IsLayout it x.shape A b n)
    (hL : LoadableTemp lower yearOf it w.files f v d x cel y0 xl) (hfit : ResFits x.shape w.shared) (fp : String × String) :
    Ran (indexFunction E T cs ce) wk lower yearOf a.outputFileBase x.shape (jobOf₃ a it fp (f, v)) (fun _ => ComputablePet T y0 cel xl.data A b n)
      (fun fs o => Holds fs a.outputFileBase o d x A b n (fun i k => pet T (Arr.of1d (seriesAt b n i k cel)) xl.data[i]? y0)) [.pet] w := by
  have hser : ∀ i < A, ∀ k < b, (seriesAt b n i k cel).length = n := by
    intro i hi' k hk
    obtain ⟨u, hu, hc⟩ := hM.units
    exact seriesAt_len hl (by rw [convert_length.2.1 hc]; exact hM.input.wf) hi' hk
  refine runOutputs (G := [(f, d)]) (C := fun _ => ComputablePet T y0 cel xl.data A b n) (V := fun _ i k => pet T (Arr.of1d (seriesAt b n i k cel)) xl.data[i]? y0) ?_ ?_ ?_ ?_ ?_ w ?_ hfit
  · intro o ho
    simp only [List.mem_cons, List.not_mem_nil, or_false] at ho
    subst ho
    rfl
  · intro o ho
    simp only [List.mem_cons, List.not_mem_nil, or_false] at ho
    subst ho
    rfl
  · intro p hp o _
    simp only [List.mem_cons, List.not_mem_nil, or_false] at hp
    subst hp
    exact hM.input.notOutput o
  · intro o ho hC w1 hG hr
    simp only [List.mem_cons, List.not_mem_nil, or_false] at ho
    subst ho
    have g1 := hG (f, d) (by simp)
    refine cwi_pet_exists (j := jobOf₃ a it fp (f, v) .pet) (cel := cel) (y0 := y0) (a := A) (b := b) (n := n) rfl rfl rfl rfl (by show a.periodicity ≠ .daily; rw [hM.monthly]; decide)
      ⟨g1, hL.found, hL.wf, hL.name, hL.year, hL.units, hL.dims, hL.lat, hL.place⟩ hl hM.lats hM.places hwk hr rfl ?_
    intro i hi k hk
    obtain ⟨r, hr⟩ := hC i hi k hk
    refine ⟨r, r, ?_, ?_⟩
    · show pet T (Arr.of1d (seriesAt b n i k cel)) ((xl.data.drop i).take 1).head? y0 = .ok r
      rw [drop_take_head]
      exact hr
    · unfold assignSeries
      rw [if_pos (by rw [pet_size T _ _ _ _ hr, hser i hi k hk])]
  · intro o ho w1 w2 r hG hr
    simp only [List.mem_cons, List.not_mem_nil, or_false] at ho
    subst ho
    have g1 := hG (f, d) (by simp)
    have hM' : MonthlyTemp lower yearOf a w1 f v d x xl A b n cel y0 y1 :=
      ⟨⟨hM.input.file, hM.input.var, g1, hM.input.found, hM.input.wf, hM.input.reserved, hM.input.notOutput⟩, hM.layout, hM.places, hM.lat, hM.lats, hM.divisions, hM.years, hM.units, hM.monthly, hM.noPet⟩
    obtain ⟨e1, out, e2, e3, e4⟩ := pet_file E T cs ce wk hM' hl hr
    refine ⟨fun i hi k hk => ⟨_, e4 i hi k hk⟩, _, ⟨x.dims, x.shape, some "millimeters", out⟩, e3, ?_, ⟨rfl, ?_⟩, ⟨rfl, e2⟩, e4⟩
    · rw [e1]
      simp
    · intro c y hc hy
      refine List.mem_append_left _ ?_
      unfold coordsOf
      simp [hc, hy]
  · intro p hp
    simp only [List.mem_cons, List.not_mem_nil, or_false] at hp
    subst hp
    exact hM.input.opened

/-- the computations of SPI (or the percentage of normal) as a phase of a run -/
theorem simple_outputs [FloatLaws F] (E : Ext F) (hE : ExtNan E) (T : Trig F) (cs ce : Int) (wk : Nat) (hwk : 1 ≤ wk) {lower : String → String} {yearOf : F → Int} {a : CliArgs} {w : World F}
    {f v : String} {d : NcFile F} {x : NcVar F} {A b n : Nat} {mm : List F} {y0 y1 : Int} (hM : Monthly lower yearOf a w f v d x A b n mm y0 y1) {it : InputType}
    (hl : IsLayout it x.shape A b n) (hL : Loadable lower yearOf it w.files f v d x mm y0) (hfit : ResFits x.shape w.shared) (outs : List Output) (hsim : ∀ o ∈ outs, Simple o) :
    Ran (indexFunction E T cs ce) wk lower yearOf a.outputFileBase x.shape (jobOf a it (f, v)) (Computable E cs ce y0 mm A b n)
      (fun fs o => Holds fs a.outputFileBase o d x A b n (fun i k => resultFor E cs ce y0 o (seriesAt b n i k mm))) outs w := by
  obtain ⟨u, hu, hc⟩ := hM.units
  have hser : ∀ i < A, ∀ k < b, (seriesAt b n i k mm).length = n := by
    intro i hi' k hk
    exact seriesAt_len hl (by rw [convert_length.1 hc]; exact hM.input.wf) hi' hk
  refine runOutputs (G := [(f, d)]) (C := Computable E cs ce y0 mm A b n) (V := fun o i k => resultFor E cs ce y0 o (seriesAt b n i k mm)) (fun o ho => jobOf_name a it _ o (hsim o ho))
    (fun o ho => (jobOf_facts a it _ o (hsim o ho)).2.2.2.2.2.2) ?_ ?_ ?_ w ?_ hfit
  · intro p hp o _
    simp only [List.mem_cons, List.not_mem_nil, or_false] at hp
    subst hp
    exact hM.input.notOutput o
  · intro o ho hC w1 hG hr
    obtain ⟨e1, e2, e3, e4, e5, e6, e7⟩ := jobOf_facts a it (f, v) o (hsim o ho)
    rw [← e7]
    refine cwi_exists (mm := mm) (y0 := y0) (a := A) (b := b) (n := n) e1 e2 e3 e4 (by rw [e5, hM.monthly]; decide)
      (by rw [e6]; exact ⟨hG (f, d) (by simp), hL.found, hL.wf, hL.name, hL.year, hL.units, hL.dims, hL.place⟩) (by rw [e6]; exact hl) hM.places hwk hr (jobOf_name a it _ o (hsim o ho)) ?_
    intro i hi' k hk
    obtain ⟨r, hr⟩ := hC i hi' k hk
    obtain ⟨s, h1, h2⟩ := (jobOf_result E hE T cs ce y0 a hM.monthly it (f, v) o (hsim o ho) _ r).1 hr
    rw [hser i hi' k hk] at h2
    exact ⟨s, r, h1, h2⟩
  · intro o ho w1 w2 r hG hr
    obtain ⟨e1, e2, e3, e4, e5, e6, e7⟩ := jobOf_facts a it (f, v) o (hsim o ho)
    obtain ⟨u', mm', new, y, c1, c2, c3, c4, c5, c6, c6', c7⟩ := cwi_precip hr e1 e2 e3 e4 hM.input.reserved (hG (f, d) (by simp)) hM.input.found (by rw [e6]; exact hl) hM.input.wf hM.years
    rw [hu] at c1
    cases c1
    rw [hc] at c2
    cases c2
    have key : ∀ i < A, ∀ k < b, resultFor E cs ce y0 o (seriesAt b n i k mm) = .ok (seriesAt b n i k y.data) := by
      intro i hi' k hk
      obtain ⟨p, s, t, t1, t2, t3, t4⟩ := c7 i hi' k hk
      have hp : p = seriesAt b n i k mm := by
        unfold preparedIt prepared at t1
        rw [e5, hM.monthly] at t1
        split at t1
        · cases t1; rfl
        · simp at t1
          exact t1.symm
      have ht : t = seriesAt b n i k y.data := by
        unfold restored at t4
        rw [e5, hM.monthly] at t4
        simp at t4
        exact t4
      subst hp
      rw [← ht]
      exact (jobOf_result E hE T cs ce y0 a hM.monthly it (f, v) o (hsim o ho) _ t).2 ⟨s, t2, t3⟩
    exact ⟨fun i hi' k hk => ⟨_, key i hi' k hk⟩, new, y, c3, c4, c5, c6, key⟩
  · intro p hp
    simp only [List.mem_cons, List.not_mem_nil, or_false] at hp
    subst hp
    exact hM.input.opened

/-! ## PET alone -/

section
variable {K : Int → Job → List F → List F → Res (List F)} {wk : Nat} {lower : String → String} {yearOf : F → Int}

omit [FloatOps F] in
theorem lift_ok [FloatOps F] {α β : Type} (c : α) (g : α → SE (World F) β) (w : World F) : ((SE.lift (.ok c) : SE (World F) α) >>= g) w = g c w := rfl

omit [FloatOps F] in
theorem get_bind {β : Type} (g : Files F → SE (World F) β) (w : World F) : ((getFiles : SE (World F) (Files F)) >>= g) w = g w.files w := rfl

omit [FloatOps F] in
theorem pure_bind' {α β : Type} (c : α) (g : α → SE (World F) β) (w : World F) : ((pure c : SE (World F) α) >>= g) w = g c w := rfl

omit [FloatOps F] in
theorem bind_congr' {α α' β : Type} (m : SE (World F) α) (m' : SE (World F) α') (g : α → SE (World F) β) (g' : α' → SE (World F) β) (w : World F)
    (h : (∃ e w', m w = (.error e, w') ∧ m' w = (.error e, w')) ∨ ∃ r r' w', m w = (.ok r, w') ∧ m' w = (.ok r', w') ∧ g r w' = g' r' w') : (m >>= g) w = (m' >>= g') w := by
  show SE.bind m g w = SE.bind m' g' w
  unfold SE.bind
  rcases h with ⟨e, w', h1, h2⟩ | ⟨r, r', w', h1, h2, h3⟩
  · rw [h1, h2]
  · rw [h1, h2]
    exact h3

/-- the phase of the computation of PET -/
theorem runPet_job {a : CliArgs} {it : InputType} (hi : a.index ∈ ["pet", "spei", "scaled"]) (hn : a.netcdfPet = none) {w : World F} {f v : String} (hp : prepareFile w.files a.netcdfTemp a.varNameTemp = .ok f)
    (hv : a.varNameTemp = some v) {β : Type} (g : Option String × Option String → SE (World F) β) :
    (runPet K wk lower yearOf a it >>= g) w = (computeWriteIndex K wk lower yearOf (mkJob a it "pet" none none none (some (f, v)) none none) >>= fun r => g (some r.1, some r.2)) w := by
  have h1 : runPet K wk lower yearOf a it w = (computeWriteIndex K wk lower yearOf (mkJob a it "pet" none none none (some (f, v)) none none) >>= fun r => pure (some r.1, some r.2)) w := by
    unfold runPet
    rw [if_pos (by simp only [List.mem_cons, List.not_mem_nil, or_false] at hi ⊢; tauto), hn]
    simp only []
    rw [get_bind, hp, lift_ok, hv]
    rfl
  refine bind_congr' _ _ _ _ w ?_
  rcases hc : computeWriteIndex K wk lower yearOf (mkJob a it "pet" none none none (some (f, v)) none none) w with ⟨r, w'⟩
  cases r with
  | error e =>
    refine .inl ⟨e, w', ?_, rfl⟩
    rw [h1]
    show SE.bind _ _ w = _
    unfold SE.bind
    rw [hc]
  | ok r =>
    refine .inr ⟨(some r.1, some r.2), r, w', ?_, rfl, rfl⟩
    rw [h1]
    show SE.bind _ _ w = _
    unfold SE.bind
    rw [hc]
    rfl

end

open Classical in
/-- **C117, PET.** A run of the main tool for PET alone from monthly temperature, on a grid or of divisions, in a fresh process, with at least one worker process: it ends without exception exactly
if PET can be computed at every place. If so, one file is written, with the values of every place; if not, none. No other file is changed or created. -/
theorem C117_pet (E : Ext F) (T : Trig F) (cs ce : Int) (wk : Nat) (hwk : 1 ≤ wk) (lower : String → String) (yearOf : F → Int) (cmp : CoordCmp F) (a : CliArgs) (w : World F) (hi : a.index = "pet")
    {f v : String} {d : NcFile F} {x xl : NcVar F} {A b n : Nat} {cel : List F} {y0 y1 : Int} (hM : MonthlyTemp lower yearOf a w f v d x xl A b n cel y0 y1) (hfresh : w.shared "result_array" = none) :
    ∃ res w', processIndices (indexFunction E T cs ce) wk lower yearOf cmp a w = (res, w') ∧
      (res = .ok () ↔ ∀ i < A, ∀ k < b, ∃ r, pet T (Arr.of1d (seriesAt b n i k cel)) xl.data[i]? y0 = .ok r) ∧
      (res = .ok () → w'.written = w.written ++ [(fileName a.outputFileBase "pet_thornthwaite", "pet_thornthwaite")] ∧
        Holds w'.files a.outputFileBase .pet d x A b n (fun i k => pet T (Arr.of1d (seriesAt b n i k cel)) xl.data[i]? y0)) ∧
      (res ≠ .ok () → w'.written = w.written ∧ w'.files = w.files) ∧
      ∀ g, g ≠ fileName a.outputFileBase "pet_thornthwaite" → w'.files g = w.files g := by
  obtain ⟨it, h1, h2, h3, h4, h5⟩ := temp_parts hM
  have hval : validateArgs cmp w.files a = .ok it := by
    unfold validateArgs validateScales
    rw [if_neg (by rw [hi]; simp), h1, if_neg (by rw [hi]; decide)]
    rfl
  have hrun : processIndices (indexFunction E T cs ce) wk lower yearOf cmp a w =
      runJobs (indexFunction E T cs ce) wk lower yearOf (([.pet] : List Output).map (jobOf₃ a it ("", "") (f, v))) w := by
    have hspi : runSpi (indexFunction E T cs ce) wk lower yearOf a it = pure () := by
      unfold runSpi
      rw [if_neg (by rw [hi]; decide)]
    have hspei : ∀ pet, runSpei (indexFunction E T cs ce) wk lower yearOf a it pet = pure () := by
      intro pet
      unfold runSpei
      rw [if_neg (by rw [hi]; decide)]
    have hpnp : runPnp (indexFunction E T cs ce) wk lower yearOf a it = pure () := by
      unfold runPnp
      rw [if_neg (by rw [hi]; decide)]
    have hpal : ∀ pet, runPalmers (indexFunction E T cs ce) wk lower yearOf a it pet = pure () := by
      intro pet
      unfold runPalmers
      rw [if_neg (by rw [hi]; decide)]
    unfold processIndices
    rw [get_bind, hval, lift_ok, hspi, pure_bind', runPet_job (by rw [hi]; simp) hM.noPet (h3 _ hM.input.opened) hM.input.var]
    show _ = SE.bind _ _ w
    refine bind_congr' _ _ _ _ w ?_
    rcases hc : computeWriteIndex (indexFunction E T cs ce) wk lower yearOf (mkJob a it "pet" none none none (some (f, v)) none none) w with ⟨r, w'⟩
    cases r with
    | error e => exact .inl ⟨e, w', rfl, hc⟩
    | ok r =>
      refine .inr ⟨r, r, w', rfl, hc, ?_⟩
      rw [hspei, pure_bind', hpnp, pure_bind', hpal]
      rfl
  rw [hrun]
  obtain ⟨res, w', r1, r2, _, r3, r4, r5⟩ := pet_outputs E T cs ce wk hwk hM h2 h4 (fun r hr => by rw [show keyResult = "result_array" from rfl, hfresh] at hr; cases hr) ("", "")
  refine ⟨res, w', r1, ?_, ?_, ?_, ?_⟩
  · rw [r2]
    exact ⟨fun h => h .pet (by simp), fun h o _ => h⟩
  · intro hres
    have hc : ComputablePet T y0 cel xl.data A b n := r2.1 hres .pet (by simp)
    simp only [List.takeWhile_cons, decide_eq_true hc, if_true, List.takeWhile_nil] at r3 r4
    exact ⟨r3, r4 .pet (by simp)⟩
  · intro hres
    have hc : ¬ ComputablePet T y0 cel xl.data A b n := fun h => hres (r2.2 (fun _ _ => h))
    simp only [List.takeWhile_cons, decide_eq_false hc] at r3 r5
    refine ⟨by simpa [entries] using r3, ?_⟩
    funext g
    exact r5 g (by simp)
  · intro g hg
    refine r5 g (fun o ho => ?_)
    have := List.takeWhile_subset _ ho
    simp only [List.mem_cons, List.not_mem_nil, or_false] at this
    subst this
    exact hg

/-! ## SPEI and all scaled indices from temperature -/

omit [FloatOps F] in
theorem lookup_none_of {name : String} {d : NcFile F} (h : ∀ y, (name, y) ∉ d) : List.lookup name d = none := by
  rw [List.lookup_eq_none_iff]
  rintro ⟨k, y⟩ hp
  simp only [bne_iff_ne, ne_eq]
  rintro rfl
  exact h y hp

omit [FloatOps F] in
theorem mem_of_lookup {name : String} {d : NcFile F} {y : NcVar F} (h : List.lookup name d = some y) : (name, y) ∈ d := by
  obtain ⟨l1, l2, h1, _⟩ := List.lookup_eq_some_iff.1 h
  rw [h1]
  simp

omit [FloatOps F] in
/-- the file with the PET can be used with the precipitation -/
theorem pet_loadable [FloatOps F] {lower : String → String} (hlow : lower "millimeters" = "millimeters") {cmp : CoordCmp F} {d dt : NcFile F} {x xt : NcVar F} {v : String} (hfound : List.lookup v d = some x)
    (hX : Matching cmp d x dt xt) {it : InputType} (hdims : dropDimsOk it xt.dims = true) {out : List F} (hlen : out.length = xt.shape.foldr (· * ·) 1) {fs : Files F} {fe : String}
    (hf : fs fe = some (coordsOf dt ++ [(Output.pet.name, ⟨xt.dims, xt.shape, some "millimeters", out⟩)])) :
    LoadablePet lower it fs d x v fe Output.pet.name (coordsOf dt ++ [(Output.pet.name, ⟨xt.dims, xt.shape, some "millimeters", out⟩)]) ⟨xt.dims, xt.shape, some "millimeters", out⟩ out := by
  have hnot : ∀ y, (Output.pet.name, y) ∉ coordsOf dt := fun y hy => (hX.free y).2 (List.mem_of_mem_filter hy)
  refine ⟨hf, ?_, .inl (lookup_none_of (fun y => (hX.free y).1)), hlen, by decide, ?_, ⟨_, rfl, by rw [hlow]; rfl⟩, hdims, hX.shape, ?_⟩
  · rw [List.lookup_append, lookup_none_of hnot]
    simp
  · rintro rfl
    exact (hX.free x).1 (mem_of_lookup hfound)
  · intro c y z hc hz hy hz'
    rcases List.mem_append.1 hz with hz | hz
    · exact hX.same c y z hc (List.mem_of_mem_filter hz) hy hz'
    · simp only [List.mem_cons, List.not_mem_nil, or_false, Prod.mk.injEq] at hz
      rw [hz.1] at hc
      exact absurd hc (hX.free y).1

/-- what is in the files: PET with the coordinates of the temperature file, everything else with those of the precipitation file -/
def HoldsTemp (base : String) (d dt : NcFile F) (x xt : NcVar F) (A b n : Nat) (V : Output → Nat → Nat → Res (List F)) (fs : Files F) : Output → Prop
  | .pet => Holds fs base .pet dt xt A b n (V .pet)
  | o => Holds fs base o d x A b n (V o)

theorem three_phases [FloatLaws F] (E : Ext F) (hE : ExtNan E) (T : Trig F) (cs ce : Int) (wk : Nat) (hwk : 1 ≤ wk) {lower : String → String} (hlow : lower "millimeters" = "millimeters") {yearOf : F → Int}
    {cmp : CoordCmp F} {a : CliArgs} {w : World F} {f v ft vt : String} {d dt : NcFile F} {x xt xl : NcVar F} {A b n : Nat} {mm cel : List F} {y0 y1 : Int}
    (hM : Monthly lower yearOf a w f v d x A b n mm y0 y1) (hT : MonthlyTemp lower yearOf a w ft vt dt xt xl A b n cel y0 y1) (hX : Matching cmp d x dt xt) {it : InputType}
    (hl : IsLayout it x.shape A b n) (hL : Loadable lower yearOf it w.files f v d x mm y0) (hLT : LoadableTemp lower yearOf it w.files ft vt dt xt cel y0 xl) (hfit : ResFits x.shape w.shared)
    (pre post : List Output) (hpre : ∀ o ∈ pre, Simple o) (hpost : ∀ o ∈ post, Scaled o) (hd : ∀ o ∈ pre, o ∉ post) :
    Ran (indexFunction E T cs ce) wk lower yearOf a.outputFileBase x.shape (jobOf₃ a it (f, v) (ft, vt)) (Computable₃ E T cs ce y0 mm cel xl.data A b n)
      (HoldsTemp a.outputFileBase d dt x xt A b n (fun o i k => resultFor₃ E T cs ce y0 xl.data[i]? o (seriesAt b n i k mm) (seriesAt b n i k cel))) (pre ++ ([.pet] ++ post)) w := by
  have hH : ∀ (V : Output → Nat → Nat → Res (List F)) (fs fs' : Files F) (o : Output), fs (fileName a.outputFileBase o.name) = fs' (fileName a.outputFileBase o.name) →
      HoldsTemp a.outputFileBase d dt x xt A b n V fs o → HoldsTemp a.outputFileBase d dt x xt A b n V fs' o := by
    intro V fs fs' o he h
    have gen : ∀ (o : Output) (d : NcFile F) (x : NcVar F) (V : Nat → Nat → Res (List F)), fs (fileName a.outputFileBase o.name) = fs' (fileName a.outputFileBase o.name) →
        Holds fs a.outputFileBase o d x A b n V → Holds fs' a.outputFileBase o d x A b n V := by
      intro o d x V he h
      unfold Holds at h ⊢
      rw [← he]
      exact h
    cases o with
    | pet => exact gen .pet dt xt _ he h
    | spi dist s => exact gen (.spi dist s) d x _ he h
    | spei dist s => exact gen (.spei dist s) d x _ he h
    | pnp s => exact gen (.pnp s) d x _ he h
  have hlt : IsLayout it xt.shape A b n := by rw [hX.shape]; exact hl
  have hkeep : ∀ (outs : List Output), (∀ o ∈ outs, variableName (jobOf₃ a it (f, v) (ft, vt) o) = .ok o.name ∧ (jobOf₃ a it (f, v) (ft, vt) o).base = a.outputFileBase) → ∀ (g : String),
      (∀ o ∈ outs, g ≠ fileName a.outputFileBase o.name) → ∀ w1 w2 : World F,
      runJobs (indexFunction E T cs ce) wk lower yearOf (outs.map (jobOf₃ a it (f, v) (ft, vt))) w1 = (.ok (), w2) → w2.files g = w1.files g := by
    intro outs hsim g hg w1 w2 h
    refine runJobs_files _ h ?_
    intro j hj m hm
    obtain ⟨o, ho, rfl⟩ := List.mem_map.1 hj
    rw [(hsim o ho).1, Except.ok.injEq] at hm
    subst hm
    rw [(hsim o ho).2]
    exact hg o ho
  have hsimple : ∀ o, Simple o → jobOf a it (f, v) o = jobOf₃ a it (f, v) (ft, vt) o := by
    intro o ho
    cases o with
    | spi _ _ => rfl
    | pnp _ => rfl
    | spei _ _ => exact ho.elim
    | pet => exact ho.elim
  have hsimple' : ∀ o, Simple o → ∀ lat l t, resultFor₃ E T cs ce y0 lat o l t = resultFor E cs ce y0 o l := by
    intro o ho lat l t
    cases o with
    | spi _ _ => rfl
    | pnp _ => rfl
    | spei _ _ => exact ho.elim
    | pet => exact ho.elim
  refine Ran.append ?_ ?_ (hH _) ?_
  · refine (simple_outputs E hE T cs ce wk hwk hM hl hL hfit pre hpre).congr (fun o ho => hsimple o (hpre o ho)) ?_ ?_
    · intro o ho
      unfold Computable Computable₃
      simp only [hsimple' o (hpre o ho)]
    · intro fs o ho h
      cases o with
      | spi _ _ => exact h
      | pnp _ => exact h
      | spei _ _ => exact (hpre _ ho).elim
      | pet => exact (hpre _ ho).elim
  · intro _ w1 hw1 hfit1
    have hsim1 : ∀ o ∈ pre, variableName (jobOf₃ a it (f, v) (ft, vt) o) = .ok o.name ∧ (jobOf₃ a it (f, v) (ft, vt) o).base = a.outputFileBase := by
      intro o ho
      rw [← hsimple o (hpre o ho)]
      exact ⟨jobOf_name a it _ o (hpre o ho), (jobOf_facts a it _ o (hpre o ho)).2.2.2.2.2.2⟩
    have f1 : w1.files f = some d := by rw [hkeep pre hsim1 f (fun o _ => hM.input.notOutput o) w w1 hw1]; exact hM.input.opened
    have f2 : w1.files ft = some dt := by rw [hkeep pre hsim1 ft (fun o _ => hT.input.notOutput o) w w1 hw1]; exact hT.input.opened
    have hT1 : MonthlyTemp lower yearOf a w1 ft vt dt xt xl A b n cel y0 y1 :=
      ⟨⟨hT.input.file, hT.input.var, f2, hT.input.found, hT.input.wf, hT.input.reserved, hT.input.notOutput⟩, hT.layout, hT.places, hT.lat, hT.lats, hT.divisions, hT.years, hT.units, hT.monthly, hT.noPet⟩
    have hLT1 : LoadableTemp lower yearOf it w1.files ft vt dt xt cel y0 xl := ⟨f2, hLT.found, hLT.wf, hLT.name, hLT.year, hLT.units, hLT.dims, hLT.lat, hLT.place⟩
    refine Ran.append ?_ ?_ (hH _) ?_
    · have hp := pet_outputs E T cs ce wk hwk hT1 hlt hLT1 (by rw [hX.shape]; exact hfit1) (f, v)
      rw [hX.shape] at hp
      refine hp.congr (fun _ _ => rfl) ?_ ?_
      · intro o ho
        simp only [List.mem_cons, List.not_mem_nil, or_false] at ho
        subst ho
        exact Iff.rfl
      · intro fs o ho h
        simp only [List.mem_cons, List.not_mem_nil, or_false] at ho
        subst ho
        exact h
    · intro _ w2 hw2 hfit2
      have hcw : ∃ r, computeWriteIndex (indexFunction E T cs ce) wk lower yearOf (mkJob a it "pet" none none none (some (ft, vt)) none none) w1 = (.ok r, w2) := by
        have hw2 : SE.bind (computeWriteIndex (indexFunction E T cs ce) wk lower yearOf (mkJob a it "pet" none none none (some (ft, vt)) none none)) (fun _ => pure ()) w1 = (.ok (), w2) := hw2
        unfold SE.bind at hw2
        rcases hc : computeWriteIndex (indexFunction E T cs ce) wk lower yearOf (mkJob a it "pet" none none none (some (ft, vt)) none none) w1 with ⟨r, w'⟩
        rw [hc] at hw2
        cases r with
        | error e => cases hw2
        | ok r =>
          have : ((.ok (), w') : Res Unit × World F) = (.ok (), w2) := hw2
          rw [Prod.mk.injEq] at this
          exact ⟨r, by rw [this.2]⟩
      obtain ⟨r, hr⟩ := hcw
      obtain ⟨e1, out, e2, e3, e4⟩ := pet_file E T cs ce wk hT1 hlt hr
      rw [e1] at e3
      have g1 : w2.files f = some d := by
        rw [hkeep [.pet] (fun o ho => by
          simp only [List.mem_cons, List.not_mem_nil, or_false] at ho
          subst ho
          exact ⟨rfl, rfl⟩) f (fun o _ => hM.input.notOutput o) w1 w2 hw2]
        exact f1
      have hM2 : Monthly lower yearOf a w2 f v d x A b n mm y0 y1 :=
        ⟨⟨hM.input.file, hM.input.var, g1, hM.input.found, hM.input.wf, hM.input.reserved, hM.input.notOutput⟩, hM.layout, hM.places, hM.coords, hM.lats, hM.years, hM.units, hM.monthly⟩
      have hL2 : Loadable lower yearOf it w2.files f v d x mm y0 := ⟨g1, hL.found, hL.wf, hL.name, hL.year, hL.units, hL.dims, hL.place⟩
      have hLP := pet_loadable hlow hM.input.found hX hLT.dims e2 e3
      have hres : ∀ o, Scaled o → ∀ i < A, ∀ k < b, resultFor₂ E cs ce y0 o (seriesAt b n i k mm) (seriesAt b n i k out) =
          resultFor₃ E T cs ce y0 xl.data[i]? o (seriesAt b n i k mm) (seriesAt b n i k cel) := by
        intro o ho i hi k hk
        cases o with
        | spi _ _ => rfl
        | pnp _ => rfl
        | pet => exact ho.elim
        | spei dist s =>
          unfold resultFor₂ resultFor₃
          simp only [e4 i hi k hk, bind, Except.bind]
      have hrun := scaled_outputs E hE T cs ce wk hwk hM2 hl hL2 hLP hfit2 post hpost (fun o ho he => by
        have := output_name_inj (fileName_inj he)
        subst this
        exact hpost _ ho)
      refine Ran.congr (H := fun fs o => Holds fs a.outputFileBase o d x A b n (fun i k => resultFor₂ E cs ce y0 o (seriesAt b n i k mm) (seriesAt b n i k out))) hrun ?_ ?_ ?_
      · intro o ho
        cases o with
        | pet => exact (hpost _ ho).elim
        | spi _ _ => rfl
        | pnp _ => rfl
        | spei _ _ => rfl
      · intro o ho
        unfold Computable₂ Computable₃
        refine forall_congr' (fun i => forall_congr' (fun hi => forall_congr' (fun k => forall_congr' (fun hk => ?_))))
        rw [hres o (hpost o ho) i hi k hk]
      · intro fs o ho h
        have h' : Holds fs a.outputFileBase o d x A b n (fun i k => resultFor₃ E T cs ce y0 xl.data[i]? o (seriesAt b n i k mm) (seriesAt b n i k cel)) := by
          obtain ⟨file, y, q1, q2, q3, q4, q5⟩ := h
          exact ⟨file, y, q1, q2, q3, q4, fun i hi k hk => by beta_reduce; rw [← hres o (hpost o ho) i hi k hk]; exact q5 i hi k hk⟩
        cases o with
        | pet => exact (hpost _ ho).elim
        | spi _ _ => exact h'
        | pnp _ => exact h'
        | spei _ _ => exact h'
    · intro o ho ho'
      simp only [List.mem_cons, List.not_mem_nil, or_false] at ho
      subst ho
      exact hpost _ ho'
  · intro o ho ho'
    rcases List.mem_append.1 ho' with h | h
    · simp only [List.mem_cons, List.not_mem_nil, or_false] at h
      subst h
      exact hpre _ ho
    · exact hd o ho h

omit [FloatOps F] in
/-- the validation of the temperature file beside a precipitation file -/
theorem second_ok [FloatOps F] {cmp : CoordCmp F} {w : World F} {a : CliArgs} {d dt : NcFile F} {x xt : NcVar F} {ft vt : String} {it : InputType}
    (hin : Input w.files a.outputFileBase a.netcdfTemp a.varNameTemp ft vt dt xt) (hX : Matching cmp d x dt xt)
    (hit : (it = .grid ∧ x.dims = ["lat", "lon", "time"]) ∨ (it = .divisions ∧ x.dims = ["division", "time"])) : validateSecond cmp w.files it d (some ft) a.varNameTemp = .ok () := by
  have hget : ∀ c ∈ x.dims, ∃ l, d.coord c = .ok l ∧ dt.coord c = .ok l ∧ cmp.close l l = .ok true ∧ cmp.equal l l = true := by
    intro c hc
    obtain ⟨y, ye, h1, h2, h3⟩ := hX.coords c hc
    refine ⟨y.data, by unfold NcFile.coord NcFile.get; rw [h1]; rfl, by unfold NcFile.coord NcFile.get; rw [h2, ← h3]; rfl, hX.accepted c hc y h1⟩
  have hreq : dt.require a.varNameTemp = .ok xt := by
    unfold NcFile.require
    rw [hin.var]
    simp only [hin.found]
  rcases hit with ⟨rfl, hd⟩ | ⟨rfl, hd⟩
  · obtain ⟨l1, a1, b1, c1, e1⟩ := hget "lat" (by rw [hd]; simp)
    obtain ⟨l2, a2, b2, c2, e2⟩ := hget "lon" (by rw [hd]; simp)
    obtain ⟨l3, a3, b3, c3, e3⟩ := hget "time" (by rw [hd]; simp)
    unfold validateSecond
    have hm : xt.dims ∈ dimsGrid := by rw [hX.dims, hd]; decide
    simp only [openFile, hin.opened, hreq, bind, Except.bind, if_pos hm, compareSpace, a1, b1, c1, a2, b2, c2, a3, b3, e3, if_true]
    rfl
  · obtain ⟨l1, a1, b1, c1, e1⟩ := hget "division" (by rw [hd]; simp)
    obtain ⟨l3, a3, b3, c3, e3⟩ := hget "time" (by rw [hd]; simp)
    unfold validateSecond
    have hm : xt.dims ∈ dimsDivisions := by rw [hX.dims, hd]; decide
    simp only [openFile, hin.opened, hreq, bind, Except.bind, if_pos hm, compareSpace, a1, b1, e1, a3, b3, e3, if_true]
    rfl

/-- the SPI phase before, and the outputs after the PET -/
def preOutputs (index : String) (scales : List Nat) : List Output := if index = "scaled" then spiOutputs scales else []
def postOutputs (index : String) (scales : List Nat) : List Output := speiOutputs scales ++ if index = "scaled" then pnpOutputs scales else []

omit [FloatOps F] in
theorem documented_parts {index : String} (hi : index = "spei" ∨ index = "scaled") (scales : List Nat) :
    documented index false scales = preOutputs index scales ++ ([.pet] ++ postOutputs index scales) ∧ (∀ o ∈ preOutputs index scales, Simple o) ∧ (∀ o ∈ postOutputs index scales, Scaled o) ∧
      ∀ o ∈ preOutputs index scales, o ∉ postOutputs index scales := by
  have hsc := documented_scaled (index := "scaled") (.inr rfl) scales
  have hdoc : documented "scaled" true scales = spiOutputs scales ++ (speiOutputs scales ++ pnpOutputs scales) := by
    show spiOutputs scales ++ petOutputs true ++ speiOutputs scales ++ pnpOutputs scales = _
    simp [petOutputs]
  rw [hdoc] at hsc
  rcases hi with rfl | rfl
  · refine ⟨?_, ?_, ?_, ?_⟩
    · show petOutputs false ++ speiOutputs scales = _
      simp [petOutputs, preOutputs, postOutputs]
    · simp [preOutputs]
    · intro o ho
      simp [postOutputs] at ho
      exact hsc o (by simp [ho])
    · simp [preOutputs]
  · refine ⟨?_, ?_, ?_, ?_⟩
    · show spiOutputs scales ++ petOutputs false ++ speiOutputs scales ++ pnpOutputs scales = _
      simp [petOutputs, preOutputs, postOutputs]
    · intro o ho
      simp [preOutputs] at ho
      exact documented_simple (.inl rfl) scales o ho
    · intro o ho
      simp [postOutputs] at ho
      exact hsc o (by simp [ho])
    · intro o ho ho'
      simp only [preOutputs, if_true, spiOutputs, List.mem_flatMap, List.mem_cons, List.not_mem_nil, or_false] at ho
      simp only [postOutputs, if_true, speiOutputs, pnpOutputs, List.mem_append, List.mem_flatMap, List.mem_map, List.mem_cons, List.not_mem_nil, or_false] at ho'
      obtain ⟨s, _, rfl | rfl⟩ := ho <;> (rcases ho' with ⟨s', _, h | h⟩ | ⟨s', _, h⟩ <;> cases h)

/-- the run is the run of the jobs -/
theorem process_jobs₃ (E : Ext F) (T : Trig F) (cs ce : Int) (wk : Nat) {lower : String → String} (hlow : lower "millimeters" = "millimeters") {yearOf : F → Int}
    {cmp : CoordCmp F} {a : CliArgs} {w : World F} {f v ft vt : String} {d dt : NcFile F} {x xt xl : NcVar F} {A b n : Nat} {mm cel : List F} {y0 y1 : Int}
    (hM : Monthly lower yearOf a w f v d x A b n mm y0 y1) (hT : MonthlyTemp lower yearOf a w ft vt dt xt xl A b n cel y0 y1) (hX : Matching cmp d x dt xt)
    (hi : a.index = "spei" ∨ a.index = "scaled") {scales : List Nat} (hs : a.scales = some (scales.map Int.ofNat)) :
    ∃ it, IsLayout it x.shape A b n ∧ Loadable lower yearOf it w.files f v d x mm y0 ∧ LoadableTemp lower yearOf it w.files ft vt dt xt cel y0 xl ∧
      processIndices (indexFunction E T cs ce) wk lower yearOf cmp a w =
        runJobs (indexFunction E T cs ce) wk lower yearOf ((preOutputs a.index scales ++ ([Output.pet] ++ postOutputs a.index scales)).map (jobOf₃ a it (f, v) (ft, vt))) w := by
  obtain ⟨it, h1, h2, h3, h4, h5⟩ := monthly_parts hM.ready
  obtain ⟨it', k1, k2, k3, k4, k5⟩ := temp_parts hT
  have hit : it' = it := by
    rcases h5 with ⟨rfl, hd⟩ | ⟨rfl, hd⟩ <;> rcases k5 with ⟨rfl, hd'⟩ | ⟨rfl, hd'⟩
    · rfl
    · rw [hX.dims, hd] at hd'; simp at hd'
    · rw [hX.dims, hd] at hd'; simp at hd'
    · rfl
  subst hit
  refine ⟨it', h2, h4, k4, ?_⟩
  obtain ⟨_, hpre, hpost, _⟩ := documented_parts hi scales
  have hvar : a.varNamePrecip.getD "" = v := by rw [hM.input.var]; rfl
  have hval : validateArgs cmp w.files a = .ok it' := by
    have hidx : a.index ≠ "pet" := by rcases hi with hi | hi <;> rw [hi] <;> decide
    have hoth : validateOthers cmp w.files a it' d = .ok () := by
      unfold validateOthers
      rw [if_pos (by rcases hi with hi | hi <;> rw [hi] <;> decide)]
      have : validateTempOrPet cmp w.files a it' d = .ok () := by
        unfold validateTempOrPet
        rw [hT.noPet, hT.input.file]
        exact second_ok hT.input hX h5
      simp only [this, bind, Except.bind]
      rw [if_neg (by rcases hi with hi | hi <;> rw [hi] <;> decide)]
      rfl
    have hsc : validateScales a = .ok () := by
      unfold validateScales
      rw [if_pos (by rcases hi with hi | hi <;> rw [hi] <;> decide), hs]
      simp only []
      rw [if_neg]
      simp only [List.any_eq_true, decide_eq_true_eq, not_exists, not_and, not_lt]
      intro s h
      obtain ⟨m, _, rfl⟩ := List.mem_map.1 h
      exact Int.natCast_nonneg m
    unfold validateArgs
    rw [if_pos hidx]
    simp only [h1, hoth, hsc, bind, Except.bind]
    rfl
  generalize hK : indexFunction E T cs ce = K
  have hpal : ∀ pet, runPalmers K wk lower yearOf a it' pet = pure () := by
    intro pet
    unfold runPalmers
    rw [if_neg (by rcases hi with hi | hi <;> rw [hi] <;> decide)]
  let fe := fileName a.outputFileBase Output.pet.name
  have hspi : ∀ w' : World F, w'.files f = some d → runSpi K wk lower yearOf a it' w' = runJobs K wk lower yearOf ((preOutputs a.index scales).map (jobOf₃ a it' (f, v) (ft, vt))) w' := by
    intro w' hf
    unfold runSpi preOutputs
    rcases hi with hi | hi
    · rw [if_neg (by rw [hi]; decide), if_neg (by rw [hi]; decide)]
      rfl
    · rw [if_pos (by rw [hi]; decide), if_pos hi, get_bind, h3 _ hf, lift_ok, hs]
      rw [show orElseRaise (some (scales.map Int.ofNat)) PyErr.typeError = .ok (scales.map Int.ofNat) from rfl, lift_ok]
      congr 1
      rw [hvar]
      unfold spiOutputs
      rw [List.map_flatMap, List.flatMap_map]
      rfl
  have hspei : ∀ w' : World F, w'.files f = some d → prepareFile w'.files (some fe) (some Output.pet.name) = .ok fe →
      runSpei K wk lower yearOf a it' (some fe, some Output.pet.name) w' = runJobs K wk lower yearOf ((speiOutputs scales).map (jobOf₃ a it' (f, v) (ft, vt))) w' := by
    intro w' hf hfe
    unfold runSpei
    rw [if_pos (by rcases hi with hi | hi <;> rw [hi] <;> decide), get_bind, h3 _ hf, lift_ok, hfe, lift_ok, hs]
    rw [show orElseRaise (some (scales.map Int.ofNat)) PyErr.typeError = .ok (scales.map Int.ofNat) from rfl, lift_ok]
    congr 1
    rw [hvar]
    unfold speiOutputs
    rw [List.map_flatMap, List.flatMap_map]
    rfl
  have hpnp : ∀ w' : World F, w'.files f = some d →
      runPnp K wk lower yearOf a it' w' = runJobs K wk lower yearOf ((if a.index = "scaled" then pnpOutputs scales else []).map (jobOf₃ a it' (f, v) (ft, vt))) w' := by
    intro w' hf
    unfold runPnp
    rcases hi with hi | hi
    · rw [if_neg (by rw [hi]; decide), if_neg (by rw [hi]; decide)]
      rfl
    · rw [if_pos (by rw [hi]; decide), if_pos hi, get_bind, h3 _ hf, lift_ok, hs]
      rw [show orElseRaise (some (scales.map Int.ofNat)) PyErr.typeError = .ok (scales.map Int.ofNat) from rfl, lift_ok]
      congr 1
      rw [hvar]
      unfold pnpOutputs
      rw [List.map_map, List.map_map]
      rfl
  have hfacts : ∀ o, Scaled o → variableName (jobOf₃ a it' (f, v) (ft, vt) o) = .ok o.name ∧ (jobOf₃ a it' (f, v) (ft, vt) o).base = a.outputFileBase := by
    intro o ho
    have he : jobOf₃ a it' (f, v) (ft, vt) o = jobOf₂ a it' (f, v) (fe, Output.pet.name) o := by
      cases o with
      | pet => exact ho.elim
      | _ => rfl
    rw [he]
    exact ⟨jobOf₂_name a it' _ _ o ho, jobOf₂_base a it' _ _ o ho⟩
  have hkeep : ∀ (outs : List Output) (_ : ∀ o ∈ outs, Scaled o) (g : String) (_ : ∀ o : Output, g ≠ fileName a.outputFileBase o.name) (w1 w2 : World F),
      runJobs K wk lower yearOf (outs.map (jobOf₃ a it' (f, v) (ft, vt))) w1 = (.ok (), w2) → w2.files g = w1.files g := by
    intro outs hsim g hg w1 w2 h
    refine runJobs_files _ h ?_
    intro j hj m hm
    obtain ⟨o, ho, rfl⟩ := List.mem_map.1 hj
    rw [(hfacts o (hsim o ho)).1, Except.ok.injEq] at hm
    subst hm
    rw [(hfacts o (hsim o ho)).2]
    exact hg o
  have hpre' : ∀ o ∈ preOutputs a.index scales, Scaled o := by
    intro o ho
    have := hpre o ho
    cases o <;> first | exact this | exact this.elim
  have bc : ∀ {β : Type} (m m' : SE (World F) Unit) (g g' : Unit → SE (World F) β) (w : World F), m w = m' w → (∀ w', m' w = (.ok (), w') → g () w' = g' () w') → (m >>= g) w = (m' >>= g') w := by
    intro β m m' g g' w hm hg
    refine bind_congr' _ _ _ _ w ?_
    rw [hm]
    rcases hh : m' w with ⟨r, w'⟩
    cases r with
    | error e => exact .inl ⟨e, w', rfl, rfl⟩
    | ok u => exact .inr ⟨u, u, w', rfl, rfl, hg w' hh⟩
  unfold processIndices
  rw [get_bind, hval, lift_ok, List.map_append, runJobs_append]
  refine bc _ _ _ _ w (hspi w hM.input.opened) ?_
  intro w1 hw1
  have f1 := hkeep _ hpre' f hM.input.notOutput w w1 hw1
  have f2 := hkeep _ hpre' ft hT.input.notOutput w w1 hw1
  rw [hM.input.opened] at f1
  rw [hT.input.opened] at f2
  rw [runPet_job (by rcases hi with hi | hi <;> rw [hi] <;> simp) hT.noPet (k3 _ f2) hT.input.var]
  rw [show ([Output.pet] ++ postOutputs a.index scales).map (jobOf₃ a it' (f, v) (ft, vt)) =
    mkJob a it' "pet" none none none (some (ft, vt)) none none :: (postOutputs a.index scales).map (jobOf₃ a it' (f, v) (ft, vt)) from rfl]
  show _ = SE.bind _ _ w1
  refine bind_congr' _ _ _ _ w1 ?_
  rcases hc : computeWriteIndex K wk lower yearOf (mkJob a it' "pet" none none none (some (ft, vt)) none none) w1 with ⟨r, w2⟩
  cases r with
  | error e => exact .inl ⟨e, w2, rfl, rfl⟩
  | ok r =>
    refine .inr ⟨r, r, w2, rfl, rfl, ?_⟩
    subst hK
    have hT1 : MonthlyTemp lower yearOf a w1 ft vt dt xt xl A b n cel y0 y1 :=
      ⟨⟨hT.input.file, hT.input.var, f2, hT.input.found, hT.input.wf, hT.input.reserved, hT.input.notOutput⟩, hT.layout, hT.places, hT.lat, hT.lats, hT.divisions, hT.years, hT.units, hT.monthly, hT.noPet⟩
    obtain ⟨e1, out, e2, e3, _⟩ := pet_file E T cs ce wk hT1 k2 hc
    have g1 : w2.files f = some d := by
      rw [(cwi_files hc).2.2 f (by rw [e1]; exact hM.input.notOutput .pet)]
      exact f1
    rw [e1] at e3
    have hLP := pet_loadable hlow hM.input.found hX k4.dims e2 e3
    have hfe : prepareFile w2.files (some fe) (some Output.pet.name) = .ok fe := by
      have hopen : openFile w2.files (some fe) = .ok (coordsOf dt ++ [(Output.pet.name, ⟨xt.dims, xt.shape, some "millimeters", out⟩)]) := by
        unfold openFile
        simp only [show w2.files fe = _ from e3]
      have hgo : NcFile.getOpt (coordsOf dt ++ [(Output.pet.name, ⟨xt.dims, xt.shape, some "millimeters", out⟩)]) (some Output.pet.name) = .ok ⟨xt.dims, xt.shape, some "millimeters", out⟩ := by
        unfold NcFile.getOpt NcFile.get
        simp only [hLP.found]
      unfold prepareFile
      simp only [hopen, hgo, bind, Except.bind]
      rcases h5 with ⟨_, hd⟩ | ⟨_, hd⟩
      · rw [hX.dims, hd]
        rfl
      · rw [hX.dims, hd]
        rfl
    rw [e1]
    show _ = runJobs (indexFunction E T cs ce) wk lower yearOf ((postOutputs a.index scales).map (jobOf₃ a it' (f, v) (ft, vt))) w2
    unfold postOutputs
    rw [List.map_append, runJobs_append]
    refine bc _ _ _ _ w2 (hspei w2 g1 hfe) ?_
    intro w3 hw3
    have g2 := hkeep (speiOutputs scales) (fun o ho => hpost o (by simp [postOutputs, ho])) f hM.input.notOutput w2 w3 hw3
    rw [g1] at g2
    rw [← hpnp w3 g2]
    have bind_pure : ∀ (m : SE (World F) Unit) (g : Unit → SE (World F) Unit) (w : World F), (∀ w', g () w' = (.ok (), w')) → (m >>= g) w = m w := by
      intro m g w hg
      show SE.bind m g w = m w
      unfold SE.bind
      rcases hm : m w with ⟨r, w'⟩
      cases r with
      | error e => rfl
      | ok u => exact hg w'
    refine bind_pure _ _ _ (fun w' => ?_)
    rw [hpal]
    rfl

open Classical in
/-- **C117.** A run of the main tool for SPEI or for all scaled indices from monthly precipitation and temperature, on a grid or of divisions, in a fresh process, with at least one worker
process: first (after SPI) PET is computed and written, and then used for SPEI. The run ends without exception exactly if every output — PET itself, and SPEI with that PET — can be computed at
every place. In any case the outputs before the first one that cannot be computed somewhere are written, in the documented order, with the right values at every place; no other file is changed or
created. -/
theorem C117_run [FloatLaws F] (E : Ext F) (hE : ExtNan E) (T : Trig F) (cs ce : Int) (wk : Nat) (hwk : 1 ≤ wk) (lower : String → String) (hlow : lower "millimeters" = "millimeters") (yearOf : F → Int)
    (cmp : CoordCmp F) (a : CliArgs) (w : World F) (hi : a.index = "spei" ∨ a.index = "scaled") {f v ft vt : String} {d dt : NcFile F} {x xt xl : NcVar F} {A b n : Nat} {mm cel : List F} {y0 y1 : Int}
    (hM : Monthly lower yearOf a w f v d x A b n mm y0 y1) (hT : MonthlyTemp lower yearOf a w ft vt dt xt xl A b n cel y0 y1) (hX : Matching cmp d x dt xt)
    (hfresh : w.shared "result_array" = none) (scales : List Nat) (hs : a.scales = some (scales.map Int.ofNat)) :
    ∃ res w', processIndices (indexFunction E T cs ce) wk lower yearOf cmp a w = (res, w') ∧
      (res = .ok () ↔ ∀ o ∈ documented a.index false scales, Computable₃ E T cs ce y0 mm cel xl.data A b n o) ∧
      w'.written = w.written ++ entries a.outputFileBase ((documented a.index false scales).takeWhile (fun o => decide (Computable₃ E T cs ce y0 mm cel xl.data A b n o))) ∧
      (∀ o ∈ (documented a.index false scales).takeWhile (fun o => decide (Computable₃ E T cs ce y0 mm cel xl.data A b n o)),
        Holds w'.files a.outputFileBase o (if o = .pet then dt else d) (if o = .pet then xt else x) A b n
          (fun i k => resultFor₃ E T cs ce y0 xl.data[i]? o (seriesAt b n i k mm) (seriesAt b n i k cel))) ∧
      ∀ g, (∀ o ∈ (documented a.index false scales).takeWhile (fun o => decide (Computable₃ E T cs ce y0 mm cel xl.data A b n o)), g ≠ fileName a.outputFileBase o.name) → w'.files g = w.files g := by
  obtain ⟨hdoc, hpre, hpost, hdis⟩ := documented_parts hi scales
  obtain ⟨it, h1, h2, h3, h4⟩ := process_jobs₃ E T cs ce wk hlow hM hT hX hi hs
  rw [h4, hdoc]
  obtain ⟨res, w', r1, r2, _, r3, r4, r5⟩ := three_phases E hE T cs ce wk hwk hlow hM hT hX h1 h2 h3 (fun r hr => by rw [show keyResult = "result_array" from rfl, hfresh] at hr; cases hr)
    (preOutputs a.index scales) (postOutputs a.index scales) hpre hpost hdis
  refine ⟨res, w', r1, r2, r3, fun o ho => ?_, r5⟩
  have := r4 o ho
  cases o with
  | pet => exact this
  | spi _ _ => rw [if_neg (by simp), if_neg (by simp)]; exact this
  | spei _ _ => rw [if_neg (by simp), if_neg (by simp)]; exact this
  | pnp _ => rw [if_neg (by simp), if_neg (by simp)]; exact this

end CI.Props
