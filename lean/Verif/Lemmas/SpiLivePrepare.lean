import Verif.Lemmas.SpiLive
import Verif.Spec.SpiLive

/-!
# Lemmas about when a run of the SPI tool finishes: the part before the loop over the scales, and the whole run
-/

namespace CI
open Spec CI.Props

variable {F : Type} [FloatOps F]

/-! ## The data set of fitting parameters -/

omit [FloatOps F] in
theorem fitName_ne_coord (u : String) (s : Int) {v : String} (hv : v ∈ fittingVariables) : spiFitName u s v ≠ "lat" ∧ spiFitName u s v ≠ "lon" := by
  simp only [fittingVariables, List.mem_cons, List.not_mem_nil, or_false] at hv
  constructor <;> intro h <;> have h := congrArg String.toList h <;> unfold spiFitName at h <;> simp only [String.toList_append] at h <;>
    rcases hv with rfl | rfl | rfl | rfl | rfl | rfl <;> simp at h

theorem addEmptyFits_exists {per : Periodicity} {u : String} (hu : per.unit = .ok u) {g : NcFile F} {lat lon : NcVar F} (hlat : List.lookup "lat" g = some lat) (hlatd : lat.dims = ["lat"])
    (hlon : List.lookup "lon" g = some lon) (hlond : lon.dims = ["lon"]) (s : Int) : ∃ g', addEmptyFits per g s = .ok g' := by
  unfold addEmptyFits
  have hp : periodTimes per = .ok per.steps := by cases per <;> cases hu <;> rfl
  have h1 : g.attr "lat" = .ok lat := by unfold NcFile.attr; rw [hlat]
  have h2 : g.attr "lon" = .ok lon := by unfold NcFile.attr; rw [hlon]
  rw [hp, hu, h1, h2]
  simp only [bind, Except.bind, hlatd, hlond, and_self, if_true]
  exact ⟨_, rfl⟩

theorem emptyFits_exists {per : Periodicity} {u : String} (hu : per.unit = .ok u) {lat lon : NcVar F} (hlatd : lat.dims = ["lat"]) (hlond : lon.dims = ["lon"]) (ss : List Int) :
    ∀ {g : NcFile F}, FitFile u g → List.lookup "lat" g = some lat → List.lookup "lon" g = some lon →
      ∃ g', ss.foldlM (addEmptyFits per) g = .ok g' ∧
        ∀ s ∈ ss, ∀ v ∈ fittingVariables, ∃ y, List.lookup (spiFitName u s v) g' = some y ∧ y.shape = [lat.data.length, lon.data.length, per.steps] := by
  induction ss with
  | nil => intro g _ _ _; exact ⟨g, rfl, by simp⟩
  | cons s ss ih =>
    intro g hf hlat hlon
    obtain ⟨g1, h1⟩ := addEmptyFits_exists hu hlat hlatd hlon hlond s
    obtain ⟨e1, lat', lon', x, e2, e3, e4, e5, e6, e7⟩ := addEmptyFits_ok hu hf h1
    rw [hlat] at e2
    rw [hlon] at e3
    cases e2
    cases e3
    obtain ⟨g', i1, i2⟩ := ih e1 ((e7 "lat" (fun v hv => (fitName_ne_coord u s hv).1.symm)).trans hlat) ((e7 "lon" (fun v hv => (fitName_ne_coord u s hv).2.symm)).trans hlon)
    refine ⟨g', by rw [List.foldlM_cons, h1]; exact i1, ?_⟩
    intro s' hs' v hv
    by_cases hm : s' ∈ ss
    · exact i2 s' hm v hv
    · have : s' = s := by simpa [hm] using hs'
      subst this
      obtain ⟨_, _, k3⟩ := emptyFits_fold hu ss e1 i1
      refine ⟨x, ?_, e5⟩
      rw [k3 _ ?_, e6 v hv]
      intro s'' hs'' v' hv' e
      have := (fitName_inj hv hv' e).1
      subst this
      exact hm hs''

omit [FloatOps F] in
theorem dropFitting_exists {u : String} (hu : u = "month" ∨ u = "day") {g : NcFile F} (hg : ∀ p ∈ g, p.2.dims = [p.1] ∨ p.2.dims = ["lat", "lon", u]) (sh : Dict (Arr F)) :
    ∃ sh', dropFitting g sh = .ok sh' := by
  have key : ∀ (l : NcFile F) (sh : Dict (Arr F)), (∀ p ∈ l, p.2.dims = ["lat", "lon", u]) → ∃ sh', l.foldlM dropStep sh = .ok sh' := by
    intro l
    induction l with
    | nil => intro sh _; exact ⟨sh, rfl⟩
    | cons p l ih =>
      intro sh hl
      have h1 : dropStep sh p = .ok (sh.put p.1 ⟨p.2.shape, p.2.data⟩) := by
        unfold dropStep
        rw [hl p (by simp), if_pos]
        rcases hu with rfl | rfl <;> decide
      obtain ⟨sh', h2⟩ := ih (sh.put p.1 ⟨p.2.shape, p.2.data⟩) (fun q hq => hl q (by simp [hq]))
      exact ⟨sh', by rw [List.foldlM_cons, h1]; exact h2⟩
  refine key _ sh ?_
  intro p hp
  rw [List.mem_filter] at hp
  rcases hg p hp.1 with h | h
  · simp [h] at hp
  · exact h

theorem spiFitting_exists {fs : Files F} {j : SpiJob} {d : NcFile F} {u : String} (hu : j.per.unit = .ok u) (hload : j.load = none) {lat lon : NcVar F} (hlat : List.lookup "lat" d = some lat)
    (hlatd : lat.dims = ["lat"]) (hlatu : lat.units ≠ none) (hlatn : lat.data ≠ []) (hlon : List.lookup "lon" d = some lon) (hlond : lon.dims = ["lon"]) (hlonu : lon.units ≠ none) (hlonn : lon.data ≠ []) :
    ∃ g, spiFitting fs j d = .ok g ∧ FitFile u g ∧
      ∀ s ∈ j.scales, ∀ v ∈ fittingVariables, ∃ y, List.lookup (spiFitName u s v) g = some y ∧ y.shape = [lat.data.length, lon.data.length, j.per.steps] := by
  have coord : ∀ (k : String) (x : NcVar F), List.lookup k d = some x → x.units ≠ none → x.data ≠ [] → spiCoord d k = .ok x := by
    intro k x h1 h2 h3
    unfold spiCoord NcFile.attr
    rw [h1]
    obtain ⟨un, hun⟩ := Option.ne_none_iff_exists'.1 h2
    simp only [bind, Except.bind, List.isEmpty_iff, h3, if_false, hun]
    rfl
  have hp : periodTimes j.per = .ok j.per.steps := by cases hper : j.per <;> rw [hper] at hu <;> cases hu <;> rfl
  have hb : buildFittingGrid d j.per = .ok [("lat", lat), ("lon", lon), (u, ⟨[u], [j.per.steps], none, (List.range j.per.steps).map (fun (i : Nat) => lit (i : ℚ))⟩)] := by
    unfold buildFittingGrid
    rw [hp, hu, coord _ _ hlat hlatu hlatn, coord _ _ hlon hlonu hlonn]
    rfl
  have hud : u = "month" ∨ u = "day" := by cases hper : j.per <;> rw [hper] at hu <;> cases hu <;> simp
  have hf : FitFile u [("lat", lat), ("lon", lon), (u, (⟨[u], [j.per.steps], none, (List.range j.per.steps).map (fun (i : Nat) => lit (i : ℚ))⟩ : NcVar F))] := by
    refine ⟨?_, ?_⟩
    · intro p hp
      left
      simp only [List.mem_cons, List.not_mem_nil, or_false] at hp
      rcases hp with rfl | rfl | rfl
      · exact hlatd
      · exact hlond
      · rfl
    · rcases hud with rfl | rfl <;> simp
  obtain ⟨g, h1, h2⟩ := emptyFits_exists hu hlatd hlond j.scales hf (by simp) (by simp [List.lookup_cons])
  refine ⟨g, ?_, (emptyFits_fold hu j.scales hf h1).1, h2⟩
  unfold spiFitting
  rw [hload]
  simp only [hb, bind, Except.bind]
  exact h1

/-! ## The whole part before the loop -/

theorem spiPrepare_of {yearOf : F → Int} {lower : String → String} {j : SpiJob} {w : World F} {u : String} (hu : j.per.unit = .ok u) (hit : j.inputType = .grid)
    {d : NcFile F} {x t lat lon : NcVar F} {t0 : F} (hopen : w.files j.file = some d) (hx : List.lookup j.var d = some x) (hxd : x.dims = ["lat", "lon", "time"])
    {un : String} {mm : List F} (hun : x.units = some un) (hmm : convertPrecip (lower un) x.data = .ok mm)
    (ht : List.lookup "time" d = some t) (htd : t.dims = ["time"]) (ht0 : t.data.head? = some t0) (hlat : List.lookup "lat" d = some lat) (hlatd : lat.dims = ["lat"]) 
    (hlon : List.lookup "lon" d = some lon) (hlond : lon.dims = ["lon"]) (hcv : j.var ∉ ["time", "lat", "lon"])
    {g : NcFile F} (hg : spiFitting w.files j (spiTrim j d) = .ok g) (hgf : ∀ p ∈ g, p.2.dims = [p.1] ∨ p.2.dims = ["lat", "lon", u])
    (hdv : ∀ d', List.lookup "time" d' = some t → ∃ v, dailyValues yearOf j.per d' { x with data := mm } = .ok v) :
    ∃ ds sh, spiPrepare yearOf lower j w = .ok ((spiTrim j d).put j.var { x with data := mm }, g, ds, sh) := by
  have hud : u = "month" ∨ u = "day" := by cases hper : j.per <;> rw [hper] at hu <;> cases hu <;> simp
  have h1 : openFile w.files (some j.file) = .ok d := by unfold openFile; simp only [hopen]
  have h2 : firstYear yearOf (spiTrim j d) = .ok (yearOf t0) := by
    unfold firstYear NcFile.get getIdx
    rw [trim_coord ht htd]
    cases htdat : t.data with
    | nil => rw [htdat] at ht0; simp at ht0
    | cons q l =>
      rw [htdat] at ht0
      cases ht0
      simp only [bind, Except.bind, htdat]
      rfl
  have h3 : (spiTrim j d).get j.var = .ok x := by unfold NcFile.get; rw [trim_var hx]
  have h4 : convertVar lower convertPrecip x = .ok { x with data := mm } := by unfold convertVar; rw [hun]; simp only [bind, Except.bind, hmm]; rfl
  have lx : List.lookup j.var ((spiTrim j d).put j.var { x with data := mm }) = some { x with data := mm } := ncput_same _ _ _
  simp only [List.mem_cons, List.not_mem_nil, or_false, not_or] at hcv
  have lk : ∀ (k : String) (y : NcVar F), List.lookup k d = some y → y.dims = [k] → k ≠ j.var → List.lookup k ((spiTrim j d).put j.var { x with data := mm }) = some y := by
    intro k y e1 e2 e3
    rw [ncput_other _ _ e3]
    exact trim_coord e1 e2
  have lt := lk "time" t ht htd (Ne.symm hcv.1)
  have la := lk "lat" lat hlat hlatd (Ne.symm hcv.2.1)
  have lo := lk "lon" lon hlon hlond (Ne.symm hcv.2.2)
  have h5 : ((spiTrim j d).put j.var { x with data := mm }).get j.var = .ok { x with data := mm } := by unfold NcFile.get; rw [lx]
  obtain ⟨v, hv⟩ := hdv _ lt
  obtain ⟨sh, hsh⟩ := dropFitting_exists hud hgf (w.shared.put j.var v)
  have h6 : spiDrop yearOf j ((spiTrim j d).put j.var { x with data := mm }) g w.shared = .ok sh := by
    unfold spiDrop
    rw [hit]
    simp only
    unfold spiDropGrid
    rw [h5]
    simp only [bind, Except.bind, hxd]
    rw [if_pos (by decide)]
    rw [hxd] at hv
    rw [hv]
    exact hsh
  have h7 : ∃ shape, spiOutShape j ((spiTrim j d).put j.var { x with data := mm }) (yearOf t0) = .ok shape := by
    unfold spiOutShape
    cases hper : j.per with
    | monthly => simp only [h5, bind, Except.bind]; exact ⟨_, rfl⟩
    | daily =>
      have e1 : ((spiTrim j d).put j.var { x with data := mm }).get "time" = .ok t := by unfold NcFile.get; rw [lt]
      have e2 : ((spiTrim j d).put j.var { x with data := mm }).get "lat" = .ok lat := by unfold NcFile.get; rw [la]
      have e3 : ((spiTrim j d).put j.var { x with data := mm }).get "lon" = .ok lon := by unfold NcFile.get; rw [lo]
      simp only [e1, e2, e3, bind, Except.bind]
      exact ⟨_, rfl⟩
    | other => rw [hper] at hu; cases hu
  obtain ⟨shape, h7⟩ := h7
  refine ⟨yearOf t0, sh.put keyResult (resultArray sh shape), ?_⟩
  unfold spiPrepare
  rw [h1]
  simp only [bind, Except.bind, hg, h2, h3, h4, h6, h7]
  rfl

theorem spiPrepare_exists {yearOf : F → Int} {lower : String → String} {j : SpiJob} {w : World F} {u : String} (hu : j.per.unit = .ok u) (hload : j.load = none) (hit : j.inputType = .grid)
    {d : NcFile F} {x t lat lon : NcVar F} {t0 : F} (hopen : w.files j.file = some d) (hx : List.lookup j.var d = some x) (hxd : x.dims = ["lat", "lon", "time"])
    {un : String} {mm : List F} (hun : x.units = some un) (hmm : convertPrecip (lower un) x.data = .ok mm)
    (ht : List.lookup "time" d = some t) (htd : t.dims = ["time"]) (ht0 : t.data.head? = some t0) (hlat : List.lookup "lat" d = some lat) (hlatd : lat.dims = ["lat"]) (hlatu : lat.units ≠ none)
    (hlatn : lat.data ≠ []) (hlon : List.lookup "lon" d = some lon) (hlond : lon.dims = ["lon"]) (hlonu : lon.units ≠ none) (hlonn : lon.data ≠ []) (hcv : j.var ∉ ["time", "lat", "lon"])
    (hdv : ∀ d', List.lookup "time" d' = some t → ∃ v, dailyValues yearOf j.per d' { x with data := mm } = .ok v) :
    ∃ d' fitting ds sh, spiPrepare yearOf lower j w = .ok (d', fitting, ds, sh) ∧ FitFile u fitting ∧
      (∀ s ∈ j.scales, ∀ v ∈ fittingVariables, ∃ y, List.lookup (spiFitName u s v) fitting = some y ∧ y.shape = [lat.data.length, lon.data.length, j.per.steps]) ∧
      d' = (spiTrim j d).put j.var { x with data := mm } := by
  obtain ⟨g, hg, hgf, hgs⟩ := spiFitting_exists (fs := w.files) (d := spiTrim j d) hu hload (trim_coord hlat hlatd) hlatd hlatu hlatn (trim_coord hlon hlond) hlond hlonu hlonn
  obtain ⟨ds, sh, h⟩ := spiPrepare_of hu hit hopen hx hxd hun hmm ht htd ht0 hlat hlatd hlon hlond hcv hg (fun p hp => (hgf.1 p hp).imp id And.left) hdv
  exact ⟨_, g, ds, sh, h, hgf, hgs, rfl⟩

/-! ## The whole run -/

theorem buildSpiGrid_exists {per : Periodicity} {ds : Int} {d : NcFile F} {lat lon time : NcVar F} (hc : ∀ p ∈ d, p.2.dims = [p.1] → p.1 ∈ ["lat", "lon", "time"])
    (hlat : List.lookup "lat" d = some lat) (hlatd : lat.dims = ["lat"]) (hlatu : lat.units ≠ none)
    (hlatn : lat.data ≠ []) (hlon : List.lookup "lon" d = some lon) (hlond : lon.dims = ["lon"]) (hlonu : lon.units ≠ none) (hlonn : lon.data ≠ [])
    (ht : List.lookup "time" d = some time) (htd : time.dims = ["time"]) (name : String) {res v : Arr F}
    (hv : spiOutValues per ds time.data.length res = .ok v) (hvs : v.shape = [lat.data.length, lon.data.length, time.data.length]) : ∃ new, buildSpiGrid per ds d name res = .ok new := by
  have coord : ∀ (k : String) (x : NcVar F), List.lookup k d = some x → x.units ≠ none → x.data ≠ [] → spiCoord d k = .ok x := by
    intro k x h1 h2 h3
    unfold spiCoord NcFile.attr
    rw [h1]
    obtain ⟨un, hun⟩ := Option.ne_none_iff_exists'.1 h2
    simp only [bind, Except.bind, List.isEmpty_iff, h3, if_false, hun]
    rfl
  have h3 : d.attr "time" = .ok time := by unfold NcFile.attr; rw [ht]
  unfold buildSpiGrid
  rw [coord _ _ hlat hlatu hlatn, coord _ _ hlon hlonu hlonn, h3]
  simp only [bind, Except.bind, hv]
  have hall : ((coordsOf d).all (fun p => decide (p.1 ∈ ["lat", "lon", "time"])) = true) ∧ lat.dims = ["lat"] ∧ lon.dims = ["lon"] ∧ time.dims = ["time"] ∧ v.shape = [lat.data.length, lon.data.length, time.data.length] := by
    refine ⟨?_, hlatd, hlond, htd, hvs⟩
    rw [List.all_eq_true]
    intro p hp
    unfold coordsOf at hp
    rw [List.mem_filter] at hp
    exact decide_eq_true (hc p hp.1 (by simpa using hp.2))
  rw [if_pos hall]
  exact ⟨_, rfl⟩

variable [FloatLaws F]

/-- the arguments of a run are accepted and the input is prepared -/
theorem spi_accepts {yearOf : F → Int} {lower : String → String} {a : SpiArgs} {w : World F} {d : NcFile F} {x t lat lon : NcVar F} {A B N : Nat} {mm : List F} {y0 : Int}
    (h : SpiSource lower yearOf a w d x t lat lon A B N mm y0) {scales : List Int} (hs : a.scales = some scales) (hpos : ∀ s ∈ scales, 0 ≤ s) (h1 : validateSave w.files a = .ok ())
    (h2 : validateLoad w.files a = .ok ()) {f : String} (hf : a.netcdfPrecip = some f) (hfd : w.files f = some d) :
    spiValidateArgs w.files a = .ok .grid ∧ prepareFile w.files a.netcdfPrecip a.varNamePrecip = .ok f := by
  obtain ⟨v, hv, hx, hres, hfv⟩ := h.input.var
  obtain ⟨hdims, hshape, hwf⟩ := h.input.grid
  have h3 : openFile w.files (some f) = .ok d := by unfold openFile; simp only [hfd]
  constructor
  · have h4 : d.require (some v) = .ok x := by unfold NcFile.require; simp only [hx]
    have h5 : inputTypeOf x.dims = .ok .grid := by rw [hdims]; decide
    unfold spiValidateArgs
    rw [h1, h2]
    simp only [bind, Except.bind, hf, hv, h3, h4, h5, hs]
    rw [if_neg]
    intro hany
    obtain ⟨s, hsm, hsn⟩ := List.any_eq_true.1 hany
    have := hpos s hsm
    simp at hsn
    omega
  · unfold prepareFile
    have h4 : d.getOpt (some v) = .ok x := by unfold NcFile.getOpt NcFile.get; simp only [hx]
    have h5 : expectedDims ["lat", "lon", "time"] = .ok ["lat", "lon", "time"] := by decide
    have h6 : sameDims ["lat", "lon", "time"] ["lat", "lon", "time"] = true := by decide
    rw [hf, hv, h3]
    simp only [bind, Except.bind, h4, hdims, h5, h6, if_true]
    rfl

/-- the part of a run on a usable input before the loop over the scales -/
theorem spiRun_start_gen {yearOf : F → Int} {lower : String → String} (cs ce : Int) (base : String) (wk : Nat) {a : SpiArgs} {w : World F}
    {d : NcFile F} {x t lat lon : NcVar F} {A B N : Nat} {mm : List F} {y0 : Int} (h : SpiUsable lower yearOf a w d x t lat lon A B N mm y0)
    {scales : List Int} (hs : a.scales = some scales) (hpos : ∀ s ∈ scales, 0 ≤ s) {u : String} (hu : a.periodicity.unit = .ok u) {n : Nat} {S : Nat → Nat → List F} {shape : List Nat}
    (hdv : ∀ d', List.lookup "time" d' = some t → ∃ v, dailyValues yearOf a.periodicity d' { x with data := mm } = .ok v)
    (hS : ∀ vals, SpiValues yearOf a.periodicity t A B N mm vals → vals.shape = [A, B, n] ∧ vals.data.length = A * (B * n) ∧ ∀ i < A, ∀ k < B, seriesAt B n i k vals.data = S i k)
    (hsp : SpiShape a.periodicity x t lat lon y0 = shape) (hsl : shape.foldr (· * ·) 1 = A * (B * n))
    (hov : ∀ rdat : List F, rdat.length = A * (B * n) → ∃ v, spiOutValues a.periodicity y0 N ⟨shape, rdat⟩ = .ok v ∧ v.shape = [A, B, N]) :
    ∃ f d' fitting sh, spiValidateArgs w.files a = .ok .grid ∧ prepareFile w.files a.netcdfPrecip a.varNamePrecip = .ok f ∧
      spiPrepare yearOf lower (spiJob a .grid f cs ce base wk) w = .ok (d', fitting, y0, sh) ∧
      List.lookup "time" d' = some t ∧ List.lookup "lat" d' = some lat ∧ List.lookup "lon" d' = some lon ∧
      Live (spiJob a .grid f cs ce base wk) u scales A B n shape S [] sh ∧
      (∀ s, ∀ p ∈ fittingVariables, (spiJob a .grid f cs ce base wk).var ≠ spiFitName u s p) ∧ (spiJob a .grid f cs ce base wk).var ≠ keyResult ∧
      (∀ (name : String) (rdat : List F), rdat.length = A * (B * n) → ∃ new, buildSpiGrid a.periodicity y0 d' name ⟨shape, rdat⟩ = .ok new) ∧
      ∀ s ∈ scales, ∀ v ∈ fittingVariables, ∃ y, List.lookup (spiFitName u s v) fitting = some y ∧ y.shape = [A, B, a.periodicity.steps] := by
  obtain ⟨f, hf, hfd⟩ := h.input.file
  obtain ⟨v, hv, hx, hres, hfv⟩ := h.input.var
  obtain ⟨hdims, hshape, hwf⟩ := h.input.grid
  obtain ⟨un, hun, hmm⟩ := h.units
  obtain ⟨t0, ht0, rfl⟩ := h.first
  obtain ⟨pA, pB⟩ := h.places
  simp only [List.mem_cons, List.not_mem_nil, or_false, not_or] at hres
  have hvj : (spiJob a .grid f cs ce base wk).var = v := by show a.varNamePrecip.getD "" = _; rw [hv]; rfl
  have hscj : (spiJob a .grid f cs ce base wk).scales = scales := by show a.scales.getD [] = _; rw [hs]; rfl
  have hvar : ∀ s, ∀ p ∈ fittingVariables, (spiJob a .grid f cs ce base wk).var ≠ spiFitName u s p := by
    intro s p hp
    rw [hvj, fittingName_eq hu]
    exact hfv p hp s _
  have hvk : (spiJob a .grid f cs ce base wk).var ≠ keyResult := by rw [hvj]; exact hres.2.2.2
  have hlatn : lat.data ≠ [] := by intro e; have := h.input.lat.2.2; rw [e] at this; simp at this; omega
  have hlonn : lon.data ≠ [] := by intro e; have := h.input.lon.2.2; rw [e] at this; simp at this; omega
  -- the arguments are accepted
  obtain ⟨hval, hprepf⟩ := spi_accepts h.toSpiSource hs hpos (by
      unfold validateSave
      cases hsp : a.saveParams with
      | none => simp [truthy]
      | some q =>
        rcases h.save q hsp with hq | hq
        · simp [truthy, h.load, hq]
        · simp [truthy, h.load, hq]) (by unfold validateLoad; rw [h.load]) hf hfd
  -- the part before the loop
  obtain ⟨d', fitting, ds, sh, hprep, hff, hfs, hd'⟩ := spiPrepare_exists (yearOf := yearOf) (lower := lower) (j := spiJob a .grid f cs ce base wk) (w := w) hu h.load rfl hfd
    (by rw [hvj]; exact hx) hdims hun hmm h.input.time.1 h.input.time.2.1 ht0 h.input.lat.1 h.input.lat.2.1 h.coordUnits.1 hlatn h.input.lon.1 h.input.lon.2.1 h.coordUnits.2 hlonn
    (by rw [hvj]; simp [hres]) hdv
  obtain ⟨p1, p2, p3, p4, p5, p6, un', mm', vals, p7, p8, p9, p10, res, p11, p12, p13⟩ := spiPrepare_gen (j := spiJob a .grid f cs ce base wk) (u := u) h.fresh rfl
    (fun g hg => (by
      obtain ⟨g', hg', k1, _⟩ := spiFitting_exists (fs := w.files) (j := spiJob a .grid f cs ce base wk) (d := spiTrim (spiJob a .grid f cs ce base wk) d) hu h.load
        (trim_coord h.input.lat.1 h.input.lat.2.1) h.input.lat.2.1 h.coordUnits.1 hlatn (trim_coord h.input.lon.1 h.input.lon.2.1) h.input.lon.2.1 h.coordUnits.2 hlonn
      rw [hg] at hg'
      cases hg'
      exact k1.names)) hfd (by rw [hvj]; exact hx) hshape hwf h.input.time.1 h.input.time.2.1 ht0 h.input.lat.1 h.input.lat.2.1 h.input.lon.1 h.input.lon.2.1
    (by rw [hvj]; simp [hres]) hvar hvk (fun s v hv => keyResult_ne u s v hv) hprep
  subst p1
  rw [hun] at p7
  cases p7
  rw [hmm] at p8
  cases p8
  obtain ⟨s1, s2, s3⟩ := hS vals p9
  have p12 : res.shape = shape := p12.trans hsp
  have hlen : res.data.length = A * (B * n) := by rw [p13, p12, hsl]
  have hlive : Live (spiJob a .grid f cs ce base wk) u scales A B n shape S [] sh := by
    refine ⟨⟨⟨vals.data, by rw [← s1]; exact p10, s2, fun i hi k hk => (s3 i hi k hk).trans (cellAfter_nil _ _).symm⟩, res, p11, p12⟩, ⟨res, p11, hlen⟩, ?_⟩
    intro s hsm v' hv'
    obtain ⟨y, e1, e2⟩ := hfs s (by rw [hscj]; exact hsm) v' hv'
    refine ⟨_, p6 _ y e1 ?_ (fun e => keyResult_ne u s v' hv' e.symm), ?_⟩
    · intro hdy
      have hm := lookup_mem e1
      rcases hff.1 _ hm with k | k
      · obtain ⟨g', hg', _, _⟩ := spiFitting_exists (fs := w.files) (j := spiJob a .grid f cs ce base wk) (d := spiTrim (spiJob a .grid f cs ce base wk) d) hu h.load
          (trim_coord h.input.lat.1 h.input.lat.2.1) h.input.lat.2.1 h.coordUnits.1 hlatn (trim_coord h.input.lon.1 h.input.lon.2.1) h.input.lon.2.1 h.coordUnits.2 hlonn
        obtain ⟨_, k2⟩ := spiFitting_ok (j := spiJob a .grid f cs ce base wk) hu h.load (by rw [hscj]; rintro rfl; simp at hsm) p5
        obtain ⟨y', e3, e4⟩ := k2 s (by rw [hscj]; exact hsm) v' hv'
        rw [e1] at e3
        cases e3
        rw [e4] at hdy
        simp at hdy
      · rw [k.1] at hdy
        simp at hdy
    · rw [e2, h.input.lat.2.2, h.input.lon.2.2]
  have hcoords : ∀ p ∈ d', p.2.dims = [p.1] → p.1 ∈ ["lat", "lon", "time"] := by
    intro p hp hd
    rw [hd'] at hp
    rcases put_mem hp with rfl | ⟨hp, _⟩
    · simp [hdims] at hd
    · exact h.coords p (List.mem_of_mem_filter hp) hd
  refine ⟨f, d', fitting, sh, hval, hprepf, hprep, p2, p3, p4, hlive, hvar, hvk, ?_, ?_⟩
  · intro name rdat hr
    obtain ⟨v', e1, e2⟩ := hov rdat hr
    refine buildSpiGrid_exists (ds := yearOf t0) hcoords p3 h.input.lat.2.1 h.coordUnits.1 hlatn p4 h.input.lon.2.1 h.coordUnits.2 hlonn p2 h.input.time.2.1 name (v := v') ?_ ?_
    · rw [h.input.time.2.2]
      exact e1
    · rw [h.input.lat.2.2, h.input.lon.2.2, h.input.time.2.2]
      exact e2
  · intro s hsm v' hv'
    obtain ⟨y, e1, e2⟩ := hfs s (by rw [hscj]; exact hsm) v' hv'
    rw [h.input.lat.2.2, h.input.lon.2.2] at e2
    exact ⟨y, e1, e2⟩

/-- a run on a usable input -/
theorem spiRun_live_gen {E : Ext F} (hE : ExtNan E) {yearOf : F → Int} {lower : String → String} {cs ce : Int} {base : String} {wk : Nat} (hwk : 1 ≤ wk) {a : SpiArgs} {w : World F}
    {d : NcFile F} {x t lat lon : NcVar F} {A B N : Nat} {mm : List F} {y0 : Int} (h : SpiUsable lower yearOf a w d x t lat lon A B N mm y0)
    {scales : List Int} (hs : a.scales = some scales) (hpos : ∀ s ∈ scales, 0 ≤ s) {u : String} (hu : a.periodicity.unit = .ok u) {n : Nat} {S : Nat → Nat → List F} {shape : List Nat}
    (hdv : ∀ d', List.lookup "time" d' = some t → ∃ v, dailyValues yearOf a.periodicity d' { x with data := mm } = .ok v)
    (hS : ∀ vals, SpiValues yearOf a.periodicity t A B N mm vals → vals.shape = [A, B, n] ∧ vals.data.length = A * (B * n) ∧ ∀ i < A, ∀ k < B, seriesAt B n i k vals.data = S i k)
    (hsp : SpiShape a.periodicity x t lat lon y0 = shape) (hsl : shape.foldr (· * ·) 1 = A * (B * n))
    (hov : ∀ rdat : List F, rdat.length = A * (B * n) → ∃ v, spiOutValues a.periodicity y0 N ⟨shape, rdat⟩ = .ok v ∧ v.shape = [A, B, N]) (hn0 : shape.head? = some A) :
    ∃ f d' w0 w1 res w', spiMain E yearOf lower cs ce base wk a w = (res, w') ∧ w0.files = w.files ∧ w0.written = w.written ∧
      List.lookup "time" d' = some t ∧ List.lookup "lat" d' = some lat ∧ List.lookup "lon" d' = some lon ∧
      PairsOutcome E (spiJob a .grid f cs ce base wk) u y0 d' A B n shape S [] (toolPairs scales) w0 (res = .ok ()) w1 ∧
      ((res = .ok () ∧ ∃ g, spiSave (spiJob a .grid f cs ce base wk) g w1 = (.ok (), w')) ∨ ((∃ e, res = .error e) ∧ w' = w1)) := by
  obtain ⟨f, d', fitting, sh, hval, hprepf, hprep, p2, p3, p4, hlive, hvar, hvk, hbuild, hfits⟩ := spiRun_start_gen cs ce base wk h hs hpos hu hdv hS hsp hsl hov
  obtain ⟨pA, pB⟩ := h.places
  have hscj : (spiJob a .grid f cs ce base wk).scales = scales := by show a.scales.getD [] = _; rw [hs]; rfl
  obtain ⟨r, w1, hr, ho⟩ := spiScales_live hE (j := spiJob a .grid f cs ce base wk) (u := u) (ds := y0) (d := d') (SS := scales) h.load rfl hwk hvar hvk
    (fun s v hv => keyResult_ne u s v hv) pA pB (shape := shape) (n := n) (n0 := A) hn0 (S := S) (by
      intro sd rdat _ hr
      exact hbuild _ rdat hr) scales (done := []) (g := fitting) (w := { w with shared := sh }) (fun _ h => h) hlive (by
      intro s hsm v' hv'
      exact hfits s hsm v' hv')
  -- the run
  have hrun : spiMain E yearOf lower cs ce base wk a w = (do
      let g ← spiScales E (spiJob a .grid f cs ce base wk) u y0 d' (spiJob a .grid f cs ce base wk).scales fitting
      spiSave (spiJob a .grid f cs ce base wk) g : SE (World F) Unit) { w with shared := sh } := by
    unfold spiMain
    have g1 : (getFiles : SE (World F) (Files F)) w = (.ok w.files, w) := rfl
    have g2 : (SE.lift (spiValidateArgs w.files a) : SE (World F) InputType) w = (.ok .grid, w) := by rw [hval]; rfl
    have g3 : (SE.lift (prepareFile w.files a.netcdfPrecip a.varNamePrecip) : SE (World F) String) w = (.ok f, w) := by rw [hprepf]; rfl
    rw [SE.bind_run _ _ _ _ _ g1, SE.bind_run _ _ _ _ _ g2, SE.bind_run _ _ _ _ _ g3]
    unfold spiComputeWrite
    rw [hprep]
    have : (spiJob a .grid f cs ce base wk).per.unit = .ok u := hu
    rw [this]
  rw [hscj] at hrun
  cases r with
  | ok g =>
    rw [SE.bind_run _ _ _ _ _ hr] at hrun
    have hsv : ∃ w', spiSave (spiJob a .grid f cs ce base wk) g w1 = (.ok (), w') := by
      unfold spiSave
      split <;> exact ⟨_, rfl⟩
    obtain ⟨w', hw'⟩ := hsv
    refine ⟨f, d', { w with shared := sh }, w1, .ok (), w', hrun.trans hw', rfl, rfl, p2, p3, p4, ?_, .inl ⟨rfl, g, hw'⟩⟩
    have e : (∃ g', (Except.ok g : Res (NcFile F)) = .ok g') = ((Except.ok () : Res Unit) = .ok ()) := by simp
    rw [e] at ho
    exact ho
  | error e =>
    rw [SE.bind_err hr] at hrun
    refine ⟨f, d', { w with shared := sh }, w1, .error e, w1, hrun, rfl, rfl, p2, p3, p4, ?_, .inr ⟨⟨e, rfl⟩, rfl⟩⟩
    have e' : (∃ g', (Except.error e : Res (NcFile F)) = .ok g') = ((Except.error e : Res Unit) = .ok ()) := by simp
    rw [e'] at ho
    exact ho

/-- what monthly values need -/
theorem monthly_values {yearOf : F → Int} {lower : String → String} {a : SpiArgs} {w : World F} {d : NcFile F} {x t lat lon : NcVar F} {A B N : Nat} {mm : List F} {y0 : Int}
    (h : SpiSource lower yearOf a w d x t lat lon A B N mm y0) (hm : a.periodicity = .monthly) :
    (∀ d', List.lookup "time" d' = some t → ∃ v, dailyValues yearOf a.periodicity d' { x with data := mm } = .ok v) ∧
    (∀ vals, SpiValues yearOf a.periodicity t A B N mm vals → vals.shape = [A, B, N] ∧ vals.data.length = A * (B * N) ∧ ∀ i < A, ∀ k < B, seriesAt B N i k vals.data = seriesAt B N i k mm) ∧
    SpiShape a.periodicity x t lat lon y0 = [A, B, N] ∧
    ∀ rdat : List F, rdat.length = A * (B * N) → ∃ v, spiOutValues a.periodicity y0 N ⟨[A, B, N], rdat⟩ = .ok v ∧ v.shape = [A, B, N] := by
  obtain ⟨un, hun, hmm⟩ := h.units
  refine ⟨?_, ?_, ?_, ?_⟩
  · intro d' _
    rw [hm]
    exact ⟨_, rfl⟩
  · intro vals hv
    rw [hm] at hv
    simp only [SpiValues] at hv
    subst hv
    exact ⟨rfl, by show mm.length = _; rw [convertPrecip_length hmm, h.input.grid.2.2], fun _ _ _ _ => rfl⟩
  · rw [hm]
    exact h.input.grid.2.1
  · intro rdat _
    rw [hm]
    exact ⟨_, rfl, rfl⟩

theorem spiRun_start {yearOf : F → Int} {lower : String → String} (cs ce : Int) (base : String) (wk : Nat) {a : SpiArgs} {w : World F}
    {d : NcFile F} {x t lat lon : NcVar F} {A B N : Nat} {mm : List F} {y0 : Int} (h : SpiReady lower yearOf a w d x t lat lon A B N mm y0)
    {scales : List Int} (hs : a.scales = some scales) (hpos : ∀ s ∈ scales, 0 ≤ s) :
    ∃ f d' fitting sh, spiValidateArgs w.files a = .ok .grid ∧ prepareFile w.files a.netcdfPrecip a.varNamePrecip = .ok f ∧
      spiPrepare yearOf lower (spiJob a .grid f cs ce base wk) w = .ok (d', fitting, y0, sh) ∧
      List.lookup "time" d' = some t ∧ List.lookup "lat" d' = some lat ∧ List.lookup "lon" d' = some lon ∧
      Live (spiJob a .grid f cs ce base wk) "month" scales A B N [A, B, N] (fun i k => seriesAt B N i k mm) [] sh ∧
      (∀ s, ∀ p ∈ fittingVariables, (spiJob a .grid f cs ce base wk).var ≠ spiFitName "month" s p) ∧ (spiJob a .grid f cs ce base wk).var ≠ keyResult ∧
      (∀ (name : String) (rdat : List F), rdat.length = A * (B * N) → ∃ new, buildSpiGrid a.periodicity y0 d' name ⟨[A, B, N], rdat⟩ = .ok new) ∧
      ∀ s ∈ scales, ∀ v ∈ fittingVariables, ∃ y, List.lookup (spiFitName "month" s v) fitting = some y ∧ y.shape = [A, B, a.periodicity.steps] := by
  obtain ⟨m1, m2, m3, m4⟩ := monthly_values h.toSpiSource h.monthly
  exact spiRun_start_gen cs ce base wk h.toSpiUsable hs hpos (by rw [h.monthly]; rfl) m1 m2 m3 (by simp) m4

/-- a run on a usable monthly input -/
theorem spiRun_live {E : Ext F} (hE : ExtNan E) {yearOf : F → Int} {lower : String → String} {cs ce : Int} {base : String} {wk : Nat} (hwk : 1 ≤ wk) {a : SpiArgs} {w : World F}
    {d : NcFile F} {x t lat lon : NcVar F} {A B N : Nat} {mm : List F} {y0 : Int} (h : SpiReady lower yearOf a w d x t lat lon A B N mm y0)
    {scales : List Int} (hs : a.scales = some scales) (hpos : ∀ s ∈ scales, 0 ≤ s) :
    ∃ f d' w0 w1 res w', spiMain E yearOf lower cs ce base wk a w = (res, w') ∧ w0.files = w.files ∧ w0.written = w.written ∧
      List.lookup "time" d' = some t ∧ List.lookup "lat" d' = some lat ∧ List.lookup "lon" d' = some lon ∧
      PairsOutcome E (spiJob a .grid f cs ce base wk) "month" y0 d' A B N [A, B, N] (fun i k => seriesAt B N i k mm) [] (toolPairs scales) w0 (res = .ok ()) w1 ∧
      ((res = .ok () ∧ ∃ g, spiSave (spiJob a .grid f cs ce base wk) g w1 = (.ok (), w')) ∨ ((∃ e, res = .error e) ∧ w' = w1)) := by
  obtain ⟨m1, m2, m3, m4⟩ := monthly_values h.toSpiSource h.monthly
  exact spiRun_live_gen hE hwk h.toSpiUsable hs hpos (by rw [h.monthly]; rfl) m1 m2 m3 (by simp) m4 rfl

end CI
