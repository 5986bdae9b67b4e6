import Verif.Lemmas.SpiLoad
import Verif.Lemmas.SpiLiveDays
import Verif.Props.SpiBasic
import Verif.Props.SpiTool

/-!
# Lemmas about when a run of the SPI tool with loaded parameters finishes
-/

namespace CI
open Spec CI.Props

variable {F : Type} [FloatOps F]

/-- with parameters for all calendar steps the SPI of a series can always be computed -/
theorem spi_given (E : Ext F) {l : List F} (hl : l ≠ []) {s : Int} (hs : 1 ≤ s) {dist : Distribution} (hd : dist = .gamma ∨ dist = .pearson) {per : Periodicity} {u : String}
    (hu : per.unit = .ok u) (ds cs ce : Int) {ps : List (List F)} (hp : ps.length = (distVars dist).length) (hlen : ∀ q ∈ ps, q.length = per.steps) :
    ∃ out, spi E (Arr.of1d l) s dist ds cs ce per (some ((distVars dist).zip (ps.map some))) = .ok out := by
  unfold spi
  rw [if_pos (.inr rfl)]
  split
  · exact ⟨_, rfl⟩
  obtain ⟨m, hm⟩ := amin_ok (Arr.of1d l).data hl
  have hne : (if flt m (lit 0) then (Arr.of1d l).data.map (npClipMin (lit 0)) else (Arr.of1d l).data) ≠ [] := by
    split
    · exact fun e => hl (List.map_eq_nil_iff.1 e)
    · exact hl
  obtain ⟨sc, hsc⟩ := sumToScale_total _ s hs hne
  obtain ⟨v, n, hv, hvs⟩ : ∃ v n, (match per with
        | .monthly => reshapeTo2d (Arr.of1d sc) 12
        | .daily => reshapeTo2d (Arr.of1d sc) 366
        | .other => .error .valueError : Res (Arr F)) = .ok v ∧ v.shape = [n, per.steps] := by
    cases per with
    | monthly => exact ⟨_, _, rfl, rfl⟩
    | daily => exact ⟨_, _, rfl, rfl⟩
    | other => cases hu
  have h12 : per.steps = 12 ∨ per.steps = 366 := by cases per <;> first | exact .inl rfl | exact .inr rfl | cases hu
  have hval : validateArray v per = .ok v := by
    obtain ⟨sh, dat⟩ := v
    simp only at hvs
    subst hvs
    exact validateArray_2d _ _ _ _ h12
  rcases hd with rfl | rfl
  · obtain ⟨al, be, rfl⟩ : ∃ al be, ps = [al, be] := by
      match ps, hp with
      | [x, y], _ => exact ⟨x, y, rfl⟩
    have ht : ∃ r, transformFittedGamma E v ds cs ce per (some al) (some be) = .ok r := by
      unfold transformFittedGamma
      split
      · exact ⟨_, rfl⟩
      · rw [hval]
        simp only [bind, Except.bind, hvs, pure, Except.pure, bcast_length _ _ (hlen al (by simp)), bcast_length _ _ (hlen be (by simp))]
        exact ⟨_, rfl⟩
    obtain ⟨r, hr⟩ := ht
    have hg : getGammaArgs (some ((distVars .gamma).zip ([al, be].map some))) = .ok (some al, some be) := rfl
    simp only [bind, Except.bind, hm, hsc, hg]
    cases per with
    | monthly => simp only at hv ⊢; simp only [hv, hr]; exact ⟨_, rfl⟩
    | daily => simp only at hv ⊢; simp only [hv, hr]; exact ⟨_, rfl⟩
    | other => cases hu
  · obtain ⟨p0, lo, sl, sk, rfl⟩ : ∃ p0 lo sl sk, ps = [p0, lo, sl, sk] := by
      match ps, hp with
      | [x, y, z, t], _ => exact ⟨x, y, z, t, rfl⟩
    have ht : ∃ r, transformFittedPearson E (lmomentsFit E) v ds cs ce per ⟨some p0, some lo, some sl, some sk⟩ = .ok r := by
      unfold transformFittedPearson
      simp only [Option.isNone_some, Bool.or_self, Bool.false_and, Bool.false_eq_true, if_false]
      split
      · exact ⟨_, rfl⟩
      · rw [hval]
        simp only [bind, Except.bind, hvs, pure, Except.pure, bcast_length _ _ (hlen p0 (by simp)), bcast_length _ _ (hlen lo (by simp)), bcast_length _ _ (hlen sl (by simp)),
          bcast_length _ _ (hlen sk (by simp))]
        exact ⟨_, rfl⟩
    obtain ⟨r, hr⟩ := ht
    have hg : getPearsonArgs (some ((distVars .pearson).zip ([p0, lo, sl, sk].map some))) = .ok ⟨some p0, some lo, some sl, some sk⟩ := rfl
    simp only [bind, Except.bind, hm, hsc, hg]
    cases per with
    | monthly => simp only at hv ⊢; simp only [hv, hr]; exact ⟨_, rfl⟩
    | daily => simp only at hv ⊢; simp only [hv, hr]; exact ⟨_, rfl⟩
    | other => cases hu

variable [FloatLaws F]

/-- the six arrays of a scale are there, complete -/
def LoadedArrays (u : String) (p a b : Nat) (scale : Int) (sh : Dict (Arr F)) : Prop :=
  ∀ v ∈ fittingVariables, ∃ y, sh (spiFitName u scale v) = some ⟨[a, b, p], y⟩ ∧ y.length = a * (b * p)

/-- one scale and distribution -/
theorem spiPair_load_exists {E : Ext F} (hE : ExtNan E) {j : SpiJob} {f0 : String} (hload : j.load = some f0) (hit : j.inputType = .grid) (hw : 1 ≤ j.workers) {u : String}
    (hu : j.per.unit = .ok u) {ds scale : Int} (hs : 1 ≤ scale) {d : NcFile F} {dist : Distribution} (hd : dist = .gamma ∨ dist = .pearson) {w : World F}
    (hres : j.var ≠ keyResult) {a b n n0 : Nat} (hn : 0 < n)
    {shape : List Nat} (hn0 : shape.head? = some n0) {S : Nat → Nat → List F} (hc : CellsAre j.var a b n shape S w.shared) (hlen : ∃ res, w.shared keyResult = some res ∧ res.data.length = a * (b * n))
    (hP : LoadedArrays u j.per.steps a b scale w.shared)
    (hbuild : ∀ rdat : List F, rdat.length = a * (b * n) → ∃ new, buildSpiGrid j.per ds d (spiOutName dist scale u) ⟨shape, rdat⟩ = .ok new) :
    ∃ w', spiPair E j u ds d (scale, dist) w = (.ok (), w') ∧ w'.written = w.written ++ [(spiOutFile j.base u scale dist, spiOutName dist scale u)] ∧
      ∃ res, w'.shared keyResult = some res ∧ res.data.length = a * (b * n) := by
  obtain ⟨⟨dat, c1, c2, c3⟩, res0, c4, c5⟩ := hc
  obtain ⟨res, c6, c7⟩ := hlen
  rw [c4] at c6
  cases c6
  obtain ⟨fits, hfits⟩ := mapM_exists (l := distVars dist) (f := fun v => w.shared.at (spiFitName u scale v)) (fun v hv => by
    obtain ⟨y, e1, _⟩ := hP v (distVars_fitting hv)
    exact ⟨_, dictAt_some e1⟩)
  have hfit : ∀ x ∈ fits, ∃ y, x = ⟨[a, b, j.per.steps], y⟩ ∧ y.length = a * (b * j.per.steps) := by
    intro x hx
    obtain ⟨v, hv, h2⟩ := mapM_mem hfits x hx
    obtain ⟨y, e1, e2⟩ := hP v (distVars_fitting hv)
    rw [dictAt_some e1] at h2
    cases h2
    exact ⟨y, rfl, e2⟩
  obtain ⟨sh2, h2⟩ := spiStage_exists (E := E) (ds := ds) (scale := scale) (dist := dist) hit hw c1 c2 c4 (by rw [c5]; exact hn0) c7 hfits (fun i hi k hk => by
    have hat : fits.mapM (fun x => fitAt x i k) = .ok (fits.map (fun x => seriesAt b j.per.steps i k x.data)) := by
      rw [mapM_eq_map (g := fun x => seriesAt b j.per.steps i k x.data)]
      intro x hx
      obtain ⟨y, rfl, _⟩ := hfit x hx
      simp only [fitAt, hi, hk, and_self, if_true]
      rfl
    have hsl := seriesAt_length c2 hi hk
    obtain ⟨out, ho⟩ := spi_given E (l := seriesAt b n i k dat) (by intro e; rw [e] at hsl; simp at hsl; omega) hs hd hu ds j.calStart j.calEnd
      (ps := fits.map (fun x => seriesAt b j.per.steps i k x.data)) (by rw [List.length_map, mapM_len hfits]) (by
        intro q hq
        obtain ⟨x, hx, rfl⟩ := List.mem_map.1 hq
        obtain ⟨y, rfl, hy⟩ := hfit x hx
        exact seriesAt_length hy hi hk)
    refine ⟨_, out, hat, ho, ?_⟩
    rw [C10_size E hE _ _ _ _ _ _ _ _ _ ho]
    exact hsl)
  obtain ⟨_, res', _, dat', rdat, g1, g1', g2, g3, g4, g5, g6, g7, g8⟩ := spiStage_ok hres c1 c2 h2
  rw [c4] at g1
  cases g1
  rw [c5] at g5
  obtain ⟨new, hnew⟩ := hbuild rdat g6
  have hcomp : spiCompute E j u ds d scale dist w.shared = .ok (sh2, spiOutName dist scale u, new) := by
    unfold spiCompute spiFit
    rw [hload]
    simp only [bind, Except.bind, h2, dictAt_some g5, hnew]
    rfl
  refine ⟨_, by unfold spiPair; rw [hcomp], rfl, ⟨_, rdat⟩, g5, g6⟩

/-- the loop over the scales -/
theorem spiScales_load_exists {E : Ext F} (hE : ExtNan E) {j : SpiJob} {f0 : String} (hload : j.load = some f0) (hit : j.inputType = .grid) (hw : 1 ≤ j.workers) {u : String}
    (hu : j.per.unit = .ok u) {ds : Int} {d : NcFile F} {SS : List Int}
    (hvar : ∀ s, ∀ v ∈ fittingVariables, j.var ≠ spiFitName u s v) (hres : j.var ≠ keyResult) (hfr : ∀ s, ∀ v ∈ fittingVariables, keyResult ≠ spiFitName u s v) {a b n n0 : Nat}
    (hn : 0 < n) {shape : List Nat} (hn0 : shape.head? = some n0)
    (hbuild : ∀ (sd : Int × Distribution) (rdat : List F), rdat.length = a * (b * n) → ∃ new, buildSpiGrid j.per ds d (spiOutName sd.2 sd.1 u) ⟨shape, rdat⟩ = .ok new) (ss : List Int) :
    ∀ {S : Nat → Nat → List F} {done : List (Int × Distribution)} {g : NcFile F} {w : World F}, (∀ s ∈ ss, 1 ≤ s ∧ s ∈ SS) → CellsAre j.var a b n shape (fun i k => cellAfter (S i k) j.per done) w.shared →
      (∃ res, w.shared keyResult = some res ∧ res.data.length = a * (b * n)) → (∀ s ∈ SS, LoadedArrays u j.per.steps a b s w.shared) →
      (∀ s ∈ SS, ∀ v ∈ fittingVariables, ∃ y, List.lookup (spiFitName u s v) g = some y ∧ y.shape = [a, b, j.per.steps]) →
      ∃ g' w', spiScales E j u ds d ss g w = (.ok g', w') ∧
        w'.written = w.written ++ (toolPairs ss).map (fun sd => (spiOutFile j.base u sd.1 sd.2, spiOutName sd.2 sd.1 u)) ∧
        ∀ f, (∀ s ∈ ss, f ≠ spiOutFile j.base u s .gamma ∧ f ≠ spiOutFile j.base u s .pearson) → w'.files f = w.files f := by
  induction ss with
  | nil =>
    intro S done g w _ _ _ _ _
    exact ⟨g, w, rfl, by simp [toolPairs], fun _ _ => rfl⟩
  | cons s ss ih =>
    intro S done g w hss hc hr hL hg
    obtain ⟨hs1, hsS⟩ := hss s (by simp)
    obtain ⟨P, hP⟩ : ∃ P : String → Arr F, ∀ v ∈ fittingVariables, w.shared (spiFitName u s v) = some (P v) := by
      refine ⟨fun v => (w.shared (spiFitName u s v)).getD ⟨[], []⟩, fun v hv => ?_⟩
      obtain ⟨y, e, _⟩ := hL s hsS v hv
      simp only [e, Option.getD_some]
    have keepfit : ∀ (w1 w2 : World F), (∀ key, key ≠ j.var → key ≠ keyResult → w2.shared key = w1.shared key) → ∀ s, ∀ v ∈ fittingVariables,
        w2.shared (spiFitName u s v) = w1.shared (spiFitName u s v) :=
      fun w1 w2 hk s v hv => hk _ (fun e => hvar s v hv e.symm) (fun e => hfr s v hv e.symm)
    obtain ⟨w1, h1, wr1, r1⟩ := spiPair_load_exists hE hload hit hw hu hs1 (dist := .gamma) (.inl rfl) (w := w) (d := d) (ds := ds) hres hn hn0 hc hr (hL s hsS) (fun r hr => hbuild (s, .gamma) r hr)
    obtain ⟨c1, _, fi1, fr1, _⟩ := spiPair_load hE hload hres hc hP h1
    have hL1 : ∀ s ∈ SS, LoadedArrays u j.per.steps a b s w1.shared := by
      intro s' hs' v hv
      rw [keepfit _ _ fr1 _ _ hv]
      exact hL s' hs' v hv
    have hP1 : ∀ v ∈ fittingVariables, w1.shared (spiFitName u s v) = some (P v) := fun v hv => by rw [keepfit _ _ fr1 _ _ hv]; exact hP v hv
    obtain ⟨w2, h2, wr2, r2⟩ := spiPair_load_exists hE hload hit hw hu hs1 (dist := .pearson) (.inr rfl) (w := w1) (d := d) (ds := ds) hres hn hn0 c1 r1 (hL1 s hsS) (fun r hr => hbuild (s, .pearson) r hr)
    obtain ⟨c2, _, fi2, fr2, _⟩ := spiPair_load hE hload hres c1 hP1 h2
    have hL2 : ∀ s ∈ SS, LoadedArrays u j.per.steps a b s w2.shared := by
      intro s' hs' v hv
      rw [keepfit _ _ fr2 _ _ hv]
      exact hL1 s' hs' v hv
    obtain ⟨g1, hd1⟩ := dumpFits_exists (u := u) (scale := s) (p := j.per.steps) (a := a) (b := b) (sh := w2.shared) (fun v hv => by
      obtain ⟨y, e, _⟩ := hL2 s hsS v hv
      exact ⟨_, e, rfl⟩) (hg s hsS)
    have hd2 : (fun w => (dumpFits u s w.shared g, w) : SE (World F) (NcFile F)) w2 = (.ok g1, w2) := by show (dumpFits u s w2.shared g, w2) = _; rw [hd1]
    obtain ⟨du1, du2⟩ := dumpFits_ok hd1
    obtain ⟨g', w', hr', ho, hff⟩ := ih (S := S) (done := done ++ [(s, .gamma)] ++ [(s, .pearson)]) (g := g1) (w := w2) (fun s' hs' => hss s' (by simp [hs'])) c2 r2 hL2 (by
      intro s' hs' v hv
      by_cases hk : ∃ v' ∈ fittingVariables, spiFitName u s' v = spiFitName u s v'
      · obtain ⟨v', hv', e⟩ := hk
        obtain ⟨x, old, _, e2, _, e4⟩ := du1 v' hv'
        obtain ⟨y, hy, hys⟩ := hg s hsS v' hv'
        rw [e2] at hy
        cases hy
        rw [e, e4]
        exact ⟨_, rfl, hys⟩
      · rw [du2 _ (fun v' hv' e => hk ⟨v', hv', e⟩)]
        exact hg s' hs' v hv)
    refine ⟨g', w', ?_, ?_, ?_⟩
    · unfold spiScales
      rw [SE.bind_run _ _ _ _ _ h1, SE.bind_run _ _ _ _ _ h2]
      exact (SE.bind_run _ _ _ _ _ hd2).trans hr'
    · rw [ho, wr2, wr1]
      simp [toolPairs]
    · intro f hf
      rw [hff f (fun s' hs' => hf s' (by simp [hs'])), fi2 f (hf s (by simp)).2, fi1 f (hf s (by simp)).1]

/-- validation of a file of parameters that has them all -/
theorem validateLoad_ok {fs : Files F} {a : SpiArgs} {f : String} (hl : a.loadParams = some f) {g : NcFile F} (hg : fs f = some g) {scales : List Int} (hs : a.scales = some scales) {u : String}
    (hu : a.periodicity.unit = .ok u) (hall : ∀ s ∈ scales, ∀ v ∈ fittingVariables, ∃ y, List.lookup (spiFitName u s v) g = some y) : validateLoad fs a = .ok () := by
  unfold validateLoad
  rw [hl]
  simp only
  split
  · rfl
  · rw [hg, hs]
    simp only
    rw [mapM_eq_map (g := fun vs => spiFitName u vs.2 vs.1) (fun vs _ => by rw [hu]; rfl)]
    simp only [bind, Except.bind]
    rw [if_neg]
    intro h
    obtain ⟨q, hq⟩ := List.exists_mem_of_length_pos h
    rw [List.mem_filter] at hq
    obtain ⟨hq, hn⟩ := hq
    obtain ⟨vs, hvs, rfl⟩ := List.mem_map.1 hq
    obtain ⟨v, hv, hvs⟩ := List.mem_flatMap.1 hvs
    obtain ⟨s, hs', rfl⟩ := List.mem_map.1 hvs
    obtain ⟨y, hy⟩ := hall s hs' v hv
    rw [hy] at hn
    simp at hn

/-- a run with loaded parameters -/
theorem spiRun_loads {E : Ext F} (hE : ExtNan E) {yearOf : F → Int} {lower : String → String} {cs ce : Int} {base : String} {wk : Nat} (hwk : 1 ≤ wk) {a : SpiArgs} {w : World F}
    {d : NcFile F} {x t lat lon : NcVar F} {A B N : Nat} {mm : List F} {y0 : Int} {scales : List Int} {g : NcFile F} (h : SpiLoads lower yearOf a w d x t lat lon A B N mm y0 scales g)
    (hs : a.scales = some scales) (hpos : ∀ s ∈ scales, 1 ≤ s) :
    ∃ u w', a.periodicity.unit = .ok u ∧ spiMain E yearOf lower cs ce base wk a w = (.ok (), w') ∧
      w'.written = w.written ++ (toolPairs scales).map (fun sd => (spiOutFile base u sd.1 sd.2, spiOutName sd.2 sd.1 u)) ∧
      ∀ f, (∀ s ∈ scales, f ≠ spiOutFile base u s .gamma ∧ f ≠ spiOutFile base u s .pearson) → w'.files f = w.files f := by
  have hsrc := h.toSpiSource
  obtain ⟨f, hf, hfd⟩ := h.input.file
  obtain ⟨v, hv, hx, hres, hfv⟩ := h.input.var
  obtain ⟨hdims, hshape, hwf⟩ := h.input.grid
  obtain ⟨un, hun, hmm⟩ := h.units
  obtain ⟨t0, ht0, rfl⟩ := h.first
  obtain ⟨pA, pB⟩ := h.places
  obtain ⟨pf, hload, hg⟩ := h.load
  have hN : 0 < N := by
    have := h.input.time.2.2
    rcases Nat.eq_zero_or_pos N with e | e
    · rw [e, List.length_eq_zero_iff] at this
      rw [this] at ht0
      simp at ht0
    · exact e
  -- monthly or daily
  obtain ⟨u, n, S, hn, hu, hud, hst, m1, m2, m3, m4⟩ : ∃ u n, ∃ S : Nat → Nat → List F, 0 < n ∧ a.periodicity.unit = .ok u ∧ (if a.periodicity = .daily then "day" else "month") = u ∧
      (if a.periodicity = .daily then 366 else 12) = a.periodicity.steps ∧
      (∀ d', List.lookup "time" d' = some t → ∃ v, dailyValues yearOf a.periodicity d' { x with data := mm } = .ok v) ∧
      (∀ vals, SpiValues yearOf a.periodicity t A B N mm vals → vals.shape = [A, B, n] ∧ vals.data.length = A * (B * n) ∧ ∀ i < A, ∀ k < B, seriesAt B n i k vals.data = S i k) ∧
      SpiShape a.periodicity x t lat lon (yearOf t0) = [A, B, n] ∧
      ∀ rdat : List F, rdat.length = A * (B * n) → ∃ v, spiOutValues a.periodicity (yearOf t0) N ⟨[A, B, n], rdat⟩ = .ok v ∧ v.shape = [A, B, N] := by
    rcases h.calendar with hm | ⟨Y, hy⟩
    · exact ⟨"month", N, _, hN, by rw [hm]; rfl, by rw [hm]; rfl, by rw [hm]; rfl, monthly_values hsrc hm⟩
    · exact ⟨"day", Y * 366, _, by have := hy.years; omega, by rw [hy.daily]; rfl, by rw [hy.daily]; rfl, by rw [hy.daily]; rfl, days_values hsrc hy⟩
  simp only [List.mem_cons, List.not_mem_nil, or_false, not_or] at hres
  have hvj : (spiJob a .grid f cs ce base wk).var = v := by show a.varNamePrecip.getD "" = _; rw [hv]; rfl
  have hscj : (spiJob a .grid f cs ce base wk).scales = scales := by show a.scales.getD [] = _; rw [hs]; rfl
  have hvar : ∀ s, ∀ p ∈ fittingVariables, (spiJob a .grid f cs ce base wk).var ≠ spiFitName u s p := by
    intro s p hp
    rw [hvj, fittingName_eq hu]
    exact hfv p hp s _
  have hvk : (spiJob a .grid f cs ce base wk).var ≠ keyResult := by rw [hvj]; exact hres.2.2.2
  have hlatn : lat.data ≠ [] := by intro e; have := h.input.lat.2.2; rw [e] at this; simp at this; omega
  have hlonn : lon.data ≠ [] := by intro e; have := h.input.lon.2.2; rw [e] at this; simp at this; omega
  have hpar : ParameterFile g (isDaily a.periodicity) scales A B a.periodicity.steps := by rw [← hst]; exact h.parameters
  obtain ⟨k1, k2⟩ := ParameterFile.fitNames hu hpar
  -- the arguments are accepted
  obtain ⟨hval, hprepf⟩ := spi_accepts hsrc hs (fun s hs => by have := hpos s hs; omega) (by unfold validateSave; rw [h.save]; rfl)
    (validateLoad_ok hload hg hs hu (fun s hs v hv => by obtain ⟨y, e, _⟩ := k2 s hs v hv; exact ⟨y, e⟩)) hf hfd
  -- the part before the loop
  have hfit : spiFitting w.files (spiJob a .grid f cs ce base wk) (spiTrim (spiJob a .grid f cs ce base wk) d) = .ok g := by
    unfold spiFitting
    rw [show (spiJob a .grid f cs ce base wk).load = some pf from hload]
    simp only
    unfold openFile
    simp only [hg]
  obtain ⟨ds, sh, hprep⟩ := spiPrepare_of (yearOf := yearOf) (lower := lower) (j := spiJob a .grid f cs ce base wk) (w := w) hu rfl hfd
    (by rw [hvj]; exact hx) hdims hun hmm h.input.time.1 h.input.time.2.1 ht0 h.input.lat.1 h.input.lat.2.1 h.input.lon.1 h.input.lon.2.1
    (by rw [hvj]; simp [hres]) hfit (fun p hp => by rw [← hud]; exact h.dimensions p hp) m1
  obtain ⟨p1, p2, p3, p4, p5, p6, un', mm', vals, p7, p8, p9, p10, res, p11, p12, p13⟩ := spiPrepare_gen (j := spiJob a .grid f cs ce base wk) (u := u) h.fresh rfl
    (fun g' hg' => by rw [hfit] at hg'; cases hg'; exact k1) hfd (by rw [hvj]; exact hx) hshape hwf h.input.time.1 h.input.time.2.1 ht0 h.input.lat.1 h.input.lat.2.1 h.input.lon.1 h.input.lon.2.1
    (by rw [hvj]; simp [hres]) hvar hvk (fun s v hv => keyResult_ne u s v hv) hprep
  subst p1
  rw [hun] at p7
  cases p7
  rw [hmm] at p8
  cases p8
  obtain ⟨s1, s2, s3⟩ := m2 vals p9
  have p12 : res.shape = [A, B, n] := p12.trans m3
  have hlen : res.data.length = A * (B * n) := by rw [p13, p12]; simp
  have hcells : CellsAre (spiJob a .grid f cs ce base wk).var A B n [A, B, n] (fun i k => cellAfter (S i k) (spiJob a .grid f cs ce base wk).per []) sh :=
    ⟨⟨vals.data, by rw [← s1]; exact p10, s2, fun i hi k hk => (s3 i hi k hk).trans (cellAfter_nil _ _).symm⟩, res, p11, p12⟩
  have hL : ∀ s ∈ scales, LoadedArrays u a.periodicity.steps A B s sh := by
    intro s hsm v' hv'
    obtain ⟨y, e1, e2, e3⟩ := k2 s hsm v' hv'
    refine ⟨y.data, by rw [← e3]; exact p6 _ y e1 e2 (fun e => keyResult_ne u s v' hv' e.symm), ?_⟩
    rw [← hst]
    exact h.complete s hsm v' hv' y (by rw [fittingName_eq hu] at e1; exact e1)
  have hcoords : ∀ p ∈ (spiTrim (spiJob a .grid f cs ce base wk) d).put (spiJob a .grid f cs ce base wk).var { x with data := mm }, p.2.dims = [p.1] → p.1 ∈ ["lat", "lon", "time"] := by
    intro p hp hd
    rcases put_mem hp with rfl | ⟨hp, _⟩
    · simp [hdims] at hd
    · exact h.coords p (List.mem_of_mem_filter hp) hd
  obtain ⟨g', w1, hr, hwr, hfr⟩ := spiScales_load_exists hE (j := spiJob a .grid f cs ce base wk) hload rfl hwk hu (ds := yearOf t0)
    (d := (spiTrim (spiJob a .grid f cs ce base wk) d).put (spiJob a .grid f cs ce base wk).var { x with data := mm }) (SS := scales) hvar hvk
    (fun s v hv => keyResult_ne u s v hv) hn (shape := [A, B, n]) (n0 := A) rfl (by
      intro sd rdat hrd
      obtain ⟨v', e1, e2⟩ := m4 rdat hrd
      refine buildSpiGrid_exists (ds := yearOf t0) hcoords p3 h.input.lat.2.1 h.coordUnits.1 hlatn p4 h.input.lon.2.1 h.coordUnits.2 hlonn p2 h.input.time.2.1 _ (v := v') ?_ ?_
      · rw [h.input.time.2.2]
        exact e1
      · rw [h.input.lat.2.2, h.input.lon.2.2, h.input.time.2.2]
        exact e2) scales (S := S) (done := []) (g := g) (w := { w with shared := sh }) (fun s hs => ⟨hpos s hs, hs⟩) hcells ⟨res, p11, hlen⟩ hL (fun s hsm v' hv' => by
      obtain ⟨y, e1, _, e3⟩ := k2 s hsm v' hv'
      exact ⟨y, e1, e3⟩)
  -- the run
  have hrun : spiMain E yearOf lower cs ce base wk a w = (do
      let g ← spiScales E (spiJob a .grid f cs ce base wk) u (yearOf t0) ((spiTrim (spiJob a .grid f cs ce base wk) d).put (spiJob a .grid f cs ce base wk).var { x with data := mm })
        (spiJob a .grid f cs ce base wk).scales g
      spiSave (spiJob a .grid f cs ce base wk) g : SE (World F) Unit) { w with shared := sh } := by
    unfold spiMain
    have g1 : (getFiles : SE (World F) (Files F)) w = (.ok w.files, w) := rfl
    have g2 : (SE.lift (spiValidateArgs w.files a) : SE (World F) InputType) w = (.ok .grid, w) := by rw [hval]; rfl
    have g3 : (SE.lift (prepareFile w.files a.netcdfPrecip a.varNamePrecip) : SE (World F) String) w = (.ok f, w) := by rw [hprepf]; rfl
    rw [SE.bind_run _ _ _ _ _ g1, SE.bind_run _ _ _ _ _ g2, SE.bind_run _ _ _ _ _ g3]
    unfold spiComputeWrite
    rw [hprep]
    have : (spiJob a .grid f cs ce base wk).per.unit = .ok u := hu
    rw [this]
  rw [hscj, SE.bind_run _ _ _ _ _ hr] at hrun
  have hsv : spiSave (spiJob a .grid f cs ce base wk) g' w1 = (.ok (), w1) := by
    unfold spiSave
    rw [show (spiJob a .grid f cs ce base wk).save = none from h.save]
  exact ⟨u, w1, hu, hrun.trans hsv, hwr, hfr⟩

end CI
