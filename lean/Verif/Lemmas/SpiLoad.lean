import Verif.Lemmas.SpiRun

/-!
# Lemmas about runs of the SPI tool with loaded parameters
-/

namespace CI
open Spec CI.Props

variable {F : Type} [FloatOps F] [FloatLaws F]

theorem mapM_fun {α β : Type} {f : α → Res β} {l : List α} {r : List β} {g : α → β} (h : l.mapM f = .ok r) (hg : ∀ x ∈ l, f x = .ok (g x)) : r = l.map g := by
  rw [mapM_eq_map hg] at h
  cases h
  rfl

/-- the file of a scale and distribution was built from the SPI values of the series `cell` with the parameters in the arrays `P` -/
def LoadHolds (E : Ext F) (j : SpiJob) (u : String) (ds : Int) (d : NcFile F) (a b n : Nat) (shape : List Nat) (scale : Int) (dist : Distribution) (cell : Nat → Nat → List F)
    (P : String → Arr F) (fs : Files F) : Prop :=
  ∃ rdat new, fs (spiOutFile j.base u scale dist) = some new ∧ rdat.length = a * (b * n) ∧ buildSpiGrid j.per ds d (spiOutName dist scale u) ⟨shape, rdat⟩ = .ok new ∧
    ∀ i < a, ∀ k < b, ∃ ps, (distVars dist).mapM (fun v => fitAt (P v) i k) = .ok ps ∧
      spi E (Arr.of1d (cell i k)) scale dist ds j.calStart j.calEnd j.per (some ((distVars dist).zip (ps.map some))) = .ok (seriesAt b n i k rdat)

/-- with loaded parameters a series is overwritten as with fitted ones -/
theorem writes_loaded (s : List F) (scale : Int) (dist : Distribution) (per : Periodicity) (ps : List (List F)) (hl : ps.length = (distVars dist).length) :
    overwritten (spiWrites (Arr.of1d s) scale dist per (some ((distVars dist).zip (ps.map some)))) s = overwritten (fitOverwrites dist s scale per) s := by
  congr 1
  rw [Bool.eq_iff_iff, spiWrites_iff]
  unfold fitOverwrites
  rw [Bool.and_eq_true, fitWrites_iff, decide_eq_true_iff]
  constructor
  · rintro ⟨h1, h2, h3, _⟩
    exact ⟨h1, h2, h3⟩
  · rintro ⟨h1, h2, h3⟩
    refine ⟨h1, h2, h3, ?_⟩
    subst h1
    rintro D hD
    cases hD
    match ps, hl with
    | [p, q], _ => exact ⟨⟨some p, rfl⟩, ⟨some q, rfl⟩⟩

theorem spiPair_load {E : Ext F} (hE : ExtNan E) {j : SpiJob} {f0 : String} (hload : j.load = some f0) {u : String} {ds scale : Int} {d : NcFile F} {dist : Distribution} {w w' : World F}
    (hres : j.var ≠ keyResult) {a b n : Nat}
    {shape : List Nat} {S : Nat → Nat → List F} {done : List (Int × Distribution)} (hc : CellsAre j.var a b n shape (fun i k => cellAfter (S i k) j.per done) w.shared)
    {P : String → Arr F} (hP : ∀ v ∈ fittingVariables, w.shared (spiFitName u scale v) = some (P v))
    (h : spiPair E j u ds d (scale, dist) w = (.ok (), w')) :
    CellsAre j.var a b n shape (fun i k => cellAfter (S i k) j.per (done ++ [(scale, dist)])) w'.shared ∧
      LoadHolds E j u ds d a b n shape scale dist (fun i k => cellAfter (S i k) j.per done) P w'.files ∧
      (∀ f, f ≠ spiOutFile j.base u scale dist → w'.files f = w.files f) ∧
      (∀ key, key ≠ j.var → key ≠ keyResult → w'.shared key = w.shared key) ∧ ∃ res, w.shared keyResult = some res ∧ res.data.length = a * (b * n) := by
  unfold spiPair at h
  split at h
  · cases h
  next sh name new hcomp =>
  cases h
  obtain ⟨⟨dat, c1, c2, c3⟩, res0, c4, c5⟩ := hc
  unfold spiCompute at hcomp
  obtain ⟨sh1, h1, hcomp⟩ := Res.bind_ok hcomp
  obtain ⟨sh2, h2, hcomp⟩ := Res.bind_ok hcomp
  obtain ⟨res2, h3, hcomp⟩ := Res.bind_ok hcomp
  obtain ⟨new', h4, hcomp⟩ := Res.bind_ok hcomp
  cases hcomp
  unfold spiFit at h1
  rw [hload] at h1
  simp only at h1
  cases h1
  obtain ⟨_, res, fits, dat', rdat, g1, g1', g2, g3, g4, g5, g6, g7, g8⟩ := spiStage_ok hres c1 c2 h2
  rw [c4] at g1
  cases g1
  have hr2 := dictAt_ok h3
  rw [g5] at hr2
  cases hr2
  subst c5
  have hfits : fits = (distVars dist).map P := mapM_fun g2 (fun v hv => dictAt_some (hP v (distVars_fitting hv)))
  have hat : ∀ i k, fits.mapM (fun x => fitAt x i k) = (distVars dist).mapM (fun v => fitAt (P v) i k) := by
    intro i k
    rw [hfits, List.mapM_map]
    rfl
  refine ⟨⟨⟨dat', g3, g4, ?_⟩, _, g5, rfl⟩, ⟨rdat, new, ?_, g6, h4, ?_⟩, ?_, g8, _, c4, g1'⟩
  · intro i hi k hk
    obtain ⟨ps, out, e1, e2, e3, e4⟩ := g7 i hi k hk
    rw [hat] at e1
    rw [e4, writes_loaded _ _ _ _ _ (mapM_len e1), c3 i hi k hk]
    exact cellAfter_step _ _ _ _ _
  · simp [writeFile, spiOutFile]
  · intro i hi k hk
    obtain ⟨ps, out, e1, e2, e3, e4⟩ := g7 i hi k hk
    rw [hat] at e1
    refine ⟨ps, e1, ?_⟩
    rw [← c3 i hi k hk, e2]
    congr 1
    refine (assignSeries_same e3 ?_).symm
    rw [C10_size E hE _ _ _ _ _ _ _ _ _ e2]
    exact seriesAt_length c2 hi hk
  · intro f hf
    simp only [writeFile]
    rw [if_neg]
    exact hf

theorem LoadHolds.frame {E : Ext F} {j : SpiJob} {u : String} {ds : Int} {d : NcFile F} {a b n : Nat} {shape : List Nat} {scale : Int} {dist : Distribution} {cell : Nat → Nat → List F}
    {P : String → Arr F} {fs fs' : Files F} (h : LoadHolds E j u ds d a b n shape scale dist cell P fs) (he : fs' (spiOutFile j.base u scale dist) = fs (spiOutFile j.base u scale dist)) :
    LoadHolds E j u ds d a b n shape scale dist cell P fs' := by
  obtain ⟨rdat, new, e1, e2⟩ := h
  exact ⟨rdat, new, he.trans e1, e2⟩

/-- the loop over the scales, with loaded parameters -/
theorem spiScales_load {E : Ext F} (hE : ExtNan E) {j : SpiJob} {f0 : String} (hload : j.load = some f0) {u : String} {ds : Int} {d : NcFile F}
    (hvar : ∀ s, ∀ v ∈ fittingVariables, j.var ≠ spiFitName u s v) (hres : j.var ≠ keyResult) (hfr : ∀ s, ∀ v ∈ fittingVariables, keyResult ≠ spiFitName u s v) {a b n : Nat}
    {shape : List Nat} {S : Nat → Nat → List F} {P : Int → String → Arr F} (ss : List Int) : ∀ {done : List (Int × Distribution)} {g g' : NcFile F} {w w' : World F},
      CellsAre j.var a b n shape (fun i k => cellAfter (S i k) j.per done) w.shared → (∀ s ∈ ss, ∀ v ∈ fittingVariables, w.shared (spiFitName u s v) = some (P s v)) →
      spiScales E j u ds d ss g w = (.ok g', w') →
      (∀ pre s post, ss = pre ++ s :: post → s ∉ post →
        LoadHolds E j u ds d a b n shape s .gamma (fun i k => cellAfter (S i k) j.per (done ++ toolPairs pre)) (P s) w'.files ∧
        LoadHolds E j u ds d a b n shape s .pearson (fun i k => cellAfter (S i k) j.per (done ++ toolPairs pre ++ [(s, .gamma)])) (P s) w'.files) ∧
      (∀ f, (∀ s ∈ ss, f ≠ spiOutFile j.base u s .gamma ∧ f ≠ spiOutFile j.base u s .pearson) → w'.files f = w.files f) := by
  induction ss with
  | nil =>
    intro done g g' w w' hc _ h
    cases h
    refine ⟨?_, fun _ _ => rfl⟩
    intro pre s post h
    simp at h
  | cons s0 ss ih =>
    intro done g g' w w' hc hP h
    unfold spiScales at h
    obtain ⟨_, w1, h1, h⟩ := SE.bind_ok h
    obtain ⟨_, w2, h2, h⟩ := SE.bind_ok h
    obtain ⟨g1, w3, h3, h⟩ := SE.bind_ok h
    simp only [Prod.mk.injEq] at h3
    obtain ⟨h3, rfl⟩ := h3
    have keepfit : ∀ (w1 w2 : World F), (∀ key, key ≠ j.var → key ≠ keyResult → w2.shared key = w1.shared key) → ∀ s, ∀ v ∈ fittingVariables,
        w2.shared (spiFitName u s v) = w1.shared (spiFitName u s v) :=
      fun w1 w2 hk s v hv => hk _ (fun e => hvar s v hv e.symm) (fun e => hfr s v hv e.symm)
    obtain ⟨c1, o1, fi1, fr1, _⟩ := spiPair_load hE hload hres hc (hP s0 (by simp)) h1
    obtain ⟨c2, o2, fi2, fr2, _⟩ := spiPair_load hE hload hres c1 (P := P s0) (fun v hv => by rw [keepfit _ _ fr1 _ _ hv]; exact hP s0 (by simp) v hv) h2
    obtain ⟨i2, i3⟩ := ih c2 (fun s hs v hv => by rw [keepfit _ _ fr2 _ _ hv, keepfit _ _ fr1 _ _ hv]; exact hP s (by simp [hs]) v hv) h
    have hgp : ∀ s, spiOutFile j.base u s .gamma ≠ spiOutFile j.base u s .pearson := by
      intro s e
      have := (outFile_inj (Or.inl rfl) (Or.inr rfl) e).2
      cases this
    refine ⟨?_, ?_⟩
    · intro pre s post hsplit hnp
      cases pre with
      | cons p pre =>
        simp only [List.cons_append, List.cons.injEq] at hsplit
        obtain ⟨rfl, hsplit⟩ := hsplit
        simpa [toolPairs] using i2 pre s post hsplit hnp
      | nil =>
        simp only [List.nil_append, List.cons.injEq] at hsplit
        obtain ⟨rfl, rfl⟩ := hsplit
        have hne : ∀ s ∈ ss, ∀ d1 d2 : Distribution, (d1 = .gamma ∨ d1 = .pearson) → (d2 = .gamma ∨ d2 = .pearson) → spiOutFile j.base u s0 d1 ≠ spiOutFile j.base u s d2 := by
          intro s hs d1 d2 k1 k2 e
          have := (outFile_inj k1 k2 e).1
          subst this
          exact hnp hs
        refine ⟨?_, ?_⟩
        · have := o1.frame (fs' := w'.files) (by
            rw [i3 _ (fun s hs => ⟨hne s hs _ _ (Or.inl rfl) (Or.inl rfl), hne s hs _ _ (Or.inl rfl) (Or.inr rfl)⟩), fi2 _ (hgp s0)])
          simpa [toolPairs] using this
        · have := o2.frame (fs' := w'.files) (by
            rw [i3 _ (fun s hs => ⟨hne s hs _ _ (Or.inr rfl) (Or.inl rfl), hne s hs _ _ (Or.inr rfl) (Or.inr rfl)⟩)])
          simpa [toolPairs] using this
    · intro f hf
      rw [i3 f (fun s hs => hf s (by simp [hs])), fi2 f (hf s0 (by simp)).2, fi1 f (hf s0 (by simp)).1]

/-- the array of a parameter in a data set -/
def fitArr (u : String) (g : NcFile F) (s : Int) (v : String) : Arr F :=
  match List.lookup (spiFitName u s v) g with
  | some y => ⟨y.shape, y.data⟩
  | none => ⟨[], []⟩

/-- what a finished run with loaded parameters has computed for a scale (at its last occurrence) -/
theorem spiLoad_ok {E : Ext F} (hE : ExtNan E) {yearOf : F → Int} {lower : String → String} {cs ce : Int} {base : String} {wk : Nat} {a : SpiArgs} {w w' : World F}
    (hfresh : w.shared = fun _ => none) {pf : String} (hload : a.loadParams = some pf) (h : spiMain E yearOf lower cs ce base wk a w = (.ok (), w'))
    {d : NcFile F} {x t lat lon : NcVar F} {A B N : Nat} (hin : SpiInput w.files a d x t lat lon A B N) {t0 : F} (ht0 : t.data.head? = some t0) {u : String}
    (hu : a.periodicity.unit = .ok u) {g : NcFile F} (hg : w.files pf = some g) (hnames : FitNames u g)
    {pre post : List Int} {s : Int} (hs : a.scales = some (pre ++ s :: post)) (hlast : s ∉ post)
    (hP : ∀ s' ∈ pre ++ s :: post, ∀ v ∈ fittingVariables, ∃ y, List.lookup (spiFitName u s' v) g = some y ∧ y.dims ≠ [spiFitName u s' v]) :
    ∃ it f d' un mm vals n g' w1, x.units = some un ∧ convertPrecip (lower un) x.data = .ok mm ∧ SpiValues yearOf a.periodicity t A B N mm vals ∧
      vals.shape = [A, B, n] ∧ vals.data.length = A * (B * n) ∧ List.lookup "time" d' = some t ∧ List.lookup "lat" d' = some lat ∧ List.lookup "lon" d' = some lon ∧
      LoadHolds E (spiJob a it f cs ce base wk) u (yearOf t0) d' A B n (SpiShape a.periodicity x t lat lon (yearOf t0)) s .gamma
        (fun i k => cellAfter (seriesAt B n i k vals.data) a.periodicity (toolPairs pre)) (fitArr u g s) w1.files ∧
      LoadHolds E (spiJob a it f cs ce base wk) u (yearOf t0) d' A B n (SpiShape a.periodicity x t lat lon (yearOf t0)) s .pearson
        (fun i k => cellAfter (seriesAt B n i k vals.data) a.periodicity (toolPairs pre ++ [(s, .gamma)])) (fitArr u g s) w1.files ∧
      spiSave (spiJob a it f cs ce base wk) g' w1 = (.ok (), w') ∧ (SpiShape a.periodicity x t lat lon (yearOf t0)).foldr (· * ·) 1 = A * (B * n) := by
  obtain ⟨it, f, u', d', fitting, ds, sh, g', w1, hv, hf, hu', hprep, hsc, hsave⟩ := spiMain_parts h
  rw [hu] at hu'
  cases hu'
  obtain ⟨f', v, d'', x', sc, hf', hvn, hd'', hx', hit, _, _⟩ := spiValidate_parts hv
  rw [hf] at hf'
  cases hf'
  obtain ⟨f1, hf1, hfd⟩ := hin.file
  rw [hf] at hf1
  cases hf1
  rw [hfd] at hd''
  cases hd''
  obtain ⟨v1, hv1, hxv, hres, hfv⟩ := hin.var
  rw [hvn] at hv1
  cases hv1
  rw [hxv] at hx'
  cases hx'
  obtain ⟨hdims, hshape, hwf⟩ := hin.grid
  rw [hdims] at hit
  have hit : it = .grid := by
    have : inputTypeOf ["lat", "lon", "time"] = .ok .grid := by decide
    rw [this] at hit
    cases hit
    rfl
  subst hit
  simp only [List.mem_cons, List.not_mem_nil, or_false, not_or] at hres
  have hvar : ∀ s, ∀ p ∈ fittingVariables, (spiJob a .grid f cs ce base wk).var ≠ spiFitName u s p := by
    intro s p hp
    show a.varNamePrecip.getD "" ≠ _
    rw [hvn, fittingName_eq hu]
    exact hfv p hp s _
  have hvj : (spiJob a .grid f cs ce base wk).var = v := by show a.varNamePrecip.getD "" = _; rw [hvn]; rfl
  have hvk : (spiJob a .grid f cs ce base wk).var ≠ keyResult := by rw [hvj]; exact hres.2.2.2
  have hfitting : ∀ g0, spiFitting w.files (spiJob a .grid f cs ce base wk) (spiTrim (spiJob a .grid f cs ce base wk) d) = .ok g0 → g0 = g := by
    intro g0 h0
    unfold spiFitting at h0
    rw [show (spiJob a .grid f cs ce base wk).load = some pf from hload] at h0
    simp only at h0
    unfold openFile at h0
    simp only [hg] at h0
    cases h0
    rfl
  obtain ⟨p1, p2, p3, p4, p5, p5', un, mm, vals, p6, p7, p8, p9, res, p10, p11, p12⟩ := spiPrepare_gen (j := spiJob a .grid f cs ce base wk) (u := u) hfresh rfl
    (fun g0 h0 => by rw [hfitting g0 h0]; exact hnames) hfd
    (by rw [hvj]; exact hxv) hshape hwf hin.time.1 hin.time.2.1 ht0 hin.lat.1 hin.lat.2.1 hin.lon.1 hin.lon.2.1 (by rw [hvj]; simp [hres]) hvar hvk
    (fun s v hv => keyResult_ne u s v hv) hprep
  have := hfitting _ p5
  subst this
  subst p1
  obtain ⟨n, q1, q2⟩ : ∃ n, vals.shape = [A, B, n] ∧ vals.data.length = A * (B * n) := by
    unfold SpiValues at p8
    split at p8
    · obtain ⟨_, _, _, _, _, _, _, e1, e2, _⟩ := p8
      exact ⟨_, e1, e2⟩
    · subst p8
      exact ⟨N, rfl, by rw [convertPrecip_length p7, hwf]⟩
  have hcells : CellsAre (spiJob a .grid f cs ce base wk).var A B n (SpiShape a.periodicity x t lat lon (yearOf t0))
      (fun i k => cellAfter (seriesAt B n i k vals.data) (spiJob a .grid f cs ce base wk).per []) sh := by
    refine ⟨⟨vals.data, ?_, q2, fun i _ k _ => (cellAfter_nil _ _).symm⟩, res, p10, p11⟩
    rw [p9, ← q1]
  have hscg : a.scales.getD [] = pre ++ s :: post := by rw [hs]; rfl
  rw [hscg] at hsc
  have hPs : ∀ s' ∈ pre ++ s :: post, ∀ v ∈ fittingVariables, sh (spiFitName u s' v) = some (fitArr u fitting s' v) := by
    intro s' hs' v hv
    obtain ⟨y, e1, e2⟩ := hP s' hs' v hv
    rw [p5' _ y e1 e2 (fun e => keyResult_ne u s' v hv e.symm)]
    unfold fitArr
    rw [e1]
  obtain ⟨r1, _⟩ := spiScales_load hE (j := spiJob a .grid f cs ce base wk) hload hvar hvk (fun s v hv => keyResult_ne u s v hv) (pre ++ s :: post) (P := fitArr u fitting)
    (w := { w with shared := sh }) hcells hPs hsc
  obtain ⟨o1, o2⟩ := r1 pre s post rfl hlast
  simp only [List.nil_append] at o1 o2
  refine ⟨.grid, f, d', un, mm, vals, n, g', w1, p6, p7, p8, q1, q2, p2, p3, p4, o1, o2, hsave, ?_⟩
  obtain ⟨s0, ss, hss⟩ : ∃ s0 ss, pre ++ s :: post = s0 :: ss := by cases pre <;> exact ⟨_, _, rfl⟩
  rw [hss] at hsc hPs
  unfold spiScales at hsc
  obtain ⟨_, w5, hp1, _⟩ := SE.bind_ok hsc
  obtain ⟨_, _, _, _, res', e1, e2⟩ := spiPair_load hE (j := spiJob a .grid f cs ce base wk) hload hvk (P := fitArr u fitting s0) (w := { w with shared := sh }) hcells
    (hPs s0 (by simp)) hp1
  have e1 : sh keyResult = some res' := e1
  rw [p10] at e1
  cases e1
  rw [← e2, p12, p11]
  rfl

end CI
