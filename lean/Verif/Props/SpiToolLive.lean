import Verif.Lemmas.SpiLivePrepare
import Verif.Props.SpiToolRuns
import Verif.Props.EndToEndPet
import Verif.Props.McKeePearson

/-!
# C118: which runs of the SPI tool finish
-/

namespace CI.Props
open CI Spec Spec.McKee

variable {F : Type} [FloatOps F] [FloatLaws F]

/-! ## Every arithmetic -/

/-- the scales and distributions in the order in which the tool processes them -/
def processingOrder : List Int → List (Int × Distribution)
  | [] => []
  | s :: l => (s, .gamma) :: (s, .pearson) :: processingOrder l

/-- a scale and distribution for which the tool can fit parameters and compute the SPI at all places, after those of `done` -/
def Feasible (E : Ext F) (cs ce y0 : Int) (A B N : Nat) (mm : List F) (done : List (Int × Distribution)) (sd : Int × Distribution) : Prop :=
  ∀ i < A, ∀ k < B,
    (∃ fp, fittedParameters E sd.2 (toolSeries .monthly (done.map Prod.fst) (seriesAt B N i k mm)) sd.1 y0 cs ce .monthly = .ok fp) ∧
    ∃ out, spi E (Arr.of1d (toolSeries .monthly ((done ++ [sd]).map Prod.fst) (seriesAt B N i k mm))) sd.1 sd.2 y0 cs ce .monthly none = .ok out

theorem processingOrder_eq (l : List Int) : toolPairs l = processingOrder l := by
  induction l with
  | nil => rfl
  | cons s l ih =>
    unfold processingOrder
    rw [← ih]
    simp [toolPairs]

/-- gamma comes before Pearson -/
theorem order_prefix (ss : List Int) : ∀ done rest, processingOrder ss = done ++ rest → ((1, Distribution.gamma) ∈ done ↔ 1 ∈ done.map Prod.fst) := by
  induction ss with
  | nil =>
    intro done rest h
    have : done = [] := (List.append_eq_nil_iff.1 h.symm).1
    subst this
    simp
  | cons s l ih =>
    intro done rest h
    unfold processingOrder at h
    match done, h with
    | [], _ => simp
    | [x], h =>
      simp only [List.cons_append, List.nil_append, List.cons.injEq] at h
      rw [← h.1]
      simp
    | x :: y :: done, h =>
      simp only [List.cons_append, List.cons.injEq] at h
      rw [← h.1, ← h.2.1]
      have := ih done rest h.2.2
      simp only [List.mem_cons, List.map_cons, this]
      simp

theorem cellAfter_prefix (l : List F) {ss : List Int} {done rest : List (Int × Distribution)} (h : processingOrder ss = done ++ rest)
    (per : Periodicity := .monthly) : cellAfter l per done = toolSeries per (done.map Prod.fst) l := by
  have h := order_prefix ss done rest h
  unfold cellAfter seriesAfter toolSeries
  by_cases hc : 1 ∈ done.map Prod.fst ∧ InPlace (Arr.of1d l) per
  · rw [if_pos hc, if_pos ⟨h.2 hc.1, hc.2⟩]
    rfl
  · rw [if_neg hc, if_neg (fun k => hc ⟨h.1 k.1, k.2⟩)]
    rfl

omit [FloatLaws F] in
theorem fittedParameters_fitVal (E : Ext F) (dist : Distribution) (l : List F) (s y0 cs ce : Int) (per : Periodicity) :
    (∃ fp, fittedParameters E dist l s y0 cs ce per = .ok fp) ∧ dist ≠ .other ↔ ∃ fp, fitVal E dist l s y0 cs ce per = .ok fp := by
  constructor
  · rintro ⟨⟨fp, h⟩, hd⟩
    refine ⟨fp, ?_⟩
    unfold fittedParameters at h
    cases dist with
    | other => exact absurd rfl hd
    | gamma => exact h
    | pearson => exact h
  · rintro ⟨fp, h⟩
    refine ⟨⟨fp, fittedParameters_eq h⟩, ?_⟩
    rintro rfl
    cases h

theorem order_dist (ss : List Int) : ∀ p ∈ processingOrder ss, p.2 = .gamma ∨ p.2 = .pearson := by
  induction ss with
  | nil => simp [processingOrder]
  | cons s l ih =>
    intro p hp
    simp only [processingOrder, List.mem_cons] at hp
    rcases hp with rfl | rfl | hp
    · exact .inl rfl
    · exact .inr rfl
    · exact ih p hp

theorem feasible_iff (E : Ext F) (j : SpiJob) (hper : j.per = .monthly) (y0 : Int) (A B N : Nat) (mm : List F) {ss : List Int} {done post : List (Int × Distribution)} {sd : Int × Distribution}
    (h : processingOrder ss = done ++ sd :: post) :
    PairFine E j y0 A B (fun i k => seriesAt B N i k mm) ([] ++ done) sd ↔ Feasible E j.calStart j.calEnd y0 A B N mm done sd := by
  have hd : sd.2 ≠ .other := by
    rcases order_dist ss sd (by rw [h]; simp) with e | e <;> rw [e] <;> simp
  have e1 := fun l : List F => cellAfter_prefix l h
  have e2 := fun l : List F => cellAfter_prefix l (ss := ss) (done := done ++ [sd]) (rest := post) (by rw [h]; simp)
  unfold PairFine Feasible
  rw [hper, List.nil_append]
  simp only [e1, e2]
  refine forall_congr' fun i => forall_congr' fun _ => forall_congr' fun k => forall_congr' fun _ => and_congr_left fun _ => ?_
  rw [← fittedParameters_fitVal]
  exact and_iff_left hd

/-- **C118, runs of the SPI tool.** For every usable monthly input, scales that are not negative, and any number of workers: the tool processes gamma and then Pearson for every scale, in the
order of the arguments. `good` are those before the first that is not feasible: exactly these are written, in that order, and each file holds the coordinates of the input and the SPI of its
series at every place. The run ends without exception exactly if nothing is left; only then the fitting parameters are saved. No other file is changed. -/
theorem C118_run (E : Ext F) (hE : ExtNan E) (yearOf : F → Int) (lower : String → String) (cs ce : Int) (base : String) (wk : Nat) (hwk : 1 ≤ wk) (a : SpiArgs) (w : World F)
    {d : NcFile F} {x t lat lon : NcVar F} {A B N : Nat} {mm : List F} {y0 : Int} (h : SpiReady lower yearOf a w d x t lat lon A B N mm y0)
    {scales : List Int} (hs : a.scales = some scales) (hpos : ∀ s ∈ scales, 0 ≤ s) :
    ∃ res w' good rest, spiMain E yearOf lower cs ce base wk a w = (res, w') ∧ processingOrder scales = good ++ rest ∧
      (∀ pre sd post, good = pre ++ sd :: post → Feasible E cs ce y0 A B N mm pre sd) ∧
      (∀ sd post, rest = sd :: post → ¬ Feasible E cs ce y0 A B N mm good sd) ∧
      (res = .ok () ↔ rest = []) ∧
      w'.written = w.written ++ good.map (fun sd => (fileName base (spiName sd.2 sd.1 false), spiName sd.2 sd.1 false)) ++
        (if rest = [] then (a.saveParams.map (fun f => (f, ""))).toList else []) ∧
      (∀ pre s dist post, good = pre ++ (s, dist) :: post → (s, dist) ∉ post → a.saveParams ≠ some (fileName base (spiName dist s false)) →
        SpiHolds w'.files base dist s false t lat lon A B N
          (fun i k => spi E (Arr.of1d (toolSeries .monthly (pre.map Prod.fst ++ [s]) (seriesAt B N i k mm))) s dist y0 cs ce .monthly none)) ∧
      ∀ f, (∀ sd ∈ good, f ≠ fileName base (spiName sd.2 sd.1 false)) → (rest = [] → a.saveParams ≠ some f) → w'.files f = w.files f := by
  obtain ⟨f, d', w0, w1, res, w', r1, r2, r3, r4, r5, r6, ⟨good, rest, o1, o2, o3, o4, o5, o6, o7⟩, r7⟩ := spiRun_live (cs := cs) (ce := ce) (base := base) hE hwk h hs hpos
  rw [processingOrder_eq] at o1
  have hper : (spiJob a .grid f cs ce base wk).per = .monthly := h.monthly
  have hu : (spiJob a .grid f cs ce base wk).per.unit = .ok "month" := by rw [hper]; rfl
  have hdl : isDaily (spiJob a .grid f cs ce base wk).per = false := by rw [hper]; rfl
  have hgd : ∀ sd ∈ good, sd.2 = .gamma ∨ sd.2 = .pearson := fun sd hsd => order_dist scales sd (by rw [o1]; simp [hsd])
  have hfile : ∀ sd ∈ good, spiOutFile base "month" sd.1 sd.2 = fileName base (spiName sd.2 sd.1 false) := by
    intro sd hsd
    rw [outFile_eq hu _ _ (hgd sd hsd), hdl]
  have hname : ∀ sd ∈ good, spiOutName sd.2 sd.1 "month" = spiName sd.2 sd.1 false := by
    intro sd hsd
    rw [spiName_eq hu _ (hgd sd hsd), hdl]
  have hbase : (spiJob a .grid f cs ce base wk).base = base := rfl
  have hsv : (spiJob a .grid f cs ce base wk).save = a.saveParams := rfl
  -- what the end of the run changes
  have hend : w'.written = w1.written ++ (if rest = [] then (a.saveParams.map (fun f => (f, ""))).toList else []) ∧
      ∀ q, (rest = [] → a.saveParams ≠ some q) → w'.files q = w1.files q := by
    rcases r7 with ⟨hok, g, hg⟩ | ⟨⟨e, he⟩, rfl⟩
    · have hr := o4.1 hok
      rw [if_pos hr]
      refine ⟨?_, fun q hq => save_files hg q (by rw [hsv]; exact hq hr)⟩
      unfold spiSave at hg
      rw [hsv] at hg
      cases hsp : a.saveParams with
      | none =>
        rw [hsp] at hg
        cases hg
        simp
      | some q =>
        rw [hsp] at hg
        cases hg
        rfl
    · have hr : rest ≠ [] := by
        intro hr
        have := o4.2 hr
        rw [he] at this
        cases this
      rw [if_neg hr]
      exact ⟨by simp, fun q _ => rfl⟩
  refine ⟨res, w', good, rest, r1, o1, ?_, ?_, o4, ?_, ?_, ?_⟩
  · intro pre sd post e
    exact (feasible_iff E (spiJob a .grid f cs ce base wk) hper y0 A B N mm (ss := scales) (post := post ++ rest) (by rw [o1, e]; simp)).1 (o2 pre sd post e)
  · intro sd post e hf
    exact o3 sd post e ((feasible_iff E (spiJob a .grid f cs ce base wk) hper y0 A B N mm (ss := scales) (post := post) (by rw [o1, e])).2 hf)
  · rw [hend.1, o5, r3, hbase]
    congr 2
    apply List.map_congr_left
    intro sd hsd
    rw [hfile sd hsd, hname sd hsd]
  · intro pre s dist post e hlast hsave
    have o := o6 pre (s, dist) post e hlast
    have hd := hgd (s, dist) (by rw [e]; simp)
    have hcell : ∀ l : List F, cellAfter l (spiJob a .grid f cs ce base wk).per ([] ++ pre ++ [(s, dist)]) = toolSeries .monthly (pre.map Prod.fst ++ [s]) l := by
      intro l
      rw [hper, List.nil_append, cellAfter_prefix l (ss := scales) (rest := post ++ rest) (by rw [o1, e]; simp)]
      simp
    simp only [hcell] at o
    have o' : OutHolds E (spiJob a .grid f cs ce base wk) "month" y0 d' A B N (SpiShape .monthly x t lat lon y0) s dist
        (fun i k => toolSeries .monthly (pre.map Prod.fst ++ [s]) (seriesAt B N i k mm)) w1.files := by
      rw [show SpiShape .monthly x t lat lon y0 = [A, B, N] from h.input.grid.2.1]
      exact o
    obtain ⟨file, y, e1, e2⟩ := out_monthly hper hu hd h.input.grid.2.1 r4 r5 r6 o'
    refine ⟨file, y, ?_, e2⟩
    rw [hend.2 _ (fun _ => hsave)]
    exact e1
  · intro q hq hq'
    rw [hend.2 q hq', o7 q (fun sd hsd => by rw [hbase, hfile sd hsd]; exact hq sd hsd), r2]

/-- **C118, finished runs.** The run ends without exception exactly if every scale and distribution is feasible when its turn comes. -/
theorem C118_finish (E : Ext F) (hE : ExtNan E) (yearOf : F → Int) (lower : String → String) (cs ce : Int) (base : String) (wk : Nat) (hwk : 1 ≤ wk) (a : SpiArgs) (w : World F)
    {d : NcFile F} {x t lat lon : NcVar F} {A B N : Nat} {mm : List F} {y0 : Int} (h : SpiReady lower yearOf a w d x t lat lon A B N mm y0)
    {scales : List Int} (hs : a.scales = some scales) (hpos : ∀ s ∈ scales, 0 ≤ s) :
    (∃ w', spiMain E yearOf lower cs ce base wk a w = (.ok (), w')) ↔
      ∀ pre sd post, processingOrder scales = pre ++ sd :: post → Feasible E cs ce y0 A B N mm pre sd := by
  obtain ⟨res, w', good, rest, r1, r2, r3, r4, r5, _⟩ := C118_run E hE yearOf lower cs ce base wk hwk a w h hs hpos
  rw [r1]
  constructor
  · rintro ⟨w'', hw⟩
    have hr := r5.1 (Prod.ext_iff.1 hw).1
    subst hr
    rw [List.append_nil] at r2
    rw [r2]
    exact r3
  · intro hall
    refine ⟨w', ?_⟩
    rw [r5.2 ?_]
    cases rest with
    | nil => rfl
    | cons sd post => exact absurd (hall good sd post r2) (r4 sd post rfl)

/-! ## Exact arithmetic -/

/-- the record the tool works on once the scales `done` have been processed: after scale 1 the months without precipitation of a record of whole years are missing -/
noncomputable def remaining (done : List ℕ) (x : List (Option ℝ)) : List (Option ℝ) :=
  if 1 ∈ done ∧ 12 ∣ x.length then x.map (fun o => if o = some 0 then none else o) else x

theorem remaining_length (done : List ℕ) (x : List (Option ℝ)) : (remaining done x).length = x.length := by
  unfold remaining
  split <;> simp

theorem remaining_nonneg {done : List ℕ} {x : List (Option ℝ)} (hx : ∀ a, some a ∈ x → 0 ≤ a) : ∀ a, some a ∈ remaining done x → 0 ≤ a := by
  intro a ha
  unfold remaining at ha
  split at ha
  · obtain ⟨o, ho, h⟩ := List.mem_map.1 ha
    split at h
    · cases h
    · rw [h] at ho
      exact hx a ho
  · exact hx a ha

theorem toolSeries_toFl_of (per : Periodicity) (done : List ℕ) (x : List (Option ℝ)) (hx : ∀ a, some a ∈ x → 0 ≤ a) :
    toolSeries per (done.map Int.ofNat) (x.map toFl) = (if 1 ∈ done ∧ per.steps ∣ x.length then x.map (fun o => if o = some 0 then none else o) else x).map toFl := by
  have h1 : (1 : Int) ∈ done.map Int.ofNat ↔ 1 ∈ done := by
    rw [List.mem_map]
    constructor
    · rintro ⟨n, hn, e⟩
      have : n = 1 := Int.ofNat.inj e
      rwa [this] at hn
    · exact fun h => ⟨1, h, rfl⟩
  have hz : ∀ o : Option ℝ, (if feq (toFl o) (lit 0) then nan else toFl o) = toFl (if o = some 0 then none else o) := by
    intro o
    cases o with
    | none => rfl
    | some v =>
      by_cases hv : v = 0
      · subst hv
        rw [if_pos rfl, if_pos]
        · rfl
        · show feq (Fl.fin (0 : ℝ)) (lit 0) = true
          rw [Fl.lit_def, Fl.feq_fin]
          simp
      · rw [if_neg (show ¬ some v = some 0 by simpa using hv), if_neg]
        show ¬ feq (Fl.fin v) (lit 0) = true
        rw [Fl.lit_def, Fl.feq_fin]
        simpa using hv
  have hmap : (x.map toFl).map (fun v => if feq v (lit 0) then nan else v) = (x.map (fun o => if o = some 0 then none else o)).map toFl := by
    rw [List.map_map, List.map_map]
    apply List.map_congr_left
    intro o _
    exact hz o
  unfold toolSeries
  by_cases h2 : 1 ∈ done ∧ per.steps ∣ x.length
  · rw [if_pos h2]
    by_cases h3 : ∃ a, some a ∈ x
    · rw [if_pos, hmap]
      refine ⟨h1.2 h2.1, rfl, ?_, ?_, by simpa [Arr.of1d] using h2.2⟩
      · obtain ⟨a, ha⟩ := h3
        exact ⟨toFl (some a), List.mem_map.2 ⟨_, ha, rfl⟩, by rintro ⟨⟩⟩
      · rintro ⟨_, v, hv, hn⟩
        obtain ⟨o, ho, rfl⟩ := List.mem_map.1 hv
        cases o with
        | none => rw [show toFl none = nan from rfl] at hn; simp at hn
        | some a =>
          have hn : flt (Fl.fin a) (lit 0) = true := hn
          rw [Fl.lit_def, Fl.flt_fin] at hn
          have := hx a ho
          simp at hn
          linarith
    · rw [if_neg]
      · congr 1
        conv_lhs => rw [← List.map_id x]
        apply List.map_congr_left
        intro o ho
        cases o with
        | none => rfl
        | some a => exact absurd ⟨a, ho⟩ h3
      · rintro ⟨_, _, ⟨v, hv, hn⟩, _⟩
        obtain ⟨o, ho, rfl⟩ := List.mem_map.1 hv
        cases o with
        | none => exact hn rfl
        | some a => exact h3 ⟨a, ho⟩
  · rw [if_neg h2, if_neg]
    rintro ⟨k1, _, _, _, k2⟩
    exact h2 ⟨h1.1 k1, by simpa [Arr.of1d] using k2⟩

theorem toolSeries_toFl (done : List ℕ) (x : List (Option ℝ)) (hx : ∀ a, some a ∈ x → 0 ≤ a) :
    toolSeries .monthly (done.map Int.ofNat) (x.map toFl) = (remaining done x).map toFl := toolSeries_toFl_of .monthly done x hx

/-- when parameters can be fitted to a record, for both periodicities -/
theorem fitted_exact_of (E : Ext (Fl ℝ)) (hE : ExtNan E) (hR : ExtReal E) (x : List (Option ℝ)) (hx : ∀ a, some a ∈ x → 0 ≤ a) (k : ℕ) (h1 : 1 ≤ k) (h2 : k ≤ x.length) (per : Periodicity) (hper : per ≠ .other) (ds cs ce : ℤ) (c1 : ds ≤ cs)
    (c2 : cs ≤ ce) (c3 : ce < ds + yearsOf x.length per.steps) :
    ((∃ fp, fittedParameters E .pearson (x.map toFl) k ds cs ce per = .ok fp) ↔ ∀ c < per.steps, ¬ (4 ≤ (wet (sample x k per.steps c (cs - ds).toNat (ce - cs + 1).toNat)).length ∧ AllButOne (sample x k per.steps c (cs - ds).toNat (ce - cs + 1).toNat))) ∧
      ∃ fp, fittedParameters E .gamma (x.map toFl) k ds cs ce per = .ok fp := by
  by_cases hs : ∃ a, some a ∈ x
  · have hsc := scaleValues_toFl x hx k h1 h2 per hper hs
    have hsam : ∀ c, c < per.steps → Sample (stride per.steps c (calibrationValues (accumData x k per.steps)
        (yearsOf x.length per.steps) per.steps ds cs ce)) (sample x k per.steps c (cs - ds).toNat (ce - cs + 1).toNat) := by
      intro c hc
      rw [accumData_column x k per.steps c hc ds cs ce c1 c2 c3]
      exact sample_toFl _ _
    have hfin : ∀ v ∈ accumData x k per.steps, FinOrNan v := by
      intro v hv
      obtain ⟨t, _, rfl⟩ := List.mem_map.1 hv
      cases accum x k t with
      | none => exact Or.inl rfl
      | some a => exact Or.inr ⟨a, rfl⟩
    obtain ⟨g1, g2⟩ := C26_partial E hR (yearsOf x.length per.steps) (accumData x k per.steps) ds cs ce per hper hfin _ hsam
    have hnz : ∀ c, nonZeros (sample x k per.steps c (cs - ds).toNat (ce - cs + 1).toNat) = (wet (sample x k per.steps c (cs - ds).toNat (ce - cs + 1).toNat)).length :=
      fun c => nonZeros_wet _ (sample_nonneg x hx k per.steps c _ _)
    simp only [hnz] at g1 g2
    constructor
    · constructor
      · rintro ⟨fp, hfp⟩ c hc hbad
        unfold fittedParameters at hfp
        rw [hsc] at hfp
        simp only [bind, Except.bind] at hfp
        rw [g1 ⟨c, hc, hbad⟩] at hfp
        cases hfp
      · intro h
        obtain ⟨ps, hps, _⟩ := g2 h
        unfold fittedParameters
        rw [hsc]
        simp only [bind, Except.bind]
        rw [hps]
        exact ⟨_, rfl⟩
    · unfold fittedParameters
      rw [hsc]
      simp only [bind, Except.bind]
      rw [gammaParameters_fits E hE _ _ ds cs ce per hper]
      exact ⟨_, rfl⟩
  · have hna : allNan (x.map toFl) = true := by
      unfold allNan
      rw [List.all_eq_true]
      intro v hv
      obtain ⟨o, ho, rfl⟩ := List.mem_map.1 hv
      cases o with
      | none => rfl
      | some a => exact absurd ⟨a, ho⟩ hs
    have hsc : scaleValues (Arr.of1d (x.map toFl)) k per = .ok (Arr.of1d (x.map toFl)) := by
      unfold scaleValues
      rw [if_pos (show (Arr.of1d (x.map toFl)).shape.length = 2 ∨ (Arr.of1d (x.map toFl)).shape.length = 1 from Or.inr rfl), if_pos (show allNan (Arr.of1d (x.map toFl)).data = true from hna)]
      rfl
    constructor
    · refine iff_of_true ?_ ?_
      · unfold fittedParameters
        rw [hsc]
        simp only [bind, Except.bind]
        obtain ⟨n, hr, hl⟩ := reshapeValues_total (x.map toFl) per hper
        have hall : ∀ v ∈ x.map toFl ++ List.replicate (padCount (x.map toFl).length per.steps) (nan : Fl ℝ), v = nan := by
          intro v hv
          rcases List.mem_append.1 hv with hv | hv
          · have := List.all_eq_true.1 hna v hv
            exact (FloatLaws.isNan_iff v).1 this
          · exact (List.mem_replicate.1 hv).2
        have e : pearsonParameters (lmomentsFit E) (Arr.of1d (x.map toFl)) ds cs ce per = pearsonParameters (lmomentsFit E)
            ⟨[n, per.steps], x.map toFl ++ List.replicate (padCount (x.map toFl).length per.steps) (nan : Fl ℝ)⟩ ds cs ce per := by
          rw [pearsonParameters_2d _ n _ _ ds cs ce per hper rfl]
          unfold pearsonParameters
          rw [hr]
          cases per <;> first | rfl | exact absurd rfl hper
        obtain ⟨_, g2⟩ := C26_partial E hR n (x.map toFl ++ List.replicate (padCount (x.map toFl).length per.steps) (nan : Fl ℝ)) ds cs ce per hper
          (fun v hv => .inl (hall v hv)) (fun _ => []) (by
            intro j _
            unfold Sample
            rw [List.map_nil, List.filter_eq_nil_iff]
            intro v hv
            rw [hall v (mem_calibrationValues _ _ _ _ _ _ _ (mem_of_mem_stride _ _ _ _ hv))]
            simp)
        obtain ⟨ps, hps, _⟩ := g2 (by intro j _; simp [nonZeros])
        rw [e, hps]
        exact ⟨_, rfl⟩
      · intro c _ hbad
        have := hbad.1
        rw [sample_missing x hs k per.steps c _ _ h1] at this
        simp [wet] at this
    · unfold fittedParameters
      rw [hsc]
      simp only [bind, Except.bind]
      unfold gammaParameters
      rw [if_pos (show allNan (Arr.of1d (x.map toFl)).data = true from hna)]
      cases per <;> first | exact ⟨_, rfl⟩ | exact absurd rfl hper

/-- when parameters can be fitted to a record -/
theorem fitted_exact (E : Ext (Fl ℝ)) (hE : ExtNan E) (hR : ExtReal E) (x : List (Option ℝ)) (hx : ∀ a, some a ∈ x → 0 ≤ a) (k : ℕ) (h1 : 1 ≤ k) (h2 : k ≤ x.length) (ds cs ce : ℤ) (c1 : ds ≤ cs)
    (c2 : cs ≤ ce) (c3 : ce < ds + yearsOf x.length 12) :
    ((∃ fp, fittedParameters E .pearson (x.map toFl) k ds cs ce .monthly = .ok fp) ↔ ∀ c < 12, ¬ Unfit x k c ds cs ce) ∧
      ∃ fp, fittedParameters E .gamma (x.map toFl) k ds cs ce .monthly = .ok fp :=
  fitted_exact_of E hE hR x hx k h1 h2 .monthly (by decide) ds cs ce c1 c2 c3

/-- the order of processing, one scale at a time -/
theorem order_split {ss : List Int} : ∀ {pre : List (Int × Distribution)} {s : Int} {dist : Distribution} {post : List (Int × Distribution)}, processingOrder ss = pre ++ (s, dist) :: post →
    ∃ before after, ss = before ++ s :: after ∧ (dist = .gamma ∧ pre = processingOrder before ∨ dist = .pearson ∧ pre = processingOrder before ++ [(s, .gamma)]) := by
  induction ss with
  | nil =>
    intro pre s dist post h
    simp [processingOrder] at h
  | cons s0 l ih =>
    intro pre s dist post h
    unfold processingOrder at h
    match pre, h with
    | [], h =>
      simp only [List.nil_append, List.cons.injEq, Prod.mk.injEq] at h
      obtain ⟨⟨rfl, rfl⟩, _⟩ := h
      exact ⟨[], l, rfl, .inl ⟨rfl, rfl⟩⟩
    | [x], h =>
      simp only [List.cons_append, List.nil_append, List.cons.injEq, Prod.mk.injEq] at h
      obtain ⟨rfl, ⟨rfl, rfl⟩, _⟩ := h
      exact ⟨[], l, rfl, .inr ⟨rfl, rfl⟩⟩
    | x :: y :: pre, h =>
      simp only [List.cons_append, List.cons.injEq] at h
      obtain ⟨rfl, rfl, h⟩ := h
      obtain ⟨before, after, e1, e2⟩ := ih h
      refine ⟨s0 :: before, after, by rw [e1]; rfl, ?_⟩
      rcases e2 with ⟨h1, rfl⟩ | ⟨h1, rfl⟩
      · exact .inl ⟨h1, rfl⟩
      · exact .inr ⟨h1, rfl⟩

theorem order_append (l l' : List Int) : processingOrder (l ++ l') = processingOrder l ++ processingOrder l' := by
  induction l with
  | nil => rfl
  | cons s l ih => simp [processingOrder, ih]

theorem order_one (l : List Int) : 1 ∈ (processingOrder l).map Prod.fst ↔ 1 ∈ l := by
  induction l with
  | nil => simp [processingOrder]
  | cons s l ih =>
    simp only [processingOrder, List.map_cons, List.mem_cons, ih]
    tauto

/-- **C118, exactly.** In exact arithmetic, for precipitation that is not negative (places may have missing months or no values at all), scales from 1 to the length of the record and
calibration years inside the record, a run of the SPI tool ends without exception exactly if for no scale, no place and no calendar month the Pearson fit fails for the record that remains when
this scale is processed: at least four positive accumulations in the calibration years, and all accumulations but one the same. -/
theorem C118_exact (E : Ext (Fl ℝ)) (hE : ExtNan E) (hR : ExtReal E) (yearOf : Fl ℝ → Int) (lower : String → String) (cs ce : Int) (base : String) (wk : Nat) (hwk : 1 ≤ wk) (a : SpiArgs)
    (w : World (Fl ℝ)) {d : NcFile (Fl ℝ)} {x t lat lon : NcVar (Fl ℝ)} {A B N : Nat} {vals : List (Option ℝ)} {y0 : Int}
    (h : SpiReady lower yearOf a w d x t lat lon A B N (vals.map toFl) y0) (hnn : ∀ u, some u ∈ vals → 0 ≤ u) (scales : List ℕ) (hs : a.scales = some (scales.map Int.ofNat))
    (hsc : ∀ s ∈ scales, 1 ≤ s ∧ s ≤ N) (c1 : y0 ≤ cs) (c2 : cs ≤ ce) (c3 : ce < y0 + yearsOf N 12) :
    (∃ w', spiMain E yearOf lower cs ce base wk a w = (.ok (), w')) ↔
      ∀ pre s post, scales = pre ++ s :: post → ∀ i < A, ∀ k < B, ∀ c < 12, ¬ Unfit (remaining (pre ++ [s]) (seriesAt B N i k vals)) s c y0 cs ce := by
  rw [C118_finish E hE yearOf lower cs ce base wk hwk a w h hs (by
    intro s hs'
    obtain ⟨n, _, rfl⟩ := List.mem_map.1 hs'
    exact Int.natCast_nonneg n)]
  have hlen : ∀ i < A, ∀ k < B, (seriesAt B N i k vals).length = N := by
    intro i hi k hk
    obtain ⟨u, hu, hc⟩ := h.units
    have := seriesAt_len (.inl ⟨rfl, h.input.grid.2.1⟩ : IsLayout .grid x.shape A B N) (by rw [convert_length.1 hc, h.input.grid.2.1]; simpa using h.input.grid.2.2) hi hk
    rw [seriesAt_toFl, List.length_map] at this
    exact this
  have hmem : ∀ i k u, some u ∈ seriesAt B N i k vals → 0 ≤ u := fun i k u hu => hnn u (List.mem_of_mem_drop (List.mem_of_mem_take hu))
  -- a scale at a place
  have hpl : ∀ (done : List ℕ) (s : ℕ), 1 ≤ s ∧ s ≤ N → ∀ i < A, ∀ k < B,
      ((∃ fp, fittedParameters E .pearson (toolSeries .monthly (done.map Int.ofNat) (seriesAt B N i k (vals.map toFl))) s y0 cs ce .monthly = .ok fp) ↔
        ∀ c < 12, ¬ Unfit (remaining done (seriesAt B N i k vals)) s c y0 cs ce) ∧
      (∃ fp, fittedParameters E .gamma (toolSeries .monthly (done.map Int.ofNat) (seriesAt B N i k (vals.map toFl))) s y0 cs ce .monthly = .ok fp) ∧
      ((∃ out, spi E (Arr.of1d (toolSeries .monthly (done.map Int.ofNat) (seriesAt B N i k (vals.map toFl)))) s .pearson y0 cs ce .monthly none = .ok out) ↔
        ∀ c < 12, ¬ Unfit (remaining done (seriesAt B N i k vals)) s c y0 cs ce) ∧
      ∃ out, spi E (Arr.of1d (toolSeries .monthly (done.map Int.ofNat) (seriesAt B N i k (vals.map toFl)))) s .gamma y0 cs ce .monthly none = .ok out := by
    intro done s hs' i hi k hk
    rw [seriesAt_toFl, toolSeries_toFl done _ (hmem i k)]
    have hl : (remaining done (seriesAt B N i k vals)).length = N := by rw [remaining_length, hlen i hi k hk]
    obtain ⟨p1, p2⟩ := fitted_exact E hE hR (remaining done (seriesAt B N i k vals)) (remaining_nonneg (hmem i k)) s hs'.1 (by rw [hl]; exact hs'.2) y0 cs ce c1 c2 (by rw [hl]; exact c3)
    obtain ⟨p3, p4⟩ := resultFor_spi E hR (remaining done (seriesAt B N i k vals)) (remaining_nonneg (hmem i k)) s hs'.1 (by rw [hl]; exact hs'.2) y0 cs ce c1 c2 (by rw [hl]; exact c3)
    exact ⟨p1, p2, p3, p4⟩
  constructor
  · intro hall pre s post e i hi k hk
    have hs' := hsc s (by rw [e]; simp)
    have hf := hall (processingOrder (pre.map Int.ofNat) ++ [((s : Int), .gamma)]) ((s : Int), .pearson) (processingOrder (post.map Int.ofNat)) (by
      rw [e, List.map_append, order_append]
      simp [processingOrder]) i hi k hk
    have hs2 := hf.2
    rw [toolSeries_mem (done' := (pre ++ [s]).map Int.ofNat) (by
      have := order_one (pre.map Int.ofNat)
      simp only [List.map_append, List.mem_append, this]
      simp)] at hs2
    exact (hpl (pre ++ [s]) s hs' i hi k hk).2.2.1.1 hs2
  · rintro hall pre ⟨s, dist⟩ post e
    obtain ⟨before, after, e1, e2⟩ := order_split e
    obtain ⟨before, l2, rfl, rfl, h3⟩ := List.map_eq_append_iff.1 e1
    obtain ⟨s, after, rfl, rfl, rfl⟩ := List.map_eq_cons_iff.1 h3
    have hs' := hsc s (by simp)
    intro i hi k hk
    rcases e2 with ⟨rfl, rfl⟩ | ⟨rfl, rfl⟩
    · obtain ⟨_, q2, _, _⟩ := hpl before s hs' i hi k hk
      obtain ⟨_, _, _, q4⟩ := hpl (before ++ [s]) s hs' i hi k hk
      refine ⟨?_, ?_⟩
      · rw [toolSeries_mem (done' := before.map Int.ofNat) (order_one _)]
        exact q2
      · rw [toolSeries_mem (done' := (before ++ [s]).map Int.ofNat) (by
          have := order_one (before.map Int.ofNat)
          simp only [List.map_append, List.mem_append, this]
          simp)]
        exact q4
    · obtain ⟨q1, _, q3, _⟩ := hpl (before ++ [s]) s hs' i hi k hk
      have hno := hall before s after rfl i hi k hk
      refine ⟨?_, ?_⟩
      · rw [toolSeries_mem (done' := (before ++ [s]).map Int.ofNat) (by
          have := order_one (before.map Int.ofNat)
          simp only [List.map_append, List.mem_append, this]
          simp)]
        exact q1.2 hno
      · rw [toolSeries_mem (done' := (before ++ [s]).map Int.ofNat) (by
          have := order_one (before.map Int.ofNat)
          simp only [List.map_append, List.mem_append, this]
          simp)]
        exact q3.2 hno

/-! ## Cases -/

/-- the data set of the SPI tool runs is usable -/
theorem rain_ready (scales : List Int) (save : Option String) (hs : ∀ f, save = some f → f ≠ "p.nc") :
    SpiReady id rainYear (spiArgs scales save none) rainWorld rainData rainVar rainTime rainLat rainLon 1 2 24 rainVar.data 2000 where
  input := rain_input _ _ _
  places := by decide
  coords := by
    intro p hp
    simp only [rainData, List.mem_cons, List.not_mem_nil, or_false] at hp
    rcases hp with rfl | rfl | rfl | rfl <;> simp [rainVar]
  coordUnits := ⟨by simp [rainLat], by simp [rainLon]⟩
  units := ⟨"mm", rfl, rfl⟩
  first := ⟨.fin 0, rfl, by decide +kernel⟩
  monthly := rfl
  fresh := rfl
  load := rfl
  save := by
    intro f hf
    refine .inl ?_
    show (if f = "p.nc" then some rainData else none) = none
    rw [if_neg (hs f hf)]

/-- C118 applies to it -/
example := C118_run toyExt toyExt_nan rainYear id 2000 2001 "out" 2 (by decide) (spiArgs [1, 3] (some "fit.nc") none) rainWorld (rain_ready [1, 3] (some "fit.nc") (by
  intro f hf
  cases hf
  decide)) rfl (by decide)

/-- three different values: not all but one the same -/
theorem not_allButOne {q : List ℝ} {u v z : ℝ} (hu : u ∈ q) (hv : v ∈ q) (hz : z ∈ q) (h1 : u ≠ v) (h2 : u ≠ z) (h3 : v ≠ z) : ¬ AllButOne q := by
  rintro ⟨c, d, h⟩
  have key : ∀ y ∈ q, y = d ∨ y = c := by
    intro y hy
    rcases List.mem_cons.1 (h.mem_iff.1 hy) with e | e
    · exact .inl e
    · exact .inr (List.eq_of_mem_replicate e)
  rcases key u hu with rfl | rfl <;> rcases key v hv with rfl | rfl <;> rcases key z hz with rfl | rfl <;> simp_all

/-- six years with precipitation in January and February only: 0 and 7 mm, 8 and 0 mm, 1 and 4, 2 and 3, 3 and 2, 1 and 5 mm -/
noncomputable def twoMonths : List (Option ℝ) :=
  [(0, 7), (8, 0), (1, 4), (2, 3), (3, 2), (1, 5)].flatMap (fun p : ℝ × ℝ => some p.1 :: some p.2 :: List.replicate 10 (some 0))

theorem twoMonths_nonneg : ∀ u, some u ∈ twoMonths → 0 ≤ u := by
  intro u hu
  obtain ⟨p, hp, h⟩ := List.mem_flatMap.1 hu
  simp only [List.mem_cons, Option.some.injEq, List.mem_replicate] at h
  simp only [List.mem_cons, List.not_mem_nil, or_false] at hp
  rcases h with rfl | rfl | ⟨_, rfl⟩
  · rcases hp with rfl | rfl | rfl | rfl | rfl | rfl <;> norm_num
  · rcases hp with rfl | rfl | rfl | rfl | rfl | rfl <;> norm_num
  · exact le_refl _

theorem twoMonths_sample : sample (remaining [1, 2] twoMonths) 2 12 1 0 6 = [5, 5, 5, 6] := by
  simp [sample, accum, remaining, twoMonths, List.range_succ]
  norm_num

theorem twoMonths_two (c : ℕ) (hc : c < 12) : ¬ Unfit (remaining [2] twoMonths) 2 c 2000 2000 2005 := by
  rintro ⟨h4, h⟩
  have e2 : ((2000 : ℤ) - 2000).toNat = 0 := rfl
  have e3 : ((2005 : ℤ) - 2000 + 1).toNat = 6 := rfl
  rw [e2, e3] at h4 h
  have s0 : sample (remaining [2] twoMonths) 2 12 0 0 6 = [8, 1, 2, 3, 1] := by
    simp [sample, accum, remaining, twoMonths, List.range_succ]
  have s1 : sample (remaining [2] twoMonths) 2 12 1 0 6 = [7, 8, 5, 5, 5, 6] := by
    simp [sample, accum, remaining, twoMonths, List.range_succ]
    norm_num
  have s2 : sample (remaining [2] twoMonths) 2 12 2 0 6 = [7, 0, 4, 3, 2, 5] := by
    simp [sample, accum, remaining, twoMonths, List.range_succ]
  by_cases h0 : c = 0
  · subst h0
    rw [s0] at h
    exact not_allButOne (u := 8) (v := 1) (z := 2) (by simp) (by simp) (by simp) (by norm_num) (by norm_num) (by norm_num) h
  by_cases h1 : c = 1
  · subst h1
    rw [s1] at h
    exact not_allButOne (u := 7) (v := 8) (z := 5) (by simp) (by simp) (by simp) (by norm_num) (by norm_num) (by norm_num) h
  by_cases h2 : c = 2
  · subst h2
    rw [s2] at h
    exact not_allButOne (u := 7) (v := 0) (z := 4) (by simp) (by simp) (by simp) (by norm_num) (by norm_num) (by norm_num) h
  have : wet (sample (remaining [2] twoMonths) 2 12 c 0 6) = [] := by
    interval_cases c <;> first | omega | simp [sample, accum, remaining, twoMonths, List.range_succ, wet]
  rw [this] at h4
  simp at h4

theorem twoMonths_one (done : List ℕ) (hd : 1 ∈ done) (c : ℕ) (hc : c < 12) : ¬ Unfit (remaining done twoMonths) 1 c 2000 2000 2005 := by
  have hrem : remaining done twoMonths = remaining [1] twoMonths := by
    unfold remaining
    by_cases h : 12 ∣ twoMonths.length
    · rw [if_pos ⟨hd, h⟩, if_pos ⟨by simp, h⟩]
    · rw [if_neg (fun k => h k.2), if_neg (fun k => h k.2)]
  rw [hrem]
  rintro ⟨h4, h⟩
  have e2 : ((2000 : ℤ) - 2000).toNat = 0 := rfl
  have e3 : ((2005 : ℤ) - 2000 + 1).toNat = 6 := rfl
  rw [e2, e3] at h4 h
  have s0 : sample (remaining [1] twoMonths) 1 12 0 0 6 = [8, 1, 2, 3, 1] := by
    simp [sample, accum, remaining, twoMonths, List.range_succ]
  have s1 : sample (remaining [1] twoMonths) 1 12 1 0 6 = [7, 4, 3, 2, 5] := by
    simp [sample, accum, remaining, twoMonths, List.range_succ]
  by_cases h0 : c = 0
  · subst h0
    rw [s0] at h
    exact not_allButOne (u := 8) (v := 1) (z := 2) (by simp) (by simp) (by simp) (by norm_num) (by norm_num) (by norm_num) h
  by_cases h1 : c = 1
  · subst h1
    rw [s1] at h
    exact not_allButOne (u := 7) (v := 4) (z := 3) (by simp) (by simp) (by simp) (by norm_num) (by norm_num) (by norm_num) h
  have : wet (sample (remaining [1] twoMonths) 1 12 c 0 6) = [] := by
    interval_cases c <;> first | omega | simp [sample, accum, remaining, twoMonths, List.range_succ, wet]
  rw [this] at h4
  simp at h4

noncomputable def twoVar : NcVar (Fl ℝ) := ⟨["lat", "lon", "time"], [1, 1, 72], some "mm", twoMonths.map toFl⟩
noncomputable def twoTime : NcVar (Fl ℝ) := ⟨["time"], [72], none, (List.range 72).map (fun i : ℕ => .fin (i : ℝ))⟩
noncomputable def twoLat : NcVar (Fl ℝ) := ⟨["lat"], [1], some "degrees_north", [.fin 40]⟩
noncomputable def twoLon : NcVar (Fl ℝ) := ⟨["lon"], [1], some "degrees_east", [.fin 0]⟩

noncomputable def winterWorld : World (Fl ℝ) :=
  ⟨fun f => if f = "p.nc" then some [("prcp", twoVar), ("lat", twoLat), ("lon", twoLon), ("time", twoTime)] else none, fun _ => none, []⟩

theorem twoMonths_length : twoMonths.length = 72 := by simp [twoMonths]

theorem two_ready (scales : List Int) : SpiReady id pairYear (spiArgs scales none none) winterWorld [("prcp", twoVar), ("lat", twoLat), ("lon", twoLon), ("time", twoTime)] twoVar twoTime twoLat twoLon 1 1 72
    (twoMonths.map toFl) 2000 where
  input := ⟨⟨"p.nc", rfl, rfl⟩, ⟨"prcp", rfl, rfl, by simp, rain_ne_fitting⟩, ⟨rfl, rfl, by simp [twoVar, twoMonths_length]⟩, ⟨rfl, rfl, by simp [twoTime]⟩, ⟨rfl, rfl, rfl⟩, ⟨rfl, rfl, rfl⟩⟩
  places := by decide
  coords := by
    intro p hp
    simp only [List.mem_cons, List.not_mem_nil, or_false] at hp
    rcases hp with rfl | rfl | rfl | rfl <;> simp [twoVar]
  coordUnits := ⟨by simp [twoLat], by simp [twoLon]⟩
  units := ⟨"mm", rfl, by unfold convertPrecip; rw [if_pos (by decide)]; rfl⟩
  first := ⟨.fin ((0 : ℕ) : ℝ), rfl, by simp [pairYear]⟩
  monthly := rfl
  fresh := rfl
  load := rfl
  save := by intro f hf; cases hf

theorem two_series : seriesAt 1 72 0 0 twoMonths = twoMonths := by
  unfold seriesAt
  rw [List.take_of_length_le] <;> simp [twoMonths_length]

/-- **C118, order of the scales.** The same command with the scales in another order: for scales 2 and 1 the run finishes, for scales 1 and 2 it ends with an exception, because the months without
precipitation are missing once scale 1 has been processed. -/
theorem C118_order_fails (E : Ext (Fl ℝ)) (hE : ExtNan E) (hR : ExtReal E) (base : String) :
    (∃ w', spiMain E pairYear id 2000 2005 base 2 (spiArgs [2, 1] none none) winterWorld = (.ok (), w')) ∧
      ¬ ∃ w', spiMain E pairYear id 2000 2005 base 2 (spiArgs [1, 2] none none) winterWorld = (.ok (), w') := by
  constructor
  · refine (C118_exact E hE hR pairYear id 2000 2005 base 2 (by decide) _ winterWorld (two_ready [2, 1]) twoMonths_nonneg [2, 1] rfl (by decide) (by decide) (by decide) (by decide)).2 ?_
    intro pre s post e i hi k hk c hc
    obtain rfl : i = 0 := by omega
    obtain rfl : k = 0 := by omega
    rw [two_series]
    match pre, e with
    | [], e =>
      simp only [List.nil_append, List.cons.injEq] at e
      rw [← e.1]
      exact twoMonths_two c hc
    | [y], e =>
      simp only [List.cons_append, List.nil_append, List.cons.injEq] at e
      rw [← e.1, ← e.2.1]
      exact twoMonths_one [2, 1] (by simp) c hc
    | y :: z :: pre, e =>
      simp at e
  · rw [C118_exact E hE hR pairYear id 2000 2005 base 2 (by decide) _ winterWorld (two_ready [1, 2]) twoMonths_nonneg [1, 2] rfl (by decide) (by decide) (by decide) (by decide)]
    intro h
    have := h [1] 2 [] rfl 0 (by decide) 0 (by decide) 1 (by decide)
    rw [two_series] at this
    apply this
    unfold Unfit
    have e2 : ((2000 : ℤ) - 2000).toNat = 0 := rfl
    have e3 : ((2005 : ℤ) - 2000 + 1).toNat = 6 := rfl
    rw [e2, e3, show ([1] ++ [2] : List ℕ) = [1, 2] from rfl, twoMonths_sample]
    constructor
    · simp [wet]
    · refine ⟨5, 6, ?_⟩
      show List.Perm [5, 5, 5, 6] (6 :: [5, 5, 5])
      exact List.perm_append_comm (l₁ := [(5 : ℝ), 5, 5]) (l₂ := [6])

/-- there are such functions -/
example := C118_order_fails sigmoidExt sigmoidExt_nan sigmoidExt_real "out"

end CI.Props
