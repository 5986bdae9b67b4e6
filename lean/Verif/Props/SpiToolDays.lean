import Verif.Lemmas.SpiLiveDays
import Verif.Props.SpiCommand
import Verif.Props.CliLiveDaily

/-!
# C126 and C127: which runs of the SPI tool on daily values finish, and its daily SPI from the command line to the files
-/

namespace CI.Props
open CI Spec Spec.McKee

section
variable {F : Type} [FloatOps F] [FloatLaws F]

/-! ## Every arithmetic -/

/-- a scale and distribution for which the tool can fit parameters and compute the SPI of the years of 366 days at all places, after those of `done` -/
def FeasibleDays (E : Ext F) (cs ce y0 : Int) (Y A B N : Nat) (mm : List F) (done : List (Int × Distribution)) (sd : Int × Distribution) : Prop :=
  ∀ i < A, ∀ k < B,
    (∃ fp, fittedParameters E sd.2 (toolSeries .daily (done.map Prod.fst) (place366 y0 Y (seriesAt B N i k mm))) sd.1 y0 cs ce .daily = .ok fp) ∧
    ∃ out, spi E (Arr.of1d (toolSeries .daily ((done ++ [sd]).map Prod.fst) (place366 y0 Y (seriesAt B N i k mm)))) sd.1 sd.2 y0 cs ce .daily none = .ok out

/-- the days of a place in the file of a scale: the SPI of the years of 366 days, without the 29 February of ordinary years -/
noncomputable def toolDays (E : Ext F) (cs ce y0 : Int) (Y : Nat) (done : List Int) (s : Int) (dist : Distribution) (l : List F) : Res (List F) := do
  let r ← spi E (Arr.of1d (toolSeries .daily done (place366 y0 Y l))) s dist y0 cs ce .daily none
  pure (calendarDays y0 Y r)

theorem feasibleDays_iff (E : Ext F) (j : SpiJob) (hper : j.per = .daily) (y0 : Int) (Y A B N : Nat) (mm : List F) {ss : List Int} {done post : List (Int × Distribution)} {sd : Int × Distribution}
    (h : processingOrder ss = done ++ sd :: post) :
    PairFine E j y0 A B (fun i k => place366 y0 Y (seriesAt B N i k mm)) ([] ++ done) sd ↔ FeasibleDays E j.calStart j.calEnd y0 Y A B N mm done sd := by
  have hd : sd.2 ≠ .other := by
    rcases order_dist ss sd (by rw [h]; simp) with e | e <;> rw [e] <;> simp
  have e1 := fun l : List F => cellAfter_prefix l h .daily
  have e2 := fun l : List F => cellAfter_prefix l (ss := ss) (done := done ++ [sd]) (rest := post) (by rw [h]; simp) .daily
  unfold PairFine FeasibleDays
  rw [hper, List.nil_append]
  simp only [e1, e2]
  refine forall_congr' fun i => forall_congr' fun _ => forall_congr' fun k => forall_congr' fun _ => and_congr_left fun _ => ?_
  rw [← fittedParameters_fitVal]
  exact and_iff_left hd

/-- the days in an output file -/
theorem out_days {E : Ext F} {j : SpiJob} {y0 : Int} {d : NcFile F} {t lat lon : NcVar F} {A B N Y : Nat} {s : Int} {dist : Distribution} {S : Nat → Nat → List F} {fs : Files F}
    (hper : j.per = .daily) (hd : dist = .gamma ∨ dist = .pearson) (ht : List.lookup "time" d = some t) (hlat : List.lookup "lat" d = some lat) (hlon : List.lookup "lon" d = some lon)
    (hN : t.data.length = N) (hy : 1 ≤ Y) (hy1 : 1 ≤ y0) (hy2 : y0 + Y - 1 ≤ 9999) (h : OutHolds E j "day" y0 d A B (Y * 366) [A, B, Y * 366] s dist S fs) :
    SpiHolds fs j.base dist s true t lat lon A B N (fun i k => do
      let r ← spi E (Arr.of1d (S i k)) s dist y0 j.calStart j.calEnd .daily none
      pure (calendarDays y0 Y r)) := by
  obtain ⟨rdat, new, h1, h2, h3, h4⟩ := h
  have hu' : j.per.unit = .ok "day" := by rw [hper]; rfl
  have hdl : isDaily j.per = true := by rw [hper]; rfl
  rw [outFile_eq hu' _ _ hd, hdl] at h1
  rw [spiName_eq hu' _ hd, hdl] at h3
  obtain ⟨lat', lon', time', v, e1, e2, e3, e4, e5, e6, e7, e8, e9⟩ := buildSpiGrid_ok (spiName_ne dist s true) h3
  rw [hlat] at e1
  rw [hlon] at e2
  rw [ht] at e3
  cases e1
  cases e2
  cases e3
  rw [hper] at e4
  simp only [spiOutValues] at e4
  have hlen : ∀ s' t' : List F, (do let g ← transformToGregorian (Arr.of1d s') y0; if g.length = t.data.length then pure g else .error .valueError : Res (List F)) = .ok t' →
      t'.length = t.data.length ∧ transformToGregorian (Arr.of1d s') y0 = .ok t' := by
    intro s' t' h
    obtain ⟨g, h5, h⟩ := Res.bind_ok h
    split at h
    · next hl => cases h; exact ⟨hl, h5⟩
    · cases h
  obtain ⟨_, _, k3, k4, k5⟩ := alongLast_ok h2 (fun s' t' h => (hlen s' t' h).1) e4
  refine ⟨new, _, h1, e5, e6, e7, e8, rfl, ?_, ?_, ?_⟩
  · rw [k3, hN]
  · rw [k4, hN]
  · intro i hi k hk
    dsimp only
    have h4' := h4 i hi k hk
    rw [hper] at h4'
    have := (hlen _ _ (k5 i hi k hk)).2
    rw [greg_ok _ y0 Y (seriesAt_length h2 hi hk) hy hy1 hy2, Except.ok.injEq, hN] at this
    rw [h4', ← this]
    rfl

/-- **C126, runs of the SPI tool on daily values.** For every usable input of the days of whole years, scales that are not negative, and any number of workers: the tool processes gamma and then
Pearson for every scale, in the order of the arguments. `good` are those before the first that is not feasible: exactly these are written, in that order, and each file holds the coordinates of the
input and at every place the days of the SPI of its years of 366 days. The run ends without exception exactly if nothing is left; only then the fitting parameters are saved. No other file is
changed. -/
theorem C126_run (E : Ext F) (hE : ExtNan E) (yearOf : F → Int) (lower : String → String) (cs ce : Int) (base : String) (wk : Nat) (hwk : 1 ≤ wk) (a : SpiArgs) (w : World F)
    {d : NcFile F} {x t lat lon : NcVar F} {A B N Y : Nat} {mm : List F} {y0 : Int} (h : SpiDays lower yearOf a w d x t lat lon A B N mm y0 Y)
    {scales : List Int} (hs : a.scales = some scales) (hpos : ∀ s ∈ scales, 0 ≤ s) :
    ∃ res w' good rest, spiMain E yearOf lower cs ce base wk a w = (res, w') ∧ processingOrder scales = good ++ rest ∧
      (∀ pre sd post, good = pre ++ sd :: post → FeasibleDays E cs ce y0 Y A B N mm pre sd) ∧
      (∀ sd post, rest = sd :: post → ¬ FeasibleDays E cs ce y0 Y A B N mm good sd) ∧
      (res = .ok () ↔ rest = []) ∧
      w'.written = w.written ++ good.map (fun sd => (fileName base (spiName sd.2 sd.1 true), spiName sd.2 sd.1 true)) ++
        (if rest = [] then (a.saveParams.map (fun f => (f, ""))).toList else []) ∧
      (∀ pre s dist post, good = pre ++ (s, dist) :: post → (s, dist) ∉ post → a.saveParams ≠ some (fileName base (spiName dist s true)) →
        SpiHolds w'.files base dist s true t lat lon A B N (fun i k => toolDays E cs ce y0 Y (pre.map Prod.fst ++ [s]) s dist (seriesAt B N i k mm))) ∧
      ∀ f, (∀ sd ∈ good, f ≠ fileName base (spiName sd.2 sd.1 true)) → (rest = [] → a.saveParams ≠ some f) → w'.files f = w.files f := by
  obtain ⟨f, d', w0, w1, res, w', r1, r2, r3, r4, r5, r6, ⟨good, rest, o1, o2, o3, o4, o5, o6, o7⟩, r7⟩ := spiRun_days (cs := cs) (ce := ce) (base := base) hE hwk h hs hpos
  rw [processingOrder_eq] at o1
  have hper : (spiJob a .grid f cs ce base wk).per = .daily := h.daily
  have hu : (spiJob a .grid f cs ce base wk).per.unit = .ok "day" := by rw [hper]; rfl
  have hdl : isDaily (spiJob a .grid f cs ce base wk).per = true := by rw [hper]; rfl
  have hgd : ∀ sd ∈ good, sd.2 = .gamma ∨ sd.2 = .pearson := fun sd hsd => order_dist scales sd (by rw [o1]; simp [hsd])
  have hfile : ∀ sd ∈ good, spiOutFile base "day" sd.1 sd.2 = fileName base (spiName sd.2 sd.1 true) := by
    intro sd hsd
    rw [outFile_eq hu _ _ (hgd sd hsd), hdl]
  have hname : ∀ sd ∈ good, spiOutName sd.2 sd.1 "day" = spiName sd.2 sd.1 true := by
    intro sd hsd
    rw [spiName_eq hu _ (hgd sd hsd), hdl]
  have hbase : (spiJob a .grid f cs ce base wk).base = base := rfl
  have hsv : (spiJob a .grid f cs ce base wk).save = a.saveParams := rfl
  -- what the end of the run changes
  have hend : w'.written = w1.written ++ (if rest = [] then (a.saveParams.map (fun f => (f, ""))).toList else []) ∧
      ∀ q, (rest = [] → a.saveParams ≠ some q) → w'.files q = w1.files q := by
    rcases r7 with ⟨hok, g, hg⟩ | ⟨⟨e, he⟩, rfl⟩
    · have hr := o4.1 hok
      rw [if_pos hr]
      refine ⟨?_, fun q hq => save_files hg q (by rw [hsv]; exact hq hr)⟩
      unfold spiSave at hg
      rw [hsv] at hg
      cases hsp : a.saveParams with
      | none =>
        rw [hsp] at hg
        cases hg
        simp
      | some q =>
        rw [hsp] at hg
        cases hg
        rfl
    · have hr : rest ≠ [] := by
        intro hr
        have := o4.2 hr
        rw [he] at this
        cases this
      rw [if_neg hr]
      exact ⟨by simp, fun q _ => rfl⟩
  refine ⟨res, w', good, rest, r1, o1, ?_, ?_, o4, ?_, ?_, ?_⟩
  · intro pre sd post e
    exact (feasibleDays_iff E (spiJob a .grid f cs ce base wk) hper y0 Y A B N mm (ss := scales) (post := post ++ rest) (by rw [o1, e]; simp)).1 (o2 pre sd post e)
  · intro sd post e hf
    exact o3 sd post e ((feasibleDays_iff E (spiJob a .grid f cs ce base wk) hper y0 Y A B N mm (ss := scales) (post := post) (by rw [o1, e])).2 hf)
  · rw [hend.1, o5, r3, hbase]
    congr 2
    apply List.map_congr_left
    intro sd hsd
    rw [hfile sd hsd, hname sd hsd]
  · intro pre s dist post e hlast hsave
    have o := o6 pre (s, dist) post e hlast
    have hd := hgd (s, dist) (by rw [e]; simp)
    have hcell : ∀ l : List F, cellAfter l (spiJob a .grid f cs ce base wk).per ([] ++ pre ++ [(s, dist)]) = toolSeries .daily (pre.map Prod.fst ++ [s]) l := by
      intro l
      rw [hper, List.nil_append, cellAfter_prefix l (ss := scales) (rest := post ++ rest) (by rw [o1, e]; simp) .daily]
      simp
    simp only [hcell] at o
    obtain ⟨file, y, e1, e2⟩ := out_days hper hd r4 r5 r6 h.input.time.2.2 h.years h.dates.1 h.dates.2 o
    refine ⟨file, y, ?_, e2⟩
    rw [hend.2 _ (fun _ => hsave)]
    exact e1
  · intro q hq hq'
    rw [hend.2 q hq', o7 q (fun sd hsd => by rw [hbase, hfile sd hsd]; exact hq sd hsd), r2]

/-- **C126, finished runs.** The run ends without exception exactly if every scale and distribution is feasible when its turn comes. -/
theorem C126_finish (E : Ext F) (hE : ExtNan E) (yearOf : F → Int) (lower : String → String) (cs ce : Int) (base : String) (wk : Nat) (hwk : 1 ≤ wk) (a : SpiArgs) (w : World F)
    {d : NcFile F} {x t lat lon : NcVar F} {A B N Y : Nat} {mm : List F} {y0 : Int} (h : SpiDays lower yearOf a w d x t lat lon A B N mm y0 Y)
    {scales : List Int} (hs : a.scales = some scales) (hpos : ∀ s ∈ scales, 0 ≤ s) :
    (∃ w', spiMain E yearOf lower cs ce base wk a w = (.ok (), w')) ↔
      ∀ pre sd post, processingOrder scales = pre ++ sd :: post → FeasibleDays E cs ce y0 Y A B N mm pre sd := by
  obtain ⟨res, w', good, rest, r1, r2, r3, r4, r5, _⟩ := C126_run E hE yearOf lower cs ce base wk hwk a w h hs hpos
  rw [r1]
  constructor
  · rintro ⟨w'', hw⟩
    have hr := r5.1 (Prod.ext_iff.1 hw).1
    subst hr
    rw [List.append_nil] at r2
    rw [r2]
    exact r3
  · intro hall
    refine ⟨w', ?_⟩
    rw [r5.2 ?_]
    cases rest with
    | nil => rfl
    | cons sd post => exact absurd (hall good sd post r2) (r4 sd post rfl)

end

/-! ## Exact arithmetic -/

/-- the years of 366 days the tool works on once the scales `done` have been processed: after scale 1 the days without precipitation are missing -/
noncomputable def remainingDays (done : List ℕ) (x : List (Option ℝ)) : List (Option ℝ) :=
  if 1 ∈ done then x.map (fun o => if o = some 0 then none else o) else x

theorem remainingDays_length (done : List ℕ) (x : List (Option ℝ)) : (remainingDays done x).length = x.length := by
  unfold remainingDays
  split <;> simp

theorem remainingDays_nonneg {done : List ℕ} {x : List (Option ℝ)} (hx : ∀ a, some a ∈ x → 0 ≤ a) : ∀ a, some a ∈ remainingDays done x → 0 ≤ a := by
  intro a ha
  unfold remainingDays at ha
  split at ha
  · obtain ⟨o, ho, h⟩ := List.mem_map.1 ha
    split at h
    · cases h
    · rw [h] at ho
      exact hx a ho
  · exact hx a ha

theorem toolSeries_days (done : List ℕ) (y0 : ℤ) (Y : ℕ) (l : List (Option ℝ)) (hx : ∀ a, some a ∈ l → 0 ≤ a) (hl : l.length = yearsLen y0 Y) :
    toolSeries .daily (done.map Int.ofNat) (place366 y0 Y (l.map toFl)) = (remainingDays done (days366 optMean y0 Y l)).map toFl := by
  have hdv : Periodicity.daily.steps ∣ (days366 optMean y0 Y l).length := by
    rw [days366_len y0 Y l hl]
    exact ⟨Y, Nat.mul_comm _ _⟩
  rw [place366_toFl, toolSeries_toFl_of .daily done _ (days366_nonneg Y y0 l hx)]
  unfold remainingDays
  by_cases h : 1 ∈ done
  · rw [if_pos ⟨h, hdv⟩, if_pos h]
  · rw [if_neg (fun k => h k.1), if_neg h]

/-- when the daily SPI of a record of years of 366 days can be computed -/
theorem spi_days_exact (E : Ext (Fl ℝ)) (hR : ExtReal E) (x : List (Option ℝ)) (hx : ∀ a, some a ∈ x → 0 ≤ a) (k : ℕ) (h1 : 1 ≤ k) (h2 : k ≤ x.length) (y0 cs ce : ℤ) (c1 : y0 ≤ cs) (c2 : cs ≤ ce)
    (c3 : ce < y0 + yearsOf x.length 366) :
    ((∃ r, spi E (Arr.of1d (x.map toFl)) k .pearson y0 cs ce .daily none = .ok r) ↔ ∀ c < 366, ¬ UnfitDay x k c y0 cs ce) ∧
      ∃ r, spi E (Arr.of1d (x.map toFl)) k .gamma y0 cs ce .daily none = .ok r := by
  by_cases hs : ∃ a, some a ∈ x
  · have hn : ∃ v ∈ (Arr.of1d (x.map toFl)).data, isNan v = false := by
      obtain ⟨a, ha⟩ := hs
      exact ⟨toFl (some a), List.mem_map.2 ⟨_, ha, rfl⟩, rfl⟩
    have hk : (1 : Int) ≤ (k : Int) := by exact_mod_cast h1
    constructor
    · have key := C10_pearson_exact E hR x hx k h1 h2 .daily (by decide) y0 cs ce c1 c2 c3 hs
      rcases C10_pearson_partial E (Arr.of1d (x.map toFl)) k y0 cs ce .daily (.inl rfl) (.inr rfl) hk hn with ⟨out, ho, _⟩ | he
      · refine ⟨fun _ c hc hbad => ?_, fun _ => ⟨out, ho⟩⟩
        have := key.2 ⟨c, hc, hbad⟩
        rw [ho] at this
        cases this
      · refine ⟨fun ⟨r, hr⟩ => ?_, fun h => ?_⟩
        · rw [he] at hr
          cases hr
        · obtain ⟨c, hc, hbad⟩ := key.1 he
          exact absurd hbad (h c hc)
    · obtain ⟨out, ho, _⟩ := C10_gamma E (Arr.of1d (x.map toFl)) k y0 cs ce .daily (.inl rfl) (.inr rfl) hk hn
      exact ⟨out, ho⟩
  · refine ⟨⟨fun _ c hc hbad => ?_, fun _ => ⟨_, spi_missing E x hs k .pearson y0 cs ce .daily⟩⟩, _, spi_missing E x hs k .gamma y0 cs ce .daily⟩
    have := hbad.1
    rw [sample_missing x hs k 366 c _ _ h1] at this
    simp [wet] at this

theorem spiDays_length {lower : String → String} {yearOf : Fl ℝ → Int} {a : SpiArgs} {w : World (Fl ℝ)} {d : NcFile (Fl ℝ)} {x t lat lon : NcVar (Fl ℝ)} {A B N Y : Nat} {vals : List (Option ℝ)}
    {y0 : Int} (h : SpiDays lower yearOf a w d x t lat lon A B N (vals.map toFl) y0 Y) {i k : Nat} (hi : i < A) (hk : k < B) : (seriesAt B N i k vals).length = yearsLen y0 Y := by
  obtain ⟨u, hu, hc⟩ := h.units
  have := seriesAt_len (.inl ⟨rfl, h.input.grid.2.1⟩ : IsLayout .grid x.shape A B N) (by rw [convert_length.1 hc, h.input.grid.2.1]; simpa using h.input.grid.2.2) hi hk
  rw [seriesAt_toFl, List.length_map] at this
  rw [this, h.whole]

/-- **C126, exactly.** In exact arithmetic, for daily precipitation that is not negative (places may have missing days or no values at all), scales from 1 to the number of days in years of 366
days and calibration years inside the record, a run of the SPI tool ends without exception exactly if for no scale, no place and no calendar day the Pearson fit fails for the record that remains
when this scale is processed: at least four positive accumulations in the calibration years, and all accumulations but one the same. -/
theorem C126_exact (E : Ext (Fl ℝ)) (hE : ExtNan E) (hR : ExtReal E) (yearOf : Fl ℝ → Int) (lower : String → String) (cs ce : Int) (base : String) (wk : Nat) (hwk : 1 ≤ wk) (a : SpiArgs)
    (w : World (Fl ℝ)) {d : NcFile (Fl ℝ)} {x t lat lon : NcVar (Fl ℝ)} {A B N Y : Nat} {vals : List (Option ℝ)} {y0 : Int}
    (h : SpiDays lower yearOf a w d x t lat lon A B N (vals.map toFl) y0 Y) (hnn : ∀ u, some u ∈ vals → 0 ≤ u) (scales : List ℕ) (hs : a.scales = some (scales.map Int.ofNat))
    (hsc : ∀ s ∈ scales, 1 ≤ s ∧ s ≤ Y * 366) (c1 : y0 ≤ cs) (c2 : cs ≤ ce) (c3 : ce < y0 + Y) :
    (∃ w', spiMain E yearOf lower cs ce base wk a w = (.ok (), w')) ↔
      ∀ pre s post, scales = pre ++ s :: post → ∀ i < A, ∀ k < B, ∀ c < 366, ¬ UnfitDay (remainingDays (pre ++ [s]) (days366 optMean y0 Y (seriesAt B N i k vals))) s c y0 cs ce := by
  rw [C126_finish E hE yearOf lower cs ce base wk hwk a w h hs (by
    intro s hs'
    obtain ⟨n, _, rfl⟩ := List.mem_map.1 hs'
    exact Int.natCast_nonneg n)]
  have hmem : ∀ i k u, some u ∈ seriesAt B N i k vals → 0 ≤ u := fun i k u hu => hnn u (List.mem_of_mem_drop (List.mem_of_mem_take hu))
  -- a scale at a place
  have hpl : ∀ (done : List ℕ) (s : ℕ), 1 ≤ s ∧ s ≤ Y * 366 → ∀ i < A, ∀ k < B,
      ((∃ fp, fittedParameters E .pearson (toolSeries .daily (done.map Int.ofNat) (place366 y0 Y (seriesAt B N i k (vals.map toFl)))) s y0 cs ce .daily = .ok fp) ↔
        ∀ c < 366, ¬ UnfitDay (remainingDays done (days366 optMean y0 Y (seriesAt B N i k vals))) s c y0 cs ce) ∧
      (∃ fp, fittedParameters E .gamma (toolSeries .daily (done.map Int.ofNat) (place366 y0 Y (seriesAt B N i k (vals.map toFl)))) s y0 cs ce .daily = .ok fp) ∧
      ((∃ out, spi E (Arr.of1d (toolSeries .daily (done.map Int.ofNat) (place366 y0 Y (seriesAt B N i k (vals.map toFl))))) s .pearson y0 cs ce .daily none = .ok out) ↔
        ∀ c < 366, ¬ UnfitDay (remainingDays done (days366 optMean y0 Y (seriesAt B N i k vals))) s c y0 cs ce) ∧
      ∃ out, spi E (Arr.of1d (toolSeries .daily (done.map Int.ofNat) (place366 y0 Y (seriesAt B N i k (vals.map toFl))))) s .gamma y0 cs ce .daily none = .ok out := by
    intro done s hs' i hi k hk
    have hlen := spiDays_length h hi hk
    rw [seriesAt_toFl, toolSeries_days done y0 Y _ (hmem i k) hlen]
    have hl : (remainingDays done (days366 optMean y0 Y (seriesAt B N i k vals))).length = Y * 366 := by rw [remainingDays_length, days366_len y0 Y _ hlen]
    have hn := remainingDays_nonneg (done := done) (days366_nonneg Y y0 _ (hmem i k))
    generalize remainingDays done (days366 optMean y0 Y (seriesAt B N i k vals)) = q at hl hn ⊢
    have c3' : ce < y0 + yearsOf q.length 366 := by rw [hl, yearsOf_days]; exact c3
    obtain ⟨p1, p2⟩ := fitted_exact_of E hE hR q hn s hs'.1 (by rw [hl]; exact hs'.2) .daily (by decide) y0 cs ce c1 c2 c3'
    obtain ⟨p3, p4⟩ := spi_days_exact E hR q hn s hs'.1 (by rw [hl]; exact hs'.2) y0 cs ce c1 c2 c3'
    exact ⟨p1, p2, p3, p4⟩
  constructor
  · intro hall pre s post e i hi k hk
    have hs' := hsc s (by rw [e]; simp)
    have hf := hall (processingOrder (pre.map Int.ofNat) ++ [((s : Int), .gamma)]) ((s : Int), .pearson) (processingOrder (post.map Int.ofNat)) (by
      rw [e, List.map_append, order_append]
      simp [processingOrder]) i hi k hk
    have hs2 := hf.2
    rw [toolSeries_mem (done' := (pre ++ [s]).map Int.ofNat) (by
      have := order_one (pre.map Int.ofNat)
      simp only [List.map_append, List.mem_append, this]
      simp)] at hs2
    exact (hpl (pre ++ [s]) s hs' i hi k hk).2.2.1.1 hs2
  · rintro hall pre ⟨s, dist⟩ post e
    obtain ⟨before, after, e1, e2⟩ := order_split e
    obtain ⟨before, l2, rfl, rfl, h3⟩ := List.map_eq_append_iff.1 e1
    obtain ⟨s, after, rfl, rfl, rfl⟩ := List.map_eq_cons_iff.1 h3
    have hs' := hsc s (by simp)
    intro i hi k hk
    rcases e2 with ⟨rfl, rfl⟩ | ⟨rfl, rfl⟩
    · obtain ⟨_, q2, _, _⟩ := hpl before s hs' i hi k hk
      obtain ⟨_, _, _, q4⟩ := hpl (before ++ [s]) s hs' i hi k hk
      refine ⟨?_, ?_⟩
      · rw [toolSeries_mem (done' := before.map Int.ofNat) (order_one _)]
        exact q2
      · rw [toolSeries_mem (done' := (before ++ [s]).map Int.ofNat) (by
          have := order_one (before.map Int.ofNat)
          simp only [List.map_append, List.mem_append, this]
          simp)]
        exact q4
    · obtain ⟨q1, _, q3, _⟩ := hpl (before ++ [s]) s hs' i hi k hk
      have hno := hall before s after rfl i hi k hk
      refine ⟨?_, ?_⟩
      · rw [toolSeries_mem (done' := (before ++ [s]).map Int.ofNat) (by
          have := order_one (before.map Int.ofNat)
          simp only [List.map_append, List.mem_append, this]
          simp)]
        exact q1.2 hno
      · rw [toolSeries_mem (done' := (before ++ [s]).map Int.ofNat) (by
          have := order_one (before.map Int.ofNat)
          simp only [List.map_append, List.mem_append, this]
          simp)]
        exact q3.2 hno

/-! ## C127: from the command line to the files -/

/-- the two files of a scale, in the order in which they are written -/
def dailySpiFiles (base : String) (scales : List ℕ) : List (String × String) :=
  scales.flatMap (fun s => [(base ++ "_spi_gamma_" ++ toString s ++ "_day.nc", "spi_gamma_" ++ toString s ++ "_day"),
    (base ++ "_spi_pearson_" ++ toString s ++ "_day.nc", "spi_pearson_" ++ toString s ++ "_day")])

theorem spi_day_names (base : String) (s : ℕ) :
    spiName .gamma (s : Int) true = "spi_gamma_" ++ toString s ++ "_day" ∧ spiName .pearson (s : Int) true = "spi_pearson_" ++ toString s ++ "_day" ∧
      fileName base (spiName .gamma (s : Int) true) = base ++ "_spi_gamma_" ++ toString s ++ "_day.nc" ∧
      fileName base (spiName .pearson (s : Int) true) = base ++ "_spi_pearson_" ++ toString s ++ "_day.nc" := by
  have e : toString (s : Int) = toString s := rfl
  refine ⟨?_, ?_, ?_, ?_⟩ <;> simp only [fileName, spiName, distName, e, if_true] <;> apply String.toList_inj.1 <;> simp [String.toList_append]

theorem order_day_files (base : String) (scales : List ℕ) :
    (processingOrder (scales.map Int.ofNat)).map (fun sd => (fileName base (spiName sd.2 sd.1 true), spiName sd.2 sd.1 true)) = dailySpiFiles base scales := by
  induction scales with
  | nil => rfl
  | cons s l ih =>
    obtain ⟨e1, e2, e3, e4⟩ := spi_day_names base s
    simp only [List.map_cons, processingOrder, ih, dailySpiFiles, List.flatMap_cons, List.cons_append, List.nil_append]
    rw [show Int.ofNat s = (s : Int) from rfl, e3, e4, e1, e2]

/-- **C127.** The documented command line of the SPI tool for daily precipitation of whole calendar years (any files, names, scales, calibration years inside the record, numbers of workers, separate
values or `=`), in exact arithmetic, for precipitation that is not negative and, for every scale, has a Pearson fit at all places and calendar days in the record that remains when its turn comes
(else no run finishes, C126): the tool ends without exception, writes exactly two files per scale, gamma before Pearson, in the order of the scales, and then the fitting parameters if asked for;
it changes no other file. The values of the file of a scale are, at every place, those of the days of the published index of the precipitation of that place in millimetres, in years of 366 days;
once scale 1 was processed, days without precipitation count as missing. -/
theorem C127_spi (E : Ext (Fl ℝ)) (hE : ExtNan E) (hR : ExtReal E) (G : ℝ → ℝ → ℝ → ℝ) (P : ℝ → ℝ → ℝ → ℝ → ℝ) (Φ : ℝ → ℝ)
    (hG : ∀ v a b, 0 < v → 0 < a → 0 < b → E.gammaCdf (.fin v) (.fin a) (.fin b) = .fin (G v a b) ∧ 0 < G v a b ∧ G v a b < 1)
    (hP : ∀ v sk loc sc, 0 < v → 0 < sc → Pearson3.Inside loc sc sk v →
      E.pearson3Cdf (.fin v) (.fin sk) (.fin loc) (.fin sc) = .fin (P v sk loc sc) ∧ 0 < P v sk loc sc ∧ P v sk loc sc < 1)
    (hΦ : ∀ q, 0 < q → q < 1 → E.normPpf (.fin q) = .fin (Φ q))
    (toInt : String → Option Int) (ht : ∀ n : Int, toInt (toString n) = some n) (cpus : Nat) (lower : String → String)
    (yearOf : Fl ℝ → Int) (j : String → Bool) (c : SpiCommand) (hc : SpiWritable j c) (cs ce : Int)
    (hcs : c.calibrationStart = some cs) (hce : c.calibrationEnd = some ce) (hcpu : 1 ≤ numberOfWorkers c.multiprocessing cpus) (w : World (Fl ℝ)) {d : NcFile (Fl ℝ)}
    {x t lat lon : NcVar (Fl ℝ)} {A B N Y : Nat} {vals : List (Option ℝ)} {y0 : Int} (h : SpiDays lower yearOf c.args w d x t lat lon A B N (vals.map toFl) y0 Y)
    (hnn : ∀ u, some u ∈ vals → 0 ≤ u) (scales : List Nat) (hs : c.args.scales = some (scales.map Int.ofNat)) (hsc : ∀ s ∈ scales, 1 ≤ s ∧ s ≤ Y * 366) (c1 : y0 ≤ cs) (c2 : cs ≤ ce)
    (c3 : ce < y0 + Y) (hsave : ∀ p ∈ dailySpiFiles c.outputFileBase scales, c.args.saveParams ≠ some p.1)
    (hfit : ∀ pre s post, scales = pre ++ s :: post → ∀ i < A, ∀ k < B, ∀ m < 366, ¬ UnfitDay (remainingDays (pre ++ [s]) (days366 optMean y0 Y (seriesAt B N i k vals))) s m y0 cs ce) :
    ∃ w', spiTool E toInt cpus lower yearOf (spiCommandLine j c) w = (.ended (.ok ()), w') ∧
      w'.written = w.written ++ dailySpiFiles c.outputFileBase scales ++ (c.args.saveParams.map (fun f => (f, ""))).toList ∧
      (∀ f, (∀ p ∈ dailySpiFiles c.outputFileBase scales, f ≠ p.1) → c.args.saveParams ≠ some f → w'.files f = w.files f) ∧
      ∀ pre s post, scales = pre ++ s :: post → s ∉ post →
        SpiFileHolds w'.files (c.outputFileBase ++ "_spi_gamma_" ++ toString s ++ "_day.nc") ("spi_gamma_" ++ toString s ++ "_day") t lat lon A B N
          (fun i k out => OfDays (fun p r => GammaIndexOf 366 G Φ (remainingDays (pre ++ [s]) p) s y0 cs ce r) y0 Y (seriesAt B N i k vals) out) ∧
        SpiFileHolds w'.files (c.outputFileBase ++ "_spi_pearson_" ++ toString s ++ "_day.nc") ("spi_pearson_" ++ toString s ++ "_day") t lat lon A B N
          (fun i k out => OfDays (fun p r => PearsonIndexOf 366 P Φ (remainingDays (pre ++ [s]) p) s y0 cs ce r) y0 Y (seriesAt B N i k vals) out) := by
  have hpos : ∀ s ∈ scales.map Int.ofNat, 0 ≤ s := by
    intro s hs'
    obtain ⟨n, _, rfl⟩ := List.mem_map.1 hs'
    exact Int.natCast_nonneg n
  obtain ⟨res, w', good, rest, r1, r2, _, _, r5, r6, r7, r8⟩ :=
    C126_run E hE yearOf lower cs ce c.outputFileBase (numberOfWorkers c.multiprocessing cpus) hcpu c.args w h hs hpos
  have hfin : res = .ok () := by
    obtain ⟨w'', hw⟩ := (C126_exact E hE hR yearOf lower cs ce c.outputFileBase (numberOfWorkers c.multiprocessing cpus) hcpu c.args w h hnn scales hs hsc c1 c2 c3).2 hfit
    rw [r1] at hw
    exact (Prod.ext_iff.1 hw).1
  have hrest := r5.1 hfin
  subst hfin hrest
  rw [List.append_nil] at r2
  subst r2
  rw [if_pos rfl, order_day_files] at r6
  have hfile : ∀ p ∈ processingOrder (scales.map Int.ofNat), (fileName c.outputFileBase (spiName p.2 p.1 true), spiName p.2 p.1 true) ∈ dailySpiFiles c.outputFileBase scales := by
    intro p hp
    rw [← order_day_files]
    exact List.mem_map.2 ⟨p, hp, rfl⟩
  have hmem : ∀ i k u, some u ∈ seriesAt B N i k vals → 0 ≤ u := fun i k u hu => hnn u (List.mem_of_mem_drop (List.mem_of_mem_take hu))
  refine ⟨w', ?_, r6, ?_, ?_⟩
  · unfold spiTool
    rw [C105_spi toInt ht j c hc]
    simp only [hcs, hce, spiMain_both, r1]
  · intro f hf hf'
    exact r8 f (fun sd hsd e => hf _ (hfile sd hsd) e) (fun _ => hf')
  · intro pre s post e hlast
    obtain ⟨n1, n2, n3, n4⟩ := spi_day_names c.outputFileBase s
    have hs' := hsc s (by rw [e]; simp)
    have hord : processingOrder (scales.map Int.ofNat) =
        processingOrder (pre.map Int.ofNat) ++ ((s : Int), .gamma) :: ((s : Int), .pearson) :: processingOrder (post.map Int.ofNat) := by
      rw [e, List.map_append, order_append]
      rfl
    have hlast' : ∀ dist, ((s : Int), dist) ∉ processingOrder (post.map Int.ofNat) := by
      intro dist hm
      obtain ⟨n, hn, hns⟩ := List.mem_map.1 (order_mem hm)
      have : n = s := Int.ofNat.inj hns
      exact hlast (this ▸ hn)
    have key : ∀ (dist : Distribution) (pre' : List (Int × Distribution)), (1 ∈ pre'.map Prod.fst ++ [(s : Int)] ↔ (1 : Int) ∈ (pre ++ [s]).map Int.ofNat) → ∀ i < A, ∀ k < B, ∀ out,
        toolDays E cs ce y0 Y (pre'.map Prod.fst ++ [(s : Int)]) s dist (seriesAt B N i k (vals.map toFl)) = .ok out →
        ∃ r, spi E (Arr.of1d ((remainingDays (pre ++ [s]) (days366 optMean y0 Y (seriesAt B N i k vals))).map toFl)) s dist y0 cs ce .daily none = .ok r ∧ out = calendarDays y0 Y r := by
      intro dist pre' hone i hi k hk out ho
      unfold toolDays at ho
      rw [toolSeries_mem (done' := (pre ++ [s]).map Int.ofNat) hone, seriesAt_toFl, toolSeries_days _ y0 Y _ (hmem i k) (spiDays_length h hi hk)] at ho
      obtain ⟨r, q1, q2⟩ := Res.bind_ok ho
      cases q2
      exact ⟨r, q1, rfl⟩
    have hone := order_one (pre.map Int.ofNat)
    have hl : ∀ i < A, ∀ k < B, (remainingDays (pre ++ [s]) (days366 optMean y0 Y (seriesAt B N i k vals))).length = Y * 366 := by
      intro i hi k hk
      rw [remainingDays_length, days366_len y0 Y _ (spiDays_length h hi hk)]
    have hy : ∀ i < A, ∀ k < B, ce < y0 + yearsOf (remainingDays (pre ++ [s]) (days366 optMean y0 Y (seriesAt B N i k vals))).length Periodicity.daily.steps := by
      intro i hi k hk
      rw [hl i hi k hk, show Periodicity.daily.steps = 366 from rfl, yearsOf_days]
      exact c3
    constructor
    · obtain ⟨file, y, g1, g2, g3, g4, g5, g6, g7, g8, g9⟩ := r7 _ _ _ _ hord (by
        rw [List.mem_cons, not_or]
        exact ⟨by simp, hlast' _⟩) (hsave _ (hfile ((s : Int), .gamma) (by rw [hord]; simp)))
      rw [n3] at g1
      rw [n1] at g5
      refine ⟨file, y, g1, g2, g3, g4, g5, g6, g7, g8, fun i hi k hk => ?_⟩
      obtain ⟨r, q1, q2⟩ := key .gamma _ (by simp only [List.map_append, List.mem_append, hone]; simp) i hi k hk _ (g9 i hi k hk)
      exact ⟨r, gammaIndexOf_of E hE hR G Φ hG hΦ _ (remainingDays_nonneg (days366_nonneg Y y0 _ (hmem i k))) s hs'.1 (by rw [hl i hi k hk]; exact hs'.2) y0 cs ce c1 c2 .daily (.inr rfl)
        (hy i hi k hk) _ q1, q2⟩
    · obtain ⟨file, y, g1, g2, g3, g4, g5, g6, g7, g8, g9⟩ := r7 (processingOrder (pre.map Int.ofNat) ++ [((s : Int), .gamma)]) _ _ _ (by rw [hord]; simp) (hlast' .pearson)
        (hsave _ (hfile ((s : Int), .pearson) (by rw [hord]; simp)))
      rw [n4] at g1
      rw [n2] at g5
      refine ⟨file, y, g1, g2, g3, g4, g5, g6, g7, g8, fun i hi k hk => ?_⟩
      obtain ⟨r, q1, q2⟩ := key .pearson _ (by simp only [List.map_append, List.mem_append, hone]; simp) i hi k hk _ (g9 i hi k hk)
      exact ⟨r, pearsonIndexOf_of E hE hR P Φ hP hΦ _ (remainingDays_nonneg (days366_nonneg Y y0 _ (hmem i k))) s hs'.1 (by rw [hl i hi k hk]; exact hs'.2) y0 cs ce c1 c2 .daily (.inr rfl)
        (hy i hi k hk) _ q1, q2⟩

/-! ## The two tools on daily values -/

section
variable {F : Type} [FloatOps F] [FloatLaws F]

open Classical in
/-- **C120, agreement on daily values.** In every arithmetic: if the main tool (SPI) and the SPI tool finish on the same grid of the days of whole years with the same calibration years, then for a
scale and distribution that both compute, their files hold the same values at every place, bit by bit, whose record has no day without precipitation in years of 366 days - and at all places if the
SPI tool got no scale 1 before or at this scale. -/
theorem C120_agree_daily (E : Ext F) (hE : ExtNan E) (T : Trig F) (cs ce : Int) (wk wk' : Nat) (hwk : 1 ≤ wk) (hwk' : 1 ≤ wk') (lower : String → String) (yearOf : F → Int) (cmp : CoordCmp F)
    (a : CliArgs) (w : World F) (hi : a.index = "spi") {f v : String} {d : NcFile F} {x t lat lon : NcVar F} {A B N Y : Nat} {mm : List F} {y0 y1 : Int}
    (hM : DailyGrid lower yearOf a w f v d x A B N mm y0 y1 Y) (hfresh : w.shared "result_array" = none) (scales : List Nat) (hs : a.scales = some (scales.map Int.ofNat))
    (a' : SpiArgs) (base : String) (w' : World F) (h : SpiDays lower yearOf a' w' d x t lat lon A B N mm y0 Y) (scales' : List Nat) (hs' : a'.scales = some (scales'.map Int.ofNat))
    {u u' : World F} (hr : processIndices (indexFunction E T cs ce) wk lower yearOf cmp a w = (.ok (), u)) (hr' : spiMain E yearOf lower cs ce base wk' a' w' = (.ok (), u'))
    (s : Nat) (hm : s ∈ scales) (pre post : List Nat) (hm' : scales' = pre ++ s :: post) (hlast : s ∉ post) (dist : Distribution) (hd : dist = .gamma ∨ dist = .pearson)
    (hsave : a'.saveParams ≠ some (fileName base (spiName dist s true))) :
    ∃ file y file' y', u.files (fileName a.outputFileBase (Output.spi dist s).name) = some file ∧ ((Output.spi dist s).name, y) ∈ file ∧
      u'.files (fileName base (spiName dist s true)) = some file' ∧ List.lookup (spiName dist s true) file' = some y' ∧
      ∀ i < A, ∀ k < B, 1 ∉ pre ++ [s] ∨ (∀ z ∈ place366 y0 Y (seriesAt B N i k mm), feq z (lit 0) = false) → seriesAt B N i k y.data = seriesAt B N i k y'.data := by
  -- the main tool
  obtain ⟨res, u1, m1, m2, m3, m4, _⟩ := C122_run E hE T cs ce wk hwk lower yearOf cmp a w (.inl hi) hM hfresh scales hs
  rw [hr] at m1
  obtain ⟨rfl, rfl⟩ := Prod.mk.inj m1
  have hall := m2.1 rfl
  have hdoc : Output.spi dist s ∈ documented a.index false scales := by
    rw [hi]
    show _ ∈ spiOutputs scales
    unfold spiOutputs
    rw [List.mem_flatMap]
    exact ⟨s, hm, by rcases hd with rfl | rfl <;> simp⟩
  have htake : (documented a.index false scales).takeWhile (fun o => decide (ComputableDaily E cs ce y0 Y mm A B N o)) = documented a.index false scales := by
    rw [List.takeWhile_eq_self_iff]
    intro o ho
    exact @decide_eq_true _ (Classical.propDecidable _) (hall o ho)
  rw [htake] at m4
  obtain ⟨file, y, e1, e2, _, _, e3⟩ := m4 _ hdoc
  -- the SPI tool
  obtain ⟨res, u2, good, rest, r1, r2, _, _, r5, _, r7, _⟩ := C126_run E hE yearOf lower cs ce base wk' hwk' a' w' h hs' (by
    intro n hn
    obtain ⟨n, _, rfl⟩ := List.mem_map.1 hn
    exact Int.natCast_nonneg n)
  rw [hr'] at r1
  obtain ⟨rfl, rfl⟩ := Prod.mk.inj r1
  have hrest := r5.1 rfl
  subst hrest
  rw [List.append_nil] at r2
  subst r2
  have hord : processingOrder (scales'.map Int.ofNat) =
      processingOrder (pre.map Int.ofNat) ++ ((s : Int), .gamma) :: ((s : Int), .pearson) :: processingOrder (post.map Int.ofNat) := by
    rw [hm', List.map_append, order_append]
    rfl
  have hlast' : ∀ dist, ((s : Int), dist) ∉ processingOrder (post.map Int.ofNat) := by
    intro dist hm
    obtain ⟨n, hn, hns⟩ := List.mem_map.1 (order_mem hm)
    have : n = s := Int.ofNat.inj hns
    exact hlast (this ▸ hn)
  have hone := order_one (pre.map Int.ofNat)
  have hmem1 : (1 : Int) ∈ (pre ++ [s]).map Int.ofNat ↔ 1 ∈ pre ++ [s] := by
    rw [List.mem_map]
    constructor
    · rintro ⟨n, hn, e⟩
      have : n = 1 := Int.ofNat.inj e
      rwa [this] at hn
    · exact fun h => ⟨1, h, rfl⟩
  have hsplit : ∃ pre' post', processingOrder (scales'.map Int.ofNat) = pre' ++ ((s : Int), dist) :: post' ∧ ((s : Int), dist) ∉ post' ∧
      (1 ∈ pre'.map Prod.fst ++ [(s : Int)] ↔ 1 ∈ pre ++ [s]) := by
    rcases hd with rfl | rfl
    · refine ⟨_, _, hord, by rw [List.mem_cons, not_or]; exact ⟨by simp, hlast' _⟩, ?_⟩
      rw [← hmem1]
      simp only [List.map_append, List.mem_append, hone]
      simp
    · refine ⟨processingOrder (pre.map Int.ofNat) ++ [((s : Int), .gamma)], _, by rw [hord]; simp, hlast' _, ?_⟩
      rw [← hmem1]
      simp only [List.map_append, List.mem_append, hone]
      simp
  obtain ⟨pre', post', p1, p2, p3⟩ := hsplit
  obtain ⟨file', y', g1, _, _, _, g5, _, _, _, g9⟩ := r7 pre' (s : Int) dist post' p1 p2 hsave
  refine ⟨file, y, file', y', e1, e2, g1, g5, fun i hi k hk hz => ?_⟩
  have q1 := e3 i hi k hk
  have q2 := g9 i hi k hk
  have hsame : toolSeries .daily (pre'.map Prod.fst ++ [(s : Int)]) (place366 y0 Y (seriesAt B N i k mm)) = place366 y0 Y (seriesAt B N i k mm) := by
    generalize place366 y0 Y (seriesAt B N i k mm) = l at hz
    unfold toolSeries
    split
    next hc =>
      rcases hz with hz | hz
      · exact absurd (p3.1 hc.1) hz
      · conv_rhs => rw [← List.map_id l]
        apply List.map_congr_left
        intro z hzm
        rw [hz z hzm]
        rfl
    · rfl
  beta_reduce at q1 q2
  unfold toolDays at q2
  rw [hsame] at q2
  have q1 : (do let r ← spi E (Arr.of1d (place366 y0 Y (seriesAt B N i k mm))) s dist y0 cs ce .daily none; pure (calendarDays y0 Y r)) = Except.ok (seriesAt B N i k y.data) := q1
  rw [q1] at q2
  injection q2

end

/-! ## Concrete runs: one place, the years 2000 to 2004, in every year the same value on all days -/

def dayArgs (scales : List Int) : SpiArgs := ⟨.daily, some scales, some "p.nc", some "prcp", none, none, false⟩

noncomputable def plotTime : NcVar (Fl ℝ) := ⟨["time"], [1827], none, (List.range 1827).map (fun i : ℕ => .fin (i : ℝ))⟩
noncomputable def plotFile (u : ℕ → ℝ) : NcFile (Fl ℝ) := [("prcp", yearVar u), ("lat", gaugeLat), ("lon", gaugeLon), ("time", plotTime)]
noncomputable def plotWorld (u : ℕ → ℝ) : World (Fl ℝ) := ⟨fun g => if g = "p.nc" then some (plotFile u) else none, fun _ => none, []⟩

theorem plot_days (u : ℕ → ℝ) (scales : List Int) :
    SpiDays id fiveYear (dayArgs scales) (plotWorld u) (plotFile u) (yearVar u) plotTime gaugeLat gaugeLon 1 1 1827 ((yearVals u).map toFl) 2000 5 where
  input := ⟨⟨"p.nc", rfl, rfl⟩, ⟨"prcp", rfl, rfl, by simp, rain_ne_fitting⟩, ⟨rfl, rfl, by simp [yearVar, yearVals_length]⟩, ⟨rfl, rfl, by simp [plotTime]⟩, ⟨rfl, rfl, rfl⟩, ⟨rfl, rfl, rfl⟩⟩
  places := by decide
  coords := by
    intro p hp
    simp only [plotFile, List.mem_cons, List.not_mem_nil, or_false] at hp
    rcases hp with rfl | rfl | rfl | rfl <;> simp [yearVar]
  coordUnits := ⟨by simp [gaugeLat], by simp [gaugeLon]⟩
  units := ⟨"mm", rfl, by unfold convertPrecip; rw [if_pos (by decide)]; rfl⟩
  first := ⟨.fin ((0 : ℕ) : ℝ), by simp [plotTime, List.head?_range], by simp [fiveYear]⟩
  last := by
    refine ⟨.fin ((1826 : ℕ) : ℝ), by simp [plotTime, List.getLast?_range], ?_⟩
    show 2000 + ⌊((1826 : ℕ) : ℝ) / 366⌋ = 2004
    have : ⌊((1826 : ℕ) : ℝ) / 366⌋ = 4 := by
      rw [Int.floor_eq_iff]
      norm_num
    rw [this]
    norm_num
  years := by decide
  whole := by decide
  dates := by decide
  daily := rfl
  fresh := rfl
  load := rfl
  save := by intro f hf; cases hf

theorem plot_grid (u : ℕ → ℝ) (scales : List Int) :
    DailyGrid id fiveYear (dailyArgs "spi" scales) (plotWorld u) "p.nc" "prcp" (plotFile u) (yearVar u) 1 1 1827 ((yearVals u).map toFl) 2000 2004 5 := by
  refine ⟨⟨⟨rfl, rfl, rfl, rfl, ?_, by decide, demo_notOutput _ (by decide)⟩, .inl ⟨rfl, rfl⟩, by decide, ?_, ?_, ⟨plotTime, .fin ((0 : ℕ) : ℝ), .fin ((1826 : ℕ) : ℝ), rfl, ?_, ?_, ?_, ?_⟩, ⟨"mm", rfl, ?_⟩⟩, rfl, by decide, rfl, by decide, by decide, by decide⟩
  · simp [yearVar, yearVals_length]
  · intro c hc
    rcases (show c = "lat" ∨ c = "lon" ∨ c = "time" by simpa [yearVar] using hc) with rfl | rfl | rfl
    · exact ⟨_, rfl⟩
    · exact ⟨_, rfl⟩
    · exact ⟨_, rfl⟩
  · intro h
    exact absurd h (by simp [yearVar])
  · simp [plotTime, List.head?_range]
  · simp [plotTime, List.getLast?_range]
  · simp [fiveYear]
  · show 2000 + ⌊((1826 : ℕ) : ℝ) / 366⌋ = 2004
    have : ⌊((1826 : ℕ) : ℝ) / 366⌋ = 4 := by
      rw [Int.floor_eq_iff]
      norm_num
    rw [this]
    norm_num
  · unfold convertPrecip
    rw [if_pos (by decide)]
    rfl

theorem yearVals_nonneg {u : ℕ → ℝ} (hu : ∀ j, 0 ≤ u j) : ∀ v, some v ∈ yearVals u → 0 ≤ v := by
  intro v hv
  simp only [yearVals, List.mem_append, List.mem_replicate, Option.some.injEq] at hv
  rcases hv with h | h | h | h | h <;> rw [h.2] <;> exact hu _

/-- the accumulations over one day once scale 1 has been processed -/
theorem accum_left (u : ℕ → ℝ) (t : ℕ) (ht : t < 1830) : accum (remainingDays [1] (days366 optMean 2000 5 (yearVals u))) 1 t = if u (t / 366) = 0 then none else some (u (t / 366)) := by
  have hl : (days366 optMean 2000 5 (yearVals u)).length = 1830 := days366_len 2000 5 _ (by rw [yearVals_length]; decide)
  have hg := year_366_get u t ht
  generalize days366 optMean 2000 5 (yearVals u) = l at *
  have hg' : (remainingDays [1] l)[t]? = some (if u (t / 366) = 0 then none else some (u (t / 366))) := by
    unfold remainingDays
    rw [if_pos (by simp), List.getElem?_map, hg]
    simp only [Option.map_some, Option.some.injEq]
  have hl' : (remainingDays [1] l).length = 1830 := by rw [remainingDays_length, hl]
  generalize remainingDays [1] l = q at *
  unfold accum
  rw [List.getElem?_eq_getElem (by omega), Option.some.injEq] at hg'
  have hd : (q.drop (t + 1 - 1)).take 1 = [if u (t / 366) = 0 then none else some (u (t / 366))] := by
    rw [Nat.add_sub_cancel, List.drop_eq_getElem_cons (by omega), hg']; rfl
  simp only [hd]
  by_cases h : u (t / 366) = 0
  · simp [h]
  · simp [h, hl', ht]

theorem sample_left (u : ℕ → ℝ) (c : ℕ) (hc : c < 366) :
    sample (remainingDays [1] (days366 optMean 2000 5 (yearVals u))) 1 366 c 0 5 = [u 0, u 1, u 2, u 3, u 4].filterMap (fun v => if v = 0 then none else some v) := by
  unfold sample
  rw [show List.range 5 = [0, 1, 2, 3, 4] from rfl]
  simp only [List.filterMap_cons, List.filterMap_nil]
  rw [accum_left _ _ (by omega), accum_left _ _ (by omega), accum_left _ _ (by omega), accum_left _ _ (by omega), accum_left _ _ (by omega)]
  have d : ∀ y, ((0 + y) * 366 + c) / 366 = y := by omega
  simp only [d]

theorem left_levels (c : ℕ) (hc : c < 366) : sample (remainingDays [1] (days366 optMean 2000 5 (yearVals levels))) 1 366 c 0 5 = [1, 2, 4, 8] := by
  rw [sample_left levels c hc]
  norm_num [levels, List.filterMap_cons]

theorem plot_fit {u : ℕ → ℝ} (h3 : ∃ j k l, j < 5 ∧ k < 5 ∧ l < 5 ∧ u j ≠ 0 ∧ u k ≠ 0 ∧ u l ≠ 0 ∧ u j ≠ u k ∧ u j ≠ u l ∧ u k ≠ u l) (pre : List ℕ) (s : ℕ) (post : List ℕ) (e : [1] = pre ++ s :: post) (i : ℕ)
    (hi : i < 1) (k : ℕ) (hk : k < 1) (m : ℕ) (hm : m < 366) :
    ¬ UnfitDay (remainingDays (pre ++ [s]) (days366 optMean 2000 5 (seriesAt 1 1827 i k (yearVals u)))) s m 2000 2000 2004 := by
  obtain rfl : i = 0 := by omega
  obtain rfl : k = 0 := by omega
  have e2 : ((2000 : ℤ) - 2000).toNat = 0 := rfl
  have e3 : ((2004 : ℤ) - 2000 + 1).toNat = 5 := rfl
  match pre, e with
  | [], e =>
    simp only [List.nil_append, List.cons.injEq] at e
    rw [← e.1]
    rintro ⟨_, h⟩
    rw [e2, e3, List.nil_append, year_series, sample_left u m hm] at h
    obtain ⟨j, k, l, hj, hk, hl, a1, a2, a3, a4, a5, a6⟩ := h3
    have mem : ∀ j, j < 5 → u j ≠ 0 → u j ∈ [u 0, u 1, u 2, u 3, u 4].filterMap (fun v => if v = 0 then none else some v) := by
      intro j hj hn
      rw [List.mem_filterMap]
      refine ⟨u j, ?_, by rw [if_neg hn]⟩
      interval_cases j <;> simp
    exact not_allButOne (mem j hj a1) (mem k hk a2) (mem l hl a3) a4 a5 a6 h
  | y :: pre, e => simp at e

/-- C126 for 0, 1, 2, 4 and 8 mm on all days of the years: the run finishes -/
example (E : Ext (Fl ℝ)) (hE : ExtNan E) (hR : ExtReal E) : ∃ w', spiMain E fiveYear id 2000 2004 "out" 4 (dayArgs [1]) (plotWorld levels) = (.ok (), w') :=
  (C126_exact E hE hR fiveYear id 2000 2004 "out" 4 (by decide) _ _ (plot_days levels [1]) levels_nonneg [1] rfl (by decide) le_rfl (by norm_num) (by norm_num)).2
    (plot_fit ⟨1, 2, 3, by decide, by decide, by decide, by norm_num [levels], by norm_num [levels], by norm_num [levels], by norm_num [levels], by norm_num [levels], by norm_num [levels]⟩)

/-- C126 applies to every such record, for every arithmetic of it and several scales -/
example (E : Ext (Fl ℝ)) (hE : ExtNan E) (u : ℕ → ℝ) := C126_run E hE fiveYear id 2000 2004 "out" 2 (by decide) _ _ (plot_days u [1, 30]) rfl (by decide)

/-- **C120 fails on daily values.** The same file, the same years, scale 1: the main tool finishes and the SPI tool ends with an exception. On all days there are 0, 5, 5, 5 and 7 mm in the five
years; without the zero all but one value are the same. -/
theorem C120_daily_fails (E : Ext (Fl ℝ)) (hE : ExtNan E) (hR : ExtReal E) (T : Trig (Fl ℝ)) (cmp : CoordCmp (Fl ℝ)) :
    (∃ w', processIndices (indexFunction E T 2000 2004) 4 id fiveYear cmp (dailyArgs "spi" [1]) (plotWorld (fun j => if j = 0 then 0 else if j < 4 then 5 else 7)) = (.ok (), w')) ∧
      ¬ ∃ w', spiMain E fiveYear id 2000 2004 "out" 4 (dayArgs [1]) (plotWorld (fun j => if j = 0 then 0 else if j < 4 then 5 else 7)) = (.ok (), w') := by
  have e2 : ((2000 : ℤ) - 2000).toNat = 0 := rfl
  have e3 : ((2004 : ℤ) - 2000 + 1).toNat = 5 := rfl
  have hnn : ∀ v, some v ∈ yearVals (fun j => if j = 0 then (0 : ℝ) else if j < 4 then 5 else 7) → 0 ≤ v := yearVals_nonneg (by
    intro j
    beta_reduce
    split
    · exact le_rfl
    · split <;> norm_num)
  constructor
  · refine (C122_spi_exact E hE hR T 2000 2004 4 (by decide) cmp rfl (plot_grid _ [1]) hnn rfl [1] rfl (by decide) le_rfl (by norm_num) le_rfl).2 ?_
    intro s hs i hi k hk c hc
    obtain rfl : s = 1 := by simpa using hs
    obtain rfl : i = 0 := by omega
    obtain rfl : k = 0 := by omega
    rintro ⟨_, h⟩
    rw [year_series, e2, e3, sample_year _ c hc] at h
    exact not_allButOne (u := 0) (v := 5) (z := 7) (by simp) (by simp) (by simp) (by norm_num) (by norm_num) (by norm_num) h
  · intro h
    refine (C126_exact E hE hR fiveYear id 2000 2004 "out" 4 (by decide) _ _ (plot_days _ [1]) hnn [1] rfl (by decide) le_rfl (by norm_num) (by norm_num)).1 h [] 1 [] rfl 0 (by decide) 0 (by decide)
      0 (by decide) ?_
    unfold UnfitDay
    rw [year_series, e2, e3, List.nil_append, sample_left _ 0 (by decide)]
    norm_num [List.filterMap_cons]
    constructor
    · simp [wet]
    · refine ⟨5, 7, ?_⟩
      show List.Perm [5, 5, 5, 7] (7 :: [5, 5, 5])
      exact List.perm_append_comm (l₁ := [(5 : ℝ), 5, 5]) (l₂ := [7])

/-- the command of the SPI tool for that place -/
def plotCommand : SpiCommand := ⟨dayArgs [1], "out", some 2000, some 2004, .single⟩

theorem plot_writable : SpiWritable (fun _ => false) plotCommand := by
  refine ⟨⟨rfl, rfl⟩, (by decide : Periodicity.daily ≠ .other), ?_⟩
  intro p hp _ t ht
  simp only [plotCommand, dayArgs, List.mem_cons, List.not_mem_nil, or_false] at hp
  rcases hp with rfl | rfl | rfl | rfl | rfl <;> cases ht <;> exact .inl (by decide)

/-- C127: in the file `out_spi_gamma_1_day.nc` the value of 15 January 2003 is the published index of 4 mm; the year without precipitation counts as missing -/
example (toInt : String → Option Int) (ht : ∀ n : Int, toInt (toString n) = some n) :
    ∃ w' file y, spiTool realExt toInt 1 id fiveYear (spiCommandLine (fun _ => false) plotCommand) (plotWorld levels) = (.ended (.ok ()), w') ∧
      w'.files "out_spi_gamma_1_day.nc" = some file ∧ List.lookup "spi_gamma_1_day" file = some y ∧ y.shape = [1, 1, 1827] ∧
      y.data[366 + 365 + 365 + 14]? = some (.fin (clamp (index (fun v a b => gammaP a (v / b)) (fun q => 8 * (q - 1 / 2)) 0 [1, 2, 4, 8] 4))) := by
  obtain ⟨w', h1, _, _, h4⟩ := C127_spi realExt realExt_nan realExt_real (fun v a b => gammaP a (v / b)) (fun v _ _ _ => v / (v + 1)) (fun q => 8 * (q - 1 / 2)) realExt_G (by
      intro v sk loc sc hv _ _
      refine ⟨?_, by positivity, by rw [div_lt_one (by linarith)]; linarith⟩
      show (if v ≤ 0 then Fl.fin 0 else Fl.fin (v / (v + 1))) = _
      rw [if_neg (by linarith)]) realExt_Φ toInt ht 1 id fiveYear (fun _ => false) plotCommand plot_writable 2000 2004 rfl rfl (by decide) (plotWorld levels)
    (plot_days levels [1]) levels_nonneg [1] rfl (by decide) le_rfl (by norm_num) (by norm_num) (by intro p _ h; cases h)
    (plot_fit ⟨1, 2, 3, by decide, by decide, by decide, by norm_num [levels], by norm_num [levels], by norm_num [levels], by norm_num [levels], by norm_num [levels], by norm_num [levels]⟩)
  obtain ⟨⟨file, y, g1, _, _, _, g5, _, g7, _, g9⟩, _⟩ := h4 [] 1 [] rfl (by simp)
  refine ⟨w', file, y, h1, ?_, ?_, g7, ?_⟩
  · rw [← g1]
    rfl
  · rw [← g5]
    rfl
  · obtain ⟨r, hg, hr⟩ := g9 0 (by decide) 0 (by decide)
    beta_reduce at hg
    rw [year_series, List.nil_append] at hg
    have hl : (remainingDays [1] (days366 optMean 2000 5 (yearVals levels))).length = 1830 := by
      rw [remainingDays_length]
      exact days366_len 2000 5 _ (by rw [yearVals_length]; decide)
    have hser : seriesAt 1 1827 0 0 y.data = y.data.take 1827 := rfl
    have hv := (hg.2 1112 (by rw [hl]; norm_num)).2.2 4 (by rw [accum_left levels 1112 (by omega)]; norm_num [levels]) (by norm_num)
    have e2 : ((2000 : ℤ) - 2000).toNat = 0 := rfl
    have e3 : ((2004 : ℤ) - 2000 + 1).toNat = 5 := rfl
    have e4 : yearsOf (remainingDays [1] (days366 optMean 2000 5 (yearVals levels))).length 366 = 5 := by rw [hl]; norm_num [yearsOf]
    have e5 : 1112 % 366 = 14 := rfl
    rw [e2, e3, e4, e5, left_levels 14 (by omega)] at hv
    have hwet : wet [1, 2, 4, 8] = [1, 2, 4, 8] := by unfold wet; norm_num
    simp only [hwet] at hv
    have := hv ⟨1, by simp, 2, by simp, by norm_num⟩
    have hc := calendarDays_get 5 2000 r 3 14 (by omega) (by omega) (by rw [hg.1, hl])
    rw [← hr, show yearsLen 2000 3 + 14 = 366 + 365 + 365 + 14 by decide, show 3 * 366 + 14 = 1112 from rfl, this, hser, List.getElem?_take_of_lt (by omega)] at hc
    rw [hc]
    have hd : dry [1, 2, 4, 8] = 0 := by unfold dry; norm_num
    rw [hd]
    norm_num

/-- C120 on daily values: 1, 2, 4, 8 and 16 mm on all days of the years, both tools finish and agree at the place -/
example (E : Ext (Fl ℝ)) (hE : ExtNan E) (hR : ExtReal E) (T : Trig (Fl ℝ)) (cmp : CoordCmp (Fl ℝ)) :
    ∃ w1 w2 file y file' y', processIndices (indexFunction E T 2000 2004) 4 id fiveYear cmp (dailyArgs "spi" [1]) (plotWorld (fun j => 2 ^ j)) = (.ok (), w1) ∧
      spiMain E fiveYear id 2000 2004 "out" 4 (dayArgs [1]) (plotWorld (fun j => 2 ^ j)) = (.ok (), w2) ∧
      w1.files "out_spi_pearson_01.nc" = some file ∧ ("spi_pearson_01", y) ∈ file ∧ w2.files "out_spi_pearson_1_day.nc" = some file' ∧ List.lookup "spi_pearson_1_day" file' = some y' ∧
      seriesAt 1 1827 0 0 y.data = seriesAt 1 1827 0 0 y'.data := by
  have e2 : ((2000 : ℤ) - 2000).toNat = 0 := rfl
  have e3 : ((2004 : ℤ) - 2000 + 1).toNat = 5 := rfl
  have hnn : ∀ v, some v ∈ yearVals (fun j => (2 : ℝ) ^ j) → 0 ≤ v := yearVals_nonneg (by intro j; positivity)
  obtain ⟨w1, h1⟩ := (C122_spi_exact E hE hR T 2000 2004 4 (by decide) cmp rfl (plot_grid (fun j => 2 ^ j) [1]) hnn rfl [1] rfl (by decide) le_rfl (by norm_num) le_rfl).2 (by
    intro s hs i hi k hk c hc
    obtain rfl : s = 1 := by simpa using hs
    obtain rfl : i = 0 := by omega
    obtain rfl : k = 0 := by omega
    rintro ⟨_, h⟩
    rw [year_series, e2, e3, sample_year _ c hc] at h
    exact not_allButOne (u := 2 ^ 0) (v := 2 ^ 1) (z := 2 ^ 2) (by simp) (by simp) (by simp) (by norm_num) (by norm_num) (by norm_num) h)
  obtain ⟨w2, h2⟩ := (C126_exact E hE hR fiveYear id 2000 2004 "out" 4 (by decide) _ _ (plot_days (fun j => 2 ^ j) [1]) hnn [1] rfl (by decide) le_rfl (by norm_num) (by norm_num)).2
    (plot_fit ⟨1, 2, 3, by decide, by decide, by decide, by norm_num, by norm_num, by norm_num, by norm_num, by norm_num, by norm_num⟩)
  obtain ⟨file, y, file', y', k1, k2, k3, k4, k5⟩ := C120_agree_daily E hE T 2000 2004 4 4 (by decide) (by decide) id fiveYear cmp (dailyArgs "spi" [1]) (plotWorld (fun j => 2 ^ j)) rfl (plot_grid _ [1]) rfl
    [1] rfl (dayArgs [1]) "out" _ (plot_days _ [1]) [1] rfl h1 h2 1 (by decide) [] [] rfl (by simp) .pearson (.inr rfl) (by intro h; cases h)
  refine ⟨w1, w2, file, y, file', y', h1, h2, ?_, ?_, ?_, ?_, k5 0 (by decide) 0 (by decide) (.inr ?_)⟩
  · rw [← k1]; congr 1
  · exact k2
  · rw [← k3]; congr 1
  · rw [← k4]; congr 1
  · intro z hz
    rw [seriesAt_toFl, year_series, place366_toFl, List.mem_map] at hz
    obtain ⟨o, ho, rfl⟩ := hz
    obtain ⟨t, ht, he⟩ := List.mem_iff_getElem.1 ho
    have hl : (days366 optMean 2000 5 (yearVals (fun j => (2 : ℝ) ^ j))).length = 1830 := days366_len 2000 5 _ (by rw [yearVals_length]; decide)
    have hg := year_366_get (fun j => (2 : ℝ) ^ j) t (by omega)
    rw [List.getElem?_eq_getElem ht, he, Option.some.injEq] at hg
    subst hg
    show feq (Fl.fin ((2 : ℝ) ^ (t / 366))) (lit 0) = false
    rw [Fl.lit_def, Fl.feq_fin]
    simp

end CI.Props
