import Verif.Lemmas.SpiLoad
import Verif.Props.CliCells

/-!
# C68–C73: complete runs of the SPI tool
-/

namespace CI.Props
open CI Spec

variable {F : Type} [FloatOps F]

/-! ## C68: the values in the output files -/

/-- the series from which the tool computes the SPI of a cell after the scales `done` (including the present one): after scale 1 the zeros of a series of whole years (with at
least one value and not clipped) are missing -/
noncomputable def toolSeries (per : Periodicity) (done : List Int) (l : List F) : List F :=
  open Classical in if 1 ∈ done ∧ InPlace (Arr.of1d l) per then l.map (fun v => if feq v (lit 0) then nan else v) else l

variable [FloatLaws F]

theorem cellAfter_tool (l : List F) (per : Periodicity) (pre : List Int) (s : Int) : cellAfter l per (toolPairs pre ++ [(s, .gamma)]) = toolSeries per (pre ++ [s]) l := by
  have h : (1, Distribution.gamma) ∈ toolPairs pre ++ [(s, Distribution.gamma)] ↔ 1 ∈ pre ++ [s] := by
    simp [toolPairs]
  unfold cellAfter seriesAfter toolSeries
  by_cases hc : 1 ∈ pre ++ [s] ∧ InPlace (Arr.of1d l) per
  · rw [if_pos hc, if_pos ⟨h.2 hc.1, hc.2⟩]
    rfl
  · rw [if_neg hc, if_neg (fun k => hc ⟨h.1 k.1, k.2⟩)]
    rfl

theorem cellAfter_before (l : List F) (per : Periodicity) (pre : List Int) : cellAfter l per (toolPairs pre) = toolSeries per pre l := by
  have h : (1, Distribution.gamma) ∈ toolPairs pre ↔ 1 ∈ pre := by
    simp [toolPairs]
  unfold cellAfter seriesAfter toolSeries
  by_cases hc : 1 ∈ pre ∧ InPlace (Arr.of1d l) per
  · rw [if_pos hc, if_pos ⟨h.2 hc.1, hc.2⟩]
    rfl
  · rw [if_neg hc, if_neg (fun k => hc ⟨h.1 k.1, k.2⟩)]
    rfl

omit [FloatOps F] [FloatLaws F] in
theorem spiName_ne (dist : Distribution) (s : Int) (daily : Bool) : spiName dist s daily ≠ "lat" ∧ spiName dist s daily ≠ "lon" ∧ spiName dist s daily ≠ "time" := by
  unfold spiName
  refine ⟨?_, ?_, ?_⟩ <;> intro h <;> have h := congrArg String.toList h <;> simp [String.toList_append] at h

omit [FloatLaws F] in
/-- what a built data set holds -/
theorem buildSpiGrid_ok {per : Periodicity} {ds : Int} {d new : NcFile F} {name : String} {res : Arr F} (hname : name ≠ "lat" ∧ name ≠ "lon" ∧ name ≠ "time")
    (h : buildSpiGrid per ds d name res = .ok new) :
    ∃ lat lon time v, List.lookup "lat" d = some lat ∧ List.lookup "lon" d = some lon ∧ List.lookup "time" d = some time ∧ spiOutValues per ds time.data.length res = .ok v ∧
      List.lookup "lat" new = some lat ∧ List.lookup "lon" new = some lon ∧ List.lookup "time" new = some time ∧
      List.lookup name new = some ⟨["lat", "lon", "time"], v.shape, none, v.data⟩ ∧ v.shape = [lat.data.length, lon.data.length, time.data.length] := by
  unfold buildSpiGrid at h
  obtain ⟨lat, h1, h⟩ := Res.bind_ok h
  obtain ⟨lon, h2, h⟩ := Res.bind_ok h
  obtain ⟨time, h3, h⟩ := Res.bind_ok h
  obtain ⟨v, h4, h⟩ := Res.bind_ok h
  split at h
  swap
  · cases h
  next hc =>
  cases h
  refine ⟨lat, lon, time, v, spiCoord_ok h1, spiCoord_ok h2, ncAttr_ok h3, h4, rfl, rfl, rfl, ?_, hc.2.2.2.2⟩
  simp [List.lookup_cons, beq_eq_false_iff_ne.2 hname.1, beq_eq_false_iff_ne.2 hname.2.1, beq_eq_false_iff_ne.2 hname.2.2]

omit [FloatLaws F] in
theorem save_files {j : SpiJob} {g : NcFile F} {w w' : World F} (h : spiSave j g w = (.ok (), w')) (q : String) (hq : j.save ≠ some q) : w'.files q = w.files q := by
  unfold spiSave at h
  split at h
  · cases h; rfl
  · next f hf =>
    cases h
    simp only [writeFile]
    rw [if_neg]
    rintro rfl
    exact hq hf

/-- the values of a monthly output -/
theorem out_monthly {E : Ext F} {j : SpiJob} {u : String} {ds : Int} {d : NcFile F} {x t lat lon : NcVar F} {A B N : Nat} {scale : Int} {dist : Distribution} {cell : Nat → Nat → List F}
    {fs : Files F} (hper : j.per = .monthly) (hu : j.per.unit = .ok u) (hd : dist = .gamma ∨ dist = .pearson) (hx : x.shape = [A, B, N]) (ht : List.lookup "time" d = some t)
    (hlat : List.lookup "lat" d = some lat) (hlon : List.lookup "lon" d = some lon)
    (h : OutHolds E j u ds d A B N (SpiShape .monthly x t lat lon ds) scale dist cell fs) :
    SpiHolds fs j.base dist scale false t lat lon A B N (fun i k => spi E (Arr.of1d (cell i k)) scale dist ds j.calStart j.calEnd .monthly none) := by
  obtain ⟨rdat, new, h1, h2, h3, h4⟩ := h
  have hdl : isDaily j.per = false := by rw [hper]; rfl
  rw [outFile_eq hu _ _ hd, hdl] at h1
  rw [spiName_eq hu _ hd, hdl] at h3
  obtain ⟨lat', lon', time', v, e1, e2, e3, e4, e5, e6, e7, e8, e9⟩ := buildSpiGrid_ok (spiName_ne dist scale false) h3
  rw [hlat] at e1
  rw [hlon] at e2
  rw [ht] at e3
  cases e1
  cases e2
  cases e3
  rw [hper] at e4
  simp only [spiOutValues] at e4
  cases e4
  refine ⟨new, _, h1, e5, e6, e7, e8, rfl, hx, h2, ?_⟩
  intro i hi k hk
  rw [← hper]
  exact h4 i hi k hk

/-- **C68, monthly** (`_partial`: the full property, that the values are the SPI of the precipitation of the place, is false for series with zeros once scale 1 has been processed,
see `C68_fails`). After every finished run of the SPI tool in a new process without loaded parameters on a grid of monthly precipitation, whatever the number of workers: for every
scale and both distributions the documented file has the coordinates of the input and the documented variable; at every place its values are the SPI of the precipitation of that
place in millimetres, or, if scale 1 was processed up to and including this scale and the series has whole years, of the series with its zeros replaced by NaN. `yearOf t0` is the
first year. -/
theorem C68_monthly_partial (E : Ext F) (hE : ExtNan E) (yearOf : F → Int) (lower : String → String) (cs ce : Int) (base : String) (wk : Nat) (a : SpiArgs) (w w' : World F)
    (hnew : w.shared = fun _ => none) (hload : a.loadParams = none) (hper : a.periodicity = .monthly)
    (h : spiMain E yearOf lower cs ce base wk a w = (.ok (), w')) {d : NcFile F} {x t lat lon : NcVar F} {A B N : Nat} (hin : SpiInput w.files a d x t lat lon A B N)
    {t0 : F} (ht0 : t.data.head? = some t0) {pre post : List Int} {s : Int} (hs : a.scales = some (pre ++ s :: post)) (hlast : s ∉ post)
    (dist : Distribution) (hd : dist = .gamma ∨ dist = .pearson) (hsave : a.saveParams ≠ some (fileName base (spiName dist s false))) :
    ∃ u mm, x.units = some u ∧ convertPrecip (lower u) x.data = .ok mm ∧
      SpiHolds w'.files base dist s false t lat lon A B N
        (fun i k => spi E (Arr.of1d (toolSeries .monthly (pre ++ [s]) (seriesAt B N i k mm))) s dist (yearOf t0) cs ce .monthly none) := by
  obtain ⟨it, f, u, d', un, mm, vals, n, g, w1, hu, p1, p2, p3, p4, p5, p6, p7, p8, o1, o2, _, _, _, hsv, _⟩ := spiRun_ok hE hnew hload h hin ht0 hs hlast
  rw [hper] at hu p3 o1 o2
  simp only [SpiValues] at p3
  subst p3
  have hn : N = n := by simpa using p4
  subst hn
  refine ⟨un, mm, p1, p2, ?_⟩
  have key : OutHolds E (spiJob a it f cs ce base wk) u (yearOf t0) d' A B N (SpiShape .monthly x t lat lon (yearOf t0)) s dist
      (fun i k => toolSeries .monthly (pre ++ [s]) (seriesAt B N i k mm)) w1.files := by
    rcases hd with rfl | rfl
    · simpa only [cellAfter_tool] using o1
    · simpa only [cellAfter_tool] using o2
  obtain ⟨file, y, e1, e2⟩ := out_monthly (j := spiJob a it f cs ce base wk) hper (by show a.periodicity.unit = _; rw [hper]; exact hu) hd hin.grid.2.1 p6 p7 p8 key
  refine ⟨file, y, ?_, e2⟩
  rw [save_files hsv _ hsave, ← e1]
  rfl

/-- **C68, unaffected series** (`_partial`: see `C68_monthly_partial`). If scale 1 was not processed up to and including this scale, or the precipitation of the place has no zeros,
the values written for the place are the SPI of its precipitation. -/
theorem C68_plain_partial (E : Ext F) (hE : ExtNan E) (yearOf : F → Int) (lower : String → String) (cs ce : Int) (base : String) (wk : Nat) (a : SpiArgs) (w w' : World F)
    (hnew : w.shared = fun _ => none) (hload : a.loadParams = none) (hper : a.periodicity = .monthly)
    (h : spiMain E yearOf lower cs ce base wk a w = (.ok (), w')) {d : NcFile F} {x t lat lon : NcVar F} {A B N : Nat} (hin : SpiInput w.files a d x t lat lon A B N)
    {t0 : F} (ht0 : t.data.head? = some t0) {pre post : List Int} {s : Int} (hs : a.scales = some (pre ++ s :: post)) (hlast : s ∉ post)
    (dist : Distribution) (hd : dist = .gamma ∨ dist = .pearson) (hsave : a.saveParams ≠ some (fileName base (spiName dist s false))) :
    ∃ u mm file y, x.units = some u ∧ convertPrecip (lower u) x.data = .ok mm ∧ w'.files (fileName base (spiName dist s false)) = some file ∧
      List.lookup (spiName dist s false) file = some y ∧
      ∀ i < A, ∀ k < B, 1 ∉ pre ++ [s] ∨ (∀ v ∈ seriesAt B N i k mm, feq v (lit 0) = false) →
        spi E (Arr.of1d (seriesAt B N i k mm)) s dist (yearOf t0) cs ce .monthly none = .ok (seriesAt B N i k y.data) := by
  obtain ⟨u, mm, e1, e2, file, y, e3, _, _, _, e7, _, _, _, e11⟩ := C68_monthly_partial E hE yearOf lower cs ce base wk a w w' hnew hload hper h hin ht0 hs hlast dist hd hsave
  refine ⟨u, mm, file, y, e1, e2, e3, e7, ?_⟩
  intro i hi k hk hc
  have := e11 i hi k hk
  dsimp only at this
  rw [show toolSeries .monthly (pre ++ [s]) (seriesAt B N i k mm) = seriesAt B N i k mm from ?_] at this
  · exact this
  · unfold toolSeries
    rcases hc with hc | hc
    · rw [if_neg (fun q => hc q.1)]
    · split
      · conv_rhs => rw [← List.map_id (seriesAt B N i k mm)]
        apply List.map_congr_left
        intro v hv
        simp [hc v hv]
      · rfl

/-- **C68, daily** (`_partial` as for monthly data). For daily precipitation, at every place the values are obtained so: the series in 366-day years (from the first to the last
year of the time coordinate), its zeros replaced as for monthly data, its SPI, back in Gregorian years. -/
theorem C68_daily_partial (E : Ext F) (hE : ExtNan E) (yearOf : F → Int) (lower : String → String) (cs ce : Int) (base : String) (wk : Nat) (a : SpiArgs) (w w' : World F)
    (hnew : w.shared = fun _ => none) (hload : a.loadParams = none) (hper : a.periodicity = .daily)
    (h : spiMain E yearOf lower cs ce base wk a w = (.ok (), w')) {d : NcFile F} {x t lat lon : NcVar F} {A B N : Nat} (hin : SpiInput w.files a d x t lat lon A B N)
    {t0 t1 : F} (ht0 : t.data.head? = some t0) (ht1 : t.data.getLast? = some t1) {pre post : List Int} {s : Int} (hs : a.scales = some (pre ++ s :: post)) (hlast : s ∉ post)
    (dist : Distribution) (hd : dist = .gamma ∨ dist = .pearson) (hsave : a.saveParams ≠ some (fileName base (spiName dist s true))) :
    ∃ u mm, x.units = some u ∧ convertPrecip (lower u) x.data = .ok mm ∧
      SpiHolds w'.files base dist s true t lat lon A B N (fun i k => do
        let year366 ← transformTo366day (Arr.of1d (seriesAt B N i k mm)) (yearOf t0) (yearOf t1 - yearOf t0 + 1).toNat
        let out ← spi E (Arr.of1d (toolSeries .daily (pre ++ [s]) year366)) s dist (yearOf t0) cs ce .daily none
        transformToGregorian (Arr.of1d out) (yearOf t0)) := by
  obtain ⟨it, f, u, d', un, mm, vals, n, g, w1, hu, p1, p2, p3, p4, p5, p6, p7, p8, o1, o2, _, _, _, hsv, _⟩ := spiRun_ok hE hnew hload h hin ht0 hs hlast
  rw [hper] at hu p3 o1 o2
  simp only [SpiValues] at p3
  obtain ⟨t0', t1', q1, q2, q3, q4, q5, q6, q7, q8⟩ := p3
  rw [ht0] at q1
  rw [ht1] at q2
  cases q1
  cases q2
  have hn : n = (yearOf t1 - yearOf t0 + 1).toNat * 366 := by
    rw [p4] at q6
    simpa using q6
  subst hn
  refine ⟨un, mm, p1, p2, ?_⟩
  have key : OutHolds E (spiJob a it f cs ce base wk) u (yearOf t0) d' A B ((yearOf t1 - yearOf t0 + 1).toNat * 366) (SpiShape .daily x t lat lon (yearOf t0)) s dist
      (fun i k => toolSeries .daily (pre ++ [s]) (seriesAt B ((yearOf t1 - yearOf t0 + 1).toNat * 366) i k vals.data)) w1.files := by
    rcases hd with rfl | rfl
    · simpa only [cellAfter_tool] using o1
    · simpa only [cellAfter_tool] using o2
  obtain ⟨rdat, new, h1, h2, h3, h4⟩ := key
  have hu' : (spiJob a it f cs ce base wk).per.unit = .ok u := by show a.periodicity.unit = _; rw [hper]; exact hu
  have hdl : isDaily (spiJob a it f cs ce base wk).per = true := by show isDaily a.periodicity = true; rw [hper]; rfl
  rw [outFile_eq hu' _ _ hd, hdl] at h1
  rw [spiName_eq hu' _ hd, hdl] at h3
  obtain ⟨lat', lon', time', v, e1, e2, e3, e4, e5, e6, e7, e8, e9⟩ := buildSpiGrid_ok (spiName_ne dist s true) h3
  rw [p7] at e1
  rw [p8] at e2
  rw [p6] at e3
  cases e1
  cases e2
  cases e3
  rw [show (spiJob a it f cs ce base wk).per = .daily from hper] at e4
  simp only [spiOutValues, SpiShape] at e4
  rw [hin.lat.2.2, hin.lon.2.2] at e4
  have hlen : ∀ s' t' : List F, (do let g ← transformToGregorian (Arr.of1d s') (yearOf t0); if g.length = t.data.length then pure g else .error .valueError : Res (List F)) = .ok t' →
      t'.length = t.data.length ∧ transformToGregorian (Arr.of1d s') (yearOf t0) = .ok t' := by
    intro s' t' h
    obtain ⟨g, h5, h⟩ := Res.bind_ok h
    split at h
    · next hl => cases h; exact ⟨hl, h5⟩
    · cases h
  obtain ⟨_, _, k3, k4, k5⟩ := alongLast_ok h2 (fun s' t' h => (hlen s' t' h).1) e4
  refine ⟨new, _, ?_, e5, e6, e7, e8, rfl, ?_, ?_, ?_⟩
  · rw [save_files hsv _ hsave, ← h1]
    rfl
  · rw [k3, hin.time.2.2]
  · rw [k4, hin.time.2.2]
  · intro i hi k hk
    dsimp only
    rw [q8 i hi k hk]
    have h4' := h4 i hi k hk
    rw [show (spiJob a it f cs ce base wk).per = .daily from hper] at h4'
    show (spi E _ s dist (yearOf t0) cs ce .daily none >>= _) = _
    rw [show spi E (Arr.of1d (toolSeries .daily (pre ++ [s]) (seriesAt B ((yearOf t1 - yearOf t0 + 1).toNat * 366) i k vals.data))) s dist (yearOf t0) cs ce .daily none = _ from h4']
    have := (hlen _ _ (k5 i hi k hk)).2
    rw [hin.time.2.2] at this
    exact this

/-! ## Both periodicities -/

theorem values_prepared {yearOf : F → Int} {per : Periodicity} {t : NcVar F} {A B N n : Nat} {mm : List F} {vals : Arr F} (h : SpiValues yearOf per t A B N mm vals)
    (hs : vals.shape = [A, B, n]) {t0 t1 : F} (ht0 : t.data.head? = some t0) (ht1 : t.data.getLast? = some t1) :
    (per = .daily → n = (yearOf t1 - yearOf t0 + 1).toNat * 366) ∧ (per ≠ .daily → n = N) ∧
    ∀ i < A, ∀ k < B, prepared per (yearOf t0) (yearOf t1) (seriesAt B N i k mm) = .ok (seriesAt B n i k vals.data) := by
  unfold SpiValues at h
  split at h
  · obtain ⟨t0', t1', q1, q2, q3, q4, q5, q6, q7, q8⟩ := h
    rw [ht0] at q1
    rw [ht1] at q2
    cases q1
    cases q2
    rw [hs] at q6
    have hn : n = (yearOf t1 - yearOf t0 + 1).toNat * 366 := by simpa using q6
    subst hn
    exact ⟨fun _ => rfl, fun h => absurd rfl h, fun i hi k hk => by simpa [prepared] using q8 i hi k hk⟩
  · next hne =>
    have hne' : per ≠ .daily := hne
    subst h
    have : n = N := by simpa using hs.symm
    subst this
    exact ⟨fun h => absurd h hne', fun _ => rfl, fun i hi k hk => by simp [prepared, hne']⟩

/-- the values in an output file -/
theorem out_file {per : Periodicity} {u base : String} {ds s : Int} {dist : Distribution} {d new : NcFile F} {x t lat lon : NcVar F} {A B N n : Nat} {rdat : List F} {fs : Files F}
    (hu : per.unit = .ok u) (hd : dist = .gamma ∨ dist = .pearson) (hx : x.shape = [A, B, N]) (ht : List.lookup "time" d = some t)
    (hlat : List.lookup "lat" d = some lat) (hlon : List.lookup "lon" d = some lon) (lt : t.data.length = N) (llat : lat.data.length = A) (llon : lon.data.length = B)
    (hn : per ≠ .daily → n = N) (hr : rdat.length = A * (B * n)) (hfs : fs (spiOutFile base u s dist) = some new)
    (h : buildSpiGrid per ds d (spiOutName dist s u) ⟨SpiShape per x t lat lon ds, rdat⟩ = .ok new) :
    SpiHolds fs base dist s (isDaily per) t lat lon A B N (fun i k => restored per ds (seriesAt B n i k rdat)) := by
  rw [outFile_eq hu _ _ hd] at hfs
  rw [spiName_eq hu _ hd] at h
  obtain ⟨lat', lon', time', v, e1, e2, e3, e4, e5, e6, e7, e8, e9⟩ := buildSpiGrid_ok (spiName_ne dist s (isDaily per)) h
  rw [hlat] at e1
  rw [hlon] at e2
  rw [ht] at e3
  cases e1
  cases e2
  cases e3
  by_cases hp : per = .daily
  · subst hp
    simp only [spiOutValues, SpiShape] at e4
    rw [llat, llon] at e4
    have hlen : ∀ s' t' : List F, (do let g ← transformToGregorian (Arr.of1d s') ds; if g.length = t.data.length then pure g else .error .valueError : Res (List F)) = .ok t' →
        t'.length = t.data.length ∧ transformToGregorian (Arr.of1d s') ds = .ok t' := by
      intro s' t' h
      obtain ⟨g, h5, h⟩ := Res.bind_ok h
      split at h
      · next hl => cases h; exact ⟨hl, h5⟩
      · cases h
    obtain ⟨_, _, k3, k4, k5⟩ := alongLast_ok hr (fun s' t' h => (hlen s' t' h).1) e4
    refine ⟨new, _, hfs, e5, e6, e7, e8, rfl, by rw [k3, lt], by rw [k4, lt], ?_⟩
    intro i hi k hk
    have := (hlen _ _ (k5 i hi k hk)).2
    rw [lt] at this
    simpa [restored] using this
  · have hn := hn hp
    subst hn
    have e4' : (⟨SpiShape per x t lat lon ds, rdat⟩ : Arr F) = v := by
      unfold spiOutValues at e4
      split at e4
      · exact absurd rfl hp
      · cases e4; rfl
    subst e4'
    refine ⟨new, _, hfs, e5, e6, e7, e8, rfl, ?_, hr, ?_⟩
    · unfold SpiShape
      split
      · exact absurd rfl hp
      · exact hx
    · intro i hi k hk
      simp [restored, hp]

theorem SpiHolds.congr {fs fs' : Files F} {base : String} {dist : Distribution} {s : Int} {daily : Bool} {t lat lon : NcVar F} {A B N : Nat} {e e' : Nat → Nat → Res (List F)}
    (h : SpiHolds fs base dist s daily t lat lon A B N e) (hf : fs' (fileName base (spiName dist s daily)) = fs (fileName base (spiName dist s daily)))
    (he : ∀ i < A, ∀ k < B, e' i k = e i k) : SpiHolds fs' base dist s daily t lat lon A B N e' := by
  obtain ⟨file, y, h1, h2, h3, h4, h5, h6, h7, h8, h9⟩ := h
  exact ⟨file, y, hf.trans h1, h2, h3, h4, h5, h6, h7, h8, fun i hi k hk => (he i hi k hk).trans (h9 i hi k hk)⟩

/-! ## C72: loaded parameters -/

theorem fittingName_daily {per : Periodicity} {u : String} (hu : per.unit = .ok u) : (if isDaily per then "day" else "month") = u := by
  cases per <;> cases hu <;> rfl

/-- the parameter file of the specification -/
theorem ParameterFile.fitNames {per : Periodicity} {u : String} (hu : per.unit = .ok u) {g : NcFile F} {scales : List Int} {A B p : Nat}
    (h : ParameterFile g (isDaily per) scales A B p) : FitNames u g ∧ ∀ s ∈ scales, ∀ v ∈ fittingVariables, ∃ y, List.lookup (spiFitName u s v) g = some y ∧
      y.dims ≠ [spiFitName u s v] ∧ y.shape = [A, B, p] := by
  refine ⟨⟨?_, h.once⟩, ?_⟩
  · intro q hq
    rcases h.entries q hq with h1 | ⟨s, v, hv, h1⟩
    · exact .inl h1
    · exact .inr ⟨s, v, hv, by rw [fittingName_eq hu]; exact h1⟩
  · intro s hs v hv
    rw [fittingName_eq hu]
    exact h.found s hs v hv

theorem fitAt_all {u : String} {per : Periodicity} (hu : per.unit = .ok u) {g : NcFile F} {s : Int} {A' B' p i k : Nat} {dist : Distribution} {ps : List (List F)}
    (hg : ∀ v ∈ fittingVariables, ∃ y, List.lookup (spiFitName u s v) g = some y ∧ y.shape = [A', B', p])
    (h : (distVars dist).mapM (fun v => fitAt (fitArr u g s v) i k) = .ok ps) :
    (distVars dist).zip (ps.map some) = parametersAt g dist s (isDaily per) B' p i k ∧ (dist ≠ .other → i < A' ∧ k < B') := by
  have key : ∀ v ∈ distVars dist, ∀ q, fitAt (fitArr u g s v) i k = .ok q → i < A' ∧ k < B' ∧
      some q = (List.lookup (fittingName v s (isDaily per)) g).map (fun y => seriesAt B' p i k y.data) := by
    intro v hv q hq
    obtain ⟨y, h1, h2⟩ := hg v (distVars_fitting hv)
    rw [← fittingName_eq hu, h1]
    unfold fitArr at hq
    rw [h1] at hq
    simp only [fitAt, h2] at hq
    split at hq
    · next hb => cases hq; exact ⟨hb.1, hb.2, rfl⟩
    · cases hq
  have hl := mapM_len h
  constructor
  · apply List.ext_getElem?
    intro q
    unfold parametersAt
    have hnames : parameterNames dist = distVars dist := by cases dist <;> rfl
    rw [hnames]
    by_cases hq : q < (distVars dist).length
    · obtain ⟨y, hy, h2⟩ := mapM_get h q _ (List.getElem?_eq_getElem hq)
      have := (key _ (List.getElem_mem hq) y h2).2.2
      rw [List.getElem?_map, List.getElem?_eq_getElem hq, Option.map_some, ← this]
      rw [List.getElem?_zip_eq_some.2]
      exact ⟨List.getElem?_eq_getElem hq, by simp [hy]⟩
    · rw [List.getElem?_eq_none (by simp; omega), List.getElem?_eq_none (by simp; omega)]
  · intro hd
    have hne : 0 < (distVars dist).length := by cases dist <;> simp_all [distVars]
    obtain ⟨y, _, h2⟩ := mapM_get h 0 _ (List.getElem?_eq_getElem hne)
    exact ⟨(key _ (List.getElem_mem hne) y h2).1, (key _ (List.getElem_mem hne) y h2).2.1⟩

/-- **C72, what loaded parameters do.** After every finished run of the SPI tool in a new process with parameters loaded from a file: at every place (`i`, `k`), the values are the SPI
with the parameters at the same position (`i`, `k`) of the file, whatever the latitudes, longitudes and the number of places there (it must not be smaller). For gamma the series
is the one before this scale was processed, for Pearson the one after. -/
theorem C72_position (E : Ext F) (hE : ExtNan E) (yearOf : F → Int) (lower : String → String) (cs ce : Int) (base : String) (wk : Nat) (a : SpiArgs) (w w' : World F)
    (hnew : w.shared = fun _ => none) {pf : String} (hload : a.loadParams = some pf) (h : spiMain E yearOf lower cs ce base wk a w = (.ok (), w'))
    {d : NcFile F} {x t lat lon : NcVar F} {A B N : Nat} (hin : SpiInput w.files a d x t lat lon A B N)
    {t0 t1 : F} (ht0 : t.data.head? = some t0) (ht1 : t.data.getLast? = some t1) {g : NcFile F} (hg : w.files pf = some g) {A' B' p : Nat}
    {pre post : List Int} {s : Int} (hs : a.scales = some (pre ++ s :: post)) (hlast : s ∉ post) (hpar : ParameterFile g (decide (a.periodicity = .daily)) (pre ++ s :: post) A' B' p)
    (dist : Distribution) (hd : dist = .gamma ∨ dist = .pearson) (hsave : a.saveParams = none) :
    (0 < A → 0 < B → A ≤ A' ∧ B ≤ B') ∧ ∃ u mm, x.units = some u ∧ convertPrecip (lower u) x.data = .ok mm ∧
      SpiHolds w'.files base dist s (decide (a.periodicity = .daily)) t lat lon A B N (fun i k => do
        let v ← prepared a.periodicity (yearOf t0) (yearOf t1) (seriesAt B N i k mm)
        let out ← spi E (Arr.of1d (toolSeries a.periodicity (if dist = .gamma then pre else pre ++ [s]) v)) s dist (yearOf t0) cs ce a.periodicity
          (some (parametersAt g dist s (decide (a.periodicity = .daily)) B' p i k))
        restored a.periodicity (yearOf t0) out) := by
  have hunit : ∃ u, a.periodicity.unit = .ok u := by
    obtain ⟨_, _, u, _, _, _, _, _, _, _, _, hu, _⟩ := spiMain_parts h
    exact ⟨u, hu⟩
  obtain ⟨u, hu⟩ := hunit
  obtain ⟨k1, k2⟩ := ParameterFile.fitNames hu hpar
  obtain ⟨it, f, d', un, mm, vals, n, g', w1, p1, p2, p3, p4, p5, p6, p7, p8, o1, o2, hsv, _⟩ := spiLoad_ok hE hnew hload h hin ht0 hu hg k1 hs hlast
    (fun s' hs' v hv => by obtain ⟨y, e1, e2, _⟩ := k2 s' hs' v hv; exact ⟨y, e1, e2⟩)
  obtain ⟨_, hnN, hprep⟩ := values_prepared p3 p4 ht0 ht1
  have key : LoadHolds E (spiJob a it f cs ce base wk) u (yearOf t0) d' A B n (SpiShape a.periodicity x t lat lon (yearOf t0)) s dist
      (fun i k => toolSeries a.periodicity (if dist = .gamma then pre else pre ++ [s]) (seriesAt B n i k vals.data)) (fitArr u g s) w1.files := by
    rcases hd with rfl | rfl
    · simpa only [cellAfter_before, reduceIte] using o1
    · simpa only [cellAfter_tool, reduceCtorEq, reduceIte] using o2
  obtain ⟨rdat, new, h1, h2, h3, h4⟩ := key
  have hg6 : ∀ v ∈ fittingVariables, ∃ y, List.lookup (spiFitName u s v) g = some y ∧ y.shape = [A', B', p] := by
    intro v hv
    obtain ⟨y, e1, _, e3⟩ := k2 s (by simp) v hv
    exact ⟨y, e1, e3⟩
  refine ⟨?_, un, mm, p1, p2, ?_⟩
  · intro ha hb
    obtain ⟨ps, e1, _⟩ := h4 (A - 1) (by omega) (B - 1) (by omega)
    have := (fitAt_all hu hg6 e1).2 (by rcases hd with rfl | rfl <;> simp)
    omega
  · have hout := out_file (base := base) hu hd hin.grid.2.1 p6 p7 p8 hin.time.2.2 hin.lat.2.2 hin.lon.2.2 hnN h2 h1 h3
    refine SpiHolds.congr hout (save_files hsv _ (by show a.saveParams ≠ _; rw [hsave]; simp)) ?_
    intro i hi k hk
    rw [hprep i hi k hk]
    obtain ⟨ps, e1, e2⟩ := h4 i hi k hk
    rw [(fitAt_all hu hg6 e1).1] at e2
    have e2' : spi E (Arr.of1d (toolSeries a.periodicity (if dist = .gamma then pre else pre ++ [s]) (seriesAt B n i k vals.data))) s dist (yearOf t0) cs ce a.periodicity
      (some (parametersAt g dist s (decide (a.periodicity = .daily)) B' p i k)) = .ok (seriesAt B n i k rdat) := e2
    show (spi E _ s dist (yearOf t0) cs ce a.periodicity _ >>= _) = _
    rw [e2']
    rfl

/-! ## C73: saved parameters -/

omit [FloatOps F] [FloatLaws F] in
theorem last_split {α : Type} [DecidableEq α] {s : α} (l : List α) (h : s ∈ l) : ∃ pre post, l = pre ++ s :: post ∧ s ∉ post := by
  induction l with
  | nil => simp at h
  | cons x l ih =>
    by_cases hm : s ∈ l
    · obtain ⟨pre, post, h1, h2⟩ := ih hm
      exact ⟨x :: pre, post, by rw [h1]; rfl, h2⟩
    · have : s = x := by simpa [hm] using h
      subst this
      exact ⟨[], l, rfl, hm⟩

/-- the parameters of a distribution fitted to the series `l` -/
def fittedParameters (E : Ext F) (dist : Distribution) (l : List F) (scale y0 cs ce : Int) (per : Periodicity) : Res (FitDict F) := do
  let x ← scaleValues (Arr.of1d l) scale per
  match dist with
  | .gamma => do
    let ab ← gammaParameters E x y0 cs ce per
    pure [("alpha", some ab.1), ("beta", some ab.2)]
  | .pearson => do
    let ps ← pearsonParameters (lmomentsFit E) x y0 cs ce per
    pure [("prob_zero", some (ps.map PearsonParams.probZero)), ("loc", some (ps.map PearsonParams.loc)), ("scale", some (ps.map PearsonParams.scale)),
      ("skew", some (ps.map PearsonParams.skew))]
  | .other => .error .valueError

omit [FloatLaws F] in
theorem fittedParameters_eq {E : Ext F} {dist : Distribution} {l : List F} {scale y0 cs ce : Int} {per : Periodicity} {fp : FitDict F}
    (h : fitVal E dist l scale y0 cs ce per = .ok fp) : fittedParameters E dist l scale y0 cs ce per = .ok fp := by
  unfold fittedParameters
  cases dist with
  | other => cases h
  | gamma => exact h
  | pearson => exact h

omit [FloatLaws F] in
theorem fitVal_keys {E : Ext F} {dist : Distribution} {l : List F} {scale y0 cs ce : Int} {per : Periodicity} {fp : FitDict F} (h : fitVal E dist l scale y0 cs ce per = .ok fp) :
    fp = (parameterNames dist).map (fun v => (v, (fp.lookup v).getD none)) := by
  cases dist with
  | other => cases h
  | gamma =>
    simp only [fitVal, fitGammaVal] at h
    obtain ⟨_, _, h⟩ := Res.bind_ok h
    obtain ⟨ab, _, h⟩ := Res.bind_ok h
    cases h
    rfl
  | pearson =>
    simp only [fitVal, fitPearsonVal] at h
    obtain ⟨_, _, h⟩ := Res.bind_ok h
    obtain ⟨ab, _, h⟩ := Res.bind_ok h
    cases h
    rfl

/-- the parameters fitted to a series leave its SPI as it is without given parameters -/
theorem spi_own {E : Ext F} (hE : ExtNan E) {dist : Distribution} {l : List F} {scale y0 cs ce : Int} {per : Periodicity} {fp : FitDict F}
    (h : fitVal E dist l scale y0 cs ce per = .ok fp) : spi E (Arr.of1d l) scale dist y0 cs ce per (some fp) = spi E (Arr.of1d l) scale dist y0 cs ce per none := by
  cases dist with
  | other => cases h
  | gamma =>
    simp only [fitVal, fitGammaVal] at h
    obtain ⟨x, h1, h⟩ := Res.bind_ok h
    obtain ⟨ab, h2, h⟩ := Res.bind_ok h
    cases h
    exact C18_gamma E hE _ x scale y0 cs ce per ab.1 ab.2 h1 h2
  | pearson =>
    simp only [fitVal, fitPearsonVal] at h
    obtain ⟨x, h1, h⟩ := Res.bind_ok h
    obtain ⟨ps, h2, h⟩ := Res.bind_ok h
    cases h
    exact C18_pearson E _ x scale y0 cs ce per ps h1 h2

/-- the saved file -/
theorem saved_run {E : Ext F} (hE : ExtNan E) {yearOf : F → Int} {lower : String → String} {cs ce : Int} {base : String} {wk : Nat} {a : SpiArgs} {w w' : World F}
    (hnew : w.shared = fun _ => none) (hload : a.loadParams = none) (h : spiMain E yearOf lower cs ce base wk a w = (.ok (), w'))
    {d : NcFile F} {x t lat lon : NcVar F} {A B N : Nat} (hin : SpiInput w.files a d x t lat lon A B N) (hA : 0 < A) (hB : 0 < B)
    {t0 t1 : F} (ht0 : t.data.head? = some t0) (ht1 : t.data.getLast? = some t1) {pf : String} (hsave : a.saveParams = some pf)
    {pre post : List Int} {s : Int} (hs : a.scales = some (pre ++ s :: post)) (hlast : s ∉ post) :
    ∃ u mm g, x.units = some u ∧ convertPrecip (lower u) x.data = .ok mm ∧ w'.files pf = some g ∧ ParameterFile g (isDaily a.periodicity) (pre ++ s :: post) A B a.periodicity.steps ∧
      ∀ i < A, ∀ k < B, ∃ v, prepared a.periodicity (yearOf t0) (yearOf t1) (seriesAt B N i k mm) = .ok v ∧
        ∀ dist, dist = .gamma ∨ dist = .pearson → fitVal E dist (toolSeries a.periodicity (if dist = .gamma then pre else pre ++ [s]) v) s (yearOf t0) cs ce a.periodicity =
          .ok (parametersAt g dist s (isDaily a.periodicity) B a.periodicity.steps i k) := by
  have hfile : ∀ {it f g w1}, spiSave (spiJob a it f cs ce base wk) g w1 = (.ok (), w') → w'.files pf = some g := by
    intro it f g w1 hsv
    unfold spiSave at hsv
    rw [show (spiJob a it f cs ce base wk).save = some pf from hsave] at hsv
    cases hsv
    simp [writeFile]
  obtain ⟨it, f, u, d', un, mm, vals, n, g, w1, hu, p1, p2, p3, p4, p5, p6, p7, p8, o1, o2, o3, o4, hfit, hsv, _⟩ := spiRun_ok hE hnew hload h hin ht0 hs hlast
  obtain ⟨fg, fp⟩ := o3 hA hB
  have hg := hfile hsv
  obtain ⟨_, hnN, hprep⟩ := values_prepared p3 p4 ht0 ht1
  -- every parameter of every scale
  have found : ∀ s' ∈ pre ++ s :: post, ∀ v ∈ fittingVariables, ∃ y, List.lookup (spiFitName u s' v) g = some y ∧ y.dims = ["lat", "lon", u] ∧ y.shape = [A, B, a.periodicity.steps] := by
    intro s' hs' v hv
    obtain ⟨pre', post', e1, e2⟩ := last_split _ hs'
    obtain ⟨it', f', u', d'', un', mm', vals', n', g', w1', hu', _, _, _, _, _, _, _, _, _, _, q3, q4, _, hsv', _⟩ := spiRun_ok hE hnew hload h hin ht0 (hs.trans (congrArg some e1)) e2
    rw [hu] at hu'
    cases hu'
    have hg' := hfile hsv'
    rw [hg] at hg'
    cases hg'
    obtain ⟨qg, qp⟩ := q3 hA hB
    obtain ⟨y, z, k1, k2, k3, k4, k5⟩ := q4 v hv
    refine ⟨z, k2, k5, ?_⟩
    rw [k3]
    have hmem : v ∈ distVars .gamma ∨ v ∈ distVars .pearson := by
      simp only [fittingVariables, List.mem_cons, List.not_mem_nil, or_false] at hv
      rcases hv with rfl | rfl | rfl | rfl | rfl | rfl <;> simp [distVars]
    rcases hmem with hm | hm
    · obtain ⟨y', k6, _⟩ := qg v hm
      rw [k1] at k6
      cases k6
      rfl
    · obtain ⟨y', k6, _⟩ := qp v hm
      rw [k1] at k6
      cases k6
      rfl
  refine ⟨un, mm, g, p1, p2, hg, ⟨?_, hfit.2, ?_⟩, ?_⟩
  · intro q hq
    rcases hfit.1 q hq with h1 | ⟨_, s', v, hv, h1⟩
    · exact .inl h1
    · exact .inr ⟨s', v, hv, by rw [← fittingName_eq hu]; exact h1⟩
  · intro s' hs' v hv
    obtain ⟨y, e1, e2, e3⟩ := found s' hs' v hv
    rw [← fittingName_eq hu]
    exact ⟨y, e1, by rw [e2]; simp, e3⟩
  · intro i hi k hk
    refine ⟨_, hprep i hi k hk, ?_⟩
    intro dist hd
    have hF : FitsHold E u a.periodicity (yearOf t0) cs ce s dist A B (fun i k => toolSeries a.periodicity (if dist = .gamma then pre else pre ++ [s]) (seriesAt B n i k vals.data)) w1.shared := by
      rcases hd with rfl | rfl
      · simpa only [cellAfter_before, reduceIte] using fg
      · simpa only [cellAfter_tool, reduceCtorEq, reduceIte] using fp
    have hne : distVars dist ≠ [] := by rcases hd with rfl | rfl <;> simp [distVars]
    obtain ⟨v0, hv0⟩ := List.exists_mem_of_ne_nil _ hne
    obtain ⟨_, _, _, hc⟩ := hF v0 hv0
    obtain ⟨fp0, hfp0, _⟩ := hc i hi k hk
    have hfp0' : fitVal E dist (toolSeries a.periodicity (if dist = .gamma then pre else pre ++ [s]) (seriesAt B n i k vals.data)) s (yearOf t0) cs ce a.periodicity = .ok fp0 := hfp0
    rw [hfp0']
    congr 1
    rw [fitVal_keys hfp0']
    unfold parametersAt
    apply List.map_congr_left
    intro v hv
    have hvd : v ∈ distVars dist := by rcases hd with rfl | rfl <;> exact hv
    obtain ⟨y, e1, e2, e3⟩ := hF v hvd
    obtain ⟨fp1, e4, e5⟩ := e3 i hi k hk
    rw [hfp0] at e4
    cases e4
    obtain ⟨y', z, k1, k2, k3, k4, _⟩ := o4 v (distVars_fitting hvd)
    rw [e1] at k1
    cases k1
    rw [e5, ← fittingName_eq hu, k2]
    simp [k4]

/-- **C73** (`_partial`: the full property, that the parameters are those of the precipitation of the place, is false for series with zeros once scale 1 has been processed, see
`C73_fails`). After every finished run of the SPI tool that saves parameters: the file holds the parameters of all scales on the places of the input, and for every scale, both
distributions and at every place they are those fitted to the precipitation of that place in millimetres; if scale 1 was processed before (for Pearson: before or with this scale),
to the series with its zeros replaced by NaN. -/
theorem C73_partial (E : Ext F) (hE : ExtNan E) (yearOf : F → Int) (lower : String → String) (cs ce : Int) (base : String) (wk : Nat) (a : SpiArgs) (w w' : World F)
    (hnew : w.shared = fun _ => none) (hload : a.loadParams = none) (h : spiMain E yearOf lower cs ce base wk a w = (.ok (), w'))
    {d : NcFile F} {x t lat lon : NcVar F} {A B N : Nat} (hin : SpiInput w.files a d x t lat lon A B N) (hA : 0 < A) (hB : 0 < B)
    {t0 t1 : F} (ht0 : t.data.head? = some t0) (ht1 : t.data.getLast? = some t1) {pf : String} (hsave : a.saveParams = some pf)
    {pre post : List Int} {s : Int} (hs : a.scales = some (pre ++ s :: post)) (hlast : s ∉ post) :
    ∃ u mm g, x.units = some u ∧ convertPrecip (lower u) x.data = .ok mm ∧ w'.files pf = some g ∧
      ParameterFile g (decide (a.periodicity = .daily)) (pre ++ s :: post) A B (if a.periodicity = .daily then 366 else 12) ∧
      ∀ i < A, ∀ k < B, ∃ v, prepared a.periodicity (yearOf t0) (yearOf t1) (seriesAt B N i k mm) = .ok v ∧
        ∀ dist, dist = .gamma ∨ dist = .pearson → fittedParameters E dist (toolSeries a.periodicity (if dist = .gamma then pre else pre ++ [s]) v) s (yearOf t0) cs ce a.periodicity =
          .ok (parametersAt g dist s (decide (a.periodicity = .daily)) B (if a.periodicity = .daily then 366 else 12) i k) := by
  obtain ⟨u, mm, g, e1, e2, e3, e4, e5⟩ := saved_run hE hnew hload h hin hA hB ht0 ht1 hsave hs hlast
  have hst : a.periodicity.steps = if a.periodicity = .daily then 366 else 12 := by
    obtain ⟨_, _, u, _, _, _, _, _, _, _, _, hu, _⟩ := spiMain_parts h
    cases hp : a.periodicity <;> rw [hp] at hu <;> cases hu <;> rfl
  rw [hst] at e4 e5
  refine ⟨u, mm, g, e1, e2, e3, e4, ?_⟩
  intro i hi k hk
  obtain ⟨v, e6, e7⟩ := e5 i hi k hk
  exact ⟨v, e6, fun dist hd => fittedParameters_eq (e7 dist hd)⟩

/-! ## C69: saving and loading parameters -/

/-- the values of a run without loaded parameters, for both periodicities -/
theorem saved_values {E : Ext F} (hE : ExtNan E) {yearOf : F → Int} {lower : String → String} {cs ce : Int} {base : String} {wk : Nat} {a : SpiArgs} {w w' : World F}
    (hnew : w.shared = fun _ => none) (hload : a.loadParams = none) (h : spiMain E yearOf lower cs ce base wk a w = (.ok (), w'))
    {d : NcFile F} {x t lat lon : NcVar F} {A B N : Nat} (hin : SpiInput w.files a d x t lat lon A B N)
    {t0 t1 : F} (ht0 : t.data.head? = some t0) (ht1 : t.data.getLast? = some t1) {pre post : List Int} {s : Int} (hs : a.scales = some (pre ++ s :: post)) (hlast : s ∉ post)
    {dist : Distribution} (hd : dist = .gamma ∨ dist = .pearson) (hsave : a.saveParams ≠ some (fileName base (spiName dist s (isDaily a.periodicity)))) :
    (∃ u mm, x.units = some u ∧ convertPrecip (lower u) x.data = .ok mm ∧
      SpiHolds w'.files base dist s (isDaily a.periodicity) t lat lon A B N (fun i k => do
        let v ← prepared a.periodicity (yearOf t0) (yearOf t1) (seriesAt B N i k mm)
        let out ← spi E (Arr.of1d (toolSeries a.periodicity (pre ++ [s]) v)) s dist (yearOf t0) cs ce a.periodicity none
        restored a.periodicity (yearOf t0) out)) ∧
    ∀ q, a.saveParams ≠ some q → (∀ s dist, q ≠ fileName base (spiName dist s (isDaily a.periodicity))) → w'.files q = w.files q := by
  obtain ⟨it, f, u, d', un, mm, vals, n, g, w1, hu, p1, p2, p3, p4, p5, p6, p7, p8, o1, o2, _, _, _, hsv, hfr, _⟩ := spiRun_ok hE hnew hload h hin ht0 hs hlast
  obtain ⟨_, hnN, hprep⟩ := values_prepared p3 p4 ht0 ht1
  refine ⟨⟨un, mm, p1, p2, ?_⟩, ?_⟩
  · have key : OutHolds E (spiJob a it f cs ce base wk) u (yearOf t0) d' A B n (SpiShape a.periodicity x t lat lon (yearOf t0)) s dist
        (fun i k => toolSeries a.periodicity (pre ++ [s]) (seriesAt B n i k vals.data)) w1.files := by
      rcases hd with rfl | rfl
      · simpa only [cellAfter_tool] using o1
      · simpa only [cellAfter_tool] using o2
    obtain ⟨rdat, new, h1, h2, h3, h4⟩ := key
    have hout := out_file (base := base) hu hd hin.grid.2.1 p6 p7 p8 hin.time.2.2 hin.lat.2.2 hin.lon.2.2 hnN h2 h1 h3
    refine SpiHolds.congr hout (save_files hsv _ hsave) ?_
    intro i hi k hk
    rw [hprep i hi k hk]
    have e2 : spi E (Arr.of1d (toolSeries a.periodicity (pre ++ [s]) (seriesAt B n i k vals.data))) s dist (yearOf t0) cs ce a.periodicity none = .ok (seriesAt B n i k rdat) := h4 i hi k hk
    show (spi E _ s dist (yearOf t0) cs ce a.periodicity _ >>= _) = _
    rw [e2]
    rfl
  · intro q hq hq2
    rw [save_files hsv q hq, hfr]
    dsimp only
    rw [if_neg]
    rintro ⟨s', _, h1 | h1⟩
    · rw [outFile_eq hu _ _ (Or.inl rfl)] at h1
      exact hq2 s' _ h1
    · rw [outFile_eq hu _ _ (Or.inr rfl)] at h1
      exact hq2 s' _ h1

/-- **C69, values.** A run saves its parameters, and a run in a new process with the same arguments (except for the name of the outputs and the number of workers) loads them. If
both finish, then at every place the values of the second are the SPI of the series of the place: for gamma, with its zeros replaced if scale 1 was processed before this scale; for
Pearson, also if it is this scale. -/
theorem C69_loading (E : Ext F) (hE : ExtNan E) (yearOf : F → Int) (lower : String → String) (cs ce : Int) (base base2 : String) (wk wk2 : Nat) (a : SpiArgs) (w w' w'' : World F)
    (hnew : w.shared = fun _ => none) (hload : a.loadParams = none) {pf : String} (hsave : a.saveParams = some pf) (h : spiMain E yearOf lower cs ce base wk a w = (.ok (), w'))
    (h2 : spiMain E yearOf lower cs ce base2 wk2 { a with saveParams := none, loadParams := some pf } { w' with shared := fun _ => none } = (.ok (), w''))
    {d : NcFile F} {x t lat lon : NcVar F} {A B N : Nat} (hin : SpiInput w.files a d x t lat lon A B N) (hA : 0 < A) (hB : 0 < B)
    {t0 t1 : F} (ht0 : t.data.head? = some t0) (ht1 : t.data.getLast? = some t1) {pre post : List Int} {s : Int} (hs : a.scales = some (pre ++ s :: post)) (hlast : s ∉ post)
    (hkeep : ∀ f, a.netcdfPrecip = some f → f ≠ pf ∧ ∀ s dist, f ≠ fileName base (spiName dist s (decide (a.periodicity = .daily))))
    (hpf : ∀ s dist, pf ≠ fileName base (spiName dist s (decide (a.periodicity = .daily))))
    (dist : Distribution) (hd : dist = .gamma ∨ dist = .pearson) :
    ∃ u mm, x.units = some u ∧ convertPrecip (lower u) x.data = .ok mm ∧
      SpiHolds w''.files base2 dist s (decide (a.periodicity = .daily)) t lat lon A B N (fun i k => do
        let v ← prepared a.periodicity (yearOf t0) (yearOf t1) (seriesAt B N i k mm)
        let out ← spi E (Arr.of1d (toolSeries a.periodicity (if dist = .gamma then pre else pre ++ [s]) v)) s dist (yearOf t0) cs ce a.periodicity none
        restored a.periodicity (yearOf t0) out) := by
  obtain ⟨u, mm, g, e1, e2, e3, e4, e5⟩ := saved_run hE hnew hload h hin hA hB ht0 ht1 hsave hs hlast
  obtain ⟨_, hfr⟩ := saved_values hE hnew hload h hin ht0 ht1 hs hlast hd (by rw [hsave]; intro hc; exact hpf s dist (Option.some.inj hc))
  have hin2 : SpiInput ({ w' with shared := fun _ => none } : World F).files { a with saveParams := none, loadParams := some pf } d x t lat lon A B N := by
    obtain ⟨f, hf1, hf2⟩ := hin.file
    refine ⟨⟨f, hf1, ?_⟩, hin.var, hin.grid, hin.time, hin.lat, hin.lon⟩
    show w'.files f = some d
    rw [hfr f ?_ (hkeep f hf1).2, hf2]
    rw [hsave]
    intro hc
    exact (hkeep f hf1).1 (Option.some.inj hc).symm
  obtain ⟨_, u2, mm2, k1, k2, k3⟩ := C72_position E hE yearOf lower cs ce base2 wk2 _ _ w'' rfl rfl h2 hin2 ht0 ht1 e3 hs hlast e4 dist hd rfl
  rw [e1] at k1
  cases k1
  rw [e2] at k2
  cases k2
  refine ⟨u, mm, e1, e2, SpiHolds.congr k3 rfl ?_⟩
  intro i hi k hk
  obtain ⟨v, e6, e7⟩ := e5 i hi k hk
  rw [e6]
  show (spi E _ s dist (yearOf t0) cs ce a.periodicity none >>= _) = (spi E _ s dist (yearOf t0) cs ce a.periodicity _ >>= _)
  rw [← spi_own hE (e7 dist hd)]
  rfl

omit [FloatLaws F] in
theorem toolSeries_plain {per : Periodicity} {done : List Int} {l : List F} (h : 1 ∉ done ∨ ∀ z ∈ l, feq z (lit 0) = false) : toolSeries per done l = l := by
  unfold toolSeries
  rcases h with hc | hc
  · rw [if_neg (fun q => hc q.1)]
  · split
    · conv_rhs => rw [← List.map_id l]
      apply List.map_congr_left
      intro v hv
      simp [hc v hv]
    · rfl

omit [FloatLaws F] in
theorem toolSeries_mem {per : Periodicity} {done done' : List Int} (h : 1 ∈ done ↔ 1 ∈ done') (l : List F) : toolSeries per done l = toolSeries per done' l := by
  unfold toolSeries
  by_cases hc : 1 ∈ done ∧ InPlace (Arr.of1d l) per
  · rw [if_pos hc, if_pos ⟨h.1 hc.1, hc.2⟩]
  · rw [if_neg hc, if_neg (fun q => hc ⟨h.2 q.1, q.2⟩)]

/-- **C69** (`_partial`: the full property, equality everywhere, is false for gamma and scale 1, see `C69_fails`). A run saves its parameters, and a run in a new process with the same
arguments (except for the name of the outputs and the number of workers) loads them. If both finish, the values at a place are the same in both: always for Pearson, always for
scales other than 1 and if scale 1 occurs before, and for gamma and scale 1 if the series of the place has no zeros. -/
theorem C69_partial (E : Ext F) (hE : ExtNan E) (yearOf : F → Int) (lower : String → String) (cs ce : Int) (base base2 : String) (wk wk2 : Nat) (a : SpiArgs) (w w' w'' : World F)
    (hnew : w.shared = fun _ => none) (hload : a.loadParams = none) {pf : String} (hsave : a.saveParams = some pf) (h : spiMain E yearOf lower cs ce base wk a w = (.ok (), w'))
    (h2 : spiMain E yearOf lower cs ce base2 wk2 { a with saveParams := none, loadParams := some pf } { w' with shared := fun _ => none } = (.ok (), w''))
    {d : NcFile F} {x t lat lon : NcVar F} {A B N : Nat} (hin : SpiInput w.files a d x t lat lon A B N) (hA : 0 < A) (hB : 0 < B)
    {t0 t1 : F} (ht0 : t.data.head? = some t0) (ht1 : t.data.getLast? = some t1) {pre post : List Int} {s : Int} (hs : a.scales = some (pre ++ s :: post)) (hlast : s ∉ post)
    (hkeep : ∀ f, a.netcdfPrecip = some f → f ≠ pf ∧ ∀ s dist, f ≠ fileName base (spiName dist s (decide (a.periodicity = .daily))))
    (hpf : ∀ s dist, pf ≠ fileName base (spiName dist s (decide (a.periodicity = .daily))))
    (dist : Distribution) (hd : dist = .gamma ∨ dist = .pearson) :
    ∃ u mm file1 y1 file2 y2, x.units = some u ∧ convertPrecip (lower u) x.data = .ok mm ∧
      w'.files (fileName base (spiName dist s (decide (a.periodicity = .daily)))) = some file1 ∧ List.lookup (spiName dist s (decide (a.periodicity = .daily))) file1 = some y1 ∧
      w''.files (fileName base2 (spiName dist s (decide (a.periodicity = .daily)))) = some file2 ∧ List.lookup (spiName dist s (decide (a.periodicity = .daily))) file2 = some y2 ∧
      y1.shape = [A, B, N] ∧ y2.shape = [A, B, N] ∧
      ∀ i < A, ∀ k < B, (dist = .pearson ∨ s ≠ 1 ∨ 1 ∈ pre ∨ ∀ v, prepared a.periodicity (yearOf t0) (yearOf t1) (seriesAt B N i k mm) = .ok v → ∀ z ∈ v, feq z (lit 0) = false) →
        seriesAt B N i k y2.data = seriesAt B N i k y1.data := by
  obtain ⟨⟨u, mm, p1, p2, file1, y1, q1, _, _, _, q5, _, q7, _, q9⟩, _⟩ := saved_values hE hnew hload h hin ht0 ht1 hs hlast hd
    (by rw [hsave]; intro hc; exact hpf s dist (Option.some.inj hc))
  obtain ⟨u2, mm2, p1', p2', file2, y2, r1, _, _, _, r5, _, r7, _, r9⟩ := C69_loading E hE yearOf lower cs ce base base2 wk wk2 a w w' w'' hnew hload hsave h h2 hin hA hB ht0 ht1 hs hlast
    hkeep hpf dist hd
  rw [p1] at p1'
  cases p1'
  rw [p2] at p2'
  cases p2'
  refine ⟨u, mm, file1, y1, file2, y2, p1, p2, q1, q5, r1, r5, q7, r7, ?_⟩
  intro i hi k hk hc
  have e1 := q9 i hi k hk
  have e2 := r9 i hi k hk
  dsimp only at e1 e2
  obtain ⟨v, hv, e1⟩ := Res.bind_ok e1
  rw [hv] at e2
  have : toolSeries a.periodicity (if dist = .gamma then pre else pre ++ [s]) v = toolSeries a.periodicity (pre ++ [s]) v := by
    rcases hc with rfl | hc | hc | hc
    · rfl
    · apply toolSeries_mem
      split
      · simp [Ne.symm hc]
      · rfl
    · apply toolSeries_mem
      split <;> simp [hc]
    · rw [toolSeries_plain (.inr (hc v hv)), toolSeries_plain (.inr (hc v hv))]
  have e2' : (spi E (Arr.of1d (toolSeries a.periodicity (if dist = .gamma then pre else pre ++ [s]) v)) s dist (yearOf t0) cs ce a.periodicity none >>= fun out =>
    restored a.periodicity (yearOf t0) out) = .ok (seriesAt B N i k y2.data) := e2
  rw [this, e1] at e2'
  exact (Except.ok.inj e2').symm

end CI.Props
