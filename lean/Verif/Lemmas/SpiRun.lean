import Verif.Lemmas.SpiPrepare
import Verif.Spec.SpiTool

/-!
# Lemmas about complete runs of the SPI tool
-/

namespace CI
open Spec CI.Props

variable {F : Type} [FloatOps F]

/-- parts of a finished run -/
theorem spiMain_parts {E : Ext F} {yearOf : F → Int} {lower : String → String} {cs ce : Int} {base : String} {wk : Nat} {a : SpiArgs} {w w' : World F}
    (h : spiMain E yearOf lower cs ce base wk a w = (.ok (), w')) :
    ∃ it f u d' fitting ds sh g w1, spiValidateArgs w.files a = .ok it ∧ a.netcdfPrecip = some f ∧ a.periodicity.unit = .ok u ∧
      spiPrepare yearOf lower (spiJob a it f cs ce base wk) w = .ok (d', fitting, ds, sh) ∧
      spiScales E (spiJob a it f cs ce base wk) u ds d' (a.scales.getD []) fitting { w with shared := sh } = (.ok g, w1) ∧
      spiSave (spiJob a it f cs ce base wk) g w1 = (.ok (), w') := by
  unfold spiMain at h
  obtain ⟨fs, w1, h1, h⟩ := SE.bind_ok h
  unfold getFiles at h1
  cases h1
  obtain ⟨it, w2, h2, h⟩ := SE.bind_ok h
  obtain ⟨h2, rfl⟩ := SE.lift_ok h2
  obtain ⟨f, w3, h3, h6⟩ := SE.bind_ok h
  obtain ⟨h3, rfl⟩ := SE.lift_ok h3
  unfold spiComputeWrite at h6
  split at h6
  · cases h6
  · cases h6
  next d' fitting ds sh u hp hu =>
  obtain ⟨g, w4, h4, h5⟩ := SE.bind_ok h6
  exact ⟨it, f, u, d', fitting, ds, sh, g, w4, h2, prepareFile_ok h3, hu, hp, h4, h5⟩

omit [FloatOps F] in
theorem spiValidate_parts {fs : Files F} {a : SpiArgs} {it : InputType} (h : spiValidateArgs fs a = .ok it) :
    ∃ f v d x sc, a.netcdfPrecip = some f ∧ a.varNamePrecip = some v ∧ fs f = some d ∧ List.lookup v d = some x ∧ inputTypeOf x.dims = .ok it ∧ a.scales = some sc ∧ ∀ s ∈ sc, 0 ≤ s := by
  unfold spiValidateArgs at h
  obtain ⟨_, _, h⟩ := Res.bind_ok h
  obtain ⟨_, _, h⟩ := Res.bind_ok h
  split at h
  · cases h
  · cases h
  next f v hf hv =>
  obtain ⟨d, hd, h⟩ := Res.bind_ok h
  obtain ⟨x, hx, h⟩ := Res.bind_ok h
  obtain ⟨it', hi, h⟩ := Res.bind_ok h
  split at h
  · cases h
  next sc hsc =>
  split at h
  · cases h
  next hany =>
  cases h
  refine ⟨f, v, d, x, sc, hf, hv, ?_, ?_, hi, hsc, ?_⟩
  · unfold openFile at hd
    simp only at hd
    split at hd
    · cases hd
    · next hd' => cases hd; exact hd'
  · unfold NcFile.require at hx
    simp only at hx
    split at hx
    · cases hx
    · next hx' => cases hx; exact hx'
  · intro s hs
    by_contra hc
    exact hany (List.any_eq_true.2 ⟨s, hs, by simpa using hc⟩)

/-- whether a periodicity is daily -/
def isDaily (per : Periodicity) : Bool := decide (per = .daily)

omit [FloatOps F] in
theorem fittingName_eq {per : Periodicity} {u : String} (hu : per.unit = .ok u) (v : String) (s : Int) : spiFitName u s v = fittingName v s (isDaily per) := by
  cases per <;> cases hu <;> rfl

omit [FloatOps F] in
theorem spiName_eq {per : Periodicity} {u : String} (hu : per.unit = .ok u) (dist : Distribution) (hd : dist = .gamma ∨ dist = .pearson) (s : Int) :
    spiOutName dist s u = spiName dist s (isDaily per) := by
  rcases hd with rfl | rfl <;> cases per <;> cases hu <;> rfl

omit [FloatOps F] in
theorem outFile_eq {per : Periodicity} {u : String} (hu : per.unit = .ok u) (base : String) (dist : Distribution) (hd : dist = .gamma ∨ dist = .pearson) (s : Int) :
    spiOutFile base u s dist = fileName base (spiName dist s (isDaily per)) := by
  unfold spiOutFile fileName
  rw [spiName_eq hu dist hd]

omit [FloatOps F] in
theorem keyResult_ne (u : String) (s : Int) (v : String) (hv : v ∈ fittingVariables) : keyResult ≠ spiFitName u s v := by
  intro h
  unfold keyResult spiFitName at h
  have h := congrArg String.toList h
  simp only [String.toList_append] at h
  simp only [fittingVariables, List.mem_cons, List.not_mem_nil, or_false] at hv
  rcases hv with rfl | rfl | rfl | rfl | rfl | rfl <;> simp at h

/-! ## The saved file -/

theorem dump_fit {SS : List Int} {u : String} {scale : Int} (hsc : scale ∈ SS) {sh : Dict (Arr F)} (l : List String) : ∀ {g g' : NcFile F}, (∀ v ∈ l, v ∈ fittingVariables) → FitFile u g →
    (∀ s ∈ SS, ∀ v ∈ fittingVariables, ∀ y, List.lookup (spiFitName u s v) g = some y → y.dims = ["lat", "lon", u]) →
    l.foldlM (fun (g : NcFile F) v => (do
      let x ← sh.at (spiFitName u scale v)
      let old ← g.get (spiFitName u scale v)
      if x.shape = old.shape then pure (g.put (spiFitName u scale v) { old with data := x.data }) else .error .valueError : Res (NcFile F))) g = .ok g' →
    FitFile u g' ∧ ∀ s ∈ SS, ∀ v ∈ fittingVariables, ∀ y, List.lookup (spiFitName u s v) g' = some y → y.dims = ["lat", "lon", u] := by
  induction l with
  | nil => intro g g' _ h1 h2 h; cases h; exact ⟨h1, h2⟩
  | cons v l ih =>
    intro g g' hl h1 h2 h
    rw [List.foldlM_cons] at h
    obtain ⟨g1, h3, h⟩ := Res.bind_ok h
    obtain ⟨x, hx, h3⟩ := Res.bind_ok h3
    obtain ⟨old, ho, h3⟩ := Res.bind_ok h3
    split at h3
    swap
    · cases h3
    cases h3
    have hod := h2 scale hsc v (hl v (by simp)) old (ncGet_ok ho)
    refine ih (fun w hw => hl w (by simp [hw])) (h1.put (hl v (by simp)) (by exact hod)) ?_ h
    intro s hs v' hv' y hy
    by_cases e : spiFitName u s v' = spiFitName u scale v
    · rw [e, ncput_same] at hy
      cases hy
      exact hod
    · rw [ncput_other _ _ e] at hy
      exact h2 s hs v' hv' y hy

theorem spiScales_fit {SS : List Int} {E : Ext F} {j : SpiJob} {u : String} {ds : Int} {d : NcFile F} (ss : List Int) : ∀ {g g' : NcFile F} {w w' : World F}, (∀ s ∈ ss, s ∈ SS) → FitFile u g →
    (∀ s ∈ SS, ∀ v ∈ fittingVariables, ∀ y, List.lookup (spiFitName u s v) g = some y → y.dims = ["lat", "lon", u]) → spiScales E j u ds d ss g w = (.ok g', w') →
    FitFile u g' ∧ ∀ s ∈ SS, ∀ v ∈ fittingVariables, ∀ y, List.lookup (spiFitName u s v) g' = some y → y.dims = ["lat", "lon", u] := by
  induction ss with
  | nil => intro g g' w w' _ h1 h2 h; cases h; exact ⟨h1, h2⟩
  | cons s0 ss ih =>
    intro g g' w w' hss h1 h2 h
    unfold spiScales at h
    obtain ⟨_, w1, _, h⟩ := SE.bind_ok h
    obtain ⟨_, w2, _, h⟩ := SE.bind_ok h
    obtain ⟨g1, w3, h3, h⟩ := SE.bind_ok h
    simp only [Prod.mk.injEq] at h3
    obtain ⟨e1, e2⟩ := dump_fit (hss s0 (by simp)) fittingVariables (fun _ h => h) h1 h2 h3.1
    exact ih (fun s hs => hss s (by simp [hs])) e1 e2 h

variable [FloatLaws F]

/-- what a finished run without loaded parameters has computed for a scale (at its last occurrence): the files of both distributions, the parameters in the dictionary, and the data
set of parameters -/
theorem spiRun_ok {E : Ext F} (hE : ExtNan E) {yearOf : F → Int} {lower : String → String} {cs ce : Int} {base : String} {wk : Nat} {a : SpiArgs} {w w' : World F}
    (hfresh : w.shared = fun _ => none) (hload : a.loadParams = none) (h : spiMain E yearOf lower cs ce base wk a w = (.ok (), w'))
    {d : NcFile F} {x t lat lon : NcVar F} {A B N : Nat} (hin : SpiInput w.files a d x t lat lon A B N) {t0 : F} (ht0 : t.data.head? = some t0)
    {pre post : List Int} {s : Int} (hs : a.scales = some (pre ++ s :: post)) (hlast : s ∉ post) :
    ∃ it f u d' un mm vals n g w1, a.periodicity.unit = .ok u ∧ x.units = some un ∧ convertPrecip (lower un) x.data = .ok mm ∧ SpiValues yearOf a.periodicity t A B N mm vals ∧
      vals.shape = [A, B, n] ∧ vals.data.length = A * (B * n) ∧ List.lookup "time" d' = some t ∧ List.lookup "lat" d' = some lat ∧ List.lookup "lon" d' = some lon ∧
      OutHolds E (spiJob a it f cs ce base wk) u (yearOf t0) d' A B n (SpiShape a.periodicity x t lat lon (yearOf t0)) s .gamma
        (fun i k => cellAfter (seriesAt B n i k vals.data) a.periodicity (toolPairs pre ++ [(s, .gamma)])) w1.files ∧
      OutHolds E (spiJob a it f cs ce base wk) u (yearOf t0) d' A B n (SpiShape a.periodicity x t lat lon (yearOf t0)) s .pearson
        (fun i k => cellAfter (seriesAt B n i k vals.data) a.periodicity (toolPairs pre ++ [(s, .gamma)])) w1.files ∧
      (0 < A → 0 < B → FitsHold E u a.periodicity (yearOf t0) cs ce s .gamma A B (fun i k => cellAfter (seriesAt B n i k vals.data) a.periodicity (toolPairs pre)) w1.shared ∧
        FitsHold E u a.periodicity (yearOf t0) cs ce s .pearson A B (fun i k => cellAfter (seriesAt B n i k vals.data) a.periodicity (toolPairs pre ++ [(s, .gamma)])) w1.shared) ∧
      (∀ v ∈ fittingVariables, ∃ y z, w1.shared (spiFitName u s v) = some y ∧ List.lookup (spiFitName u s v) g = some z ∧ z.shape = y.shape ∧ z.data = y.data ∧ z.dims = ["lat", "lon", u]) ∧ FitFile u g ∧
      spiSave (spiJob a it f cs ce base wk) g w1 = (.ok (), w') ∧ (w1.files = fun q => if ∃ s ∈ a.scales.getD [], q = spiOutFile base u s .gamma ∨ q = spiOutFile base u s .pearson
        then w1.files q else w.files q) ∧ (SpiShape a.periodicity x t lat lon (yearOf t0)).foldr (· * ·) 1 = A * (B * n) := by
  obtain ⟨it, f, u, d', fitting, ds, sh, g, w1, hv, hf, hu, hprep, hsc, hsave⟩ := spiMain_parts h
  obtain ⟨f', v, d'', x', sc, hf', hvn, hd'', hx', hit, _, _⟩ := spiValidate_parts hv
  rw [hf] at hf'
  cases hf'
  obtain ⟨f1, hf1, hfd⟩ := hin.file
  rw [hf] at hf1
  cases hf1
  rw [hfd] at hd''
  cases hd''
  obtain ⟨v1, hv1, hxv, hres, hfv⟩ := hin.var
  rw [hvn] at hv1
  cases hv1
  rw [hxv] at hx'
  cases hx'
  obtain ⟨hdims, hshape, hwf⟩ := hin.grid
  rw [hdims] at hit
  have hit : it = .grid := by
    have : inputTypeOf ["lat", "lon", "time"] = .ok .grid := by decide
    rw [this] at hit
    cases hit
    rfl
  subst hit
  simp only [List.mem_cons, List.not_mem_nil, or_false, not_or] at hres
  have hvar : ∀ s, ∀ p ∈ fittingVariables, (spiJob a .grid f cs ce base wk).var ≠ spiFitName u s p := by
    intro s p hp
    show a.varNamePrecip.getD "" ≠ _
    rw [hvn, fittingName_eq hu]
    exact hfv p hp s _
  have hvj : (spiJob a .grid f cs ce base wk).var = v := by show a.varNamePrecip.getD "" = _; rw [hvn]; rfl
  have hscj : (spiJob a .grid f cs ce base wk).scales = pre ++ s :: post := by show a.scales.getD [] = _; rw [hs]; rfl
  have hvk : (spiJob a .grid f cs ce base wk).var ≠ keyResult := by rw [hvj]; exact hres.2.2.2
  obtain ⟨p1, p2, p3, p4, p5, un, mm, vals, p6, p7, p8, p9, res, p10, p11, p12⟩ := spiPrepare_ok (j := spiJob a .grid f cs ce base wk) (u := u) hu hfresh hload (by rw [hscj]; simp) rfl hfd
    (by rw [hvj]; exact hxv) hshape hwf hin.time.1 hin.time.2.1 ht0 hin.lat.1 hin.lat.2.1 hin.lon.1 hin.lon.2.1 (by rw [hvj]; simp [hres]) hvar hvk
    (fun s v hv => keyResult_ne u s v hv) hprep
  subst p1
  obtain ⟨n, q1, q2⟩ : ∃ n, vals.shape = [A, B, n] ∧ vals.data.length = A * (B * n) := by
    unfold SpiValues at p8
    split at p8
    · obtain ⟨_, _, _, _, _, _, _, e1, e2, _⟩ := p8
      exact ⟨_, e1, e2⟩
    · subst p8
      exact ⟨N, rfl, by rw [convertPrecip_length p7, hwf]⟩
  have hcells : CellsAre (spiJob a .grid f cs ce base wk).var A B n (SpiShape a.periodicity x t lat lon (yearOf t0))
      (fun i k => cellAfter (seriesAt B n i k vals.data) (spiJob a .grid f cs ce base wk).per []) sh := by
    refine ⟨⟨vals.data, ?_, q2, fun i _ k _ => (cellAfter_nil _ _).symm⟩, res, p10, p11⟩
    rw [p9, ← q1]
  have hscg : a.scales.getD [] = pre ++ s :: post := by rw [hs]; rfl
  rw [hscg] at hsc
  obtain ⟨_, _, r1, r2, r3, r4⟩ := spiScales_ok hE (j := spiJob a .grid f cs ce base wk) hload hvar hvk (fun s v hv => keyResult_ne u s v hv) (pre ++ s :: post) (w := { w with shared := sh }) hcells hsc
  obtain ⟨o1, o2, o3, o4⟩ := r1 pre s post rfl hlast
  simp only [List.nil_append] at o1 o2 o3
  have hdims : ∀ s' ∈ pre ++ s :: post, ∀ v ∈ fittingVariables, ∀ y, List.lookup (spiFitName u s' v) fitting = some y → y.dims = ["lat", "lon", u] := by
    intro s' hs' v hv y hy
    obtain ⟨y', k1, k2⟩ := p5.2 s' (by rw [hscj]; exact hs') v hv
    rw [hy] at k1
    cases k1
    exact k2
  obtain ⟨k1, k2⟩ := spiScales_fit (SS := pre ++ s :: post) (pre ++ s :: post) (fun _ h => h) p5.1 hdims hsc
  refine ⟨.grid, f, u, d', un, mm, vals, n, g, w1, hu, p6, p7, p8, q1, q2, p2, p3, p4, o1, o2, o3, ?_, k1, hsave, ?_, ?_⟩
  rotate_left 2
  · obtain ⟨s0, ss, hss⟩ : ∃ s0 ss, pre ++ s :: post = s0 :: ss := by cases pre <;> exact ⟨_, _, rfl⟩
    rw [hss] at hsc
    unfold spiScales at hsc
    obtain ⟨_, w5, hp1, _⟩ := SE.bind_ok hsc
    obtain ⟨_, _, _, _, _, _, res', e1, e2⟩ := spiPair_ok hE (j := spiJob a .grid f cs ce base wk) hload hvar hvk (fun s v hv => keyResult_ne u s v hv) (w := { w with shared := sh }) hcells hp1
    have e1 : sh keyResult = some res' := e1
    rw [p10] at e1
    cases e1
    rw [← e2, p12, p11]
    rfl
  · intro v hv
    obtain ⟨y, z, e1, e2, e3, e4⟩ := o4 v hv
    exact ⟨y, z, e1, e2, e3, e4, k2 s (by simp) v hv z e2⟩
  funext q
  split
  · rfl
  · next hq =>
    refine r2 q ?_
    rw [hscg] at hq
    intro s' hs'
    constructor
    · rintro rfl; exact hq ⟨s', hs', .inl rfl⟩
    · rintro rfl; exact hq ⟨s', hs', .inr rfl⟩

end CI
