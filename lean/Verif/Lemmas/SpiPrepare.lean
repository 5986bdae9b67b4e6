import Verif.Lemmas.SpiScales
import Verif.Lemmas.Daily

/-!
# Lemmas about the SPI tool: the part before the loop over the scales
-/

namespace CI
open Spec CI.Props

variable {F : Type}

/-! ## Trimmed data sets -/

theorem lookup_filter_keep {d : NcFile F} {P : String × NcVar F → Bool} {k : String} {x : NcVar F} (h : List.lookup k d = some x) (hp : P (k, x) = true) :
    List.lookup k (d.filter P) = some x := by
  induction d with
  | nil => simp at h
  | cons p d ih =>
    obtain ⟨q, y⟩ := p
    simp only [List.lookup_cons] at h
    by_cases hk : k = q
    · subst hk
      simp only [beq_self_eq_true, Option.some.injEq] at h
      subst h
      simp [List.filter_cons, hp]
    · rw [beq_eq_false_iff_ne.2 hk] at h
      simp only at h
      rw [List.filter_cons]
      split
      · rw [List.lookup_cons, beq_eq_false_iff_ne.2 hk]
        exact ih h
      · exact ih h

theorem lookup_mem {d : NcFile F} {k : String} {x : NcVar F} (h : List.lookup k d = some x) : (k, x) ∈ d := by
  induction d with
  | nil => simp at h
  | cons p d ih =>
    obtain ⟨q, y⟩ := p
    simp only [List.lookup_cons] at h
    split at h
    · next hk => cases h; rw [beq_iff_eq.1 hk]; simp
    · exact List.mem_cons_of_mem _ (ih h)

theorem trim_var {j : SpiJob} {d : NcFile F} {x : NcVar F} (h : List.lookup j.var d = some x) : List.lookup j.var (spiTrim j d) = some x :=
  lookup_filter_keep h (by simp)

theorem trim_coord {j : SpiJob} {d : NcFile F} {k : String} {x : NcVar F} (h : List.lookup k d = some x) (hd : x.dims = [k]) : List.lookup k (spiTrim j d) = some x :=
  lookup_filter_keep h (by simp [hd])

theorem ncAttr_ok {d : NcFile F} {k : String} {x : NcVar F} (h : d.attr k = .ok x) : List.lookup k d = some x := by
  unfold NcFile.attr at h
  split at h
  · cases h
  · next v hv => cases h; exact hv

theorem spiCoord_ok {d : NcFile F} {k : String} {x : NcVar F} (h : spiCoord d k = .ok x) : List.lookup k d = some x := by
  unfold spiCoord at h
  obtain ⟨y, hy, h⟩ := Res.bind_ok h
  split at h
  · cases h
  · split at h
    · cases h
    · cases h
      exact ncAttr_ok hy

/-! ## The data set of fitting parameters -/

/-- every entry is a coordinate or a fitting array with the dimensions latitude, longitude and calendar step; no name occurs twice -/
def FitFile (u : String) (g : NcFile F) : Prop :=
  (∀ p ∈ g, p.2.dims = [p.1] ∨ (p.2.dims = ["lat", "lon", u] ∧ ∃ s, ∃ v ∈ fittingVariables, p.1 = spiFitName u s v)) ∧ (g.map Prod.fst).Nodup

theorem lookup_none_iff {d : NcFile F} {k : String} : List.lookup k d = none ↔ k ∉ d.map Prod.fst := by
  induction d with
  | nil => simp
  | cons p d ih =>
    obtain ⟨q, y⟩ := p
    rw [List.lookup_cons]
    by_cases hk : k = q
    · subst hk; simp
    · rw [beq_eq_false_iff_ne.2 hk]
      simp only [List.map_cons, List.mem_cons, hk, false_or]
      exact ih

theorem put_keys (g : NcFile F) (name : String) (x : NcVar F) :
    (g.put name x).map Prod.fst = if name ∈ g.map Prod.fst then g.map Prod.fst else g.map Prod.fst ++ [name] := by
  unfold NcFile.put
  by_cases h : List.lookup name g = none
  · have := lookup_none_iff.1 h
    rw [if_neg this, h]
    simp
  · have hm : name ∈ g.map Prod.fst := by
      by_contra hc
      exact h (lookup_none_iff.2 hc)
    rw [if_pos hm, if_pos (Option.isSome_iff_ne_none.2 h), List.map_map]
    apply List.map_congr_left
    intro p _
    by_cases hp : p.1 = name <;> simp [hp]

theorem put_mem {g : NcFile F} {name : String} {x : NcVar F} {p : String × NcVar F} (h : p ∈ g.put name x) : p = (name, x) ∨ (p ∈ g ∧ p.1 ≠ name) := by
  unfold NcFile.put at h
  split at h
  · obtain ⟨q, hq, rfl⟩ := List.mem_map.1 h
    by_cases hn : q.1 = name
    · left; simp [hn]
    · right; simp [hn, hq]
  · next hn =>
    rcases List.mem_append.1 h with hm | h
    · right
      refine ⟨hm, ?_⟩
      rintro rfl
      have := lookup_none_iff.1 (Option.not_isSome_iff_eq_none.1 hn)
      exact this (List.mem_map.2 ⟨p, hm, rfl⟩)
    · left; simpa using h

theorem FitFile.put {u : String} {g : NcFile F} (h : FitFile u g) {s : Int} {v : String} (hv : v ∈ fittingVariables) {x : NcVar F} (hx : x.dims = ["lat", "lon", u]) :
    FitFile u (g.put (spiFitName u s v) x) := by
  refine ⟨?_, ?_⟩
  · intro p hp
    rcases put_mem hp with rfl | ⟨hp, _⟩
    · exact .inr ⟨hx, s, v, hv, rfl⟩
    · exact h.1 p hp
  · rw [put_keys]
    split
    · exact h.2
    · next hn => exact List.nodup_append.2 ⟨h.2, by simp, fun a ha b hb e => hn (by rw [← List.mem_singleton.1 hb, ← e]; exact ha)⟩

variable [FloatOps F]

theorem foldPutNc {u : String} {s : Int} (x : NcVar F) (hx : x.dims = ["lat", "lon", u]) (l : List String) : ∀ {g : NcFile F}, (∀ v ∈ l, v ∈ fittingVariables) → FitFile u g →
    FitFile u (l.foldl (fun (g : NcFile F) v => g.put (spiFitName u s v) x) g) ∧
    (∀ v ∈ l, List.lookup (spiFitName u s v) (l.foldl (fun (g : NcFile F) v => g.put (spiFitName u s v) x) g) = some x) ∧
    ∀ key, (∀ v ∈ l, key ≠ spiFitName u s v) → List.lookup key (l.foldl (fun (g : NcFile F) v => g.put (spiFitName u s v) x) g) = List.lookup key g := by
  induction l with
  | nil => intro g _ h; exact ⟨h, by simp, fun _ _ => rfl⟩
  | cons v l ih =>
    intro g hl h
    obtain ⟨i1, i2, i3⟩ := ih (g := g.put (spiFitName u s v) x) (fun v hv => hl v (by simp [hv])) (h.put (hl v (by simp)) hx)
    rw [List.foldl_cons]
    refine ⟨i1, ?_, ?_⟩
    · intro v' hv'
      by_cases hm : v' ∈ l
      · exact i2 v' hm
      · have : v' = v := by simpa [hm] using hv'
        subst this
        rw [i3, ncput_same]
        intro w hw e
        have := (fitName_inj (hl v' (by simp)) (hl w (by simp [hw])) e).2
        subst this
        exact hm hw
    · intro key hk
      rw [i3 key (fun w hw => hk w (by simp [hw])), ncput_other _ _ (hk v (by simp))]

theorem addEmptyFits_ok {per : Periodicity} {u : String} (hu : per.unit = .ok u) {g g' : NcFile F} {s : Int} (hg : FitFile u g) (h : addEmptyFits per g s = .ok g') :
    FitFile u g' ∧ ∃ lat lon x, List.lookup "lat" g = some lat ∧ List.lookup "lon" g = some lon ∧ x.dims = ["lat", "lon", u] ∧
      x.shape = [lat.data.length, lon.data.length, per.steps] ∧ (∀ v ∈ fittingVariables, List.lookup (spiFitName u s v) g' = some x) ∧
      ∀ key, (∀ v ∈ fittingVariables, key ≠ spiFitName u s v) → List.lookup key g' = List.lookup key g := by
  unfold addEmptyFits at h
  obtain ⟨p, hp, h⟩ := Res.bind_ok h
  obtain ⟨u', hu', h⟩ := Res.bind_ok h
  rw [hu] at hu'
  cases hu'
  obtain ⟨lat, h1, h⟩ := Res.bind_ok h
  obtain ⟨lon, h2, h⟩ := Res.bind_ok h
  split at h
  swap
  · cases h
  next hd =>
  cases h
  have hps : p = per.steps := by cases per <;> cases hp <;> rfl
  subst hps
  obtain ⟨g1, g2, g3⟩ := foldPutNc (u := u) (s := s) ⟨["lat", "lon", u], [lat.data.length, lon.data.length, per.steps], none, List.replicate (lat.data.length * (lon.data.length * per.steps)) nan⟩ rfl
    fittingVariables (fun _ h => h) hg
  exact ⟨g1, lat, lon, _, ncAttr_ok h1, ncAttr_ok h2, rfl, rfl, g2, g3⟩

theorem addEmptyFits_coords {per : Periodicity} {g g' : NcFile F} {s : Int} (h : addEmptyFits per g s = .ok g') :
    ∃ lat lon, List.lookup "lat" g = some lat ∧ List.lookup "lon" g = some lon ∧ lat.dims = ["lat"] ∧ lon.dims = ["lon"] := by
  unfold addEmptyFits at h
  obtain ⟨p, hp, h⟩ := Res.bind_ok h
  obtain ⟨u', hu', h⟩ := Res.bind_ok h
  obtain ⟨lat, h1, h⟩ := Res.bind_ok h
  obtain ⟨lon, h2, h⟩ := Res.bind_ok h
  split at h
  swap
  · cases h
  next hd => exact ⟨lat, lon, ncAttr_ok h1, ncAttr_ok h2, hd.1, hd.2⟩

theorem emptyFits_fold {per : Periodicity} {u : String} (hu : per.unit = .ok u) (ss : List Int) : ∀ {g g' : NcFile F}, FitFile u g → ss.foldlM (addEmptyFits per) g = .ok g' →
    FitFile u g' ∧ (∀ s ∈ ss, ∀ v ∈ fittingVariables, ∃ x, List.lookup (spiFitName u s v) g' = some x ∧ x.dims = ["lat", "lon", u]) ∧
      ∀ key, (∀ s ∈ ss, ∀ v ∈ fittingVariables, key ≠ spiFitName u s v) → List.lookup key g' = List.lookup key g := by
  induction ss with
  | nil => intro g g' hg h; cases h; exact ⟨hg, by simp, fun _ _ => rfl⟩
  | cons s ss ih =>
    intro g g' hg h
    rw [List.foldlM_cons] at h
    obtain ⟨g1, h1, h⟩ := Res.bind_ok h
    obtain ⟨e1, lat, lon, x, e2, e3, e4, e5, e6, e7⟩ := addEmptyFits_ok hu hg h1
    obtain ⟨i1, i2, i3⟩ := ih e1 h
    refine ⟨i1, ?_, ?_⟩
    · intro s' hs' v hv
      by_cases hm : s' ∈ ss
      · exact i2 s' hm v hv
      · have : s' = s := by simpa [hm] using hs'
        subst this
        refine ⟨x, ?_, e4⟩
        rw [i3, e6 v hv]
        intro s'' hs'' v' hv' e
        have := (fitName_inj hv hv' e).1
        subst this
        exact hm hs''
    · intro key hk
      rw [i3 key (fun s' hs' => hk s' (by simp [hs'])), e7 key (hk s (by simp))]

/-- the data set of fitting parameters that is built -/
theorem spiFitting_ok {fs : Files F} {j : SpiJob} {d g : NcFile F} {u : String} (hu : j.per.unit = .ok u) (hload : j.load = none) (hne : j.scales ≠ []) (h : spiFitting fs j d = .ok g) :
    FitFile u g ∧ ∀ s ∈ j.scales, ∀ v ∈ fittingVariables, ∃ x, List.lookup (spiFitName u s v) g = some x ∧ x.dims = ["lat", "lon", u] := by
  unfold spiFitting at h
  rw [hload] at h
  simp only at h
  obtain ⟨g0, h0, h⟩ := Res.bind_ok h
  unfold buildFittingGrid at h0
  obtain ⟨p, hp, h0⟩ := Res.bind_ok h0
  obtain ⟨u', hu', h0⟩ := Res.bind_ok h0
  rw [hu] at hu'
  cases hu'
  obtain ⟨lat, hlat, h0⟩ := Res.bind_ok h0
  obtain ⟨lon, hlon, h0⟩ := Res.bind_ok h0
  cases h0
  obtain ⟨s0, ss, hss⟩ := List.exists_cons_of_ne_nil hne
  have hf : FitFile u [("lat", lat), ("lon", lon), (u, (⟨[u], [p], none, (List.range p).map (fun (i : Nat) => lit (i : ℚ))⟩ : NcVar F))] := by
    have h' := h
    rw [hss, List.foldlM_cons] at h'
    obtain ⟨g1, h1, _⟩ := Res.bind_ok h'
    obtain ⟨lat', lon', e1, e2, e3, e4⟩ := addEmptyFits_coords h1
    have e1 : lat = lat' := by simpa using e1
    have e2 : lon = lon' := by simpa [List.lookup_cons] using e2
    subst e1 e2
    refine ⟨?_, ?_⟩
    · intro p hp
      left
      simp only [List.mem_cons, List.not_mem_nil, or_false] at hp
      rcases hp with rfl | rfl | rfl
      · exact e3
      · exact e4
      · rfl
    · have : u = "month" ∨ u = "day" := by cases hper : j.per <;> rw [hper] at hu <;> cases hu <;> simp
      rcases this with rfl | rfl <;> simp
  obtain ⟨i1, i2, _⟩ := emptyFits_fold hu j.scales hf h
  exact ⟨i1, i2⟩

/-! ## The dictionary -/

/-- one step of the copies of fitting arrays -/
def dropStep (sh : Dict (Arr F)) (p : String × NcVar F) : Res (Dict (Arr F)) :=
  if spiDimsOk [["lat", "lon", "month"], ["lat", "lon", "day"]] p.2.dims then .ok (sh.put p.1 ⟨p.2.shape, p.2.data⟩) else .error .valueError

omit [FloatOps F] in
theorem dropSteps_other {key : String} {sh' : Dict (Arr F)} (l : NcFile F) : ∀ (sh : Dict (Arr F)), (∀ p ∈ l, p.1 ≠ key) → l.foldlM dropStep sh = .ok sh' → sh' key = sh key := by
  induction l with
  | nil => intro sh _ h; cases h; rfl
  | cons p l ih =>
    intro sh hl h
    rw [List.foldlM_cons] at h
    obtain ⟨sh1, h1, h⟩ := Res.bind_ok h
    rw [ih sh1 (fun q hq => hl q (by simp [hq])) h]
    unfold dropStep at h1
    split at h1
    · cases h1
      rw [put_other _ _ (hl p (by simp)).symm]
    · cases h1

omit [FloatOps F] in
theorem dropSteps_get {key : String} {x : NcVar F} {sh' : Dict (Arr F)} (l : NcFile F) : ∀ (sh : Dict (Arr F)), (l.map Prod.fst).Nodup → (key, x) ∈ l → l.foldlM dropStep sh = .ok sh' →
    sh' key = some ⟨x.shape, x.data⟩ := by
  induction l with
  | nil => intro sh _ h; simp at h
  | cons p l ih =>
    intro sh hl hm h
    rw [List.foldlM_cons] at h
    obtain ⟨sh1, h1, h2⟩ := Res.bind_ok h
    rw [List.map_cons, List.nodup_cons] at hl
    rcases List.mem_cons.1 hm with rfl | hm
    · rw [dropSteps_other l sh1 (fun p hp e => hl.1 (List.mem_map.2 ⟨p, hp, e⟩)) h2]
      unfold dropStep at h1
      split at h1
      · cases h1
        rw [put_same]
      · cases h1
    · exact ih sh1 hl.2 hm h2

omit [FloatOps F] in
/-- only the fitting arrays are put into the dictionary -/
theorem dropFitting_other {g : NcFile F} {sh sh' : Dict (Arr F)} (h : dropFitting g sh = .ok sh') (key : String) (hk : ∀ p ∈ g, p.2.dims ≠ [p.1] → p.1 ≠ key) : sh' key = sh key := by
  refine dropSteps_other _ sh ?_ h
  intro p hp
  rw [List.mem_filter] at hp
  exact hk p hp.1 (by simpa using hp.2)

omit [FloatOps F] in
theorem dropFitting_get {g : NcFile F} {sh sh' : Dict (Arr F)} (h : dropFitting g sh = .ok sh') (hn : (g.map Prod.fst).Nodup) {key : String} {x : NcVar F} (hx : List.lookup key g = some x)
    (hd : x.dims ≠ [key]) : sh' key = some ⟨x.shape, x.data⟩ := by
  refine dropSteps_get _ sh ?_ ?_ h
  · exact (List.Sublist.map _ (List.filter_sublist)).nodup hn
  · rw [List.mem_filter]
    exact ⟨lookup_mem hx, by simpa using hd⟩

/-! ## The whole part before the loop -/

/-- the values that are put into the dictionary for the precipitation -/
def SpiValues (yearOf : F → Int) (per : Periodicity) (t : NcVar F) (A B N : Nat) (mm : List F) (v : Arr F) : Prop :=
  match per with
  | .daily => ∃ t0 t1, t.data.head? = some t0 ∧ t.data.getLast? = some t1 ∧ 0 ≤ yearOf t1 - yearOf t0 + 1 ∧ 0 < A ∧ 0 < B ∧
      v.shape = [A, B, (yearOf t1 - yearOf t0 + 1).toNat * 366] ∧ v.data.length = A * (B * ((yearOf t1 - yearOf t0 + 1).toNat * 366)) ∧
      ∀ i < A, ∀ k < B, transformTo366day (Arr.of1d (seriesAt B N i k mm)) (yearOf t0) (yearOf t1 - yearOf t0 + 1).toNat =
        .ok (seriesAt B ((yearOf t1 - yearOf t0 + 1).toNat * 366) i k v.data)
  | _ => v = ⟨[A, B, N], mm⟩

/-- the shape of the results -/
def SpiShape (per : Periodicity) (x t lat lon : NcVar F) (ds : Int) : List Nat :=
  match per with
  | .daily => [lat.data.length, lon.data.length, gregorianLengthAs366day t.data.length ds]
  | _ => x.shape

theorem convertPrecip_length {u : String} {x mm : List F} (h : convertPrecip u x = .ok mm) : mm.length = x.length := by
  unfold convertPrecip at h
  split at h
  · cases h; rfl
  · split at h
    · cases h; simp
    · cases h

/-- every entry is a coordinate or has the name of a fitting array; no name occurs twice -/
def FitNames (u : String) (g : NcFile F) : Prop :=
  (∀ p ∈ g, p.2.dims = [p.1] ∨ ∃ s, ∃ v ∈ fittingVariables, p.1 = spiFitName u s v) ∧ (g.map Prod.fst).Nodup

omit [FloatOps F] in
theorem FitFile.names {u : String} {g : NcFile F} (h : FitFile u g) : FitNames u g :=
  ⟨fun p hp => (h.1 p hp).imp id And.right, h.2⟩

theorem spiPrepare_gen {yearOf : F → Int} {lower : String → String} {j : SpiJob} {w : World F} {d' fitting : NcFile F} {ds : Int} {sh : Dict (Arr F)} {u : String}
    (hfresh : w.shared = fun _ => none) (hit : j.inputType = .grid) {d : NcFile F} {x t lat lon : NcVar F}
    (hfitok : ∀ g, spiFitting w.files j (spiTrim j d) = .ok g → FitNames u g)
    {t0 : F} {A B N : Nat} (hopen : w.files j.file = some d) (hx : List.lookup j.var d = some x) (hshape : x.shape = [A, B, N]) (hwf : x.data.length = A * (B * N))
    (ht : List.lookup "time" d = some t) (htd : t.dims = ["time"]) (ht0 : t.data.head? = some t0) (hlat : List.lookup "lat" d = some lat) (hlatd : lat.dims = ["lat"])
    (hlon : List.lookup "lon" d = some lon) (hlond : lon.dims = ["lon"]) (hcv : j.var ∉ ["time", "lat", "lon"])
    (hvar : ∀ s, ∀ v ∈ fittingVariables, j.var ≠ spiFitName u s v) (hres : j.var ≠ keyResult) (hfr : ∀ s, ∀ v ∈ fittingVariables, keyResult ≠ spiFitName u s v)
    (h : spiPrepare yearOf lower j w = .ok (d', fitting, ds, sh)) :
    ds = yearOf t0 ∧ List.lookup "time" d' = some t ∧ List.lookup "lat" d' = some lat ∧ List.lookup "lon" d' = some lon ∧
      spiFitting w.files j (spiTrim j d) = .ok fitting ∧
      (∀ key y, List.lookup key fitting = some y → y.dims ≠ [key] → key ≠ keyResult → sh key = some ⟨y.shape, y.data⟩) ∧
      ∃ un mm vals, x.units = some un ∧ convertPrecip (lower un) x.data = .ok mm ∧ SpiValues yearOf j.per t A B N mm vals ∧ sh j.var = some vals ∧
        ∃ res, sh keyResult = some res ∧ res.shape = SpiShape j.per x t lat lon ds ∧ res.data.length = res.shape.foldr (· * ·) 1 := by
  unfold spiPrepare at h
  obtain ⟨f, hf, h⟩ := Res.bind_ok h
  have : f = d := by
    unfold openFile at hf
    simp only [hopen] at hf
    cases hf
    rfl
  subst this
  obtain ⟨fit, hfit, h⟩ := Res.bind_ok h
  obtain ⟨ds', hds, h⟩ := Res.bind_ok h
  obtain ⟨x0, hx0, h⟩ := Res.bind_ok h
  have : x0 = x := by
    have := ncGet_ok hx0
    rw [trim_var hx] at this
    cases this
    rfl
  subst this
  obtain ⟨x', hx', h⟩ := Res.bind_ok h
  obtain ⟨sh0, hdrop, h⟩ := Res.bind_ok h
  obtain ⟨shp, hshp, h⟩ := Res.bind_ok h
  cases h
  simp only [List.mem_cons, List.not_mem_nil, or_false, not_or] at hcv
  obtain ⟨hc1, hc2, hc3⟩ := hcv
  have lt : List.lookup "time" ((spiTrim j f).put j.var x') = some t := by rw [ncput_other _ _ (Ne.symm hc1), trim_coord ht htd]
  have llat : List.lookup "lat" ((spiTrim j f).put j.var x') = some lat := by rw [ncput_other _ _ (Ne.symm hc2), trim_coord hlat hlatd]
  have llon : List.lookup "lon" ((spiTrim j f).put j.var x') = some lon := by rw [ncput_other _ _ (Ne.symm hc3), trim_coord hlon hlond]
  have lx : List.lookup j.var ((spiTrim j f).put j.var x') = some x' := ncput_same _ _ _
  have hfitok := hfitok _ hfit
  have first : ∀ g : NcFile F, List.lookup "time" g = some t → ∀ y, firstYear yearOf g = .ok y → y = yearOf t0 := by
    intro g hg y hy
    unfold firstYear at hy
    obtain ⟨t', h1, hy⟩ := Res.bind_ok hy
    have := ncGet_ok h1
    rw [hg] at this
    cases this
    obtain ⟨z, h2, hy⟩ := Res.bind_ok hy
    cases hy
    cases htdat : t.data with
    | nil => rw [htdat] at ht0; simp at ht0
    | cons q l => 
      rw [htdat] at ht0 h2
      simp only [List.head?_cons, Option.some.injEq] at ht0
      unfold getIdx at h2
      simp at h2
      rw [← h2, ht0]
  have hdsy := first _ (trim_coord ht htd) ds hds
  refine ⟨hdsy, lt, llat, llon, hfit, ?_, ?_⟩
  · intro key y hy hd hk
    rw [put_other _ _ hk]
    unfold spiDrop at hdrop
    rw [hit] at hdrop
    simp only at hdrop
    unfold spiDropGrid at hdrop
    obtain ⟨x1, hx1, hdrop⟩ := Res.bind_ok hdrop
    split at hdrop
    swap
    · cases hdrop
    obtain ⟨vals, hvals, hdrop⟩ := Res.bind_ok hdrop
    exact dropFitting_get hdrop hfitok.2 hy hd
  -- units
  obtain ⟨un, mm, hun, hmm, rfl⟩ : ∃ un mm, x0.units = some un ∧ convertPrecip (lower un) x0.data = .ok mm ∧ x' = { x0 with data := mm } := by
    unfold convertVar at hx'
    split at hx'
    · cases hx'
    · next un hun =>
      obtain ⟨mm, h1, hx'⟩ := Res.bind_ok hx'
      cases hx'
      exact ⟨un, mm, hun, h1, rfl⟩
  have hmml : mm.length = A * (B * N) := by rw [convertPrecip_length hmm, hwf]
  -- dictionary
  unfold spiDrop at hdrop
  rw [hit] at hdrop
  simp only at hdrop
  unfold spiDropGrid at hdrop
  obtain ⟨x1, hx1, hdrop⟩ := Res.bind_ok hdrop
  have hx1 := ncGet_ok hx1
  rw [lx] at hx1
  cases hx1
  split at hdrop
  swap
  · cases hdrop
  obtain ⟨vals, hvals, hdrop⟩ := Res.bind_ok hdrop
  have hentry : ∀ key, (∀ s, ∀ v ∈ fittingVariables, key ≠ spiFitName u s v) → ∀ p ∈ fitting, p.2.dims ≠ [p.1] → p.1 ≠ key := by
    intro key hk p hp hd e
    rcases hfitok.1 p hp with h1 | ⟨s, v, hv, h1⟩
    · exact hd h1
    · exact hk s v hv (e.symm.trans h1)
  have hsv : sh0 j.var = some vals := by rw [dropFitting_other hdrop _ (hentry _ hvar), put_same]
  have hsr : sh0 keyResult = none := by rw [dropFitting_other hdrop _ (hentry _ hfr), put_other _ _ (Ne.symm hres), hfresh]
  have hV : SpiValues yearOf j.per t A B N mm vals := by
    unfold SpiValues
    unfold dailyValues at hvals
    cases hper : j.per with
    | monthly => rw [hper] at hvals; simp only at hvals; cases hvals; simp [hshape]
    | other => rw [hper] at hvals; simp only at hvals; cases hvals; simp [hshape]
    | daily =>
      rw [hper] at hvals
      simp only at hvals ⊢
      obtain ⟨y0, h1, hvals⟩ := Res.bind_ok hvals
      have hy0 := first _ lt y0 h1
      subst hy0
      obtain ⟨y1, h2, hvals⟩ := Res.bind_ok hvals
      obtain ⟨t1, ht1, rfl⟩ : ∃ t1, t.data.getLast? = some t1 ∧ y1 = yearOf t1 := by
        unfold lastYear at h2
        obtain ⟨t', h3, h2⟩ := Res.bind_ok h2
        have := ncGet_ok h3
        rw [lt] at this
        cases this
        obtain ⟨z, h4, h2⟩ := Res.bind_ok h2
        cases h2
        unfold orElseRaise at h4
        split at h4
        · cases h4
        · next v hv => cases h4; exact ⟨_, hv, rfl⟩
      split at hvals
      · cases hvals
      next hneg =>
      rw [hshape] at hvals
      obtain ⟨e1, e2, e3, e4, e5⟩ := alongLast_ok hmml (fun s t h => transformTo366_length h) hvals
      exact ⟨t0, t1, ht0, ht1, by omega, e1, e2, e3, e4, e5⟩
  refine ⟨un, mm, vals, hun, hmm, hV, by rw [put_other _ _ hres, hsv], _, put_same _ _ _, ?_, ?_⟩
  · unfold resultArray
    rw [hsr]
    unfold spiOutShape at hshp
    unfold SpiShape
    cases hper : j.per with
    | monthly =>
      rw [hper] at hshp
      obtain ⟨z, hz, hshp⟩ := Res.bind_ok hshp
      have hz := ncGet_ok hz
      rw [lx] at hz
      cases hz
      cases hshp
      rfl
    | other => rw [hper] at hshp; cases hshp
    | daily =>
      rw [hper] at hshp
      obtain ⟨z1, hz1, hshp⟩ := Res.bind_ok hshp
      obtain ⟨z2, hz2, hshp⟩ := Res.bind_ok hshp
      obtain ⟨z3, hz3, hshp⟩ := Res.bind_ok hshp
      have hz1 := ncGet_ok hz1
      have hz2 := ncGet_ok hz2
      have hz3 := ncGet_ok hz3
      rw [lt] at hz1
      rw [llat] at hz2
      rw [llon] at hz3
      cases hz1
      cases hz2
      cases hz3
      cases hshp
      rfl
  · unfold resultArray
    rw [hsr]
    simp

theorem spiPrepare_ok {yearOf : F → Int} {lower : String → String} {j : SpiJob} {w : World F} {d' fitting : NcFile F} {ds : Int} {sh : Dict (Arr F)} {u : String}
    (hu : j.per.unit = .ok u) (hfresh : w.shared = fun _ => none) (hload : j.load = none) (hne : j.scales ≠ []) (hit : j.inputType = .grid) {d : NcFile F} {x t lat lon : NcVar F}
    {t0 : F} {A B N : Nat} (hopen : w.files j.file = some d) (hx : List.lookup j.var d = some x) (hshape : x.shape = [A, B, N]) (hwf : x.data.length = A * (B * N))
    (ht : List.lookup "time" d = some t) (htd : t.dims = ["time"]) (ht0 : t.data.head? = some t0) (hlat : List.lookup "lat" d = some lat) (hlatd : lat.dims = ["lat"])
    (hlon : List.lookup "lon" d = some lon) (hlond : lon.dims = ["lon"]) (hcv : j.var ∉ ["time", "lat", "lon"])
    (hvar : ∀ s, ∀ v ∈ fittingVariables, j.var ≠ spiFitName u s v) (hres : j.var ≠ keyResult) (hfr : ∀ s, ∀ v ∈ fittingVariables, keyResult ≠ spiFitName u s v)
    (h : spiPrepare yearOf lower j w = .ok (d', fitting, ds, sh)) :
    ds = yearOf t0 ∧ List.lookup "time" d' = some t ∧ List.lookup "lat" d' = some lat ∧ List.lookup "lon" d' = some lon ∧
      (FitFile u fitting ∧ ∀ s ∈ j.scales, ∀ v ∈ fittingVariables, ∃ y, List.lookup (spiFitName u s v) fitting = some y ∧ y.dims = ["lat", "lon", u]) ∧
      ∃ un mm vals, x.units = some un ∧ convertPrecip (lower un) x.data = .ok mm ∧ SpiValues yearOf j.per t A B N mm vals ∧ sh j.var = some vals ∧
        ∃ res, sh keyResult = some res ∧ res.shape = SpiShape j.per x t lat lon ds ∧ res.data.length = res.shape.foldr (· * ·) 1 := by
  obtain ⟨h1, h2, h3, h4, h5, _, h6⟩ := spiPrepare_gen hfresh hit (fun g hg => (spiFitting_ok hu hload hne hg).1.names) hopen hx hshape hwf ht htd ht0 hlat hlatd hlon hlond hcv hvar hres hfr h
  exact ⟨h1, h2, h3, h4, spiFitting_ok hu hload hne h5, h6⟩

end CI
