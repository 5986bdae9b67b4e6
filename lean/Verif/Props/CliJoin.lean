import Verif.Lemmas.CliJoin
import Verif.Props.CliMatch

/-!
# C77 in general: what the SPEI of two files with different coordinates is
-/

namespace CI.Props
open CI Spec FloatOps

variable {F : Type} [FloatOps F]

/-- variable `x` of file `d` is on a grid with latitudes `L`, longitudes `M` and times `T`, which are coordinates of the file; no coordinate has two equal values -/
structure OnGrid (d : NcFile F) (x : NcVar F) (L M T : List F) : Prop where
  dims : x.dims = ["lat", "lon", "time"]
  shape : x.shape = [L.length, M.length, T.length]
  lat : ∃ c, List.lookup "lat" d = some c ∧ c.dims = ["lat"] ∧ c.data = L
  lon : ∃ c, List.lookup "lon" d = some c ∧ c.dims = ["lon"] ∧ c.data = M
  time : ∃ c, List.lookup "time" d = some c ∧ c.dims = ["time"] ∧ c.data = T
  distinct : Distinct L ∧ Distinct M ∧ Distinct T

/-- `u` is the value number `i` of an axis -/
def IsAt (L : List F) (i : Nat) (u : F) : Prop := ∃ x, L[i]? = some x ∧ SameVal u x

/-- `U` is the union of the axes `L` and `L'`; if they have nothing in common it is as long as both together -/
def Joined (L L' U : List F) : Prop := (∀ u ∈ U, u ∈ L ∨ u ∈ L') ∧ (∀ x, x ∈ L ∨ x ∈ L' → ∃ u ∈ U, SameVal x u) ∧
  (L ≠ [] → (∀ x ∈ L, ∀ y ∈ L', ¬ SameVal x y) → U.length = L.length + L'.length)

/-- `new` has, on the axes `U` and `V`, the values that `old` has on the axes `L` and `M`, and missing values elsewhere -/
def Spread (L M U V : List F) (n : Nat) (old new : List F) : Prop :=
  ∀ i k φ ψ, U[i]? = some φ → V[k]? = some ψ →
    (∀ i1 k1, IsAt L i1 φ → IsAt M k1 ψ → seriesAt V.length n i k new = seriesAt M.length n i1 k1 old) ∧
    ((¬ ∃ i1, IsAt L i1 φ) ∨ (¬ ∃ k1, IsAt M k1 ψ) → seriesAt V.length n i k new = List.replicate n nan)

omit [FloatOps F] in
theorem lookup_coords {d : NcFile F} {c : String} {y : NcVar F} (h : List.lookup c d = some y) (hd : y.dims = [c]) : List.lookup c (coordsOf d) = some y := by
  induction d with
  | nil => cases h
  | cons p d ih =>
    unfold coordsOf at *
    rw [List.lookup_cons] at h
    rw [List.filter_cons]
    cases hc : (c == p.1) with
    | true =>
      rw [hc] at h
      cases h
      have := eq_of_beq hc
      rw [if_pos (by rw [← this]; simpa using hd), List.lookup_cons, hc]
    | false =>
      rw [hc] at h
      split
      · rw [List.lookup_cons, hc]
        exact ih h
      · exact ih h

section
variable [FloatLaws F]

theorem joined_pair {L L' : List F} (h : Distinct L) (h' : Distinct L') : Joined L L' (joinCoord [L, L']) := by
  obtain ⟨h1, h2, h3⟩ := joinPair L L'
  refine ⟨h1, fun x hx => ?_, fun hne hdis => h3 hne h h' ?_⟩
  · obtain ⟨u, hu, e⟩ := h2 x hx
    exact ⟨u, hu, scv_iff.1 e⟩
  · intro x hx y hy
    by_contra hc
    exact hdis x hx y hy (scv_iff.1 (by simpa using hc))

/-- values gathered on new axes -/
theorem spread_gather {L M U V : List F} (hL : Distinct L) (hM : Distinct M) {n : Nat} {data : List F} (hd : data.length = L.length * (M.length * n)) :
    (gather [U.map (fun v => L.findIdx? (sameCoordVal v)), V.map (fun v => M.findIdx? (sameCoordVal v)), (List.range n).map some] [L.length, M.length, n] data).length = U.length * (V.length * n) ∧
    Spread L M U V n data (gather [U.map (fun v => L.findIdx? (sameCoordVal v)), V.map (fun v => M.findIdx? (sameCoordVal v)), (List.range n).map some] [L.length, M.length, n] data) := by
  have inr : ∀ {A B : List F} (j : Nat), some j ∈ A.map (fun v => B.findIdx? (sameCoordVal v)) → j < B.length := by
    intro A B j hj
    obtain ⟨v, _, hv⟩ := List.mem_map.1 hj
    exact (List.findIdx?_eq_some_iff_getElem.1 hv).1
  obtain ⟨g1, g2⟩ := gather_grid (mU := U.map (fun v => L.findIdx? (sameCoordVal v))) (mV := V.map (fun v => M.findIdx? (sameCoordVal v))) hd inr inr
  refine ⟨by simpa using g1, ?_⟩
  intro i k φ ψ hφ hψ
  have := g2 i k (L.findIdx? (sameCoordVal φ)) (M.findIdx? (sameCoordVal ψ)) (by rw [List.getElem?_map, hφ]; rfl) (by rw [List.getElem?_map, hψ]; rfl)
  rw [List.length_map] at this
  rw [this]
  have absent : ∀ {A : List F} {u : F}, (¬ ∃ j, IsAt A j u) → A.findIdx? (sameCoordVal u) = none := by
    intro A u h
    apply findIdx_absent
    intro x hx
    by_contra hc
    obtain ⟨j, hj⟩ := List.mem_iff_getElem?.1 hx
    exact h ⟨j, x, hj, scv_iff.1 (by simpa using hc)⟩
  constructor
  · rintro i1 k1 ⟨x, hx, ex⟩ ⟨y, hy, ey⟩
    rw [findIdx_distinct hL hx (scv_iff.2 ex), findIdx_distinct hM hy (scv_iff.2 ey)]
  · rintro (h | h)
    · rw [absent h]
    · rw [absent h]
      cases L.findIdx? (sameCoordVal φ) <;> rfl

theorem spread_id {L M L' M' : List F} (hL : Distinct L) (hM : Distinct M) (hlen : M'.length = M.length) (h : ∀ (i : Nat) (x y : F), L'[i]? = some x → L[i]? = some y → SameVal x y)
    (hll : L'.length = L.length) (h' : ∀ (i : Nat) (x y : F), M'[i]? = some x → M[i]? = some y → SameVal x y) {n : Nat} (data : List F) : Spread L M L' M' n data data := by
  have at_iff : ∀ {A B : List F}, Distinct B → A.length = B.length → (∀ (i : Nat) (x y : F), A[i]? = some x → B[i]? = some y → SameVal x y) → ∀ i φ, A[i]? = some φ →
      (IsAt B i φ ∧ ∀ j, IsAt B j φ → j = i) := by
    intro A B hB hAB hs i φ hφ
    have hi : i < B.length := by rw [← hAB]; exact (List.getElem?_eq_some_iff.1 hφ).1
    have h0 := hs i φ _ hφ (List.getElem?_eq_getElem hi)
    refine ⟨⟨_, List.getElem?_eq_getElem hi, h0⟩, ?_⟩
    rintro j ⟨x, hx, ex⟩
    exact hB j i x _ hx (List.getElem?_eq_getElem hi) (scv_iff.1 (scv_trans (scv_symm (scv_iff.2 ex)) (scv_iff.2 h0)))
  intro i k φ ψ hφ hψ
  obtain ⟨a1, a2⟩ := at_iff hL hll h i φ hφ
  obtain ⟨b1, b2⟩ := at_iff hM hlen h' k ψ hψ
  constructor
  · intro i1 k1 h1 h2
    rw [a2 i1 h1, b2 k1 h2, hlen]
  · rintro (h | h)
    · exact absurd ⟨i, a1⟩ h
    · exact absurd ⟨k, b1⟩ h

theorem align_grid {d de dd : NcFile F} {x : NcVar F} {v : String} {L M T U V : List F} (hv : List.lookup v dd = some x) (hx : OnGrid dd x L M T) (hwf : x.data.length = x.shape.foldr (· * ·) 1)
    (hU : joinCoord ([d, de].filterMap (fun e => (List.lookup "lat" (coordsOf e)).map NcVar.data)) = U)
    (hV : joinCoord ([d, de].filterMap (fun e => (List.lookup "lon" (coordsOf e)).map NcVar.data)) = V)
    (hT : joinCoord ([d, de].filterMap (fun e => (List.lookup "time" (coordsOf e)).map NcVar.data)) = T) :
    ∃ x', List.lookup v (dd.map (alignVar [d, de] dd)) = some x' ∧ x'.units = x.units ∧ x'.dims = x.dims ∧ x'.shape = [U.length, V.length, T.length] ∧
      x'.data.length = U.length * (V.length * T.length) ∧ Spread L M U V T.length x.data x'.data := by
  refine ⟨_, lookup_map_keys (fun p => (alignVar_keeps [d, de] dd p).1) hv, ?_⟩
  obtain ⟨c1, e1, e2, e3⟩ := hx.lat
  obtain ⟨c2, f1, f2, f3⟩ := hx.lon
  obtain ⟨c3, g1, g2, g3⟩ := hx.time
  have hm : alignVar [d, de] dd (v, x) = (v, { x with
      shape := [U.length, V.length, T.length]
      data := gather [U.map (fun v => L.findIdx? (sameCoordVal v)), V.map (fun v => M.findIdx? (sameCoordVal v)), (List.range T.length).map some] [L.length, M.length, T.length] x.data }) := by
    unfold alignVar
    simp only [hx.dims]
    rw [if_neg (by simp)]
    simp only [hx.shape, List.zip_cons_cons, List.map_cons, List.zip_nil_right, List.map_nil, lookup_coords e1 e2, lookup_coords f1 f2, lookup_coords g1 g2, e3, f3, g3, hU, hV, hT, List.length_map]
    have ht : T.map (fun v => T.findIdx? (sameCoordVal v)) = (List.range T.length).map some := by
      refine List.ext_getElem? (fun i => ?_)
      rw [List.getElem?_map, List.getElem?_map]
      by_cases hi : i < T.length
      · rw [List.getElem?_eq_getElem hi, List.getElem?_range hi]
        simp only [Option.map_some]
        rw [findIdx_distinct hx.distinct.2.2 (List.getElem?_eq_getElem hi) (scv_refl _)]
      · rw [List.getElem?_eq_none (by omega), List.getElem?_eq_none (by simpa using hi)]
        rfl
    rw [ht]
  rw [hm]
  have hd : x.data.length = L.length * (M.length * T.length) := by
    rw [hwf, hx.shape]
    simp
  obtain ⟨k1, k2⟩ := spread_gather (U := U) (V := V) hx.distinct.1 hx.distinct.2.1 hd
  exact ⟨rfl, rfl, rfl, k1, k2⟩

/-- two files on grids with the same times, opened together -/
theorem merged_grid {d de : NcFile F} {x xe : NcVar F} {v ve : String} {L M L' M' T : List F} (hv : List.lookup v d = some x) (hx : OnGrid d x L M T)
    (hwf : x.data.length = x.shape.foldr (· * ·) 1) (hno : List.lookup ve d = none) (hve : List.lookup ve de = some xe) (hxe : OnGrid de xe L' M' T)
    (hwfe : xe.data.length = xe.shape.foldr (· * ·) 1) :
    ∃ x' xe' U V, List.lookup v (merged d de) = some x' ∧ List.lookup ve (merged d de) = some xe' ∧ x'.units = x.units ∧ xe'.units = xe.units ∧ x'.dims = x.dims ∧
      x'.shape = [U.length, V.length, T.length] ∧ xe'.shape = [U.length, V.length, T.length] ∧ x'.data.length = U.length * (V.length * T.length) ∧
      xe'.data.length = U.length * (V.length * T.length) ∧ Spread L M U V T.length x.data x'.data ∧ Spread L' M' U V T.length xe.data xe'.data ∧ Joined L L' U ∧ Joined M M' V ∧
      (∃ c, ("lat", c) ∈ merged d de ∧ c.dims = ["lat"] ∧ c.data = U) ∧ (∃ c, ("lon", c) ∈ merged d de ∧ c.dims = ["lon"] ∧ c.data = V) ∧
      ∃ c, List.lookup "time" (merged d de) = some c ∧ c.data = T := by
  obtain ⟨c1, e1, e2, e3⟩ := hx.lat
  obtain ⟨c2, f1, f2, f3⟩ := hx.lon
  obtain ⟨c3, g1, g2, g3⟩ := hx.time
  obtain ⟨c1', e1', e2', e3'⟩ := hxe.lat
  obtain ⟨c2', f1', f2', f3'⟩ := hxe.lon
  obtain ⟨c3', g1', g2', g3'⟩ := hxe.time
  cases hag : agree d de with
  | true =>
    rw [merged_agree hag]
    have same : ∀ {c : String} {y z : NcVar F}, List.lookup c d = some y → y.dims = [c] → List.lookup c de = some z → z.dims = [c] →
        y.data.length = z.data.length ∧ ∀ (i : Nat) (p q : F), y.data[i]? = some p → z.data[i]? = some q → SameVal p q := by
      intro c y z hy hyd hz hzd
      unfold agree at hag
      rw [List.all_eq_true] at hag
      have h1 := hag (c, y) (lookup_in_list (lookup_coords hy hyd))
      rw [List.all_eq_true] at h1
      have h2 := h1 (c, z) (lookup_in_list (lookup_coords hz hzd))
      simp only [bne_self_eq_false, Bool.false_or] at h2
      unfold sameCoord at h2
      rw [Bool.and_eq_true, beq_iff_eq, List.all_eq_true] at h2
      refine ⟨h2.1, fun i p q hp hq => scv_iff.1 (h2.2 (p, q) (List.mem_of_getElem? (i := i) ?_))⟩
      rw [List.getElem?_zip_eq_some]
      exact ⟨hp, hq⟩
    have sl := same e1 e2 e1' e2'
    have sm := same f1 f2 f1' f2'
    rw [e3, e3'] at sl
    rw [f3, f3'] at sm
    have refl : ∀ {A : List F} (i : Nat) (x y : F), A[i]? = some x → A[i]? = some y → SameVal x y := by
      intro A i x y hx hy
      rw [hx] at hy
      cases hy
      exact scv_iff.1 (scv_refl x)
    have joined : ∀ {A B : List F}, A.length = B.length → (∀ (i : Nat) (p q : F), A[i]? = some p → B[i]? = some q → SameVal p q) → Joined A B A := by
      intro A B hl hs
      refine ⟨fun u hu => .inl hu, ?_, ?_⟩
      · rintro z (hz | hz)
        · exact ⟨z, hz, scv_iff.1 (scv_refl z)⟩
        · obtain ⟨i, hi⟩ := List.mem_iff_getElem?.1 hz
          have hil : i < A.length := by rw [hl]; exact (List.getElem?_eq_some_iff.1 hi).1
          exact ⟨A[i], List.getElem_mem hil, scv_iff.1 (scv_symm (scv_iff.2 (hs i _ _ (List.getElem?_eq_getElem hil) hi)))⟩
      · intro hne hdis
        exfalso
        have h0 : 0 < A.length := List.length_pos_iff.2 hne
        exact hdis A[0] (List.getElem_mem h0) (B[0]'(by omega)) (List.getElem_mem _) (hs 0 _ _ (List.getElem?_eq_getElem h0) (List.getElem?_eq_getElem (by omega)))
    refine ⟨x, xe, L, M, lookup_append_some hv, ?_, rfl, rfl, rfl, hx.shape, ?_, ?_, ?_, spread_id hx.distinct.1 hx.distinct.2.1 rfl refl rfl refl x.data,
      spread_id hxe.distinct.1 hxe.distinct.2.1 sm.1 sl.2 sl.1 sm.2 xe.data, joined sl.1 sl.2, joined sm.1 sm.2, ⟨c1, ?_, e2, e3⟩, ⟨c2, ?_, f2, f3⟩, c3, lookup_append_some g1, g3⟩
    · rw [List.lookup_append, hno, hve]; rfl
    · rw [hxe.shape, sl.1, sm.1]
    · rw [hwf, hx.shape]; simp
    · rw [hwfe, hxe.shape, sl.1, sm.1]; simp
    · exact List.mem_append_left _ (lookup_in_list e1)
    · exact List.mem_append_left _ (lookup_in_list f1)
  | false =>
    have hm : merged d de = d.map (alignVar [d, de] d) ++ de.map (alignVar [d, de] de) := if_neg (by rw [hag]; simp)
    have hU : joinCoord ([d, de].filterMap (fun e => (List.lookup "lat" (coordsOf e)).map NcVar.data)) = joinCoord [L, L'] := by
      simp [lookup_coords e1 e2, lookup_coords e1' e2', e3, e3']
    have hV : joinCoord ([d, de].filterMap (fun e => (List.lookup "lon" (coordsOf e)).map NcVar.data)) = joinCoord [M, M'] := by
      simp [lookup_coords f1 f2, lookup_coords f1' f2', f3, f3']
    have hT : joinCoord ([d, de].filterMap (fun e => (List.lookup "time" (coordsOf e)).map NcVar.data)) = T := by
      have : joinCoord [T, T] = T := joinCoord_same (by simp) (by simp)
      simpa [lookup_coords g1 g2, lookup_coords g1' g2', g3, g3'] using this
    obtain ⟨x', a1, a2, a3, a4, a5, a6⟩ := align_grid (d := d) (de := de) hv hx hwf hU hV hT
    obtain ⟨xe', b1, b2, b3, b4, b5, b6⟩ := align_grid (d := d) (de := de) hve hxe hwfe hU hV hT
    have coordVar : ∀ {c : String} {y : NcVar F}, List.lookup c d = some y → y.dims = [c] →
        List.lookup c (d.map (alignVar [d, de] d)) = some { y with
          shape := [(joinCoord ([d, de].filterMap (fun e => (List.lookup c (coordsOf e)).map NcVar.data))).length]
          data := joinCoord ([d, de].filterMap (fun e => (List.lookup c (coordsOf e)).map NcVar.data)) } := by
      intro c y hy hyd
      rw [lookup_map_keys (fun p => (alignVar_keeps [d, de] d p).1) hy]
      unfold alignVar
      simp only []
      rw [if_pos hyd]
    have nolook : List.lookup ve (d.map (alignVar [d, de] d)) = none := by
      clear coordVar a1 b1 hm hU hV hT
      generalize [d, de] = ds
      have key : ∀ l : NcFile F, List.lookup ve l = none → List.lookup ve (l.map (alignVar ds d)) = none := by
        intro l
        induction l with
        | nil => intro _; rfl
        | cons p l ih =>
          intro h
          rw [List.lookup_cons] at h
          rw [List.map_cons, List.lookup_cons, (alignVar_keeps ds d p).1]
          cases hc : (ve == p.1) with
          | true => rw [hc] at h; cases h
          | false => rw [hc] at h; exact ih h
      exact key d hno
    rw [hm]
    refine ⟨x', xe', joinCoord [L, L'], joinCoord [M, M'], lookup_append_some a1, ?_, a2, b2, a3, a4, b4, a5, b5, a6, b6, joined_pair hx.distinct.1 hxe.distinct.1,
      joined_pair hx.distinct.2.1 hxe.distinct.2.1, ⟨_, List.mem_append_left _ (lookup_in_list (coordVar e1 e2)), e2, hU⟩,
      ⟨_, List.mem_append_left _ (lookup_in_list (coordVar f1 f2)), f2, hV⟩, _, lookup_append_some (coordVar g1 g2), hT⟩
    rw [List.lookup_append, nolook, b1]; rfl

omit [FloatLaws F] in
theorem seriesAt_map {g : F → F} (b n i k : Nat) (l : List F) : seriesAt b n i k (l.map g) = (seriesAt b n i k l).map g := by
  unfold seriesAt
  rw [List.map_take, List.map_drop]

omit [FloatLaws F] in
theorem spread_map {g : F → F} (hg : g nan = nan) {L M U V : List F} {n : Nat} {old new : List F} (h : Spread L M U V n old new) : Spread L M U V n (old.map g) (new.map g) := by
  intro i k φ ψ hφ hψ
  obtain ⟨h1, h2⟩ := h i k φ ψ hφ hψ
  constructor
  · intro i1 k1 a b
    rw [seriesAt_map, seriesAt_map, h1 i1 k1 a b]
  · intro hc
    rw [seriesAt_map, h2 hc, List.map_replicate, hg]

theorem convertPrecip_map {u : String} {x y : List F} (h : convertPrecip u x = .ok y) : ∃ g : F → F, g nan = nan ∧ y = x.map g ∧ ∀ z, convertPrecip u z = .ok (z.map g) := by
  unfold convertPrecip at *
  split at h
  · next hu =>
    cases h
    exact ⟨id, rfl, by simp, fun z => by rw [if_pos hu]; simp⟩
  · next hu =>
    split at h
    · next hu' =>
      cases h
      exact ⟨_, by simp, rfl, fun z => by rw [if_neg hu, if_pos hu']⟩
    · cases h

theorem convertPet_map {u : String} {x y : List F} (h : convertPet u x = .ok y) : ∃ g : F → F, g nan = nan ∧ y = x.map g ∧ ∀ z, convertPet u z = .ok (z.map g) := by
  unfold convertPet at *
  split at h
  · next hu =>
    cases h
    exact ⟨id, rfl, by simp, fun z => by rw [if_pos hu]; simp⟩
  · next hu =>
    split at h
    · next hu' =>
      cases h
      exact ⟨_, by simp, rfl, fun z => by rw [if_neg hu, if_pos hu']⟩
    · cases h

/-- **C77 in general: the union of the grids.** After every finished run for SPEI (or all scaled indices) with a PET file, precipitation on the latitudes `L` and longitudes `M`, PET on the latitudes
`L'` and longitudes `M'`, the same times: the SPEI is written on latitudes `U` and longitudes `V` that are the union of those of the two files. At a place that is in both files it is the SPEI of the
two series of that place; at every other place all values are missing. -/
theorem C77_union (E : Ext F) (hE : ExtNan E) (T' : Trig F) (cs ce : Int) (wk : Nat) (lower : String → String) (yearOf : F → Int) (cmp : CoordCmp F) (a : CliArgs) (w w' : World F)
    (h : processIndices (indexFunction E T' cs ce) wk lower yearOf cmp a w = (.ok (), w')) (hi : a.index = "spei" ∨ a.index = "scaled")
    {f v fe ve : String} {d de : NcFile F} {x xe : NcVar F} {L M L' M' T : List F} (hin : Input w.files a.outputFileBase a.netcdfPrecip a.varNamePrecip f v d x) (hx : OnGrid d x L M T)
    (hpet : Input w.files a.outputFileBase a.netcdfPet a.varNamePet fe ve de xe) (hxe : OnGrid de xe L' M' T) (hno : List.lookup ve d = none) {y0 y1 : Int} (hy : Years yearOf d y0 y1)
    (s : Int) (hs : s ∈ a.scales.getD []) (dist : Distribution) (hd : dist = .pearson ∨ dist = .gamma) :
    ∃ u mm ue pe file y U V, x.units = some u ∧ convertPrecip (lower u) x.data = .ok mm ∧ xe.units = some ue ∧ convertPet (lower ue) xe.data = .ok pe ∧
      w'.files (fileName a.outputFileBase (Output.spei dist s.toNat).name) = some file ∧ ((Output.spei dist s.toNat).name, y) ∈ file ∧
      y.dims = ["lat", "lon", "time"] ∧ y.shape = [U.length, V.length, T.length] ∧ y.data.length = U.length * (V.length * T.length) ∧
      (∃ c, ("lat", c) ∈ file ∧ c.dims = ["lat"] ∧ c.data = U) ∧ (∃ c, ("lon", c) ∈ file ∧ c.dims = ["lon"] ∧ c.data = V) ∧ Joined L L' U ∧ Joined M M' V ∧
      ∀ i k φ ψ, U[i]? = some φ → V[k]? = some ψ →
        (∀ i1 k1 i2 k2, IsAt L i1 φ → IsAt M k1 ψ → IsAt L' i2 φ → IsAt M' k2 ψ →
          onSeries₂ x.dims a.periodicity y0 y1 (fun p e => (spei E (Arr.of1d p) (Arr.of1d e) s dist a.periodicity y0 cs ce none).map Arr.data)
            (seriesAt M.length T.length i1 k1 mm) (seriesAt M'.length T.length i2 k2 pe) = .ok (seriesAt V.length T.length i k y.data)) ∧
        ((¬ ∃ i1, IsAt L i1 φ) ∨ (¬ ∃ k1, IsAt M k1 ψ) ∨ (¬ ∃ i2, IsAt L' i2 φ) ∨ (¬ ∃ k2, IsAt M' k2 ψ) → seriesAt V.length T.length i k y.data = List.replicate T.length nan) := by
  obtain ⟨x', xe', U, V, m1, m2, m3, m4, m5, m6, m7, m8, m9, m10, m11, m12, m13, ⟨cl, p1, p2, p3⟩, ⟨cm, q1, q2, q3⟩, ct, t1, t2⟩ :=
    merged_grid hin.found hx hin.wf hno hpet.found hxe hpet.wf
  have hne : v ≠ ve := by
    rintro rfl
    rw [hin.found] at hno
    cases hno
  obtain ⟨it, w1, w2, w3, pet, hv, h1, h2, h3, h4, _⟩ := process_ok _ wk lower yearOf h
  have hlx : Layout x L.length M.length T.length := .inl ⟨hx.dims, hx.shape⟩
  have hil := run_layout hv (by rcases hi with hi | hi <;> rw [hi] <;> decide) hin hlx
  have hit : it = .grid := by
    rcases hil with h | h
    · exact h.1
    · rw [hx.shape] at h
      simp at h
  subst hit
  have hsc := run_scales hv (by rcases hi with hi | hi <;> rw [hi] <;> decide)
  have keep : ∀ g, (∀ o : Output, g ≠ fileName a.outputFileBase o.name) → w2.files g = w.files g := by
    intro g hg
    rw [runPet_files h2 (hg _), runSpi_files h1 (fun _ => hsc) (fun dist m => hg _)]
  have hp : pet = (some fe, some ve) := by
    unfold runPet at h2
    rw [if_pos (by rcases hi with hi | hi <;> rw [hi] <;> decide), hpet.file] at h2
    cases h2
    rw [hpet.var]
  subst hp
  have hin2 : Input w2.files a.outputFileBase a.netcdfPrecip a.varNamePrecip f v d x :=
    ⟨hin.file, hin.var, by rw [keep f hin.notOutput]; exact hin.opened, hin.found, hin.wf, hin.reserved, hin.notOutput⟩
  have hym : Years yearOf (merged d de) y0 y1 := by
    obtain ⟨tt, ta, tb, a1, a2⟩ := hy
    obtain ⟨c3, g1, _, g3⟩ := hx.time
    rw [g1] at a1
    cases a1
    exact ⟨ct, ta, tb, t1, by rw [t2, ← g3]; exact a2⟩
  obtain ⟨u, mm', ue, pe', k1, k2, k3, k4, k5, file, y, k6, k7, ⟨k8, k9⟩, ⟨k10, k10'⟩, k11⟩ := spei_phase_md _ wk lower yearOf a .grid w2 w3 h3 hi hin2 m1 (by rw [m8, m6]; simp)
    (.inl ⟨rfl, m6⟩) hsc (by rw [keep fe hpet.notOutput]; exact hpet.opened) hpet.reserved hne m2 (.inl ⟨rfl, m7⟩) (by rw [m9, m7]; simp) hym (fun _ _ => hpet.notOutput _) s hs dist hd
  obtain ⟨g, gn, rfl, gz⟩ := convertPrecip_map k2
  obtain ⟨g', gn', rfl, gz'⟩ := convertPet_map k4
  have sp := spread_map gn m10
  have sp' := spread_map gn' m11
  refine ⟨u, x.data.map g, ue, xe.data.map g', file, y, U, V, by rw [← m3]; exact k1, gz _, by rw [← m4]; exact k3, gz' _, ?_, k7, by rw [k8, m5, hx.dims], by rw [k10, m6],
    by rw [k10', m6]; simp, ⟨cl, k9 _ _ p1 p2, p2, p3⟩, ⟨cm, k9 _ _ q1 q2, q2, q3⟩, m12, m13, ?_⟩
  · rw [runPnp_files h4 (fun _ => hsc) (fun m e => by cases output_name_inj (fileName_inj e))]
    exact k6
  intro i k φ ψ hφ hψ
  have hiU : i < U.length := (List.getElem?_eq_some_iff.1 hφ).1
  have hkV : k < V.length := (List.getElem?_eq_some_iff.1 hψ).1
  obtain ⟨p, q, r, t, t0, t0', t3, t4, t5⟩ := k11 i hiU k hkV
  have t0 : prepared a.periodicity y0 y1 (seriesAt V.length T.length i k (x'.data.map g)) = .ok p := t0
  have t0' : prepared a.periodicity y0 y1 (seriesAt V.length T.length i k (xe'.data.map g')) = .ok q := t0'
  have t3 : (spei E (Arr.of1d p) (Arr.of1d q) s dist a.periodicity y0 cs ce none).map Arr.data = .ok r := t3
  have hdv : "division" ∉ x.dims := by rw [hx.dims]; decide
  cases hsp : spei E (Arr.of1d p) (Arr.of1d q) s dist a.periodicity y0 cs ce none with
  | error e => rw [hsp] at t3; cases t3
  | ok r' =>
    have t4' := spei_size E hE _ _ _ _ _ _ _ _ _ _ hsp
    have t3' : r'.data = r := by
      rw [hsp] at t3
      cases t3
      rfl
    rw [assignSeries_same t4 (by rw [← t3']; exact t4')] at t5
    constructor
    · intro i1 k1 i2 k2 a1 a2 a3 a4
      rw [← (sp i k φ ψ hφ hψ).1 i1 k1 a1 a2, ← (sp' i k φ ψ hφ hψ).1 i2 k2 a3 a4]
      simp only [onSeries₂, preparedFor, if_neg hdv, t0, t0', t3, bind, Except.bind]
      exact t5
    · intro hc
      have allnan : ∀ {l : List F}, (∀ v ∈ l, v = nan) → allNan l = true := by
        intro l hl
        unfold allNan
        rw [List.all_eq_true]
        intro v hv
        rw [hl v hv]
        simp
      have hall : allNan (Arr.of1d p).data = true ∨ allNan (Arr.of1d q).data = true := by
        have c1 : ((¬ ∃ i1, IsAt L i1 φ) ∨ (¬ ∃ k1, IsAt M k1 ψ)) ∨ ((¬ ∃ i2, IsAt L' i2 φ) ∨ (¬ ∃ k2, IsAt M' k2 ψ)) := by tauto
        rcases c1 with c | c
        · left
          rw [(sp i k φ ψ hφ hψ).2 c] at t0
          exact allnan (prepared_nan (fun v hv => List.eq_of_mem_replicate hv) t0)
        · right
          rw [(sp' i k φ ψ hφ hψ).2 c] at t0'
          exact allnan (prepared_nan (fun v hv => List.eq_of_mem_replicate hv) t0')
      have hr := C11_spei_no_pet E hE _ _ s dist a.periodicity y0 cs ce none r' hsp hall
      refine List.eq_replicate_iff.2 ⟨?_, ?_⟩
      · unfold seriesAt
        rw [List.length_take, List.length_drop, k10', m6]
        have e1 : (i * V.length + k + 1) * T.length ≤ U.length * V.length * T.length := by
          apply Nat.mul_le_mul_right
          have : (i + 1) * V.length ≤ U.length * V.length := Nat.mul_le_mul_right _ hiU
          rw [Nat.add_mul, Nat.one_mul] at this
          omega
        rw [Nat.add_mul, Nat.one_mul] at e1
        simp only [List.foldr_cons, List.foldr_nil, Nat.mul_one]
        rw [← Nat.mul_assoc]
        omega
      · intro v hv
        have := restored_mem t5 v hv
        rw [← t3', hr] at this
        exact List.eq_of_mem_replicate this

/-- **C77 is false in general.** If the two files, which the tool has accepted as matching, have no latitude in common (not to the last digit), then the SPEI is written on all latitudes of both files,
and every value is missing. -/
theorem C77_disjoint_fails (E : Ext F) (hE : ExtNan E) (T' : Trig F) (cs ce : Int) (wk : Nat) (lower : String → String) (yearOf : F → Int) (cmp : CoordCmp F) (a : CliArgs) (w w' : World F)
    (h : processIndices (indexFunction E T' cs ce) wk lower yearOf cmp a w = (.ok (), w')) (hi : a.index = "spei" ∨ a.index = "scaled")
    {f v fe ve : String} {d de : NcFile F} {x xe : NcVar F} {L M L' M' T : List F} (hin : Input w.files a.outputFileBase a.netcdfPrecip a.varNamePrecip f v d x) (hx : OnGrid d x L M T)
    (hpet : Input w.files a.outputFileBase a.netcdfPet a.varNamePet fe ve de xe) (hxe : OnGrid de xe L' M' T) (hno : List.lookup ve d = none) {y0 y1 : Int} (hy : Years yearOf d y0 y1)
    (hne : L ≠ []) (hdis : ∀ x ∈ L, ∀ y ∈ L', ¬ SameVal x y)
    (s : Int) (hs : s ∈ a.scales.getD []) (dist : Distribution) (hd : dist = .pearson ∨ dist = .gamma) :
    ∃ file y, w'.files (fileName a.outputFileBase (Output.spei dist s.toNat).name) = some file ∧ ((Output.spei dist s.toNat).name, y) ∈ file ∧
      y.shape.head? = some (L.length + L'.length) ∧ (M.length * T.length ≠ 0 → y.data ≠ []) ∧ ∀ v ∈ y.data, v = nan := by
  obtain ⟨u, mm, ue, pe, file, y, U, V, -, -, -, -, k5, k6, -, k8, k9, -, -, k10, k11, k12⟩ := C77_union E hE T' cs ce wk lower yearOf cmp a w w' h hi hin hx hpet hxe hno hy s hs dist hd
  have hU := k10.2.2 hne hdis
  refine ⟨file, y, k5, k6, by rw [k8, ← hU]; rfl, ?_, ?_⟩
  · intro hm hc
    rw [hc] at k9
    have hL : 0 < L.length := List.length_pos_iff.2 hne
    have hV : V ≠ [] := by
      rintro rfl
      have hM : M ≠ [] := by rintro rfl; simp at hm
      obtain ⟨z, hz⟩ := List.exists_mem_of_ne_nil M hM
      obtain ⟨u, hu, _⟩ := k11.2.1 z (.inl hz)
      cases hu
    have hV' : 0 < V.length := List.length_pos_iff.2 hV
    have hT : 0 < T.length := Nat.pos_of_ne_zero (by rintro e; rw [e] at hm; simp at hm)
    have : 0 < U.length * (V.length * T.length) := Nat.mul_pos (by omega) (Nat.mul_pos hV' hT)
    rw [← k9] at this
    simp at this
  · intro v hv
    obtain ⟨i, hi, k, hk, hm⟩ := mem_seriesAt k9 hv
    have hc : (¬ ∃ i1, IsAt L i1 U[i]) ∨ (¬ ∃ i2, IsAt L' i2 U[i]) := by
      by_contra hc
      push_neg at hc
      obtain ⟨⟨i1, p, hp, ep⟩, ⟨i2, q, hq, eq⟩⟩ := hc
      exact hdis p (List.mem_of_getElem? hp) q (List.mem_of_getElem? hq) (scv_iff.1 (scv_trans (scv_symm (scv_iff.2 ep)) (scv_iff.2 eq)))
    have := (k12 i k U[i] V[k] (List.getElem?_eq_getElem hi) (List.getElem?_eq_getElem hk)).2 (by tauto)
    rw [this] at hm
    exact List.eq_of_mem_replicate hm

end

theorem distinct_fin {l : List ℚ} (h : l.Nodup) : Distinct (l.map (Fl.fin (K := ℚ))) := by
  intro i j x y hx hy hs
  rw [List.getElem?_map] at hx hy
  obtain ⟨p, hp, rfl⟩ := Option.map_eq_some_iff.1 hx
  obtain ⟨q, hq, rfl⟩ := Option.map_eq_some_iff.1 hy
  have hpq : p = q := by
    rcases hs with hs | ⟨h1, _⟩
    · simpa using hs
    · cases h1
  subst hpq
  obtain ⟨hi, e1⟩ := List.getElem?_eq_some_iff.1 hp
  obtain ⟨hj, e2⟩ := List.getElem?_eq_some_iff.1 hq
  exact (List.Nodup.getElem_inj_iff h).1 (e1.trans e2.symm)

/-- the data sets of `C77_fails` -/
def shiftedP : NcFile Q := [("prcp", twoRows 5), ("lat", ⟨["lat"], [2], none, [.fin 40, .fin 41]⟩), ("lon", demoLon), ("time", demoTime)]
def shiftedE : NcFile Q := [("pet", twoRows 1), ("lat", ⟨["lat"], [2], none, [.fin (40 + 1 / 1000000), .fin (41 + 1 / 1000000)]⟩), ("lon", demoLon), ("time", demoTime)]

/-- the hypotheses of `C77_union` and `C77_disjoint_fails` hold for the run of `C77_fails` -/
example : ∃ w', processIndices (indexFunction toyExt toyTrig 2000 2000) 2 id demoYear npCmp shiftedArgs ⟨shiftedFiles, fun _ => none, []⟩ = (.ok (), w') ∧
    Input shiftedFiles "out" (some "p.nc") (some "prcp") "p.nc" "prcp" shiftedP (twoRows 5) ∧ Input shiftedFiles "out" (some "e.nc") (some "pet") "e.nc" "pet" shiftedE (twoRows 1) ∧
    OnGrid shiftedP (twoRows 5) ([40, 41].map Fl.fin) ([0, 1].map Fl.fin) (((List.range 12).map (fun i : Nat => (i : ℚ))).map Fl.fin) ∧
    OnGrid shiftedE (twoRows 1) ([40 + 1 / 1000000, 41 + 1 / 1000000].map Fl.fin) ([0, 1].map Fl.fin) (((List.range 12).map (fun i : Nat => (i : ℚ))).map Fl.fin) ∧
    List.lookup "pet" shiftedP = none ∧ Years demoYear shiftedP 2000 2000 ∧
    (∀ x ∈ [40, 41].map (Fl.fin (K := ℚ)), ∀ y ∈ [40 + 1 / 1000000, 41 + 1 / 1000000].map (Fl.fin (K := ℚ)), ¬ SameVal x y) := by
  have ht : ((List.range 12).map (fun i : Nat => (i : ℚ))).Nodup := by decide +kernel
  refine ⟨_, Prod.ext C77_fails.2.1 rfl, ⟨rfl, rfl, rfl, rfl, by decide +kernel, by decide, demo_notOutput _ (by decide)⟩, ⟨rfl, rfl, rfl, rfl, by decide +kernel, by decide, demo_notOutput _ (by decide)⟩,
    ⟨rfl, rfl, ⟨_, rfl, rfl, rfl⟩, ⟨_, rfl, rfl, by decide +kernel⟩, ⟨_, rfl, rfl, by decide +kernel⟩, distinct_fin (by decide +kernel), distinct_fin (by decide +kernel), distinct_fin ht⟩,
    ⟨rfl, rfl, ⟨_, rfl, rfl, rfl⟩, ⟨_, rfl, rfl, by decide +kernel⟩, ⟨_, rfl, rfl, by decide +kernel⟩, distinct_fin (by decide +kernel), distinct_fin (by decide +kernel), distinct_fin ht⟩,
    rfl, ⟨_, _, _, rfl, rfl, rfl, rfl, rfl⟩, ?_⟩
  unfold SameVal
  decide +kernel

/-- one latitude of two is the same in both files: three latitudes, with values only at the common one -/
example : okAnd (Except.ok (ε := PyErr) (writtenIn (processIndices (indexFunction toyExt toyTrig 2000 2000) 2 id demoYear npCmp shiftedArgs
    ⟨fun f => (shiftedFiles f).map (fun d => d.map (fun p => if p.1 = "lat" ∧ f = "e.nc" then ("lat", ⟨["lat"], [2], none, [.fin 40, .fin (41 + 1 / 1000000)]⟩) else p)), fun _ => none, []⟩).2 (.spei .gamma 1)))
    (fun o => decide (o.map Prod.fst = some [3, 2, 12] ∧ (o.map (fun r => r.2.drop 24)) = some (List.replicate 48 .nan)) && ((o.map Prod.snd).getD []).any (fun v => !isNan v)) = true := by
  decide +kernel

end CI.Props
