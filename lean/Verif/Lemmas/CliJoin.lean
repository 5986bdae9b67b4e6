import Verif.Props.Ranges
import Verif.Props.SpeiMissing

/-!
# Files that are put on the union of their coordinates: values and coordinates
-/

namespace CI.Props
open CI Spec FloatOps

variable {F : Type} [FloatOps F]

/-! ## Equal coordinate values -/

section
variable [FloatLaws F]

theorem scv_refl (x : F) : sameCoordVal x x = true := by
  unfold sameCoordVal
  by_cases h : x = nan
  · rw [h]; simp
  · rw [feq_refl h]; rfl

theorem scv_symm {x y : F} (h : sameCoordVal x y = true) : sameCoordVal y x = true := by
  unfold sameCoordVal at *
  rw [Bool.or_eq_true, Bool.and_eq_true, FloatLaws.feq_iff] at *
  tauto

theorem scv_trans {x y z : F} (h : sameCoordVal x y = true) (h' : sameCoordVal y z = true) : sameCoordVal x z = true := by
  unfold sameCoordVal at *
  rw [Bool.or_eq_true, Bool.and_eq_true, FloatLaws.feq_iff] at *
  rcases h with h | h <;> rcases h' with h' | h'
  · exact .inl ⟨FloatLaws.fle_trans _ _ _ h.1 h'.1, FloatLaws.fle_trans _ _ _ h'.2 h.2⟩
  · rw [(FloatLaws.isNan_iff _).1 h'.1] at h
    simp at h
  · rw [(FloatLaws.isNan_iff _).1 h.2] at h'
    simp at h'
  · exact .inr ⟨h.1, h'.2⟩

/-- equal values of a coordinate (missing values are equal) -/
def SameVal (x y : F) : Prop := feq x y = true ∨ (isNan x = true ∧ isNan y = true)

omit [FloatLaws F] in
theorem scv_iff {x y : F} : sameCoordVal x y = true ↔ SameVal x y := by
  unfold sameCoordVal SameVal
  rw [Bool.or_eq_true, Bool.and_eq_true]

/-- no two values of an axis are equal -/
def Distinct (l : List F) : Prop := ∀ (i j : Nat) (x y : F), l[i]? = some x → l[j]? = some y → SameVal x y → i = j

theorem findIdx_distinct {l : List F} (hl : Distinct l) {u x : F} {i : Nat} (hx : l[i]? = some x) (hu : sameCoordVal u x = true) : l.findIdx? (sameCoordVal u) = some i := by
  rw [List.findIdx?_eq_some_iff_getElem]
  obtain ⟨hi, rfl⟩ := List.getElem?_eq_some_iff.1 hx
  refine ⟨hi, hu, fun j hj hc => ?_⟩
  have := hl j i _ _ (List.getElem?_eq_getElem (by omega)) hx (scv_iff.1 (scv_trans (scv_symm hc) hu))
  omega

omit [FloatLaws F] in
theorem findIdx_absent {l : List F} {u : F} (h : ∀ x ∈ l, sameCoordVal u x = false) : l.findIdx? (sameCoordVal u) = none := by
  rw [List.findIdx?_eq_none_iff]
  exact h

/-! ## The union of coordinates -/

omit [FloatLaws F] in
theorem insertCoord_mem {x u : F} : ∀ {l : List F}, u ∈ insertCoord x l → u = x ∨ u ∈ l := by
  intro l
  induction l with
  | nil => intro h; exact .inl (by simpa [insertCoord] using h)
  | cons y l ih =>
    intro h
    unfold insertCoord at h
    split at h
    · exact .inr h
    · split at h
      · rcases List.mem_cons.1 h with h | h
        · exact .inl h
        · exact .inr h
      · rcases List.mem_cons.1 h with h | h
        · exact .inr (h ▸ List.mem_cons_self)
        · rcases ih h with h | h
          · exact .inl h
          · exact .inr (List.mem_cons_of_mem _ h)

omit [FloatLaws F] in
theorem insertCoord_sub {x u : F} : ∀ {l : List F}, u ∈ l → u ∈ insertCoord x l := by
  intro l
  induction l with
  | nil => intro h; cases h
  | cons y l ih =>
    intro h
    unfold insertCoord
    split
    · exact h
    · split
      · exact List.mem_cons_of_mem _ h
      · rcases List.mem_cons.1 h with h | h
        · exact h ▸ List.mem_cons_self
        · exact List.mem_cons_of_mem _ (ih h)

theorem insertCoord_has (x : F) (l : List F) : ∃ u ∈ insertCoord x l, sameCoordVal x u = true := by
  induction l with
  | nil => exact ⟨x, by simp [insertCoord], scv_refl x⟩
  | cons y l ih =>
    unfold insertCoord
    split
    · next h => exact ⟨y, List.mem_cons_self, h⟩
    · split
      · exact ⟨x, List.mem_cons_self, scv_refl x⟩
      · obtain ⟨u, hu, h⟩ := ih
        exact ⟨u, List.mem_cons_of_mem _ hu, h⟩

omit [FloatLaws F] in
/-- a value that is equal to none of the list makes it longer by one -/
theorem insertCoord_length {x : F} : ∀ {l : List F}, (∀ u ∈ l, sameCoordVal x u = false) → (insertCoord x l).length = l.length + 1 := by
  intro l
  induction l with
  | nil => intro _; rfl
  | cons y l ih =>
    intro h
    unfold insertCoord
    rw [if_neg (by rw [h y List.mem_cons_self]; simp)]
    split
    · rfl
    · rw [List.length_cons, ih (fun u hu => h u (List.mem_cons_of_mem _ hu)), List.length_cons]

theorem insertAll (xs : List F) : ∀ acc : List F, let r := xs.foldl (fun acc x => insertCoord x acc) acc
    (∀ u ∈ r, u ∈ xs ∨ u ∈ acc) ∧ (∀ u ∈ acc, u ∈ r) ∧ (∀ x ∈ xs, ∃ u ∈ r, sameCoordVal x u = true) ∧
    (Distinct xs → (∀ x ∈ xs, ∀ u ∈ acc, sameCoordVal x u = false) → r.length = acc.length + xs.length) := by
  induction xs with
  | nil => intro acc; simp
  | cons x xs ih =>
    intro acc
    obtain ⟨h1, h2, h3, h4⟩ := ih (insertCoord x acc)
    simp only [List.foldl_cons]
    refine ⟨?_, ?_, ?_, ?_⟩
    · intro u hu
      rcases h1 u hu with h | h
      · exact .inl (List.mem_cons_of_mem _ h)
      · rcases insertCoord_mem h with h | h
        · exact .inl (h ▸ List.mem_cons_self)
        · exact .inr h
    · exact fun u hu => h2 u (insertCoord_sub hu)
    · intro z hz
      rcases List.mem_cons.1 hz with rfl | hz
      · obtain ⟨u, hu, h⟩ := insertCoord_has z acc
        exact ⟨u, h2 u hu, h⟩
      · exact h3 z hz
    · intro hd hn
      rw [h4, insertCoord_length (hn x List.mem_cons_self)]
      · rw [List.length_cons]; omega
      · intro i j a b ha hb hab
        have := hd (i + 1) (j + 1) a b (by simpa using ha) (by simpa using hb) hab
        omega
      · intro z hz u hu
        rcases insertCoord_mem hu with rfl | hu
        · by_contra hc
          rw [Bool.not_eq_false] at hc
          obtain ⟨i, hi⟩ := List.mem_iff_getElem?.1 hz
          have := hd (i + 1) 0 z u (by simpa using hi) rfl (scv_iff.1 hc)
          omega
        · exact hn z (List.mem_cons_of_mem _ hz) u hu

/-- the joined coordinate of two files: from one of them, covering both; with no common value it is as long as both together -/
theorem joinPair (l m : List F) : (∀ u ∈ joinCoord [l, m], u ∈ l ∨ u ∈ m) ∧ (∀ x, x ∈ l ∨ x ∈ m → ∃ u ∈ joinCoord [l, m], sameCoordVal x u = true) ∧
    (l ≠ [] → Distinct l → Distinct m → (∀ x ∈ l, ∀ y ∈ m, sameCoordVal x y = false) → (joinCoord [l, m]).length = l.length + m.length) := by
  unfold joinCoord
  simp only [List.all_cons, List.all_nil, Bool.and_true]
  split
  · next h =>
    unfold sameCoord at h
    rw [Bool.and_eq_true, beq_iff_eq, List.all_eq_true] at h
    obtain ⟨hlen, h⟩ := h
    have hz : ∀ (i : Nat) (x y : F), l[i]? = some x → m[i]? = some y → sameCoordVal x y = true := by
      intro i x y hx hy
      exact h (x, y) (List.mem_of_getElem? (i := i) (by rw [List.getElem?_zip_eq_some]; exact ⟨hx, hy⟩))
    refine ⟨fun u hu => .inl hu, ?_, ?_⟩
    · rintro x (hx | hx)
      · exact ⟨x, hx, scv_refl x⟩
      · obtain ⟨i, hi⟩ := List.mem_iff_getElem?.1 hx
        have hil : i < l.length := by rw [hlen]; exact (List.getElem?_eq_some_iff.1 hi).1
        exact ⟨l[i], List.getElem_mem hil, scv_symm (hz i _ _ (List.getElem?_eq_getElem hil) hi)⟩
    · intro hne _ _ hdis
      exfalso
      have h0 : 0 < l.length := List.length_pos_iff.2 hne
      have := hdis l[0] (List.getElem_mem h0) (m[0]'(by omega)) (List.getElem_mem _)
      rw [hz 0 _ _ (List.getElem?_eq_getElem h0) (List.getElem?_eq_getElem (by omega))] at this
      cases this
  · have hf : [l, m].flatten = l ++ m := by simp
    rw [hf]
    obtain ⟨h1, _, h3, h4⟩ := insertAll (l ++ m) []
    refine ⟨?_, ?_, ?_⟩
    · intro u hu
      rcases h1 u hu with h | h
      · exact List.mem_append.1 h
      · cases h
    · exact fun x hx => h3 x (List.mem_append.2 hx)
    · intro _ hl hm hdis
      rw [h4 ?_ (by simp), List.length_append]
      · simp
      · intro i j x y hx hy hxy
        rw [List.getElem?_append] at hx hy
        split at hx <;> split at hy
        · exact hl i j x y hx hy hxy
        · rw [← scv_iff, hdis x (List.mem_of_getElem? hx) y (List.mem_of_getElem? hy)] at hxy
          cases hxy
        · have := hdis y (List.mem_of_getElem? hy) x (List.mem_of_getElem? hx)
          rw [scv_symm (scv_iff.2 hxy)] at this
          cases this
        · have := hm _ _ x y hx hy hxy
          omega

end

/-! ## Values at new places -/

omit [FloatOps F] in
/-- the part of a list of equal parts -/
theorem flatMap_part {α : Type} {f : α → List F} {m : Nat} : ∀ {l : List α}, (∀ o ∈ l, (f o).length = m) → ∀ (i : Nat) (o : α), l[i]? = some o → ((l.flatMap f).drop (i * m)).take m = f o := by
  intro l
  induction l with
  | nil => intro _ i o h; simp at h
  | cons a l ih =>
    intro h i o hi
    rw [List.flatMap_cons]
    cases i with
    | zero =>
      simp only [List.getElem?_cons_zero, Option.some.injEq] at hi
      subst hi
      rw [Nat.zero_mul, List.drop_zero, List.take_append_of_le_length (by rw [h a List.mem_cons_self]), List.take_of_length_le (by rw [h a List.mem_cons_self])]
    | succ i =>
      rw [List.getElem?_cons_succ] at hi
      have ha := h a List.mem_cons_self
      rw [show (i + 1) * m = (f a).length + i * m by rw [ha]; ring, List.drop_append, List.drop_eq_nil_of_le (by omega), List.nil_append,
        show (f a).length + i * m - (f a).length = i * m by omega]
      exact ih (fun o ho => h o (List.mem_cons_of_mem _ ho)) i o hi

omit [FloatOps F] in
theorem flatMap_len {α : Type} {f : α → List F} {m : Nat} : ∀ {l : List α}, (∀ o ∈ l, (f o).length = m) → (l.flatMap f).length = l.length * m := by
  intro l
  induction l with
  | nil => intro _; simp
  | cons a l ih =>
    intro h
    rw [List.flatMap_cons, List.length_append, h a List.mem_cons_self, ih (fun o ho => h o (List.mem_cons_of_mem _ ho)), List.length_cons]
    ring

/-- along the time axis nothing changes -/
theorem gather_time (n : Nat) (row : List F) (h : row.length = n) : gather [(List.range n).map some] [n] row = row := by
  unfold gather
  simp only [List.foldr_nil, Nat.mul_one, List.flatMap_map]
  have : ∀ i ∈ List.range n, (fun i => gather ([] : List (List (Option Nat))) [] ((row.drop i).take 1)) i = (fun i => [row.getD i nan]) i := by
    intro i hi
    have hi' : i < row.length := by rw [h]; exact List.mem_range.1 hi
    simp only [gather]
    rw [List.drop_eq_getElem_cons hi', List.take_succ_cons, List.take_zero]
    simp [List.getD_eq_getElem?_getD, List.getElem?_eq_getElem hi']
  rw [List.flatMap_congr this]
  refine List.ext_getElem? (fun i => ?_)
  have e : (List.range n).flatMap (fun i => [row.getD i nan]) = (List.range n).map (fun i => row.getD i nan) := by
    rw [List.flatMap_def]
    induction List.range n with
    | nil => rfl
    | cons a l ih => simp only [List.map_cons, List.flatten_cons, ih]; rfl
  rw [e, List.getElem?_map]
  by_cases hi : i < n
  · rw [List.getElem?_range hi]
    simp [List.getD_eq_getElem?_getD, List.getElem?_eq_getElem (show i < row.length by omega)]
  · rw [List.getElem?_eq_none (by simpa using hi), List.getElem?_eq_none (by omega)]
    rfl

/-- the value at the new places along two axes -/
theorem gather_grid {a b n : Nat} {mU mV : List (Option Nat)} {data : List F} (hd : data.length = a * (b * n)) (hU : ∀ i, some i ∈ mU → i < a) (hV : ∀ k, some k ∈ mV → k < b) :
    (gather [mU, mV, (List.range n).map some] [a, b, n] data).length = mU.length * (mV.length * n) ∧
    ∀ (i k : Nat) (o p : Option Nat), mU[i]? = some o → mV[k]? = some p →
      seriesAt mV.length n i k (gather [mU, mV, (List.range n).map some] [a, b, n] data) =
        match o, p with
        | some i1, some k1 => seriesAt b n i1 k1 data
        | _, _ => List.replicate n nan := by
  have row : ∀ (rowData : List F), rowData.length = b * n → ∀ p ∈ mV, ((fun o : Option Nat => match o with
      | none => List.replicate n nan
      | some i => gather [(List.range n).map some] [n] ((rowData.drop (i * n)).take n)) p).length = n := by
    intro rowData hr p hp
    cases p with
    | none => simp
    | some k =>
      have hk := hV k hp
      have hl : ((rowData.drop (k * n)).take n).length = n := by
        rw [List.length_take, List.length_drop, hr]
        have : (k + 1) * n ≤ b * n := Nat.mul_le_mul_right _ hk
        rw [Nat.add_mul, Nat.one_mul] at this
        omega
      simp only
      rw [gather_time n _ hl, hl]
  have plane : ∀ o ∈ mU, ((fun o : Option Nat => match o with
      | none => List.replicate (mV.length * n) nan
      | some i => gather [mV, (List.range n).map some] [b, n] ((data.drop (i * (b * n))).take (b * n))) o).length = mV.length * n := by
    intro o ho
    cases o with
    | none => simp
    | some i =>
      have hi := hU i ho
      have hl : ((data.drop (i * (b * n))).take (b * n)).length = b * n := by
        rw [List.length_take, List.length_drop, hd]
        have : (i + 1) * (b * n) ≤ a * (b * n) := Nat.mul_le_mul_right _ hi
        rw [Nat.add_mul, Nat.one_mul] at this
        omega
      simp only
      unfold gather
      simp only [List.foldr_cons, List.foldr_nil, Nat.mul_one, List.map_cons, List.map_nil, List.length_map, List.length_range]
      exact flatMap_len (row _ hl)
  have e : gather [mU, mV, (List.range n).map some] [a, b, n] data = mU.flatMap (fun o : Option Nat => match o with
      | none => List.replicate (mV.length * n) nan
      | some i => gather [mV, (List.range n).map some] [b, n] ((data.drop (i * (b * n))).take (b * n))) := by
    conv_lhs => unfold gather
    simp only [List.foldr_cons, List.foldr_nil, Nat.mul_one, List.map_cons, List.map_nil, List.length_map, List.length_range]
    refine congrArg (fun f => mU.flatMap f) (funext fun o => ?_)
    cases o <;> rfl
  rw [e]
  refine ⟨flatMap_len plane, ?_⟩
  intro i k o p ho hp
  have hk : k < mV.length := (List.getElem?_eq_some_iff.1 hp).1
  have hs : ∀ D : List F, seriesAt mV.length n i k D = ((((D.drop (i * (mV.length * n))).take (mV.length * n)).drop (k * n)).take n) := by
    intro D
    unfold seriesAt
    rw [List.drop_take, List.take_take, List.drop_drop, Nat.min_eq_left]
    · congr 2
      ring
    · have : (k + 1) * n ≤ mV.length * n := Nat.mul_le_mul_right _ hk
      rw [Nat.add_mul, Nat.one_mul] at this
      omega
  rw [hs, flatMap_part plane i o ho]
  cases o with
  | none =>
    simp only
    rw [List.drop_replicate, List.take_replicate, Nat.min_eq_left]
    have : (k + 1) * n ≤ mV.length * n := Nat.mul_le_mul_right _ hk
    rw [Nat.add_mul, Nat.one_mul] at this
    omega
  | some i1 =>
    have hi := hU i1 (List.mem_of_getElem? ho)
    have hl : ((data.drop (i1 * (b * n))).take (b * n)).length = b * n := by
      rw [List.length_take, List.length_drop, hd]
      have : (i1 + 1) * (b * n) ≤ a * (b * n) := Nat.mul_le_mul_right _ hi
      rw [Nat.add_mul, Nat.one_mul] at this
      omega
    simp only
    have e2 : gather [mV, (List.range n).map some] [b, n] ((data.drop (i1 * (b * n))).take (b * n)) = mV.flatMap (fun o : Option Nat => match o with
      | none => List.replicate n nan
      | some i => gather [(List.range n).map some] [n] ((((data.drop (i1 * (b * n))).take (b * n)).drop (i * n)).take n)) := by
      conv_lhs => unfold gather
      simp only [List.foldr_cons, List.foldr_nil, Nat.mul_one, List.map_cons, List.map_nil, List.length_map, List.length_range]
      refine congrArg (fun f => mV.flatMap f) (funext fun o => ?_)
      cases o <;> rfl
    rw [e2, flatMap_part (row _ hl) k p hp]
    cases p with
    | none => rfl
    | some k1 =>
      have hk1 := hV k1 (List.mem_of_getElem? hp)
      simp only
      rw [gather_time]
      · unfold seriesAt
        rw [List.drop_take, List.take_take, List.drop_drop, Nat.min_eq_left]
        · congr 2
          ring
        · have : (k1 + 1) * n ≤ b * n := Nat.mul_le_mul_right _ hk1
          rw [Nat.add_mul, Nat.one_mul] at this
          omega
      · rw [List.length_take, List.length_drop, hl]
        have : (k1 + 1) * n ≤ b * n := Nat.mul_le_mul_right _ hk1
        rw [Nat.add_mul, Nat.one_mul] at this
        omega

/-! ## Missing series -/

theorem mem_setSlice {l v r : List F} {i j : Nat} (h : setSlice l i j v = .ok r) : ∀ u ∈ r, u ∈ l ∨ u ∈ v := by
  unfold setSlice at h
  simp only at h
  split at h
  · cases h
    intro u hu
    rcases List.mem_append.1 hu with hu | hu
    · rcases List.mem_append.1 hu with hu | hu
      · exact .inl (List.mem_of_mem_take hu)
      · exact .inr hu
    · exact .inl (List.mem_of_mem_drop hu)
  · split at h
    · cases h
      intro u hu
      rcases List.mem_append.1 hu with hu | hu
      · rcases List.mem_append.1 hu with hu | hu
        · exact .inl (List.mem_of_mem_take hu)
        · exact .inr (by rw [List.eq_of_mem_replicate hu]; exact List.mem_cons_self)
      · exact .inl (List.mem_of_mem_drop hu)
    · cases h

theorem mem_slice {l : List F} {i j : Nat} : ∀ u ∈ slice l i j, u ∈ l := by
  intro u hu
  unfold slice at hu
  exact List.mem_of_mem_drop (List.mem_of_mem_take hu)

/-- days that are all missing remain missing in years of 366 days -/
theorem to366Loop_nan [FloatLaws F] {x : List F} (hx : ∀ v ∈ x, v = nan) : ∀ (n : Nat) (y : Int) (al : List F) (oi ai : Nat) (r : List F), (∀ v ∈ al, v = nan) →
    to366Loop x n y al oi ai = .ok r → ∀ v ∈ r, v = nan := by
  intro n
  induction n with
  | zero => intro y al oi ai r hal h; cases h; exact hal
  | succ n ih =>
    intro y al oi ai r hal h
    have set : ∀ {l v r : List F} {i j : Nat}, setSlice l i j v = .ok r → (∀ u ∈ l, u = nan) → (∀ u ∈ v, u = nan) → ∀ u ∈ r, u = nan := by
      intro l v r i j h hl hv u hu
      rcases mem_setSlice h u hu with h | h
      · exact hl u h
      · exact hv u h
    unfold to366Loop at h
    split at h
    · obtain ⟨al1, h1, h⟩ := Res.bind_ok h
      exact ih _ _ _ _ _ (set h1 hal (fun u hu => hx u (mem_slice u hu))) h
    · obtain ⟨al1, h1, h⟩ := Res.bind_ok h
      have k1 := set h1 hal (fun u hu => hx u (mem_slice u hu))
      obtain ⟨f28, g1, h⟩ := Res.bind_ok h
      obtain ⟨m1, g2, h⟩ := Res.bind_ok h
      obtain ⟨al2, h2, h⟩ := Res.bind_ok h
      have k2 : ∀ v ∈ al2, v = nan := by
        have e1 : f28 = nan := by
          unfold getIdx at g1
          split at g1
          · next e => cases g1; exact hx _ (List.mem_of_getElem? e)
          · cases g1
        unfold setIdx at h2
        split at h2
        · cases h2
          intro v hv
          rcases List.mem_or_eq_of_mem_set hv with hv | hv
          · exact k1 v hv
          · rw [hv, e1]; simp
        · cases h2
      simp only at h
      split at h
      · split at h
        · cases h
        · obtain ⟨al3, h3, h⟩ := Res.bind_ok h
          refine ih _ _ _ _ _ (set h3 k2 ?_) h
          intro u hu
          rcases List.mem_append.1 hu with hu | hu
          · exact hx u (List.mem_of_mem_drop hu)
          · exact List.eq_of_mem_replicate hu
      · obtain ⟨al3, h3, h⟩ := Res.bind_ok h
        exact ih _ _ _ _ _ (set h3 k2 (fun u hu => hx u (mem_slice u hu))) h

theorem prepared_nan [FloatLaws F] {per : Periodicity} {y0 y1 : Int} {l p : List F} (hl : ∀ v ∈ l, v = nan) (h : prepared per y0 y1 l = .ok p) : ∀ v ∈ p, v = nan := by
  unfold prepared at h
  split at h
  · unfold transformTo366day at h
    split at h
    · cases h
    · exact to366Loop_nan hl _ _ _ _ _ _ (fun v hv => List.eq_of_mem_replicate hv) h
  · cases h; exact hl

end CI.Props
