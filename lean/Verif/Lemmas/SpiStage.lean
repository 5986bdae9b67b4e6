import Verif.Lemmas.SpiTool
import Std.Data.String.ToInt

/-!
# Lemmas about the SPI tool: the fitting stage and the SPI stage on the shared arrays
-/

namespace CI
open Spec CI.Props

variable {F : Type} [FloatOps F]

/-! ## Names -/

theorem fitName_inj {u : String} {s s' : Int} {v v' : String} (hv : v ∈ fittingVariables) (hv' : v' ∈ fittingVariables) (h : spiFitName u s v = spiFitName u s' v') :
    s = s' ∧ v = v' := by
  have key : v = v' := by
    unfold spiFitName at h
    have h := congrArg String.toList h
    simp only [String.toList_append] at h
    simp only [fittingVariables, List.mem_cons, List.not_mem_nil, or_false] at hv hv'
    rcases hv with rfl | rfl | rfl | rfl | rfl | rfl <;> rcases hv' with rfl | rfl | rfl | rfl | rfl | rfl <;> first | rfl | (exfalso; simp at h)
  subst key
  refine ⟨?_, rfl⟩
  unfold spiFitName at h
  rw [String.append_right_inj, String.append_left_inj, String.append_left_inj] at h
  exact Int.repr_injective h

theorem distVars_fitting {d : Distribution} {v : String} (h : v ∈ distVars d) : v ∈ fittingVariables := by
  cases d <;> simp only [distVars, fittingVariables, List.mem_cons, List.not_mem_nil, or_false] at h ⊢ <;> tauto

omit [FloatOps F] in
theorem dictAt_ok {d : Dict (Arr F)} {k : String} {x : Arr F} (h : d.at k = .ok x) : d k = some x := by
  unfold Dict.at at h
  split at h
  · cases h
  · next v hv => cases h; exact hv

omit [FloatOps F] in
theorem dictAt_some {d : Dict (Arr F)} {k : String} {x : Arr F} (h : d k = some x) : d.at k = .ok x := by
  unfold Dict.at; rw [h]

omit [FloatOps F] in
theorem put_same {α : Type} (d : Dict α) (k : String) (v : α) : (d.put k v) k = some v := by simp [Dict.put]

omit [FloatOps F] in
theorem put_other {α : Type} (d : Dict α) {k k' : String} (v : α) (h : k' ≠ k) : (d.put k v) k' = d k' := by simp [Dict.put, h]

theorem foldPut_other {α : Type} (nm : String → String) (val : Nat → α) (l : List String) : ∀ (m : Nat) (d : Dict α) (key : String), (∀ v ∈ l, key ≠ nm v) →
    ((l.zipIdx m).foldl (fun sh q => Dict.put sh (nm q.1) (val q.2)) d) key = d key := by
  induction l with
  | nil => intro m d key _; rfl
  | cons v l ih =>
    intro m d key h
    rw [List.zipIdx_cons, List.foldl_cons, ih _ _ _ (fun v hv => h v (by simp [hv])), put_other _ _ (h v (by simp))]

theorem foldPut_get {α : Type} (nm : String → String) (val : Nat → α) (l : List String) : ∀ (m : Nat) (d : Dict α) (q : Nat) (v : String), l.Nodup →
    (∀ v ∈ l, ∀ v' ∈ l, v ≠ v' → nm v ≠ nm v') → l[q]? = some v → ((l.zipIdx m).foldl (fun sh q => Dict.put sh (nm q.1) (val q.2)) d) (nm v) = some (val (m + q)) := by
  induction l with
  | nil => intro m d q v _ _ h; simp at h
  | cons w l ih =>
    intro m d q v hn hnm h
    rw [List.zipIdx_cons, List.foldl_cons]
    cases q with
    | zero =>
      simp only [List.getElem?_cons_zero, Option.some.injEq] at h
      subst h
      rw [foldPut_other, put_same]
      · rfl
      · intro v hv
        exact hnm w (by simp) v (by simp [hv]) (fun h => by subst h; exact (List.nodup_cons.1 hn).1 hv)
    | succ q =>
      simp only [List.getElem?_cons_succ] at h
      rw [ih (m + 1) _ q v (List.nodup_cons.1 hn).2 (fun v hv v' hv' => hnm v (by simp [hv]) v' (by simp [hv'])) h, Nat.add_assoc, Nat.add_comm 1 q]

theorem distVars_nodup (d : Distribution) : (distVars d).Nodup := by cases d <;> decide

/-! ## Blocks of blocks -/

omit [FloatOps F] in
/-- the block of cell (`i`, `k`) in the concatenation of rows of `b` blocks of `p` values -/
theorem block_of_rows {α : Type} {b p : Nat} {rows : List (List (List α))} (hr : ∀ r ∈ rows, r.length = b) (hc : ∀ r ∈ rows, ∀ c ∈ r, c.length = p) (i k : Nat) (r : List (List α))
    (c : List α) (hi : rows[i]? = some r) (hk : r[k]? = some c) : seriesAt b p i k rows.flatten.flatten = c := by
  have hkb : k < b := by
    have := hr r (List.mem_of_getElem? hi)
    rw [← this]
    exact (List.getElem?_eq_some_iff.1 hk).1
  unfold seriesAt
  apply flatten_block
  · intro x hx
    obtain ⟨r', h1, h2⟩ := List.mem_flatten.1 hx
    exact hc r' h1 x h2
  · have := flatten_block hr i r hi
    rw [← hk, ← this, List.getElem?_take, if_pos hkb, List.getElem?_drop]

omit [FloatOps F] in
theorem rows_flatten_len {α : Type} {b p : Nat} {rows : List (List (List α))} (hr : ∀ r ∈ rows, r.length = b) (hc : ∀ r ∈ rows, ∀ c ∈ r, c.length = p) :
    rows.flatten.flatten.length = rows.length * (b * p) := by
  rw [flatten_len (n := p), flatten_len hr, Nat.mul_assoc]
  intro x hx
  obtain ⟨r', h1, h2⟩ := List.mem_flatten.1 hx
  exact hc r' h1 x h2

omit [FloatOps F] in
/-- the series of a cell in the concatenation of rows -/
theorem series_of_rows {b n : Nat} {rows : List (List F)} (hr : ∀ r ∈ rows, r.length = b * n) (i k : Nat) (hk : k < b) (r : List F) (hi : rows[i]? = some r) :
    seriesAt b n i k rows.flatten = (r.drop (k * n)).take n := by
  rw [← row_series b n i k hk, flatten_block hr i r hi]

/-! ## Fitting -/

theorem fitStage_ok {E : Ext F} {j : SpiJob} {u : String} {ds scale : Int} {dist : Distribution} {sh sh' : Dict (Arr F)} (hvar : ∀ v ∈ fittingVariables, j.var ≠ spiFitName u scale v)
    {a b n : Nat} {dat : List F} (hv : sh j.var = some ⟨[a, b, n], dat⟩) (hdat : dat.length = a * (b * n)) (h : fitStage E j u ds scale dist sh = .ok sh') :
    j.inputType = .grid ∧ ∃ (p : Nat) (dat' : List F) (ys : List (List F)),
      (∀ v ∈ fittingVariables, ∃ x, sh (spiFitName u scale v) = some x ∧ x.shape = [a, b, p]) ∧
      sh' j.var = some ⟨[a, b, n], dat'⟩ ∧ dat'.length = a * (b * n) ∧ ys.length = (distVars dist).length ∧
      (∀ (q : Nat) (v : String), (distVars dist)[q]? = some v → ∃ y, ys[q]? = some y ∧ sh' (spiFitName u scale v) = some ⟨[a, b, p], y⟩ ∧ y.length = a * (b * p)) ∧
      (∀ i < a, ∀ k < b, seriesAt b n i k dat' = overwritten (fitOverwrites dist (seriesAt b n i k dat) scale j.per) (seriesAt b n i k dat) ∧
        ∃ fp, fitVal E dist (seriesAt b n i k dat) scale ds j.calStart j.calEnd j.per = .ok fp ∧
          fp.mapM (fun kv => assignSeries p (kv.2.getD [])) = .ok (ys.map (fun y => seriesAt b p i k y))) ∧
      ∀ key, key ≠ j.var → (∀ v ∈ distVars dist, key ≠ spiFitName u scale v) → sh' key = sh key := by
  unfold fitStage at h
  obtain ⟨six, h6, h⟩ := Res.bind_ok h
  obtain ⟨first, hf, h⟩ := Res.bind_ok h
  split at h
  · cases h
  next hany =>
  obtain ⟨n0, hn0, h⟩ := Res.bind_ok h
  obtain ⟨chunks, hch, h⟩ := Res.bind_ok h
  obtain ⟨vals, hvals, h⟩ := Res.bind_ok h
  obtain ⟨fits, hfits, h⟩ := Res.bind_ok h
  have hvals := dictAt_ok hvals
  rw [hv] at hvals
  cases hvals
  have hchain := (spiChunks_chain hch).2
  dsimp only at h
  split at h
  swap
  · cases h
  next a1 b1 n1 a' b' p hit hsh1 hshape =>
  cases hsh1
  split at h
  swap
  · cases h
  next hab =>
  obtain ⟨rfl, rfl⟩ := hab
  obtain ⟨out, hout, h⟩ := Res.bind_ok h
  refine ⟨hit, p, (out.map Prod.fst).flatten, ((List.range (distVars dist).length).map (fun q => (out.flatMap (fun r => r.2.map (fun c => c.getD q []))).flatten)), ?_⟩
  -- the six arrays
  have hsix : ∀ v ∈ fittingVariables, ∃ x, sh (spiFitName u scale v) = some x ∧ x.shape = [a, b, p] := by
    intro v hvm
    obtain ⟨i, hi⟩ := List.getElem?_of_mem hvm
    obtain ⟨x, hx, h2⟩ := mapM_get h6 i v hi
    refine ⟨x, dictAt_ok h2, ?_⟩
    rw [← hshape]
    simp only [List.any_eq_true, not_exists, not_and, bne_iff_ne, ne_eq, not_not] at hany
    exact hany x (List.mem_of_getElem? hx)
  -- the rows
  obtain ⟨r', h1, h2⟩ := applyChunks_mapM _ _ chunks 0 _ out hchain (by simp [rowsOf_length]) hout
  rw [List.drop_zero] at h1
  rw [List.take_zero, List.nil_append] at h2
  subst h2
  have hl := mapM_len h1
  rw [rowsOf_length] at hl
  have hrowlen : ∀ r ∈ rowsOf a dat, r.length = b * n := by
    intro r hr
    obtain ⟨i, hi⟩ := List.getElem?_of_mem hr
    have hia : i < a := by
      have := (List.getElem?_eq_some_iff.1 hi).1
      rwa [rowsOf_length] at this
    rw [rowsOf_get hdat i hia] at hi
    cases hi
    have : (i + 1) * (b * n) ≤ a * (b * n) := Nat.mul_le_mul_right _ hia
    rw [Nat.add_mul, Nat.one_mul] at this
    rw [List.length_take, List.length_drop, hdat]
    omega
  have hrow : ∀ o ∈ out, ∃ row ∈ rowsOf a dat, fitRow (fitOp E dist scale ds j.calStart j.calEnd j.per) b n p row = .ok o := fun o ho => mapM_mem h1 o ho
  have hfst : ∀ r ∈ out.map Prod.fst, r.length = b * n := by
    intro r hr
    obtain ⟨o, ho, rfl⟩ := List.mem_map.1 hr
    obtain ⟨row, h3, h4⟩ := hrow o ho
    exact (fitRow_ok (hrowlen row h3) h4).1
  -- the length of the parameters of a cell
  have hps : ∀ o ∈ out, o.2.length = b ∧ ∀ ps ∈ o.2, ps.length = (distVars dist).length ∧ ∀ y ∈ ps, y.length = p := by
    intro o ho
    obtain ⟨row, h3, h4⟩ := hrow o ho
    obtain ⟨_, g2, g3⟩ := fitRow_ok (hrowlen row h3) h4
    refine ⟨g2, ?_⟩
    intro ps hpm
    obtain ⟨k, hk⟩ := List.getElem?_of_mem hpm
    have hkb : k < b := by rw [← g2]; exact (List.getElem?_eq_some_iff.1 hk).1
    obtain ⟨fp, ps', e1, e2, e3, _⟩ := g3 k hkb
    rw [e3] at hk
    cases hk
    refine ⟨?_, ?_⟩
    · rw [mapM_len e2]
      cases dist with
      | other => cases e1
      | gamma =>
        simp only [fitVal, fitGammaVal] at e1
        obtain ⟨_, _, e1⟩ := Res.bind_ok e1
        obtain ⟨_, _, e1⟩ := Res.bind_ok e1
        cases e1
        rfl
      | pearson =>
        simp only [fitVal, fitPearsonVal] at e1
        obtain ⟨_, _, e1⟩ := Res.bind_ok e1
        obtain ⟨_, _, e1⟩ := Res.bind_ok e1
        cases e1
        rfl
    · intro y hy
      obtain ⟨kv, _, h5⟩ := mapM_mem e2 y hy
      exact assignSeries_ok h5
  have hblk : ∀ q < (distVars dist).length, ∀ i < a, ∀ k < b, ∀ o ps, out[i]? = some o → o.2[k]? = some ps →
      seriesAt b p i k (out.flatMap (fun r => r.2.map (fun c => c.getD q []))).flatten = ps.getD q [] := by
    intro q hq i hi k hk o ps ho hp
    rw [List.flatMap_def]
    refine block_of_rows (rows := out.map (fun r => r.2.map (fun c => c.getD q []))) ?_ ?_ i k (o.2.map (fun c => c.getD q [])) (ps.getD q []) (by simp [ho]) (by simp [hp])
    · intro r hr
      obtain ⟨o', ho', rfl⟩ := List.mem_map.1 hr
      rw [List.length_map]
      exact (hps o' ho').1
    · intro r hr c hc
      obtain ⟨o', ho', rfl⟩ := List.mem_map.1 hr
      obtain ⟨c', hc', rfl⟩ := List.mem_map.1 hc
      obtain ⟨g1, g2⟩ := (hps o' ho').2 c' hc'
      apply g2
      rw [List.getD_eq_getElem?_getD, List.getElem?_eq_getElem (by omega)]
      simp
  have hylen : ∀ q < (distVars dist).length, (out.flatMap (fun r => r.2.map (fun c => c.getD q []))).flatten.length = a * (b * p) := by
    intro q hq
    rw [List.flatMap_def, rows_flatten_len (b := b) (p := p), List.length_map, hl]
    · intro r hr
      obtain ⟨o', ho', rfl⟩ := List.mem_map.1 hr
      rw [List.length_map]
      exact (hps o' ho').1
    · intro r hr c hc
      obtain ⟨o', ho', rfl⟩ := List.mem_map.1 hr
      obtain ⟨c', hc', rfl⟩ := List.mem_map.1 hc
      obtain ⟨g1, g2⟩ := (hps o' ho').2 c' hc'
      apply g2
      rw [List.getD_eq_getElem?_getD, List.getElem?_eq_getElem (by omega)]
      simp
  have hne : ∀ v ∈ fittingVariables, ∀ v' ∈ fittingVariables, v ≠ v' → spiFitName u scale v ≠ spiFitName u scale v' := fun v hv v' hv' hne h => hne (fitName_inj hv hv' h).2
  refine ⟨hsix, ?_, by rw [flatten_len hfst, List.length_map, hl], by simp, ?_, ?_, ?_⟩
  · cases h
    rw [foldPut_other (spiFitName u scale) (fun q => (⟨first.shape, (out.flatMap (fun r => r.2.map (fun c => c.getD q []))).flatten⟩ : Arr F)), put_same]
    exact fun v hv => hvar v (distVars_fitting hv)
  · intro q v hq
    have hql : q < (distVars dist).length := (List.getElem?_eq_some_iff.1 hq).1
    refine ⟨_, by rw [List.getElem?_map, List.getElem?_range hql]; rfl, ?_, hylen q hql⟩
    cases h
    rw [foldPut_get (spiFitName u scale) (fun q => (⟨first.shape, (out.flatMap (fun r => r.2.map (fun c => c.getD q []))).flatten⟩ : Arr F)) _ 0 _ q v (distVars_nodup dist) ?_ hq,
      hshape, Nat.zero_add]
    intro v hv v' hv' hne'
    exact hne v (distVars_fitting hv) v' (distVars_fitting hv') hne'
  · intro i hi k hk
    obtain ⟨o, ho, h3⟩ := mapM_get h1 i _ (rowsOf_get hdat i hi)
    obtain ⟨g1, g2, g3⟩ := fitRow_ok (hrowlen _ (List.mem_of_getElem? (rowsOf_get hdat i hi))) h3
    obtain ⟨fp, ps, e1, e2, e3, e4⟩ := g3 k hk
    rw [row_series b n i k hk] at e1 e4
    refine ⟨?_, fp, e1, ?_⟩
    · rw [series_of_rows hfst i k hk o.1 (by simp [ho]), e4]
    · rw [e2]
      congr 1
      have hlen := ((hps o (List.mem_of_getElem? ho)).2 ps (List.mem_of_getElem? e3)).1
      apply List.ext_getElem?
      intro q
      by_cases hq : q < (distVars dist).length
      · rw [List.map_map, List.getElem?_map, List.getElem?_range hq, Option.map_some]
        show _ = some (seriesAt _ _ _ _ _)
        rw [hblk q hq i hi k hk o ps ho e3, List.getD_eq_getElem?_getD, List.getElem?_eq_getElem (by omega)]
        rfl
      · rw [List.getElem?_eq_none (by omega), List.getElem?_eq_none (by simp; omega)]
  · intro key hk1 hk2
    cases h
    rw [foldPut_other (spiFitName u scale) (fun q => (⟨first.shape, (out.flatMap (fun r => r.2.map (fun c => c.getD q []))).flatten⟩ : Arr F)) _ _ _ _ hk2, put_other _ _ hk1]

/-! ## SPI -/

theorem spiStage_ok [FloatLaws F] {E : Ext F} {j : SpiJob} {u : String} {ds scale : Int} {dist : Distribution} {sh sh' : Dict (Arr F)} (hvar : j.var ≠ keyResult)
    {a b n : Nat} {dat : List F} (hv : sh j.var = some ⟨[a, b, n], dat⟩) (hdat : dat.length = a * (b * n)) (h : spiStage E j u ds scale dist sh = .ok sh') :
    j.inputType = .grid ∧ ∃ (res : Arr F) (fits : List (Arr F)) (dat' rdat : List F), sh keyResult = some res ∧ res.data.length = a * (b * n) ∧ (distVars dist).mapM (fun v => sh.at (spiFitName u scale v)) = .ok fits ∧
      sh' j.var = some ⟨[a, b, n], dat'⟩ ∧ dat'.length = a * (b * n) ∧ sh' keyResult = some ⟨res.shape, rdat⟩ ∧ rdat.length = a * (b * n) ∧
      (∀ i < a, ∀ k < b, ∃ ps out, fits.mapM (fun x => fitAt x i k) = .ok ps ∧
        spi E (Arr.of1d (seriesAt b n i k dat)) scale dist ds j.calStart j.calEnd j.per (some ((distVars dist).zip (ps.map some))) = .ok out ∧
        assignSeries n out = .ok (seriesAt b n i k rdat) ∧
        seriesAt b n i k dat' =
          overwritten (spiWrites (Arr.of1d (seriesAt b n i k dat)) scale dist j.per (some ((distVars dist).zip (ps.map some)))) (seriesAt b n i k dat)) ∧
      ∀ key, key ≠ j.var → key ≠ keyResult → sh' key = sh key := by
  unfold spiStage at h
  obtain ⟨res, hres, h⟩ := Res.bind_ok h
  obtain ⟨n0, hn0, h⟩ := Res.bind_ok h
  obtain ⟨chunks, hch, h⟩ := Res.bind_ok h
  obtain ⟨vals, hvals, h⟩ := Res.bind_ok h
  obtain ⟨fits, hfits, h⟩ := Res.bind_ok h
  split at h
  · cases h
  next hlen =>
  have hvals := dictAt_ok hvals
  rw [hv] at hvals
  cases hvals
  have hchain := (spiChunks_chain hch).2
  dsimp only at h hlen
  split at h
  swap
  · cases h
  next a1 b1 n1 hit hsh1 =>
  cases hsh1
  obtain ⟨out, hout, h⟩ := Res.bind_ok h
  have hlr : res.data.length = a * (b * n) := by omega
  obtain ⟨r', h1, h2⟩ := applyChunks_mapM _ _ chunks 0 _ out hchain (by simp [rowsOf_length]) hout
  rw [List.drop_zero] at h1
  rw [List.take_zero, List.nil_append] at h2
  subst h2
  have hl := mapM_len h1
  rw [List.length_zip, List.length_range, rowsOf_length, Nat.min_self] at hl
  have hrowlen : ∀ i < a, ((dat.drop (i * (b * n))).take (b * n)).length = b * n := by
    intro i hia
    have : (i + 1) * (b * n) ≤ a * (b * n) := Nat.mul_le_mul_right _ hia
    rw [Nat.add_mul, Nat.one_mul] at this
    rw [List.length_take, List.length_drop, hdat]
    omega
  have hget : ∀ i < a, ((List.range a).zip (rowsOf a dat))[i]? = some (i, (dat.drop (i * (b * n))).take (b * n)) := by
    intro i hi
    rw [List.getElem?_zip_eq_some]
    exact ⟨by simp [hi], rowsOf_get hdat i hi⟩
  have hrow : ∀ o ∈ out, ∃ i < a, spiRow (spiOp E dist scale ds j.calStart j.calEnd j.per) (distVars dist) fits b n (i, (dat.drop (i * (b * n))).take (b * n)) = .ok o := by
    intro o ho
    obtain ⟨i, hi⟩ := List.getElem?_of_mem ho
    have hia : i < a := by
      have := (List.getElem?_eq_some_iff.1 hi).1
      omega
    obtain ⟨o', ho', h3⟩ := mapM_get h1 i _ (hget i hia)
    rw [hi] at ho'
    cases ho'
    exact ⟨i, hia, h3⟩
  have hfst : ∀ r ∈ out.map Prod.fst, r.length = b * n := by
    intro r hr
    obtain ⟨o, ho, rfl⟩ := List.mem_map.1 hr
    obtain ⟨i, h3, h4⟩ := hrow o ho
    exact (spiRow_ok (hrowlen i h3) h4).1
  have hsnd : ∀ r ∈ out.map Prod.snd, r.length = b * n := by
    intro r hr
    obtain ⟨o, ho, rfl⟩ := List.mem_map.1 hr
    obtain ⟨i, h3, h4⟩ := hrow o ho
    exact (spiRow_ok (hrowlen i h3) h4).2.1
  cases h
  refine ⟨hit, res, fits, (out.map Prod.fst).flatten, (out.map Prod.snd).flatten, dictAt_ok hres, hlr, hfits, ?_, by rw [flatten_len hfst, List.length_map, hl], put_same _ _ _,
    by rw [flatten_len hsnd, List.length_map, hl], ?_, ?_⟩
  · rw [put_other _ _ hvar, put_same]
  · intro i hi k hk
    obtain ⟨o, ho, h3⟩ := mapM_get h1 i _ (hget i hi)
    obtain ⟨_, _, g3⟩ := spiRow_ok (hrowlen i hi) h3
    obtain ⟨ps, out', e1, e2, e3, e4⟩ := g3 k hk
    rw [row_series b n i k hk] at e2 e4
    refine ⟨ps, out', e1, e2, ?_, ?_⟩
    · rw [series_of_rows hsnd i k hk o.2 (by simp [ho]), e3]
    · rw [series_of_rows hfst i k hk o.1 (by simp [ho]), e4]
  · intro key hk1 hk2
    rw [put_other _ _ hk2, put_other _ _ hk1]

end CI
