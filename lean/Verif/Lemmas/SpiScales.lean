import Verif.Lemmas.SpiPairs

/-!
# Lemmas about the SPI tool: data sets, file names, and the loop over the scales
-/

namespace CI
open Spec CI.Props

variable {F : Type}

/-! ## Data sets -/

theorem lookup_map_other (d : NcFile F) (name key : String) (v : NcVar F) (h : key ≠ name) :
    List.lookup key (d.map (fun p => if p.1 = name then (name, v) else p)) = List.lookup key d := by
  induction d with
  | nil => rfl
  | cons p d ih =>
    obtain ⟨q, x⟩ := p
    by_cases hq : q = name
    · simp only [List.map_cons, hq, if_true, List.lookup_cons, beq_eq_false_iff_ne.2 h]
      exact ih
    · simp only [List.map_cons, hq, if_false, List.lookup_cons]
      split
      · rfl
      · exact ih

theorem lookup_map_same (d : NcFile F) (name : String) (v : NcVar F) (h : (List.lookup name d).isSome) :
    List.lookup name (d.map (fun p => if p.1 = name then (name, v) else p)) = some v := by
  induction d with
  | nil => simp at h
  | cons p d ih =>
    obtain ⟨q, x⟩ := p
    by_cases hq : q = name
    · simp [hq]
    · have hb : (name == q) = false := beq_eq_false_iff_ne.2 (Ne.symm hq)
      simp only [List.map_cons, hq, if_false, List.lookup_cons, hb] at h ⊢
      exact ih h

theorem lookup_append_single (d : NcFile F) (name key : String) (v : NcVar F) (h : List.lookup name d = none) :
    List.lookup key (d ++ [(name, v)]) = if key = name then some v else List.lookup key d := by
  induction d with
  | nil => by_cases hk : key = name <;> simp [List.lookup_cons, hk, beq_eq_false_iff_ne.2]
  | cons p d ih =>
    obtain ⟨q, x⟩ := p
    simp only [List.lookup_cons] at h
    split at h
    · cases h
    · next hq =>
      have hne : name ≠ q := beq_eq_false_iff_ne.1 hq
      simp only [List.cons_append, List.lookup_cons]
      by_cases hk : key = q
      · subst hk; simp [Ne.symm hne]
      · simp only [beq_eq_false_iff_ne.2 hk]
        exact ih h

theorem ncput_same (d : NcFile F) (name : String) (v : NcVar F) : List.lookup name (d.put name v) = some v := by
  unfold NcFile.put
  split
  · next h => exact lookup_map_same d name v h
  · next h =>
    rw [lookup_append_single d name name v (Option.not_isSome_iff_eq_none.1 h)]
    simp

theorem ncput_other (d : NcFile F) {name key : String} (v : NcVar F) (h : key ≠ name) : List.lookup key (d.put name v) = List.lookup key d := by
  unfold NcFile.put
  split
  · exact lookup_map_other d name key v h
  · next hn =>
    rw [lookup_append_single d name key v (Option.not_isSome_iff_eq_none.1 hn)]
    simp [h]

theorem ncGet_ok {d : NcFile F} {k : String} {x : NcVar F} (h : d.get k = .ok x) : List.lookup k d = some x := by
  unfold NcFile.get at h
  split at h
  · cases h
  · next v hv => cases h; exact hv

variable [FloatOps F]

/-- the arrays of a list of variables are copied into the data set -/
theorem dump_fold {u : String} {scale : Int} {sh : Dict (Arr F)} (l : List String) : ∀ {g g' : NcFile F}, l.Nodup → (∀ v ∈ l, v ∈ fittingVariables) →
    l.foldlM (fun (g : NcFile F) v => (do
      let x ← sh.at (spiFitName u scale v)
      let old ← g.get (spiFitName u scale v)
      if x.shape = old.shape then pure (g.put (spiFitName u scale v) { old with data := x.data }) else .error .valueError : Res (NcFile F))) g = .ok g' →
    (∀ v ∈ l, ∃ x old, sh (spiFitName u scale v) = some x ∧ List.lookup (spiFitName u scale v) g = some old ∧ x.shape = old.shape ∧
      List.lookup (spiFitName u scale v) g' = some { old with data := x.data }) ∧
    ∀ key, (∀ v ∈ l, key ≠ spiFitName u scale v) → List.lookup key g' = List.lookup key g := by
  induction l with
  | nil =>
    intro g g' _ _ h
    cases h
    exact ⟨by simp, fun _ _ => rfl⟩
  | cons v l ih =>
    intro g g' hn hf h
    rw [List.foldlM_cons] at h
    obtain ⟨g1, h1, h⟩ := Res.bind_ok h
    obtain ⟨x, hx, h1⟩ := Res.bind_ok h1
    obtain ⟨old, ho, h1⟩ := Res.bind_ok h1
    split at h1
    swap
    · cases h1
    next hs =>
    cases h1
    obtain ⟨hn1, hn2⟩ := List.nodup_cons.1 hn
    obtain ⟨i1, i2⟩ := ih hn2 (fun w hw => hf w (by simp [hw])) h
    have hvl : ∀ w ∈ l, spiFitName u scale w ≠ spiFitName u scale v := by
      intro w hw e
      have := (fitName_inj (hf w (by simp [hw])) (hf v (by simp)) e).2
      subst this
      exact hn1 hw
    refine ⟨?_, ?_⟩
    · intro w hw
      rcases List.mem_cons.1 hw with rfl | hw
      · refine ⟨x, old, dictAt_ok hx, ncGet_ok ho, hs, ?_⟩
        rw [i2 _ (fun w hw => (hvl w hw).symm), ncput_same]
      · obtain ⟨x', old', e1, e2, e3, e4⟩ := i1 w hw
        refine ⟨x', old', e1, ?_, e3, e4⟩
        rw [← e2, ncput_other _ _ (hvl w hw)]
    · intro key hk
      rw [i2 key (fun w hw => hk w (by simp [hw])), ncput_other _ _ (hk v (by simp))]

theorem dumpFits_ok {u : String} {scale : Int} {sh : Dict (Arr F)} {g g' : NcFile F} (h : dumpFits u scale sh g = .ok g') :
    (∀ v ∈ fittingVariables, ∃ x old, sh (spiFitName u scale v) = some x ∧ List.lookup (spiFitName u scale v) g = some old ∧ x.shape = old.shape ∧
      List.lookup (spiFitName u scale v) g' = some { old with data := x.data }) ∧
    ∀ key, (∀ v ∈ fittingVariables, key ≠ spiFitName u scale v) → List.lookup key g' = List.lookup key g :=
  dump_fold fittingVariables (by decide) (fun _ h => h) h

/-! ## Names of outputs -/

/-- the file of a scale and distribution (`__spi__.py`:699-702) -/
def spiOutFile (base u : String) (scale : Int) (dist : Distribution) : String := base ++ "_" ++ spiOutName dist scale u ++ ".nc"

omit [FloatOps F] in
theorem outFile_inj {base u : String} {s s' : Int} {dist dist' : Distribution} (hd : dist = .gamma ∨ dist = .pearson) (hd' : dist' = .gamma ∨ dist' = .pearson)
    (h : spiOutFile base u s dist = spiOutFile base u s' dist') : s = s' ∧ dist = dist' := by
  unfold spiOutFile at h
  rw [String.append_left_inj, String.append_assoc, String.append_assoc, String.append_right_inj, String.append_right_inj] at h
  unfold spiOutName at h
  have key : dist = dist' := by
    have h := congrArg String.toList h
    simp only [String.toList_append] at h
    rcases hd with rfl | rfl <;> rcases hd' with rfl | rfl <;> first | rfl | (exfalso; simp [Distribution.value] at h)
  subst key
  refine ⟨?_, rfl⟩
  rw [String.append_left_inj, String.append_left_inj, String.append_right_inj] at h
  exact Int.repr_injective h

/-! ## Files and shared arrays in the course of the loop -/

variable [FloatLaws F]

/-- the series of the cells in the shared precipitation array, and the shape of the result array -/
def CellsAre (var : String) (a b n : Nat) (shape : List Nat) (cell : Nat → Nat → List F) (sh : Dict (Arr F)) : Prop :=
  (∃ dat, sh var = some ⟨[a, b, n], dat⟩ ∧ dat.length = a * (b * n) ∧ ∀ i < a, ∀ k < b, seriesAt b n i k dat = cell i k) ∧ ∃ res, sh keyResult = some res ∧ res.shape = shape

/-- the file of a scale and distribution was built from the SPI values of the series `cell` -/
def OutHolds (E : Ext F) (j : SpiJob) (u : String) (ds : Int) (d : NcFile F) (a b n : Nat) (shape : List Nat) (scale : Int) (dist : Distribution) (cell : Nat → Nat → List F) (fs : Files F) :
    Prop :=
  ∃ rdat new, fs (spiOutFile j.base u scale dist) = some new ∧ rdat.length = a * (b * n) ∧ buildSpiGrid j.per ds d (spiOutName dist scale u) ⟨shape, rdat⟩ = .ok new ∧
    ∀ i < a, ∀ k < b, spi E (Arr.of1d (cell i k)) scale dist ds j.calStart j.calEnd j.per none = .ok (seriesAt b n i k rdat)

omit [FloatLaws F] in
theorem FitsHold.frame {E : Ext F} {u : String} {per : Periodicity} {ds cs ce scale : Int} {dist : Distribution} {a b : Nat} {cell : Nat → Nat → List F} {sh sh' : Dict (Arr F)}
    (h : FitsHold E u per ds cs ce scale dist a b cell sh) (hs : ∀ v ∈ distVars dist, sh' (spiFitName u scale v) = sh (spiFitName u scale v)) :
    FitsHold E u per ds cs ce scale dist a b cell sh' := by
  intro v hv
  obtain ⟨y, h1, h2⟩ := h v hv
  exact ⟨y, (hs v hv).trans h1, h2⟩

theorem spiPair_ok {E : Ext F} (hE : ExtNan E) {j : SpiJob} (hload : j.load = none) {u : String} {ds scale : Int} {d : NcFile F} {dist : Distribution} {w w' : World F}
    (hvar : ∀ s, ∀ v ∈ fittingVariables, j.var ≠ spiFitName u s v) (hres : j.var ≠ keyResult) (hfr : ∀ s, ∀ v ∈ fittingVariables, keyResult ≠ spiFitName u s v) {a b n : Nat}
    {shape : List Nat} {S : Nat → Nat → List F} {done : List (Int × Distribution)} (hc : CellsAre j.var a b n shape (fun i k => cellAfter (S i k) j.per done) w.shared)
    (h : spiPair E j u ds d (scale, dist) w = (.ok (), w')) :
    j.inputType = .grid ∧ CellsAre j.var a b n shape (fun i k => cellAfter (S i k) j.per (done ++ [(scale, dist)])) w'.shared ∧
      OutHolds E j u ds d a b n shape scale dist (fun i k => cellAfter (S i k) j.per (done ++ [(scale, dist)])) w'.files ∧
      (0 < a → 0 < b → FitsHold E u j.per ds j.calStart j.calEnd scale dist a b (fun i k => cellAfter (S i k) j.per done) w'.shared) ∧
      (∀ f, f ≠ spiOutFile j.base u scale dist → w'.files f = w.files f) ∧
      (∀ key, key ≠ j.var → key ≠ keyResult → (∀ v ∈ distVars dist, key ≠ spiFitName u scale v) → w'.shared key = w.shared key) ∧
      ∃ res, w.shared keyResult = some res ∧ res.data.length = a * (b * n) := by
  unfold spiPair at h
  split at h
  · cases h
  next sh name new hcomp =>
  cases h
  obtain ⟨⟨dat, c1, c2, c3⟩, res0, c4, c5⟩ := hc
  obtain ⟨hit, rfl, dat', res, rdat, g1, g2, g3, g3', g4, g5, g6, g7, g8, g9⟩ := spiCompute_ok hE hload (hvar scale) hres (hfr scale) c1 c2 hcomp
  rw [c4] at g3
  cases g3
  have hnext : ∀ i < a, ∀ k < b, seriesAt b n i k dat' = cellAfter (S i k) j.per (done ++ [(scale, dist)]) := by
    intro i hi k hk
    rw [(g7 i hi k hk).1, c3 i hi k hk]
    exact cellAfter_step _ _ _ _ _
  subst c5
  refine ⟨hit, ⟨⟨dat', g1, g2, hnext⟩, _, g4, rfl⟩, ⟨rdat, new, ?_, g5, g6, ?_⟩, ?_, ?_, g9, _, c4, g3'⟩
  · simp [writeFile, spiOutFile]
  · intro i hi k hk
    have := (g7 i hi k hk).2
    rw [hnext i hi k hk] at this
    exact this
  · intro ha hb v hv
    obtain ⟨y, e1, e2, e3⟩ := g8 ha hb v hv
    refine ⟨y, e1, e2, ?_⟩
    intro i hi k hk
    obtain ⟨fp, k1, k2⟩ := e3 i hi k hk
    simp only [c3 i hi k hk] at k1
    exact ⟨fp, k1, k2⟩
  · intro f hf
    simp only [writeFile]
    rw [if_neg]
    exact hf

theorem cellAfter_pearson (s : List F) (per : Periodicity) (ps : List (Int × Distribution)) (scale : Int) : cellAfter s per (ps ++ [(scale, .pearson)]) = cellAfter s per ps := by
  have h : (1, Distribution.gamma) ∈ ps ++ [(scale, Distribution.pearson)] ↔ (1, Distribution.gamma) ∈ ps := by simp
  unfold cellAfter seriesAfter
  by_cases hc : (1, Distribution.gamma) ∈ ps ∧ InPlace (Arr.of1d s) per
  · rw [if_pos hc, if_pos ⟨h.2 hc.1, hc.2⟩]
  · rw [if_neg hc, if_neg (fun k => hc ⟨h.1 k.1, k.2⟩)]

/-- the loop over the scales -/
theorem spiScales_ok {E : Ext F} (hE : ExtNan E) {j : SpiJob} (hload : j.load = none) {u : String} {ds : Int} {d : NcFile F} 
    (hvar : ∀ s, ∀ v ∈ fittingVariables, j.var ≠ spiFitName u s v) (hres : j.var ≠ keyResult) (hfr : ∀ s, ∀ v ∈ fittingVariables, keyResult ≠ spiFitName u s v) {a b n : Nat}
    {shape : List Nat} {S : Nat → Nat → List F} (ss : List Int) : ∀ {done : List (Int × Distribution)} {g g' : NcFile F} {w w' : World F}, 
      CellsAre j.var a b n shape (fun i k => cellAfter (S i k) j.per done) w.shared → spiScales E j u ds d ss g w = (.ok g', w') →
      CellsAre j.var a b n shape (fun i k => cellAfter (S i k) j.per (done ++ toolPairs ss)) w'.shared ∧ (ss ≠ [] → j.inputType = .grid) ∧
      (∀ pre s post, ss = pre ++ s :: post → s ∉ post →
        OutHolds E j u ds d a b n shape s .gamma (fun i k => cellAfter (S i k) j.per (done ++ toolPairs pre ++ [(s, .gamma)])) w'.files ∧
        OutHolds E j u ds d a b n shape s .pearson (fun i k => cellAfter (S i k) j.per (done ++ toolPairs pre ++ [(s, .gamma)])) w'.files ∧
        (0 < a → 0 < b → FitsHold E u j.per ds j.calStart j.calEnd s .gamma a b (fun i k => cellAfter (S i k) j.per (done ++ toolPairs pre)) w'.shared ∧
          FitsHold E u j.per ds j.calStart j.calEnd s .pearson a b (fun i k => cellAfter (S i k) j.per (done ++ toolPairs pre ++ [(s, .gamma)])) w'.shared) ∧
        ∀ v ∈ fittingVariables, ∃ x y, w'.shared (spiFitName u s v) = some x ∧ List.lookup (spiFitName u s v) g' = some y ∧ y.shape = x.shape ∧ y.data = x.data) ∧
      (∀ f, (∀ s ∈ ss, f ≠ spiOutFile j.base u s .gamma ∧ f ≠ spiOutFile j.base u s .pearson) → w'.files f = w.files f) ∧
      (∀ key, key ≠ j.var → key ≠ keyResult → (∀ s ∈ ss, ∀ v ∈ fittingVariables, key ≠ spiFitName u s v) → w'.shared key = w.shared key) ∧
      (∀ key, (∀ s ∈ ss, ∀ v ∈ fittingVariables, key ≠ spiFitName u s v) → List.lookup key g' = List.lookup key g) := by
  induction ss with
  | nil =>
    intro done g g' w w' hc h
    cases h
    refine ⟨by simpa [toolPairs] using hc, by simp, ?_, fun _ _ => rfl, fun _ _ _ _ => rfl, fun _ _ => rfl⟩
    intro pre s post h
    simp at h
  | cons s0 ss ih =>
    intro done g g' w w' hc h
    unfold spiScales at h
    obtain ⟨_, w1, h1, h⟩ := SE.bind_ok h
    obtain ⟨_, w2, h2, h⟩ := SE.bind_ok h
    obtain ⟨g1, w3, h3, h⟩ := SE.bind_ok h
    simp only [Prod.mk.injEq] at h3
    obtain ⟨h3, rfl⟩ := h3
    obtain ⟨hit, c1, o1, f1, fi1, fr1, _⟩ := spiPair_ok hE hload hvar hres hfr hc h1
    obtain ⟨_, c2, o2, f2, fi2, fr2, _⟩ := spiPair_ok hE hload hvar hres hfr c1 h2
    obtain ⟨du1, du2⟩ := dumpFits_ok h3
    obtain ⟨i1, _, i2, i3, i4, i5⟩ := ih c2 h
    have hgp : ∀ s, spiOutFile j.base u s .gamma ≠ spiOutFile j.base u s .pearson := by
      intro s e
      have := (outFile_inj (Or.inl rfl) (Or.inr rfl) e).2
      cases this
    refine ⟨?_, fun _ => hit, ?_, ?_, ?_, ?_⟩
    · simpa [toolPairs] using i1
    · intro pre s post hsplit hnp
      cases pre with
      | cons p pre =>
        simp only [List.cons_append, List.cons.injEq] at hsplit
        obtain ⟨rfl, hsplit⟩ := hsplit
        simpa [toolPairs] using i2 pre s post hsplit hnp
      | nil =>
        simp only [List.nil_append, List.cons.injEq] at hsplit
        obtain ⟨rfl, rfl⟩ := hsplit
        have hne : ∀ s ∈ ss, ∀ d1 d2 : Distribution, (d1 = .gamma ∨ d1 = .pearson) → (d2 = .gamma ∨ d2 = .pearson) → spiOutFile j.base u s0 d1 ≠ spiOutFile j.base u s d2 := by
          intro s hs d1 d2 k1 k2 e
          have := (outFile_inj k1 k2 e).1
          subst this
          exact hnp hs
        have hnf : ∀ v ∈ fittingVariables, ∀ s ∈ ss, ∀ v' ∈ fittingVariables, spiFitName u s0 v ≠ spiFitName u s v' := by
          intro v hv s hs v' hv' e
          have := (fitName_inj hv hv' e).1
          subst this
          exact hnp hs
        have keep : ∀ v ∈ fittingVariables, w'.shared (spiFitName u s0 v) = w2.shared (spiFitName u s0 v) := by
          intro v hv
          exact i4 _ (fun e => hvar s0 v hv e.symm) (fun e => hfr s0 v hv e.symm) (hnf v hv)
        have keep1 : ∀ v ∈ distVars .gamma, w2.shared (spiFitName u s0 v) = w1.shared (spiFitName u s0 v) := by
          intro v hv
          refine fr2 _ (fun e => hvar s0 v (distVars_fitting hv) e.symm) (fun e => hfr s0 v (distVars_fitting hv) e.symm) ?_
          intro v' hv' e
          have := (fitName_inj (distVars_fitting hv) (distVars_fitting hv') e).2
          subst this
          simp [distVars] at hv hv'
          rcases hv with rfl | rfl <;> simp at hv'
        refine ⟨?_, ?_, ?_, ?_⟩
        · obtain ⟨rdat, new, e1, e2⟩ := o1
          refine ⟨rdat, new, ?_, by simpa [toolPairs] using e2⟩
          rw [i3 _ (fun s hs => ⟨hne s hs _ _ (Or.inl rfl) (Or.inl rfl), hne s hs _ _ (Or.inl rfl) (Or.inr rfl)⟩), fi2 _ (hgp s0), e1]
        · obtain ⟨rdat, new, e1, e2⟩ := o2
          refine ⟨rdat, new, ?_, by simpa only [toolPairs, cellAfter_pearson, List.flatMap_nil, List.append_nil] using e2⟩
          rw [i3 _ (fun s hs => ⟨hne s hs _ _ (Or.inr rfl) (Or.inl rfl), hne s hs _ _ (Or.inr rfl) (Or.inr rfl)⟩), e1]
        · intro ha hb
          refine ⟨?_, ?_⟩
          · have := (f1 ha hb).frame (sh' := w'.shared) (fun v hv => by rw [keep v (distVars_fitting hv), keep1 v hv])
            simpa [toolPairs] using this
          · have := (f2 ha hb).frame (sh' := w'.shared) (fun v hv => by rw [keep v (distVars_fitting hv)])
            simpa [toolPairs] using this
        · intro v hv
          obtain ⟨x, old, e1, e2, e3, e4⟩ := du1 v hv
          refine ⟨x, { old with data := x.data }, by rw [keep v hv, e1], ?_, e3.symm, rfl⟩
          rw [i5 _ (hnf v hv), e4]
    · intro f hf
      rw [i3 f (fun s hs => hf s (by simp [hs])), fi2 f (hf s0 (by simp)).2, fi1 f (hf s0 (by simp)).1]
    · intro key k1 k2 k3
      rw [i4 key k1 k2 (fun s hs => k3 s (by simp [hs])), fr2 key k1 k2 (fun v hv => k3 s0 (by simp) v (distVars_fitting hv)),
        fr1 key k1 k2 (fun v hv => k3 s0 (by simp) v (distVars_fitting hv))]
    · intro key hk
      rw [i5 key (fun s hs => hk s (by simp [hs])), du2 key (hk s0 (by simp))]

end CI
