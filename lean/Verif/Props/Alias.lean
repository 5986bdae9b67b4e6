import Verif.Lemmas.AliasFit

/-!
# Calls that write to the caller's array (C19, C54)

The functions run on a heap of buffers (`Model/Alias.lean`). C19 and C54 are false; proved are the exact effect of every call on every buffer, the cases in which the
properties do hold, and their failure otherwise.
-/

namespace CI.Props
open CI

section
variable {F : Type} [FloatOps F]

/-- at least one negative and no missing value: then the code works on a clipped copy -/
def Clipped (d : List F) : Prop := (∀ v ∈ d, v ≠ nan) ∧ ∃ v ∈ d, flt v (lit 0) = true

/-- a flat series of whole years with at least one value, of which no clipped copy is made -/
def InPlace (a : Arr F) (per : Periodicity) : Prop :=
  a.shape.length = 1 ∧ (∃ v ∈ a.data, v ≠ nan) ∧ ¬ Clipped a.data ∧ per.steps ∣ a.data.length

/-- `b` is `a` with every zero replaced by NaN -/
def zerosMissing (a : Arr F) : Arr F := ⟨a.shape, a.data.map (fun v => if feq v (lit 0) then nan else v)⟩

/-- `b` is `a` with every negative value replaced by zero -/
def frostZero (a : Arr F) : Arr F := ⟨a.shape, a.data.map (fun v => if flt v (lit 0) then lit 0 else v)⟩

/-- no parameters are given, or both keys are there (possibly with the value None) -/
def GammaKeys (fp : Option (FitDict F)) : Prop := ∀ D, fp = some D → (∃ v, D.lookup "alpha" = some v) ∧ ∃ v, D.lookup "beta" = some v

/-- buffers other than `c` keep their contents -/
def OthersKept (c : Nat) (h h' : Heap F) : Prop := ∀ j, j < h.length → j ≠ c → h'[j]? = h[j]?

variable [FloatLaws F]

theorem exists_not_nan_iff (d : List F) : (∃ v ∈ d, v ≠ nan) ↔ allNan d = false := by
  unfold allNan
  rw [List.all_eq_false]
  constructor
  · rintro ⟨v, hv, h⟩; exact ⟨v, hv, by rw [Bool.not_eq_true, isNan_eq_false_iff]; exact h⟩
  · rintro ⟨v, hv, h⟩; exact ⟨v, hv, by rw [Bool.not_eq_true, isNan_eq_false_iff] at h; exact h⟩

theorem fitWrites_iff (a : Arr F) (scale : Int) (per : Periodicity) : fitWrites a scale per = true ↔ scale = 1 ∧ InPlace a per := by
  unfold fitWrites stays InPlace
  rw [exists_not_nan_iff]
  by_cases hd : a.data = []
  · have : allNan a.data = true := by rw [hd]; rfl
    rw [this]; simp
  · have hcl : (clips a.data = false) ↔ ¬ Clipped a.data := by
      rw [← Bool.not_eq_true, clips_iff _ hd]; rfl
    simp only [Bool.and_eq_true, Bool.not_eq_true', decide_eq_true_eq, hcl, Nat.dvd_iff_mod_eq_zero]
    tauto

theorem gammaKeys_iff (fp : Option (FitDict F)) : GammaKeys fp ↔ ∃ ab, getGammaArgs fp = .ok ab := by
  unfold GammaKeys getGammaArgs
  cases fp with
  | none => simp
  | some D =>
    simp only [Option.some.injEq, forall_eq', fitGet]
    cases h1 : D.lookup "alpha" <;> cases h2 : D.lookup "beta" <;> simp [bind, Except.bind, pure, Except.pure]

theorem spiWrites_iff (a : Arr F) (scale : Int) (dist : Distribution) (per : Periodicity) (fp : Option (FitDict F)) :
    spiWrites a scale dist per fp = true ↔ dist = .gamma ∧ scale = 1 ∧ InPlace a per ∧ GammaKeys fp := by
  have h := fitWrites_iff a scale per
  unfold fitWrites at h
  rw [gammaKeys_iff]
  unfold spiWrites
  have hm : ((match getGammaArgs fp with | .ok _ => true | .error _ => false) = true) ↔ ∃ ab, getGammaArgs fp = .ok ab := by
    cases getGammaArgs fp <;> simp
  simp only [Bool.and_eq_true, decide_eq_true_eq, hm] at h ⊢
  tauto

omit [FloatOps F] [FloatLaws F] in
theorem others_of_eq (h0 h' ex : Heap F) (c : Nat) (w : Bool) (d : List F) (he : h' = (if w then h0.set c d else h0) ++ ex) : OthersKept c h0 h' := by
  intro j hj hne
  subst he
  cases w with
  | false => simp [List.getElem?_append_left hj]
  | true =>
    simp only [if_true]
    rw [List.getElem?_append_left (by simpa using hj), List.getElem?_set_ne (Ne.symm hne)]

omit [FloatOps F] [FloatLaws F] in
theorem arr_of_eq (h0 h' ex : Heap F) (r : Ref) (hr : r.buf < h0.length) (w : Bool) (d : List F) (he : h' = (if w then h0.set r.buf d else h0) ++ ex) :
    h'.arr r = if w then ⟨r.shape, d⟩ else h0.arr r := by
  subst he
  cases w with
  | false => simp [Heap.arr, List.getElem?_append_left hr, List.getD]
  | true =>
    simp only [if_true, Heap.arr, List.getD]
    rw [List.getElem?_append_left (by simpa using hr)]
    simp [hr]

/-! ## C19: the effect of one call -/

/-- **C19, `spi`** (`_partial`: the property is false when the last conclusion's case applies). `spi` on an array in memory returns what the value level model says, no
other buffer changes, and the caller's array is unchanged except in one case: gamma distribution, scale 1, a flat series of whole years of which no clipped copy is
made. Then the zeros of the caller's array become NaN. -/
theorem C19_spi_partial (E : Ext F) (h0 : Heap F) (r : Ref) (hr : r.buf < h0.length) (hwf : (h0.arr r).WF) (scale : Int) (dist : Distribution) (ds cs ce : Int)
    (per : Periodicity) (fp : Option (FitDict F)) :
    ∃ res h', spiH E r scale dist ds cs ce per fp h0 = (res, h') ∧ (res.map fun r' => (h'.arr r').data) = spi E (h0.arr r) scale dist ds cs ce per fp ∧
      OthersKept r.buf h0 h' ∧
      (¬ (dist = .gamma ∧ scale = 1 ∧ InPlace (h0.arr r) per ∧ GammaKeys fp) → h'.arr r = h0.arr r) ∧
      (dist = .gamma ∧ scale = 1 ∧ InPlace (h0.arr r) per ∧ GammaKeys fp → h'.arr r = zerosMissing (h0.arr r)) := by
  obtain ⟨res, h', h1, h2, ex, h3⟩ := spiH_spec E h0 r _ rfl hr hwf scale dist ds cs ce per fp
  refine ⟨res, h', h1, h2, others_of_eq _ _ _ _ _ _ h3, ?_, ?_⟩
  · intro hw
    rw [← spiWrites_iff, Bool.not_eq_true] at hw
    rw [arr_of_eq _ _ _ r hr _ _ h3, hw]; rfl
  · intro hw
    rw [← spiWrites_iff] at hw
    rw [arr_of_eq _ _ _ r hr _ _ h3, hw]; rfl

/-- **C19, `scale_values` followed by `gamma_parameters`** (`_partial`: as above). -/
theorem C19_fit_partial (E : Ext F) (h0 : Heap F) (r : Ref) (hr : r.buf < h0.length) (hwf : (h0.arr r).WF) (scale ds cs ce : Int) (per : Periodicity) :
    ∃ h', fitGammaH E r scale ds cs ce per h0 =
        ((do
          let s ← scaleValues (h0.arr r) scale per
          let ab ← gammaParameters E s ds cs ce per
          pure [("alpha", some ab.1), ("beta", some ab.2)]), h') ∧
      OthersKept r.buf h0 h' ∧ (¬ (scale = 1 ∧ InPlace (h0.arr r) per) → h'.arr r = h0.arr r) ∧
      (scale = 1 ∧ InPlace (h0.arr r) per → h'.arr r = zerosMissing (h0.arr r)) := by
  obtain ⟨h', h1, ex, h3⟩ := fitGammaH_spec E h0 r _ rfl hr hwf scale ds cs ce per
  refine ⟨h', h1, others_of_eq _ _ _ _ _ _ h3, ?_, ?_⟩
  · intro hw
    rw [← fitWrites_iff, Bool.not_eq_true] at hw
    rw [arr_of_eq _ _ _ r hr _ _ h3, hw]; rfl
  · intro hw
    rw [← fitWrites_iff] at hw
    rw [arr_of_eq _ _ _ r hr _ _ h3, hw]; rfl

/-- years by 12, or a flat series of whole years -/
def WholeYears (a : Arr F) : Prop := (∃ n, a.shape = [n, 12]) ∨ ∃ n, a.shape = [n] ∧ 12 ∣ n

omit [FloatOps F] [FloatLaws F] in
theorem etoWrites_iff (a : Arr F) : etoWrites a = true ↔ WholeYears a := by
  obtain ⟨sh, d⟩ := a
  unfold etoWrites WholeYears
  match sh with
  | [] => simp
  | [n] => simp [Nat.dvd_iff_mod_eq_zero]
  | [n, c] => simp
  | _ :: _ :: _ :: _ => simp

omit [FloatLaws F] in
/-- **C19, `eto_thornthwaite`** (`_partial`: the negative temperatures of the caller's array become zero when it is made of whole years). -/
theorem C19_eto_partial (T : Trig F) (h0 : Heap F) (r : Ref) (hr : r.buf < h0.length) (hwf : (h0.arr r).WF) (lat : F) (y : Int) :
    ∃ res h', etoThornthwaiteH T r lat y h0 = (res, h') ∧ (res.map fun r' => (h'.arr r').data) = etoThornthwaite T (h0.arr r) lat y ∧
      OthersKept r.buf h0 h' ∧ (¬ WholeYears (h0.arr r) → h'.arr r = h0.arr r) ∧ (WholeYears (h0.arr r) → h'.arr r = frostZero (h0.arr r)) := by
  obtain ⟨res, h', h1, h2, ex, h3⟩ := etoThornthwaiteH_spec T h0 r _ rfl hr hwf lat y
  refine ⟨res, h', h1, h2, others_of_eq _ _ _ _ _ _ h3, ?_, ?_⟩
  · intro hw
    rw [← etoWrites_iff, Bool.not_eq_true] at hw
    rw [arr_of_eq _ _ _ r hr _ _ h3, hw]; rfl
  · intro hw
    rw [← etoWrites_iff] at hw
    rw [arr_of_eq _ _ _ r hr _ _ h3, hw]; rfl

omit [FloatLaws F] in
/-- the same for `pet`, which may also return or raise before the write -/
theorem C19_pet_partial (T : Trig F) (h0 : Heap F) (r : Ref) (hr : r.buf < h0.length) (hwf : (h0.arr r).WF) (lat : Option F) (y : Int) :
    ∃ res h', petH T r lat y h0 = (res, h') ∧ (res.map fun r' => (h'.arr r').data) = pet T (h0.arr r) lat y ∧
      OthersKept r.buf h0 h' ∧ (h'.arr r = h0.arr r ∨ WholeYears (h0.arr r) ∧ h'.arr r = frostZero (h0.arr r)) := by
  obtain ⟨res, h', h1, h2, h3⟩ := petH_spec T h0 r _ rfl hr hwf lat y
  refine ⟨res, h', h1, h2, ?_⟩
  rcases h3 with ⟨ex, h3⟩ | ⟨hw, ex, h3⟩
  · exact ⟨others_of_eq _ _ ex r.buf false [] (by simpa using h3), Or.inl (arr_of_eq _ _ ex r hr false [] (by simpa using h3))⟩
  · exact ⟨others_of_eq _ _ ex r.buf true _ (by simpa using h3), Or.inr ⟨(etoWrites_iff _).1 hw, arr_of_eq _ _ ex r hr true (frostZero (h0.arr r)).data (by rw [if_pos rfl]; exact h3)⟩⟩

/-! ## C19: sequences of calls on the same array -/

/-- calls on one array -/
inductive Call (F : Type) where
  | spi (scale : Int) (dist : Distribution) (ds cs ce : Int) (per : Periodicity) (fp : Option (FitDict F))
  | fitGamma (scale ds cs ce : Int) (per : Periodicity)
  | fitPearson (scale ds cs ce : Int) (per : Periodicity)
  | pet (lat : Option F) (startYear : Int)

/-- the call on the heap; the result is read as soon as the call returns -/
def Call.run (E : Ext F) (T : Trig F) (r : Ref) (c : Call F) (h : Heap F) : Res (List F ⊕ FitDict F) × Heap F :=
  match c with
  | .spi s d ds cs ce per fp => let o := spiH E r s d ds cs ce per fp h; (o.1.map fun r' => .inl (o.2.arr r').data, o.2)
  | .fitGamma s ds cs ce per => let o := fitGammaH E r s ds cs ce per h; (o.1.map .inr, o.2)
  | .fitPearson s ds cs ce per => let o := fitPearsonH E r s ds cs ce per h; (o.1.map .inr, o.2)
  | .pet lat y => let o := petH T r lat y h; (o.1.map fun r' => .inl (o.2.arr r').data, o.2)

/-- calls one after the other; the caller catches exceptions and goes on -/
def runCalls (E : Ext F) (T : Trig F) (r : Ref) : List (Call F) → Heap F → List (Res (List F ⊕ FitDict F)) × Heap F
  | [], h => ([], h)
  | c :: cs, h => let o := c.run E T r h; let os := runCalls E T r cs o.2; (o.1 :: os.1, os.2)

/-- the answer of a call made alone on a fresh array `a` -/
def Call.alone (E : Ext F) (T : Trig F) (a : Arr F) : Call F → Res (List F ⊕ FitDict F)
  | .spi s d ds cs ce per fp => (CI.spi E a s d ds cs ce per fp).map .inl
  | .fitGamma s ds cs ce per => ((scaleValues a s per >>= fun v => gammaParameters E v ds cs ce per) : Res _).map
      fun ab => .inr [("alpha", some ab.1), ("beta", some ab.2)]
  | .fitPearson s ds cs ce per => ((scaleValues a s per >>= fun v => pearsonParameters (lmomentsFit E) v ds cs ce per) : Res _).map fun ps => .inr (pearsonDict ps)
  | .pet lat y => (CI.pet T a lat y).map .inl

/-- the array has no values that the call would overwrite -/
def Call.Harmless (a : Arr F) : Call F → Prop
  | .spi s d _ _ _ per _ => d = .gamma → s = 1 → InPlace a per → ∀ v ∈ a.data, feq v (lit 0) = false
  | .fitGamma s _ _ _ per => s = 1 → InPlace a per → ∀ v ∈ a.data, feq v (lit 0) = false
  | .fitPearson .. => True
  | .pet _ _ => WholeYears a → ∀ v ∈ a.data, flt v (lit 0) = false

omit [FloatLaws F] in
theorem zerosMissing_id (a : Arr F) (h : ∀ v ∈ a.data, feq v (lit 0) = false) : zerosMissing a = a := by
  obtain ⟨sh, d⟩ := a
  unfold zerosMissing
  simp only [Arr.mk.injEq, true_and]
  conv_rhs => rw [← List.map_id d]
  apply List.map_congr_left
  intro v hv; simp [h v hv]

omit [FloatLaws F] in
theorem frostZero_id (a : Arr F) (h : ∀ v ∈ a.data, flt v (lit 0) = false) : frostZero a = a := by
  obtain ⟨sh, d⟩ := a
  unfold frostZero
  simp only [Arr.mk.injEq, true_and]
  conv_rhs => rw [← List.map_id d]
  apply List.map_congr_left
  intro v hv; simp [h v hv]

omit [FloatOps F] [FloatLaws F] in
theorem ex_lengthH {h0 h' : Heap F} (ex : Heap F) (w : Bool) (c : Nat) (d : List F) (he : h' = (if w then h0.set c d else h0) ++ ex) : h0.length ≤ h'.length := by
  subst he; cases w <;> simp

/-- one call: its answer is the answer on the current contents, and the contents stay or are changed as described -/
theorem Call.run_spec (E : Ext F) (T : Trig F) (h0 : Heap F) (r : Ref) (hr : r.buf < h0.length) (hwf : (h0.arr r).WF) (c : Call F) :
    (c.run E T r h0).1 = c.alone E T (h0.arr r) ∧ OthersKept r.buf h0 (c.run E T r h0).2 ∧ h0.length ≤ (c.run E T r h0).2.length ∧
      (c.Harmless (h0.arr r) → (c.run E T r h0).2.arr r = h0.arr r) := by
  cases c with
  | spi s d ds cs ce per fp =>
    obtain ⟨res, h', h1, h2, ex, h3⟩ := spiH_spec E h0 r _ rfl hr hwf s d ds cs ce per fp
    simp only [Call.run, Call.alone, h1]
    refine ⟨?_, others_of_eq _ _ _ _ _ _ h3, ex_lengthH _ _ _ _ h3, ?_⟩
    · rw [← h2]; cases res <;> rfl
    · intro hH
      rw [arr_of_eq _ _ _ r hr _ _ h3]
      cases hw : spiWrites (h0.arr r) s d per fp with
      | false => rfl
      | true =>
        obtain ⟨w1, w2, w3, _⟩ := (spiWrites_iff _ _ _ _ _).1 hw
        exact zerosMissing_id _ (hH w1 w2 w3)
  | fitGamma s ds cs ce per =>
    obtain ⟨h', h1, ex, h3⟩ := fitGammaH_spec E h0 r _ rfl hr hwf s ds cs ce per
    simp only [Call.run, Call.alone, h1]
    refine ⟨?_, others_of_eq _ _ _ _ _ _ h3, ex_lengthH _ _ _ _ h3, ?_⟩
    · unfold fitGammaVal
      cases scaleValues (h0.arr r) s per with
      | error e => rfl
      | ok v =>
        simp only [bind, Except.bind]
        cases gammaParameters E v ds cs ce per <;> rfl
    · intro hH
      rw [arr_of_eq _ _ _ r hr _ _ h3]
      cases hw : fitWrites (h0.arr r) s per with
      | false => rfl
      | true =>
        obtain ⟨w1, w2⟩ := (fitWrites_iff _ _ _).1 hw
        exact zerosMissing_id _ (hH w1 w2)
  | fitPearson s ds cs ce per =>
    obtain ⟨h', h1, ex, h3⟩ := fitPearsonH_spec E h0 r _ rfl hwf s ds cs ce per
    have h3' : h' = (if false then h0.set r.buf [] else h0) ++ ex := by simpa using h3
    simp only [Call.run, Call.alone, h1]
    refine ⟨?_, others_of_eq _ _ _ _ _ _ h3', ex_lengthH _ _ _ _ h3', fun _ => arr_of_eq _ _ _ r hr _ _ h3'⟩
    unfold fitPearsonVal
    cases scaleValues (h0.arr r) s per with
    | error e => rfl
    | ok v =>
      simp only [bind, Except.bind]
      cases pearsonParameters (lmomentsFit E) v ds cs ce per <;> rfl
  | pet lat y =>
    obtain ⟨res, h', h1, h2, h3⟩ := petH_spec T h0 r _ rfl hr hwf lat y
    simp only [Call.run, Call.alone, h1]
    have h4 : ∃ w d ex, h' = (if w then h0.set r.buf d else h0) ++ ex ∧ (w = true → WholeYears (h0.arr r) ∧ d = (frostZero (h0.arr r)).data) := by
      rcases h3 with ⟨ex, h3⟩ | ⟨hw, ex, h3⟩
      · exact ⟨false, [], ex, by simpa using h3, by simp⟩
      · exact ⟨true, (frostZero (h0.arr r)).data, ex, by rw [if_pos rfl]; exact h3, fun _ => ⟨(etoWrites_iff _).1 hw, rfl⟩⟩
    obtain ⟨w, d, ex, h4, h5⟩ := h4
    refine ⟨?_, others_of_eq _ _ _ _ _ _ h4, ex_lengthH _ _ _ _ h4, ?_⟩
    · rw [← h2]; cases res <;> rfl
    · intro hH
      rw [arr_of_eq _ _ _ r hr _ _ h4]
      cases hw : w with
      | false => rfl
      | true =>
        obtain ⟨w1, w2⟩ := h5 hw
        rw [w2]
        exact frostZero_id _ (hH w1)

/-- **C19, all sequences of calls** (`_partial`: only for calls that find no value to overwrite, see `Call.Harmless`). However `spi`, `scale_values` with
`gamma_parameters` or `pearson_parameters`, and `pet` are called one after the other on the same array, every answer is the one the call gives when made alone on a
fresh copy, and at the end neither the array nor any other array of the caller has changed. -/
theorem C19_sequence_partial (E : Ext F) (T : Trig F) (r : Ref) (calls : List (Call F)) (h0 : Heap F) (hr : r.buf < h0.length) (hwf : (h0.arr r).WF)
    (hH : ∀ c ∈ calls, c.Harmless (h0.arr r)) :
    (runCalls E T r calls h0).1 = calls.map (fun c => c.alone E T (h0.arr r)) ∧ (runCalls E T r calls h0).2.arr r = h0.arr r ∧
      ∀ j, j < h0.length → (runCalls E T r calls h0).2[j]? = h0[j]? := by
  induction calls generalizing h0 with
  | nil => exact ⟨rfl, rfl, fun _ _ => rfl⟩
  | cons c cs ih =>
    obtain ⟨s1, s2, s3, s4⟩ := Call.run_spec E T h0 r hr hwf c
    have s4 := s4 (hH c (by simp))
    obtain ⟨i1, i2, i3⟩ := ih (c.run E T r h0).2 (by omega) (by rw [s4]; exact hwf) (by rw [s4]; exact fun c' hc' => hH c' (by simp [hc']))
    simp only [runCalls]
    refine ⟨by rw [s1, i1, s4]; rfl, by rw [i2, s4], ?_⟩
    intro j hj
    rw [i3 j (by omega)]
    by_cases hjr : j = r.buf
    · subst hjr
      have e := congrArg Arr.data s4
      unfold Heap.arr at e
      simp only [List.getD] at e
      have h1 : r.buf < (c.run E T r h0).2.length := by omega
      rw [List.getElem?_eq_getElem h1, List.getElem?_eq_getElem hr] at e ⊢
      simpa using e
    · exact s2 j hj hjr

omit [FloatLaws F] in
theorem zeroNegative_idem [FloatLaws F] (x : F) : zeroNegative (zeroNegative x) = zeroNegative x := by
  unfold zeroNegative
  by_cases h : flt x (lit 0) = true
  · have : flt (lit 0 : F) (lit 0) = false := by
      rw [← Bool.not_eq_true, FloatLaws.flt_iff]; rintro ⟨a, b⟩; rw [a] at b; cases b
    simp [h, this]
  · simp [h]

theorem pet_frostZero (T : Trig F) (a : Arr F) (lat : Option F) (y : Int) : pet T (frostZero a) lat y = pet T a lat y := by
  obtain ⟨sh, d⟩ := a
  show pet T ⟨sh, d.map zeroNegative⟩ lat y = _
  have hnn : ∀ v : F, isNan (zeroNegative v) = isNan v := by
    intro v
    unfold zeroNegative
    split
    · rename_i h
      have hv : v ≠ nan := by
        rintro rfl
        rw [FloatLaws.flt_iff, FloatLaws.fle_nan_left] at h; cases h.1
      rw [isNan_lit, (isNan_eq_false_iff v).2 hv]
    · rfl
  have hall : allNan (d.map zeroNegative) = allNan d := by
    unfold allNan
    rw [List.all_map]
    congr 1
    funext v; exact hnn v
  have hid : (d.map zeroNegative).map zeroNegative = d.map zeroNegative := by
    rw [List.map_map]; congr 1; funext v; exact zeroNegative_idem v
  have eto : ∀ x, etoThornthwaite T ⟨sh, d.map zeroNegative⟩ x y = etoThornthwaite T ⟨sh, d⟩ x y := by
    intro x
    have key : ∀ s2 : Arr F, reshapeTo2d ⟨sh, d⟩ 12 = .ok s2 → ∃ s1 : Arr F, reshapeTo2d ⟨sh, d.map zeroNegative⟩ 12 = .ok s1 ∧
        s1.data.map zeroNegative = s2.data.map zeroNegative := by
      intro s2 h
      unfold reshapeTo2d at h ⊢
      match sh with
      | [] => cases h
      | [n] =>
        simp only at h ⊢
        rw [if_neg (by norm_num)] at h ⊢
        split at h
        · rename_i hn
          rw [if_pos hn]
          injection h with h
          subst h
          refine ⟨_, rfl, ?_⟩
          simp only [List.map_append, hid]
        · rename_i hn
          rw [if_neg hn]
          injection h with h
          subst h
          exact ⟨_, rfl, hid⟩
      | [n, c] =>
        simp only at h ⊢
        split at h
        · rename_i hn
          rw [if_pos hn]
          injection h with h
          subst h
          exact ⟨_, rfl, hid⟩
        · cases h
      | _ :: _ :: _ :: _ => cases h
    have keyE : ∀ e, reshapeTo2d ⟨sh, d⟩ 12 = .error e → reshapeTo2d ⟨sh, d.map zeroNegative⟩ 12 = .error e := by
      intro e h
      unfold reshapeTo2d at h ⊢
      match sh with
      | [] => exact h
      | [n] =>
        simp only at h ⊢
        rw [if_neg (by norm_num)] at h
        split at h <;> cases h
      | [n, c] =>
        simp only at h ⊢
        split at h
        · cases h
        · rename_i hn; rw [if_neg hn]; exact h
      | _ :: _ :: _ :: _ => exact h
    unfold etoThornthwaite
    cases h : reshapeTo2d ⟨sh, d⟩ 12 with
    | error e => rw [keyE e h]; rfl
    | ok s2 =>
      obtain ⟨s1, h1, h2⟩ := key s2 h
      rw [h1]
      simp only [bind, Except.bind, h2, List.length_map]
  unfold pet
  simp only [hall]
  cases hn : allNan d with
  | true =>
    simp only [if_true]
    congr 1
    conv_rhs => rw [← List.map_id d]
    apply List.map_congr_left
    intro v hv
    have : v = nan := (FloatLaws.isNan_iff v).1 (List.all_eq_true.1 hn v hv)
    subst this
    unfold zeroNegative
    split
    · rename_i h
      rw [FloatLaws.flt_iff, FloatLaws.fle_nan_left] at h; cases h.1
    · rfl
  | false =>
    simp only [Bool.false_eq_true, if_false]
    cases lat with
    | none => rfl
    | some x => simp only [eto]

/-- **C19, answers of repeated `pet` calls.** Although `pet` may overwrite the caller's temperatures, any sequence of `pet` calls on the same array gives the answers
of fresh calls (no hypothesis on the array). -/
theorem C19_pet_answers (E : Ext F) (T : Trig F) (r : Ref) (qs : List (Option F × Int)) (h0 : Heap F) (hr : r.buf < h0.length) (hwf : (h0.arr r).WF) :
    (runCalls E T r (qs.map fun q => .pet q.1 q.2) h0).1 = qs.map (fun q => (pet T (h0.arr r) q.1 q.2).map .inl) := by
  have gen : ∀ (qs : List (Option F × Int)) (h : Heap F) (a : Arr F), r.buf < h.length → (h.arr r).WF → (h.arr r = a ∨ h.arr r = frostZero a) →
      (runCalls E T r (qs.map fun q => .pet q.1 q.2) h).1 = qs.map (fun q => (pet T a q.1 q.2).map .inl) := by
    intro qs
    induction qs with
    | nil => intros; rfl
    | cons q qs ih =>
      intro h a hb hw ha
      obtain ⟨s1, _, s3, _⟩ := Call.run_spec E T h r hb hw (.pet q.1 q.2)
      obtain ⟨res, h', h1, _, _, h4⟩ := C19_pet_partial T h r hb hw q.1 q.2
      have hst : (Call.run E T r (.pet q.1 q.2) h).2 = h' := by simp only [Call.run, h1]
      have hff : frostZero (frostZero a) = frostZero a := by
        unfold frostZero
        simp only [Arr.mk.injEq, true_and, List.map_map]
        congr 1; funext v; exact zeroNegative_idem v
      have ha' : h'.arr r = a ∨ h'.arr r = frostZero a := by
        rcases h4 with h4 | ⟨_, h4⟩
        · rw [h4]; exact ha
        · rw [h4]
          rcases ha with ha | ha
          · rw [ha]; exact Or.inr rfl
          · rw [ha]; exact Or.inr hff
      have hw' : (h'.arr r).WF := by
        rcases h4 with h4 | ⟨_, h4⟩
        · rw [h4]; exact hw
        · rw [h4]; unfold Arr.WF frostZero at *; simpa using hw
      rw [hst] at s3
      have := ih h' a (by omega) hw' ha'
      simp only [List.map_cons, runCalls, hst, this, s1, Call.alone]
      congr 2
      rcases ha with ha | ha
      · rw [ha]
      · rw [ha, pet_frostZero]
  exact gen qs h0 _ hr hwf (Or.inl rfl)

/-! ## C19 fails -/

/-- **C19 is false for `spi`**: whenever a flat series of whole years with a zero (and no clipped copy) is passed with scale 1 and the gamma distribution, the array
of the caller is different afterwards. -/
theorem C19_spi_fails (E : Ext F) (h0 : Heap F) (r : Ref) (hr : r.buf < h0.length) (hwf : (h0.arr r).WF) (ds cs ce : Int) (per : Periodicity)
    (hin : InPlace (h0.arr r) per) (hz : ∃ v ∈ (h0.arr r).data, feq v (lit 0) = true) :
    (spiH E r 1 .gamma ds cs ce per none h0).2.arr r ≠ h0.arr r := by
  obtain ⟨res, h', h1, _, _, _, h5⟩ := C19_spi_partial E h0 r hr hwf 1 .gamma ds cs ce per none
  rw [h1]
  have := h5 ⟨rfl, rfl, hin, by intro D hD; cases hD⟩
  intro hc
  simp only at hc
  rw [this] at hc
  obtain ⟨v, hv, hz⟩ := hz
  have e := congrArg Arr.data hc
  unfold zerosMissing at e
  simp only at e
  obtain ⟨i, hi, hvi⟩ := List.getElem_of_mem hv
  have := congrArg (fun l => l[i]?) e
  simp only [List.getElem?_map, List.getElem?_eq_getElem hi, Option.map_some, hvi, hz, if_true, Option.some.injEq] at this
  rw [← this, FloatLaws.feq_iff, FloatLaws.fle_nan_left] at hz
  cases hz.1

/-- **C19 is false for `eto_thornthwaite`**: a negative temperature in an array of whole years is always overwritten. -/
theorem C19_eto_fails (T : Trig F) (h0 : Heap F) (r : Ref) (hr : r.buf < h0.length) (hwf : (h0.arr r).WF) (lat : F) (y : Int) (hy : WholeYears (h0.arr r))
    (hz : ∃ v ∈ (h0.arr r).data, flt v (lit 0) = true) : (etoThornthwaiteH T r lat y h0).2.arr r ≠ h0.arr r := by
  obtain ⟨res, h', h1, _, _, _, h5⟩ := C19_eto_partial T h0 r hr hwf lat y
  rw [h1]
  have := h5 hy
  intro hc
  simp only at hc
  rw [this] at hc
  obtain ⟨v, hv, hz⟩ := hz
  have e := congrArg Arr.data hc
  unfold frostZero at e
  simp only at e
  obtain ⟨i, hi, hvi⟩ := List.getElem_of_mem hv
  have := congrArg (fun l => l[i]?) e
  simp only [List.getElem?_map, List.getElem?_eq_getElem hi, Option.map_some, hvi, hz, if_true, Option.some.injEq] at this
  rw [← this, FloatLaws.flt_iff] at hz
  rw [hz.1] at hz
  cases hz.2

/-! ## C54: one run of the SPI tool over several scales and distributions -/

theorem zerosMissing_idem (a : Arr F) : zerosMissing (zerosMissing a) = zerosMissing a := by
  show (⟨a.shape, (a.data.map zeroToNan).map zeroToNan⟩ : Arr F) = ⟨a.shape, a.data.map zeroToNan⟩
  rw [zeroToNan_map_idem]

omit [FloatLaws F] in
theorem zerosMissing_WF (a : Arr F) (h : a.WF) : (zerosMissing a).WF := by
  unfold Arr.WF zerosMissing at *; simpa using h

/-- SPI of the overwritten series with the parameters fitted before the overwriting -/
theorem spi_after_fit (E : Ext F) (hE : ExtNan E) (a : Arr F) (per : Periodicity) (ds cs ce : Int) (hw : fitWrites a 1 per = true) (fp : FitDict F)
    (hfp : fitGammaVal E a 1 ds cs ce per = .ok fp) :
    spi E (zerosMissing a) 1 .gamma ds cs ce per (some fp) = spi E (zerosMissing a) 1 .gamma ds cs ce per none := by
  have hw' := hw
  unfold fitWrites stays at hw
  simp only [Bool.and_eq_true, Bool.not_eq_true', decide_eq_true_eq] at hw
  obtain ⟨hn, ⟨⟨g0, g1⟩, _⟩, g3⟩ := hw
  have hzd : (zerosMissing a).data = a.data.map zeroToNan := rfl
  cases hnm : allNan (zerosMissing a).data with
  | true =>
    unfold spi
    simp only [hnm, if_true]
  | false =>
    have hc1 : clipNeg a.data = a.data := clipNeg_of_not_clips _ g1
    have hc2 : clipNeg (zerosMissing a).data = (zerosMissing a).data := clipNeg_of_not_clips _ (clips_zeroToNan _ g1)
    have hs : ∀ l : List F, sumToScale l 1 = .ok l := by intro l; unfold sumToScale; simp
    have e1 : scaleValues a 1 per = reshapeValues (Arr.of1d a.data) per := by
      rw [scaleValues_shape a 1 per (Or.inr g0) hn, hc1, hs]; rfl
    have e2 : scaleValues (zerosMissing a) 1 per = reshapeValues (Arr.of1d (a.data.map zeroToNan)) per := by
      rw [scaleValues_shape _ 1 per (Or.inr (by exact g0)) hnm, hc2, hs, hzd]; rfl
    unfold fitGammaVal at hfp
    rw [e1] at hfp
    cases hr1 : reshapeValues (Arr.of1d a.data) per with
    | error e => rw [hr1] at hfp; cases hfp
    | ok b =>
      obtain ⟨hper, n, hsh, hlen, hdata⟩ := reshapeValues_ok _ per b hr1
      obtain ⟨sh, d⟩ := b
      simp only at hsh hdata
      subst hsh
      have hp0 : padCount a.data.length per.steps = 0 := by unfold padCount; simp [g3]
      rw [hp0] at hdata
      simp only [List.replicate_zero, List.append_nil] at hdata
      subst hdata
      rw [hr1] at hfp
      have hr2 : reshapeValues (Arr.of1d (a.data.map zeroToNan)) per = .ok ⟨[n, per.steps], a.data.map zeroToNan⟩ := by
        cases per with
        | other => exact absurd rfl hper
        | monthly =>
          unfold reshapeValues at hr1 ⊢
          simp only at hr1 ⊢
          rw [reshapeTo2d_of1d _ 12 (by norm_num)] at hr1 ⊢
          simp only [Periodicity.steps] at hp0 hr1 ⊢
          simp only [List.length_map, hp0, List.replicate_zero, List.append_nil, Except.ok.injEq, Arr.mk.injEq] at hr1 ⊢
          exact ⟨hr1.1, trivial⟩
        | daily =>
          unfold reshapeValues at hr1 ⊢
          simp only at hr1 ⊢
          rw [reshapeTo2d_of1d _ 366 (by norm_num)] at hr1 ⊢
          simp only [Periodicity.steps] at hp0 hr1 ⊢
          simp only [List.length_map, hp0, List.replicate_zero, List.append_nil, Except.ok.injEq, Arr.mk.injEq] at hr1 ⊢
          exact ⟨hr1.1, trivial⟩
      have hsteps := steps_12_366 per hper
      have hg : gammaParameters E ⟨[n, per.steps], a.data.map zeroToNan⟩ ds cs ce per = gammaParameters E ⟨[n, per.steps], a.data⟩ ds cs ce per := by
        rw [gammaParameters_fitArr E n _ (a.data.map zeroToNan) ds cs ce per hsteps hnm, gammaParameters_fitArr E n _ _ ds cs ce per hsteps hn, zeroToNan_map_idem]
      cases hgp : gammaParameters E ⟨[n, per.steps], a.data⟩ ds cs ce per with
      | error e =>
        simp only [bind, Except.bind, hgp] at hfp; cases hfp
      | ok ab =>
        simp only [bind, Except.bind, hgp, pure, Except.pure, Except.ok.injEq] at hfp
        subst hfp
        exact C18_gamma E hE _ _ 1 ds cs ce per ab.1 ab.2 (e2.trans hr2) (hg.trans hgp)

/-- the contents of the precipitation series after the pairs `ps` have been processed -/
noncomputable def seriesAfter (a : Arr F) (per : Periodicity) (ps : List (Int × Distribution)) : Arr F :=
  open Classical in if (1, Distribution.gamma) ∈ ps ∧ InPlace a per then zerosMissing a else a

theorem inPlace_iff (a : Arr F) (per : Periodicity) : InPlace a per ↔ fitWrites a 1 per = true := by
  rw [fitWrites_iff]; simp

theorem batchStep_spec (E : Ext F) (hE : ExtNan E) (h0 : Heap F) (r : Ref) (hr : r.buf < h0.length) (hwf : (h0.arr r).WF) (ds cs ce : Int) (per : Periodicity)
    (sd : Int × Distribution) :
    ∃ res h', batchStepH E r ds cs ce per sd h0 = (res, h') ∧ OthersKept r.buf h0 h' ∧ h0.length ≤ h'.length ∧
      ∀ out, res = .ok out → h'.arr r = (if sd.2 = .gamma ∧ fitWrites (h0.arr r) sd.1 per then zerosMissing (h0.arr r) else h0.arr r) ∧
        spi E (if sd.2 = .gamma ∧ fitWrites (h0.arr r) sd.1 per then zerosMissing (h0.arr r) else h0.arr r) sd.1 sd.2 ds cs ce per none = .ok out := by
  obtain ⟨scale, dist⟩ := sd
  -- the tail of the step: SPI with parameters `fp` on heap `h1`
  have tail : ∀ (h1 : Heap F) (fp : FitDict F) (a1 : Arr F), r.buf < h1.length → h1.arr r = a1 → a1.WF → OthersKept r.buf h0 h1 → h0.length ≤ h1.length →
      (spiWrites a1 scale dist per (some fp) = true → zerosMissing a1 = a1) →
      (spi E a1 scale dist ds cs ce per (some fp) = spi E a1 scale dist ds cs ce per none) →
      ∃ res h', (spiH E r scale dist ds cs ce per (some fp) >>= fun out => (do let a ← getArr out; pure a.data : H F (List F))) h1 = (res, h') ∧
        OthersKept r.buf h0 h' ∧ h0.length ≤ h'.length ∧ ∀ out, res = .ok out → h'.arr r = a1 ∧ spi E a1 scale dist ds cs ce per none = .ok out := by
    intro h1 fp a1 hb ha hw ho hl hz hspi
    obtain ⟨res, h', g1, g2, ex, g3⟩ := spiH_spec E h1 r a1 ha hb hw scale dist ds cs ce per (some fp)
    have ho' : OthersKept r.buf h0 h' := by
      intro j hj hne
      rw [others_of_eq _ _ _ _ _ _ g3 j (by omega) hne]
      exact ho j hj hne
    have hl' := ex_lengthH _ _ _ _ g3
    have harr : h'.arr r = a1 := by
      rw [arr_of_eq _ _ _ r hb _ _ g3]
      cases hw1 : spiWrites a1 scale dist per (some fp) with
      | false => exact ha
      | true =>
        have hsh : r.shape = a1.shape := by rw [← ha]; rfl
        rw [if_pos rfl, hsh]
        exact hz hw1
    cases res with
    | error e => exact ⟨.error e, h', H_bind_err g1, ho', by omega, by intro out h; cases h⟩
    | ok r' =>
      refine ⟨.ok (h'.arr r').data, h', by rw [H_bind_ok g1]; rfl, ho', by omega, ?_⟩
      intro out hout
      refine ⟨harr, ?_⟩
      rw [← hspi, ← g2]
      exact hout
  unfold batchStepH
  cases dist with
  | other => exact ⟨.error .valueError, h0, rfl, fun _ _ _ => rfl, le_refl _, by intro out h; cases h⟩
  | pearson =>
    simp only [reduceCtorEq, false_and, if_false]
    obtain ⟨h1, g1, ex, g3⟩ := fitPearsonH_spec E h0 r _ rfl hwf scale ds cs ce per
    have g3' : h1 = (if false then h0.set r.buf [] else h0) ++ ex := by simpa using g3
    cases hv : fitPearsonVal E (h0.arr r) scale ds cs ce per with
    | error e =>
      rw [hv] at g1
      exact ⟨.error e, h1, H_bind_err g1, others_of_eq _ _ _ _ _ _ g3', ex_lengthH _ _ _ _ g3', by intro out h; cases h⟩
    | ok fp =>
      rw [hv] at g1
      rw [H_bind_ok g1]
      have hl := ex_lengthH _ _ _ _ g3'
      refine tail h1 fp (h0.arr r) (by omega) (arr_of_eq _ _ _ r hr _ _ g3') hwf (others_of_eq _ _ _ _ _ _ g3') hl ?_ ?_
      · intro h; rw [spiWrites_iff] at h; cases h.1
      · unfold fitPearsonVal at hv
        cases hs : scaleValues (h0.arr r) scale per with
        | error e => rw [hs] at hv; cases hv
        | ok s =>
          rw [hs] at hv
          simp only [bind, Except.bind] at hv
          cases hp : pearsonParameters (lmomentsFit E) s ds cs ce per with
          | error e => rw [hp] at hv; cases hv
          | ok ps =>
            rw [hp] at hv
            simp only [pure, Except.pure, Except.ok.injEq] at hv
            subst hv
            exact C18_pearson E _ s scale ds cs ce per ps hs hp
  | gamma =>
    simp only [true_and]
    obtain ⟨h1, g1, ex, g3⟩ := fitGammaH_spec E h0 r _ rfl hr hwf scale ds cs ce per
    have hl := ex_lengthH _ _ _ _ g3
    have ho := others_of_eq _ _ _ _ _ _ g3
    have harr := arr_of_eq _ _ _ r hr _ _ g3
    cases hv : fitGammaVal E (h0.arr r) scale ds cs ce per with
    | error e =>
      rw [hv] at g1
      exact ⟨.error e, h1, H_bind_err g1, ho, hl, by intro out h; cases h⟩
    | ok fp =>
      rw [hv] at g1
      rw [H_bind_ok g1]
      cases hfw : fitWrites (h0.arr r) scale per with
      | true =>
        rw [hfw] at harr
        simp only [if_true] at harr ⊢
        have h1s : scale = 1 := ((fitWrites_iff _ _ _).1 hfw).1
        subst h1s
        exact tail h1 fp (zerosMissing (h0.arr r)) (by omega) harr (zerosMissing_WF _ hwf) ho hl (fun _ => zerosMissing_idem _)
          (spi_after_fit E hE _ per ds cs ce hfw fp hv)
      | false =>
        rw [hfw] at harr
        simp only [Bool.false_eq_true, if_false] at harr ⊢
        refine tail h1 fp (h0.arr r) (by omega) harr hwf ho hl ?_ ?_
        · intro h
          rw [spiWrites_iff] at h
          have := (fitWrites_iff (h0.arr r) scale per).2 ⟨h.2.1, h.2.2.1⟩
          rw [hfw] at this; cases this
        · unfold fitGammaVal at hv
          cases hs : scaleValues (h0.arr r) scale per with
          | error e => rw [hs] at hv; cases hv
          | ok s =>
            rw [hs] at hv
            simp only [bind, Except.bind] at hv
            cases hp : gammaParameters E s ds cs ce per with
            | error e => rw [hp] at hv; cases hv
            | ok ab =>
              rw [hp] at hv
              simp only [pure, Except.pure, Except.ok.injEq] at hv
              subst hv
              exact C18_gamma E hE _ s scale ds cs ce per ab.1 ab.2 hs hp

/-- **C54, what the tool writes** (`_partial`: the property is false when the replaced series is used). In a run over any sequence of (scale, distribution) pairs that
finishes, the output of every pair is the SPI (without given parameters) of the original series, or, if gamma at scale 1 has been processed up to and including this
pair and the series is overwritten in place, of the series with its zeros replaced by NaN. -/
theorem C54_partial (E : Ext F) (hE : ExtNan E) (r : Ref) (ds cs ce : Int) (per : Periodicity) (pairs : List (Int × Distribution)) (h0 h' : Heap F)
    (outs : List (List F)) (hr : r.buf < h0.length) (hwf : (h0.arr r).WF) (hrun : batchH E r ds cs ce per pairs h0 = (.ok outs, h')) :
    outs.length = pairs.length ∧ ∀ i sd, pairs[i]? = some sd → ∃ out, outs[i]? = some out ∧
      spi E (seriesAfter (h0.arr r) per (pairs.take (i + 1))) sd.1 sd.2 ds cs ce per none = .ok out := by
  have gen : ∀ (pairs : List (Int × Distribution)) (h : Heap F) (outs : List (List F)) (a : Arr F) (done : List (Int × Distribution)), a.WF →
      r.buf < h.length → h.arr r = seriesAfter a per done → batchH E r ds cs ce per pairs h = (.ok outs, h') →
      outs.length = pairs.length ∧ ∀ i sd, pairs[i]? = some sd → ∃ out, outs[i]? = some out ∧
        spi E (seriesAfter a per (done ++ pairs.take (i + 1))) sd.1 sd.2 ds cs ce per none = .ok out := by
    intro pairs
    induction pairs with
    | nil =>
      intro h outs a done _ _ _ hb
      have : outs = [] := by
        unfold batchH at hb
        injection hb with hb _
        injection hb with hb
        exact hb.symm
      subst this
      exact ⟨rfl, by intro i sd h; simp at h⟩
    | cons sd rest ih =>
      intro h outs a done hwa hbuf hcur hb
      have hwc : (h.arr r).WF := by
        rw [hcur]; unfold seriesAfter; split
        · exact zerosMissing_WF _ hwa
        · exact hwa
      obtain ⟨res, h1, g1, _, g3, g4⟩ := batchStep_spec E hE h r hbuf hwc ds cs ce per sd
      unfold batchH at hb
      cases res with
      | error e => rw [H_bind_err g1] at hb; cases hb
      | ok out =>
        rw [H_bind_ok g1] at hb
        obtain ⟨g5, g6⟩ := g4 out rfl
        have next : (if sd.2 = .gamma ∧ fitWrites (h.arr r) sd.1 per then zerosMissing (h.arr r) else h.arr r) = seriesAfter a per (done ++ [sd]) := by
          rw [hcur]
          by_cases hin : InPlace a per
          · by_cases hd : (1, Distribution.gamma) ∈ done
            · have e1 : seriesAfter a per done = zerosMissing a := by unfold seriesAfter; rw [if_pos ⟨hd, hin⟩]
              have e2 : seriesAfter a per (done ++ [sd]) = zerosMissing a := by unfold seriesAfter; rw [if_pos ⟨by simp [hd], hin⟩]
              rw [e1, e2, zerosMissing_idem]; simp
            · have e1 : seriesAfter a per done = a := by unfold seriesAfter; rw [if_neg (by tauto)]
              rw [e1]
              by_cases hsd : sd = (1, .gamma)
              · subst hsd
                have e2 : seriesAfter a per (done ++ [(1, .gamma)]) = zerosMissing a := by unfold seriesAfter; rw [if_pos ⟨by simp, hin⟩]
                rw [e2, if_pos ⟨rfl, (inPlace_iff _ _).1 hin⟩]
              · have e2 : seriesAfter a per (done ++ [sd]) = a := by
                  unfold seriesAfter
                  rw [if_neg]
                  simp only [List.mem_append, List.mem_singleton]
                  rintro ⟨h | h, _⟩
                  · exact hd h
                  · exact hsd h.symm
                rw [e2, if_neg]
                rintro ⟨k1, k2⟩
                obtain ⟨k3, _⟩ := (fitWrites_iff _ _ _).1 k2
                exact hsd (Prod.ext k3 k1)
          · have e1 : ∀ ps, seriesAfter a per ps = a := by intro ps; unfold seriesAfter; rw [if_neg (by tauto)]
            rw [e1, e1, if_neg]
            rintro ⟨_, k⟩
            exact hin ((fitWrites_iff _ _ _).1 k).2
        rw [next] at g5 g6
        cases hrest : batchH E r ds cs ce per rest h1 with
        | mk res2 h2 =>
          cases res2 with
          | error e => rw [H_bind_err hrest] at hb; cases hb
          | ok outs' =>
            rw [H_bind_ok hrest] at hb
            injection hb with hb hh
            injection hb with hb
            subst hb
            subst hh
            obtain ⟨i1, i2⟩ := ih h1 outs' a (done ++ [sd]) hwa (by omega) g5 hrest
            refine ⟨by simp [i1], ?_⟩
            intro i sd' hi
            cases i with
            | zero =>
              simp only [List.getElem?_cons_zero, Option.some.injEq] at hi
              subst hi
              exact ⟨out, rfl, by simpa using g6⟩
            | succ i =>
              simp only [List.getElem?_cons_succ] at hi ⊢
              obtain ⟨o, ho1, ho2⟩ := i2 i sd' hi
              exact ⟨o, ho1, by simpa using ho2⟩
  have := gen pairs h0 outs (h0.arr r) [] hwf hr (by unfold seriesAfter; simp) hrun
  simpa using this

/-- **C54 where it holds**: the scales do not contain 1, or the series has no zero, is not made of whole years, or is clipped. Then the output of the tool for every
scale and distribution is the SPI of the original series. -/
theorem C54_independent_partial (E : Ext F) (hE : ExtNan E) (r : Ref) (ds cs ce : Int) (per : Periodicity) (scales : List Int) (h0 h' : Heap F) (outs : List (List F))
    (hr : r.buf < h0.length) (hwf : (h0.arr r).WF) (hrun : batchH E r ds cs ce per (toolPairs scales) h0 = (.ok outs, h'))
    (hok : 1 ∉ scales ∨ (∀ v ∈ (h0.arr r).data, feq v (lit 0) = false) ∨ ¬ per.steps ∣ (h0.arr r).data.length ∨ Clipped (h0.arr r).data) :
    outs.length = 2 * scales.length ∧ ∀ k s, scales[k]? = some s → ∃ g p, outs[2 * k]? = some g ∧ outs[2 * k + 1]? = some p ∧
      spi E (h0.arr r) s .gamma ds cs ce per none = .ok g ∧ spi E (h0.arr r) s .pearson ds cs ce per none = .ok p := by
  obtain ⟨h1, h2⟩ := C54_partial E hE r ds cs ce per (toolPairs scales) h0 h' outs hr hwf hrun
  have len : ∀ l : List Int, (toolPairs l).length = 2 * l.length := by
    intro l
    induction l with
    | nil => rfl
    | cons x l ih => unfold toolPairs at ih ⊢; simp only [List.flatMap_cons, List.length_append, ih, List.length_cons, List.length_nil]; omega
  have get : ∀ (l : List Int) (k : Nat) (s : Int), l[k]? = some s → (toolPairs l)[2 * k]? = some (s, .gamma) ∧ (toolPairs l)[2 * k + 1]? = some (s, .pearson) := by
    intro l
    induction l with
    | nil => intro k s h; simp at h
    | cons x l ih =>
      intro k s h
      have e : toolPairs (x :: l) = (x, .gamma) :: (x, .pearson) :: toolPairs l := rfl
      rw [e]
      cases k with
      | zero => simp only [List.getElem?_cons_zero, Option.some.injEq] at h; subst h; exact ⟨rfl, rfl⟩
      | succ k =>
        simp only [List.getElem?_cons_succ] at h
        obtain ⟨i1, i2⟩ := ih k s h
        rw [show 2 * (k + 1) = 2 * k + 1 + 1 by ring]
        simp only [List.getElem?_cons_succ]
        exact ⟨i1, i2⟩
  have mem : (1, Distribution.gamma) ∈ toolPairs scales → 1 ∈ scales := by
    unfold toolPairs
    rw [List.mem_flatMap]
    rintro ⟨s, hs, hm⟩
    simp only [List.mem_cons, Prod.mk.injEq, and_true, reduceCtorEq, and_false, List.not_mem_nil, or_false] at hm
    rw [hm]; exact hs
  have same : ∀ i, seriesAfter (h0.arr r) per ((toolPairs scales).take i) = h0.arr r := by
    intro i
    unfold seriesAfter
    split
    · rename_i hc
      rcases hok with hk | hk | hk | hk
      · exact absurd (mem (List.mem_of_mem_take hc.1)) hk
      · exact zerosMissing_id _ hk
      · exact absurd hc.2.2.2.2 hk
      · exact absurd hk hc.2.2.2.1
    · rfl
  refine ⟨by rw [h1, len], ?_⟩
  intro k s hk
  obtain ⟨g1, g2⟩ := get scales k s hk
  obtain ⟨g, o1, o2⟩ := h2 _ _ g1
  obtain ⟨p, o3, o4⟩ := h2 _ _ g2
  rw [same] at o2 o4
  exact ⟨g, p, o1, o3, o2, o4⟩

end

/-! ## Concrete runs -/

/-- five years of months, some without rain -/
def dryMonths : List (Fl ℚ) := (List.range 60).map (fun i => .fin (((i * (i + 3)) % 17 : Nat) : ℚ))

/-- memory with the series and another array -/
def demoHeap : Heap (Fl ℚ) := [dryMonths, [.fin 7]]
def demoRef : Ref := ⟨0, [60]⟩

example : demoRef.buf < demoHeap.length ∧ (demoHeap.arr demoRef).WF ∧ InPlace (demoHeap.arr demoRef) .monthly ∧
    ∃ v ∈ (demoHeap.arr demoRef).data, feq v (lit 0) = true := by
  refine ⟨by decide, by unfold Arr.WF; decide +kernel, ⟨rfl, ⟨.fin 4, by decide +kernel, by decide⟩, ?_, by decide +kernel⟩, ⟨.fin 0, by decide +kernel, by decide +kernel⟩⟩
  rintro ⟨_, v, hv, h⟩
  have : ∀ v ∈ (demoHeap.arr demoRef).data, flt v (lit 0) = false := by decide +kernel
  rw [this v hv] at h; cases h

/-- **C19 fails**: the second call of `spi` with the same arguments on the same array gives a different answer. -/
theorem C19_answers_fails :
    let o1 := spiH toyExt demoRef 1 .gamma 1990 1990 1994 .monthly none demoHeap
    let o2 := spiH toyExt demoRef 1 .gamma 1990 1990 1994 .monthly none o1.2
    okAnd o1.1 (fun r1 => okAnd o2.1 (fun r2 => decide ((o1.2.arr r1).data ≠ (o2.2.arr r2).data))) = true := by
  decide +kernel

/-- **C54 fails**: in a run at scale 1 neither the gamma nor the Pearson output is the SPI of the original series, and the run at scales 1 and 2 does not
give the output for scale 2 that a run at scale 2 alone gives. -/
theorem C54_fails :
    okAnd (batchH toyExt demoRef 1990 1990 1994 .monthly (toolPairs [1, 2]) demoHeap).1 (fun outs =>
      okAnd (batchH toyExt demoRef 1990 1990 1994 .monthly (toolPairs [2]) demoHeap).1 (fun outs2 =>
        okAnd (spi toyExt (Arr.of1d dryMonths) 1 .gamma 1990 1990 1994 .monthly none) (fun g => decide (g ≠ outs.getD 0 [])) &&
        okAnd (spi toyExt (Arr.of1d dryMonths) 1 .pearson 1990 1990 1994 .monthly none) (fun p => decide (p ≠ outs.getD 1 [])) &&
        decide (outs.getD 2 [] ≠ outs2.getD 0 []) && decide (outs2.length = 2) && decide (outs.length = 4))) = true := by
  decide +kernel

/-- a run in which the property holds: the scales 2 and 3 -/
example : okAnd (batchH toyExt demoRef 1990 1990 1994 .monthly (toolPairs [2, 3]) demoHeap).1 (fun outs => decide (outs.length = 4)) = true := by
  decide +kernel

/-- harmless calls on the series: Pearson at scale 1, gamma at scale 3, and `pet` -/
example (E : Ext (Fl ℚ)) (T : Trig (Fl ℚ)) :
    (runCalls E T demoRef [.spi 1 .pearson 1990 1990 1994 .monthly none, .spi 3 .gamma 1990 1990 1994 .monthly none, .pet (some (.fin 40)) 1990] demoHeap).2.arr demoRef =
      ⟨[60], dryMonths⟩ := by
  refine (C19_sequence_partial E T demoRef _ demoHeap (by decide) (by unfold Arr.WF; decide +kernel) ?_).2.1
  intro c hc
  simp only [List.mem_cons, List.not_mem_nil, or_false] at hc
  rcases hc with rfl | rfl | rfl
  · intro h; cases h
  · intro _ h; norm_num at h
  · intro _; exact (by decide +kernel : ∀ v ∈ (demoHeap.arr demoRef).data, flt v (lit 0) = false)

/-- a year of temperatures with frost in January is overwritten, whatever the trigonometric functions -/
example (T : Trig (Fl ℚ)) : (etoThornthwaiteH T ⟨0, [12]⟩ (.fin 40) 2001 [[.fin (-3), .fin 1, .fin 5, .fin 9, .fin 14, .fin 18, .fin 21, .fin 20, .fin 15, .fin 9,
    .fin 4, .fin 0]]).2.arr ⟨0, [12]⟩ ≠ ⟨[12], [.fin (-3), .fin 1, .fin 5, .fin 9, .fin 14, .fin 18, .fin 21, .fin 20, .fin 15, .fin 9, .fin 4, .fin 0]⟩ :=
  C19_eto_fails T _ ⟨0, [12]⟩ (by decide) (by unfold Arr.WF; decide) _ _ (Or.inr ⟨12, rfl, by decide⟩) ⟨.fin (-3), by simp [Heap.arr], by decide +kernel⟩

end CI.Props
