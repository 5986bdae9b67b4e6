import Verif.Lemmas.SpiStage

/-!
# Lemmas about the SPI tool: one scale and distribution, and the loop over the scales
-/

namespace CI
open Spec CI.Props

variable {F : Type} [FloatOps F] [FloatLaws F]

/-! ## One series -/

/-- the series of a cell after the pairs `ps` have been processed -/
noncomputable def cellAfter (s : List F) (per : Periodicity) (ps : List (Int × Distribution)) : List F := (seriesAfter (Arr.of1d s) per ps).data

theorem cellAfter_nil (s : List F) (per : Periodicity) : cellAfter s per [] = s := by simp [cellAfter, seriesAfter, Arr.of1d]

theorem cellAfter_length (s : List F) (per : Periodicity) (ps : List (Int × Distribution)) : (cellAfter s per ps).length = s.length := by
  unfold cellAfter seriesAfter
  split <;> simp [zerosMissing, Arr.of1d]

theorem of1d_cellAfter (s : List F) (per : Periodicity) (ps : List (Int × Distribution)) : Arr.of1d (cellAfter s per ps) = seriesAfter (Arr.of1d s) per ps := by
  unfold cellAfter seriesAfter
  split <;> simp [zerosMissing, Arr.of1d]

theorem overwritten_of1d (b : Bool) (s : List F) : Arr.of1d (overwritten b s) = if b then zerosMissing (Arr.of1d s) else Arr.of1d s := by
  unfold overwritten
  cases b
  · simp
  · simp only [if_true, Arr.of1d, zerosMissing, List.length_map]
    rfl

theorem seriesAfter_step (a : Arr F) (per : Periodicity) (done : List (Int × Distribution)) (sd : Int × Distribution) :
    (if sd.2 = .gamma ∧ fitWrites (seriesAfter a per done) sd.1 per then zerosMissing (seriesAfter a per done) else seriesAfter a per done) =
      seriesAfter a per (done ++ [sd]) := by
  by_cases hin : InPlace a per
  · by_cases hd : (1, Distribution.gamma) ∈ done
    · have e1 : seriesAfter a per done = zerosMissing a := by unfold seriesAfter; rw [if_pos ⟨hd, hin⟩]
      have e2 : seriesAfter a per (done ++ [sd]) = zerosMissing a := by unfold seriesAfter; rw [if_pos ⟨by simp [hd], hin⟩]
      rw [e1, e2, zerosMissing_idem]; simp
    · have e1 : seriesAfter a per done = a := by unfold seriesAfter; rw [if_neg (by tauto)]
      rw [e1]
      by_cases hsd : sd = (1, .gamma)
      · subst hsd
        have e2 : seriesAfter a per (done ++ [(1, .gamma)]) = zerosMissing a := by unfold seriesAfter; rw [if_pos ⟨by simp, hin⟩]
        rw [e2, if_pos ⟨rfl, (inPlace_iff _ _).1 hin⟩]
      · have e2 : seriesAfter a per (done ++ [sd]) = a := by
          unfold seriesAfter
          rw [if_neg]
          simp only [List.mem_append, List.mem_singleton]
          rintro ⟨h | h, _⟩
          · exact hd h
          · exact hsd h.symm
        rw [e2, if_neg]
        rintro ⟨k1, k2⟩
        obtain ⟨k3, _⟩ := (fitWrites_iff _ _ _).1 k2
        exact hsd (Prod.ext k3 k1)
  · have e1 : ∀ ps, seriesAfter a per ps = a := by intro ps; unfold seriesAfter; rw [if_neg (by tauto)]
    rw [e1, e1, if_neg]
    rintro ⟨_, k⟩
    exact hin ((fitWrites_iff _ _ _).1 k).2

theorem cellAfter_step (s : List F) (per : Periodicity) (done : List (Int × Distribution)) (scale : Int) (dist : Distribution) :
    overwritten (fitOverwrites dist (cellAfter s per done) scale per) (cellAfter s per done) = cellAfter s per (done ++ [(scale, dist)]) := by
  have h := congrArg Arr.data (seriesAfter_step (Arr.of1d s) per done (scale, dist))
  have e := congrArg Arr.data (overwritten_of1d (fitOverwrites dist (cellAfter s per done) scale per) (cellAfter s per done))
  unfold cellAfter at *
  rw [← h]
  refine e.trans ?_
  have e2 := of1d_cellAfter s per done
  unfold cellAfter at e2
  rw [e2]
  unfold fitOverwrites
  rw [e2]
  simp

/-- SPI with the parameters just fitted is SPI without given parameters, and changes the series no further -/
theorem spi_fitted (E : Ext F) (hE : ExtNan E) (s : List F) (scale ds cs ce : Int) (per : Periodicity) (dist : Distribution) (fp : FitDict F)
    (hf : fitVal E dist s scale ds cs ce per = .ok fp) (t : List F) (ht : t = overwritten (fitOverwrites dist s scale per) s) :
    spi E (Arr.of1d t) scale dist ds cs ce per (some fp) = spi E (Arr.of1d t) scale dist ds cs ce per none ∧
      overwritten (spiWrites (Arr.of1d t) scale dist per (some fp)) t = t := by
  subst ht
  cases dist with
  | other => cases hf
  | pearson =>
    simp only [fitOverwrites, reduceCtorEq, decide_false, Bool.false_and, overwritten, Bool.false_eq_true, if_false]
    constructor
    · simp only [fitVal, fitPearsonVal] at hf
      obtain ⟨x, h1, hf⟩ := Res.bind_ok hf
      obtain ⟨ps, h2, hf⟩ := Res.bind_ok hf
      cases hf
      exact C18_pearson E _ x scale ds cs ce per ps h1 h2
    · rw [if_neg]
      intro h
      rw [spiWrites_iff] at h
      cases h.1
  | gamma =>
    simp only [fitVal] at hf
    cases hw : fitWrites (Arr.of1d s) scale per with
    | true =>
      have h1 : scale = 1 := ((fitWrites_iff _ _ _).1 hw).1
      subst h1
      have e : fitOverwrites .gamma s 1 per = true := by simp [fitOverwrites, hw]
      rw [e]
      constructor
      · rw [overwritten_of1d, if_pos rfl]
        exact spi_after_fit E hE _ per ds cs ce hw fp hf
      · unfold overwritten
        rw [if_pos rfl]
        split
        · exact zeroToNan_map_idem _
        · rfl
    | false =>
      have e : fitOverwrites .gamma s scale per = false := by simp [fitOverwrites, hw]
      rw [e]
      simp only [overwritten, Bool.false_eq_true, if_false]
      constructor
      · unfold fitGammaVal at hf
        obtain ⟨x, h1, hf⟩ := Res.bind_ok hf
        obtain ⟨ab, h2, hf⟩ := Res.bind_ok hf
        cases hf
        exact C18_gamma E hE _ x scale ds cs ce per ab.1 ab.2 h1 h2
      · rw [if_neg]
        intro h
        rw [spiWrites_iff] at h
        have := (fitWrites_iff (Arr.of1d s) scale per).2 ⟨h.2.1, h.2.2.1⟩
        rw [hw] at this
        cases this

omit [FloatLaws F] in
/-- a series of the scaled values is either all missing or in years -/
theorem scaleValues_1d {s : List F} {scale : Int} {per : Periodicity} {x : Arr F} (h : scaleValues (Arr.of1d s) scale per = .ok x) :
    (allNan x.data = true ∧ x = Arr.of1d s) ∨ ∃ n, x.shape = [n, per.steps] ∧ per ≠ .other := by
  cases hn : allNan s with
  | true =>
    left
    unfold scaleValues at h
    simp only [Arr.of1d, List.length_singleton, or_true, if_true, hn] at h
    cases h
    exact ⟨hn, rfl⟩
  | false =>
    right
    obtain ⟨_, y, _, h2⟩ := scaleValues_eq _ scale per x hn h
    obtain ⟨h3, n, h4, _⟩ := reshapeValues_ok y per x h2
    exact ⟨n, h4, h3⟩

omit [FloatLaws F] in
theorem gammaParameters_length {E : Ext F} {s : List F} {scale ds cs ce : Int} {per : Periodicity} {x : Arr F} {ab : List F × List F} (hx : scaleValues (Arr.of1d s) scale per = .ok x)
    (h : gammaParameters E x ds cs ce per = .ok ab) : ab.1.length = per.steps ∧ ab.2.length = per.steps ∧ per ≠ .other := by
  unfold gammaParameters at h
  split at h
  · cases per <;> simp only at h <;> cases h <;> refine ⟨List.length_replicate, List.length_replicate, by simp⟩
  · next hn =>
    rcases scaleValues_1d hx with ⟨h1, _⟩ | ⟨n, h1, h2⟩
    · exact absurd h1 hn
    · obtain ⟨y, hy, h'⟩ := Res.bind_ok h
      have : y = x := by
        unfold validateArray at hy
        rw [h1] at hy
        simp only at hy
        split at hy <;> cases hy
        rfl
      subst this
      obtain ⟨ysh, yd⟩ := y
      simp only at h1
      subst h1
      cases h'
      simp [h2]

omit [FloatLaws F] in
theorem pearsonParameters_length {E : Ext F} {s : List F} {scale ds cs ce : Int} {per : Periodicity} {x : Arr F} {ps : List (PearsonParams F)}
    (hx : scaleValues (Arr.of1d s) scale per = .ok x) (h : pearsonParameters (lmomentsFit E) x ds cs ce per = .ok ps) : ps.length = per.steps ∧ per ≠ .other := by
  unfold pearsonParameters at h
  obtain ⟨y, hy, h⟩ := Res.bind_ok h
  obtain ⟨p, hp, h⟩ := Res.bind_ok h
  have key : per ≠ .other ∧ ∃ n, y.shape = [n, per.steps] := by
    rcases scaleValues_1d hx with ⟨_, rfl⟩ | ⟨n, h1, h2⟩
    · obtain ⟨h3, n, h4, _⟩ := reshapeValues_ok s per y hy
      exact ⟨h3, n, h4⟩
    · refine ⟨h2, n, ?_⟩
      unfold reshapeValues reshapeTo2d at hy
      rw [h1] at hy
      cases per with
      | other => exact absurd rfl h2
      | monthly => simp only [Periodicity.steps, if_true] at hy; cases hy; exact h1
      | daily => simp only [Periodicity.steps, if_true] at hy; cases hy; exact h1
  obtain ⟨h3, n, h4⟩ := key
  unfold validateValuesShape at hp
  obtain ⟨ysh, yd⟩ := y
  simp only at h4
  subst h4
  simp only at hp h
  split at hp
  · cases hp
    rw [mapM_len h, List.length_range]
    exact ⟨rfl, h3⟩
  · cases hp

omit [FloatOps F] [FloatLaws F] in
theorem assign_long {p m : Nat} {s t : List F} (h : assignSeries p s = .ok t) (hs : s.length = m) (hm : m = 12 ∨ m = 366) : p = m ∧ t = s := by
  unfold assignSeries at h
  split at h
  · next e => cases h; exact ⟨by omega, rfl⟩
  · split at h
    · simp at hs; omega
    · cases h

omit [FloatLaws F] in
/-- the parameters of a series keep their values when they are stored -/
theorem fit_stored {E : Ext F} {s : List F} {scale ds cs ce : Int} {per : Periodicity} {dist : Distribution} {fp : FitDict F} (hf : fitVal E dist s scale ds cs ce per = .ok fp) {p : Nat}
    {ps : List (List F)} (h : fp.mapM (fun kv => assignSeries p (kv.2.getD [])) = .ok ps) : p = per.steps ∧ (distVars dist).zip (ps.map some) = fp := by
  cases dist with
  | other => cases hf
  | gamma =>
    simp only [fitVal, fitGammaVal] at hf
    obtain ⟨x, h1, hf⟩ := Res.bind_ok hf
    obtain ⟨ab, h2, hf⟩ := Res.bind_ok hf
    cases hf
    obtain ⟨l1, l2, hper⟩ := gammaParameters_length h1 h2
    have hst := steps_12_366 per hper
    rw [List.mapM_cons] at h
    obtain ⟨y1, k1, h⟩ := Res.bind_ok h
    rw [List.mapM_cons] at h
    obtain ⟨r, h, h'⟩ := Res.bind_ok h
    obtain ⟨y2, k2, h⟩ := Res.bind_ok h
    cases h
    cases h'
    obtain ⟨rfl, e1⟩ := assign_long k1 l1 hst
    obtain ⟨_, e2⟩ := assign_long k2 l2 hst
    subst e1 e2
    exact ⟨rfl, rfl⟩
  | pearson =>
    simp only [fitVal, fitPearsonVal] at hf
    obtain ⟨x, h1, hf⟩ := Res.bind_ok hf
    obtain ⟨qs, h2, hf⟩ := Res.bind_ok hf
    cases hf
    obtain ⟨l1, hper⟩ := pearsonParameters_length h1 h2
    have hst := steps_12_366 per hper
    unfold pearsonDict at h ⊢
    rw [List.mapM_cons] at h
    obtain ⟨y1, k1, h⟩ := Res.bind_ok h
    rw [List.mapM_cons] at h
    obtain ⟨r, h, h'⟩ := Res.bind_ok h
    obtain ⟨y2, k2, h⟩ := Res.bind_ok h
    rw [List.mapM_cons] at h
    obtain ⟨r2, h, h2'⟩ := Res.bind_ok h
    obtain ⟨y3, k3, h⟩ := Res.bind_ok h
    rw [List.mapM_cons] at h
    obtain ⟨r3, h, h3'⟩ := Res.bind_ok h
    obtain ⟨y4, k4, h⟩ := Res.bind_ok h
    cases h
    cases h3'
    cases h2'
    cases h'
    obtain ⟨rfl, e1⟩ := assign_long k1 (m := per.steps) (by simp [l1]) hst
    obtain ⟨_, e2⟩ := assign_long k2 (m := per.steps) (by simp [l1]) hst
    obtain ⟨_, e3⟩ := assign_long k3 (m := per.steps) (by simp [l1]) hst
    obtain ⟨_, e4⟩ := assign_long k4 (m := per.steps) (by simp [l1]) hst
    subst e1 e2 e3 e4
    exact ⟨rfl, rfl⟩

/-! ## One scale and distribution -/

/-- the stored parameters `v` of `dist`, one list for each cell, are those fitted to the series `cell` -/
def FitsHold (E : Ext F) (u : String) (per : Periodicity) (ds cs ce scale : Int) (dist : Distribution) (a b : Nat) (cell : Nat → Nat → List F) (sh : Dict (Arr F)) : Prop :=
  ∀ v ∈ distVars dist, ∃ y, sh (spiFitName u scale v) = some ⟨[a, b, per.steps], y⟩ ∧ y.length = a * (b * per.steps) ∧
    ∀ i < a, ∀ k < b, ∃ fp, fitVal E dist (cell i k) scale ds cs ce per = .ok fp ∧ fp.lookup v = some (some (seriesAt b per.steps i k y))

omit [FloatOps F] [FloatLaws F] in
theorem lookup_zip_get {α β : Type} [DecidableEq α] (l : List α) : ∀ (m : List β) (q : Nat) (v : α) (y : β), l.Nodup → l[q]? = some v → m[q]? = some y → (l.zip m).lookup v = some y := by
  induction l with
  | nil => intro m q v y _ h; simp at h
  | cons w l ih =>
    intro m q v y hn hq hm
    cases m with
    | nil => simp at hm
    | cons z m =>
      rw [List.zip_cons_cons, List.lookup_cons]
      cases q with
      | zero => simp at hq hm; subst hq hm; simp
      | succ q =>
        simp only [List.getElem?_cons_succ] at hq hm
        have : v ≠ w := by rintro rfl; exact (List.nodup_cons.1 hn).1 (List.mem_of_getElem? hq)
        rw [beq_eq_false_iff_ne.2 this]
        exact ih m q v y (List.nodup_cons.1 hn).2 hq hm

omit [FloatOps F] [FloatLaws F] in
theorem mapM_eq_map {α β : Type} {f : α → Res β} {g : α → β} {l : List α} (h : ∀ x ∈ l, f x = .ok (g x)) : l.mapM f = .ok (l.map g) := by
  induction l with
  | nil => rfl
  | cons x l ih =>
    rw [List.mapM_cons, h x (by simp), ih (fun y hy => h y (by simp [hy]))]
    rfl

omit [FloatOps F] [FloatLaws F] in
theorem seriesAt_length {b n i k : Nat} {dat : List F} {a : Nat} (hdat : dat.length = a * (b * n)) (hi : i < a) (hk : k < b) : (seriesAt b n i k dat).length = n := by
  have h1 : (i * b + k + 1) * n ≤ a * (b * n) := by
    rw [← Nat.mul_assoc]
    apply Nat.mul_le_mul_right
    have : (i + 1) * b ≤ a * b := Nat.mul_le_mul_right _ hi
    rw [Nat.add_mul, Nat.one_mul] at this
    omega
  rw [Nat.add_mul, Nat.one_mul] at h1
  unfold seriesAt
  rw [List.length_take, List.length_drop, hdat]
  omega

/-- fitting and SPI for one scale and distribution: what is computed, and what is changed -/
theorem spiCompute_ok {E : Ext F} (hE : ExtNan E) {j : SpiJob} (hload : j.load = none) {u : String} {ds scale : Int} {d new : NcFile F} {dist : Distribution} {sh sh' : Dict (Arr F)} {name : String}
    (hvar : ∀ v ∈ fittingVariables, j.var ≠ spiFitName u scale v) (hres : j.var ≠ keyResult) (hfr : ∀ v ∈ fittingVariables, keyResult ≠ spiFitName u scale v) {a b n : Nat} {dat : List F}
    (hv : sh j.var = some ⟨[a, b, n], dat⟩) (hdat : dat.length = a * (b * n)) (h : spiCompute E j u ds d scale dist sh = .ok (sh', name, new)) :
    j.inputType = .grid ∧ name = spiOutName dist scale u ∧ ∃ (dat' : List F) (res : Arr F) (rdat : List F), sh' j.var = some ⟨[a, b, n], dat'⟩ ∧ dat'.length = a * (b * n) ∧
      sh keyResult = some res ∧ res.data.length = a * (b * n) ∧ sh' keyResult = some ⟨res.shape, rdat⟩ ∧ rdat.length = a * (b * n) ∧
      buildSpiGrid j.per ds d name ⟨res.shape, rdat⟩ = .ok new ∧
      (∀ i < a, ∀ k < b, seriesAt b n i k dat' = overwritten (fitOverwrites dist (seriesAt b n i k dat) scale j.per) (seriesAt b n i k dat) ∧
        spi E (Arr.of1d (seriesAt b n i k dat')) scale dist ds j.calStart j.calEnd j.per none = .ok (seriesAt b n i k rdat)) ∧
      (0 < a → 0 < b → FitsHold E u j.per ds j.calStart j.calEnd scale dist a b (fun i k => seriesAt b n i k dat) sh') ∧
      ∀ key, key ≠ j.var → key ≠ keyResult → (∀ v ∈ distVars dist, key ≠ spiFitName u scale v) → sh' key = sh key := by
  unfold spiCompute at h
  obtain ⟨sh1, h1, h⟩ := Res.bind_ok h
  obtain ⟨sh2, h2, h⟩ := Res.bind_ok h
  obtain ⟨res2, h3, h⟩ := Res.bind_ok h
  obtain ⟨new', h4, h⟩ := Res.bind_ok h
  cases h
  unfold spiFit at h1
  rw [hload] at h1
  simp only at h1
  obtain ⟨hit, p, dat1, ys, hsix, f1, f2, f3, f4, f5, f6⟩ := fitStage_ok hvar hv hdat h1
  obtain ⟨_, res, fits, dat', rdat, g1, g1', g2, g3, g4, g5, g6, g7, g8⟩ := spiStage_ok hres f1 f2 h2
  have hkr : sh1 keyResult = sh keyResult := f6 _ (Ne.symm hres) (fun v hv => hfr v (distVars_fitting hv))
  rw [hkr] at g1
  have hr2 := dictAt_ok h3
  rw [g5] at hr2
  cases hr2
  -- the stored arrays are those just fitted
  have hylen : ∀ q < (distVars dist).length, ∃ v y, (distVars dist)[q]? = some v ∧ ys[q]? = some y ∧ sh1 (spiFitName u scale v) = some ⟨[a, b, p], y⟩ ∧ y.length = a * (b * p) := by
    intro q hq
    obtain ⟨y, e1, e2, e3⟩ := f4 q _ (List.getElem?_eq_getElem hq)
    exact ⟨_, y, List.getElem?_eq_getElem hq, e1, e2, e3⟩
  have hfits : fits = ys.map (fun y => (⟨[a, b, p], y⟩ : Arr F)) := by
    have hl := mapM_len g2
    apply List.ext_getElem?
    intro q
    by_cases hq : q < (distVars dist).length
    · obtain ⟨v, y, e1, e2, e3, _⟩ := hylen q hq
      obtain ⟨x, hx, e4⟩ := mapM_get g2 q v e1
      have e4 := dictAt_ok e4
      rw [e3] at e4
      cases e4
      rw [hx, List.getElem?_map, e2]
      rfl
    · rw [List.getElem?_eq_none (by omega), List.getElem?_eq_none (by simp; omega)]
  have hat : ∀ i < a, ∀ k < b, fits.mapM (fun x => fitAt x i k) = .ok (ys.map (fun y => seriesAt b p i k y)) := by
    intro i hi k hk
    rw [hfits, mapM_eq_map (g := fun x => seriesAt b p i k x.data), List.map_map]
    · rfl
    · intro x hx
      obtain ⟨y, hy, rfl⟩ := List.mem_map.1 hx
      simp only [fitAt, hi, hk, and_self, if_true]
      rfl
  refine ⟨hit, rfl, dat', res, rdat, g3, g4, g1, g1', g5, g6, h4, ?_, ?_, ?_⟩
  · intro i hi k hk
    obtain ⟨ps, out, e1, e2, e3, e4⟩ := g7 i hi k hk
    obtain ⟨k1, fp, k2, k3⟩ := f5 i hi k hk
    rw [hat i hi k hk] at e1
    cases e1
    obtain ⟨hp, hz⟩ := fit_stored k2 k3
    rw [hz] at e2 e4
    obtain ⟨q1, q2⟩ := spi_fitted E hE _ scale ds j.calStart j.calEnd j.per dist fp k2 _ k1
    rw [q2] at e4
    refine ⟨e4.trans k1, ?_⟩
    rw [e4, ← q1, e2]
    congr 1
    refine (assignSeries_same e3 ?_).symm
    rw [C10_size E hE _ _ _ _ _ _ _ _ _ e2]
    exact seriesAt_length f2 hi hk
  · intro ha hb v hvm
    obtain ⟨q, hq⟩ := List.getElem?_of_mem hvm
    obtain ⟨y, e1, e2, e3⟩ := f4 q v hq
    obtain ⟨_, fp0, k2, k3⟩ := f5 0 ha 0 hb
    obtain ⟨rfl, _⟩ := fit_stored k2 k3
    refine ⟨y, ?_, e3, ?_⟩
    · rw [g8 _ (fun h => hvar v (distVars_fitting hvm) h.symm) (fun h => hfr v (distVars_fitting hvm) h.symm), e2]
    · intro i hi k hk
      obtain ⟨_, fp, k2, k3⟩ := f5 i hi k hk
      obtain ⟨_, hz⟩ := fit_stored k2 k3
      refine ⟨fp, k2, ?_⟩
      rw [← hz]
      exact lookup_zip_get _ _ q v _ (distVars_nodup dist) hq (by simp [e1])
  · intro key k1 k2 k3
    rw [g8 key k1 k2, f6 key k1 k3]

end CI
