import Verif.Lemmas.Compute

namespace CI
variable {F : Type} [FloatOps F]

theorem validateArray_2d (n p : Nat) (data : List F) (per : Periodicity) (hp : p = 12 ∨ p = 366) :
    validateArray ⟨[n, p], data⟩ per = .ok ⟨[n, p], data⟩ := by
  unfold validateArray; simp [hp]

omit [FloatOps F] in
theorem bcast_length (p : Nat) (l : List F) (h : l.length = p) : bcast p l = .ok l := by
  unfold bcast; rw [if_pos h]

omit [FloatOps F] in
theorem bcast_ok_length (p : Nat) (l m : List F) (h : bcast p l = .ok m) : m.length = p := by
  unfold bcast at h
  split at h
  · cases h; assumption
  · split at h
    · cases h; simp
    · cases h

/-- probability of zero of a column used by the gamma transform -/
def p0Col (n : Nat) (col : List F) : F := lit (col.countP (fun x => feq x (lit 0))) / lit n

/-- the gamma parameters of the whole array, once validated -/
def gammaFits (E : Ext F) (n p : Nat) (data : List F) (ds cs ce : Int) : List (F × F) :=
  (List.range p).map (fun j => gammaFitCol E (stride p j (calibrationValues (data.map zeroToNan) n p ds cs ce)))

theorem gammaFits_length (E : Ext F) (n p : Nat) (data : List F) (ds cs ce : Int) :
    (gammaFits E n p data ds cs ce).length = p := by simp [gammaFits]

theorem gammaParameters_2d (E : Ext F) (n p : Nat) (data : List F) (ds cs ce : Int) (per : Periodicity)
    (hp : p = 12 ∨ p = 366) (hn : allNan data = false) :
    gammaParameters E ⟨[n, p], data⟩ ds cs ce per =
      .ok ((gammaFits E n p data ds cs ce).map Prod.fst, (gammaFits E n p data ds cs ce).map Prod.snd) := by
  unfold gammaParameters
  simp only [hn, Bool.false_eq_true, if_false, validateArray_2d n p data per hp, bind, Except.bind]
  rfl

/-- output of the gamma transform for given parameter columns -/
def gammaOut (E : Ext F) (n p : Nat) (data : List F) (al be : List F) : List F :=
  List.zipWith (fun x q => gammaTransform1 E q.1 q.2.1 q.2.2 x) (data.map zeroToNan)
    (tile n (List.zip ((List.range p).map (fun j => p0Col n (stride p j data))) (List.zip al be)))

theorem transformFittedGamma_given (E : Ext F) (n p : Nat) (data : List F) (ds cs ce : Int)
    (per : Periodicity) (a b al be : List F)
    (hp : p = 12 ∨ p = 366) (hn : allNan data = false) (ha : bcast p a = .ok al) (hb : bcast p b = .ok be) :
    transformFittedGamma E ⟨[n, p], data⟩ ds cs ce per (some a) (some b) =
      .ok ⟨[n, p], gammaOut E n p data al be⟩ := by
  unfold transformFittedGamma
  simp only [hn, Bool.false_eq_true, if_false, validateArray_2d n p data per hp, bind, Except.bind,
    pure, Except.pure, ha, hb]
  rfl

/-- the gamma parameters computed inside the transform, where zeros have been replaced already -/
def innerGammaParameters (E : Ext F) (n p : Nat) (data : List F) (ds cs ce : Int) (per : Periodicity) :
    Res (List F × List F) := gammaParameters E ⟨[n, p], data.map zeroToNan⟩ ds cs ce per

theorem transformFittedGamma_fit (E : Ext F) (n p : Nat) (data : List F) (ds cs ce : Int)
    (per : Periodicity) (a b : Option (List F)) (al be al' be' : List F)
    (hp : p = 12 ∨ p = 366) (hn : allNan data = false) (hnone : a = none ∨ b = none)
    (hin : innerGammaParameters E n p data ds cs ce per = .ok (al', be'))
    (ha : bcast p al' = .ok al) (hb : bcast p be' = .ok be) :
    transformFittedGamma E ⟨[n, p], data⟩ ds cs ce per a b =
      .ok ⟨[n, p], gammaOut E n p data al be⟩ := by
  unfold transformFittedGamma
  simp only [hn, Bool.false_eq_true, if_false, validateArray_2d n p data per hp, bind, Except.bind,
    pure, Except.pure]
  unfold innerGammaParameters at hin
  cases a with
  | none => simp only [hin, ha, hb]; rfl
  | some a =>
    cases b with
    | none => simp only [hin, ha, hb]; rfl
    | some b => simp at hnone

theorem gammaOut_length (E : Ext F) (n p : Nat) (data al be : List F) (hd : data.length = n * p)
    (ha : al.length = p) (hb : be.length = p) : (gammaOut E n p data al be).length = n * p := by
  simp [gammaOut, hd, ha, hb]

theorem gammaOut_getElem? (E : Ext F) (n p : Nat) (data al be : List F) (hd : data.length = n * p)
    (ha : al.length = p) (hb : be.length = p) (i : Nat) (x : F) (hx : data[i]? = some x) :
    ∃ α β, al[i % p]? = some α ∧ be[i % p]? = some β ∧
    (gammaOut E n p data al be)[i]? =
      some (gammaTransform1 E (p0Col n (stride p (i % p) data)) α β (zeroToNan x)) := by
  have hi : i < n * p := by
    rw [← hd]; rw [List.getElem?_eq_some_iff] at hx; exact hx.1
  have hp : 0 < p := by
    rcases Nat.eq_zero_or_pos p with h | h
    · subst h; simp at hi
    · exact h
  have hm := Nat.mod_lt i hp
  refine ⟨al[i % p]'(by omega), be[i % p]'(by omega), List.getElem?_eq_getElem _,
    List.getElem?_eq_getElem _, ?_⟩
  unfold gammaOut
  rw [List.getElem?_zipWith, List.getElem?_map, hx]
  have hl : (List.zip ((List.range p).map (fun j => p0Col n (stride p j data))) (List.zip al be)).length = p := by
    simp [ha, hb]
  rw [tile_getElem? _ _ _ (by rw [hl]; exact hi), hl]
  have : (List.zip ((List.range p).map (fun j => p0Col n (stride p j data))) (List.zip al be))[i % p]? =
      some (p0Col n (stride p (i % p) data), (al[i % p]'(by omega), be[i % p]'(by omega))) := by
    rw [List.getElem?_eq_getElem (by rw [hl]; exact hm)]
    simp
  rw [this]
  rfl

/-- `zeroToNan` twice is once -/
theorem zeroToNan_idem [FloatLaws F] (x : F) : zeroToNan (zeroToNan x) = zeroToNan x := by
  unfold zeroToNan
  by_cases h : feq x (lit 0) = true
  · simp [h]
  · simp [h]

theorem zeroToNan_map_idem [FloatLaws F] (l : List F) : (l.map zeroToNan).map zeroToNan = l.map zeroToNan := by
  rw [List.map_map]; congr 1; funext x; exact zeroToNan_idem x

omit [FloatOps F] in
theorem bcast_ok_or (p : Nat) (l : List F) : (∃ m, bcast p l = .ok m) ∨ bcast p l = .error .valueError := by
  unfold bcast
  split
  · left; exact ⟨_, rfl⟩
  · split
    · left; exact ⟨_, rfl⟩
    · right; rfl

/-- output of the Pearson transform for given parameters -/
theorem transformFittedPearson_given (E : Ext F) (fit : List F → Res (F × F × F)) (n p : Nat) (data : List F)
    (ds cs ce : Int) (per : Periodicity) (p0 loc sc sk p0' loc' sc' sk' : List F)
    (hp : p = 12 ∨ p = 366) (hn : allNan data = false)
    (h1 : bcast p p0 = .ok p0') (h2 : bcast p loc = .ok loc') (h3 : bcast p sc = .ok sc')
    (h4 : bcast p sk = .ok sk') :
    transformFittedPearson E fit ⟨[n, p], data⟩ ds cs ce per ⟨some p0, some loc, some sc, some sk⟩ =
      .ok ⟨[n, p], pearsonFit E data (tile n (zipParams p0' loc' sc' sk'))⟩ := by
  unfold transformFittedPearson
  simp [hn, validateArray_2d n p data per hp, bind, Except.bind, pure, Except.pure, h1, h2, h3, h4]

theorem adjust_idem (ds de cs ce : Int) :
    adjustCalibrationYears ds de (adjustCalibrationYears ds de cs ce).1 (adjustCalibrationYears ds de cs ce).2
      = adjustCalibrationYears ds de cs ce := by
  unfold adjustCalibrationYears
  split
  · simp
  · simp_all

theorem calibrationValues_adjust {α : Type} (data : List α) (n p : Nat) (ds cs ce : Int) :
    calibrationValues data n p ds (adjustCalibrationYears ds (ds + n) cs ce).1
      (adjustCalibrationYears ds (ds + n) cs ce).2 = calibrationValues data n p ds cs ce := by
  unfold calibrationValues
  simp only [adjust_idem]

/-- Pearson parameters of a validated array -/
def pearsonFits (fit : List F → Res (F × F × F)) (n p : Nat) (data : List F) (ds cs ce : Int) :
    Res (List (PearsonParams F)) :=
  (List.range p).mapM (fun j => calculateTimeStepParams fit (stride p j (calibrationValues data n p ds cs ce)))

/-- number of calendar steps per year of a periodicity -/
def Periodicity.steps : Periodicity → Nat
  | .monthly => 12
  | .daily => 366
  | .other => 0

theorem pearsonParameters_2d (fit : List F → Res (F × F × F)) (n p : Nat) (data : List F) (ds cs ce : Int)
    (per : Periodicity) (hper : per ≠ .other) (hp : per.steps = p) :
    pearsonParameters fit ⟨[n, p], data⟩ ds cs ce per = pearsonFits fit n p data ds cs ce := by
  unfold pearsonParameters reshapeValues
  cases per with
  | other => exact absurd rfl hper
  | monthly =>
    simp only [Periodicity.steps] at hp; subst hp
    simp [reshapeTo2d, validateValuesShape, bind, Except.bind, pearsonFits]
  | daily =>
    simp only [Periodicity.steps] at hp; subst hp
    simp [reshapeTo2d, validateValuesShape, bind, Except.bind, pearsonFits]

theorem transformFittedPearson_fit (E : Ext F) (fit : List F → Res (F × F × F)) (n p : Nat) (data : List F)
    (ds cs ce : Int) (per : Periodicity) (hper : per ≠ .other) (hp : per.steps = p)
    (hn : allNan data = false) :
    transformFittedPearson E fit ⟨[n, p], data⟩ ds cs ce per ⟨none, none, none, none⟩ =
      (match pearsonFits fit n p data ds cs ce with
       | .error e => .error e
       | .ok ps => .ok ⟨[n, p], pearsonFit E data (tile n ps)⟩) := by
  have hp' : p = 12 ∨ p = 366 := by
    cases per <;> simp [Periodicity.steps] at hp hper <;> omega
  unfold transformFittedPearson
  simp only [Option.isNone_none, Bool.and_self, Bool.or_self, Bool.not_true, Bool.and_false,
    Bool.false_eq_true, if_false, hn, validateArray_2d n p data per hp', bind, Except.bind, pure, Except.pure]
  rw [pearsonParameters_2d fit n p data _ _ _ per hper hp]
  unfold pearsonFits
  simp only [calibrationValues_adjust]
  cases List.mapM (m := Res) (fun j => calculateTimeStepParams fit
    (stride p j (calibrationValues data n p ds cs ce))) (List.range p) <;> rfl

theorem mapM_length {α β : Type} (f : α → Res β) (l : List α) (r : List β) (h : l.mapM f = .ok r) :
    r.length = l.length := by
  induction l generalizing r with
  | nil => simp only [List.mapM_nil, pure, Except.pure] at h; cases h; rfl
  | cons a l ih =>
    simp only [List.mapM_cons, bind, Except.bind, pure, Except.pure] at h
    split at h
    · cases h
    · split at h
      · cases h
      · rename_i bs hbs
        cases h
        simp [ih _ hbs]

theorem mapM_getElem? {α β : Type} (f : α → Res β) (l : List α) (r : List β) (h : l.mapM f = .ok r)
    (i : Nat) (a : α) (ha : l[i]? = some a) : ∃ b, f a = .ok b ∧ r[i]? = some b := by
  induction l generalizing r i with
  | nil => simp at ha
  | cons c l ih =>
    simp only [List.mapM_cons, bind, Except.bind, pure, Except.pure] at h
    split at h
    · cases h
    · rename_i b hb
      split at h
      · cases h
      · rename_i bs hbs
        cases h
        cases i with
        | zero => simp at ha; subst ha; exact ⟨b, hb, rfl⟩
        | succ i => simp at ha; simpa using ih _ hbs i ha

theorem mapM_ok {α β : Type} (f : α → Res β) (l : List α) (h : ∀ a ∈ l, ∃ b, f a = .ok b) :
    ∃ r, l.mapM f = .ok r := by
  induction l with
  | nil => exact ⟨[], rfl⟩
  | cons a l ih =>
    obtain ⟨b, hb⟩ := h a (by simp)
    obtain ⟨r, hr⟩ := ih (fun c hc => h c (by simp [hc]))
    exact ⟨b :: r, by simp [List.mapM_cons, hb, hr, bind, Except.bind, pure, Except.pure]⟩

theorem mapM_error {α β : Type} (f : α → Res β) (l : List α) (e : PyErr) (a : α) (ha : a ∈ l)
    (hf : f a = .error e) (hall : ∀ c ∈ l, (∃ b, f c = .ok b) ∨ f c = .error e) :
    l.mapM f = .error e := by
  induction l with
  | nil => simp at ha
  | cons c l ih =>
    simp only [List.mapM_cons, bind, Except.bind, pure, Except.pure]
    rcases hall c (by simp) with ⟨b, hb⟩ | hb
    · rw [hb]
      have : a ∈ l := by
        rcases List.mem_cons.1 ha with h | h
        · subst h; rw [hf] at hb; cases hb
        · exact h
      simp only
      rw [ih this (fun d hd => hall d (by simp [hd]))]
    · rw [hb]

theorem pearsonFits_length (fit : List F → Res (F × F × F)) (n p : Nat) (data : List F) (ds cs ce : Int)
    (ps : List (PearsonParams F)) (h : pearsonFits fit n p data ds cs ce = .ok ps) : ps.length = p := by
  have := mapM_length _ _ _ h; simpa using this

/-- one value through the Pearson transform, before the final clip -/
def pearsonTransform1 (E : Ext F) (q : PearsonParams F) (x : F) : F :=
  E.normPpf (npClip (lit 0) (lit 1) (q.probZero + (lit 1 - q.probZero) * pearsonProb1 E q x))

theorem pearsonFit_length (E : Ext F) (data : List F) (ps : List (PearsonParams F)) (h : data.length ≤ ps.length) :
    (pearsonFit E data ps).length = data.length := by
  unfold pearsonFit
  split
  · rfl
  · simp only
    split <;> simp <;> omega

section laws
variable [FloatLaws F]

theorem npClip_nan (lo hi : F) : npClip lo hi nan = nan := by simp [npClip]

/-- With NaN-preserving special functions, the two shortcuts of `_pearson_fit` for missing data give the same as the
general computation. -/
theorem pearsonFit_getElem? (E : Ext F) (hc : ∀ a b c, E.pearson3Cdf nan a b c = nan) (hppf : E.normPpf nan = nan)
    (data : List F) (ps : List (PearsonParams F)) (i : Nat) (x : F) (q : PearsonParams F)
    (hx : data[i]? = some x) (hq : ps[i]? = some q) :
    (pearsonFit E data ps)[i]? = some (pearsonTransform1 E q x) := by
  have hnanprob : ∀ q : PearsonParams F, pearsonProb1 E q nan = nan := by
    intro q; unfold pearsonProb1; simp [hc]
  unfold pearsonFit
  by_cases h1 : allNan data = true
  · rw [if_pos h1, hx]
    have : x = nan := by
      unfold allNan at h1
      rw [List.all_eq_true] at h1
      exact (FloatLaws.isNan_iff x).1 (h1 x (List.mem_of_getElem? hx))
    subst this
    simp [pearsonTransform1, hnanprob, npClip_nan, hppf]
  · rw [if_neg h1]
    simp only
    have hv : (List.zipWith (fun x q => pearsonProb1 E q x) data ps)[i]? = some (pearsonProb1 E q x) := by
      rw [List.getElem?_zipWith, hx, hq]
    split
    · rename_i h2
      rw [hv]
      have : pearsonProb1 E q x = nan := by
        unfold allNan at h2
        rw [List.all_eq_true] at h2
        exact (FloatLaws.isNan_iff _).1 (h2 _ (List.mem_of_getElem? hv))
      simp [pearsonTransform1, this, npClip_nan, hppf]
    · rw [List.getElem?_zipWith, hv, hq]; rfl

end laws
end CI
