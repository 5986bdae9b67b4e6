import Verif.Lemmas.Spi
import Verif.Spec.Ext

/-! The `spi` and `spei` pipelines as one composition. -/

namespace CI
variable {F : Type} [FloatOps F]

/-- the series after the negative-value clip of `spi` -/
def clipNeg (x : List F) : List F :=
  match amin x with
  | .ok m => if flt m (lit 0) then x.map (npClipMin (lit 0)) else x
  | .error _ => x

theorem clipNeg_length (x : List F) : (clipNeg x).length = x.length := by
  unfold clipNeg; split
  · split <;> simp
  · rfl

theorem amin_ok (x : List F) (h : x ≠ []) : ∃ m, amin x = .ok m := by
  unfold amin
  cases x with
  | nil => exact absurd rfl h
  | cons a l => simp only; split <;> exact ⟨_, rfl⟩

theorem ne_nil_of_allNan (x : List F) (h : allNan x = false) : x ≠ [] := by
  rintro rfl; simp [allNan] at h

/-- the chosen transform with optional fitting parameters -/
def distTransform (E : Ext F) (a : Arr F) (dist : Distribution) (ds cs ce : Int) (per : Periodicity)
    (fp : Option (FitDict F)) : Res (Arr F) :=
  match dist with
  | .gamma => do
    let (alphas, betas) ← getGammaArgs fp
    transformFittedGamma E a ds cs ce per alphas betas
  | .pearson => do
    let args ← getPearsonArgs fp
    transformFittedPearson E (lmomentsFit E) a ds cs ce per args
  | .other => .error .valueError

/-- `spi` on data that are not entirely missing -/
theorem spi_eq (E : Ext F) (values : Arr F) (scale : Int) (dist : Distribution) (ds cs ce : Int)
    (per : Periodicity) (fp : Option (FitDict F))
    (hdim : values.shape.length = 2 ∨ values.shape.length = 1) (hn : allNan values.data = false) :
    spi E values scale dist ds cs ce per fp = (do
      let scaled ← sumToScale (clipNeg values.data) scale
      let a ← reshapeValues (Arr.of1d scaled) per
      let t ← distTransform E a dist ds cs ce per fp
      pure (clipFlattenTruncate t values.data.length)) := by
  obtain ⟨m, hm⟩ := amin_ok _ (ne_nil_of_allNan _ hn)
  unfold spi
  rw [if_pos hdim]
  have hc : clipNeg values.data =
      if flt m (lit 0) then values.data.map (npClipMin (lit 0)) else values.data := by
    unfold clipNeg; rw [hm]
  have hl : (if flt m (lit 0) = true then values.data.map (npClipMin (lit 0)) else values.data).length
      = values.data.length := by split <;> simp
  simp only [hn, Bool.false_eq_true, if_false, hm, bind, Except.bind, hc, hl]
  cases sumToScale (if flt m (lit 0) = true then values.data.map (npClipMin (lit 0)) else values.data) scale with
  | error e => rfl
  | ok scaled =>
    cases per
    · simp only [reshapeValues]
      cases reshapeTo2d (Arr.of1d scaled) 12 with
      | error e => rfl
      | ok a =>
        cases dist
        · simp only [distTransform, bind, Except.bind]
          cases getPearsonArgs fp <;> rfl
        · simp only [distTransform, bind, Except.bind]
          cases getGammaArgs fp <;> rfl
        · rfl
    · simp only [reshapeValues]
      cases reshapeTo2d (Arr.of1d scaled) 366 with
      | error e => rfl
      | ok a =>
        cases dist
        · simp only [distTransform, bind, Except.bind]
          cases getPearsonArgs fp <;> rfl
        · simp only [distTransform, bind, Except.bind]
          cases getGammaArgs fp <;> rfl
        · rfl
    · rfl

/-- what a successful `spi` call went through -/
theorem spi_inv (E : Ext F) (values : Arr F) (scale : Int) (dist : Distribution) (ds cs ce : Int)
    (per : Periodicity) (fp : Option (FitDict F)) (out : List F)
    (h : spi E values scale dist ds cs ce per fp = .ok out) :
    (values.shape.length = 2 ∨ values.shape.length = 1) ∧
    ((allNan values.data = true ∧ out = values.data) ∨
     (allNan values.data = false ∧ ∃ scaled a t, sumToScale (clipNeg values.data) scale = .ok scaled ∧
        reshapeValues (Arr.of1d scaled) per = .ok a ∧ distTransform E a dist ds cs ce per fp = .ok t ∧
        out = clipFlattenTruncate t values.data.length)) := by
  have hdim : values.shape.length = 2 ∨ values.shape.length = 1 := by
    by_contra hc
    unfold spi at h; rw [if_neg hc] at h; cases h
  refine ⟨hdim, ?_⟩
  cases hn : allNan values.data with
  | true =>
    left
    unfold spi at h; rw [if_pos hdim, if_pos hn] at h; cases h; exact ⟨rfl, rfl⟩
  | false =>
    right
    rw [spi_eq E values scale dist ds cs ce per fp hdim hn] at h
    refine ⟨rfl, ?_⟩
    simp only [bind, Except.bind] at h
    split at h
    · cases h
    · rename_i scaled hs
      split at h
      · cases h
      · rename_i a ha
        split at h
        · cases h
        · rename_i t ht
          cases h
          exact ⟨scaled, a, t, hs, ha, ht, rfl⟩

theorem reshapeValues_ok (l : List F) (per : Periodicity) (a : Arr F)
    (h : reshapeValues (Arr.of1d l) per = .ok a) :
    per ≠ .other ∧ ∃ n, a.shape = [n, per.steps] ∧ a.data.length = n * per.steps ∧
      a.data = l ++ List.replicate (padCount l.length per.steps) nan := by
  unfold reshapeValues at h
  cases per with
  | other => cases h
  | monthly =>
    rw [reshapeTo2d_of1d l 12 (by norm_num)] at h
    cases h
    refine ⟨by simp, _, rfl, ?_, rfl⟩
    simp only [Periodicity.steps]
    rw [padCount_mul _ _ (by norm_num)]; simp
  | daily =>
    rw [reshapeTo2d_of1d l 366 (by norm_num)] at h
    cases h
    refine ⟨by simp, _, rfl, ?_, rfl⟩
    simp only [Periodicity.steps]
    rw [padCount_mul _ _ (by norm_num), List.length_append, List.length_replicate]

theorem reshapeValues_total (l : List F) (per : Periodicity) (h : per ≠ .other) :
    ∃ n, reshapeValues (Arr.of1d l) per =
      .ok ⟨[n, per.steps], l ++ List.replicate (padCount l.length per.steps) nan⟩ ∧
      (l ++ List.replicate (padCount l.length per.steps) (nan : F)).length = n * per.steps := by
  cases per with
  | other => exact absurd rfl h
  | monthly =>
    refine ⟨_, reshapeTo2d_of1d l 12 (by norm_num), ?_⟩
    simp only [Periodicity.steps]
    rw [padCount_mul _ _ (by norm_num)]; simp
  | daily =>
    refine ⟨_, reshapeTo2d_of1d l 366 (by norm_num), ?_⟩
    simp only [Periodicity.steps]
    rw [padCount_mul _ _ (by norm_num), List.length_append, List.length_replicate]

theorem steps_12_366 (per : Periodicity) (h : per ≠ .other) : per.steps = 12 ∨ per.steps = 366 := by
  cases per <;> simp_all [Periodicity.steps]

theorem steps_pos (per : Periodicity) (h : per ≠ .other) : 0 < per.steps := by
  rcases steps_12_366 per h with h | h <;> omega

/-- the successful gamma transform of a 2-D array -/
theorem transformFittedGamma_inv (E : Ext F) (n p : Nat) (data : List F) (ds cs ce : Int)
    (per : Periodicity) (a b : Option (List F)) (t : Arr F) (hp : p = 12 ∨ p = 366)
    (h : transformFittedGamma E ⟨[n, p], data⟩ ds cs ce per a b = .ok t) :
    (allNan data = true ∧ t = ⟨[n, p], data⟩) ∨
    (allNan data = false ∧ ∃ al be al' be', al.length = p ∧ be.length = p ∧
      bcast p al' = .ok al ∧ bcast p be' = .ok be ∧
      t = ⟨[n, p], gammaOut E n p data al be⟩ ∧
      ((a = some al' ∧ b = some be') ∨
       ((a = none ∨ b = none) ∧ innerGammaParameters E n p data ds cs ce per = .ok (al', be')))) := by
  cases hn : allNan data with
  | true =>
    left
    unfold transformFittedGamma at h
    simp only [hn, if_true] at h
    cases h; exact ⟨rfl, rfl⟩
  | false =>
    right
    refine ⟨rfl, ?_⟩
    by_cases hab : ∃ a' b', a = some a' ∧ b = some b'
    · obtain ⟨a', b', rfl, rfl⟩ := hab
      rcases bcast_ok_or p a' with ⟨al, hal⟩ | hal
      · rcases bcast_ok_or p b' with ⟨be, hbe⟩ | hbe
        · rw [transformFittedGamma_given E n p data ds cs ce per a' b' al be hp hn hal hbe] at h
          cases h
          exact ⟨al, be, a', b', bcast_ok_length _ _ _ hal, bcast_ok_length _ _ _ hbe, hal, hbe, rfl,
            Or.inl ⟨rfl, rfl⟩⟩
        · unfold transformFittedGamma at h
          simp [hn, validateArray_2d n p data per hp, bind, Except.bind, pure, Except.pure, hal, hbe] at h
      · unfold transformFittedGamma at h
        simp [hn, validateArray_2d n p data per hp, bind, Except.bind, pure, Except.pure, hal] at h
    · have hnone : a = none ∨ b = none := by
        cases a with
        | none => exact Or.inl rfl
        | some a => cases b with
          | none => exact Or.inr rfl
          | some b => exact absurd ⟨a, b, rfl, rfl⟩ hab
      cases hin : innerGammaParameters E n p data ds cs ce per with
      | error e =>
        unfold innerGammaParameters at hin
        unfold transformFittedGamma at h
        simp only [hn, Bool.false_eq_true, if_false, validateArray_2d n p data per hp, bind, Except.bind,
          pure, Except.pure] at h
        cases a with
        | none => simp only [hin] at h; cases h
        | some a => cases b with
          | none => simp only [hin] at h; cases h
          | some b => simp at hnone
      | ok ab =>
        obtain ⟨al', be'⟩ := ab
        rcases bcast_ok_or p al' with ⟨al, hal⟩ | hal
        · rcases bcast_ok_or p be' with ⟨be, hbe⟩ | hbe
          · rw [transformFittedGamma_fit E n p data ds cs ce per a b al be al' be' hp hn hnone hin hal hbe] at h
            cases h
            exact ⟨al, be, al', be', bcast_ok_length _ _ _ hal, bcast_ok_length _ _ _ hbe, hal, hbe, rfl,
              Or.inr ⟨hnone, rfl⟩⟩
          · unfold innerGammaParameters at hin
            unfold transformFittedGamma at h
            simp only [hn, Bool.false_eq_true, if_false, validateArray_2d n p data per hp, bind, Except.bind,
              pure, Except.pure] at h
            cases a with
            | none => simp only [hin, hal, hbe] at h; cases h
            | some a => cases b with
              | none => simp only [hin, hal, hbe] at h; cases h
              | some b => simp at hnone
        · unfold innerGammaParameters at hin
          unfold transformFittedGamma at h
          simp only [hn, Bool.false_eq_true, if_false, validateArray_2d n p data per hp, bind, Except.bind,
            pure, Except.pure] at h
          cases a with
          | none => simp only [hin, hal] at h; cases h
          | some a => cases b with
            | none => simp only [hin, hal] at h; cases h
            | some b => simp at hnone

omit [FloatOps F] in
theorem zipParams_length (p : Nat) (a b c d : List F) (ha : a.length = p) (hb : b.length = p)
    (hc : c.length = p) (hd : d.length = p) : (zipParams a b c d).length = p := by
  simp [zipParams, ha, hb, hc, hd]

/-- the successful Pearson transform of a 2-D array -/
theorem transformFittedPearson_inv (E : Ext F) (fit : List F → Res (F × F × F)) (n p : Nat) (data : List F)
    (ds cs ce : Int) (per : Periodicity) (args : PearsonArgs F) (t : Arr F) (hper : per ≠ .other)
    (hp : per.steps = p)
    (h : transformFittedPearson E fit ⟨[n, p], data⟩ ds cs ce per args = .ok t) :
    (allNan data = true ∧ t = ⟨[n, p], data⟩) ∨
    (allNan data = false ∧ ∃ ps, ps.length = p ∧ t = ⟨[n, p], pearsonFit E data (tile n ps)⟩ ∧
      ((args = ⟨none, none, none, none⟩ ∧ pearsonFits fit n p data ds cs ce = .ok ps) ∨
       (∃ a b c d a' b' c' d', args = ⟨some a, some b, some c, some d⟩ ∧ bcast p a = .ok a' ∧
          bcast p b = .ok b' ∧ bcast p c = .ok c' ∧ bcast p d = .ok d' ∧ ps = zipParams a' b' c' d'))) := by
  have hp' : p = 12 ∨ p = 366 := by rw [← hp]; exact steps_12_366 per hper
  obtain ⟨a, b, c, d⟩ := args
  cases hn : allNan data with
  | true =>
    left
    unfold transformFittedPearson at h
    simp only [hn, if_true] at h
    split at h
    · cases h
    · cases h; exact ⟨rfl, rfl⟩
  | false =>
    right
    refine ⟨rfl, ?_⟩
    cases a <;> cases b <;> cases c <;> cases d <;>
      try (unfold transformFittedPearson at h; simp at h; done)
    · rw [transformFittedPearson_fit E fit n p data ds cs ce per hper hp hn] at h
      split at h
      · cases h
      · rename_i ps hps
        cases h
        exact ⟨ps, pearsonFits_length _ _ _ _ _ _ _ _ hps, rfl, Or.inl ⟨rfl, hps⟩⟩
    · rename_i a b c d
      rcases bcast_ok_or p a with ⟨a', ha⟩ | ha
      · rcases bcast_ok_or p b with ⟨b', hb⟩ | hb
        · rcases bcast_ok_or p c with ⟨c', hc⟩ | hc
          · rcases bcast_ok_or p d with ⟨d', hd⟩ | hd
            · rw [transformFittedPearson_given E fit n p data ds cs ce per a b c d a' b' c' d' hp' hn ha hb hc hd] at h
              cases h
              exact ⟨_, zipParams_length p _ _ _ _ (bcast_ok_length _ _ _ ha) (bcast_ok_length _ _ _ hb)
                (bcast_ok_length _ _ _ hc) (bcast_ok_length _ _ _ hd), rfl,
                Or.inr ⟨a, b, c, d, a', b', c', d', rfl, ha, hb, hc, hd, rfl⟩⟩
            · unfold transformFittedPearson at h
              simp [hn, validateArray_2d n p data per hp', bind, Except.bind, ha, hb, hc, hd] at h
          · unfold transformFittedPearson at h
            simp [hn, validateArray_2d n p data per hp', bind, Except.bind, ha, hb, hc] at h
        · unfold transformFittedPearson at h
          simp [hn, validateArray_2d n p data per hp', bind, Except.bind, ha, hb] at h
      · unfold transformFittedPearson at h
        simp [hn, validateArray_2d n p data per hp', bind, Except.bind, ha] at h


section laws
variable [FloatLaws F]

theorem gammaTransform1_nan (E : Ext F) (hE : ExtNan E) (p0 a b : F) : gammaTransform1 E p0 a b nan = nan := by
  unfold gammaTransform1; rw [hE.gammaCdf_nan]; simp [hE.normPpf_nan]

theorem pearsonTransform1_nan (E : Ext F) (hE : ExtNan E) (q : PearsonParams F) : pearsonTransform1 E q nan = nan := by
  have : pearsonProb1 E q nan = nan := by unfold pearsonProb1; simp [hE.pearson3Cdf_nan]
  unfold pearsonTransform1; rw [this]; simp [npClip_nan, hE.normPpf_nan]

theorem zeroToNan_nan : zeroToNan (nan : F) = nan := by simp [zeroToNan]

theorem eq_nan_of_allNan (l : List F) (h : allNan l = true) (i : Nat) (x : F) (hx : l[i]? = some x) : x = nan := by
  unfold allNan at h
  rw [List.all_eq_true] at h
  exact (FloatLaws.isNan_iff x).1 (h x (List.mem_of_getElem? hx))

/-- the transform acts value by value with a function per calendar column that keeps NaN -/
theorem distTransform_point (E : Ext F) (hE : ExtNan E) (n : Nat) (data : List F) (dist : Distribution)
    (ds cs ce : Int) (per : Periodicity) (fp : Option (FitDict F)) (t : Arr F) (hper : per ≠ .other)
    (hlen : data.length = n * per.steps)
    (h : distTransform E ⟨[n, per.steps], data⟩ dist ds cs ce per fp = .ok t) :
    t.data.length = data.length ∧
    ∃ f : Nat → F → F, (∀ j, f j nan = nan) ∧
      ∀ i x, data[i]? = some x → t.data[i]? = some (f (i % per.steps) x) := by
  have hp := steps_12_366 per hper
  cases dist with
  | other => cases h
  | gamma =>
    unfold distTransform at h
    simp only [bind, Except.bind] at h
    split at h
    · cases h
    · rename_i ab _
      rcases transformFittedGamma_inv E n _ data ds cs ce per _ _ t hp h with ⟨hn, rfl⟩ | ⟨hn, al, be, al', be', hal, hbe, _, _, rfl, _⟩
      · refine ⟨rfl, fun _ _ => nan, fun _ => rfl, ?_⟩
        intro i x hx; rw [← eq_nan_of_allNan data hn i x hx]; exact hx
      · refine ⟨by rw [gammaOut_length E n _ data al be hlen hal hbe, hlen],
          fun j x => gammaTransform1 E (p0Col n (stride per.steps j data)) (al.getD j nan) (be.getD j nan) (zeroToNan x),
          ?_, ?_⟩
        · intro j; simp only [zeroToNan_nan]; exact gammaTransform1_nan E hE _ _ _
        · intro i x hx
          obtain ⟨α, β, h1, h2, h3⟩ := gammaOut_getElem? E n _ data al be hlen hal hbe i x hx
          simp only [List.getD, h1, h2, Option.getD_some]
          exact h3
  | pearson =>
    unfold distTransform at h
    simp only [bind, Except.bind] at h
    split at h
    · cases h
    · rename_i args _
      rcases transformFittedPearson_inv E _ n _ data ds cs ce per args t hper rfl h with ⟨hn, rfl⟩ | ⟨hn, ps, hps, rfl, _⟩
      · refine ⟨rfl, fun _ _ => nan, fun _ => rfl, ?_⟩
        intro i x hx; rw [← eq_nan_of_allNan data hn i x hx]; exact hx
      · have hlt : data.length = (tile n ps).length := by rw [tile_length, hps, hlen]
        refine ⟨pearsonFit_length E data _ (by omega),
          fun j x => pearsonTransform1 E (ps.getD j ⟨nan, nan, nan, nan⟩) x,
          fun j => pearsonTransform1_nan E hE _, ?_⟩
        intro i x hx
        have hi : i < n * ps.length := by
          rw [hps, ← hlen]; rw [List.getElem?_eq_some_iff] at hx; exact hx.1
        have hpos : 0 < ps.length := by
          rcases Nat.eq_zero_or_pos ps.length with h0 | h0
          · rw [h0] at hi; omega
          · exact h0
        have hq := tile_getElem? n ps i hi
        have hm := Nat.mod_lt i hpos
        rw [List.getElem?_eq_getElem hm] at hq
        simp only [← hps, List.getD, List.getElem?_eq_getElem hm, Option.getD_some]
        exact pearsonFit_getElem? E hE.pearson3Cdf_nan hE.normPpf_nan data _ i x _ hx hq

end laws

/-- `_validate_array` of a 1-D array reshapes it -/
theorem validateArray_of1d (l : List F) (per : Periodicity) :
    validateArray (Arr.of1d l) per = reshapeValues (Arr.of1d l) per := by
  cases per <;> rfl

theorem allNan_append_nan [FloatLaws F] (l : List F) (k : Nat) :
    allNan (l ++ List.replicate k nan) = allNan l := by
  unfold allNan
  rw [List.all_append]
  have : (List.replicate k (nan : F)).all isNan = true := by
    rw [List.all_eq_true]; intro x hx; rw [List.eq_of_mem_replicate hx]; simp
  rw [this, Bool.and_true]

/-- the transform of a 1-D series is the transform of its 2-D arrangement, unless it is entirely missing -/
theorem distTransform_of1d [FloatLaws F] (E : Ext F) (l : List F) (dist : Distribution) (ds cs ce : Int)
    (per : Periodicity) (fp : Option (FitDict F)) (hn : allNan l = false) (hper : per ≠ .other) :
    ∃ n, (l ++ List.replicate (padCount l.length per.steps) (nan : F)).length = n * per.steps ∧
      distTransform E (Arr.of1d l) dist ds cs ce per fp =
      distTransform E ⟨[n, per.steps], l ++ List.replicate (padCount l.length per.steps) nan⟩ dist ds cs ce per fp := by
  obtain ⟨n, hr, hl⟩ := reshapeValues_total l per hper
  have hv := validateArray_of1d l per
  rw [hr] at hv
  have hv2 := validateArray_2d n per.steps (l ++ List.replicate (padCount l.length per.steps) (nan : F)) per
    (steps_12_366 per hper)
  have hn2 := allNan_append_nan l (padCount l.length per.steps)
  rw [hn] at hn2
  have hn1 : allNan (Arr.of1d l).data = false := hn
  refine ⟨n, hl, ?_⟩
  cases dist with
  | other => rfl
  | gamma =>
    simp only [distTransform, bind, Except.bind]
    cases getGammaArgs fp with
    | error e => rfl
    | ok ab =>
      simp only [transformFittedGamma, hn1, hn2, hv, hv2, bind, Except.bind, Bool.false_eq_true, if_false]
  | pearson =>
    simp only [distTransform, bind, Except.bind]
    cases getPearsonArgs fp with
    | error e => rfl
    | ok args =>
      simp only [transformFittedPearson, hn1, hn2, hv, hv2, bind, Except.bind, Bool.false_eq_true, if_false]

/-- `spei` on data that are not entirely missing -/
theorem spei_inv (E : Ext F) (precips pet : Arr F) (scale : Int) (dist : Distribution) (per : Periodicity)
    (ds cs ce : Int) (fp : Option (FitDict F)) (out : Arr F)
    (h : spei E precips pet scale dist per ds cs ce fp = .ok out) :
    (allNan precips.data = true ∧ out = precips) ∨
    (allNan precips.data = false ∧ precips.data.length = pet.data.length ∧ ∃ scaled t,
      sumToScale (List.zipWith (fun a b => (a - b) + lit 1000) (clipNeg precips.data) pet.data) scale = .ok scaled ∧
      distTransform E (Arr.of1d scaled) dist ds cs ce per (normFitdict fp) = .ok t ∧
      out = Arr.of1d (clipFlattenTruncate t precips.data.length)) := by
  unfold spei at h
  cases hn : allNan precips.data with
  | true => left; simp only [hn, if_true] at h; cases h; exact ⟨rfl, rfl⟩
  | false =>
    right
    obtain ⟨m, hm⟩ := amin_ok _ (ne_nil_of_allNan _ hn)
    simp only [hn, Bool.false_eq_true, if_false] at h
    split at h
    · cases h
    · rename_i hl
      have hl : precips.data.length = pet.data.length := by simpa using hl
      have hc : clipNeg precips.data =
          if flt m (lit 0) then precips.data.map (npClipMin (lit 0)) else precips.data := by
        unfold clipNeg; rw [hm]
      have hl' : (if flt m (lit 0) = true then precips.data.map (npClipMin (lit 0)) else precips.data).length
          = precips.data.length := by split <;> simp
      refine ⟨rfl, hl, ?_⟩
      simp only [hm, bind, Except.bind, hl'] at h
      rw [hc]
      split at h
      · cases h
      · rename_i scaled hs
        refine ⟨scaled, ?_⟩
        cases dist with
        | other => cases h
        | gamma =>
          simp only [distTransform, bind, Except.bind]
          simp only at h
          split at h
          · cases h
          · split at h
            · cases h
            · rename_i t ht
              cases h
              exact ⟨t, hs, ht, rfl⟩
        | pearson =>
          simp only [distTransform, bind, Except.bind]
          simp only at h
          split at h
          · cases h
          · split at h
            · cases h
            · rename_i t ht
              cases h
              exact ⟨t, hs, ht, rfl⟩

end CI
