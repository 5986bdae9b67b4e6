import Verif.Props.SpiBasic

/-! Values of the transforms in terms of the calendar column and the calibration rows. -/

namespace CI
open Props
variable {F : Type} [FloatOps F]

section generic
variable {α : Type}

theorem slice_congr (x y : List α) (a b : Nat)
    (h : ∀ i, a ≤ i → i < b → x[i]? = y[i]?) : slice x a b = slice y a b := by
  apply List.ext_getElem?
  intro i
  unfold slice
  by_cases hi : i < b - a
  · rw [List.getElem?_take_of_lt hi, List.getElem?_take_of_lt hi, List.getElem?_drop, List.getElem?_drop]
    exact h _ (by omega) (by omega)
  · rw [List.getElem?_eq_none (by len_omega), List.getElem?_eq_none (by len_omega)]

theorem slice_length' (l : List α) (a b : Nat) : (slice l a b).length = min (b - a) (l.length - a) := by
  unfold slice; len_omega

theorem slice_all (l : List α) (b : Nat) (h : l.length ≤ b) : slice l 0 b = l := by
  unfold slice; rw [List.drop_zero, List.take_of_length_le (by omega)]

/-- a column of a block of rows depends only on that column -/
theorem stride_rows_congr (x y : List α) (p j a b : Nat) (hl : x.length = y.length)
    (h : ∀ i, i % p = j → x[i]? = y[i]?) :
    stride p j (slice x (a * p) b) = stride p j (slice y (a * p) b) := by
  apply stride_congr
  · rw [slice_length', slice_length', hl]
  · intro i hi
    by_cases hib : i < b - a * p
    · rw [slice_getElem? _ _ _ _ hib, slice_getElem? _ _ _ _ hib]
      apply h
      rw [Nat.mul_comm, Nat.mul_add_mod]; exact hi
    · rw [List.getElem?_eq_none (by rw [slice_length']; omega), List.getElem?_eq_none (by rw [slice_length']; omega)]

theorem stride_calib_congr (x y : List α) (n p j : Nat) (ds cs ce : Int) (hl : x.length = y.length)
    (h : ∀ i, i % p = j → x[i]? = y[i]?) :
    stride p j (calibrationValues x n p ds cs ce) = stride p j (calibrationValues y n p ds cs ce) := by
  unfold calibrationValues rowSlice
  exact stride_rows_congr x y p j _ _ hl h

/-- the calibration rows when the period lies within the record -/
theorem calibrationValues_within (x : List α) (n p : Nat) (ds cs ce : Int) (h1 : ds ≤ cs) (h2 : cs ≤ ce + 1)
    (h3 : ce + 1 ≤ ds + n) :
    calibrationValues x n p ds cs ce = slice x ((cs - ds).toNat * p) ((ce + 1 - ds).toNat * p) := by
  unfold calibrationValues rowSlice adjustCalibrationYears
  simp only
  rw [if_neg (by omega)]
  simp only
  rw [sliceBound_nonneg _ _ (by omega), sliceBound_nonneg _ _ (by omega)]
  congr 2
  · omega
  · omega

/-- the calibration rows when the period starts before or ends far after the record -/
theorem calibrationValues_outside (x : List α) (n p : Nat) (ds cs ce : Int) (h : cs < ds ∨ ds + n < ce)
    (hl : x.length = n * p) : calibrationValues x n p ds cs ce = x := by
  unfold calibrationValues rowSlice adjustCalibrationYears
  simp only
  rw [if_pos (by omega)]
  simp only
  rw [sliceBound_nonneg _ _ (by omega), sliceBound_nonneg _ _ (by omega)]
  have e1 : min (ds - ds).toNat n = 0 := by omega
  have e2 : min (ds + n - ds + 1).toNat n = n := by omega
  rw [e1, e2, Nat.zero_mul]
  exact slice_all _ _ (by omega)

theorem calibrationValues_map {β : Type} (f : α → β) (x : List α) (n p : Nat) (ds cs ce : Int) :
    calibrationValues (x.map f) n p ds cs ce = (calibrationValues x n p ds cs ce).map f := by
  unfold calibrationValues rowSlice; exact slice_map f _ _ _

theorem mem_calibrationValues (x : List α) (n p : Nat) (ds cs ce : Int) (v : α)
    (h : v ∈ calibrationValues x n p ds cs ce) : v ∈ x := by
  unfold calibrationValues rowSlice slice at h
  exact List.mem_of_mem_drop (List.mem_of_mem_take h)

theorem mem_of_mem_stride (x : List α) (p j : Nat) (v : α) (h : v ∈ stride p j x) : v ∈ x := by
  obtain ⟨i, _, hi⟩ := (mem_stride p j x v).1 h
  exact List.mem_of_getElem? hi

end generic

section laws
variable [FloatLaws F]

theorem nanmean_allNan (l : List F) (h : ∀ x ∈ l, x = nan) : nanmean l = nan := by
  unfold nanmean
  have : l.filter (fun x => !isNan x) = [] := by
    rw [List.filter_eq_nil_iff]; intro x hx; rw [h x hx]; simp
  simp [this]

theorem gammaFitCol_allNan (E : Ext F) (hE : ExtNan E) (col : List F) (h : ∀ x ∈ col, x = nan) :
    gammaFitCol E col = (nan, nan) := by
  have h1 := nanmean_allNan col h
  unfold gammaFitCol
  simp only [h1, hE.log_nan]
  simp

/-- the parameters of every well-formed 2-D array are the column fits (also for entirely missing data) -/
theorem gammaParameters_fits (E : Ext F) (hE : ExtNan E) (n : Nat) (data : List F) (ds cs ce : Int)
    (per : Periodicity) (hper : per ≠ .other) :
    gammaParameters E ⟨[n, per.steps], data⟩ ds cs ce per =
      .ok ((gammaFits E n per.steps data ds cs ce).map Prod.fst, (gammaFits E n per.steps data ds cs ce).map Prod.snd) := by
  cases hn : allNan data with
  | false => exact gammaParameters_2d E n _ data ds cs ce per (steps_12_366 per hper) hn
  | true =>
    have hfit : gammaFits E n per.steps data ds cs ce = List.replicate per.steps (nan, nan) := by
      unfold gammaFits
      rw [List.eq_replicate_iff]
      refine ⟨by simp, ?_⟩
      intro b hb
      obtain ⟨j, _, rfl⟩ := List.mem_map.1 hb
      apply gammaFitCol_allNan E hE
      intro x hx
      have := mem_calibrationValues _ _ _ _ _ _ _ (mem_of_mem_stride _ _ _ _ hx)
      obtain ⟨y, hy, rfl⟩ := List.mem_map.1 this
      unfold allNan at hn; rw [List.all_eq_true] at hn
      rw [(FloatLaws.isNan_iff y).1 (hn y hy)]; exact zeroToNan_nan
    rw [hfit]
    unfold gammaParameters
    simp only [hn, if_true, List.map_replicate]
    cases per with
    | other => exact absurd rfl hper
    | monthly => rfl
    | daily => rfl

theorem gammaFits_zeroToNan (E : Ext F) (n p : Nat) (data : List F) (ds cs ce : Int) :
    gammaFits E n p (data.map zeroToNan) ds cs ce = gammaFits E n p data ds cs ce := by
  unfold gammaFits; rw [zeroToNan_map_idem]

theorem innerGamma_fits (E : Ext F) (hE : ExtNan E) (n : Nat) (data : List F) (ds cs ce : Int)
    (per : Periodicity) (hper : per ≠ .other) :
    innerGammaParameters E n per.steps data ds cs ce per =
      .ok ((gammaFits E n per.steps data ds cs ce).map Prod.fst, (gammaFits E n per.steps data ds cs ce).map Prod.snd) := by
  unfold innerGammaParameters
  rw [gammaParameters_fits E hE n _ ds cs ce per hper, gammaFits_zeroToNan]

/-- value of a broadcast parameter for column `j` -/
def bcastAt (p : Nat) (a : List F) (j : Nat) : F := if a.length = p then a.getD j nan else a.getD 0 nan

omit [FloatLaws F] in
theorem bcast_getD (p : Nat) (a b : List F) (h : bcast p a = .ok b) (j : Nat) (hj : j < p) (x : F)
    (hx : b[j]? = some x) : x = bcastAt p a j := by
  unfold bcast at h
  unfold bcastAt
  split at h
  · rename_i hl; cases h; rw [if_pos hl]; simp [List.getD, hx]
  · rename_i hl
    split at h
    · rename_i y
      cases h
      rw [if_neg hl]
      rw [List.getElem?_replicate, if_pos hj] at hx
      simpa using hx.symm
    · cases h

/-- alpha and beta of column `j`: the given ones, or the fit of the calibration rows -/
def gammaParamAt (E : Ext F) (n p : Nat) (data : List F) (ds cs ce : Int) (a b : Option (List F)) (j : Nat) : F × F :=
  match a, b with
  | some a, some b => (bcastAt p a j, bcastAt p b j)
  | _, _ => gammaFitCol E (stride p j (calibrationValues (data.map zeroToNan) n p ds cs ce))

theorem gamma_value (E : Ext F) (hE : ExtNan E) (n : Nat) (data : List F) (ds cs ce : Int) (per : Periodicity)
    (a b : Option (List F)) (t : Arr F) (hper : per ≠ .other) (hlen : data.length = n * per.steps)
    (h : transformFittedGamma E ⟨[n, per.steps], data⟩ ds cs ce per a b = .ok t) (i : Nat) (x : F)
    (hx : data[i]? = some x) :
    t.data[i]? = some (gammaTransform1 E (p0Col n (stride per.steps (i % per.steps) data))
      (gammaParamAt E n per.steps data ds cs ce a b (i % per.steps)).1
      (gammaParamAt E n per.steps data ds cs ce a b (i % per.steps)).2 (zeroToNan x)) := by
  have hm : i % per.steps < per.steps := Nat.mod_lt _ (steps_pos per hper)
  rcases transformFittedGamma_inv E n _ data ds cs ce per a b t (steps_12_366 per hper) h with
    ⟨hn, rfl⟩ | ⟨hn, al, be, al', be', hal, hbe, hba, hbb, rfl, hsrc⟩
  · have := eq_nan_of_allNan data hn i x hx
    subst this
    rw [zeroToNan_nan, gammaTransform1_nan E hE]; exact hx
  · obtain ⟨α, β, h1, h2, h3⟩ := gammaOut_getElem? E n _ data al be hlen hal hbe i x hx
    rw [h3]
    rcases hsrc with ⟨rfl, rfl⟩ | ⟨hnone, hin⟩
    · rw [bcast_getD _ _ _ hba _ hm _ h1, bcast_getD _ _ _ hbb _ hm _ h2]; rfl
    · have hP : gammaParamAt E n per.steps data ds cs ce a b (i % per.steps) =
          gammaFitCol E (stride per.steps (i % per.steps) (calibrationValues (data.map zeroToNan) n per.steps ds cs ce)) := by
        unfold gammaParamAt
        split
        · simp at hnone
        · rfl
      rw [hP]
      rw [innerGamma_fits E hE n data ds cs ce per hper] at hin
      injection hin with hin
      injection hin with ha' hb'
      subst ha'; subst hb'
      rw [bcast_length _ _ (by rw [List.length_map, gammaFits_length])] at hba hbb
      cases hba; cases hbb
      rw [List.getElem?_map, gammaFits, List.getElem?_map, List.getElem?_range hm] at h1 h2
      simp only [Option.map_some, Option.some.injEq] at h1 h2
      rw [← h1, ← h2]

/-- Pearson parameters of column `j`: the given ones, or the fit of the calibration rows (`none` if it raises) -/
def pearsonParamAt (fit : List F → Res (F × F × F)) (n p : Nat) (data : List F) (ds cs ce : Int)
    (args : PearsonArgs F) (j : Nat) : Option (PearsonParams F) :=
  match args with
  | ⟨some a, some b, some c, some d⟩ => some ⟨bcastAt p a j, bcastAt p b j, bcastAt p c j, bcastAt p d j⟩
  | _ => (calculateTimeStepParams fit (stride p j (calibrationValues data n p ds cs ce))).toOption

theorem pearson_value (E : Ext F) (hE : ExtNan E) (fit : List F → Res (F × F × F)) (n : Nat) (data : List F)
    (ds cs ce : Int) (per : Periodicity) (args : PearsonArgs F) (t : Arr F) (hper : per ≠ .other)
    (hlen : data.length = n * per.steps)
    (h : transformFittedPearson E fit ⟨[n, per.steps], data⟩ ds cs ce per args = .ok t) (i : Nat) (x : F)
    (hx : data[i]? = some x) :
    (allNan data = true ∧ t.data[i]? = some nan) ∨
    (∃ q, pearsonParamAt fit n per.steps data ds cs ce args (i % per.steps) = some q ∧
      t.data[i]? = some (pearsonTransform1 E q x)) := by
  have hm : i % per.steps < per.steps := Nat.mod_lt _ (steps_pos per hper)
  rcases transformFittedPearson_inv E fit n _ data ds cs ce per args t hper rfl h with
    ⟨hn, rfl⟩ | ⟨hn, ps, hps, rfl, hsrc⟩
  · left
    have := eq_nan_of_allNan data hn i x hx
    subst this
    exact ⟨hn, hx⟩
  · right
    have hi : i < n * ps.length := by
      rw [hps, ← hlen]; rw [List.getElem?_eq_some_iff] at hx; exact hx.1
    have hq := tile_getElem? n ps i hi
    rw [hps] at hq
    have hmp : i % per.steps < ps.length := by rw [hps]; exact hm
    rw [List.getElem?_eq_getElem hmp] at hq
    refine ⟨ps[i % per.steps], ?_, pearsonFit_getElem? E hE.pearson3Cdf_nan hE.normPpf_nan data _ i x _ hx hq⟩
    rcases hsrc with ⟨rfl, hfit⟩ | ⟨a, b, c, d, a', b', c', d', rfl, ha, hb, hc, hd, rfl⟩
    · unfold pearsonFits at hfit
      obtain ⟨q, hq1, hq2⟩ := mapM_getElem? _ _ _ hfit (i % per.steps) (i % per.steps)
        (by rw [List.getElem?_range hm])
      rw [List.getElem?_eq_getElem hmp] at hq2
      simp only [Option.some.injEq] at hq2
      simp only [pearsonParamAt, hq1, hq2, Except.toOption]
    · simp only [pearsonParamAt, zipParams, List.getElem_zipWith, List.getElem_zip, Option.some.injEq]
      have la := bcast_ok_length _ _ _ ha
      have lb := bcast_ok_length _ _ _ hb
      have lc := bcast_ok_length _ _ _ hc
      have ld := bcast_ok_length _ _ _ hd
      rw [← bcast_getD _ _ _ ha _ hm _ (List.getElem?_eq_getElem (by omega)),
        ← bcast_getD _ _ _ hb _ hm _ (List.getElem?_eq_getElem (by omega)),
        ← bcast_getD _ _ _ hc _ hm _ (List.getElem?_eq_getElem (by omega)),
        ← bcast_getD _ _ _ hd _ hm _ (List.getElem?_eq_getElem (by omega))]

omit [FloatLaws F] in
/-- what a successful `spi` of a series with at least one number computes -/
theorem spi_point (E : Ext F) (values : Arr F) (scale : Int) (dist : Distribution)
    (ds cs ce : Int) (per : Periodicity) (fp : Option (FitDict F)) (out : List F) (hn : allNan values.data = false)
    (h : spi E values scale dist ds cs ce per fp = .ok out) :
    per ≠ .other ∧ ∃ s n t, sumToScale (clipNeg values.data) scale = .ok s ∧
      (s ++ List.replicate (padCount s.length per.steps) (nan : F)).length = n * per.steps ∧
      distTransform E ⟨[n, per.steps], s ++ List.replicate (padCount s.length per.steps) nan⟩ dist ds cs ce per fp = .ok t ∧
      ∀ i, i < values.data.length → out[i]? = (t.data[i]?).map (npClip (lit (-3.09)) (lit 3.09)) := by
  obtain ⟨_, ⟨h1, _⟩ | ⟨_, s, a, t, hs, ha, ht, rfl⟩⟩ := spi_inv E values scale dist ds cs ce per fp out h
  · rw [hn] at h1; cases h1
  · obtain ⟨hper, n, hsh, hlen, hdata⟩ := reshapeValues_ok s per a ha
    obtain ⟨sh, d⟩ := a
    simp only at hsh hdata hlen
    subst hsh hdata
    refine ⟨hper, s, n, t, hs, hlen, ht, ?_⟩
    intro i hi
    unfold clipFlattenTruncate
    rw [List.getElem?_take_of_lt hi, List.getElem?_map]
    rfl

/-- values that are not below zero are not clipped -/
theorem clipNeg_id (x : List F) (h : ∀ v ∈ x, flt v (lit 0) = false) : clipNeg x = x := by
  have h0 : ∀ (l : List F) (m : F), flt m (lit 0) = false → (∀ v ∈ l, flt v (lit 0) = false) →
      flt (l.foldl (fun m y => if flt y m then y else m) m) (lit 0) = false := by
    intro l
    induction l with
    | nil => intro m hm _; exact hm
    | cons a l ih =>
      intro m hm hl
      simp only [List.foldl_cons]
      apply ih
      · split
        · exact hl a (by simp)
        · exact hm
      · intro v hv; exact hl v (by simp [hv])
  unfold clipNeg amin
  cases x with
  | nil => rfl
  | cons a l =>
    simp only
    split
    · rename_i m hm
      split at hm
      · cases hm; simp
      · cases hm
        rw [h0 l a (h a (by simp)) (fun v hv => h v (by simp [hv]))]
        simp
    · rfl

end laws
end CI
