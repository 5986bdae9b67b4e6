import Verif.Props.PalmerMono
import Verif.Props.PalmerZ
import Verif.Lemmas.PalmerCast

/-!
# C94 for a record of precipitation: more rain in the current month never lowers the current PDSI
-/

namespace CI.Props
open CI Fl Mirror Spec.PalmerZ

section spec
variable {awc : ℝ} {p p' e : ℕ → ℝ} {T : ℕ}

theorem soil_agree (h : ∀ t, t < T → p t = p' t) : ∀ t, t ≤ T → soil awc p e t = soil awc p' e t := by
  intro t
  induction t with
  | zero => intro _; rfl
  | succ t ih =>
    intro ht
    simp only [soil]
    rw [ih (by omega), h t (by omega)]

theorem parts_agree (h : ∀ t, t < T → p t = p' t) (t : ℕ) (ht : t < T) :
    recharge awc p e t = recharge awc p' e t ∧ loss awc p e t = loss awc p' e t ∧ runoff awc p e t = runoff awc p' e t ∧
      evap awc p e t = evap awc p' e t := by
  unfold evap runoff recharge loss
  rw [soil_agree h t ht.le, h t ht]
  exact ⟨rfl, rfl, rfl, rfl⟩

theorem pot_agree (h : ∀ t, t < T → p t = p' t) (t : ℕ) (ht : t ≤ T) :
    potRecharge awc p e t = potRecharge awc p' e t ∧ potRunoff awc p e t = potRunoff awc p' e t ∧ potLoss awc p e t = potLoss awc p' e t := by
  unfold potRecharge potRunoff potLoss
  rw [soil_agree h t ht]
  exact ⟨rfl, rfl, rfl⟩

theorem mean_agree {a k j : ℕ} (hk : 12 * (a + k) ≤ T) (hj : j < 12) {f g : ℕ → ℝ} (h : ∀ t, t < T → f t = g t) : mean a k j f = mean a k j g := by
  unfold mean
  rw [Finset.sum_congr rfl (fun y hy => h _ (by have := Finset.mem_range.1 hy; omega))]

theorem departure_agree (c : Coef) (h : ∀ t, t < T → p t = p' t) (t : ℕ) (ht : t ≤ T) :
    departure awc p e c t = departure awc p' e c t + (p t - p' t) := by
  obtain ⟨h1, h2, h3⟩ := pot_agree (awc := awc) (e := e) h t ht
  unfold departure
  rw [h1, h2, h3]
  ring

/-- the quantities of the calibration years do not depend on a later month -/
theorem weight_agree (c : Coef) (h : ∀ t, t < T → p t = p' t) {a k : ℕ} (hk : 12 * (a + k) ≤ T) :
    (∀ j, j < 12 → D awc p e c a k j = D awc p' e c a k j) ∧ (∀ j, j < 12 → supply awc p e a k j = supply awc p' e a k j) ∧
      total awc p e c a k = total awc p' e c a k ∧ (∀ j, j < 12 → weight awc p e c a k j = weight awc p' e c a k j) := by
  have hD : ∀ j, j < 12 → D awc p e c a k j = D awc p' e c a k j := by
    intro j hj
    unfold D
    refine mean_agree hk hj (fun t ht => ?_)
    rw [departure_agree c h t ht.le, h t ht, sub_self, add_zero]
  have hS : ∀ j, j < 12 → supply awc p e a k j = supply awc p' e a k j := by
    intro j hj
    unfold supply
    rw [mean_agree hk hj h, mean_agree hk hj (fun t ht => (parts_agree h t ht).2.1)]
  have hK : ∀ j, j < 12 → K' awc p e c a k j = K' awc p' e c a k j := by
    intro j hj
    unfold K' Spec.PalmerZ.T
    rw [hD j hj, hS j hj, mean_agree hk hj (fun t ht => (parts_agree h t ht).1), mean_agree hk hj (fun t ht => (parts_agree h t ht).2.2.1)]
  have hT : total awc p e c a k = total awc p' e c a k := by
    unfold total
    exact Finset.sum_congr rfl (fun j hj => by rw [hD j (Finset.mem_range.1 hj), hK j (Finset.mem_range.1 hj)])
  refine ⟨hD, hS, hT, fun j hj => ?_⟩
  unfold weight
  rw [hT, hK j hj]

theorem coef_agree (h : ∀ t, t < T → p t = p' t) {a k j : ℕ} (hk : 12 * (a + k) ≤ T) (hj : j < 12) :
    (coef awc p e a k).alpha j = (coef awc p' e a k).alpha j ∧ (coef awc p e a k).beta j = (coef awc p' e a k).beta j ∧
      (coef awc p e a k).gamma j = (coef awc p' e a k).gamma j ∧ (coef awc p e a k).delta j = (coef awc p' e a k).delta j := by
  unfold coef
  simp only
  have q := fun t (ht : t < T) => pot_agree (awc := awc) (e := e) h t ht.le
  have r := fun t (ht : t < T) => parts_agree (awc := awc) (e := e) h t ht
  rw [mean_agree hk hj (fun t ht => (r t ht).2.2.2), mean_agree hk hj (fun t ht => (r t ht).1), mean_agree hk hj (fun t ht => (r t ht).2.2.1),
    mean_agree hk hj (fun t ht => (r t ht).2.1), mean_agree hk hj (fun t ht => (q t ht).1), mean_agree hk hj (fun t ht => (q t ht).2.1),
    mean_agree hk hj (fun t ht => (q t ht).2.2)]
  exact ⟨rfl, rfl, rfl, rfl⟩

end spec

/-- the spell computation behind a record of complete years whose coefficients in use are `c` -/
theorem zindex_cells (log10 : Fl ℝ → Fl ℝ) (hlog : ∀ x, 0 < x → log10 (.fin x) = .fin (Real.logb 10 x)) (awc : ℝ) (ha : 1 ≤ awc) (p e : ℕ → ℝ)
    (hp : ∀ t, 0 ≤ p t) (he : ∀ t, 0 ≤ e t) (L a k : ℕ) (h12 : 12 ∣ L) (hk0 : 0 < k) (hk : 12 * (a + k) ≤ L) (ds : ℤ) (fp : Option (PalmerDict (Fl ℝ)))
    (c : Coef) (hc : ∀ tail, Holds12 (palmerCoefs fp ((List.range 12).map
      (monthSums a (a + k - 1 : ℤ) (((List.range L).map (month awc p e)).map (Balance.map Fl.fin) ++ tail)))) c)
    (hs : ∀ j, j < 12 → 0 < supply awc p e a k j) (hd : ∀ j, j < 12 → 0 < D awc p e c a k j) (ht : total awc p e c a k ≠ 0) (out : PalmerOut (Fl ℝ))
    (h : palmerPdsi log10 (realSeries L p) (realSeries L e) (fin awc) ds (ds + a) (ds + a + k - 1) fp = .ok out) :
    ∃ cells, spellCells (((List.range L).map (Z awc p e c a k)).map Fl.fin) = .ok cells ∧ cells.length = L ∧
      out.pdsi.data = cells.map (·.pdsi) ∧ out.phdi.data = cells.map (·.phdi) := by
  obtain ⟨n, tail, hn, htl, hrun⟩ := palmerPdsi_series log10 awc ha p e hp he L (by omega) ds (ds + a) (ds + a + k - 1) fp
  rw [hrun] at h
  have e1 : ds + (a : ℤ) - ds = a := by ring
  have e2 : ds + (a : ℤ) + k - 1 - ds = a + k - 1 := by ring
  simp only [e1, e2, bind, Except.bind, pure, Except.pure] at h
  rw [kfactors_fin log10 hlog awc ha p e hp he _ c (hc tail) L a k n hk0 hk (by omega) tail hs hd ht] at h
  have hz := zValues_months awc p e _ c (hc tail) L a k tail
  rw [List.take_of_length_le (by rw [zValues_length, List.length_append, List.length_map, List.length_map, List.length_range, htl]; omega)] at hz
  simp only [hz] at h
  split at h
  · cases h
  · next cells hcells =>
    cases h
    have hl := (C40_assigned _ cells hcells).1
    rw [List.length_map, List.length_range] at hl
    refine ⟨cells, by rw [List.map_map]; exact hcells, hl, ?_, ?_⟩
    · exact List.take_of_length_le (by rw [List.length_map]; exact hl.le)
    · exact List.take_of_length_le (by rw [List.length_map]; exact hl.le)

/-- a month with an established index has it as PHDI -/
theorem cells_phdi (zs : List (Fl ℝ)) (cells : List (Cell (Fl ℝ))) (h : spellCells zs = .ok cells) (c : Cell (Fl ℝ)) (hc : c ∈ cells) (x : ℝ)
    (hx : c.px3 = fin x) : x = 0 ∨ c.phdi = fin x := by
  have hs : ¬ Stuck zs := by
    intro hc
    rw [spellCells_error zs hc] at h
    cases h
  obtain ⟨cells', h1, h2, h3⟩ := spellCells_spec zs hs
  rw [h] at h1
  cases h1
  obtain ⟨j, hj, rfl⟩ := List.mem_iff_getElem.1 hc
  have hjm : j < (months zs).length := by rw [months_length]; omega
  obtain ⟨c', g1, _, g3⟩ := h3 j _ (List.getElem?_eq_getElem hjm)
  rw [List.getElem?_eq_getElem hj] at g1
  cases g1
  obtain ⟨ml, hml⟩ : ∃ ml, (months zs).getLast? = some ml := by
    cases hl : (months zs).getLast? with
    | none => rw [List.getLast?_eq_none_iff] at hl; rw [hl] at hjm; simp at hjm
    | some ml => exact ⟨ml, rfl⟩
  have hf := (g3 ml hml).phdi
  rw [hx, lit0, feq_fin] at hf
  by_cases h0 : x = 0
  · exact Or.inl h0
  · rw [decide_eq_false h0] at hf
    exact Or.inr hf

/-- C94 for records with the same coefficients in use -/
theorem record_mono (log10 : Fl ℝ → Fl ℝ) (hlog : ∀ x, 0 < x → log10 (.fin x) = .fin (Real.logb 10 x)) (awc : ℝ) (ha : 1 ≤ awc) (p p' e : ℕ → ℝ)
    (hp : ∀ t, 0 ≤ p t) (hp' : ∀ t, 0 ≤ p' t) (he : ∀ t, 0 ≤ e t) (N a k : ℕ) (hk0 : 0 < k) (hk : a + k < N) (ds : ℤ)
    (fp : Option (PalmerDict (Fl ℝ))) (c : Coef)
    (hsame : ∀ t, t < 12 * N - 1 → p t = p' t) (hmore : p (12 * N - 1) ≤ p' (12 * N - 1))
    (hc : ∀ tail, Holds12 (palmerCoefs fp ((List.range 12).map
      (monthSums a (a + k - 1 : ℤ) (((List.range (12 * N)).map (month awc p e)).map (Balance.map Fl.fin) ++ tail)))) c)
    (hc' : ∀ tail, Holds12 (palmerCoefs fp ((List.range 12).map
      (monthSums a (a + k - 1 : ℤ) (((List.range (12 * N)).map (month awc p' e)).map (Balance.map Fl.fin) ++ tail)))) c)
    (hs : ∀ j, j < 12 → 0 < supply awc p e a k j) (hd : ∀ j, j < 12 → 0 < D awc p e c a k j) (ht : total awc p e c a k ≠ 0)
    (hw : 0 ≤ weight awc p e c a k 11) (out out' : PalmerOut (Fl ℝ))
    (h : palmerPdsi log10 (realSeries (12 * N) p) (realSeries (12 * N) e) (fin awc) ds (ds + a) (ds + a + k - 1) fp = .ok out)
    (h' : palmerPdsi log10 (realSeries (12 * N) p') (realSeries (12 * N) e) (fin awc) ds (ds + a) (ds + a + k - 1) fp = .ok out')
    (hband : ∀ x, fin x ∈ out.phdi.data.dropLast → ¬ (0.5 < |x| ∧ |x| ≤ 1.5 / 2.691)) :
    ∃ x y : ℝ, out.pdsi.data.getLast? = some (fin x) ∧ out'.pdsi.data.getLast? = some (fin y) ∧ x ≤ y := by
  have hkT : 12 * (a + k) ≤ 12 * N - 1 := by omega
  obtain ⟨wD, wS, wT, wW⟩ := weight_agree (awc := awc) (e := e) c hsame hkT
  obtain ⟨cells, k1, k2, k3, k4⟩ := zindex_cells log10 hlog awc ha p e hp he (12 * N) a k ⟨N, rfl⟩ hk0 (by omega) ds fp c hc hs hd ht out h
  obtain ⟨cells', l1, l2, l3, _⟩ := zindex_cells log10 hlog awc ha p' e hp' he (12 * N) a k ⟨N, rfl⟩ hk0 (by omega) ds fp c hc'
    (fun j hj => by rw [← wS j hj]; exact hs j hj) (fun j hj => by rw [← wD j hj]; exact hd j hj) (by rw [← wT]; exact ht) out' h'
  have hr : List.range (12 * N) = List.range (12 * N - 1) ++ [12 * N - 1] := by
    rw [← List.range_succ]; congr 1; omega
  have hmod : (12 * N - 1) % 12 = 11 := by omega
  have hpast : (List.range (12 * N - 1)).map (Z awc p' e c a k) = (List.range (12 * N - 1)).map (Z awc p e c a k) := by
    apply List.map_congr_left
    intro t ht
    rw [List.mem_range] at ht
    unfold Z
    rw [departure_agree c hsame t ht.le, hsame t ht, sub_self, add_zero, wW _ (Nat.mod_lt _ (by decide))]
  have hlast : Z awc p e c a k (12 * N - 1) ≤ Z awc p' e c a k (12 * N - 1) := by
    unfold Z
    rw [hmod, ← wW 11 (by decide), departure_agree c hsame _ le_rfl]
    exact mul_le_mul_of_nonneg_left (by linarith) hw
  rw [hr, List.map_append] at k1 l1
  rw [hpast] at l1
  have hb : ∀ c ∈ cells.dropLast, ∀ x, c.px3 = fin x → ¬ (0.5 < |x| ∧ |x| ≤ 1.5 / 2.691) := by
    intro c hc x hx
    rcases cells_phdi _ cells k1 c (List.mem_of_mem_dropLast hc) x hx with rfl | hph
    · rintro ⟨h1, _⟩
      rw [abs_zero] at h1
      norm_num at h1
    · refine hband x ?_
      rw [k4, ← List.map_dropLast]
      exact List.mem_map.2 ⟨c, hc, hph⟩
  obtain ⟨u, u', x, y, e1, e2, e3, e4, _, _, hxy⟩ := C94_partial _ _ _ hlast cells cells' k1 l1 hb
  refine ⟨x, y, ?_, ?_, hxy⟩
  · rw [k3, List.getLast?_map, e1, Option.map_some, e3]
  · rw [l3, List.getLast?_map, e2, Option.map_some, e4]

/-- C94 for precipitation (`_partial`, same gap): two records of `N` complete years that differ in the precipitation of the last month only, which is not
smaller in the second; the calibration years end before the last year, the other hypotheses are those of C86, the weight of December is not negative.
If no PHDI of the earlier months is in the band of C39, the PDSI of the last month is not smaller in the second record. -/
theorem C94_record_partial (log10 : Fl ℝ → Fl ℝ) (hlog : ∀ x, 0 < x → log10 (.fin x) = .fin (Real.logb 10 x)) (awc : ℝ) (ha : 1 ≤ awc) (p p' e : ℕ → ℝ)
    (hp : ∀ t, 0 ≤ p t) (hp' : ∀ t, 0 ≤ p' t) (he : ∀ t, 0 ≤ e t) (N a k : ℕ) (hk0 : 0 < k) (hk : a + k < N) (ds : ℤ)
    (hsame : ∀ t, t < 12 * N - 1 → p t = p' t) (hmore : p (12 * N - 1) ≤ p' (12 * N - 1))
    (hs : ∀ j, j < 12 → 0 < supply awc p e a k j) (hd : ∀ j, j < 12 → 0 < D awc p e (coef awc p e a k) a k j)
    (ht : total awc p e (coef awc p e a k) a k ≠ 0) (hw : 0 ≤ weight awc p e (coef awc p e a k) a k 11) (out out' : PalmerOut (Fl ℝ))
    (h : palmerPdsi log10 (realSeries (12 * N) p) (realSeries (12 * N) e) (fin awc) ds (ds + a) (ds + a + k - 1) none = .ok out)
    (h' : palmerPdsi log10 (realSeries (12 * N) p') (realSeries (12 * N) e) (fin awc) ds (ds + a) (ds + a + k - 1) none = .ok out')
    (hband : ∀ x, fin x ∈ out.phdi.data.dropLast → ¬ (0.5 < |x| ∧ |x| ≤ 1.5 / 2.691)) :
    ∃ x y : ℝ, out.pdsi.data.getLast? = some (fin x) ∧ out'.pdsi.data.getLast? = some (fin y) ∧ x ≤ y := by
  refine record_mono log10 hlog awc ha p p' e hp hp' he N a k hk0 hk ds none (coef awc p e a k) hsame hmore
    (fun tail => holds_calibrated awc p e _ a k hk0 (by omega) tail) (fun tail => ?_) hs hd ht hw out out' h h' hband
  intro j hj
  have := holds_calibrated awc p' e (12 * N) a k hk0 (by omega) tail j hj
  obtain ⟨c1, c2, c3, c4⟩ := coef_agree (awc := awc) (e := e) hsame (show 12 * (a + k) ≤ 12 * N - 1 by omega) hj
  rw [c1, c2, c3, c4]
  exact this

/-! ## A record that meets the hypotheses: two calibration years, one more year, more rain in the last month -/

/-- 2 inches a month in the first year, 4 inches later, and in the last month of the third year `r` inches -/
noncomputable def thirdYear (r : ℝ) (t : ℕ) : ℝ := if t = 35 then r else wetYears t

theorem thirdYear_same (r : ℝ) (t : ℕ) (ht : t < 35) : wetYears t = thirdYear r t := by
  unfold thirdYear
  rw [if_neg (by omega)]

theorem wetYears_total : total 1 wetYears oneInch (coef 1 wetYears oneInch 0 2) 0 2 = 12 * (1.5 * Real.logb 10 3.8 + 0.5) := by
  unfold total
  rw [Finset.sum_congr rfl (fun j hj => by rw [wetYears_D j (Finset.mem_range.1 hj), wetYears_K' j (Finset.mem_range.1 hj)])]
  simp
  ring

theorem wetYears_weight (j : ℕ) (hj : j < 12) : weight 1 wetYears oneInch (coef 1 wetYears oneInch 0 2) 0 2 j = 1.4725 := by
  have hpos := wetYears_K'_pos
  unfold weight
  rw [wetYears_total, wetYears_K' j hj]
  field_simp
  norm_num

/-- the Z values of the record -/
def thirdYearZ (z : ℚ) : List ℚ := List.replicate 12 (-1.4725) ++ List.replicate 23 1.4725 ++ [z]

/-- the record with `r` inches in the last month -/
theorem thirdYear_run (r : ℝ) (hr : 0 ≤ r) : ∃ out, palmerPdsi realLog10 (realSeries (12 * 3) (thirdYear r)) (realSeries (12 * 3) oneInch) (fin 1) 2000
    (2000 + (0 : ℕ)) (2000 + (0 : ℕ) + (2 : ℕ) - 1) none = .ok out := by
  have hp : ∀ t, 0 ≤ thirdYear r t := fun t => by
    unfold thirdYear
    have := wetYears_ge t
    split <;> linarith
  have he : ∀ t, 0 ≤ oneInch t := fun t => zero_le_one
  have hsame := thirdYear_same r
  obtain ⟨wD, wS, wT, wW⟩ := weight_agree (awc := 1) (e := oneInch) (coef 1 wetYears oneInch 0 2) hsame (show 12 * (0 + 2) ≤ 35 by norm_num)
  obtain ⟨n, tail, hn, htl, hrun⟩ := palmerPdsi_series realLog10 1 le_rfl (thirdYear r) oneInch hp he (12 * 3) (by norm_num) 2000
    (2000 + (0 : ℕ)) (2000 + (0 : ℕ) + (2 : ℕ) - 1) none
  rw [hrun]
  have e1 : (2000 : ℤ) + (0 : ℕ) - 2000 = (0 : ℕ) := by norm_num
  have e2 : (2000 : ℤ) + (0 : ℕ) + (2 : ℕ) - 1 - 2000 = (0 : ℕ) + (2 : ℕ) - 1 := by norm_num
  simp only [e1, e2, bind, Except.bind, pure, Except.pure]
  have hh : Holds12 (cafecCoefficients ((List.range 12).map (monthSums (0 : ℕ) ((0 : ℕ) + (2 : ℕ) - 1 : ℤ)
      (((List.range (12 * 3)).map (month 1 (thirdYear r) oneInch)).map (Balance.map Fl.fin) ++ tail)))) (coef 1 wetYears oneInch 0 2) := by
    intro j hj
    have := holds_calibrated 1 (thirdYear r) oneInch (12 * 3) 0 2 (by norm_num) (by norm_num) tail j hj
    obtain ⟨c1, c2, c3, c4⟩ := coef_agree (awc := 1) (e := oneInch) hsame (show 12 * (0 + 2) ≤ 35 by norm_num) hj
    rw [c1, c2, c3, c4]
    exact this
  have hk := kfactors_fin realLog10 realLog10_pos 1 le_rfl (thirdYear r) oneInch hp he _ _ hh (12 * 3) 0 2 n (by norm_num) (by norm_num) (by omega) tail
    (fun j hj => by rw [← wS j hj, wetYears_supply j hj]; norm_num) (fun j hj => by rw [← wD j hj, wetYears_D j hj]; norm_num)
    (by rw [← wT, wetYears_total]; have := wetYears_K'_pos; positivity)
  have hpc : ∀ s : List (MonthSums (Fl ℝ)), palmerCoefs none s = cafecCoefficients s := fun _ => rfl
  rw [hpc, hk]
  simp only
  obtain ⟨cells, hcells⟩ := C41_short (zValues (cafecCoefficients ((List.range 12).map (monthSums (0 : ℕ) ((0 : ℕ) + (2 : ℕ) - 1 : ℤ)
      (((List.range (12 * 3)).map (month 1 (thirdYear r) oneInch)).map (Balance.map Fl.fin) ++ tail))))
    ((List.range 12).map (fun j => fin (weight 1 (thirdYear r) oneInch (coef 1 wetYears oneInch 0 2) 0 2 j)))
    (((List.range (12 * 3)).map (month 1 (thirdYear r) oneInch)).map (Balance.map Fl.fin) ++ tail)) (by rw [zValues_length]; simp; omega)
  rw [hcells]
  exact ⟨_, rfl⟩

/-- no index of the Z values is in the band -/
theorem thirdYear_band (z : ℚ) (hz : z = 1.4725) : ∀ m ∈ months ((thirdYearZ z).map (Fl.fin : ℚ → Fl ℚ)), ∃ a b d, m.px1 = fin a ∧ m.px2 = fin b ∧ m.px3 = fin d ∧
    ¬ (0.5 < |a| ∧ |a| ≤ 1.5 / 2.691) ∧ ¬ (0.5 < |b| ∧ |b| ≤ 1.5 / 2.691) ∧ ¬ (0.5 < |d| ∧ |d| ≤ 1.5 / 2.691) := by
  subst hz
  have key : (months ((thirdYearZ 1.4725).map (Fl.fin : ℚ → Fl ℚ))).all (fun m => match m.px1, m.px2, m.px3 with
    | .fin a, .fin b, .fin d => decide (¬ (0.5 < |a| ∧ |a| ≤ 1.5 / 2.691) ∧ ¬ (0.5 < |b| ∧ |b| ≤ 1.5 / 2.691) ∧ ¬ (0.5 < |d| ∧ |d| ≤ 1.5 / 2.691))
    | _, _, _ => false) = true := by decide +kernel
  intro m hm
  have := List.all_eq_true.1 key m hm
  split at this
  · next a b d h1 h2 h3 => exact ⟨a, b, d, h1, h2, h3, of_decide_eq_true this⟩
  · cases this

/-- `C94_record_partial`: the record meets the hypotheses; 4 inches of rain in the last month compared with 5 inches -/
example : ∃ out out', palmerPdsi realLog10 (realSeries (12 * 3) (thirdYear 4)) (realSeries (12 * 3) oneInch) (fin 1) 2000 2000 2001 none = .ok out ∧
    palmerPdsi realLog10 (realSeries (12 * 3) (thirdYear 5)) (realSeries (12 * 3) oneInch) (fin 1) 2000 2000 2001 none = .ok out' ∧
    ∃ x y : ℝ, out.pdsi.data.getLast? = some (fin x) ∧ out'.pdsi.data.getLast? = some (fin y) ∧ x ≤ y := by
  have e0 : thirdYear 4 = wetYears := by
    funext t
    unfold thirdYear
    split
    · next h => rw [h]; unfold wetYears; norm_num
    · rfl
  have hp : ∀ t, 0 ≤ wetYears t := fun t => by have := wetYears_ge t; linarith
  have hp' : ∀ t, 0 ≤ thirdYear 5 t := fun t => by
    unfold thirdYear
    have := wetYears_ge t
    split <;> linarith
  have he : ∀ t, 0 ≤ oneInch t := fun t => zero_le_one
  obtain ⟨out, h⟩ := thirdYear_run 4 (by norm_num)
  obtain ⟨out', h'⟩ := thirdYear_run 5 (by norm_num)
  rw [e0] at h ⊢
  have hs : ∀ j, j < 12 → 0 < supply 1 wetYears oneInch 0 2 j := fun j hj => by rw [wetYears_supply j hj]; norm_num
  have hd : ∀ j, j < 12 → 0 < D 1 wetYears oneInch (coef 1 wetYears oneInch 0 2) 0 2 j := fun j hj => by rw [wetYears_D j hj]; norm_num
  have htne : total 1 wetYears oneInch (coef 1 wetYears oneInch 0 2) 0 2 ≠ 0 := by rw [wetYears_total]; have := wetYears_K'_pos; positivity
  have hband : ∀ x, fin x ∈ out.phdi.data.dropLast → ¬ (0.5 < |x| ∧ |x| ≤ 1.5 / 2.691) := by
    intro x hx
    obtain ⟨cells, k1, k2, _, k4⟩ := zindex_cells realLog10 realLog10_pos 1 le_rfl wetYears oneInch hp he (12 * 3) 0 2 ⟨3, rfl⟩ (by norm_num) (by norm_num) 2000
      none _ (fun tail => holds_calibrated 1 wetYears oneInch _ 0 2 (by norm_num) (by norm_num) tail) hs hd htne out h
    have hZ : ((List.range (12 * 3)).map (Z 1 wetYears oneInch (coef 1 wetYears oneInch 0 2) 0 2)).map Fl.fin =
        ((thirdYearZ 1.4725).map (Fl.fin : ℚ → Fl ℚ)).map (Fl.ofRat : Fl ℚ → Fl ℝ) := by
      have hZt : ∀ t, Z 1 wetYears oneInch (coef 1 wetYears oneInch 0 2) 0 2 t = if t < 12 then -1.4725 else 1.4725 := by
        intro t
        unfold Z
        rw [wetYears_weight _ (Nat.mod_lt _ (by decide)), wetYears_departure]
        unfold wetYears
        split <;> norm_num
      have hr : List.range (12 * 3) = (List.range 36) := rfl
      have c1 : ((-1.4725 : ℚ) : ℝ) = -1.4725 := by norm_num
      have c2 : ((1.4725 : ℚ) : ℝ) = 1.4725 := by norm_num
      have : (thirdYearZ 1.4725) = (List.range 36).map (fun t => if t < 12 then -1.4725 else 1.4725) := by decide +kernel
      rw [this, hr, List.map_map, List.map_map, List.map_map]
      apply List.map_congr_left
      intro t _
      simp only [Function.comp, Fl.ofRat, hZt]
      split
      · rw [c1]
      · rw [c2]
    rw [hZ] at k1
    rw [k4] at hx
    obtain ⟨c, hc, hph⟩ := List.mem_map.1 (List.mem_of_mem_dropLast hx)
    have hst : ¬ Stuck (((thirdYearZ 1.4725).map (Fl.fin : ℚ → Fl ℚ)).map (Fl.ofRat : Fl ℚ → Fl ℝ)) := by
      intro hc
      rw [spellCells_error _ hc] at k1
      cases k1
    obtain ⟨cells', h1, h2, h3⟩ := spellCells_spec _ hst
    rw [k1] at h1
    cases h1
    obtain ⟨j, hj, rfl⟩ := List.mem_iff_getElem.1 hc
    have hjm : j < (months ((thirdYearZ 1.4725).map (Fl.fin : ℚ → Fl ℚ))).length := by
      rw [months_length, ← List.length_map (f := (Fl.ofRat : Fl ℚ → Fl ℝ)), ← h2]; exact hj
    have hjm' : (months (((thirdYearZ 1.4725).map (Fl.fin : ℚ → Fl ℚ)).map (Fl.ofRat : Fl ℚ → Fl ℝ)))[j]? =
        some (Month.ofRat (months ((thirdYearZ 1.4725).map (Fl.fin : ℚ → Fl ℚ)))[j]) := by
      rw [months_ofRat, List.getElem?_map, List.getElem?_eq_getElem hjm]
      rfl
    obtain ⟨c', g1, ⟨_, s1, s2, s3, _⟩, g3⟩ := h3 j _ hjm'
    rw [List.getElem?_eq_getElem hj] at g1
    cases g1
    obtain ⟨a, b, d, b1, b2, b3, b4⟩ := thirdYear_band _ rfl _ (List.getElem_mem hjm)
    have t1 : (Month.ofRat (K := ℝ) (months ((thirdYearZ 1.4725).map (Fl.fin : ℚ → Fl ℚ)))[j]).cell.px1 = fin (a : ℝ) := by
      show Fl.ofRat _ = _; rw [b1]; rfl
    have t2 : (Month.ofRat (K := ℝ) (months ((thirdYearZ 1.4725).map (Fl.fin : ℚ → Fl ℚ)))[j]).cell.px2 = fin (b : ℝ) := by
      show Fl.ofRat _ = _; rw [b2]; rfl
    have t3 : (Month.ofRat (K := ℝ) (months ((thirdYearZ 1.4725).map (Fl.fin : ℚ → Fl ℚ)))[j]).cell.px3 = fin (d : ℝ) := by
      show Fl.ofRat _ = _; rw [b3]; rfl
    rw [t1] at s1; rw [t2] at s2; rw [t3] at s3
    obtain ⟨ml, hml⟩ : ∃ ml, (months (((thirdYearZ 1.4725).map (Fl.fin : ℚ → Fl ℚ)).map (Fl.ofRat : Fl ℚ → Fl ℝ))).getLast? = some ml := by
      cases hl : (months (((thirdYearZ 1.4725).map (Fl.fin : ℚ → Fl ℚ)).map (Fl.ofRat : Fl ℚ → Fl ℝ))).getLast? with
      | none => rw [List.getLast?_eq_none_iff] at hl; rw [hl] at hjm'; simp at hjm'
      | some ml => exact ⟨ml, rfl⟩
    have hf := g3 ml hml
    have hcast : ∀ q : ℚ, ¬ (0.5 < |q| ∧ |q| ≤ 1.5 / 2.691) → ¬ (0.5 < |(q : ℝ)| ∧ |(q : ℝ)| ≤ 1.5 / 2.691) := by
      rintro q hq ⟨h1, h2⟩
      refine hq ⟨?_, ?_⟩
      · have : ((0.5 : ℚ) : ℝ) < ((|q| : ℚ) : ℝ) := by rw [Rat.cast_abs]; norm_num; norm_num at h1; exact h1
        exact_mod_cast this
      · have : ((|q| : ℚ) : ℝ) ≤ ((1.5 / 2.691 : ℚ) : ℝ) := by rw [Rat.cast_abs]; norm_num; norm_num at h2; exact h2
        exact_mod_cast this
    have hval : cells[j].phdi = fin (a : ℝ) ∨ cells[j].phdi = fin (b : ℝ) ∨ cells[j].phdi = fin (d : ℝ) := by
      rw [hf.phdi]
      split
      · rcases hf.pdsi with h5 | h5 | h5
        · exact Or.inl (h5.trans s1)
        · exact Or.inr (Or.inl (h5.trans s2))
        · exact Or.inr (Or.inr (h5.trans s3))
      · exact Or.inr (Or.inr s3)
    rw [hph] at hval
    rcases hval with h5 | h5 | h5
    · cases h5; exact hcast _ b4.1
    · cases h5; exact hcast _ b4.2.1
    · cases h5; exact hcast _ b4.2.2
  have hmain := C94_record_partial realLog10 realLog10_pos 1 le_rfl wetYears (thirdYear 5) oneInch hp hp' he 3 0 2 (by norm_num) (by norm_num) 2000
    (fun t ht => thirdYear_same 5 t (by omega)) (by
      show wetYears 35 ≤ thirdYear 5 35
      unfold thirdYear wetYears
      norm_num) hs hd htne (by rw [wetYears_weight 11 (by norm_num)]; norm_num) out out' h h' hband
  exact ⟨out, out', h, h', hmain⟩

end CI.Props
