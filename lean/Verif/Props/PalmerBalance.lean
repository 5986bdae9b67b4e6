import Verif.Lemmas.PalmerBalance

/-!
# Palmer water balance (C35, C36, C37, C38)

Exact arithmetic: inputs are numbers of an ordered field `K`; rounding is not modelled. The record is a list `ms` of months
(precipitation, PET), possibly followed by anything (`rest`, e.g. the missing values that pad an incomplete final year).
-/

namespace CI.Props
open Fl

section field
variable {K : Type} [Field K] [LinearOrder K] [IsStrictOrderedRing K]

/-- months of numbers as float values -/
def toFl (ms : List (K × K)) : List (Fl K × Fl K) := ms.map (fun q => (fin q.1, fin q.2))

/-- C35: in every month precipitation = evapotranspiration + runoff + change of soil moisture, and recharge - loss is that change. The soil moisture
at the start of a month is the one at the end of the month before; the record starts with a full soil. -/
theorem C35_conserves (awc : K) (ha : awc ≠ 0) (ms : List (K × K)) (rest : List (Fl K × Fl K)) :
    ∃ bs : List (Balance K), (waterBalances (fin awc) (toFl ms ++ rest)).take ms.length = bs.map (Balance.map Fl.fin) ∧
      bs.map (fun b => (b.p, b.pet)) = ms ∧
      (∀ b ∈ bs, b.p = b.et + b.ro + (b.sss + b.ssu - b.sp) ∧ b.r - b.tl = b.sss + b.ssu - b.sp) ∧
      (∀ b, bs[0]? = some b → b.sp = 1 + max (awc - 1) 0) ∧
      (∀ (t : Nat) (b b' : Balance K), bs[t]? = some b → bs[t + 1]? = some b' → b'.sp = b.sss + b.ssu) := by
  obtain ⟨tail, h1, _⟩ := balances_fin awc ha ms rest 1 (max (awc - 1) 0)
  refine ⟨balancesK awc 1 (max (awc - 1) 0) ms, ?_, balancesK_inputs _ _ _ _, balancesK_conserve _ _ _ _,
    (balancesK_chain _ _ _ _).1, (balancesK_chain _ _ _ _).2⟩
  unfold waterBalances toFl
  rw [lit_one, awcBot_fin, h1, List.take_left' (by rw [List.length_map, balancesK_length])]

theorem soil_full (awc : K) : Soil awc 1 (max (awc - 1) 0) := ⟨zero_le_one, le_refl _, le_max_right _ _, le_refl _⟩

/-- C36: with non-negative precipitation and PET the upper layer holds between 0 and 1 and the lower layer between 0 and max(AWC - 1, 0), at the end of
every month (the start is the full soil). -/
theorem C36_capacity (awc : K) (ha : 0 < awc) (ms : List (K × K)) (hm : ∀ q ∈ ms, 0 ≤ q.1 ∧ 0 ≤ q.2) (rest : List (Fl K × Fl K)) :
    ∃ bs : List (Balance K), (waterBalances (fin awc) (toFl ms ++ rest)).take ms.length = bs.map (Balance.map Fl.fin) ∧
      bs.length = ms.length ∧ ∀ b ∈ bs, (0 ≤ b.sss ∧ b.sss ≤ 1) ∧ (0 ≤ b.ssu ∧ b.ssu ≤ max (awc - 1) 0) := by
  obtain ⟨tail, h1, _⟩ := balances_fin awc ha.ne' ms rest 1 (max (awc - 1) 0)
  refine ⟨balancesK awc 1 (max (awc - 1) 0) ms, ?_, balancesK_length _ _ _ _, ?_⟩
  · unfold waterBalances toFl
    rw [lit_one, awcBot_fin, h1, List.take_left' (by rw [List.length_map, balancesK_length])]
  · intro b hb
    obtain ⟨⟨s1, s2, s3, s4⟩, _⟩ := balancesK_within awc ha ms hm 1 _ (soil_full awc) b hb
    exact ⟨⟨s1, s2⟩, s3, s4⟩

/-- C37 (months): the actual terms never exceed the potential ones, in every month. -/
theorem C37_terms (awc : K) (ha : 0 < awc) (ms : List (K × K)) (hm : ∀ q ∈ ms, 0 ≤ q.1 ∧ 0 ≤ q.2) (rest : List (Fl K × Fl K)) :
    ∃ bs : List (Balance K), (waterBalances (fin awc) (toFl ms ++ rest)).take ms.length = bs.map (Balance.map Fl.fin) ∧
      bs.length = ms.length ∧
      ∀ b ∈ bs, (0 ≤ b.et ∧ b.et ≤ b.pet) ∧ (0 ≤ b.r ∧ b.r ≤ b.pr) ∧ (0 ≤ b.tl ∧ b.tl ≤ b.pl) ∧ 0 ≤ b.ro := by
  obtain ⟨tail, h1, _⟩ := balances_fin awc ha.ne' ms rest 1 (max (awc - 1) 0)
  refine ⟨balancesK awc 1 (max (awc - 1) 0) ms, ?_, balancesK_length _ _ _ _, ?_⟩
  · unfold waterBalances toFl
    rw [lit_one, awcBot_fin, h1, List.take_left' (by rw [List.length_map, balancesK_length])]
  · intro b hb
    obtain ⟨_, w⟩ := balancesK_within awc ha ms hm 1 _ (soil_full awc) b hb
    exact ⟨⟨w.et0, w.et1⟩, ⟨w.r0, w.r1⟩, ⟨w.tl0, w.tl1⟩, w.ro0⟩

/-! ### Coefficients -/

/-- sums of a calendar month over the field -/
def sumOf (bs : List (Balance K)) (f : Balance K → K) : K := (bs.map f).sum

theorem monthSums_fin (ci cf : Int) (m : Nat) (bs : List (Balance K)) (tail : List (Balance (Fl K)))
    (h : 12 * (cf + 1) ≤ (bs.length : Int)) :
    monthSums ci cf (bs.map (Balance.map Fl.fin) ++ tail) m =
      let c := calibMonth ci cf m bs
      ⟨fin (sumOf c (·.p)), fin (sumOf c (·.sp)), fin (sumOf c (·.pet)), fin (sumOf c (·.pl)), fin (sumOf c (·.pr)),
        fin (sumOf c (·.r)), fin (sumOf c (·.tl)), fin (sumOf c (·.et)), fin (sumOf c (·.ro))⟩ := by
  unfold monthSums
  rw [calibMonth_append _ _ _ _ _ (by rw [List.length_map]; exact h), calibMonth_map]
  simp only [List.map_map]
  have key : ∀ (f : Balance (Fl K) → Fl K) (g : Balance K → K), (∀ b, f (Balance.map Fl.fin b) = fin (g b)) →
      runningSum ((calibMonth ci cf m bs).map (f ∘ Balance.map Fl.fin)) = fin (sumOf (calibMonth ci cf m bs) g) := by
    intro f g hfg
    unfold sumOf
    rw [← runningSum_fin, List.map_map]
    congr 1
    exact List.map_congr_left (fun b _ => hfg b)
  rw [key _ (·.p) (fun _ => rfl), key _ (·.sp) (fun _ => rfl), key _ (·.pet) (fun _ => rfl), key _ (·.pl) (fun _ => rfl),
    key _ (·.pr) (fun _ => rfl), key _ (·.r) (fun _ => rfl), key _ (·.tl) (fun _ => rfl), key _ (·.et) (fun _ => rfl),
    key _ (·.ro) (fun _ => rfl)]

theorem sumOf_mono (bs : List (Balance K)) (f g : Balance K → K) (h : ∀ b ∈ bs, f b ≤ g b) : sumOf bs f ≤ sumOf bs g :=
  List.sum_le_sum h

theorem sumOf_nonneg (bs : List (Balance K)) (f : Balance K → K) (h : ∀ b ∈ bs, 0 ≤ f b) : 0 ≤ sumOf bs f := by
  refine List.sum_nonneg ?_
  intro x hx
  obtain ⟨b, hb, rfl⟩ := List.mem_map.1 hx
  exact h b hb

/-- a ratio of sums with 0 <= actual <= potential: a number in [0, 1], and ratio * potential = actual -/
theorem ratioOrOne_fin (a p : K) (h0 : 0 ≤ a) (h1 : a ≤ p) :
    ∃ q, ratioOrOne (fin a) (fin p) = fin q ∧ 0 ≤ q ∧ q ≤ 1 ∧ q * p = a := by
  unfold ratioOrOne
  rw [lit_zero, feq_fin]
  by_cases hp : p = 0
  · have ha : a = 0 := le_antisymm (by rw [← hp]; exact h1) h0
    refine ⟨1, ?_, zero_le_one, le_refl _, by rw [hp, ha, mul_zero]⟩
    rw [if_neg (by simp [hp]), feq_fin, if_pos (by simpa using ha), lit_one]
  · refine ⟨a / p, ?_, div_nonneg h0 (le_trans h0 h1), ?_, div_mul_cancel₀ a hp⟩
    · rw [if_pos (by simp [hp]), fin_div_of_ne _ _ hp]
    · have hpos : 0 < p := lt_of_le_of_ne (le_trans h0 h1) (Ne.symm hp)
      rw [div_le_one hpos]; exact h1

theorem ratioOrZero_fin (a p : K) (h0 : 0 ≤ a) (h1 : a ≤ p) :
    ∃ q, ratioOrZero (fin a) (fin p) = fin q ∧ 0 ≤ q ∧ q ≤ 1 ∧ q * p = a := by
  unfold ratioOrZero
  rw [lit_zero, feq_fin]
  by_cases hp : p = 0
  · have ha : a = 0 := le_antisymm (by rw [← hp]; exact h1) h0
    refine ⟨0, ?_, le_refl _, zero_le_one, by rw [hp, ha, mul_zero]⟩
    rw [if_neg (by simp [hp])]
  · refine ⟨a / p, ?_, div_nonneg h0 (le_trans h0 h1), ?_, div_mul_cancel₀ a hp⟩
    · rw [if_pos (by simp [hp]), fin_div_of_ne _ _ hp]
    · have hpos : 0 < p := lt_of_le_of_ne (le_trans h0 h1) (Ne.symm hp)
      rw [div_le_one hpos]; exact h1

/-- the runoff coefficient: a number >= 0 -/
theorem ratioOrOne_nonneg (a p : K) (h0 : 0 ≤ a) (h1 : 0 ≤ p) :
    ∃ q, ratioOrOne (fin a) (fin p) = fin q ∧ 0 ≤ q ∧ (p ≠ 0 → q * p = a) := by
  unfold ratioOrOne
  rw [lit_zero, feq_fin]
  by_cases hp : p = 0
  · rw [if_neg (by simp [hp]), feq_fin]
    by_cases ha : a = 0
    · exact ⟨1, by rw [if_pos (by simpa using ha), lit_one], zero_le_one, fun h => absurd hp h⟩
    · exact ⟨0, by rw [if_neg (by simpa using ha)], le_refl _, fun h => absurd hp h⟩
  · exact ⟨a / p, by rw [if_pos (by simp [hp]), fin_div_of_ne _ _ hp], div_nonneg h0 h1, fun _ => div_mul_cancel₀ a hp⟩

/-- the four coefficients of a calendar month -/
theorem coef_month (ci cf : Int) (m : Nat) (bs : List (Balance K)) (tail : List (Balance (Fl K)))
    (h : 12 * (cf + 1) ≤ (bs.length : Int)) (hw : ∀ b ∈ bs, Within b) :
    let s := monthSums ci cf (bs.map (Balance.map Fl.fin) ++ tail) m
    let c := calibMonth ci cf m bs
    ∃ al be ga de : K, ratioOrOne s.et s.pet = fin al ∧ ratioOrOne s.r s.pr = fin be ∧ ratioOrOne s.ro s.sp = fin ga ∧
      ratioOrZero s.tl s.pl = fin de ∧ (0 ≤ al ∧ al ≤ 1) ∧ (0 ≤ be ∧ be ≤ 1) ∧ 0 ≤ ga ∧ (0 ≤ de ∧ de ≤ 1) ∧
      al * sumOf c (·.pet) = sumOf c (·.et) ∧ be * sumOf c (·.pr) = sumOf c (·.r) ∧
      (sumOf c (·.sp) ≠ 0 → ga * sumOf c (·.sp) = sumOf c (·.ro)) ∧ de * sumOf c (·.pl) = sumOf c (·.tl) := by
  intro s c
  have hwc : ∀ b ∈ c, Within b := fun b hb => hw b (calibMonth_mem _ _ _ _ _ hb)
  have hs : s = _ := monthSums_fin ci cf m bs tail h
  rw [hs]
  simp only
  obtain ⟨al, a1, a2, a3, a4⟩ := ratioOrOne_fin (sumOf c (·.et)) (sumOf c (·.pet))
    (sumOf_nonneg _ _ (fun b hb => (hwc b hb).et0)) (sumOf_mono _ _ _ (fun b hb => (hwc b hb).et1))
  obtain ⟨be, b1, b2, b3, b4⟩ := ratioOrOne_fin (sumOf c (·.r)) (sumOf c (·.pr))
    (sumOf_nonneg _ _ (fun b hb => (hwc b hb).r0)) (sumOf_mono _ _ _ (fun b hb => (hwc b hb).r1))
  obtain ⟨ga, g1, g2, g3⟩ := ratioOrOne_nonneg (sumOf c (·.ro)) (sumOf c (·.sp))
    (sumOf_nonneg _ _ (fun b hb => (hwc b hb).ro0)) (sumOf_nonneg _ _ (fun b hb => (hwc b hb).sp0))
  obtain ⟨de, d1, d2, d3, d4⟩ := ratioOrZero_fin (sumOf c (·.tl)) (sumOf c (·.pl))
    (sumOf_nonneg _ _ (fun b hb => (hwc b hb).tl0)) (sumOf_mono _ _ _ (fun b hb => (hwc b hb).tl1))
  exact ⟨al, be, ga, de, a1, b1, g1, d1, ⟨a2, a3⟩, ⟨b2, b3⟩, g2, ⟨d2, d3⟩, a4, b4, g3, d4⟩

/-- C37 (coefficients): for every calibration period within the record, the returned alpha, beta and delta are in [0, 1] and gamma
is non-negative, for each of the 12 calendar months. -/
theorem C37_coefficients (awc : K) (ha : 0 < awc) (ms : List (K × K)) (hm : ∀ q ∈ ms, 0 ≤ q.1 ∧ 0 ≤ q.2) (rest : List (Fl K × Fl K))
    (ci cf : Int) (hc : 12 * (cf + 1) ≤ (ms.length : Int)) :
    let bs := waterBalances (fin awc) (toFl ms ++ rest)
    let k := cafecCoefficients ((List.range 12).map (monthSums ci cf bs))
    k.alpha.length = 12 ∧ k.beta.length = 12 ∧ k.gamma.length = 12 ∧ k.delta.length = 12 ∧
    (∀ a ∈ k.alpha, ∃ q : K, a = fin q ∧ 0 ≤ q ∧ q ≤ 1) ∧ (∀ a ∈ k.beta, ∃ q : K, a = fin q ∧ 0 ≤ q ∧ q ≤ 1) ∧
    (∀ a ∈ k.gamma, ∃ q : K, a = fin q ∧ 0 ≤ q) ∧ (∀ a ∈ k.delta, ∃ q : K, a = fin q ∧ 0 ≤ q ∧ q ≤ 1) := by
  intro bs k
  obtain ⟨tail, h1, _⟩ := balances_fin awc ha.ne' ms rest 1 (max (awc - 1) 0)
  have hbs : bs = (balancesK awc 1 (max (awc - 1) 0) ms).map (Balance.map Fl.fin) ++ tail := by
    show waterBalances _ _ = _
    unfold waterBalances toFl
    rw [lit_one, awcBot_fin, h1]
  have hw : ∀ b ∈ balancesK awc 1 (max (awc - 1) 0) ms, Within b := fun b hb =>
    (balancesK_within awc ha ms hm 1 _ (soil_full awc) b hb).2
  have hcm := fun m => coef_month ci cf m (balancesK awc 1 (max (awc - 1) 0) ms) tail (by rw [balancesK_length]; exact hc) hw
  rw [← hbs] at hcm
  refine ⟨by simp [k, cafecCoefficients], by simp [k, cafecCoefficients], by simp [k, cafecCoefficients], by simp [k, cafecCoefficients], ?_, ?_, ?_, ?_⟩
  all_goals
    intro a hmem
    simp only [k, cafecCoefficients, List.map_map, List.mem_map, Function.comp] at hmem
    obtain ⟨m, _, rfl⟩ := hmem
    obtain ⟨al, be, ga, de, e1, e2, e3, e4, r1, r2, r3, r4, _⟩ := hcm m
  · exact ⟨al, e1, r1⟩
  · exact ⟨be, e2, r2⟩
  · exact ⟨ga, e3, r3⟩
  · exact ⟨de, e4, r4⟩

/-! ### CAFEC precipitation -/

/-- the coefficient of a calendar month -/
theorem coefAt_map (f : MonthSums (Fl K) → Fl K) (g : Nat → MonthSums (Fl K)) (m : Nat) (hm : m < 12) :
    coefAt (((List.range 12).map g).map f) m = f (g m) := by
  unfold coefAt
  rw [List.getD_eq_getElem?_getD, List.map_map, List.getElem?_map, List.getElem?_range hm]
  rfl

/-- the sum of the departures of a calendar month over the calibration years (exact value) -/
theorem departure_sum (awc : K) (ha : 0 < awc) (ms : List (K × K)) (hm : ∀ q ∈ ms, 0 ≤ q.1 ∧ 0 ≤ q.2) (rest : List (Fl K × Fl K))
    (ci cf : Int) (hc : 12 * (cf + 1) ≤ (ms.length : Int)) (m : Nat) (h12 : m < 12) :
    let bs := waterBalances (fin awc) (toFl ms ++ rest)
    let k := cafecCoefficients ((List.range 12).map (monthSums ci cf bs))
    ∃ ds : List K, (calibMonth ci cf m bs).map (fun b => b.p - cafec k m b) = ds.map Fl.fin ∧
      (monthSums ci cf bs m).sp = fin (sumOf (calibMonth ci cf m (balancesK awc 1 (max (awc - 1) 0) ms)) (·.sp)) ∧
      (monthSums ci cf bs m).ro = fin (sumOf (calibMonth ci cf m (balancesK awc 1 (max (awc - 1) 0) ms)) (·.ro)) ∧
      ds.sum = if sumOf (calibMonth ci cf m (balancesK awc 1 (max (awc - 1) 0) ms)) (·.sp) = 0
        then sumOf (calibMonth ci cf m (balancesK awc 1 (max (awc - 1) 0) ms)) (·.ro) else 0 := by
  intro bs k
  obtain ⟨tail, h1, _⟩ := balances_fin awc ha.ne' ms rest 1 (max (awc - 1) 0)
  generalize hbk : balancesK awc 1 (max (awc - 1) 0) ms = bk at *
  have hlen : bk.length = ms.length := by rw [← hbk, balancesK_length]
  have hbs : bs = bk.map (Balance.map Fl.fin) ++ tail := by
    show waterBalances _ _ = _
    unfold waterBalances toFl
    rw [lit_one, awcBot_fin, h1]
  have hw : ∀ b ∈ bk, Within b := fun b hb => by
    rw [← hbk] at hb
    exact (balancesK_within awc ha ms hm 1 _ (soil_full awc) b hb).2
  have hcons : ∀ b ∈ bk, b.p = b.et + b.ro + (b.sss + b.ssu - b.sp) ∧ b.r - b.tl = b.sss + b.ssu - b.sp := by
    rw [← hbk]; exact balancesK_conserve awc ms 1 _
  have hclen : 12 * (cf + 1) ≤ (bk.length : Int) := by rw [hlen]; exact hc
  obtain ⟨al, be, ga, de, e1, e2, e3, e4, _, _, _, _, s1, s2, s3, s4⟩ := coef_month ci cf m bk tail hclen hw
  rw [← hbs] at e1 e2 e3 e4
  have hsums := monthSums_fin ci cf m bk tail hclen
  rw [← hbs] at hsums
  generalize hcb : calibMonth ci cf m bk = c at *
  have hcal : calibMonth ci cf m bs = c.map (Balance.map Fl.fin) := by
    rw [hbs, calibMonth_append _ _ _ _ _ (by rw [List.length_map]; exact hclen), calibMonth_map, hcb]
  have hk : ∀ b : Balance K, (Balance.map Fl.fin b).p - cafec k m (Balance.map Fl.fin b) =
      fin (b.p - (al * b.pet + be * b.pr + ga * b.sp - de * b.pl)) := by
    intro b
    have k1 : coefAt k.alpha m = fin al := by
      rw [← e1]; exact coefAt_map (fun s => ratioOrOne s.et s.pet) _ m h12
    have k2 : coefAt k.beta m = fin be := by
      rw [← e2]; exact coefAt_map (fun s => ratioOrOne s.r s.pr) _ m h12
    have k3 : coefAt k.gamma m = fin ga := by
      rw [← e3]; exact coefAt_map (fun s => ratioOrOne s.ro s.sp) _ m h12
    have k4 : coefAt k.delta m = fin de := by
      rw [← e4]; exact coefAt_map (fun s => ratioOrZero s.tl s.pl) _ m h12
    unfold cafec
    rw [k1, k2, k3, k4]
    simp only [Balance.map, fin_mul, fin_add, fin_sub]
  refine ⟨c.map (fun b => b.p - (al * b.pet + be * b.pr + ga * b.sp - de * b.pl)), ?_, ?_, ?_, ?_⟩
  · rw [hcal, List.map_map, List.map_map]
    exact List.map_congr_left (fun b _ => hk b)
  · rw [hsums]
  · rw [hsums]
  · have hlin : (c.map (fun b => b.p - (al * b.pet + be * b.pr + ga * b.sp - de * b.pl))).sum =
        sumOf c (·.p) - (al * sumOf c (·.pet) + be * sumOf c (·.pr) + ga * sumOf c (·.sp) - de * sumOf c (·.pl)) := by
      unfold sumOf
      clear hcal hsums s1 s2 s3 s4 hcb
      induction c with
      | nil => simp
      | cons b c ih => simp only [List.map_cons, List.sum_cons, ih]; ring
    have hp : sumOf c (·.p) = sumOf c (·.et) + sumOf c (·.ro) + sumOf c (·.r) - sumOf c (·.tl) := by
      have hcc : ∀ b ∈ c, b.p = b.et + b.ro + b.r - b.tl := by
        intro b hb
        rw [← hcb] at hb
        obtain ⟨q1, q2⟩ := hcons b (calibMonth_mem _ _ _ _ _ hb)
        linarith
      unfold sumOf
      clear hlin hcal hsums s1 s2 s3 s4 hcb
      induction c with
      | nil => simp
      | cons b c ih =>
        simp only [List.map_cons, List.sum_cons]
        rw [hcc b List.mem_cons_self, ih (fun b hb => hcc b (List.mem_cons_of_mem _ hb))]
        ring
    rw [hlin, s1, s2, s4, hp]
    split
    · next h0 => rw [h0]; ring
    · next h0 => rw [s3 h0]; ring

/-- C38 (`_partial`: false when the soil is empty at the start of that calendar month in every calibration year and there is runoff, see `C38_fails`): the
departures of a calendar month sum to zero over the calibration years if the moisture at the start of that month is non-zero in some
calibration year, or there is no runoff in that month. -/
theorem C38_partial (awc : K) (ha : 0 < awc) (ms : List (K × K)) (hm : ∀ q ∈ ms, 0 ≤ q.1 ∧ 0 ≤ q.2) (rest : List (Fl K × Fl K))
    (ci cf : Int) (hc : 12 * (cf + 1) ≤ (ms.length : Int)) (m : Nat) (h12 : m < 12)
    (hs : (monthSums ci cf (waterBalances (fin awc) (toFl ms ++ rest)) m).sp ≠ fin 0 ∨
      (monthSums ci cf (waterBalances (fin awc) (toFl ms ++ rest)) m).ro = fin 0) :
    let bs := waterBalances (fin awc) (toFl ms ++ rest)
    let k := cafecCoefficients ((List.range 12).map (monthSums ci cf bs))
    ∃ ds : List K, (calibMonth ci cf m bs).map (fun b => b.p - cafec k m b) = ds.map Fl.fin ∧ ds.sum = 0 := by
  intro bs k
  obtain ⟨ds, h1, h2, h3, h4⟩ := departure_sum awc ha ms hm rest ci cf hc m h12
  refine ⟨ds, h1, ?_⟩
  rw [h4]
  split
  · next h0 =>
    rcases hs with hs | hs
    · exact absurd (h2.trans (by rw [h0])) hs
    · rw [h3] at hs
      exact Fl.fin.inj hs
  · rfl

theorem list_sum_mul_left' (a : K) (l : List K) : (l.map (fun d => a * d)).sum = a * l.sum := by
  induction l with
  | nil => simp
  | cons x l ih => simp only [List.map_cons, List.sum_cons, ih]; ring

/-- C38 for the Z-index (`_partial`, same exception): with finite weighting factors the Z values of a calendar month sum to zero over the calibration
years. -/
theorem C38_zindex_partial (awc : K) (ha : 0 < awc) (ms : List (K × K)) (hm : ∀ q ∈ ms, 0 ≤ q.1 ∧ 0 ≤ q.2) (rest : List (Fl K × Fl K))
    (ci cf : Int) (hc : 12 * (cf + 1) ≤ (ms.length : Int)) (m : Nat) (h12 : m < 12) (ak : List (Fl K)) (a : K)
    (hak : coefAt ak m = fin a)
    (hs : (monthSums ci cf (waterBalances (fin awc) (toFl ms ++ rest)) m).sp ≠ fin 0 ∨
      (monthSums ci cf (waterBalances (fin awc) (toFl ms ++ rest)) m).ro = fin 0) :
    let bs := waterBalances (fin awc) (toFl ms ++ rest)
    let k := cafecCoefficients ((List.range 12).map (monthSums ci cf bs))
    ∃ zs : List K, calibMonth ci cf m (zValues k ak bs) = zs.map Fl.fin ∧ zs.sum = 0 := by
  intro bs k
  obtain ⟨ds, h1, h2⟩ := C38_partial awc ha ms hm rest ci cf hc m h12 hs
  refine ⟨ds.map (fun d => a * d), ?_, by rw [list_sum_mul_left', h2, mul_zero]⟩
  have hz : calibMonth ci cf m (zValues k ak bs) = (calibMonth ci cf m bs).map (fun b => fin a * (b.p - cafec k m b)) := by
    unfold zValues calibMonth
    have hzi : ∀ (l : List (Balance (Fl K) × Nat)) (f : Balance (Fl K) × Nat → Fl K) (n : Nat) (bs : List (Balance (Fl K))),
        l = bs.zipIdx n → (l.map f).zipIdx n = l.map (fun q => (f q, q.2)) := by
      intro l f n bs hl
      subst hl
      induction bs generalizing n with
      | nil => rfl
      | cons b bs ih => simp only [List.zipIdx_cons, List.map_cons, ih]
    rw [hzi (bs.zipIdx) _ 0 bs rfl, List.filter_map, List.map_map, List.map_map]
    refine List.map_congr_left ?_
    intro q hq
    have hq2 := (List.mem_filter.1 hq).2
    simp only [Function.comp, Bool.and_eq_true, beq_iff_eq] at hq2
    simp only [Function.comp, hq2.1, hak]
  rw [hz]
  have : (calibMonth ci cf m bs).map (fun b => fin a * (b.p - cafec k m b)) =
      ((calibMonth ci cf m bs).map (fun b => b.p - cafec k m b)).map (fun d => fin a * d) := by
    rw [List.map_map]; rfl
  rw [this]
  have h1' : (calibMonth ci cf m bs).map (fun b => b.p - cafec k m b) = ds.map Fl.fin := h1
  rw [h1', List.map_map, List.map_map]
  refine List.map_congr_left ?_
  intro d _
  simp only [Function.comp, fin_mul]

end field

/-! ## Concrete cases -/

/-- two years: a dry spell that empties the soil, then wet months -/
def dryThenWet : List (ℚ × ℚ) :=
  List.replicate 11 (1, 1) ++ [(0, 100)] ++ [(10, 1)] ++ List.replicate 11 (2, 1)

/-- C35-C37: hypotheses met (non-negative numbers), with soil moisture actually moving: sp is 2 in January, 0 after the dry month, then full again. -/
example : (∀ q ∈ dryThenWet, 0 ≤ q.1 ∧ 0 ≤ q.2) ∧
    ((waterBalances (fin 2) (toFl dryThenWet)).map (·.sp)).take 14 = List.replicate 12 (fin 2) ++ [fin 0, fin 2] := by
  constructor <;> decide +kernel

/-- C37: coefficients of the second year: January's runoff coefficient is 0 although there was runoff (the soil was empty). -/
example : (cafecCoefficients ((List.range 12).map (monthSums 0 1 (waterBalances (fin 2) (toFl dryThenWet))))).gamma.take 2 =
    [fin (7 / 2), (fin (1 / 4) : Fl ℚ)] := by
  decide +kernel

/-- C38: met with both years as calibration period in every calendar month -/
example : ∀ m, m < 12 → (monthSums 0 1 (waterBalances (fin 2) (toFl dryThenWet)) m).sp ≠ (fin 0 : Fl ℚ) := by
  decide +kernel

/-- C38: the claim is false: calibrated on the second year alone, the January departure is the runoff of that month, 7. -/
theorem C38_fails : ∃ (awc : ℚ) (ms : List (ℚ × ℚ)) (ci cf : Int) (m : Nat),
    let bs := waterBalances (fin awc) (toFl ms)
    let k := cafecCoefficients ((List.range 12).map (monthSums ci cf bs))
    0 < awc ∧ (∀ q ∈ ms, 0 ≤ q.1 ∧ 0 ≤ q.2) ∧ ms.length = 24 ∧ 0 ≤ ci ∧ ci ≤ cf ∧ cf < 2 ∧ m < 12 ∧
    (calibMonth ci cf m bs).map (fun b => b.p - cafec k m b) = [fin 7] :=
  ⟨2, dryThenWet, 1, 1, 0, by decide +kernel⟩

end CI.Props
