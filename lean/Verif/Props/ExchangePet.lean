import Verif.Props.Exchange
import Verif.Props.Years

/-!
# C102 for evapotranspiration: years of the same length are exchangeable
-/

namespace CI.Props

open CI Spec

variable {n : Nat} {σ : Equiv.Perm (Fin n)} {u v : List (Fl ℝ)}

theorem heatIndex_perm (T : Trig (Fl ℝ)) {a b : List (Fl ℝ)} (h : Reordered n 12 σ a b) : heatIndex T b = heatIndex T a := by
  unfold heatIndex
  congr 1
  apply List.map_congr_left
  intro j hj
  rw [nanmean_perm (h.stride j (List.mem_range.1 hj))]

theorem reshape_years (l : List (Fl ℝ)) (hl : l.length = n * 12) : reshapeTo2d (Arr.of1d l) 12 = .ok ⟨[n, 12], l⟩ := by
  have h0 : padCount l.length 12 = 0 := by
    apply padCount_zero
    rw [hl]
    exact Nat.mul_mod_left _ _
  rw [reshapeTo2d_of1d l 12 (by norm_num), h0, hl]
  simp

/-- **C102, evapotranspiration.** If the years of a record of whole years are put into another order in which leap years stand in the places of leap years, every month keeps its Thornthwaite
evapotranspiration wherever its year is placed, and the two calls raise the same exception or none; whatever is missing, for any latitude and any library functions. -/
theorem C102_pet (T : Trig (Fl ℝ)) (lat : Option (Fl ℝ)) (y : Int) (hleap : ∀ i : Fin n, Leap (y + (i.val : Int)) ↔ Leap (y + ((σ i).val : Int))) (h : Reordered n 12 σ u v) :
    SameOutcome (Reordered n 12 σ) (pet T (Arr.of1d u) lat y) (pet T (Arr.of1d v) lat y) := by
  unfold pet
  rw [show (Arr.of1d u).data = u from rfl, show (Arr.of1d v).data = v from rfl, h.allNan]
  split
  · exact h
  · cases lat with
    | none => exact rfl
    | some x =>
      simp only []
      split
      · unfold etoThornthwaite
        rw [reshape_years u h.1, reshape_years v h.2.1]
        have hz := h.map zeroNegative
        have hI := heatIndex_perm T hz
        simp only [bind, Except.bind, pure, Except.pure, hI]
        generalize heatIndex T (u.map zeroNegative) = I
        cases monthlyMeanDaylight T (radians T x) false with
        | error e => exact rfl
        | ok dn =>
          simp only []
          cases monthlyMeanDaylight T (radians T x) true with
          | error e => exact rfl
          | ok dl =>
            simp only []
            show Reordered n 12 σ _ _
            rw [show (Arr.of1d u).data.length = u.length from rfl, show (Arr.of1d v).data.length = v.length from rfl, List.take_of_length_le (by simp), List.take_of_length_le (by simp)]
            refine ⟨by simpa using h.1, by simpa using h.2.1, fun i j hj => ?_⟩
            rw [List.getElem?_map, List.getElem?_map, List.getElem?_zipIdx, List.getElem?_zipIdx, hz.2.2 i j hj, Option.map_map, Option.map_map]
            congr 1
            funext t
            have d1 : (0 + (i.val * 12 + j)) / 12 = i.val := by omega
            have d2 : (0 + ((σ i).val * 12 + j)) / 12 = (σ i).val := by omega
            have m1 : (0 + (i.val * 12 + j)) % 12 = j := by omega
            have m2 : (0 + ((σ i).val * 12 + j)) % 12 = j := by omega
            have hl : isLeap (y + (i.val : Int)) = isLeap (y + ((σ i).val : Int)) := by
              rw [Bool.eq_iff_iff, isLeap_iff, isLeap_iff]
              exact hleap i
            simp only [Function.comp, thornAt, d1, d2, m1, m2, hl]
      · exact rfl

/-- **The hypothesis on leap years is needed**: for every temperature above freezing, a leap year and the next one, at the equator, with this temperature in all months. Exchanging the two years changes nothing
in the record, but February has 29/28 times as much evapotranspiration in the first year as in the second. -/
theorem C102_pet_fails {T : Trig (Fl ℝ)} (hT : TrigReal T) (a : ℝ) (ha : 0 < a) (y : ℤ) (hy : Leap y) :
    Reordered 2 12 (Equiv.swap 0 1) ((evenYear a ++ evenYear a).map Spec.toFl) ((evenYear a ++ evenYear a).map Spec.toFl) ∧
    ∃ out, ∃ p : ℝ, pet T (Arr.of1d ((evenYear a ++ evenYear a).map Spec.toFl)) (some (.fin 0)) y = .ok out ∧ 0 < p ∧ out[13]? = some (.fin p) ∧ out[1]? = some (.fin (29 / 28 * p)) ∧
      ¬ Reordered 2 12 (Equiv.swap 0 1) out out := by
  have hev : evenYear a ++ evenYear a = List.replicate 24 (some a) := by
    unfold evenYear
    rw [List.replicate_append_replicate]
  have hpos : ∃ b : ℝ, some b ∈ evenYear a ++ evenYear a ∧ 0 < b := ⟨a, by rw [hev]; simp, ha⟩
  have form := C30_formula hT (Arr.of1d ((evenYear a ++ evenYear a).map Spec.toFl)) _ _ rfl (reshapeTo2d_of1d _ 12 (by norm_num)) 0 (by norm_num) (by norm_num) y
      (fun j hj => by rw [monthValues_two _ _ j hj]; simp) hpos
  have hI := heat_pos _ hpos
  generalize heat (evenYear a ++ evenYear a) = I at hI
  have hy1 : ¬ Leap (y + 1) := by
    unfold Leap at hy ⊢
    omega
  have hm : mdays y 1 = 29 := by simp [mdays, monthLen, hy]
  have hm1 : mdays (y + 1) 1 = 28 := by simp [mdays, monthLen, hy1]
  have v0 : thornthwaite (evenYear a ++ evenYear a) (0 * (Real.pi / 180)) y 1 a = 29 / 28 * thornthwaite (evenYear a ++ evenYear a) (0 * (Real.pi / 180)) y 13 a := by
    unfold thornthwaite
    rw [show ((13 / 12 : ℕ) : ℤ) = 1 from rfl, show ((1 / 12 : ℕ) : ℤ) = 0 from rfl, show 13 % 12 = 1 from rfl, add_zero, hm, hm1, zero_mul, meanHours_equator _ _ (by norm_num),
      meanHours_equator _ _ (by norm_num)]
    push_cast
    ring
  have vp : 0 < thornthwaite (evenYear a ++ evenYear a) (0 * (Real.pi / 180)) y 13 a := by
    unfold thornthwaite
    rw [show ((13 / 12 : ℕ) : ℤ) = 1 from rfl, show 13 % 12 = 1 from rfl, hm1, zero_mul, meanHours_equator _ _ (by norm_num)]
    have := heat_pos _ hpos
    have h2 : 0 < max a 0 := lt_max_of_lt_left ha
    positivity
  have g13 : ∀ k < 24, ((evenYear a ++ evenYear a).zipIdx.map (fun q => Spec.toFl (q.1.map (thornthwaite (evenYear a ++ evenYear a) (0 * (Real.pi / 180)) y q.2))))[k]? =
      some (.fin (thornthwaite (evenYear a ++ evenYear a) (0 * (Real.pi / 180)) y k a)) := by
    intro k hk
    rw [List.getElem?_map, List.getElem?_zipIdx]
    have : (evenYear a ++ evenYear a)[k]? = some (some a) := by
      rw [hev, List.getElem?_replicate, if_pos hk]
    rw [this]
    simp [Spec.toFl]
  refine ⟨⟨by simp [evenYear], by simp [evenYear], ?_⟩, _, thornthwaite (evenYear a ++ evenYear a) (0 * (Real.pi / 180)) y 13 a, form, vp, g13 13 (by norm_num), ?_, ?_⟩
  · intro i j hj
    rw [hev, List.map_replicate, List.getElem?_replicate, List.getElem?_replicate, if_pos (by omega), if_pos (by have := (Equiv.swap (0 : Fin 2) 1 i).isLt; omega)]
  · rw [g13 1 (by norm_num), v0]
  · intro h
    have := h.2.2 0 1 (by norm_num)
    rw [show (0 : Fin 2).val * 12 + 1 = 1 from rfl, Equiv.swap_apply_left, show (1 : Fin 2).val * 12 + 1 = 13 from rfl, g13 1 (by norm_num), g13 13 (by norm_num), v0] at this
    simp only [Option.some.injEq, Fl.fin.injEq] at this
    linarith

/-- C102: the ordinary years 2001 and 2002 of 5 and 12 degrees in both orders -/
example (T : Trig (Fl ℝ)) : SameOutcome (Reordered 2 12 (Equiv.swap 0 1)) (pet T (Arr.of1d ((evenYear 5 ++ evenYear 12).map Spec.toFl)) (some (.fin 45)) 2001)
    (pet T (Arr.of1d ((evenYear 12 ++ evenYear 5).map Spec.toFl)) (some (.fin 45)) 2001) := by
  refine C102_pet T _ 2001 ?_ ⟨by simp [evenYear], by simp [evenYear], ?_⟩
  · intro i
    fin_cases i <;> simp [Leap]
  · intro i j hj
    fin_cases i
    · simp only [Fin.zero_eta, Equiv.swap_apply_left]
      interval_cases j <;> rfl
    · simp only [Fin.mk_one, Equiv.swap_apply_right]
      interval_cases j <;> rfl

end CI.Props
