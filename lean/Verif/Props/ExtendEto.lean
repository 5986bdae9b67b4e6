import Verif.Props.Eto

/-!
# C88: appending new temperatures (Thornthwaite)

Exact arithmetic; missing months allowed.
-/

namespace CI.Props
open Fl Spec

section real
variable {T : Trig (Fl ℝ)}

/-- **C88 (Thornthwaite, partial).** Full statement: appending temperatures does not change the evapotranspiration of the earlier months. That is false
(`C88_pet_fails`), because the heat index is that of the whole record. It holds if the appended months leave the heat index unchanged, for instance
if they leave the mean of every calendar month unchanged. -/
theorem C88_pet_partial (hT : TrigReal T) (t u : List (Option ℝ)) (r r' : Arr (Fl ℝ))
    (hr : reshapeTo2d (Arr.of1d (t.map toFl)) 12 = .ok r) (hr' : reshapeTo2d (Arr.of1d ((t ++ u).map toFl)) 12 = .ok r')
    (x : ℝ) (h1 : -90 < x) (h2 : x < 90) (y : ℤ) (hmon : ∀ j, j < 12 → monthValues t j ≠ []) (hpos : ∃ a : ℝ, some a ∈ t ∧ 0 < a)
    (hmon' : ∀ j, j < 12 → monthValues (t ++ u) j ≠ []) (hheat : heat (t ++ u) = heat t) :
    ∃ out out', pet T (Arr.of1d (t.map toFl)) (some (fin x)) y = .ok out ∧
      pet T (Arr.of1d ((t ++ u).map toFl)) (some (fin x)) y = .ok out' ∧ out = out'.take t.length := by
  refine ⟨_, _, C30_formula hT _ r t rfl hr x h1 h2 y hmon hpos, C30_formula hT _ r' (t ++ u) rfl hr' x h1 h2 y hmon' ?_, ?_⟩
  · obtain ⟨a, ha, h⟩ := hpos
    exact ⟨a, by simp [ha], h⟩
  · apply List.ext_getElem?
    intro i
    by_cases hi : i < t.length
    · rw [List.getElem?_take_of_lt hi, List.getElem?_map, List.getElem?_map, List.getElem?_zipIdx, List.getElem?_zipIdx,
        List.getElem?_append_left hi]
      unfold thornthwaite
      rw [hheat]
    · rw [List.getElem?_eq_none (by simp; omega), List.getElem?_eq_none (by simp; omega)]

/-- a year of the same temperature in every month -/
def evenYear (a : ℝ) : List (Option ℝ) := List.replicate 12 (some a)

theorem monthValues_one (a : ℝ) (j : ℕ) (hj : j < 12) : monthValues (evenYear a) j = [max a 0] := by
  unfold monthValues evenYear
  interval_cases j <;> simp [List.range_succ]

theorem monthValues_two (a b : ℝ) (j : ℕ) (hj : j < 12) : monthValues (evenYear a ++ evenYear b) j = [max a 0, max b 0] := by
  have e : evenYear a ++ evenYear b = (List.range 24).map (fun i => if i < 12 then some a else some b) := by
    simp [evenYear, List.range_succ]
  unfold monthValues
  rw [e]
  have g : ∀ y : ℕ, ((List.range 24).map (fun i => if i < 12 then some a else some b))[y * 12 + j]? =
      if y = 0 then some (some a) else if y = 1 then some (some b) else none := by
    intro y
    rw [List.getElem?_map]
    by_cases h0 : y = 0
    · subst h0; rw [if_pos rfl, List.getElem?_range (by omega), Option.map_some, if_pos (by omega)]
    · by_cases h1 : y = 1
      · subst h1; rw [if_neg h0, if_pos rfl, List.getElem?_range (by omega), Option.map_some, if_neg (by omega)]
      · rw [if_neg h0, if_neg h1, List.getElem?_eq_none (by simp; omega)]; rfl
  simp only [g, List.length_map, List.length_range]
  simp [List.range_succ]

theorem heat_one (a : ℝ) (ha : 0 ≤ a) : heat (evenYear a) = 12 * (a / 5) ^ (1.514 : ℝ) := by
  unfold heat
  have : (List.range 12).map (fun j => (mean (monthValues (evenYear a) j) / 5) ^ (1.514 : ℝ)) =
      List.replicate 12 ((a / 5) ^ (1.514 : ℝ)) := by
    rw [List.eq_replicate_iff]
    refine ⟨by simp, ?_⟩
    intro b hb
    obtain ⟨j, hj, rfl⟩ := List.mem_map.1 hb
    rw [monthValues_one a j (List.mem_range.1 hj), max_eq_left ha]
    simp [mean]
  rw [this, List.sum_replicate, nsmul_eq_mul]; norm_num

theorem heat_two (a b : ℝ) (ha : 0 ≤ a) (hb : 0 ≤ b) : heat (evenYear a ++ evenYear b) = 12 * ((a + b) / 2 / 5) ^ (1.514 : ℝ) := by
  unfold heat
  have : (List.range 12).map (fun j => (mean (monthValues (evenYear a ++ evenYear b) j) / 5) ^ (1.514 : ℝ)) =
      List.replicate 12 (((a + b) / 2 / 5) ^ (1.514 : ℝ)) := by
    rw [List.eq_replicate_iff]
    refine ⟨by simp, ?_⟩
    intro c hc
    obtain ⟨j, hj, rfl⟩ := List.mem_map.1 hc
    rw [monthValues_two a b j (List.mem_range.1 hj), max_eq_left ha, max_eq_left hb]
    simp [mean]
  rw [this, List.sum_replicate, nsmul_eq_mul]; norm_num

/-- the temperature of the appended year in `C88_pet_fails`: it raises the heat index from 12 to 50 -/
noncomputable def warmYear : ℝ := 10 * (50 / 12 : ℝ) ^ (1 / 1.514 : ℝ) - 5

theorem warmYear_ge : 5 ≤ warmYear := by
  unfold warmYear
  have : (1 : ℝ) ≤ (50 / 12 : ℝ) ^ (1 / 1.514 : ℝ) := Real.one_le_rpow (by norm_num) (by norm_num)
  linarith

theorem heat_warm : heat (evenYear 5 ++ evenYear warmYear) = 50 := by
  rw [heat_two 5 warmYear (by norm_num) (by have := warmYear_ge; linarith)]
  have : (5 + warmYear) / 2 / 5 = (50 / 12 : ℝ) ^ (1 / 1.514 : ℝ) := by unfold warmYear; ring
  rw [this, ← Real.rpow_mul (by norm_num)]
  norm_num

/-- **C88 is false for Thornthwaite's equation**: a year of 5 degrees at the equator; appending a warmer year changes the evapotranspiration of the first
January. -/
theorem C88_pet_fails (hT : TrigReal T) (r r' : Arr (Fl ℝ))
    (hr : reshapeTo2d (Arr.of1d ((evenYear 5).map toFl)) 12 = .ok r)
    (hr' : reshapeTo2d (Arr.of1d ((evenYear 5 ++ evenYear warmYear).map toFl)) 12 = .ok r') :
    ∃ (out out' : List (Fl ℝ)) (p p' : ℝ), pet T (Arr.of1d ((evenYear 5).map toFl)) (some (fin 0)) 2001 = .ok out ∧
      pet T (Arr.of1d ((evenYear 5 ++ evenYear warmYear).map toFl)) (some (fin 0)) 2001 = .ok out' ∧
      out[0]? = some (fin p) ∧ out'[0]? = some (fin p') ∧ p' < p := by
  have hw := warmYear_ge
  refine ⟨_, _, thornthwaite (evenYear 5) (0 * (Real.pi / 180)) 2001 0 5,
    thornthwaite (evenYear 5 ++ evenYear warmYear) (0 * (Real.pi / 180)) 2001 0 5,
    C30_formula hT _ r _ rfl hr 0 (by norm_num) (by norm_num) 2001
      (fun j hj => by rw [monthValues_one _ j hj]; simp) ⟨5, by simp [evenYear], by norm_num⟩,
    C30_formula hT _ r' _ rfl hr' 0 (by norm_num) (by norm_num) 2001
      (fun j hj => by rw [monthValues_two _ _ j hj]; simp) ⟨5, by simp [evenYear], by norm_num⟩, ?_, ?_, ?_⟩
  · simp [evenYear, toFl]
  · simp [evenYear, toFl]
  · have h1 : heat (evenYear 5) = 12 := by rw [heat_one 5 (by norm_num)]; norm_num
    have hd : mdays (2001 + ((0 / 12 : ℕ) : ℤ)) (0 % 12) = 31 := by decide
    have m1 : max (5 : ℝ) 0 = 5 := max_eq_left (by norm_num)
    unfold thornthwaite
    rw [heat_warm, h1, hd, zero_mul, meanHours_equator _ _ (by norm_num), m1]
    have e : (10 * 5 / 50 : ℝ) = 1 := by norm_num
    rw [e, Real.one_rpow]
    have hx : 0 < expo 12 := by unfold expo; norm_num
    have : (1 : ℝ) < (10 * 5 / 12) ^ expo 12 := Real.one_lt_rpow (by norm_num) hx
    have c : (0 : ℝ) < 16 * (12 / 12) * (((31 : ℕ) : ℝ) / 30) := by norm_num
    exact mul_lt_mul_of_pos_left this c

/-- the reshaping succeeds -/
example : ∃ r r' : Arr (Fl ℝ), reshapeTo2d (Arr.of1d ((evenYear 5).map toFl)) 12 = .ok r ∧
    reshapeTo2d (Arr.of1d ((evenYear 5 ++ evenYear warmYear).map toFl)) 12 = .ok r' :=
  ⟨_, _, reshapeTo2d_of1d _ 12 (by norm_num), reshapeTo2d_of1d _ 12 (by norm_num)⟩

end real
end CI.Props
