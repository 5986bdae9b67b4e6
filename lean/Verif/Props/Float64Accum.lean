import Verif.Props.Float64Spi

/-!
# C135, C136: the accumulations in binary64 arithmetic against the exact moving sums

C135 and C136 speak of the accumulations the program works with. Here these are related, entry by entry, to the exact moving sums of the input (`accum` in `Spec/McKee.lean`).
-/

namespace CI.Props
open B64
open Spec.McKee (accum)

variable {σ : SumOrder}

/-- exact sum of a window of float64 amounts -/
theorem window_ext (w : List (B64 σ)) (h : ∀ v ∈ w, Rain v) :
    (fsum (w.map ext) = .nan ∧ (w.map real64).all Option.isSome = false) ∨
      ∃ c : ℚ, fsum (w.map ext) = .fin c ∧ (w.map real64).all Option.isSome = true ∧ ((w.map real64).filterMap id).sum = (c : ℝ) := by
  induction w with
  | nil => exact Or.inr ⟨0, rfl, rfl, by simp⟩
  | cons a w ih =>
    have e : fsum ((a :: w).map ext) = Fl.add (ext a) (fsum (w.map ext)) := rfl
    rcases h a (by simp) with rfl | ⟨q, hq, _⟩
    · refine Or.inl ⟨?_, by simp [real64, ext]⟩
      rw [e]
      rfl
    · have hr : real64 a = some (q : ℝ) := by unfold real64; rw [hq]
      rcases ih (fun v hv => h v (by simp [hv])) with ⟨h1, h2⟩ | ⟨c, h1, h2, h3⟩
      · refine Or.inl ⟨?_, ?_⟩
        · rw [e, h1, hq]; rfl
        · rw [List.map_cons, List.all_cons, h2, Bool.and_false]
      · refine Or.inr ⟨q + c, ?_, ?_, ?_⟩
        · rw [e, h1, hq]; rfl
        · rw [List.map_cons, List.all_cons, h2, hr]; rfl
        · rw [List.map_cons, hr]
          rw [List.filterMap_cons]
          simp only [id]
          rw [List.sum_cons]
          erw [h3]
          push_cast
          rfl

/-- **C135 (accumulations).** Entry by entry, the accumulation of `k` steps in float64 arithmetic is missing exactly if the exact moving sum of the input is, and otherwise
differs from it by at most `k` units of 2^-52, relative to the sum. -/
theorem C135_accumulations (x : List (B64 σ)) (hx : ∀ v ∈ x, StepAmount v) (k : ℕ) (h1 : 1 ≤ k) (h2 : k ≤ x.length) (hk : k ≤ 2 ^ 40) :
    ∃ acc, sumToScale x k = .ok acc ∧ acc.length = x.length ∧
      ∀ t, t < x.length → match accum (x.map real64) k t with
        | none => acc[t]? = some nan
        | some a => ∃ v : ℝ, (acc.map real64)[t]? = some (some v) ∧ 0 ≤ a ∧ |v - a| ≤ a * (k / 2 ^ 52) := by
  have hr : ∀ v ∈ x, Rain v := fun v hv => (hx v hv).rain
  obtain ⟨acc, ha, hl, _⟩ := C07_windows_partial x k h1 h2
  obtain ⟨acc', hb, hf⟩ := C97_sums x hr k h1 hk acc ha
  obtain ⟨s, hs, hsl, hs1, hs2, _⟩ := C07_windows_partial (x.map ext) k h1 (by simpa using h2)
  rw [hb] at hs
  obtain rfl : acc' = s := by injection hs
  refine ⟨acc, ha, hl, ?_⟩
  intro t ht
  have hta : t < acc.length := by omega
  have hts : t < acc'.length := by rw [hsl, List.length_map]; exact ht
  have hag : Agree k acc[t] acc'[t] := by simpa using (List.forall₂_iff_get.1 hf).2 t hta hts
  have hg : acc'[t]? = some acc'[t] := List.getElem?_eq_getElem hts
  have hga : acc[t]? = some acc[t] := List.getElem?_eq_getElem hta
  have hgm : (acc.map real64)[t]? = some (real64 acc[t]) := by rw [List.getElem?_map, hga]; rfl
  by_cases hkt : t + 1 < k
  · have : accum (x.map real64) k t = none := by
      unfold accum
      simp only
      rw [if_neg (by omega)]
    rw [this]
    simp only
    have hn := hs1 t hkt
    rw [hg] at hn
    rcases hag with ⟨h, _⟩ | ⟨a, b, _, h, _⟩
    · rw [hga, h]; rfl
    · rw [h] at hn
      injection hn with hn
      cases hn
  · have hacc : acc'[t] = fsum ((slice x (t + 1 - k) (t + 1)).map ext) := by
      have := hs2 t (by omega) (by simpa using ht)
      rw [hg] at this
      split at this
      · next hk1 =>
        subst hk1
        rw [List.getElem?_map, List.getElem?_eq_getElem ht, Option.map_some] at this
        injection this with this
        rw [this]
        unfold slice
        have e : t + 1 - (t + 1 - 1) = 1 := by omega
        rw [e, Nat.add_sub_cancel, List.drop_eq_getElem_cons ht]
        show _ = Fl.add (ext x[t]) (.fin 0)
        cases ext x[t] <;> simp [Fl.add]
      · injection this with this
        rw [this, ← slice_map]
    have e : t + 1 - (t + 1 - k) = k := by omega
    have hw : (slice x (t + 1 - k) (t + 1)).map real64 = ((x.map real64).drop (t + 1 - k)).take k := by
      rw [← slice_map]; unfold slice; rw [e]
    rcases window_ext (slice x (t + 1 - k) (t + 1)) (fun v hv => hr v (List.mem_of_mem_drop (List.mem_of_mem_take hv))) with ⟨c1, c2⟩ | ⟨c, c1, c2, c3⟩
    · rw [hw] at c2
      have : accum (x.map real64) k t = none := by
        unfold accum
        simp only
        rw [if_neg (by rw [c2]; simp)]
      rw [this]
      simp only
      rw [hacc, c1] at hag
      rcases hag with ⟨h, _⟩ | ⟨a, b, _, h, _⟩
      · rw [hga, h]; rfl
      · cases h
    · rw [hw] at c2 c3
      have : accum (x.map real64) k t = some (c : ℝ) := by
        unfold accum
        simp only
        rw [if_pos ⟨by omega, by simpa using ht, c2⟩, c3]
      rw [this]
      simp only
      rw [hacc, c1] at hag
      rcases hag with ⟨_, h⟩ | ⟨a, b, h3, h4, h5, h6⟩
      · cases h
      · injection h4 with h4
        subst h4
        refine ⟨a, ?_, by exact_mod_cast h5, ?_⟩
        · rw [hgm]; unfold real64; rw [h3]
        · have : ((|a - c| : ℚ) : ℝ) ≤ ((c * (k / 2 ^ 52) : ℚ) : ℝ) := Rat.cast_le.2 h6
          push_cast at this
          exact this

/-- both missing, or at most `δ` apart -/
def Apart (δ : ℝ) (x y : Option ℝ) : Prop := (x = none ∧ y = none) ∨ ∃ a b, x = some a ∧ y = some b ∧ |a - b| ≤ δ

theorem apart_window {δ : ℝ} (hδ : 0 ≤ δ) {u w : List (Option ℝ)} (h : List.Forall₂ (Apart δ) u w) :
    u.all Option.isSome = w.all Option.isSome ∧ |(u.filterMap id).sum - (w.filterMap id).sum| ≤ u.length * δ := by
  induction h with
  | nil => simp
  | @cons x y u w hxy _ ih =>
    obtain ⟨i1, i2⟩ := ih
    rcases hxy with ⟨rfl, rfl⟩ | ⟨a, b, rfl, rfl, hab⟩
    · refine ⟨rfl, ?_⟩
      simp only [List.filterMap_cons, id, List.length_cons]
      push_cast
      exact i2.trans (by nlinarith)
    · refine ⟨by simp [i1], ?_⟩
      simp only [List.filterMap_cons, id, List.length_cons, List.sum_cons]
      push_cast
      have e : a + (u.filterMap fun x => x).sum - (b + (w.filterMap fun x => x).sum) = (a - b) + ((u.filterMap id).sum - (w.filterMap id).sum) := by
        show a + (u.filterMap id).sum - (b + (w.filterMap id).sum) = _
        ring
      rw [e]
      exact (abs_add_le _ _).trans (by linarith)

theorem apart_accum {δ : ℝ} {x y : List (Option ℝ)} (h : List.Forall₂ (Apart δ) x y) (k t : ℕ) (hδ : 0 ≤ δ) : Apart (k * δ) (accum x k t) (accum y k t) := by
  have hw := apart_window hδ (List.forall₂_take k (List.forall₂_drop (t + 1 - k) h))
  unfold accum
  simp only
  rw [← h.length_eq, hw.1]
  split
  · refine Or.inr ⟨_, _, rfl, rfl, hw.2.trans ?_⟩
    gcongr
    rw [List.length_take]
    exact Nat.min_le_left _ _
  · exact Or.inl ⟨rfl, rfl⟩

/-- **C136 (accumulations).** Entry by entry, the accumulated water balance of `k` steps in float64 arithmetic is missing exactly if one of the `2 k` inputs is, and otherwise
is the exact sum of precipitation minus evapotranspiration plus 1000 over the `k` steps, up to `k` times 2^-34 and `k` units of 2^-52 relative to that. -/
theorem C136_accumulations (p e : List (B64 σ)) (hpr : ∀ v ∈ p, Precip v) (hev : ∀ v ∈ e, Evap v) (hlen : p.length = e.length) (k : ℕ) (h1 : 1 ≤ k) (h2 : k ≤ p.length)
    (hk : k ≤ 2 ^ 40) :
    ∃ acc, sumToScale (List.zipWith (fun x y => x - y + lit 1000) p e) k = .ok acc ∧ acc.length = p.length ∧
      ∀ t, t < p.length → match accum (List.zipWith (fun x y => x.bind fun u => y.map fun v => u - v + 1000) (p.map real64) (e.map real64)) k t with
        | none => acc[t]? = some nan
        | some a => ∃ v : ℝ, (acc.map real64)[t]? = some (some v) ∧ |v - a| ≤ k / 2 ^ 34 + (a + k / 2 ^ 34) * (k / 2 ^ 52) := by
  have hall : (∀ z ∈ List.zipWith (fun x y => x - y + lit 1000) p e, StepAmount z) ∧
      List.Forall₂ (Apart (1 / 2 ^ 34)) ((List.zipWith (fun x y => x - y + lit 1000) p e).map real64)
        (List.zipWith (fun x y => x.bind fun u => y.map fun v => u - v + 1000) (p.map real64) (e.map real64)) := by
    clear h2
    induction p generalizing e with
    | nil => simp
    | cons x p ih =>
      cases e with
      | nil => simp at hlen
      | cons y e =>
        obtain ⟨i1, i2⟩ := ih e (fun v hv => hpr v (by simp [hv])) (fun v hv => hev v (by simp [hv])) (by simpa using hlen)
        have hxy : StepAmount (x - y + lit 1000) ∧ Apart (1 / 2 ^ 34) (real64 (x - y + lit 1000)) ((real64 x).bind fun u => (real64 y).map fun v => u - v + 1000) := by
          rcases hpr x (by simp) with rfl | ⟨a, ha, a0, a1⟩
          · exact ⟨Or.inl rfl, Or.inl ⟨rfl, rfl⟩⟩
          · rcases hev y (by simp) with rfl | ⟨b, hb, b0, b1⟩
            · have hn : x - (B64.nan : B64 σ) + lit 1000 = .nan := by
                rw [show x - (B64.nan : B64 σ) = .nan from FloatLaws.sub_nan x]
                rfl
              rw [hn]
              refine ⟨Or.inl rfl, Or.inl ⟨rfl, ?_⟩⟩
              cases real64 x <;> rfl
            · obtain ⟨c, c1, c2, c3, c4⟩ := balance_near ha hb a0 a1 b0 b1
              refine ⟨Or.inr ⟨c, c1, Or.inr (le_trans (by norm_num) c2), c3.trans (by norm_num)⟩, Or.inr ⟨c, a - b + 1000, ?_, ?_, c4⟩⟩
              · unfold real64; rw [c1]
              · unfold real64; rw [ha, hb]; rfl
        refine ⟨?_, ?_⟩
        · intro z hz
          rcases List.mem_cons.1 hz with rfl | hz
          · exact hxy.1
          · exact i1 z hz
        · exact .cons hxy.2 i2
  have hl : (List.zipWith (fun x y => x - y + lit 1000) p e).length = p.length := by rw [List.length_zipWith]; omega
  obtain ⟨acc, g1, g2, g3⟩ := C135_accumulations _ hall.1 k h1 (by omega) hk
  refine ⟨acc, g1, by omega, ?_⟩
  intro t ht
  have g := g3 t (by omega)
  rcases apart_accum hall.2 k t (by positivity) with ⟨e1, e2⟩ | ⟨a, b, e1, e2, e3⟩
  · rw [e1] at g
    rw [e2]
    exact g
  · rw [e1] at g
    rw [e2]
    obtain ⟨v, v1, v2, v3⟩ := g
    refine ⟨v, v1, ?_⟩
    have e4 : |a - b| ≤ k / 2 ^ 34 := e3.trans (by rw [mul_one_div])
    have : v - b = (v - a) + (a - b) := by ring
    rw [this]
    refine (abs_add_le _ _).trans ?_
    have : a * ((k : ℝ) / 2 ^ 52) ≤ (b + k / 2 ^ 34) * (k / 2 ^ 52) := by
      gcongr
      linarith [(abs_le.1 e4).2]
    linarith

/-- tenths of millimetres and a gap -/
def tenths64 : List (B64 leftToRight) := [lit 0.1, lit 0.2, lit 0.3, nan]

theorem tenths64_amount : ∀ v ∈ tenths64, StepAmount v := by
  intro v hv
  simp only [tenths64, List.mem_cons, List.not_mem_nil, or_false] at hv
  rcases hv with rfl | rfl | rfl | rfl
  · exact Or.inr ⟨3602879701896397 / 2 ^ 55, by decide +kernel, Or.inr (by norm_num), by norm_num⟩
  · exact Or.inr ⟨3602879701896397 / 2 ^ 54, by decide +kernel, Or.inr (by norm_num), by norm_num⟩
  · exact Or.inr ⟨5404319552844595 / 2 ^ 54, by decide +kernel, Or.inr (by norm_num), by norm_num⟩
  · exact Or.inl rfl

/-- the hypotheses of `C135_accumulations` hold for that record and three steps: the float64 sum 0.6000000000000001 differs from the exact sum of the three float64 numbers, the
other accumulations are missing -/
example : (∀ v ∈ tenths64, StepAmount v) ∧ 3 ≤ tenths64.length ∧
    (∃ acc, sumToScale tenths64 3 = .ok acc ∧ acc.map ext = [.nan, .nan, .fin (5404319552844596 / 2 ^ 53), .nan]) ∧
    (3602879701896397 / 2 ^ 55 + 3602879701896397 / 2 ^ 54 + 5404319552844595 / 2 ^ 54 : ℚ) < 5404319552844596 / 2 ^ 53 :=
  ⟨tenths64_amount, by decide, ⟨_, rfl, by decide +kernel⟩, by norm_num⟩

/-- the hypotheses of `C136_accumulations` hold for precipitation in tenths of millimetres and an evapotranspiration of 0.3 mm -/
example : (∀ v ∈ tenths64, Precip v) ∧ (∀ v ∈ (List.replicate 4 (lit 0.3) : List (B64 leftToRight)), Evap v) ∧ tenths64.length = (List.replicate 4 (lit 0.3) : List (B64 leftToRight)).length := by
  refine ⟨?_, ?_, rfl⟩
  · intro v hv
    simp only [tenths64, List.mem_cons, List.not_mem_nil, or_false] at hv
    rcases hv with rfl | rfl | rfl | rfl
    · exact Or.inr ⟨3602879701896397 / 2 ^ 55, by decide +kernel, by norm_num, by norm_num⟩
    · exact Or.inr ⟨3602879701896397 / 2 ^ 54, by decide +kernel, by norm_num, by norm_num⟩
    · exact Or.inr ⟨5404319552844595 / 2 ^ 54, by decide +kernel, by norm_num, by norm_num⟩
    · exact Or.inl rfl
  · intro v hv
    rw [(List.mem_replicate.1 hv).2]
    exact Or.inr ⟨5404319552844595 / 2 ^ 54, by decide +kernel, by norm_num, by norm_num⟩

end CI.Props
