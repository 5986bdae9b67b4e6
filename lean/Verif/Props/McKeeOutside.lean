import Verif.Props.McKee

/-!
# C13, C88: the gamma index depends on the years outside the calibration period, for every record

`C13_fails` (Props/SpiFit) is one record. Here: the calibration years keep their accumulations, the years outside get more dry accumulations; then the index
of every wet step of the calendar step rises, unless it is at the limit 3.09 or -3.09.
-/

namespace CI.Props
open Spec (toFl)
open Spec.McKee

theorem clamp_lt {i j : ℝ} (h : i < j) : clamp i ≤ clamp j ∧ (clamp i < clamp j ∨ clamp i = 3.09 ∨ clamp j = -3.09) := by
  unfold clamp
  have hm : max (-3.09) (min 3.09 i) ≤ max (-3.09) (min 3.09 j) := max_le_max le_rfl (min_le_min le_rfl h.le)
  refine ⟨hm, ?_⟩
  rcases le_or_gt 3.09 i with h1 | h1
  · right; left
    rw [min_eq_left h1, max_eq_right (by norm_num)]
  · rcases le_or_gt j (-3.09) with h2 | h2
    · right; right
      rw [min_eq_right (by linarith), max_eq_left h2]
    · left
      rw [min_eq_right h1.le]
      rcases le_or_gt 3.09 j with h3 | h3
      · rw [min_eq_left h3, max_eq_right (by norm_num : (-3.09 : ℝ) ≤ 3.09)]
        exact max_lt (by norm_num) h1
      · rw [min_eq_right h3.le, max_eq_right h2.le]
        exact max_lt h2 h

/-- share of dry accumulations of a calendar step: their number in the whole record divided by the number of years -/
noncomputable def drySh (x : List (Option ℝ)) (k p c : ℕ) : ℝ := (dry (sample x k p c 0 (yearsOf x.length p)) : ℝ) / yearsOf x.length p

theorem index_rises (E : Ext (Fl ℝ)) (hE : ExtNan E) (hR : ExtReal E) (G : ℝ → ℝ → ℝ → ℝ) (Φ : ℝ → ℝ)
    (hG : ∀ v a b, 0 < v → 0 < a → 0 < b → E.gammaCdf (.fin v) (.fin a) (.fin b) = .fin (G v a b) ∧ 0 < G v a b ∧ G v a b < 1)
    (hΦ : ∀ q, 0 < q → q < 1 → E.normPpf (.fin q) = .fin (Φ q)) (hmono : ∀ p q, 0 < p → p < q → q < 1 → Φ p < Φ q)
    (x y : List (Option ℝ)) (hx : ∀ a, some a ∈ x → 0 ≤ a) (hy : ∀ a, some a ∈ y → 0 ≤ a)
    (k : ℕ) (h1 : 1 ≤ k) (h2 : k ≤ x.length) (h2' : k ≤ y.length) (per : Periodicity) (hper : per ≠ .other)
    (ds cs ce : ℤ) (c1 : ds ≤ cs) (c2 : cs ≤ ce) (c3 : ce < ds + yearsOf x.length per.steps) (c3' : ce < ds + yearsOf y.length per.steps)
    (t : ℕ) (v : ℝ) (hv : 0 < v) (htx : accum x k t = some v) (hty : accum y k t = some v) (s : List ℝ)
    (hsx : sample x k per.steps (t % per.steps) (cs - ds).toNat (ce - cs + 1).toNat = s)
    (hsy : sample y k per.steps (t % per.steps) (cs - ds).toNat (ce - cs + 1).toNat = s)
    (htwo : ∃ a ∈ wet s, ∃ b ∈ wet s, a ≠ b)
    (hdry : drySh x k per.steps (t % per.steps) < drySh y k per.steps (t % per.steps)) :
    ∃ (out out' : List (Fl ℝ)) (a b : ℝ), spi E (Arr.of1d (x.map toFl)) k .gamma ds cs ce per none = .ok out ∧ spi E (Arr.of1d (y.map toFl)) k .gamma ds cs ce per none = .ok out' ∧
      out[t]? = some (.fin a) ∧ out'[t]? = some (.fin b) ∧ a ≤ b ∧ (a < b ∨ a = 3.09 ∨ b = -3.09) := by
  have some_of : ∀ z : List (Option ℝ), accum z k t = some v → t < z.length ∧ ∃ a, some a ∈ z := by
    intro z hz
    unfold accum at hz
    dsimp only at hz
    split at hz
    · next hc =>
      refine ⟨hc.2.1, ?_⟩
      have hlen : 0 < ((z.drop (t + 1 - k)).take k).length := by
        rw [List.length_take, List.length_drop]; omega
      obtain ⟨o, ho⟩ := List.exists_mem_of_length_pos hlen
      have := List.all_eq_true.1 hc.2.2 o ho
      cases o with
      | none => cases this
      | some a => exact ⟨a, List.mem_of_mem_drop (List.mem_of_mem_take ho)⟩
    · cases hz
  obtain ⟨_, hsome⟩ := some_of x htx
  obtain ⟨htl, hsome'⟩ := some_of y hty
  obtain ⟨out, ho, _, hval⟩ := C84_value E hE hR G Φ hG hΦ x hx k h1 h2 per hper ds cs ce c1 c2 c3 hsome
  obtain ⟨out', ho', _, hval'⟩ := C84_value E hE hR G Φ hG hΦ y hy k h1 h2' per hper ds cs ce c1 c2 c3' hsome'
  have e1 := hval t v htx hv
  have e2 := hval' t v hty hv
  simp only [hsx] at e1
  simp only [hsy] at e2
  have e1 := e1 htwo
  have e2 := e2 htwo
  change out[t]? = some (.fin (clamp (index G Φ (drySh x k per.steps (t % per.steps)) s v))) at e1
  change out'[t]? = some (.fin (clamp (index G Φ (drySh y k per.steps (t % per.steps)) s v))) at e2
  have hp := steps_pos per hper
  have hqy : drySh y k per.steps (t % per.steps) < 1 := by
    unfold drySh
    generalize hn : yearsOf y.length per.steps = n
    have htn : t < n * per.steps := by
      have : y.length ≤ n * per.steps := by
        rw [← hn]; unfold yearsOf
        have := Nat.lt_div_mul_add (a := y.length + per.steps - 1) hp
        omega
      omega
    generalize hzy : dry (sample y k per.steps (t % per.steps) 0 n) = zy
    have hzn : zy < n := by
      have hmem : v ∈ sample y k per.steps (t % per.steps) 0 n := by
        refine List.mem_filterMap.2 ⟨t / per.steps, ?_, ?_⟩
        · rw [List.mem_range, Nat.div_lt_iff_lt_mul hp]; exact htn
        · rw [Nat.zero_add, Nat.div_add_mod' t per.steps]; exact hty
      have h3 : (sample y k per.steps (t % per.steps) 0 n).length ≤ n := by
        unfold sample
        exact le_trans (List.length_filterMap_le _ _) (by simp)
      have h4 : zy < (sample y k per.steps (t % per.steps) 0 n).length := by
        rw [← hzy]
        unfold dry
        rw [List.countP_lt_length_iff]
        exact ⟨v, hmem, by simpa using hv.ne'⟩
      omega
    have hn0 : (0 : ℝ) < n := by exact_mod_cast (by omega : 0 < n)
    rw [div_lt_one hn0]; exact_mod_cast hzn
  have hq0 : 0 ≤ drySh x k per.steps (t % per.steps) := by unfold drySh; positivity
  -- shape and scale are positive
  have hs0 : ∀ a ∈ wet s, 0 < a := by
    intro a ha
    have := (List.mem_filter.1 ha).2
    simpa using this
  obtain ⟨a, ha, b, hb, hab⟩ := htwo
  have hne : wet s ≠ [] := List.ne_nil_of_mem ha
  have hgap := logGap_nonneg (wet s) hs0 hne
  have hgn : logGap (wet s) ≠ 0 := fun h => hab (hgap.2.1 h a ha b hb)
  have hgp : 0 < logGap (wet s) := lt_of_le_of_ne hgap.1 (Ne.symm hgn)
  have hgap' : gap (wet s) = logGap (wet s) := rfl
  have hsh : 0 < shape (wet s) := by unfold shape; rw [hgap']; positivity
  have hsc : 0 < scale (wet s) := div_pos (mean_pos (wet s) hs0 hne) hsh
  obtain ⟨_, g0, g1⟩ := hG v _ _ hv hsh hsc
  have hlt : index G Φ (drySh x k per.steps (t % per.steps)) s v < index G Φ (drySh y k per.steps (t % per.steps)) s v := by
    unfold index
    generalize G v (shape (wet s)) (scale (wet s)) = g at *
    generalize drySh x k per.steps (t % per.steps) = qx at *
    generalize drySh y k per.steps (t % per.steps) = qy at *
    refine hmono _ _ ?_ ?_ ?_
    · have := mul_pos (by linarith : 0 < 1 - qx) g0; linarith
    · nlinarith
    · have := mul_lt_mul_of_pos_left g1 (by linarith : 0 < 1 - qy); linarith
  obtain ⟨m1, m2⟩ := clamp_lt hlt
  exact ⟨out, out', _, _, ho, ho', e1, e2, m1, m2⟩

/-- **C13 is false for gamma, for every record.** Two precipitation records of the same length whose accumulations of a calendar step in the calibration
years are the same (not all equal), with the same positive accumulation at a time step of that calendar step, but with different numbers of zero accumulations in
the whole record: the index of the time step is larger in the record with more zeros (or both are at the limit). So the calibration years alone do
not determine the index of a year. -/
theorem C13_every_fails (E : Ext (Fl ℝ)) (hE : ExtNan E) (hR : ExtReal E) (G : ℝ → ℝ → ℝ → ℝ) (Φ : ℝ → ℝ)
    (hG : ∀ v a b, 0 < v → 0 < a → 0 < b → E.gammaCdf (.fin v) (.fin a) (.fin b) = .fin (G v a b) ∧ 0 < G v a b ∧ G v a b < 1)
    (hΦ : ∀ q, 0 < q → q < 1 → E.normPpf (.fin q) = .fin (Φ q)) (hmono : ∀ p q, 0 < p → p < q → q < 1 → Φ p < Φ q)
    (x y : List (Option ℝ)) (hx : ∀ a, some a ∈ x → 0 ≤ a) (hy : ∀ a, some a ∈ y → 0 ≤ a) (hl : x.length = y.length)
    (k : ℕ) (h1 : 1 ≤ k) (h2 : k ≤ x.length) (per : Periodicity) (hper : per ≠ .other)
    (ds cs ce : ℤ) (c1 : ds ≤ cs) (c2 : cs ≤ ce) (c3 : ce < ds + yearsOf x.length per.steps)
    (t : ℕ) (v : ℝ) (hv : 0 < v) (htx : accum x k t = some v) (hty : accum y k t = some v) (s : List ℝ)
    (hsx : sample x k per.steps (t % per.steps) (cs - ds).toNat (ce - cs + 1).toNat = s)
    (hsy : sample y k per.steps (t % per.steps) (cs - ds).toNat (ce - cs + 1).toNat = s)
    (htwo : ∃ a ∈ wet s, ∃ b ∈ wet s, a ≠ b)
    (hdry : dry (sample x k per.steps (t % per.steps) 0 (yearsOf x.length per.steps)) <
      dry (sample y k per.steps (t % per.steps) 0 (yearsOf x.length per.steps))) :
    ∃ (out out' : List (Fl ℝ)) (a b : ℝ), spi E (Arr.of1d (x.map toFl)) k .gamma ds cs ce per none = .ok out ∧ spi E (Arr.of1d (y.map toFl)) k .gamma ds cs ce per none = .ok out' ∧
      out[t]? = some (.fin a) ∧ out'[t]? = some (.fin b) ∧ a ≤ b ∧ (a < b ∨ a = 3.09 ∨ b = -3.09) := by
  refine index_rises E hE hR G Φ hG hΦ hmono x y hx hy k h1 h2 (hl ▸ h2) per hper ds cs ce c1 c2 c3 (hl ▸ c3) t v hv htx hty s hsx hsy htwo ?_
  unfold drySh
  rw [← hl]
  have hn : 0 < yearsOf x.length per.steps := by omega
  exact div_lt_div_of_pos_right (by exact_mod_cast hdry) (by exact_mod_cast hn)

theorem accum_append (x z : List (Option ℝ)) (k t : ℕ) (ht : t < x.length) : accum (x ++ z) k t = accum x k t := by
  unfold accum
  dsimp only
  by_cases hk : k ≤ t + 1
  · have e : ((x ++ z).drop (t + 1 - k)).take k = (x.drop (t + 1 - k)).take k := by
      rw [List.drop_append_of_le_length (by omega), List.take_append_of_le_length (by rw [List.length_drop]; omega)]
    rw [e]
    have h2 : t < (x ++ z).length := by rw [List.length_append]; omega
    simp only [ht, h2, true_and]
  · rw [if_neg (fun h => hk h.1), if_neg (fun h => hk h.1)]

/-- **C88 is false for the gamma SPI, for every record.** New values are appended to a record; the calibration period consists of complete years of the old
record. If the share of dry accumulations of a calendar step (their number divided by the number of years) rises, the index of every wet step of that calendar
step in the old record rises, unless it is at the limit; if it falls, the index falls. -/
theorem C88_every_fails (E : Ext (Fl ℝ)) (hE : ExtNan E) (hR : ExtReal E) (G : ℝ → ℝ → ℝ → ℝ) (Φ : ℝ → ℝ)
    (hG : ∀ v a b, 0 < v → 0 < a → 0 < b → E.gammaCdf (.fin v) (.fin a) (.fin b) = .fin (G v a b) ∧ 0 < G v a b ∧ G v a b < 1)
    (hΦ : ∀ q, 0 < q → q < 1 → E.normPpf (.fin q) = .fin (Φ q)) (hmono : ∀ p q, 0 < p → p < q → q < 1 → Φ p < Φ q)
    (x z : List (Option ℝ)) (hx : ∀ a, some a ∈ x ++ z → 0 ≤ a)
    (k : ℕ) (h1 : 1 ≤ k) (h2 : k ≤ x.length) (per : Periodicity) (hper : per ≠ .other)
    (ds cs ce : ℤ) (c1 : ds ≤ cs) (c2 : cs ≤ ce) (c3 : (ce + 1 - ds) * per.steps ≤ x.length)
    (t : ℕ) (v : ℝ) (hv : 0 < v) (htx : accum x k t = some v)
    (htwo : ∃ a ∈ wet (sample x k per.steps (t % per.steps) (cs - ds).toNat (ce - cs + 1).toNat),
      ∃ b ∈ wet (sample x k per.steps (t % per.steps) (cs - ds).toNat (ce - cs + 1).toNat), a ≠ b)
    (share share' : ℝ)
    (hs : share = (dry (sample x k per.steps (t % per.steps) 0 (yearsOf x.length per.steps)) : ℝ) / yearsOf x.length per.steps)
    (hs' : share' = (dry (sample (x ++ z) k per.steps (t % per.steps) 0 (yearsOf (x ++ z).length per.steps)) : ℝ) / yearsOf (x ++ z).length per.steps) :
    ∃ (out out' : List (Fl ℝ)) (a b : ℝ), spi E (Arr.of1d (x.map toFl)) k .gamma ds cs ce per none = .ok out ∧
      spi E (Arr.of1d ((x ++ z).map toFl)) k .gamma ds cs ce per none = .ok out' ∧
      out[t]? = some (.fin a) ∧ out'[t]? = some (.fin b) ∧
      (share < share' → a < b ∨ a = b ∧ (a = 3.09 ∨ a = -3.09)) ∧ (share' < share → b < a ∨ a = b ∧ (a = 3.09 ∨ a = -3.09)) ∧
      (share = share' → a = b) := by
  have hp := steps_pos per hper
  have hxx : ∀ a, some a ∈ x → 0 ≤ a := fun a ha => hx a (List.mem_append_left _ ha)
  have htl : t < x.length := by
    unfold accum at htx
    dsimp only at htx
    split at htx
    · next h => exact h.2.1
    · cases htx
  have hty : accum (x ++ z) k t = some v := by rw [accum_append x z k t htl, htx]
  have hyears : ∀ l : ℕ, x.length ≤ l → ce < ds + yearsOf l per.steps := by
    intro l hl
    have a1 : l ≤ yearsOf l per.steps * per.steps := by
      unfold yearsOf
      have := Nat.lt_div_mul_add (a := l + per.steps - 1) hp
      omega
    have a2 : (ce + 1 - ds) * (per.steps : ℤ) ≤ (yearsOf l per.steps : ℤ) * per.steps := by
      refine c3.trans ?_
      exact_mod_cast hl.trans a1
    have := Int.le_of_mul_le_mul_right a2 (by exact_mod_cast hp)
    omega
  have hl2 : x.length ≤ (x ++ z).length := by rw [List.length_append]; omega
  have hsam : sample (x ++ z) k per.steps (t % per.steps) (cs - ds).toNat (ce - cs + 1).toNat =
      sample x k per.steps (t % per.steps) (cs - ds).toNat (ce - cs + 1).toNat := by
    unfold sample
    apply List.filterMap_congr
    intro y hy
    rw [List.mem_range] at hy
    apply accum_append
    have hc := Nat.mod_lt t hp
    have a1 : (cs - ds).toNat + y + 1 ≤ (ce + 1 - ds).toNat := by omega
    have a2 : ((cs - ds).toNat + y + 1) * per.steps ≤ (ce + 1 - ds).toNat * per.steps := Nat.mul_le_mul_right _ a1
    have a3 : (ce + 1 - ds).toNat * per.steps ≤ x.length := by
      have : (((ce + 1 - ds).toNat * per.steps : ℕ) : ℤ) ≤ (x.length : ℤ) := by
        push_cast
        rw [Int.toNat_of_nonneg (by omega)]
        exact c3
      exact_mod_cast this
    have a4 : ((cs - ds).toNat + y + 1) * per.steps = ((cs - ds).toNat + y) * per.steps + per.steps := by ring
    omega
  rcases lt_trichotomy share share' with hlt | heq | hgt
  · obtain ⟨out, out', a, b, o1, o2, p1, p2, m1, m2⟩ := index_rises E hE hR G Φ hG hΦ hmono x (x ++ z) hxx hx k h1 h2 (h2.trans hl2) per hper ds cs ce c1 c2
      (hyears _ le_rfl) (hyears _ hl2) t v hv htx hty _ rfl hsam htwo (by unfold drySh; rw [← hs, ← hs']; exact hlt)
    refine ⟨out, out', a, b, o1, o2, p1, p2, fun _ => ?_, fun h => absurd h hlt.le.not_gt, fun h => absurd h hlt.ne⟩
    rcases lt_or_eq_of_le m1 with h | h
    · exact Or.inl h
    · refine Or.inr ⟨h, ?_⟩
      rcases m2 with m2 | m2 | m2
      · exact absurd m2 h.ge.not_gt
      · exact Or.inl m2
      · exact Or.inr (h ▸ m2)
  · have hsome : ∃ a, some a ∈ x := by
      by_contra hc
      obtain ⟨a, ha, _⟩ := htwo
      have h3 := (List.mem_filter.1 ha).1
      obtain ⟨y, _, hy⟩ := List.mem_filterMap.1 h3
      unfold accum at hy
      dsimp only at hy
      split at hy
      · next h =>
        have hlen : 0 < ((x.drop (((cs - ds).toNat + y) * per.steps + t % per.steps + 1 - k)).take k).length := by
          rw [List.length_take, List.length_drop]; omega
        obtain ⟨o, ho⟩ := List.exists_mem_of_length_pos hlen
        have := List.all_eq_true.1 h.2.2 o ho
        cases o with
        | none => cases this
        | some a => exact hc ⟨a, List.mem_of_mem_drop (List.mem_of_mem_take ho)⟩
      · cases hy
    have hsome' : ∃ a, some a ∈ x ++ z := by obtain ⟨a, ha⟩ := hsome; exact ⟨a, List.mem_append_left _ ha⟩
    obtain ⟨out, ho, _, hval⟩ := C84_value E hE hR G Φ hG hΦ x hxx k h1 h2 per hper ds cs ce c1 c2 (hyears _ le_rfl) hsome
    obtain ⟨out', ho', _, hval'⟩ := C84_value E hE hR G Φ hG hΦ (x ++ z) hx k h1 (h2.trans hl2) per hper ds cs ce c1 c2 (hyears _ hl2) hsome'
    have e1 := hval t v htx hv htwo
    have e2 := hval' t v hty hv
    simp only [hsam] at e2
    have e2 := e2 htwo
    rw [← hs] at e1
    rw [← hs', ← heq] at e2
    exact ⟨out, out', _, _, ho, ho', e1, e2, fun h => absurd h heq.ge.not_gt, fun h => absurd h heq.le.not_gt, fun _ => rfl⟩
  · obtain ⟨out, out', a, b, o1, o2, p1, p2, m1, m2⟩ := index_rises E hE hR G Φ hG hΦ hmono (x ++ z) x hx hxx k h1 (h2.trans hl2) h2 per hper ds cs ce c1 c2
      (hyears _ hl2) (hyears _ le_rfl) t v hv hty htx _ hsam rfl htwo (by unfold drySh; rw [← hs, ← hs']; exact hgt)
    refine ⟨out', out, b, a, o2, o1, p2, p1, fun h => absurd h hgt.le.not_gt, fun _ => ?_, fun h => absurd h hgt.ne'⟩
    rcases lt_or_eq_of_le m1 with h | h
    · exact Or.inl h
    · refine Or.inr ⟨h.symm, ?_⟩
      rcases m2 with m2 | m2 | m2
      · exact absurd m2 h.ge.not_gt
      · exact Or.inl (h ▸ m2)
      · exact Or.inr m2

/-- three years of months 1, 2, 3, ...; January of the third year is `z` -/
noncomputable def januaries (z : ℝ) : List (Option ℝ) := (List.range 36).map (fun i : ℕ => some (if i = 24 then z else (i : ℝ) + 1))

theorem accum_januaries (z : ℝ) (t : ℕ) (ht : t < 36) : accum (januaries z) 1 t = some (if t = 24 then z else (t : ℝ) + 1) := by
  unfold accum
  have hl : (januaries z).length = 36 := by simp [januaries]
  have hg : (januaries z)[t]'(by omega) = some (if t = 24 then z else (t : ℝ) + 1) := by simp [januaries]
  have hd : ((januaries z).drop (t + 1 - 1)).take 1 = [some (if t = 24 then z else (t : ℝ) + 1)] := by
    rw [Nat.add_sub_cancel, List.drop_eq_getElem_cons (by omega), hg]; rfl
  simp only [hd]
  rw [if_pos ⟨by omega, by omega, by simp⟩]
  simp

/-- calibration 2000 to 2001, record 2000 to 2002: a dry January 2002 instead of one with 25 mm raises the index of January 2000 -/
example : ∃ (out out' : List (Fl ℝ)) (a b : ℝ), spi realExt (Arr.of1d ((januaries 25).map toFl)) (1 : ℕ) .gamma 2000 2000 2001 .monthly none = .ok out ∧
    spi realExt (Arr.of1d ((januaries 0).map toFl)) (1 : ℕ) .gamma 2000 2000 2001 .monthly none = .ok out' ∧
    out[0]? = some (.fin a) ∧ out'[0]? = some (.fin b) ∧ a ≤ b ∧ (a < b ∨ a = 3.09 ∨ b = -3.09) := by
  have hx : ∀ z : ℝ, 0 ≤ z → ∀ a, some a ∈ januaries z → 0 ≤ a := by
    intro z hz a ha
    obtain ⟨i, _, h⟩ := List.mem_map.1 ha
    cases h
    split
    · exact hz
    · positivity
  have hl : ∀ z, (januaries z).length = 36 := by intro z; simp [januaries]
  have hs : ∀ z, sample (januaries z) 1 12 0 0 2 = [1, 13] := by
    intro z
    unfold sample
    rw [show List.range 2 = [0, 1] from rfl]
    simp only [List.filterMap_cons, List.filterMap_nil]
    rw [accum_januaries _ _ (by omega), accum_januaries _ _ (by omega)]
    norm_num
  have hs3 : ∀ z, sample (januaries z) 1 12 0 0 3 = [1, 13, z] := by
    intro z
    unfold sample
    rw [show List.range 3 = [0, 1, 2] from rfl]
    simp only [List.filterMap_cons, List.filterMap_nil]
    rw [accum_januaries _ _ (by omega), accum_januaries _ _ (by omega), accum_januaries _ _ (by omega)]
    norm_num
  have hw : wet [1, 13] = [1, 13] := by unfold wet; norm_num
  refine C13_every_fails realExt realExt_nan realExt_real (fun v a b => gammaP a (v / b)) (fun q => 8 * (q - 1 / 2)) realExt_G realExt_Φ
    (fun p q _ h _ => by linarith) (januaries 25) (januaries 0) (hx 25 (by norm_num)) (hx 0 le_rfl) (by rw [hl, hl]) 1 le_rfl (by rw [hl]; norm_num)
    .monthly (by simp) 2000 2000 2001 le_rfl (by norm_num) (by rw [hl]; norm_num [yearsOf, Periodicity.steps]) 0 1 one_pos
    (by rw [accum_januaries _ _ (by omega)]; norm_num) (by rw [accum_januaries _ _ (by omega)]; norm_num) [1, 13] (hs 25) (hs 0)
    ⟨1, by rw [hw]; simp, 13, by rw [hw]; simp, by norm_num⟩ ?_
  rw [hl]
  show dry (sample (januaries 25) 1 12 0 0 3) < dry (sample (januaries 0) 1 12 0 0 3)
  rw [hs3, hs3]
  unfold dry
  norm_num

/-- a third year with a dry January is appended to two years: the index of January of the first year rises -/
example : ∃ (out out' : List (Fl ℝ)) (a b : ℝ), spi realExt (Arr.of1d (((januaries 0).take 24).map toFl)) (1 : ℕ) .gamma 2000 2000 2001 .monthly none = .ok out ∧
    spi realExt (Arr.of1d (((januaries 0).take 24 ++ (januaries 0).drop 24).map toFl)) (1 : ℕ) .gamma 2000 2000 2001 .monthly none = .ok out' ∧
    out[0]? = some (.fin a) ∧ out'[0]? = some (.fin b) ∧ (a < b ∨ a = b ∧ (a = 3.09 ∨ a = -3.09)) := by
  have hcat : (januaries 0).take 24 ++ (januaries 0).drop 24 = januaries 0 := List.take_append_drop _ _
  have hl : (januaries 0).length = 36 := by simp [januaries]
  have hl2 : ((januaries 0).take 24).length = 24 := by rw [List.length_take, hl]; rfl
  have hacc : ∀ t, t < 24 → accum ((januaries 0).take 24) 1 t = some ((t : ℝ) + 1) := by
    intro t ht
    have h := accum_append ((januaries 0).take 24) ((januaries 0).drop 24) 1 t (by omega)
    rw [hcat, accum_januaries 0 t (by omega), if_neg (by omega)] at h
    exact h.symm
  have hs : sample ((januaries 0).take 24) 1 12 0 0 2 = [1, 13] := by
    unfold sample
    rw [show List.range 2 = [0, 1] from rfl]
    simp only [List.filterMap_cons, List.filterMap_nil]
    rw [hacc _ (by omega), hacc _ (by omega)]
    norm_num
  have hs3 : sample (januaries 0) 1 12 0 0 3 = [1, 13, 0] := by
    unfold sample
    rw [show List.range 3 = [0, 1, 2] from rfl]
    simp only [List.filterMap_cons, List.filterMap_nil]
    rw [accum_januaries _ _ (by omega), accum_januaries _ _ (by omega), accum_januaries _ _ (by omega)]
    norm_num
  have hw : wet [1, 13] = [1, 13] := by unfold wet; norm_num
  obtain ⟨out, out', a, b, o1, o2, p1, p2, m, _⟩ := C88_every_fails realExt realExt_nan realExt_real (fun v a b => gammaP a (v / b)) (fun q => 8 * (q - 1 / 2))
    realExt_G realExt_Φ (fun p q _ h _ => by linarith) ((januaries 0).take 24) ((januaries 0).drop 24)
    (by
      intro a ha
      rw [hcat] at ha
      obtain ⟨i, _, h⟩ := List.mem_map.1 ha
      cases h
      split
      · exact le_rfl
      · positivity)
    1 le_rfl (by omega) .monthly (by simp) 2000 2000 2001 le_rfl (by norm_num) (by rw [hl2]; norm_num [Periodicity.steps]) 0 1 one_pos
    (by rw [hacc 0 (by omega)]; norm_num)
    (by
      show ∃ a ∈ wet (sample ((januaries 0).take 24) 1 12 0 0 2), ∃ b ∈ wet (sample ((januaries 0).take 24) 1 12 0 0 2), a ≠ b
      rw [hs, hw]
      exact ⟨1, by simp, 13, by simp, by norm_num⟩) _ _ rfl rfl
  refine ⟨out, out', a, b, o1, o2, p1, p2, m ?_⟩
  rw [hcat, hl, hl2]
  show (dry (sample ((januaries 0).take 24) 1 12 0 0 2) : ℝ) / ((2 : ℕ) : ℝ) < (dry (sample (januaries 0) 1 12 0 0 3) : ℝ) / ((3 : ℕ) : ℝ)
  rw [hs, hs3]
  unfold dry
  norm_num

end CI.Props
