import Verif.Props.PnpMore
import Verif.Props.Float64Sums

/-!
# C143 in binary64 arithmetic

Two records, the second of which has at least as much rain in every month. The percentage of normal of a sum in which both agree never rises; and if both agree in all sums of
the calibration years, then no percentage of normal falls. Both hold exactly in spite of rounding and for every order of additions, because rounding is monotone.
-/

namespace CI.Props
open B64

variable {σ : SumOrder}

/-- both missing; or not negative and the second at least the first -/
def More (x y : B64 σ) : Prop := (x = .nan ∧ y = .nan) ∨ (fle (lit 0) x = true ∧ fle x y = true)

/-- the same for extended numbers -/
def MoreExt (a b : Fl ℚ) : Prop := (a = .nan ∧ b = .nan) ∨ (Fl.le (.fin 0) a = true ∧ Fl.le a b = true)

theorem more_ext (x y : B64 σ) : More x y ↔ MoreExt (ext x) (ext y) := by
  unfold More MoreExt
  rw [ext_nan, ext_nan, B64.lit_zero]
  refine or_congr Iff.rfl (and_congr ?_ Iff.rfl)
  show Fl.le (ext (.fin false 0 mag_zero : B64 σ)) (ext x) = true ↔ _
  simp [ext, val]

theorem rfl64_zero : rfl64 (.fin 0) = .fin 0 := by
  rw [← ext_round (σ := leftToRight) false 0]
  exact congrArg ext (B64.lit_zero (σ := leftToRight)) |>.trans (by simp [ext, val])

theorem MoreExt.rnd {a b : Fl ℚ} (h : MoreExt a b) : MoreExt (rfl64 a) (rfl64 b) := by
  rcases h with ⟨rfl, rfl⟩ | ⟨h1, h2⟩
  · exact Or.inl ⟨rfl, rfl⟩
  · refine Or.inr ⟨?_, rfl64_mono _ _ h2⟩
    have h3 := rfl64_mono _ _ h1
    generalize rfl64 a = c at h3 ⊢
    exact (congrArg (fun z => Fl.le z c) rfl64_zero).symm.trans h3

theorem MoreExt.div {a b : Fl ℚ} (h : MoreExt a b) {n : ℚ} (hn : 0 < n) : MoreExt (Fl.div a (.fin n)) (Fl.div b (.fin n)) := by
  rcases h with ⟨rfl, rfl⟩ | ⟨h1, h2⟩
  · exact Or.inl ⟨rfl, rfl⟩
  right
  cases a <;> cases b <;> simp_all [Fl.div, Fl.le, hn.ne', hn.le]
  · exact ⟨div_nonneg h1 hn.le, div_le_div_of_nonneg_right h2 hn.le⟩
  · exact div_nonneg h1 hn.le

theorem MoreExt.add {a b c d : Fl ℚ} (h : MoreExt a b) (h' : MoreExt c d) : MoreExt (Fl.add a c) (Fl.add b d) := by
  rcases h with ⟨rfl, rfl⟩ | ⟨h1, h2⟩
  · exact Or.inl ⟨rfl, rfl⟩
  rcases h' with ⟨rfl, rfl⟩ | ⟨h3, h4⟩
  · exact Or.inl ⟨by cases a <;> rfl, by cases b <;> rfl⟩
  right
  cases a <;> cases b <;> cases c <;> cases d <;> simp_all [Fl.add, Fl.le]
  all_goals first | linarith | constructor <;> linarith

theorem More.add {x y z w : B64 σ} (h : More x y) (h' : More z w) : More (B64.add x z) (B64.add y w) := by
  rw [more_ext] at *
  rw [ext_add, ext_add]
  exact (h.add h').rnd

theorem evalTree_more {l m : List (B64 σ)} (h : List.Forall₂ More l m) (t : SumTree) : More (evalTree l t) (evalTree m t) := by
  have hz : More (.fin false 0 mag_zero : B64 σ) (.fin false 0 mag_zero) := by
    rw [more_ext]; exact Or.inr ⟨by simp [ext, val, Fl.le], by simp [ext, val, Fl.le]⟩
  induction t with
  | zero => exact hz
  | leaf i =>
    unfold evalTree
    by_cases hi : i < l.length
    · have hi' : i < m.length := by rw [← h.length_eq]; exact hi
      rw [List.getElem?_eq_getElem hi, List.getElem?_eq_getElem hi']
      simpa using (List.forall₂_iff_get.1 h).2 i hi hi'
    · rw [List.getElem?_eq_none (not_lt.1 hi), List.getElem?_eq_none (by rw [← h.length_eq]; exact not_lt.1 hi)]
      exact hz
  | node a b iha ihb => exact iha.add ihb

theorem fsum_more {l m : List (B64 σ)} (h : List.Forall₂ More l m) : More (fsum l) (fsum m) := by
  show More (evalTree l (σ.tree l.length)) (evalTree m (σ.tree m.length))
  rw [h.length_eq]
  exact evalTree_more h _

theorem More.isNan {x y : B64 σ} (h : More x y) : isNan x = isNan y := by
  rcases h with ⟨rfl, rfl⟩ | ⟨h1, h2⟩
  · rfl
  · rw [(isNan_eq_false_iff x).2 (ne_nan_of_fle_left h2), (isNan_eq_false_iff y).2 (ne_nan_of_fle_right h2)]

theorem forall₂_filter_more {l m : List (B64 σ)} (h : List.Forall₂ More l m) :
    List.Forall₂ More (l.filter (fun x => !CI.isNan x)) (m.filter (fun x => !CI.isNan x)) := by
  induction h with
  | nil => exact .nil
  | cons hxy _ ih =>
    rw [List.filter_cons, List.filter_cons, hxy.isNan]
    split
    · exact .cons hxy ih
    · exact ih

theorem nanmean_more {l m : List (B64 σ)} (h : List.Forall₂ More l m) (hl : l.length ≤ 2 ^ 53) : More (nanmean l) (nanmean m) := by
  have hf := forall₂_filter_more h
  have hle : (l.filter (fun x => !CI.isNan x)).length ≤ l.length := List.length_filter_le _ _
  unfold nanmean
  dsimp only
  generalize l.filter (fun x => !CI.isNan x) = v at *
  generalize m.filter (fun x => !CI.isNan x) = w at *
  have hs := fsum_more hf
  have hlen := hf.length_eq
  cases v with
  | nil =>
    cases w with
    | nil => exact Or.inl ⟨rfl, rfl⟩
    | cons b w => simp at hlen
  | cons a v =>
    cases w with
    | nil => simp at hlen
    | cons b w =>
      rw [if_neg (by simp), if_neg (by simp), ← hlen]
      have hn : 1 ≤ (a :: v).length := by simp
      generalize (a :: v).length = n at *
      have hpos : (0 : ℚ) < n := by exact_mod_cast hn
      have hln : ext (CI.lit (n : ℚ) : B64 σ) = .fin (n : ℚ) := by rw [lit_nat n (by omega)]; simp [ext, val]
      have hz : (CI.lit (n : ℚ) : B64 σ) ≠ .fin true 0 mag_zero := by
        intro e
        rw [e] at hln
        have h0 : val true 0 = (n : ℚ) := Fl.fin.inj hln
        rw [show val true 0 = 0 by simp [val]] at h0
        exact hpos.ne h0
      rw [more_ext] at *
      rw [show ∀ z : B64 σ, z / CI.lit (n : ℚ) = B64.div z (CI.lit (n : ℚ)) from fun _ => rfl, ext_div _ _ hz, show ∀ z : B64 σ, z / CI.lit (n : ℚ) = B64.div z (CI.lit (n : ℚ)) from fun _ => rfl,
        ext_div _ _ hz, hln]
      exact (hs.div hpos).rnd

/-- a larger divisor gives no larger quotient -/
theorem div_anti64 {s m m' : B64 σ} (hs : fle (lit 0) s = true) (hm : flt (lit 0) m = true) (hmm : fle m m' = true) (h1 : s / m ≠ nan) (h2 : s / m' ≠ nan) :
    fle (s / m') (s / m) = true := by
  have hz : ∀ z : B64 σ, flt (lit 0) z = true → z ≠ .fin true 0 mag_zero := by
    rintro z hz rfl
    rw [B64.lit_zero] at hz
    have := ((FloatLaws.flt_iff _ _).1 hz).2
    exact absurd this (by simp [FloatOps.fle, ext, val, Fl.le])
  have hm' : flt (lit 0) m' = true := flt_of_flt_of_fle hm hmm
  have h0 : ∀ z : B64 σ, flt (lit 0) z = true → Fl.le (.fin 0) (ext z) = true ∧ Fl.le (ext z) (.fin 0) = false := by
    intro z h
    rw [B64.lit_zero] at h
    have := (FloatLaws.flt_iff _ _).1 h
    simpa [FloatOps.fle, ext, val] using this
  have hs' : Fl.le (.fin 0) (ext s) = true := by
    rw [B64.lit_zero] at hs
    simpa [FloatOps.fle, ext, val] using hs
  have g1 : Fl.div (ext s) (ext m) ≠ .nan := fun e => h1 ((ext_nan _).1 ((ext_div s m (hz m hm)).trans ((rfl64_nan _).2 e)))
  have g2 : Fl.div (ext s) (ext m') ≠ .nan := fun e => h2 ((ext_nan _).1 ((ext_div s m' (hz m' hm')).trans ((rfl64_nan _).2 e)))
  show Fl.le (ext (B64.div s m')) (ext (B64.div s m)) = true
  rw [ext_div _ _ (hz m hm), ext_div _ _ (hz m' hm')]
  apply rfl64_mono
  have a1 := h0 m hm
  have a2 := h0 m' hm'
  change Fl.le (ext m) (ext m') = true at hmm
  generalize ext s = S at *
  generalize ext m = M at *
  generalize ext m' = M' at *
  cases S <;> cases M <;> cases M' <;> simp_all [Fl.div, Fl.le]
  · rename_i a b c
    rw [if_neg a1.2.ne', if_neg a2.2.ne']
    simpa [Fl.le] using div_le_div_of_nonneg_left hs' a1.2 hmm
  · rename_i a b
    rw [if_neg a1.2.ne']
    simpa [Fl.le] using div_nonneg hs' a1.1

theorem sums_more {x y : List (B64 σ)} (h : List.Forall₂ More x y) (k : ℕ) (h1 : 1 ≤ k) (hkl : k ≤ x.length) (s s' : List (B64 σ)) (hs : sumToScale x k = .ok s)
    (hs' : sumToScale y k = .ok s') : List.Forall₂ More s s' := by
  have hlen := h.length_eq
  obtain ⟨o, e, l1, a1, a2, -⟩ := C07_windows_partial x k h1 hkl
  rw [hs] at e; cases e
  obtain ⟨o, e, l2, b1, b2, -⟩ := C07_windows_partial y k h1 (by omega)
  rw [hs'] at e; cases e
  refine List.forall₂_iff_get.2 ⟨by omega, ?_⟩
  intro i hi hi'
  have e1 : s[i]? = some (s.get ⟨i, hi⟩) := List.getElem?_eq_getElem hi
  have e2 : s'[i]? = some (s'.get ⟨i, hi'⟩) := List.getElem?_eq_getElem hi'
  by_cases hik : i + 1 < k
  · rw [a1 i hik] at e1
    rw [b1 i hik] at e2
    exact Or.inl ⟨(Option.some.inj e1).symm, (Option.some.inj e2).symm⟩
  · rw [a2 i (by omega) (by omega)] at e1
    rw [b2 i (by omega) (by omega)] at e2
    by_cases hk : k = 1
    · rw [if_pos hk, List.getElem?_eq_getElem (by omega)] at e1
      rw [if_pos hk, List.getElem?_eq_getElem (by omega)] at e2
      rw [← Option.some.inj e1, ← Option.some.inj e2]
      simpa using (List.forall₂_iff_get.1 h).2 i (by omega) (by omega)
    · rw [if_neg hk] at e1 e2
      rw [← Option.some.inj e1, ← Option.some.inj e2]
      exact fsum_more (forall₂_slice h _ _)

/-- equal windows have equal sums -/
theorem sums_agree {x y : List (B64 σ)} (k : ℕ) (h1 : 1 ≤ k) (hkl : k ≤ x.length) (hlen : x.length = y.length) (s s' : List (B64 σ)) (hs : sumToScale x k = .ok s)
    (hs' : sumToScale y k = .ok s') (i : ℕ) (hi : ∀ j, i < j + k → j ≤ i → x[j]? = y[j]?) : s[i]? = s'[i]? := by
  obtain ⟨o, e, l1, a1, a2, -⟩ := C07_windows_partial x k h1 hkl
  rw [hs] at e; cases e
  obtain ⟨o, e, l2, b1, b2, -⟩ := C07_windows_partial y k h1 (by omega)
  rw [hs'] at e; cases e
  by_cases hil : i < x.length
  · by_cases hik : i + 1 < k
    · rw [a1 i hik, b1 i hik]
    · rw [a2 i (by omega) hil, b2 i (by omega) (by omega)]
      by_cases hk : k = 1
      · rw [if_pos hk, if_pos hk, hi i (by omega) le_rfl]
      · rw [if_neg hk, if_neg hk, slice_congr x y _ _ fun j h2 h3 => hi j (by omega) (by omega)]
  · rw [List.getElem?_eq_none (by omega), List.getElem?_eq_none (by omega)]

theorem normals_more {s s' : List (B64 σ)} (h : List.Forall₂ More s s') (p j : ℕ) (ds cs ce : ℤ) (hY : ce - cs + 1 ≤ 2 ^ 53) :
    More (nanmean (calendarStepValues s p j ds cs ce)) (nanmean (calendarStepValues s' p j ds cs ce)) := by
  refine nanmean_more (forall₂_filterMap_get h (fun y => ((cs - ds).toNat + y) * p + j) (List.range (ce - cs + 1).toNat)) ?_
  refine (List.length_filterMap_le _ _).trans ?_
  rw [List.length_range]
  omega

/-- **C143 in float64.** If a record has at least as much rain in every month as another one, and the same in the months of the sum at time `i`, then the percentage of normal
at time `i` is not larger. -/
theorem C143_other64 (x y out out' : List (B64 σ)) (hxy : List.Forall₂ More x y) (k : ℕ) (h1 : 1 ≤ k) (hkl : k ≤ x.length) (per : Periodicity) (hper : per ≠ .other)
    (ds cs ce : ℤ) (hds : ds ≤ cs) (hce : cs ≤ ce) (hspan : (ce - cs + 1) * 12 ≤ x.length) (hY : ce - cs + 1 ≤ 2 ^ 53)
    (h : percentageOfNormal x (some k) ds cs ce per = .ok out) (h' : percentageOfNormal y (some k) ds cs ce per = .ok out')
    (i : ℕ) (hi : ∀ j, i < j + k → j ≤ i → x[j]? = y[j]?) (u v : B64 σ) (hu : out[i]? = some u) (hv : out'[i]? = some v) (hun : u ≠ nan) (hvn : v ≠ nan) :
    fle v u = true := by
  have hlen := hxy.length_eq
  have hne : x ≠ [] := by rintro rfl; simp only [List.length_nil] at hkl; omega
  have hne' : y ≠ [] := by rintro rfl; simp only [List.length_nil] at hlen; omega
  obtain ⟨s, o, e1, e2, e3, e4⟩ := C28_ratio x k ds cs ce per hper h1 hne hds hce hspan
  rw [h] at e2; cases e2
  obtain ⟨s', o, f1, f2, f3, f4⟩ := C28_ratio y k ds cs ce per hper h1 hne' hds hce (by rw [← hlen]; exact hspan)
  rw [h'] at f2; cases f2
  have hs := sums_more hxy k h1 hkl s s' e1 f1
  have hil : i < s.length := by rw [← e3]; exact (List.getElem?_eq_some_iff.1 hu).1
  have hq : s[i]? = some s[i] := List.getElem?_eq_getElem hil
  have hq' : s'[i]? = some s[i] := (sums_agree k h1 hkl hlen s s' e1 f1 i hi) ▸ hq
  have hn := normals_more hs (pnpSteps per) (i % pnpSteps per) ds cs ce hY
  have hsi : More s[i] s[i] := by
    have hil' : i < s'.length := by rw [← hs.length_eq]; exact hil
    have := (List.forall₂_iff_get.1 hs).2 i hil hil'
    have e : s'[i] = s[i] := by rw [List.getElem?_eq_getElem hil'] at hq'; exact Option.some.inj hq'
    simpa [e] using this
  have eu := e4 i _ hq
  have ev := f4 i _ hq'
  rw [hu, Option.some.injEq] at eu
  rw [hv, Option.some.injEq] at ev
  dsimp only at eu ev
  generalize nanmean (calendarStepValues s (pnpSteps per) (i % pnpSteps per) ds cs ce) = m at *
  generalize nanmean (calendarStepValues s' (pnpSteps per) (i % pnpSteps per) ds cs ce) = m' at *
  by_cases hm : flt (lit 0) m = true
  · by_cases hm' : flt (lit 0) m' = true
    · rw [if_pos hm] at eu
      rw [if_pos hm'] at ev
      subst eu ev
      rcases hn with ⟨rfl, -⟩ | ⟨-, hn⟩
      · exact absurd (FloatLaws.div_nan _) hun
      rcases hsi with ⟨e, -⟩ | ⟨h0, -⟩
      · rw [e] at hun; exact absurd (FloatLaws.nan_div _) hun
      exact div_anti64 h0 hm hn hun hvn
    · rw [if_neg hm'] at ev; exact absurd ev hvn
  · rw [if_neg hm] at eu; exact absurd eu hun

/-- **C143 in float64.** If a record has at least as much rain in every month as another one, and both agree in all months of the sums of the calibration years, then no
percentage of normal is smaller. -/
theorem C143_outside64 (x y out out' : List (B64 σ)) (hxy : List.Forall₂ More x y) (k : ℕ) (h1 : 1 ≤ k) (hkl : k ≤ x.length) (per : Periodicity) (hper : per ≠ .other)
    (ds cs ce : ℤ) (hds : ds ≤ cs) (hce : cs ≤ ce) (hspan : (ce - cs + 1) * 12 ≤ x.length)
    (hcal : ∀ j : ℕ, (cs - ds) * pnpSteps per < j + k → (j : ℤ) < (ce - ds + 1) * pnpSteps per → x[j]? = y[j]?)
    (h : percentageOfNormal x (some k) ds cs ce per = .ok out) (h' : percentageOfNormal y (some k) ds cs ce per = .ok out')
    (i : ℕ) (u v : B64 σ) (hu : out[i]? = some u) (hv : out'[i]? = some v) (hun : u ≠ nan) (hvn : v ≠ nan) :
    fle u v = true := by
  have hlen := hxy.length_eq
  have hne : x ≠ [] := by rintro rfl; simp only [List.length_nil] at hkl; omega
  have hne' : y ≠ [] := by rintro rfl; simp only [List.length_nil] at hlen; omega
  obtain ⟨s, o, e1, e2, e3, e4⟩ := C28_ratio x k ds cs ce per hper h1 hne hds hce hspan
  rw [h] at e2; cases e2
  obtain ⟨s', o, f1, f2, f3, f4⟩ := C28_ratio y k ds cs ce per hper h1 hne' hds hce (by rw [← hlen]; exact hspan)
  rw [h'] at f2; cases f2
  have hs := sums_more hxy k h1 hkl s s' e1 f1
  have hil : i < s.length := by rw [← e3]; exact (List.getElem?_eq_some_iff.1 hu).1
  have hil' : i < s'.length := by rw [← f3]; exact (List.getElem?_eq_some_iff.1 hv).1
  have hsi : More s[i] s'[i] := by simpa using (List.forall₂_iff_get.1 hs).2 i hil hil'
  have hp := pnpSteps_pos per hper
  have hcs : calendarStepValues s (pnpSteps per) (i % pnpSteps per) ds cs ce = calendarStepValues s' (pnpSteps per) (i % pnpSteps per) ds cs ce := by
    have hm := Nat.mod_lt i hp
    generalize i % pnpSteps per = r at *
    generalize pnpSteps per = p at *
    unfold calendarStepValues
    apply List.filterMap_congr
    intro Y hY
    have hY := List.mem_range.1 hY
    apply sums_agree k h1 hkl hlen s s' e1 f1
    intro j hj hj'
    have e : (((cs - ds).toNat + Y) * p + r : ℤ) = (cs - ds) * p + (Y * p + r : ℕ) := by
      rw [Int.toNat_of_nonneg (by omega)]; push_cast; ring
    have hj2 : (((cs - ds).toNat + Y) * p + r : ℤ) < j + k := by exact_mod_cast hj
    have hj3 : (j : ℤ) ≤ ((cs - ds).toNat + Y) * p + r := by exact_mod_cast hj'
    rw [e] at hj2 hj3
    apply hcal j
    · have : (0 : ℤ) ≤ ((Y * p + r : ℕ) : ℤ) := Int.natCast_nonneg _
      omega
    · have h5 : Y * p + r < (Y + 1) * p := by rw [Nat.add_mul, Nat.one_mul]; omega
      have h6 : (Y + 1) * p ≤ (ce - cs + 1).toNat * p := Nat.mul_le_mul_right p hY
      have h7 : (((ce - cs + 1).toNat * p : ℕ) : ℤ) = (ce - cs + 1) * p := by
        push_cast; rw [Int.toNat_of_nonneg (by omega)]
      have h8 : (ce - ds + 1) * (p : ℤ) = (cs - ds) * p + (ce - cs + 1) * p := by ring
      rw [h8, ← h7]
      omega
  have eu := e4 i _ (List.getElem?_eq_getElem hil)
  have ev := f4 i _ (List.getElem?_eq_getElem hil')
  rw [hu, Option.some.injEq] at eu
  rw [hv, Option.some.injEq, ← hcs] at ev
  dsimp only at eu ev
  generalize nanmean (calendarStepValues s (pnpSteps per) (i % pnpSteps per) ds cs ce) = m at *
  by_cases hm : flt (lit 0) m = true
  · rw [if_pos hm] at eu ev
    rcases hsi with ⟨e, -⟩ | ⟨-, hsi⟩
    · rw [eu, e] at hun; exact absurd (FloatLaws.nan_div _) hun
    subst eu ev
    exact FloatMono.div_le_div_right _ _ _ hsi hm hun hvn
  · rw [if_neg hm] at eu; exact absurd eu hun

/-! ## Two years with 0.4 mm and 0.1 mm in every month -/

theorem more_set {x : List (B64 σ)} (h : ∀ w ∈ x, More w w) (t : ℕ) (a b : B64 σ) (ht : x[t]? = some a) (hab : More a b) : List.Forall₂ More x (x.set t b) := by
  induction x generalizing t with
  | nil => exact .nil
  | cons c x ih =>
    have hx : ∀ w ∈ x, More w w := fun w hw => h w (List.mem_cons_of_mem _ hw)
    cases t with
    | zero =>
      simp only [List.getElem?_cons_zero, Option.some.injEq] at ht
      subst ht
      exact .cons hab (List.forall₂_same.2 hx)
    | succ t => exact .cons (h c (by simp)) (ih hx t (by simpa using ht))

theorem lit_more (p q : ℚ) (hp : 0 ≤ p) (hpq : p ≤ q) : More (CI.lit p : B64 σ) (CI.lit q) := Or.inr ⟨FloatLaws.lit_mono _ _ hp, FloatLaws.lit_mono _ _ hpq⟩

theorem pair_more (t : ℕ) (ht : t < 12) (q : ℚ) (hq : 0.1 ≤ q) : List.Forall₂ More (pairYears64 0.4 0.1) ((pairYears64 0.4 0.1).set (12 + t) (CI.lit q)) := by
  refine more_set (σ := leftToRight) ?_ (12 + t) (CI.lit (0.1 : ℚ)) (CI.lit q) ?_ (lit_more (σ := leftToRight) 0.1 q (by norm_num) hq)
  · intro w hw
    rcases List.mem_append.1 hw with h | h
    · rw [(List.mem_replicate.1 h).2]; exact lit_more _ _ (by norm_num) le_rfl
    · rw [(List.mem_replicate.1 h).2]; exact lit_more _ _ (by norm_num) le_rfl
  · unfold pairYears64
    rw [List.getElem?_append_right (by simp), List.length_replicate, List.getElem?_replicate, if_pos (by omega)]

/-- 0.7 mm instead of 0.1 mm in the second February: the percentage of normal of the first February falls (calibration years 1990 and 1991); that of the second February rises if
1990 is the only calibration year -/
example : okAnd (percentageOfNormal (pairYears64 0.4 0.1) (some 1) 1990 1990 1991 .monthly) (fun a =>
      okAnd (percentageOfNormal ((pairYears64 0.4 0.1).set (12 + 1) (CI.lit 0.7)) (some 1) 1990 1990 1991 .monthly) (fun b =>
        match a[1]?.map ratOf, b[1]?.map ratOf with
        | some (some r), some (some r') => decide (r' < r)
        | _, _ => false)) = true ∧
    okAnd (percentageOfNormal (pairYears64 0.4 0.1) (some 1) 1990 1990 1990 .monthly) (fun a =>
      okAnd (percentageOfNormal ((pairYears64 0.4 0.1).set (12 + 1) (CI.lit 0.7)) (some 1) 1990 1990 1990 .monthly) (fun b =>
        match a[13]?.map ratOf, b[13]?.map ratOf with
        | some (some r), some (some r') => decide (r < r')
        | _, _ => false)) = true := by
  decide +kernel

/-- and these are cases of the theorems -/
example (out out' : List (B64 leftToRight)) (h : percentageOfNormal (pairYears64 0.4 0.1) (some 1) 1990 1990 1991 .monthly = .ok out)
    (h' : percentageOfNormal ((pairYears64 0.4 0.1).set (12 + 1) (CI.lit 0.7)) (some 1) 1990 1990 1991 .monthly = .ok out') :=
  C143_other64 (pairYears64 0.4 0.1) _ out out' (pair_more 1 (by norm_num) 0.7 (by norm_num)) 1 le_rfl (by decide) .monthly (by decide) 1990 1990 1991 (by norm_num) (by norm_num) (by decide)
    (by norm_num) h h' 1 (by
      intro j hj hj'
      rw [List.getElem?_set_ne (by omega)])

example (out out' : List (B64 leftToRight)) (h : percentageOfNormal (pairYears64 0.4 0.1) (some 1) 1990 1990 1990 .monthly = .ok out)
    (h' : percentageOfNormal ((pairYears64 0.4 0.1).set (12 + 1) (CI.lit 0.7)) (some 1) 1990 1990 1990 .monthly = .ok out') :=
  C143_outside64 (pairYears64 0.4 0.1) _ out out' (pair_more 1 (by norm_num) 0.7 (by norm_num)) 1 le_rfl (by decide) .monthly (by decide) 1990 1990 1990 (by norm_num) (by norm_num) (by decide)
    (by
      intro j _ hj
      simp only [pnpSteps] at hj
      rw [List.getElem?_set_ne (by omega)]) h h' 13

end CI.Props
