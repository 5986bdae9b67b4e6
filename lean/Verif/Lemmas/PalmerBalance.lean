import Verif.Model.Palmer
import Verif.Lemmas.PalmerNum
import Mathlib.Algebra.BigOperators.Ring.List
import Mathlib.Tactic.Ring

/-!
# The water balance in exact arithmetic
-/

namespace CI
open Fl

/-- apply a function to all numbers of a month -/
def Balance.map {α β : Type} (f : α → β) (b : Balance α) : Balance β :=
  ⟨f b.p, f b.pet, f b.sp, f b.pr, f b.pl, f b.et, f b.tl, f b.r, f b.ro, f b.sss, f b.ssu⟩

section field
variable {K : Type} [Field K] [LinearOrder K] [IsStrictOrderedRing K]

/-- one month over the field -/
def balK (awc ss su p pet : K) : Balance K :=
  let bot := max (awc - 1) 0
  let pr := bot + 1 - (ss + su)
  let pl := if pet ≤ ss then pet else min (ss + su) ((pet - ss) * su / (bot + 1) + ss)
  if pet ≤ p then
    if 1 - ss < p - pet then
      let rs := 1 - ss
      let ru := if p - pet - rs < bot - su then p - pet - rs else bot - su
      let ro := if p - pet - rs < bot - su then 0 else p - pet - rs - ru
      ⟨p, pet, ss + su, pr, pl, pet, 0, rs + ru, ro, 1, su + ru⟩
    else ⟨p, pet, ss + su, pr, pl, pet, 0, p - pet, 0, ss + p - pet, su⟩
  else if pet - p ≤ ss then ⟨p, pet, ss + su, pr, pl, p + (pet - p) + 0, pet - p + 0, 0, 0, ss - (pet - p), su⟩
  else
    let ul := min su ((pet - p - ss) * su / awc)
    ⟨p, pet, ss + su, pr, pl, p + ss + ul, ss + ul, 0, 0, 0, su - ul⟩

theorem lit_zero : (lit 0 : Fl K) = fin 0 := by rw [lit_def, Rat.cast_zero]
theorem lit_one : (lit 1 : Fl K) = fin 1 := by rw [lit_def, Rat.cast_one]

theorem awcBot_fin (awc : K) : awcBot (fin awc) = fin (max (awc - 1) 0) := by
  unfold awcBot
  rw [lit_one, lit_zero, fin_sub, pyMax_fin]

theorem balanceMonth_fin (awc ss su p pet : K) (h : awc ≠ 0) :
    balanceMonth (fin awc) (fin ss) (fin su) (fin p) (fin pet) = (balK awc ss su p pet).map Fl.fin := by
  have hbot : (max (awc - 1) 0 + 1 : K) ≠ 0 := by
    have : (0 : K) ≤ max (awc - 1) 0 := le_max_right _ _
    exact ne_of_gt (by linarith)
  have hpl : potentialLoss (fin pet) (fin ss) (fin su) (fin awc) =
      fin (if pet ≤ ss then pet else min (ss + su) ((pet - ss) * su / (max (awc - 1) 0 + 1) + ss)) := by
    unfold potentialLoss
    rw [awcBot_fin, lit_one, fle_fin, fin_sub, fin_mul, fin_add, fin_add, fin_div_of_ne _ _ hbot, fin_add, pyMin_fin]
    by_cases hc : pet ≤ ss
    · rw [if_pos (by simpa using hc), if_pos hc]
    · rw [if_neg (by simpa using hc), if_neg hc]
  unfold balanceMonth balK
  simp only [hpl]
  unfold calcRecharge
  simp only [awcBot_fin, lit_one, lit_zero, fin_sub, fin_add, fin_mul, fle_fin, flt_fin, decide_eq_true_eq]
  by_cases h1 : pet ≤ p
  · rw [if_pos h1, if_pos h1]
    by_cases h2 : 1 - ss < p - pet
    · rw [if_pos h2, if_pos h2]
      by_cases h3 : p - pet - (1 - ss) < max (awc - 1) 0 - su
      · simp only [if_pos h3, Balance.map, fin_add]
      · simp only [if_neg h3, Balance.map, fin_add, fin_sub]
    · rw [if_neg h2, if_neg h2]
      simp only [Balance.map]
  · rw [if_neg h1, if_neg h1]
    by_cases h2 : pet - p ≤ ss
    · rw [if_pos h2, if_pos h2]
      simp only [Balance.map]
    · rw [if_neg h2, if_neg h2]
      rw [fin_div_of_ne _ _ h, pyMin_fin]
      simp only [Balance.map, fin_add, fin_sub]

/-- the month loop over the field -/
def balancesK (awc : K) : K → K → List (K × K) → List (Balance K)
  | _, _, [] => []
  | ss, su, (p, pet) :: rest =>
    let b := balK awc ss su p pet
    b :: balancesK awc b.sss b.ssu rest

omit [IsStrictOrderedRing K] in
theorem balancesK_length (awc ss su : K) (ms : List (K × K)) : (balancesK awc ss su ms).length = ms.length := by
  induction ms generalizing ss su with
  | nil => rfl
  | cons q ms ih => obtain ⟨p, pet⟩ := q; simp only [balancesK, List.length_cons, ih]

/-- finite months give finite balances, whatever follows -/
theorem balances_fin (awc : K) (h : awc ≠ 0) (ms : List (K × K)) (rest : List (Fl K × Fl K)) :
    ∀ ss su : K, ∃ tail, balances (fin awc) (fin ss) (fin su) (ms.map (fun q => (fin q.1, fin q.2)) ++ rest) =
      (balancesK awc ss su ms).map (Balance.map Fl.fin) ++ tail ∧ tail.length = rest.length := by
  have hlen : ∀ (l : List (Fl K × Fl K)) (a s u : Fl K), (balances a s u l).length = l.length := by
    intro l
    induction l with
    | nil => intro a s u; rfl
    | cons q l ih => obtain ⟨p, e⟩ := q; intro a s u; simp only [balances, List.length_cons, ih]
  induction ms with
  | nil => intro ss su; exact ⟨_, rfl, hlen _ _ _ _⟩
  | cons q ms ih =>
    obtain ⟨p, pet⟩ := q
    intro ss su
    obtain ⟨tail, ht, hl⟩ := ih (balK awc ss su p pet).sss (balK awc ss su p pet).ssu
    refine ⟨tail, ?_, hl⟩
    simp only [List.map_cons, List.cons_append, balances, balancesK]
    rw [balanceMonth_fin awc ss su p pet h]
    exact congrArg _ ht

/-- soil within capacity -/
def Soil (awc ss su : K) : Prop := 0 ≤ ss ∧ ss ≤ 1 ∧ 0 ≤ su ∧ su ≤ max (awc - 1) 0

/-- one month conserves water, for all inputs -/
theorem balK_conserve (awc ss su p pet : K) :
    (balK awc ss su p pet).p = p ∧ (balK awc ss su p pet).pet = pet ∧ (balK awc ss su p pet).sp = ss + su ∧
    p = (balK awc ss su p pet).et + (balK awc ss su p pet).ro + ((balK awc ss su p pet).sss + (balK awc ss su p pet).ssu - (ss + su)) ∧
    (balK awc ss su p pet).r - (balK awc ss su p pet).tl = (balK awc ss su p pet).sss + (balK awc ss su p pet).ssu - (ss + su) := by
  unfold balK
  simp only
  by_cases h1 : pet ≤ p
  · rw [if_pos h1]
    by_cases h2 : 1 - ss < p - pet
    · rw [if_pos h2]
      by_cases h3 : p - pet - (1 - ss) < max (awc - 1) 0 - su
      · simp only [if_pos h3]
        refine ⟨trivial, trivial, trivial, ?_, ?_⟩ <;> ring
      · simp only [if_neg h3]
        refine ⟨trivial, trivial, trivial, ?_, ?_⟩ <;> ring
    · rw [if_neg h2]
      refine ⟨rfl, rfl, rfl, ?_, ?_⟩ <;> simp only <;> ring
  · rw [if_neg h1]
    by_cases h2 : pet - p ≤ ss
    · rw [if_pos h2]
      refine ⟨rfl, rfl, rfl, ?_, ?_⟩ <;> simp only <;> ring
    · rw [if_neg h2]
      refine ⟨rfl, rfl, rfl, ?_, ?_⟩ <;> simp only <;> ring

/-- the actual terms are within the potential ones -/
structure Within (b : Balance K) : Prop where
  et0 : 0 ≤ b.et
  et1 : b.et ≤ b.pet
  r0 : 0 ≤ b.r
  r1 : b.r ≤ b.pr
  tl0 : 0 ≤ b.tl
  tl1 : b.tl ≤ b.pl
  ro0 : 0 ≤ b.ro
  sp0 : 0 ≤ b.sp

/-- one month from a soil within capacity -/
theorem balK_within (awc ss su p pet : K) (ha : 0 < awc) (hp : 0 ≤ p) (he : 0 ≤ pet) (h : Soil awc ss su) :
    Soil awc (balK awc ss su p pet).sss (balK awc ss su p pet).ssu ∧ Within (balK awc ss su p pet) := by
  obtain ⟨h1, h2, h3, h4⟩ := h
  have hbot : 0 ≤ max (awc - 1) 0 := le_max_right _ _
  have hsua : su ≤ awc := le_trans h4 (max_le (by linarith) ha.le)
  unfold balK
  simp only
  generalize hpl : (if pet ≤ ss then pet else min (ss + su) ((pet - ss) * su / (max (awc - 1) 0 + 1) + ss)) = pl
  have hpl_ge : ∀ y, y ≤ pet → y ≤ ss → y ≤ pl := by
    intro y hy1 hy2
    rw [← hpl]
    split
    · exact hy1
    · next hc =>
      have : 0 ≤ (pet - ss) * su / (max (awc - 1) 0 + 1) :=
        div_nonneg (mul_nonneg (by linarith [not_le.1 hc]) h3) (by linarith)
      refine le_min ?_ ?_ <;> linarith
  by_cases c1 : pet ≤ p
  · rw [if_pos c1]
    by_cases c2 : 1 - ss < p - pet
    · rw [if_pos c2]
      by_cases c3 : p - pet - (1 - ss) < max (awc - 1) 0 - su
      · simp only [if_pos c3]
        refine ⟨⟨zero_le_one, le_refl _, by linarith, by linarith⟩, ⟨?_, ?_, ?_, ?_, ?_, ?_, ?_, ?_⟩⟩ <;> simp only <;>
          first | exact hpl_ge 0 he h1 | linarith
      · simp only [if_neg c3]
        have c3' := not_lt.1 c3
        refine ⟨⟨zero_le_one, le_refl _, by linarith, by linarith⟩, ⟨?_, ?_, ?_, ?_, ?_, ?_, ?_, ?_⟩⟩ <;> simp only <;>
          first | exact hpl_ge 0 he h1 | linarith
    · rw [if_neg c2]
      have c2' := not_lt.1 c2
      refine ⟨⟨by simp only; linarith, by simp only; linarith, h3, h4⟩, ⟨?_, ?_, ?_, ?_, ?_, ?_, ?_, ?_⟩⟩ <;> simp only <;>
          first | exact hpl_ge 0 he h1 | linarith
  · rw [if_neg c1]
    have c1' := not_le.1 c1
    by_cases c2 : pet - p ≤ ss
    · rw [if_pos c2]
      refine ⟨⟨by simp only; linarith, by simp only; linarith, h3, h4⟩, ⟨?_, ?_, ?_, ?_, ?_, ?_, ?_, ?_⟩⟩ <;> simp only <;>
          first | exact hpl_ge _ (by linarith) (by linarith) | linarith
    · rw [if_neg c2]
      have c2' := not_le.1 c2
      have hul0 : 0 ≤ min su ((pet - p - ss) * su / awc) :=
        le_min h3 (div_nonneg (mul_nonneg (by linarith) h3) ha.le)
      have hul1 : min su ((pet - p - ss) * su / awc) ≤ pet - p - ss := by
        refine le_trans (min_le_right _ _) ?_
        rw [div_le_iff₀ ha]
        exact mul_le_mul_of_nonneg_left hsua (by linarith)
      have hul2 : min su ((pet - p - ss) * su / awc) ≤ su := min_le_left _ _
      have htl : ss + min su ((pet - p - ss) * su / awc) ≤ pl := by
        rw [← hpl, if_neg (by linarith)]
        by_cases hone : 1 ≤ awc
        · have hb : max (awc - 1) 0 + 1 = awc := by
            rw [max_eq_left (by linarith)]; ring
          rw [hb]
          refine le_min (by linarith) ?_
          have : (pet - p - ss) * su / awc ≤ (pet - ss) * su / awc := by
            rw [div_le_div_iff_of_pos_right ha]
            exact mul_le_mul_of_nonneg_right (by linarith) h3
          linarith [min_le_right su ((pet - p - ss) * su / awc)]
        · have hsu : su = 0 := by
            have : max (awc - 1) 0 = 0 := max_eq_right (by linarith)
            linarith
          subst hsu
          simp
      refine ⟨⟨le_refl _, zero_le_one, by simp only; linarith, by simp only; linarith⟩, ⟨?_, ?_, ?_, ?_, ?_, htl, ?_, ?_⟩⟩ <;>
        simp only <;> linarith

/-- induction over the months -/
theorem balancesK_within (awc : K) (ha : 0 < awc) (ms : List (K × K)) (hm : ∀ q ∈ ms, 0 ≤ q.1 ∧ 0 ≤ q.2) :
    ∀ ss su, Soil awc ss su → ∀ b ∈ balancesK awc ss su ms, Soil awc b.sss b.ssu ∧ Within b := by
  induction ms with
  | nil => intro ss su _ b hb; simp [balancesK] at hb
  | cons q ms ih =>
    obtain ⟨p, pet⟩ := q
    intro ss su hs b hb
    obtain ⟨h1, h2⟩ := hm (p, pet) List.mem_cons_self
    have hw := balK_within awc ss su p pet ha h1 h2 hs
    simp only [balancesK, List.mem_cons] at hb
    rcases hb with rfl | hb
    · exact hw
    · exact ih (fun q hq => hm q (List.mem_cons_of_mem _ hq)) _ _ hw.1 b hb

theorem balancesK_conserve (awc : K) (ms : List (K × K)) :
    ∀ ss su, ∀ b ∈ balancesK awc ss su ms,
      b.p = b.et + b.ro + (b.sss + b.ssu - b.sp) ∧ b.r - b.tl = b.sss + b.ssu - b.sp := by
  induction ms with
  | nil => intro ss su b hb; simp [balancesK] at hb
  | cons q ms ih =>
    obtain ⟨p, pet⟩ := q
    intro ss su b hb
    simp only [balancesK, List.mem_cons] at hb
    rcases hb with rfl | hb
    · obtain ⟨h1, h2, h3, h4, h5⟩ := balK_conserve awc ss su p pet
      rw [h1, h3]
      exact ⟨h4, h5⟩
    · exact ih _ _ b hb

theorem balancesK_inputs (awc : K) (ms : List (K × K)) :
    ∀ ss su, (balancesK awc ss su ms).map (fun b => (b.p, b.pet)) = ms := by
  induction ms with
  | nil => intro ss su; rfl
  | cons q ms ih =>
    obtain ⟨p, pet⟩ := q
    intro ss su
    obtain ⟨h1, h2, _⟩ := balK_conserve awc ss su p pet
    simp only [balancesK, List.map_cons, ih, h1, h2]

/-- moisture at the start of a month is the moisture at the end of the month before -/
theorem balancesK_chain (awc : K) (ms : List (K × K)) :
    ∀ ss su, (∀ b, (balancesK awc ss su ms)[0]? = some b → b.sp = ss + su) ∧
      ∀ (t : Nat) (b b' : Balance K), (balancesK awc ss su ms)[t]? = some b → (balancesK awc ss su ms)[t + 1]? = some b' →
        b'.sp = b.sss + b.ssu := by
  induction ms with
  | nil => intro ss su; exact ⟨fun b h => by simp [balancesK] at h, fun t b b' h => by simp [balancesK] at h⟩
  | cons q ms ih =>
    obtain ⟨p, pet⟩ := q
    intro ss su
    obtain ⟨i1, i2⟩ := ih (balK awc ss su p pet).sss (balK awc ss su p pet).ssu
    constructor
    · intro b hb
      simp only [balancesK, List.getElem?_cons_zero, Option.some.injEq] at hb
      rw [← hb]
      exact (balK_conserve awc ss su p pet).2.2.1
    · intro t b b' hb hb'
      simp only [balancesK, List.getElem?_cons_succ] at hb'
      cases t with
      | zero =>
        simp only [balancesK, List.getElem?_cons_zero, Option.some.injEq] at hb
        rw [← hb]
        exact i1 b' hb'
      | succ t =>
        simp only [balancesK, List.getElem?_cons_succ] at hb
        exact i2 t b b' hb hb'

/-! ## Sums over the calibration years -/

theorem runningSum_fin (l : List K) : runningSum (l.map Fl.fin) = fin l.sum := by
  have key : ∀ (l : List K) (a : K), (l.map Fl.fin).foldl (· + ·) (fin a) = (fin (a + l.sum) : Fl K) := by
    intro l
    induction l with
    | nil => intro a; simp
    | cons x l ih =>
      intro a
      rw [List.map_cons, List.foldl_cons, fin_add, ih, List.sum_cons, add_assoc]
  unfold runningSum
  rw [lit_zero, key, zero_add]

theorem zipIdx_map {α β : Type} (f : α → β) (l : List α) (k : Nat) :
    (l.map f).zipIdx k = (l.zipIdx k).map (fun q => (f q.1, q.2)) := by
  induction l generalizing k with
  | nil => rfl
  | cons a l ih => simp only [List.map_cons, List.zipIdx_cons, ih]

theorem calibMonth_map {α β : Type} (f : α → β) (ci cf : Int) (m : Nat) (l : List α) :
    calibMonth ci cf m (l.map f) = (calibMonth ci cf m l).map f := by
  unfold calibMonth
  rw [zipIdx_map, List.filter_map, List.map_map, List.map_map]
  rfl

theorem zipIdx_mem {α : Type} (l : List α) (k : Nat) (q : α × Nat) (h : q ∈ l.zipIdx k) : k ≤ q.2 ∧ q.2 < k + l.length ∧ q.1 ∈ l := by
  induction l generalizing k with
  | nil => simp at h
  | cons a l ih =>
    rw [List.zipIdx_cons, List.mem_cons] at h
    rcases h with rfl | h
    · simp
    · obtain ⟨h1, h2, h3⟩ := ih (k + 1) h
      rw [List.length_cons]
      exact ⟨by omega, by omega, List.mem_cons_of_mem _ h3⟩

/-- years after the calibration period do not enter -/
theorem calibMonth_append {α : Type} (ci cf : Int) (m : Nat) (l r : List α) (h : 12 * (cf + 1) ≤ l.length) :
    calibMonth ci cf m (l ++ r) = calibMonth ci cf m l := by
  unfold calibMonth
  rw [List.zipIdx_append, List.filter_append, List.map_append]
  have hnil : (r.zipIdx (0 + l.length)).filter (fun q => q.2 % 12 == m && inCalib ci cf q.2) = [] := by
    rw [List.filter_eq_nil_iff]
    intro q hq
    obtain ⟨h1, _, _⟩ := zipIdx_mem r _ q hq
    have : ¬ (((q.2 / 12 : Nat) : Int) ≤ cf) := by
      have : (l.length : Int) ≤ q.2 := by omega
      omega
    unfold inCalib
    rw [decide_eq_false this, Bool.and_false, Bool.and_false]
    exact Bool.false_ne_true
  rw [hnil]
  simp

theorem calibMonth_mem {α : Type} (ci cf : Int) (m : Nat) (l : List α) (x : α) (h : x ∈ calibMonth ci cf m l) : x ∈ l := by
  unfold calibMonth at h
  obtain ⟨q, hq, rfl⟩ := List.mem_map.1 h
  exact (zipIdx_mem l 0 q (List.mem_filter.1 hq).1).2.2

end field

end CI
