import Verif.Props.PalmerBalance
import Verif.Lemmas.Palmer64

/-!
# Property C131: the soil holds no more water than its available capacity

`_get_awc_bot` takes one inch of the capacity for the upper layer, also if the whole capacity is less than one inch.
-/

namespace CI.Props
open CI

/-! ## Any arithmetic: without a lower layer the capacity does not enter -/

section
variable {F : Type} [FloatOps F]

/-- the soil has no lower layer and nothing can be lost from it -/
structure Shallow (awc : F) : Prop where
  under : awcBot awc = lit 0
  loss : ∀ x : F, flt (x * lit 0 / awc) (lit 0) = false

/-- what the calculation with zeros and differences must give -/
structure ZeroLaws (F : Type) [FloatOps F] : Prop where
  sub : (lit 0 - lit 0 : F) = lit 0
  add : (lit 0 + lit 0 : F) = lit 0
  diff : ∀ x y : F, flt y x = true → flt (x - y) (lit 0) = false

theorem recharge_shallow (Z : ZeroLaws F) {awc awc' : F} (h : Shallow awc) (h' : Shallow awc') (p pet ss : F) :
    calcRecharge p pet ss (lit 0) awc = calcRecharge p pet ss (lit 0) awc' ∧ (calcRecharge p pet ss (lit 0) awc).ssu = lit 0 := by
  unfold calcRecharge
  simp only [h.under, h'.under, Z.sub]
  have hm : ∀ {a : F}, Shallow a → ∀ x, pyMin (lit 0) (x * lit 0 / a) = lit 0 := by
    intro a ha x
    unfold pyMin
    rw [ha.loss x]
    rfl
  simp only [hm h, hm h', Z.sub]
  refine ⟨trivial, ?_⟩
  split
  · split
    · next hd =>
      dsimp only
      rw [if_neg (by rw [Z.diff _ _ hd]; simp)]
      exact Z.add
    · rfl
  · split <;> rfl

theorem month_shallow (Z : ZeroLaws F) {awc awc' : F} (h : Shallow awc) (h' : Shallow awc') (p pet ss : F) :
    balanceMonth awc ss (lit 0) p pet = balanceMonth awc' ss (lit 0) p pet ∧ (balanceMonth awc ss (lit 0) p pet).ssu = lit 0 := by
  obtain ⟨h1, h2⟩ := recharge_shallow Z h h' p pet ss
  unfold balanceMonth potentialLoss
  simp only [h.under, h'.under, h1]
  exact ⟨trivial, h1 ▸ h2⟩

theorem balances_shallow (Z : ZeroLaws F) {awc awc' : F} (h : Shallow awc) (h' : Shallow awc') (months : List (F × F)) (ss : F) : balances awc ss (lit 0) months = balances awc' ss (lit 0) months := by
  induction months generalizing ss with
  | nil => rfl
  | cons m rest ih =>
    obtain ⟨p, pet⟩ := m
    obtain ⟨h1, h2⟩ := month_shallow Z h h' p pet ss
    show balanceMonth awc ss (lit 0) p pet :: balances awc _ _ rest = balanceMonth awc' ss (lit 0) p pet :: balances awc' _ _ rest
    rw [← h1, h2, ih]

theorem waterBalances_shallow (Z : ZeroLaws F) {awc awc' : F} (h : Shallow awc) (h' : Shallow awc') (months : List (F × F)) : waterBalances awc months = waterBalances awc' months := by
  unfold waterBalances
  rw [h.under, h'.under]
  exact balances_shallow Z h h' months _

theorem pdsi_shallow (Z : ZeroLaws F) {awc awc' : F} (h : Shallow awc) (h' : Shallow awc') (log10 : F → F) (precips pet : Arr F) (ds cs ce : Int) (fp : Option (PalmerDict F)) :
    palmerPdsi log10 precips pet awc ds cs ce fp = palmerPdsi log10 precips pet awc' ds cs ce fp := by
  have hb : ∀ n ps pets ci cf size, palmerBody log10 n ps pets awc ci cf fp size = palmerBody log10 n ps pets awc' ci cf fp size := by
    intro n ps pets ci cf size
    unfold palmerBody
    rw [waterBalances_shallow Z h h']
  unfold palmerPdsi
  simp only [hb]

end

/-! ## Exact arithmetic -/

section
variable {K : Type} [Field K] [LinearOrder K] [IsStrictOrderedRing K]

theorem zeroLaws : ZeroLaws (Fl K) := by
  refine ⟨?_, ?_, ?_⟩
  · show Fl.fin ((0 : ℚ) : K) - Fl.fin ((0 : ℚ) : K) = Fl.fin ((0 : ℚ) : K)
    simp
  · show Fl.fin ((0 : ℚ) : K) + Fl.fin ((0 : ℚ) : K) = Fl.fin ((0 : ℚ) : K)
    simp
  · intro x y h
    rw [lit_zero]
    cases x <;> cases y <;> first | rfl | cases h | skip
    rw [Fl.flt_fin, decide_eq_true_eq] at h
    rw [Fl.fin_sub, Fl.flt_fin, decide_eq_false_iff_not]
    linarith

theorem shallow_fin {a : K} (h : a ≤ 1) : Shallow (Fl.fin a) := by
  refine ⟨?_, ?_⟩
  · rw [awcBot_fin, lit_zero, max_eq_right (by linarith)]
  · intro x
    rw [lit_zero]
    cases x with
    | fin q =>
      rw [Fl.fin_mul, Fl.fin_div, mul_zero]
      split
      · simp [Fl.infSign]
        rfl
      · rw [zero_div, Fl.flt_fin]
        simp
    | nan => rfl
    | pinf =>
      have : (Fl.pinf : Fl K) * Fl.fin 0 = .nan := by
        show Fl.infSign (0 : K) = _
        simp [Fl.infSign]
      rw [this]
      rfl
    | ninf =>
      have : (Fl.ninf : Fl K) * Fl.fin 0 = .nan := by
        show Fl.neg (Fl.infSign (0 : K)) = _
        simp [Fl.infSign, Fl.neg]
      rw [this]
      rfl

end

/-! ## Rounded arithmetic -/

namespace B64Zero
open CI.B64 CI.Round
variable {σ : SumOrder}

theorem lit0 : (CI.lit 0 : B64 σ) = .fin false 0 mag_zero := by
  show B64.round false 0 = _
  unfold B64.round
  simp [rndPos, pow2_pos]

theorem ext0 : ext (CI.lit 0 : B64 σ) = .fin 0 := by
  rw [lit0]
  simp [ext, val]

theorem flt_def (x y : B64 σ) : flt x y = (Fl.le (ext x) (ext y) && !Fl.le (ext y) (ext x)) := rfl

theorem zeroLaws64 : ZeroLaws (B64 σ) := by
  refine ⟨?_, ?_, ?_⟩
  · rw [lit0]
    show B64.round (false && !false) (val false 0 + val (!false) 0) = _
    rw [← lit0]
    simp [val]
    rfl
  · rw [lit0]
    show B64.round (false && false) (val false 0 + val false 0) = _
    rw [← lit0]
    simp [val]
    rfl
  · intro x y h
    rw [flt_def] at h ⊢
    rw [ext0]
    have hs : ext (x - y) = rfl64 (Fl.add (ext x) (Fl.neg (ext y))) := by
      show ext (add x (neg y)) = _
      rw [ext_add, ext_neg]
    rw [hs]
    cases hx : ext x with
    | nan => rfl
    | pinf => cases hy : ext y <;> rfl
    | ninf =>
      rw [hx] at h
      cases hy : ext y <;> rw [hy] at h <;> cases h
    | fin a =>
      cases hy : ext y with
      | nan => rfl
      | ninf => rfl
      | pinf => rw [hx, hy] at h; cases h
      | fin b =>
        rw [hx, hy] at h
        simp only [Fl.le, Bool.and_eq_true, decide_eq_true_eq, Bool.not_eq_true', decide_eq_false_iff_not, not_le] at h
        have h0 := rfl64_mono (.fin 0) (.fin (a + -b)) (by simp [Fl.le]; linarith)
        have hz : rfl64 (.fin 0) = .fin 0 := by simp [rfl64, rndPos, pow2_pos]
        rw [hz] at h0
        show (_ && !Fl.le (.fin 0) (rfl64 (.fin (a + -b)))) = false
        rw [h0]
        simp

theorem shallow64 {awc : B64 σ} {a : ℚ} (ha : ext awc = .fin a) (h : a ≤ 1) : Shallow awc := by
  refine ⟨?_, ?_⟩
  · rcases h.lt_or_eq with h | h
    · obtain ⟨n, hn⟩ := fin_grid ha
      have hg : (2 : ℚ) ^ (-1074 : ℤ) ≤ 1 - a := by
        have h1 : (1 : ℚ) = ((2 ^ 1074 : ℤ) : ℚ) * 2 ^ (-1074 : ℤ) := by
          rw [zpow_neg, Int.cast_pow, Int.cast_ofNat, show (2 : ℚ) ^ (1074 : ℤ) = 2 ^ (1074 : ℕ) from zpow_natCast 2 1074]
          exact (mul_inv_cancel₀ (pow_ne_zero _ (by decide))).symm
        have hp : (0 : ℚ) < 2 ^ (-1074 : ℤ) := zpow_pos (by decide) _
        have hlt : n < 2 ^ 1074 := by
          by_contra hc
          have h2 : ((2 ^ 1074 : ℤ) : ℚ) ≤ n := by exact_mod_cast not_lt.1 hc
          have := mul_le_mul_of_nonneg_right h2 hp.le
          linarith
        have h3 : (n : ℚ) + 1 ≤ ((2 ^ 1074 : ℤ) : ℚ) := by exact_mod_cast hlt
        have := mul_le_mul_of_nonneg_right h3 hp.le
        linarith
      have hr : 0 < rndPos (1 - a) := by
        have h1 := rndPos_exact 1 (-1074) (by norm_num) le_rfl
        have h2 := rndPos_mono hg
        rw [Nat.cast_one, one_mul] at h1
        rw [h1] at h2
        exact lt_of_lt_of_le (zpow_pos (by decide) _) h2
      unfold awcBot pyMax
      rw [if_pos]
      rw [flt_def, ext0]
      have hs : ext (awc - CI.lit 1) = rfl64 (.fin (a + -1)) := by
        show ext (add awc (neg (CI.lit 1))) = _
        rw [ext_add, ext_neg, ha, ext_lit_one]
        rfl
      rw [hs, rfl64_fin]
      have habs : |a + -1| = 1 - a := by rw [abs_of_nonpos (by linarith)]; ring
      rw [habs]
      split
      · rw [if_pos (by linarith)]
        simp only [Fl.le, Bool.and_eq_true, decide_eq_true_eq, Bool.not_eq_true', decide_eq_false_iff_not, not_le]
        constructor <;> linarith
      · rw [if_pos (by linarith)]
        rfl
    · have : awc = CI.lit 1 := by
        subst h
        cases awc with
        | nan => cases ha
        | inf t => cases t <;> cases ha
        | fin t b hb =>
          have hv : val t b = 1 := Fl.fin.inj ha
          rw [B64.lit_one]
          cases t with
          | true =>
            have hv : -b = 1 := hv
            have := hb.1
            linarith
          | false =>
            have hv : b = 1 := hv
            subst hv
            rfl
      rw [this]
      unfold awcBot
      rw [FloatMono.one_sub_one]
      unfold pyMax
      split <;> rfl
  · intro x
    rw [flt_def, ext0, lit0]
    have key : ∀ z, (∃ s, z = B64.fin s 0 mag_zero) ∨ z = .nan → ext (z / awc) = .nan ∨ ext (z / awc) = .fin 0 := by
      intro z hz
      rcases hz with ⟨s, rfl⟩ | rfl
      · cases awc with
        | nan => cases ha
        | inf t => cases t <;> cases ha
        | fin t b hb =>
          have hd : (B64.fin s 0 mag_zero : B64 σ) / .fin t b hb = if b = 0 then (if (0 : ℚ) = 0 then .nan else .inf (s ^^ t)) else B64.round (s ^^ t) (val s 0 / val t b) := rfl
          rw [hd]
          by_cases hb0 : b = 0
          · left
            rw [if_pos hb0, if_pos rfl]
            rfl
          · right
            rw [if_neg hb0, ext_round]
            simp [val, rfl64, rndPos, pow2_pos]
      · left
        rfl
    have hz : (∃ s, x * (.fin false 0 mag_zero : B64 σ) = B64.fin s 0 mag_zero) ∨ x * (.fin false 0 mag_zero : B64 σ) = .nan := by
      cases x with
      | nan => exact .inr rfl
      | inf s =>
        right
        show (if (0 : ℚ) = 0 then B64.nan else B64.inf (s ^^ false)) = _
        rw [if_pos rfl]
      | fin s m hm =>
        left
        refine ⟨s, ?_⟩
        show B64.round (s ^^ false) (val s m * val false 0) = _
        have : val s m * val false 0 = 0 := by simp [val]
        rw [this]
        unfold B64.round
        simp [rndPos, pow2_pos]
    rcases key _ hz with h | h <;> rw [h]
    · rfl
    · simp [Fl.le]

end B64Zero

/-! ## C131 -/

section
variable {K : Type} [Field K] [LinearOrder K] [IsStrictOrderedRing K]
open Fl

theorem waterBalances_toFl (awc : K) (ha : awc ≠ 0) (ms : List (K × K)) :
    waterBalances (fin awc) (toFl ms) = (balancesK awc 1 (max (awc - 1) 0) ms).map (Balance.map Fl.fin) := by
  obtain ⟨tail, e1, e2⟩ := balances_fin awc ha ms [] 1 (max (awc - 1) 0)
  rw [List.append_nil, List.length_eq_zero_iff.1 e2, List.append_nil] at e1
  unfold waterBalances toFl
  rw [lit_one, awcBot_fin, e1]

/-- **C131, at least one inch.** In exact arithmetic, for a capacity of at least one inch and precipitation and PET that are not negative: at the end of every month the two layers together hold at
least nothing and at most the capacity. -/
theorem C131_partial (awc : K) (ha : 1 ≤ awc) (ms : List (K × K)) (hm : ∀ q ∈ ms, 0 ≤ q.1 ∧ 0 ≤ q.2) :
    ∃ bs : List (Balance K), waterBalances (fin awc) (toFl ms) = bs.map (Balance.map Fl.fin) ∧ bs.length = ms.length ∧ ∀ b ∈ bs, 0 ≤ b.sss + b.ssu ∧ b.sss + b.ssu ≤ awc := by
  obtain ⟨bs, h1, h2, h3⟩ := C36_capacity awc (by linarith) ms hm []
  refine ⟨bs, ?_, h2, ?_⟩
  · rw [List.append_nil] at h1
    rw [← h1, List.take_of_length_le]
    rw [waterBalances_toFl awc (by linarith [ha]) ms, List.length_map, balancesK_length]
  · intro b hb
    obtain ⟨⟨a1, a2⟩, a3, a4⟩ := h3 b hb
    rw [max_eq_left (by linarith)] at a4
    constructor <;> linarith

/-- the months of a record, each with the soil before it -/
theorem balancesK_at (awc : K) (ha : 0 < awc) (ms : List (K × K)) (hm : ∀ q ∈ ms, 0 ≤ q.1 ∧ 0 ≤ q.2) :
    ∀ ss su, Soil awc ss su → ∀ (t : ℕ) (p pet : K), ms[t]? = some (p, pet) → ∃ ss' su', Soil awc ss' su' ∧ (balancesK awc ss su ms)[t]? = some (balK awc ss' su' p pet) := by
  induction ms with
  | nil => intro ss su _ t p pet h; simp at h
  | cons q ms ih =>
    obtain ⟨p0, e0⟩ := q
    intro ss su hs t p pet h
    obtain ⟨hp, he⟩ := hm _ (List.mem_cons_self ..)
    cases t with
    | zero =>
      simp only [List.getElem?_cons_zero, Option.some.injEq, Prod.mk.injEq] at h
      obtain ⟨rfl, rfl⟩ := h
      exact ⟨ss, su, hs, rfl⟩
    | succ t =>
      rw [List.getElem?_cons_succ] at h
      obtain ⟨ss', su', h1, h2⟩ := ih (fun q hq => hm q (List.mem_cons_of_mem _ hq)) _ _ (balK_within awc ss su p0 e0 ha hp he hs).1 t p pet h
      exact ⟨ss', su', h1, h2⟩

/-- **C131 is false below one inch.** Whatever the capacity between 0 and 1 inch: after every month in which the precipitation is at least one inch more than the PET the soil holds one inch, which is
more than its capacity. -/
theorem C131_fails (awc : K) (ha : 0 < awc) (h1 : awc < 1) (ms : List (K × K)) (hm : ∀ q ∈ ms, 0 ≤ q.1 ∧ 0 ≤ q.2) (t : ℕ) (p pet : K) (ht : ms[t]? = some (p, pet)) (hw : 1 ≤ p - pet) :
    ∃ b : Balance (Fl K), (waterBalances (fin awc) (toFl ms))[t]? = some b ∧ b.sss + b.ssu = fin 1 ∧ flt (fin awc) (b.sss + b.ssu) = true := by
  obtain ⟨tail, e1, _⟩ := balances_fin awc ha.ne' ms [] 1 (max (awc - 1) 0)
  obtain ⟨ss, su, s1, s2⟩ := balancesK_at awc ha ms hm 1 _ (soil_full awc) t p pet ht
  obtain ⟨⟨a1, a2, a3, a4⟩, _⟩ := balK_within awc ss su p pet ha (hm _ (List.mem_of_getElem? ht)).1 (hm _ (List.mem_of_getElem? ht)).2 s1
  have hmax : max (awc - 1) 0 = 0 := max_eq_right (by linarith)
  rw [hmax] at a4
  have hu : (balK awc ss su p pet).ssu = 0 := le_antisymm a4 a3
  have hs : (balK awc ss su p pet).sss = 1 := by
    obtain ⟨b1, b2, b3, b4⟩ := s1
    have hpe : pet ≤ p := by linarith
    unfold balK
    simp only [if_pos hpe]
    by_cases hlt : 1 - ss < p - pet
    · rw [if_pos hlt]
    · rw [if_neg hlt]
      show ss + p - pet = 1
      linarith
  refine ⟨(balK awc ss su p pet).map Fl.fin, ?_, ?_, ?_⟩
  · rw [waterBalances_toFl awc ha.ne' ms, List.getElem?_map, s2]
    rfl
  · show Fl.fin _ + Fl.fin _ = _
    rw [hs, hu, fin_add, add_zero]
  · show flt _ (Fl.fin _ + Fl.fin _) = _
    rw [hs, hu, fin_add, add_zero, flt_fin, decide_eq_true h1]

/-- **C131: below one inch the capacity does not matter, exact arithmetic.** All results of `pdsi` are the same for any two capacities of at most one inch, for all data (missing and infinite values
included), calibration years and given coefficients. -/
theorem C131_same (awc awc' : K) (h : awc ≤ 1) (h' : awc' ≤ 1) (log10 : Fl K → Fl K) (precips pet : Arr (Fl K)) (ds cs ce : Int) (fp : Option (PalmerDict (Fl K))) :
    palmerPdsi log10 precips pet (fin awc) ds cs ce fp = palmerPdsi log10 precips pet (fin awc') ds cs ce fp :=
  pdsi_shallow zeroLaws (shallow_fin h) (shallow_fin h') log10 precips pet ds cs ce fp

end

/-- **C131: below one inch the capacity does not matter, float64.** The same, bit by bit, in the rounded arithmetic of the program. -/
theorem C131_same_float64 {σ : SumOrder} (awc awc' : B64 σ) (a a' : ℚ) (ha : B64.ext awc = .fin a) (ha' : B64.ext awc' = .fin a') (h : a ≤ 1) (h' : a' ≤ 1) (log10 : B64 σ → B64 σ)
    (precips pet : Arr (B64 σ)) (ds cs ce : Int) (fp : Option (PalmerDict (B64 σ))) :
    palmerPdsi log10 precips pet awc ds cs ce fp = palmerPdsi log10 precips pet awc' ds cs ce fp :=
  pdsi_shallow B64Zero.zeroLaws64 (B64Zero.shallow64 ha h) (B64Zero.shallow64 ha' h') log10 precips pet ds cs ce fp

/-! ## Examples -/

/-- a soil that can hold 0.2 inches: it holds one inch at the beginning (a dry month takes 0.8 inches from it) and again after the wet month -/
example : ((waterBalances (Fl.fin (1 / 5)) (toFl [(0, 4 / 5), (3, 1), (0, 2)])).map (fun b => (b.tl, b.sss + b.ssu)) : List (Fl ℚ × Fl ℚ)) =
    [(.fin (4 / 5), .fin (1 / 5)), (.fin 0, .fin 1), (.fin 1, .fin 0)] ∧
    (∀ q ∈ ([(0, 4 / 5), (3, 1), (0, 2)] : List (ℚ × ℚ)), 0 ≤ q.1 ∧ 0 ≤ q.2) ∧ ([(0, 4 / 5), (3, 1), (0, 2)] : List (ℚ × ℚ))[1]? = some (3, 1) := by decide +kernel

/-- above one inch it does matter: the same months for 2 and 3 inches -/
example : ((waterBalances (Fl.fin 2) (toFl [(0, 4), (3, 1)])).map (·.ro) : List (Fl ℚ)) ≠ (waterBalances (Fl.fin 3) (toFl [(0, 4), (3, 1)])).map (·.ro) ∨
    ((waterBalances (Fl.fin 2) (toFl [(0, 4), (3, 1)])).map (·.tl) : List (Fl ℚ)) ≠ (waterBalances (Fl.fin 3) (toFl [(0, 4), (3, 1)])).map (·.tl) := by decide +kernel

/-- capacities of 0.2 and 1 inch in float64 -/
example (log10 : B64 leftToRight → B64 leftToRight) (precips pet : Arr (B64 leftToRight)) (fp : Option (PalmerDict (B64 leftToRight))) :
    palmerPdsi log10 precips pet (lit 0.25) 1950 1951 1980 fp = palmerPdsi log10 precips pet (lit 1) 1950 1951 1980 fp :=
  C131_same_float64 _ _ (1 / 4) 1 (by decide +kernel) (by decide +kernel) (by norm_num) le_rfl log10 precips pet 1950 1951 1980 fp

end CI.Props
