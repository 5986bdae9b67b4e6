import Verif.Lemmas.DriftRun64
import Verif.Props.Float64Soil

/-!
# C96, C100: rounding errors of the water balance over a record

The exact month does not enlarge differences between two states of the soil (sum of the differences of both layers), so the rounding errors of all
months add up and nothing worse happens. The program's balance is compared with the same functions in exact arithmetic on the same float64 data.
-/

namespace CI.Props
open B64

variable {σ : SumOrder}

theorem site64 {B a : ℚ} {awc : B64 σ} (hB : Limits B) (ha : ext awc = .fin a) (h0 : 1 / 10 ^ 6 ≤ a) (h1 : a ≤ B) : ∃ bot, Site B a bot awc := by
  have a0 : 0 < a := lt_of_lt_of_le (by norm_num) h0
  have hB12 := hB.top
  have hU := unit_pos
  have hU1 := unit_small
  obtain ⟨bot, k1, k2, k3, k4⟩ := awcBot64 ha a0 (by
    have : (10 : ℚ) ^ 12 ≤ 2 ^ (1000 : ℤ) :=
      le_trans (by norm_num : (10 : ℚ) ^ 12 ≤ 2 ^ (60 : ℕ)) (by rw [← zpow_natCast]; exact zpow_le_zpow_right₀ (by norm_num) (by norm_num))
    exact (h1.trans hB12).trans this)
  refine ⟨bot, hB, ha, h0, h1, k1, k2, k3.trans h1, ?_, ?_⟩
  · have hsub := fin_sub ha (ext_lit_one (σ := σ)) (lim12 hB (by rw [abs_le]; constructor <;> linarith [hB.one]))
    have hr := rnd_off hB.one (q := a - 1) (by rw [abs_le]; constructor <;> linarith [hB.one])
    have hb : bot = max (rnd (a - 1)) 0 := by
      have h := k1
      unfold awcBot pyMax at h
      rw [flt_ext hsub ext_lit_zero] at h
      by_cases c : rnd (a - 1) < 0
      · rw [if_pos (by simpa using c), ext_lit_zero] at h
        rw [max_eq_right c.le]; exact (Fl.fin.inj h).symm
      · rw [if_neg (by simpa using c), hsub] at h
        rw [max_eq_left (not_lt.1 c)]; exact (Fl.fin.inj h).symm
    rw [hb]
    refine (abs_max_sub_max_le_max _ _ _ _).trans (max_le ?_ ?_)
    · rw [abs_le]; constructor <;> linarith [hr.1, hr.2]
    · rw [sub_self, abs_zero]; exact hB.pos.le
  · rcases le_total a 1 with h | h
    · rw [max_eq_right (by linarith), zero_mul] at k4
      have : bot = 0 := le_antisymm k4 k2
      rw [this, zero_mul]; exact a0.le
    · rw [max_eq_left (by linarith)] at k4
      have e1 : bot * (1 + 4 * unit) ≤ (a - 1) * (1 + unit) * (1 + 4 * unit) := mul_le_mul_of_nonneg_right k4 (by linarith)
      have e2 : (1 + unit) * (1 + 4 * unit) ≤ 1 + 6 * unit := by
        have : unit * unit ≤ unit * (1 / 10 ^ 15) := mul_le_mul_of_nonneg_left hU1 hU.le
        nlinarith
      have e3 : (a - 1) * ((1 + unit) * (1 + 4 * unit)) ≤ (a - 1) * (1 + 6 * unit) := mul_le_mul_of_nonneg_left e2 (by linarith)
      have e4 : a * unit ≤ 10 ^ 12 * (1 / 10 ^ 15) := mul_le_mul (by linarith) hU1 hU.le (by norm_num)
      nlinarith

/-- the data of a record: float64 values and the numbers they stand for, not negative and at most `B` -/
def Record (B : ℚ) (ms : List (B64 σ × B64 σ)) (mq : List (ℚ × ℚ)) : Prop :=
  List.Forall₂ (fun m q => ext m.1 = .fin q.1 ∧ ext m.2 = .fin q.2 ∧ 0 ≤ q.1 ∧ q.1 ≤ B ∧ 0 ≤ q.2 ∧ q.2 ≤ B) ms mq

theorem drift_run {B a bot : ℚ} {awc : B64 σ} (S : Site B a bot awc) {ms : List (B64 σ × B64 σ)} {mq : List (ℚ × ℚ)} (hm : Record B ms mq) :
    ∀ (ss su : B64 σ) (s u s' u' δ : ℚ), Soil64 B bot ss su → ext ss = .fin s → ext su = .fin u → Soil a s' u' → |s - s'| + |u - u'| ≤ δ →
      ∀ (t : ℕ) (b : Balance (B64 σ)) (b' : Balance ℚ), (balances awc ss su ms)[t]? = some b → (balancesK a s' u' mq)[t]? = some b' →
        OffMonth (2 * (δ + 9 * t * opErr B) + 18 * opErr B) b (b'.map Fl.fin) := by
  have a0 : 0 < a := lt_of_lt_of_le (by norm_num) S.low
  have hB1 := S.lim.one
  have hbig : B ≤ 2 ^ (1000 : ℤ) := S.lim.top.trans (le_trans (by norm_num : (10 : ℚ) ^ 12 ≤ 2 ^ (60 : ℕ))
    (by rw [← zpow_natCast]; exact zpow_le_zpow_right₀ (by norm_num) (by norm_num)))
  induction hm with
  | nil => intro ss su s u s' u' δ _ _ _ _ _ t b b' h; simp [balances] at h
  | @cons m q ms mq hq hm ih =>
    obtain ⟨p, e⟩ := m
    obtain ⟨p', e'⟩ := q
    obtain ⟨h1, h2, h3, h4, h5, h6⟩ := hq
    intro ss su s u s' u' δ hs hss hsu hs' hδ t b b' hb hb'
    obtain ⟨M, v, w, hv, hw, hvw⟩ := drift_month S hs hss hsu hs' hδ h1 h2 h3 h4 h5 h6
    rw [balances] at hb
    rw [balancesK] at hb'
    cases t with
    | zero =>
      rw [List.getElem?_cons_zero, Option.some.injEq] at hb hb'
      subst hb; subst hb'
      refine M.mono ?_
      push_cast
      linarith
    | succ t =>
      rw [List.getElem?_cons_succ] at hb hb'
      have hs2 := recharge64 (by linarith) hbig S.cap a0 S.under S.bot0 (S.botB.trans hbig) hs h1 h2 h3 h4 h5 (h6.trans hbig)
      have hs2' := (balK_within a s' u' p' e' a0 h3 h5 hs').1
      have := ih _ _ v w _ _ (δ + 9 * opErr B) hs2 hv hw hs2' hvw t b b' hb hb'
      refine this.mono ?_
      push_cast
      linarith

theorem record_map {B : ℚ} {ms : List (B64 σ × B64 σ)} {mq : List (ℚ × ℚ)} (hm : Record B ms mq) :
    ms.map (fun m => (ext m.1, ext m.2)) = mq.map (fun q => (Fl.fin q.1, Fl.fin q.2)) := by
  induction hm with
  | nil => rfl
  | cons hq _ ih => rw [List.map_cons, List.map_cons, ih, hq.1, hq.2.1]

theorem exact_run {a B : ℚ} {awc : B64 σ} (ha : ext awc = .fin a) (ha0 : a ≠ 0) {ms : List (B64 σ × B64 σ)} {mq : List (ℚ × ℚ)} (hm : Record B ms mq) :
    waterBalances (ext awc) (ms.map (fun m => (ext m.1, ext m.2))) = (balancesK a 1 (max (a - 1) 0) mq).map (Balance.map Fl.fin) := by
  obtain ⟨tail, h1, h2⟩ := balances_fin a ha0 mq [] 1 (max (a - 1) 0)
  unfold waterBalances
  rw [record_map hm, ha, awcBot_fin, CI.lit_one]
  rw [List.append_nil] at h1
  rw [h1]
  simpa using h2

theorem record_of {B : ℚ} (ms : List (B64 σ × B64 σ)) (hm : ∀ m ∈ ms, ∃ p e, ext m.1 = .fin p ∧ ext m.2 = .fin e ∧ 0 ≤ p ∧ p ≤ B ∧ 0 ≤ e ∧ e ≤ B) :
    ∃ mq, Record B ms mq := by
  induction ms with
  | nil => exact ⟨[], .nil⟩
  | cons m ms ih =>
    obtain ⟨p, e, h⟩ := hm m (by simp)
    obtain ⟨mq, h2⟩ := ih (fun m hm' => hm m (List.mem_cons_of_mem _ hm'))
    exact ⟨(p, e) :: mq, .cons h h2⟩

theorem balances_len (awc : B64 σ) (ms : List (B64 σ × B64 σ)) : ∀ ss su, (balances awc ss su ms).length = ms.length := by
  induction ms with
  | nil => intro ss su; rfl
  | cons m ms ih => obtain ⟨p, e⟩ := m; intro ss su; rw [balances, List.length_cons, List.length_cons, ih]

/-- the run from the full soil -/
theorem drift_full {B a bot : ℚ} {awc : B64 σ} (S : Site B a bot awc) {ms : List (B64 σ × B64 σ)} {mq : List (ℚ × ℚ)} (hm : Record B ms mq) (t : ℕ)
    (b : Balance (B64 σ)) (b' : Balance ℚ) (hb : (waterBalances awc ms)[t]? = some b) (hb' : (balancesK a 1 (max (a - 1) 0) mq)[t]? = some b') :
    OffMonth (20 * (t + 1) * opErr B) b (b'.map Fl.fin) := by
  have hU := unit_pos
  have hw := S.lim.pos
  have hsoil : Soil64 B bot (CI.lit 1) (awcBot awc) := by
    refine ⟨⟨1, ext_lit_one, by norm_num, ?_⟩, ⟨bot, S.under, S.bot0, le_mul_of_one_le_right S.bot0 (by linarith)⟩⟩
    have : 0 ≤ slackTop B := by unfold slackTop; have := S.lim.one; positivity
    linarith
  have := drift_run S hm (CI.lit 1) (awcBot awc) 1 bot 1 (max (a - 1) 0) (opErr B) hsoil ext_lit_one S.under
    ⟨by norm_num, le_refl _, le_max_right _ _, le_refl _⟩ (by rw [sub_self, abs_zero, zero_add]; exact S.close) t b b' hb hb'
  refine this.mono ?_
  have : 0 ≤ (t : ℚ) * opErr B := mul_nonneg (Nat.cast_nonneg t) hw.le
  nlinarith

/-- **C100.** Rounding errors of the water balance grow at most linearly with the length of the record: in month `t` (counted from 0) soil water,
potential and actual recharge, loss, runoff and evapotranspiration computed in float64 differ from the exact values for the same data by at most
`80 (t + 1) B 2^-53`, if precipitation, PET and available water capacity are at most `B`. -/
theorem C100_drift (awc : B64 σ) (a B : ℚ) (hB1 : 1 ≤ B) (hB : B ≤ 10 ^ 12) (ha : ext awc = .fin a) (h0 : 1 / 10 ^ 6 ≤ a) (h1 : a ≤ B)
    (ms : List (B64 σ × B64 σ)) (hm : ∀ m ∈ ms, ∃ p e, ext m.1 = .fin p ∧ ext m.2 = .fin e ∧ 0 ≤ p ∧ p ≤ B ∧ 0 ≤ e ∧ e ≤ B) :
    (waterBalances awc ms).length = ms.length ∧ (waterBalances (ext awc) (ms.map (fun m => (ext m.1, ext m.2)))).length = ms.length ∧
    ∀ (t : ℕ) (b : Balance (B64 σ)) (b' : Balance (Fl ℚ)), (waterBalances awc ms)[t]? = some b →
      (waterBalances (ext awc) (ms.map (fun m => (ext m.1, ext m.2))))[t]? = some b' →
      OffMonth (80 * (t + 1) * B / 2 ^ 53) b b' := by
  have a0 : 0 < a := lt_of_lt_of_le (by norm_num) h0
  obtain ⟨bot, S⟩ := site64 ⟨hB1, hB⟩ ha h0 h1
  obtain ⟨mq, hq⟩ := record_of ms hm
  rw [exact_run ha a0.ne' hq]
  refine ⟨balances_len _ _ _ _, by rw [List.length_map, balancesK_length]; exact hq.length_eq.symm, ?_⟩
  intro t b b' hb hb'
  rw [List.getElem?_map] at hb'
  cases hk : (balancesK a 1 (max (a - 1) 0) mq)[t]? with
  | none => rw [hk] at hb'; cases hb'
  | some c =>
    rw [hk, Option.map_some, Option.some.injEq] at hb'
    subst hb'
    refine (drift_full S hq t b c hb hk).mono (le_of_eq ?_)
    unfold opErr unit
    ring

/-! ## Sums over the calibration years and coefficients -/

/-- the exact numbers of a month are not negative and at most `C` -/
structure Bounded (C : ℚ) (b : Balance ℚ) : Prop where
  et : 0 ≤ b.et ∧ b.et ≤ C
  pet : 0 ≤ b.pet ∧ b.pet ≤ C
  r : 0 ≤ b.r ∧ b.r ≤ C
  pr : 0 ≤ b.pr ∧ b.pr ≤ C
  ro : 0 ≤ b.ro ∧ b.ro ≤ C
  sp : 0 ≤ b.sp ∧ b.sp ≤ C
  tl : 0 ≤ b.tl ∧ b.tl ≤ C
  pl : 0 ≤ b.pl ∧ b.pl ≤ C

theorem balK_bounded {B a s u p e : ℚ} (hB1 : 1 ≤ B) (ha0 : 0 < a) (haB : a ≤ B) (h : Soil a s u) (hp : 0 ≤ p) (hpB : p ≤ B) (he : 0 ≤ e) (heB : e ≤ B) :
    Bounded (2 * B) (balK a s u p e) := by
  have W := (balK_within a s u p e ha0 hp he h).2
  obtain ⟨q1, q2, q3, _, _⟩ := balK_conserve a s u p e
  obtain ⟨fw, fd⟩ := balK_flows a s u p e
  obtain ⟨h1, h2, h3, h4⟩ := h
  have hbot : max (a - 1) 0 ≤ B := max_le (by linarith) (by linarith)
  have fprl : (balK a s u p e).pr = max (a - 1) 0 + 1 - (s + u) ∧ (balK a s u p e).pl = pl1 (max (a - 1) 0 + 1) s u e := by
    unfold balK pl1; simp only; split <;> split <;> exact ⟨rfl, rfl⟩
  have hpl : (balK a s u p e).pl ≤ 2 * B := by
    rw [fprl.2]; unfold pl1
    split
    · linarith
    · exact (min_le_left _ _).trans (by linarith)
  have het := W.et1
  rw [q2] at het
  have hpr : (balK a s u p e).pr ≤ 2 * B := by rw [fprl.1]; linarith
  have hro : (balK a s u p e).ro ≤ 2 * B := by
    rcases le_or_gt e p with c | c
    · obtain ⟨_, _, g3, g4⟩ := fw c
      have := W.r0
      linarith
    · obtain ⟨_, g2, _⟩ := fd c
      linarith
  refine ⟨⟨W.et0, by linarith⟩, ?_, ⟨W.r0, W.r1.trans hpr⟩, ⟨W.r0.trans W.r1, hpr⟩, ⟨W.ro0, hro⟩, ⟨W.sp0, ?_⟩, ⟨W.tl0, W.tl1.trans hpl⟩, ⟨W.tl0.trans W.tl1, hpl⟩⟩
  · rw [q2]; exact ⟨he, by linarith⟩
  · rw [q3]; linarith

theorem balancesK_bounded {B a : ℚ} (hB1 : 1 ≤ B) (ha0 : 0 < a) (haB : a ≤ B) {ms : List (B64 σ × B64 σ)} {mq : List (ℚ × ℚ)} (hm : Record B ms mq) :
    ∀ s u, Soil a s u → ∀ b ∈ balancesK a s u mq, Bounded (2 * B) b := by
  induction hm with
  | nil => intro s u _ b hb; simp [balancesK] at hb
  | @cons m q ms mq hq hm ih =>
    obtain ⟨p, e⟩ := q
    obtain ⟨_, _, h3, h4, h5, h6⟩ := hq
    intro s u hs b hb
    simp only [balancesK, List.mem_cons] at hb
    rcases hb with rfl | hb
    · exact balK_bounded hB1 ha0 haB hs h3 h4 h5 h6
    · exact ih _ _ (balK_within a s u p e ha0 h3 h5 hs).1 b hb

/-- running sums of up to `T` numbers -/
theorem runningSum_off {B T ε : ℚ} (hB : Limits B) (hT1 : 1 ≤ T) (hT : T ≤ 10 ^ 12) (hε : ε ≤ 20 * T * opErr B) {l : List (B64 σ)} {l' : List ℚ}
    (h : List.Forall₂ (fun x y => Off ε x (.fin y) ∧ 0 ≤ y ∧ y ≤ 2 * B) l l') (hlen : (l.length : ℚ) ≤ T) :
    Off (T * (21 * T * opErr B)) (runningSum l) (.fin l'.sum) ∧ 0 ≤ l'.sum ∧ l'.sum ≤ 2 * B * T := by
  have hw := hB.pos
  have hB1 := hB.one
  have hU := unit_pos
  have h42 : 42 * T * unit ≤ 1 / 2 := by
    have : T * unit ≤ 10 ^ 12 * (1 / 10 ^ 15) := mul_le_mul hT unit_small hU.le (by norm_num)
    linarith
  have hE : 21 * T * opErr B ≤ B := by
    unfold opErr
    have : 42 * T * unit * (2 * B) ≤ 1 / 2 * (2 * B) := mul_le_mul_of_nonneg_right h42 (by linarith)
    linarith
  have hE0 : 0 < 21 * T * opErr B := by positivity
  have key : ∀ (l : List (B64 σ)) (l' : List ℚ), List.Forall₂ (fun x y => Off ε x (.fin y) ∧ 0 ≤ y ∧ y ≤ 2 * B) l l' →
      ∀ (k : ℕ) (x : B64 σ) (α β : ℚ), ext x = .fin α → |α - β| ≤ k * (21 * T * opErr B) → 0 ≤ β → β ≤ 2 * B * k → ((k + l.length : ℕ) : ℚ) ≤ T →
        ∃ γ, ext (l.foldl (· + ·) x) = .fin γ ∧ |γ - (β + l'.sum)| ≤ ((k + l.length : ℕ) : ℚ) * (21 * T * opErr B) ∧ 0 ≤ l'.sum ∧
          β + l'.sum ≤ 2 * B * ((k + l.length : ℕ) : ℚ) := by
    intro l l' h
    induction h with
    | nil => intro k x α β hx hαβ h0 hβ _; exact ⟨α, hx, by simpa using hαβ, by simp, by simpa using hβ⟩
    | @cons y z l l' hyz _ ih =>
      intro k x α β hx hαβ h0 hβ hk
      obtain ⟨⟨c, d, hc, hd, hcd⟩, z0, z1⟩ := hyz
      cases hd
      rw [List.length_cons] at hk
      have hk1 : ((k + 1 : ℕ) : ℚ) ≤ T := le_trans (by exact_mod_cast (by omega : k + 1 ≤ k + (l.length + 1))) hk
      have hkc : ((k + 1 : ℕ) : ℚ) = k + 1 := by push_cast; rfl
      have hk0 : (0 : ℚ) ≤ k := Nat.cast_nonneg k
      have hab := abs_le.1 hαβ
      have hcz := abs_le.1 (hcd.trans hε)
      have bk : (k : ℚ) * (21 * T * opErr B) ≤ k * B := mul_le_mul_of_nonneg_left hE hk0
      have hBk : B * ((k : ℚ) + 1) ≤ B * T := mul_le_mul_of_nonneg_left (by linarith) (by linarith)
      have hTw : 20 * T * opErr B ≤ B := by
        have : 0 < T * opErr B := by positivity
        linarith
      have hmag : |α + c| ≤ 4 * (B * T) := by
        rw [abs_le]; constructor <;> linarith
      have hov : |α + c| ≤ 2 ^ (1023 : ℤ) := by
        refine hmag.trans ?_
        have h1 : B * T ≤ 10 ^ 12 * 10 ^ 12 := mul_le_mul hB.top hT (by linarith) (by norm_num)
        have h2 : 4 * (B * T) ≤ 2 ^ (100 : ℕ) := by
          have : (4 : ℚ) * (10 ^ 12 * 10 ^ 12) ≤ 2 ^ (100 : ℕ) := by norm_num
          linarith
        refine h2.trans ?_
        rw [← zpow_natCast]; exact zpow_le_zpow_right₀ (by norm_num) (by norm_num)
      have hr := abs_le.1 (rnd_add_rel hx hc)
      have hrb : |α + c| * unit ≤ T * opErr B := by
        have := mul_le_mul_of_nonneg_right hmag hU.le
        unfold opErr
        linarith
      have hsum := fin_add hx hc hov
      have := ih (k + 1) (x + y) _ (β + z) hsum ?_ (by linarith) ?_ ?_
      · obtain ⟨γ, g1, g2, g3, g4⟩ := this
        have e1 : k + 1 + l.length = k + (y :: l).length := by rw [List.length_cons]; omega
        rw [e1] at g2 g4
        refine ⟨γ, g1, ?_, ?_, ?_⟩
        · rw [List.sum_cons, ← add_assoc]; exact g2
        · rw [List.sum_cons]; linarith
        · rw [List.sum_cons, ← add_assoc]; exact g4
      · rw [hkc, abs_le]
        constructor <;> linarith [hr.1, hr.2, hcz.1, hcz.2, hab.1, hab.2]
      · rw [hkc]; linarith
      · rw [show k + 1 + l.length = k + (l.length + 1) by omega]; exact hk
  obtain ⟨γ, g1, g2, g3, g4⟩ := key l l' h 0 (CI.lit 0) 0 0 ext_lit_zero (by simp) le_rfl (by simp) (by simpa using hlen)
  rw [zero_add, Nat.zero_add] at g2 g4
  refine ⟨⟨γ, l'.sum, g1, rfl, g2.trans (mul_le_mul_of_nonneg_right hlen hE0.le)⟩, g3, ?_⟩
  exact g4.trans (mul_le_mul_of_nonneg_left hlen (by linarith))

theorem forall₂_calib {α β : Type} {R : α → β → Prop} {l : List α} {m : List β} (h : List.Forall₂ R l m) (ci cf : Int) (j : ℕ) :
    List.Forall₂ R (calibMonth ci cf j l) (calibMonth ci cf j m) := by
  unfold calibMonth
  generalize 0 = k
  induction h generalizing k with
  | nil => exact .nil
  | @cons a b l m hab _ ih =>
    rw [List.zipIdx_cons, List.zipIdx_cons, List.filter_cons, List.filter_cons]
    dsimp only
    split
    · exact .cons hab (ih (k + 1))
    · exact ih (k + 1)

theorem calib_length_le {α : Type} (ci cf : Int) (j : ℕ) (l : List α) : (calibMonth ci cf j l).length ≤ l.length := by
  unfold calibMonth
  rw [List.length_map]
  refine (List.length_filter_le _ _).trans ?_
  rw [List.length_zipIdx]

/-- quotients of sums -/
theorem ratio_off {X U x y x' y' : ℚ} {A P : B64 σ} (hA : ext A = .fin x) (hP : ext P = .fin y) (hX0 : 0 < X) (hx : |x - x'| ≤ X) (hy : |y - y'| ≤ X)
    (hx0 : 0 ≤ x') (hbig : 8 * X ≤ y') (hU : 4 * unit * y' ≤ X) (hmx : x' / y' ≤ U) (hU1 : U ≤ 10 ^ 50) :
    ∃ c, ext (A / P) = .fin c ∧ |c - x' / y'| ≤ (1 + x' / y') * (4 * X / y') ∧ y ≠ 0 := by
  have hu := unit_pos
  have hx := abs_le.1 hx
  have hy := abs_le.1 hy
  have hy'0 : 0 < y' := by linarith
  have hy0 : 0 < y := by linarith
  set c' := x' / y' with hc'
  have hc0 : 0 ≤ c' := div_nonneg hx0 hy'0.le
  have ex : x' = c' * y' := by rw [hc']; field_simp
  have hXy : 0 < X / y' := div_pos hX0 hy'0
  have hX8 : X / y' ≤ 1 / 8 := by rw [div_le_iff₀ hy'0]; linarith
  -- the exact quotient of the rounded sums
  have up : x / y - c' ≤ (1 + c') * (2 * (X / y')) := by
    have h1 : x - c' * y ≤ (1 + c') * X := by
      have : c' * (y' - y) ≤ c' * X := mul_le_mul_of_nonneg_left (by linarith) hc0
      linarith
    have h2 : (1 + c') * X ≤ (1 + c') * (2 * (X / y')) * y := by
      have e : 2 * (X / y') * y ≥ X := by
        have : X / y' * y' = X := by field_simp
        have h3 : X / y' * (y' / 2) ≤ X / y' * y := mul_le_mul_of_nonneg_left (by linarith) hXy.le
        linarith
      have := mul_le_mul_of_nonneg_left e (by linarith : (0 : ℚ) ≤ 1 + c')
      linarith
    have h3 : x / y ≤ c' + (1 + c') * (2 * (X / y')) := by rw [div_le_iff₀ hy0]; linarith
    linarith
  have dn : c' - x / y ≤ (1 + c') * (2 * (X / y')) := by
    have h1 : c' * y - x ≤ (1 + c') * X := by
      have : c' * (y - y') ≤ c' * X := mul_le_mul_of_nonneg_left (by linarith) hc0
      linarith
    have h2 : (1 + c') * X ≤ (1 + c') * (2 * (X / y')) * y := by
      have e : 2 * (X / y') * y ≥ X := by
        have : X / y' * y' = X := by field_simp
        have h3 : X / y' * (y' / 2) ≤ X / y' * y := mul_le_mul_of_nonneg_left (by linarith) hXy.le
        linarith
      have := mul_le_mul_of_nonneg_left e (by linarith : (0 : ℚ) ≤ 1 + c')
      linarith
    have h3 : c' - (1 + c') * (2 * (X / y')) ≤ x / y := by rw [le_div_iff₀ hy0]; linarith
    linarith
  have hd : (1 + c') * (2 * (X / y')) ≤ (1 + c') * (1 / 4) := mul_le_mul_of_nonneg_left (by linarith) (by linarith)
  have hmag : |x / y| ≤ 2 * (1 + c') := by rw [abs_le]; constructor <;> linarith
  have hov : |x / y| ≤ 2 ^ (1023 : ℤ) := by
    refine hmag.trans ?_
    have h2 : 2 * (1 + c') ≤ 2 ^ (200 : ℕ) := by
      have : (2 : ℚ) * (1 + 10 ^ 50) ≤ 2 ^ (200 : ℕ) := by norm_num
      linarith
    refine h2.trans ?_
    rw [← zpow_natCast]; exact zpow_le_zpow_right₀ (by norm_num) (by norm_num)
  have hq := fin_div hA hP hy0.ne' hov
  have hr := abs_le.1 (rnd_abs (x / y))
  have hun : 4 * unit ≤ X / y' := by rw [le_div_iff₀ hy'0]; exact hU
  have htiny := tiny_le
  have htp : (0 : ℚ) < 2 ^ (-1074 : ℤ) := zpow_pos (by norm_num) _
  generalize (2 : ℚ) ^ (-1074 : ℤ) = t at *
  have hrb : |x / y| * unit ≤ 2 * (1 + c') * unit := mul_le_mul_of_nonneg_right hmag hu.le
  have hcX : 0 ≤ c' * unit := mul_nonneg hc0 hu.le
  have hlast : (1 + c') * (4 * unit) ≤ (1 + c') * (X / y') := mul_le_mul_of_nonneg_left hun (by linarith)
  have hpos : 0 ≤ (1 + c') * (X / y') := mul_nonneg (by linarith) hXy.le
  have e4 : (1 + c') * (4 * X / y') = 4 * ((1 + c') * (X / y')) := by ring
  have e2 : (1 + c') * (2 * (X / y')) = 2 * ((1 + c') * (X / y')) := by ring
  rw [e2] at up dn
  refine ⟨_, hq, ?_, hy0.ne'⟩
  rw [e4, abs_le]
  constructor <;> linarith [hr.1, hr.2]

/-- the two runs month by month -/
theorem drift_all {B a bot : ℚ} {awc : B64 σ} (S : Site B a bot awc) {ms : List (B64 σ × B64 σ)} {mq : List (ℚ × ℚ)} (hm : Record B ms mq) :
    List.Forall₂ (fun b b' => OffMonth (20 * ms.length * opErr B) b (b'.map Fl.fin) ∧ Bounded (2 * B) b') (waterBalances awc ms)
      (balancesK a 1 (max (a - 1) 0) mq) := by
  have a0 : 0 < a := lt_of_lt_of_le (by norm_num) S.low
  have hl1 : (waterBalances awc ms).length = ms.length := balances_len _ _ _ _
  have hl2 : (balancesK a 1 (max (a - 1) 0) mq).length = ms.length := by rw [balancesK_length]; exact hm.length_eq.symm
  rw [List.forall₂_iff_get]
  refine ⟨hl1.trans hl2.symm, ?_⟩
  intro i h1 h2
  simp only [List.get_eq_getElem]
  refine ⟨(drift_full S hm i _ _ (List.getElem?_eq_getElem h1) (List.getElem?_eq_getElem h2)).mono ?_, ?_⟩
  · have h3 : ((i + 1 : ℕ) : ℚ) ≤ ms.length := by exact_mod_cast (by omega : i + 1 ≤ ms.length)
    push_cast at h3
    exact mul_le_mul_of_nonneg_right (by linarith) S.lim.pos.le
  · exact balancesK_bounded S.lim.one a0 S.high hm 1 _ ⟨by norm_num, le_refl _, le_max_right _ _, le_refl _⟩ _ (List.getElem_mem h2)

/-- a coefficient computed in float64 and the exact one; `pot` is the exact sum of the potential values, `X` the accuracy of the sums -/
def CoefClose (X : ℚ) (x : Option (B64 σ)) (y : Option (Fl ℚ)) (pot : Fl ℚ) : Prop :=
  ∀ q, pot = .fin q → 8 * X ≤ q → ∃ z c c', x = some z ∧ ext z = .fin c ∧ y = some (.fin c') ∧ 0 ≤ c' ∧ |c - c'| ≤ (1 + c') * (4 * X / q)

/-- the coefficients of a record in either arithmetic, for calibration years `ci` to `cf` counted from the first year -/
def coefsOf {F : Type} [FloatOps F] (awc : F) (ms : List (F × F)) (ci cf : Int) : Coefs F :=
  cafecCoefficients ((List.range 12).map (monthSums ci cf (waterBalances awc ms)))

/-- **C96 (partial).** Full statement: the CAFEC coefficients computed in float64 are those of exact arithmetic up to rounding errors. This is false
(`C96_beta_fails`, `C96_gamma_fails`). Proved: the coefficient of calendar month `j` is accurate whenever the exact sum `q` of the potential values of that
month is not too close to zero (at least `8 X` with `X = T^2 B 2^-46` for a record of `T` months); the error is at most `(1 + c') 4 X / q`. -/
theorem C96_partial (awc : B64 σ) (a B : ℚ) (hB1 : 1 ≤ B) (hB : B ≤ 10 ^ 12) (ha : ext awc = .fin a) (h0 : 1 / 10 ^ 6 ≤ a) (h1 : a ≤ B)
    (ms : List (B64 σ × B64 σ)) (hm : ∀ m ∈ ms, ∃ p e, ext m.1 = .fin p ∧ ext m.2 = .fin e ∧ 0 ≤ p ∧ p ≤ B ∧ 0 ≤ e ∧ e ≤ B)
    (hne : ms ≠ []) (hT : ms.length ≤ 10 ^ 12) (ci cf : Int) (j : ℕ) (hj : j < 12) :
    let X : ℚ := ms.length ^ 2 * B / 2 ^ 46
    let exactMonths := ms.map (fun m => (ext m.1, ext m.2))
    let pot := monthSums ci cf (waterBalances (ext awc) exactMonths) j
    CoefClose X (coefsOf awc ms ci cf).alpha[j]? (coefsOf (ext awc) exactMonths ci cf).alpha[j]? pot.pet ∧
    CoefClose X (coefsOf awc ms ci cf).beta[j]? (coefsOf (ext awc) exactMonths ci cf).beta[j]? pot.pr ∧
    CoefClose X (coefsOf awc ms ci cf).gamma[j]? (coefsOf (ext awc) exactMonths ci cf).gamma[j]? pot.sp ∧
    CoefClose X (coefsOf awc ms ci cf).delta[j]? (coefsOf (ext awc) exactMonths ci cf).delta[j]? pot.pl := by
  intro X exactMonths pot
  have a0 : 0 < a := lt_of_lt_of_le (by norm_num) h0
  obtain ⟨bot, S⟩ := site64 ⟨hB1, hB⟩ ha h0 h1
  obtain ⟨mq, hq⟩ := record_of ms hm
  have hrun : waterBalances (ext awc) exactMonths = _ := exact_run ha a0.ne' hq
  have hcal := forall₂_calib (drift_all S hq) ci cf j
  have hlen : ((calibMonth ci cf j (waterBalances awc ms)).length : ℚ) ≤ ms.length := by
    have := calib_length_le ci cf j (waterBalances awc ms)
    rw [show (waterBalances awc ms).length = ms.length from balances_len _ _ _ _] at this
    exact_mod_cast this
  have hT1 : (1 : ℚ) ≤ ms.length := by exact_mod_cast List.length_pos_of_ne_nil hne
  have hT' : (ms.length : ℚ) ≤ 10 ^ 12 := by exact_mod_cast hT
  have hU := unit_pos
  have hX : (ms.length : ℚ) * (21 * ms.length * opErr B) ≤ X := by
    show _ ≤ (ms.length : ℚ) ^ 2 * B / 2 ^ 46
    unfold opErr unit
    have : (0 : ℚ) ≤ ms.length ^ 2 * B := by positivity
    have e : (ms.length : ℚ) * (21 * ms.length * (4 * B * (1 / 2 ^ 53))) = (ms.length ^ 2 * B) * (84 / 2 ^ 53) := by ring
    have e2 : (ms.length : ℚ) ^ 2 * B / 2 ^ 46 = (ms.length ^ 2 * B) * (128 / 2 ^ 53) := by ring
    rw [e, e2]
    exact mul_le_mul_of_nonneg_left (by norm_num) this
  have hX0 : 0 < X := by
    have : (0 : ℚ) < ms.length := by linarith
    show 0 < (ms.length : ℚ) ^ 2 * B / 2 ^ 46
    positivity
  -- sums of one field
  have sums : ∀ (f : Balance (B64 σ) → B64 σ) (g : Balance ℚ → ℚ),
      (∀ b b', OffMonth (20 * ms.length * opErr B) b (b'.map Fl.fin) → Off (20 * ms.length * opErr B) (f b) (.fin (g b'))) →
      (∀ b', Bounded (2 * B) b' → 0 ≤ g b' ∧ g b' ≤ 2 * B) →
      Off X (runningSum ((calibMonth ci cf j (waterBalances awc ms)).map f))
        (.fin ((calibMonth ci cf j (balancesK a 1 (max (a - 1) 0) mq)).map g).sum) ∧
        0 ≤ ((calibMonth ci cf j (balancesK a 1 (max (a - 1) 0) mq)).map g).sum ∧
        ((calibMonth ci cf j (balancesK a 1 (max (a - 1) 0) mq)).map g).sum ≤ 2 * B * ms.length := by
    intro f g hf hg
    have hfa : List.Forall₂ (fun x y => Off (20 * ms.length * opErr B) x (.fin y) ∧ 0 ≤ y ∧ y ≤ 2 * B)
        ((calibMonth ci cf j (waterBalances awc ms)).map f) ((calibMonth ci cf j (balancesK a 1 (max (a - 1) 0) mq)).map g) := by
      rw [List.forall₂_map_left_iff, List.forall₂_map_right_iff]
      exact hcal.imp (fun b b' h => ⟨hf b b' h.1, hg b' h.2⟩)
    obtain ⟨k1, k2, k3⟩ := runningSum_off ⟨hB1, hB⟩ hT1 hT' le_rfl hfa (by rw [List.length_map]; exact hlen)
    exact ⟨k1.mono hX, k2, k3⟩
  -- sums of the exact run
  have esum : ∀ (f : Balance (Fl ℚ) → Fl ℚ) (g : Balance ℚ → ℚ), (∀ b, f (b.map Fl.fin) = .fin (g b)) →
      runningSum ((calibMonth ci cf j (waterBalances (ext awc) exactMonths)).map f) =
        .fin ((calibMonth ci cf j (balancesK a 1 (max (a - 1) 0) mq)).map g).sum := by
    intro f g hfg
    rw [hrun, calibMonth_map, List.map_map, ← runningSum_fin, List.map_map]
    congr 1
    exact List.map_congr_left (fun b _ => hfg b)
  -- a quotient
  have quot : ∀ (A P : B64 σ) (x' y' : ℚ), Off X A (.fin x') → 0 ≤ x' → x' ≤ 2 * B * ms.length → Off X P (.fin y') → y' ≤ 2 * B * ms.length → 8 * X ≤ y' →
      ∃ c, ext (A / P) = .fin c ∧ feq P (CI.lit 0) = false ∧ y' ≠ 0 ∧ 0 ≤ x' / y' ∧ |c - x' / y'| ≤ (1 + x' / y') * (4 * X / y') := by
    intro A P x' y' hA hx0 hx1 hP hy1 hy8
    obtain ⟨x, _, e1, e2, e3⟩ := hA
    cases e2
    obtain ⟨y, _, f1, f2, f3⟩ := hP
    cases f2
    have hy'0 : 0 < y' := by linarith
    have hXB : (1 : ℚ) / 2 ^ 46 ≤ X := by
      show (1 : ℚ) / 2 ^ 46 ≤ (ms.length : ℚ) ^ 2 * B / 2 ^ 46
      have : (1 : ℚ) ≤ ms.length ^ 2 * B := one_le_mul_of_one_le_of_one_le (one_le_pow₀ hT1) hB1
      exact div_le_div_of_nonneg_right this (by positivity)
    have hUy : 4 * unit * y' ≤ X := by
      have h2 : 4 * unit * y' ≤ 4 * unit * (2 * B * ms.length) := mul_le_mul_of_nonneg_left hy1 (by linarith)
      have h3 : 4 * unit * (2 * B * ms.length) = (B * ms.length) * (8 / 2 ^ 53) := by unfold unit; ring
      have h4 : X = (B * ms.length) * (ms.length * (128 / 2 ^ 53)) := by
        show (ms.length : ℚ) ^ 2 * B / 2 ^ 46 = _
        ring
      have h5 : (8 : ℚ) / 2 ^ 53 ≤ ms.length * (128 / 2 ^ 53) := by
        have : 1 * ((128 : ℚ) / 2 ^ 53) ≤ ms.length * (128 / 2 ^ 53) := mul_le_mul_of_nonneg_right hT1 (by positivity)
        have h6 : (8 : ℚ) / 2 ^ 53 ≤ 1 * (128 / 2 ^ 53) := by norm_num
        linarith
      have h7 : (B * ms.length) * (8 / 2 ^ 53) ≤ (B * ms.length) * (ms.length * (128 / 2 ^ 53)) :=
        mul_le_mul_of_nonneg_left h5 (mul_nonneg (by linarith) (by linarith))
      linarith
    have hmx : x' / y' ≤ 10 ^ 50 := by
      rw [div_le_iff₀ hy'0]
      have h2 : B * ms.length ≤ 10 ^ 12 * 10 ^ 12 := mul_le_mul hB hT' (by linarith) (by norm_num)
      have h3 : (10 : ℚ) ^ 50 * (1 / 2 ^ 46) ≤ 10 ^ 50 * y' := mul_le_mul_of_nonneg_left (by linarith) (by positivity)
      have h4 : (2 : ℚ) * (10 ^ 12 * 10 ^ 12) ≤ 10 ^ 50 * (1 / 2 ^ 46) := by norm_num
      linarith
    obtain ⟨c, g1, g2, g3⟩ := ratio_off e1 f1 hX0 e3 f3 hx0 hy8 hUy hmx le_rfl
    refine ⟨c, g1, ?_, hy'0.ne', div_nonneg hx0 hy'0.le, g2⟩
    rw [feq_ext f1 ext_lit_zero]
    exact decide_eq_false g3
  have feq0 : ∀ y' : ℚ, y' ≠ 0 → feq (Fl.fin y') (CI.lit 0 : Fl ℚ) = false := by
    intro y' h
    rw [CI.lit_zero, Fl.feq_fin]
    exact decide_eq_false h
  have one : ∀ (fa fp : Balance (B64 σ) → B64 σ) (ga gp : Balance ℚ → ℚ) (ea ep : Balance (Fl ℚ) → Fl ℚ),
      (∀ b b', OffMonth (20 * ms.length * opErr B) b (b'.map Fl.fin) → Off (20 * ms.length * opErr B) (fa b) (.fin (ga b'))) →
      (∀ b b', OffMonth (20 * ms.length * opErr B) b (b'.map Fl.fin) → Off (20 * ms.length * opErr B) (fp b) (.fin (gp b'))) →
      (∀ b', Bounded (2 * B) b' → 0 ≤ ga b' ∧ ga b' ≤ 2 * B) → (∀ b', Bounded (2 * B) b' → 0 ≤ gp b' ∧ gp b' ≤ 2 * B) →
      (∀ b, ea (b.map Fl.fin) = .fin (ga b)) → (∀ b, ep (b.map Fl.fin) = .fin (gp b)) →
      ∀ q, runningSum ((calibMonth ci cf j (waterBalances (ext awc) exactMonths)).map ep) = .fin q → 8 * X ≤ q →
      ∃ c c', ext (runningSum ((calibMonth ci cf j (waterBalances awc ms)).map fa) / runningSum ((calibMonth ci cf j (waterBalances awc ms)).map fp)) = .fin c ∧
        feq (runningSum ((calibMonth ci cf j (waterBalances awc ms)).map fp)) (CI.lit 0) = false ∧
        feq (runningSum ((calibMonth ci cf j (waterBalances (ext awc) exactMonths)).map ep)) (CI.lit 0) = false ∧
        runningSum ((calibMonth ci cf j (waterBalances (ext awc) exactMonths)).map ea) /
          runningSum ((calibMonth ci cf j (waterBalances (ext awc) exactMonths)).map ep) = .fin c' ∧ 0 ≤ c' ∧ |c - c'| ≤ (1 + c') * (4 * X / q) := by
    intro fa fp ga gp ea ep h2 h3 h4 h5 h6 h7 q hq8 h8
    obtain ⟨i1, i2, i3⟩ := sums fa ga h2 h4
    obtain ⟨j1, j2, j3⟩ := sums fp gp h3 h5
    rw [esum ep gp h7] at hq8 ⊢
    cases hq8
    rw [esum ea ga h6]
    obtain ⟨c, g1, g2, g3, g4, g5⟩ := quot _ _ _ _ i1 i2 i3 j1 j3 h8
    exact ⟨c, _, g1, g2, feq0 _ g3, by rw [Fl.fin_div_of_ne _ _ g3], g4, g5⟩
  have idx : ∀ {α : Type} (f : ℕ → α), ((List.range 12).map f)[j]? = some (f j) := by
    intro α f
    rw [List.getElem?_map, List.getElem?_range hj, Option.map_some]
  refine ⟨?_, ?_, ?_, ?_⟩
  · intro q hq8 h8
    obtain ⟨c, c', g1, g2, g3, g4, g5, g6⟩ := one (·.et) (·.pet) (·.et) (·.pet) (·.et) (·.pet) (fun b b' h => h.et)
      (fun b b' h => ⟨b'.pet, b'.pet, h.pet, rfl, by rw [sub_self, abs_zero]; have := S.lim.pos; positivity⟩)
      (fun b' h => h.et) (fun b' h => h.pet) (fun b => rfl) (fun b => rfl) q hq8 h8
    refine ⟨_, c, c', ?_, g1, ?_, g5, g6⟩
    · simp only [coefsOf, cafecCoefficients, List.map_map]
      rw [idx]
      simp only [Function.comp, ratioOrOne, monthSums, g2, Bool.not_false, if_true]
    · simp only [coefsOf, cafecCoefficients, List.map_map]
      rw [idx]
      simp only [Function.comp, ratioOrOne, monthSums, g3, Bool.not_false, if_true, g4]
  · intro q hq8 h8
    obtain ⟨c, c', g1, g2, g3, g4, g5, g6⟩ := one (·.r) (·.pr) (·.r) (·.pr) (·.r) (·.pr) (fun b b' h => h.r) (fun b b' h => h.pr)
      (fun b' h => h.r) (fun b' h => h.pr) (fun b => rfl) (fun b => rfl) q hq8 h8
    refine ⟨_, c, c', ?_, g1, ?_, g5, g6⟩
    · simp only [coefsOf, cafecCoefficients, List.map_map]
      rw [idx]
      simp only [Function.comp, ratioOrOne, monthSums, g2, Bool.not_false, if_true]
    · simp only [coefsOf, cafecCoefficients, List.map_map]
      rw [idx]
      simp only [Function.comp, ratioOrOne, monthSums, g3, Bool.not_false, if_true, g4]
  · intro q hq8 h8
    obtain ⟨c, c', g1, g2, g3, g4, g5, g6⟩ := one (·.ro) (·.sp) (·.ro) (·.sp) (·.ro) (·.sp) (fun b b' h => h.ro) (fun b b' h => h.sp)
      (fun b' h => h.ro) (fun b' h => h.sp) (fun b => rfl) (fun b => rfl) q hq8 h8
    refine ⟨_, c, c', ?_, g1, ?_, g5, g6⟩
    · simp only [coefsOf, cafecCoefficients, List.map_map]
      rw [idx]
      simp only [Function.comp, ratioOrOne, monthSums, g2, Bool.not_false, if_true]
    · simp only [coefsOf, cafecCoefficients, List.map_map]
      rw [idx]
      simp only [Function.comp, ratioOrOne, monthSums, g3, Bool.not_false, if_true, g4]
  · intro q hq8 h8
    obtain ⟨c, c', g1, g2, g3, g4, g5, g6⟩ := one (·.tl) (·.pl) (·.tl) (·.pl) (·.tl) (·.pl) (fun b b' h => h.tl) (fun b b' h => h.pl)
      (fun b' h => h.tl) (fun b' h => h.pl) (fun b => rfl) (fun b => rfl) q hq8 h8
    refine ⟨_, c, c', ?_, g1, ?_, g5, g6⟩
    · simp only [coefsOf, cafecCoefficients, List.map_map]
      rw [idx]
      simp only [Function.comp, ratioOrZero, monthSums, g2, Bool.not_false, if_true]
    · simp only [coefsOf, cafecCoefficients, List.map_map]
      rw [idx]
      simp only [Function.comp, ratioOrZero, monthSums, g3, Bool.not_false, if_true, g4]

/-- C96, C100: one year with AWC 6.0: the hypotheses hold (values up to 10), and the exact sums of the potential values of August are far from zero -/
def unevenYear : List (ℚ × ℚ) := [(3.4, 0.4), (1.7, 0.6), (0, 1.9), (0.3, 2.8), (1.1, 4.2), (2.9, 5), (0.2, 6.1), (0, 5.5), (4.4, 3.1), (6, 1.7), (0.7, 0.7), (2.2, 0.3)]

example : ext (CI.lit 6 : B64 leftToRight) = .fin 6 ∧
    (months64 unevenYear).all (fun q => match ext q.1, ext q.2 with
      | .fin p, .fin e => decide (0 ≤ p) && decide (p ≤ 10) && decide (0 ≤ e) && decide (e ≤ 10)
      | _, _ => false) = true ∧
    (let pot := monthSums 0 0 (waterBalances (.fin 6) ((months64 unevenYear).map (fun m => (ext m.1, ext m.2)))) 7
     [pot.pet, pot.pr, pot.sp, pot.pl].all (fun x => match x with | .fin q => decide (8 * (12 ^ 2 * 10 / 2 ^ 46) ≤ q) | _ => false)) = true := by
  decide +kernel

end CI.Props
