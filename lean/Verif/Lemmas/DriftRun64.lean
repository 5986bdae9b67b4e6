import Verif.Lemmas.Drift64

/-!
# The record of water balances: binary64 against exact arithmetic
-/

namespace CI.B64
open Round
variable {σ : SumOrder}

/-- potential loss, exact, with capacity `A` -/
def pl1 (A s u e : ℚ) : ℚ := if e ≤ s then e else min (s + u) ((e - s) * u / A + s)

theorem pl1_eq {A s u e : ℚ} (bot : ℚ) (hu : 0 ≤ u) (he : 0 < e) : pl1 A s u e = s + u - top1 s (-e) - low1 bot A s u (-e) := by
  have hd : ¬ 0 ≤ -e := by linarith
  unfold pl1 low1 top1
  rw [if_neg hd, if_neg hd]
  by_cases c : e ≤ s
  · rw [if_pos c, max_eq_left (by linarith : 0 ≤ s + -e), sub_self, zero_mul, zero_div, add_zero, max_eq_right hu]
    ring
  · have c := not_le.1 c
    rw [if_neg (not_le.2 c), max_eq_right (by linarith : s + -e ≤ 0)]
    have e1 : (s + -e - 0) * u / A = -((e - s) * u / A) := by ring
    rw [e1]
    generalize (e - s) * u / A = x
    rcases le_total u x with k | k
    · rw [min_eq_left (by linarith), max_eq_left (by linarith)]; ring
    · rw [min_eq_right (by linarith), max_eq_right (by linarith)]; ring

theorem pl1_lip {A s s' u u' e : ℚ} (hA : 0 < A) (hs : 0 ≤ s) (hs' : 0 ≤ s') (hu : 0 ≤ u) (hua : u ≤ A) (hu' : 0 ≤ u') (hua' : u' ≤ A) (he : 0 ≤ e) :
    |pl1 A s u e - pl1 A s' u' e| ≤ 2 * (|s - s'| + |u - u'|) := by
  rcases he.eq_or_lt with rfl | he
  · unfold pl1
    rw [if_pos hs, if_pos hs', sub_self, abs_zero]
    have := abs_nonneg (s - s')
    have := abs_nonneg (u - u')
    linarith
  · rw [pl1_eq 0 hu he, pl1_eq 0 hu' he]
    have h1 := top1_split s s' (-e)
    have h2 := low1_lip (bot := 0) (bot' := 0) (s := s) (s' := s') (d := -e) hA hu hua hu' hua'
    rw [sub_self, abs_zero] at h2
    have k1 := abs_le.1 (le_refl |s - s'|)
    have k2 := abs_le.1 (le_refl |u - u'|)
    have k3 := abs_le.1 (le_refl |top1 s (-e) - top1 s' (-e)|)
    have k4 := abs_le.1 (le_refl |low1 0 A s u (-e) - low1 0 A s' u' (-e)|)
    rw [abs_le]
    constructor <;> linarith [k1.1, k1.2, k2.1, k2.2, k3.1, k3.2, k4.1, k4.2]

theorem pl1_cap {A A' s u e : ℚ} (hA : 0 < A) (hA' : 0 < A') (hs : 0 ≤ s) (hu : 0 ≤ u) (huA : u ≤ A) (huA' : u ≤ A') (he : 0 ≤ e) :
    |pl1 A s u e - pl1 A' s u e| ≤ |A - A'| := by
  rcases he.eq_or_lt with rfl | he
  · unfold pl1
    rw [if_pos hs, if_pos hs, sub_self, abs_zero]
    exact abs_nonneg _
  · rw [pl1_eq 0 hu he, pl1_eq 0 hu he]
    have hd : ¬ 0 ≤ -e := by linarith
    have h := capacity_lip hA hA' hu huA huA' (carry_dry s (-e) hd)
    unfold low1
    rw [if_neg hd, if_neg hd]
    have e1 : ∀ X : ℚ, u + (s + -e - top1 s (-e)) * u / X = u - -(s + -e - top1 s (-e)) * u / X := by intro X; ring
    rw [e1 A, e1 A']
    have e2 : ∀ x y z : ℚ, |z - x - (z - y)| = |x - y| := by intro x y z; rw [← abs_neg]; congr 1; ring
    rw [e2]
    exact h

theorem pl64 {B bot A s u eq : ℚ} {awc ss su e : B64 σ} (hB : Limits B)
    (hA : ext (awcBot awc + CI.lit 1) = .fin A) (hA1 : bot + 1 - opErr B ≤ A) (hA2 : A ≤ bot + 1 + opErr B) (hb0 : 0 ≤ bot) (hbB : bot ≤ B)
    (hss : ext ss = .fin s) (hsu : ext su = .fin u) (s0 : 0 ≤ s) (s1 : s ≤ 1 + 2 * opErr B) (u0 : 0 ≤ u) (u1 : u ≤ bot + opErr B)
    (he : ext e = .fin eq) (he0 : 0 ≤ eq) (heB : eq ≤ B) :
    ∃ y, ext (potentialLoss e ss su awc) = .fin y ∧ |y - pl1 A s u eq| ≤ 4 * opErr B := by
  have hw := hB.pos
  have hw1 := hB.small
  have hB1 := hB.one
  have b3 : ∀ {q : ℚ}, -(3 * B) ≤ q → q ≤ 3 * B → |q| ≤ 3 * B := fun h1 h2 => abs_le.2 ⟨h1, h2⟩
  unfold potentialLoss pl1
  rw [fle_ext he hss]
  by_cases c : eq ≤ s
  · rw [if_pos (by simpa using c), if_pos c]
    exact ⟨eq, he, by rw [sub_self, abs_zero]; linarith⟩
  · rw [if_neg (by simpa using c), if_neg c]
    have c := not_le.1 c
    obtain ⟨x, hx, x1, x2⟩ := off_sub hB he hss (b3 (by linarith) (by linarith))
    have x0 : 0 ≤ x := by
      have h1 := fin_sub he hss (lim12 hB (b3 (by linarith) (by linarith)))
      rw [hx] at h1
      cases h1
      exact rnd_nonneg (by linarith)
    have A0 : 0 < A := by linarith
    obtain ⟨y, hy, y1, y2⟩ := off_quot hB hx hsu hA x0 (by linarith) u0 (by linarith) (by linarith) (by linarith)
    have q1 : x * u / A ≤ (eq - s) * u / A + opErr B := by
      have h1 : (x - (eq - s)) * u ≤ opErr B * A :=
        (mul_le_mul_of_nonneg_right (by linarith : x - (eq - s) ≤ opErr B) u0).trans (mul_le_mul_of_nonneg_left (by linarith) hw.le)
      have h4 : (x - (eq - s)) * u / A ≤ opErr B := by rwa [div_le_iff₀ A0]
      have h5 : (x - (eq - s)) * u / A = x * u / A - (eq - s) * u / A := by ring
      linarith
    have q2 : (eq - s) * u / A - opErr B ≤ x * u / A := by
      have h1 : (eq - s - x) * u ≤ opErr B * A :=
        (mul_le_mul_of_nonneg_right (by linarith : eq - s - x ≤ opErr B) u0).trans (mul_le_mul_of_nonneg_left (by linarith) hw.le)
      have h4 : (eq - s - x) * u / A ≤ opErr B := by rwa [div_le_iff₀ A0]
      have h5 : (eq - s - x) * u / A = (eq - s) * u / A - x * u / A := by ring
      linarith
    have q0 : 0 ≤ (eq - s) * u / A := div_nonneg (mul_nonneg (by linarith) u0) A0.le
    have q3 : (eq - s) * u / A ≤ eq - s := by
      rw [div_le_iff₀ A0]; exact mul_le_mul_of_nonneg_left (by linarith) (by linarith)
    obtain ⟨z, hz, z1, z2⟩ := off_add hB hy hss (b3 (by linarith) (by linarith))
    obtain ⟨v, hv, v1, v2⟩ := off_add hB hss hsu (b3 (by linarith) (by linarith))
    refine ⟨_, ext_pyMin hv hz, (abs_min_sub_min_le_max _ _ _ _).trans (max_le ?_ ?_)⟩
    · rw [abs_le]; constructor <;> linarith
    · rw [abs_le]; constructor <;> linarith

/-- a float64 number and an exact one, at most `ε` apart -/
def Off (ε : ℚ) (x : B64 σ) (y : Fl ℚ) : Prop := ∃ a b, ext x = .fin a ∧ y = .fin b ∧ |a - b| ≤ ε

theorem Off.mono {ε δ : ℚ} {x : B64 σ} {y : Fl ℚ} (h : Off ε x y) (hd : ε ≤ δ) : Off δ x y := by
  obtain ⟨a, b, h1, h2, h3⟩ := h
  exact ⟨a, b, h1, h2, h3.trans hd⟩

/-- all computed numbers of a month are at most `ε` apart, the inputs are the same -/
structure OffMonth (ε : ℚ) (b : Balance (B64 σ)) (b' : Balance (Fl ℚ)) : Prop where
  p : ext b.p = b'.p
  pet : ext b.pet = b'.pet
  sp : Off ε b.sp b'.sp
  pr : Off ε b.pr b'.pr
  pl : Off ε b.pl b'.pl
  et : Off ε b.et b'.et
  tl : Off ε b.tl b'.tl
  r : Off ε b.r b'.r
  ro : Off ε b.ro b'.ro
  sss : Off ε b.sss b'.sss
  ssu : Off ε b.ssu b'.ssu

theorem OffMonth.mono {ε δ : ℚ} {b : Balance (B64 σ)} {b' : Balance (Fl ℚ)} (h : OffMonth ε b b') (hd : ε ≤ δ) : OffMonth δ b b' :=
  ⟨h.p, h.pet, h.sp.mono hd, h.pr.mono hd, h.pl.mono hd, h.et.mono hd, h.tl.mono hd, h.r.mono hd, h.ro.mono hd, h.sss.mono hd, h.ssu.mono hd⟩

/-- the fixed numbers of a record: capacity `a`, and the capacity of the lower layer as the program rounds it -/
structure Site (B a bot : ℚ) (awc : B64 σ) : Prop where
  lim : Limits B
  cap : ext awc = .fin a
  low : 1 / 10 ^ 6 ≤ a
  high : a ≤ B
  under : ext (awcBot awc) = .fin bot
  bot0 : 0 ≤ bot
  botB : bot ≤ B
  close : |bot - max (a - 1) 0| ≤ opErr B
  inside : bot * (1 + 4 * unit) ≤ a

/-- the month: differences of the layers grow by at most nine rounding errors -/
theorem drift_month {B a bot δ s u s' u' pq eq : ℚ} {awc ss su p e : B64 σ} (S : Site B a bot awc) (hsoil : Soil64 B bot ss su)
    (hss : ext ss = .fin s) (hsu : ext su = .fin u) (hs' : Soil a s' u') (hδ : |s - s'| + |u - u'| ≤ δ)
    (hp : ext p = .fin pq) (he : ext e = .fin eq) (hp0 : 0 ≤ pq) (hpB : pq ≤ B) (he0 : 0 ≤ eq) (heB : eq ≤ B) :
    OffMonth (2 * δ + 18 * opErr B) (balanceMonth awc ss su p e) ((balK a s' u' pq eq).map Fl.fin) ∧
    ∃ v w, ext (balanceMonth awc ss su p e).sss = .fin v ∧ ext (balanceMonth awc ss su p e).ssu = .fin w ∧
      |v - (balK a s' u' pq eq).sss| + |w - (balK a s' u' pq eq).ssu| ≤ δ + 9 * opErr B := by
  have hB := S.lim
  have hw := hB.pos
  have hw1 := hB.small
  have hB1 := hB.one
  have hU := unit_pos
  have a0 : 0 < a := lt_of_lt_of_le (by norm_num) S.low
  have b3 : ∀ {q : ℚ}, -(3 * B) ≤ q → q ≤ 3 * B → |q| ≤ 3 * B := fun h1 h2 => abs_le.2 ⟨h1, h2⟩
  obtain ⟨⟨s2, h1, s0, s1⟩, ⟨u2, h2, u0, u1⟩⟩ := hsoil
  rw [hss] at h1; cases h1
  rw [hsu] at h2; cases h2
  have ua : u ≤ a := u1.trans S.inside
  have s1 : s ≤ 1 + 2 * opErr B := by
    refine s1.trans ?_
    unfold slackTop opErr
    have : (2 * B + 6) * unit ≤ (8 * B) * unit := mul_le_mul_of_nonneg_right (by linarith) hU.le
    linarith
  have u1 : u ≤ bot + opErr B := by
    refine u1.trans ?_
    unfold opErr
    have : bot * unit ≤ B * unit := mul_le_mul_of_nonneg_right S.botB hU.le
    linarith
  obtain ⟨v, w, et, tl, r, ro, M⟩ := month64 hB S.cap S.low S.high S.under S.bot0 S.botB hss hsu s0 s1 u0 u1 ua hp he hp0 hpB he0 heB
  obtain ⟨e1, e2⟩ := balK_step a s' u' pq eq a0 hp0 he0 hs'
  obtain ⟨fw, fd⟩ := balK_flows a s' u' pq eq
  obtain ⟨t1, t2, t3, t4⟩ := hs'
  have ua' : u' ≤ a := t4.trans (max_le (by linarith) a0.le)
  have n1 := top1_split s s' (pq - eq)
  have n2 := low1_lip (bot := bot) (bot' := max (a - 1) 0) (s := s) (s' := s') (d := pq - eq) a0 u0 ua t3 ua'
  have hsoil' : |v - (balK a s' u' pq eq).sss| + |w - (balK a s' u' pq eq).ssu| ≤ δ + 9 * opErr B := by
    rw [e1, e2]
    have m := M.soil
    have k1 := abs_sub_le v (top1 s (pq - eq)) (top1 s' (pq - eq))
    have k2 := abs_sub_le w (low1 bot a s u (pq - eq)) (low1 (max (a - 1) 0) a s' u' (pq - eq))
    have k3 := S.close
    linarith
  have hδ0 : 0 ≤ δ := le_trans (add_nonneg (abs_nonneg _) (abs_nonneg _)) hδ
  have d1 := abs_le.1 (le_trans (le_add_of_nonneg_right (abs_nonneg (u - u'))) hδ)
  have d2 := abs_le.1 (le_trans (le_add_of_nonneg_left (abs_nonneg (s - s'))) hδ)
  have D1 : |v - (balK a s' u' pq eq).sss| ≤ δ + 9 * opErr B := le_trans (le_add_of_nonneg_right (abs_nonneg _)) hsoil'
  have D2 : |w - (balK a s' u' pq eq).ssu| ≤ δ + 9 * opErr B := le_trans (le_add_of_nonneg_left (abs_nonneg _)) hsoil'
  have dd : |(s + u) - (s' + u')| ≤ δ := by
    have := abs_add_le (s - s') (u - u')
    have e : s + u - (s' + u') = (s - s') + (u - u') := by ring
    rw [e]; linarith
  have DD : |(v + w) - ((balK a s' u' pq eq).sss + (balK a s' u' pq eq).ssu)| ≤ δ + 9 * opErr B := by
    have := abs_add_le (v - (balK a s' u' pq eq).sss) (w - (balK a s' u' pq eq).ssu)
    have e : v + w - ((balK a s' u' pq eq).sss + (balK a s' u' pq eq).ssu) = (v - (balK a s' u' pq eq).sss) + (w - (balK a s' u' pq eq).ssu) := by ring
    rw [e]; linarith
  have dd := abs_le.1 dd
  have DD := abs_le.1 DD
  obtain ⟨x, hx, x1, x2⟩ := off_add hB hss hsu (b3 (by linarith) (by linarith [S.botB]))
  obtain ⟨A, hA, A1, A2⟩ := off_add hB S.under ext_lit_one (b3 (by linarith [S.bot0]) (by linarith [S.botB]))
  obtain ⟨y, hy, y1, y2⟩ := off_sub hB hA hx (b3 (by linarith [S.bot0, S.botB]) (by linarith [S.botB]))
  obtain ⟨z, hz, hz'⟩ := pl64 hB hA A1 A2 S.bot0 S.botB hss hsu s0 s1 u0 u1 he he0 heB
  have hcl := abs_le.1 S.close
  obtain ⟨p1, p2, p3, _, _⟩ := balK_conserve a s' u' pq eq
  have fprl : (balK a s' u' pq eq).pr = max (a - 1) 0 + 1 - (s' + u') ∧ (balK a s' u' pq eq).pl = pl1 (max (a - 1) 0 + 1) s' u' eq := by
    unfold balK pl1; simp only; split <;> split <;> exact ⟨rfl, rfl⟩
  have hbm := le_max_right (a - 1) 0
  have hpl : |z - pl1 (max (a - 1) 0 + 1) s' u' eq| ≤ 2 * δ + 18 * opErr B := by
    have q1 := pl1_lip (A := max (a - 1) 0 + 1) (s := s) (s' := s') (u := u) (u' := u') (e := eq) (by linarith) s0 t1 u0
      (by linarith [hcl.2]) t3 (by linarith) he0
    have q2 := pl1_cap (A := A) (A' := max (a - 1) 0 + 1) (s := s) (u := u) (e := eq) (by linarith [S.bot0]) (by linarith) s0 u0 (by linarith)
      (by linarith [hcl.2]) he0
    have q3 : |A - (max (a - 1) 0 + 1)| ≤ 2 * opErr B := by rw [abs_le]; constructor <;> linarith [hcl.1, hcl.2]
    have q4 := abs_sub_le z (pl1 A s u eq) (pl1 (max (a - 1) 0 + 1) s' u' eq)
    have q5 := abs_sub_le (pl1 A s u eq) (pl1 (max (a - 1) 0 + 1) s u eq) (pl1 (max (a - 1) 0 + 1) s' u' eq)
    linarith
  have flows : |et - (balK a s' u' pq eq).et| ≤ 2 * δ + 18 * opErr B ∧ |tl - (balK a s' u' pq eq).tl| ≤ 2 * δ + 18 * opErr B ∧
      |r - (balK a s' u' pq eq).r| ≤ 2 * δ + 18 * opErr B ∧ |ro - (balK a s' u' pq eq).ro| ≤ 2 * δ + 18 * opErr B := by
    have nn : 0 ≤ 2 * δ + 18 * opErr B := by linarith
    rcases le_or_gt eq pq with c | c
    · obtain ⟨g1, g2, g3, g4⟩ := fw c
      obtain ⟨k1, k2, k3, k4⟩ := M.wet c
      have k3 := abs_le.1 k3
      have k4 := abs_le.1 k4
      rw [k1, k2, g1, g2, sub_self, sub_self, abs_zero, g3, g4]
      refine ⟨nn, nn, ?_, ?_⟩ <;> rw [abs_le] <;> constructor <;> linarith [dd.1, dd.2, DD.1, DD.2, k3.1, k3.2, k4.1, k4.2]
    · obtain ⟨g1, g2, g3, g4⟩ := fd c
      obtain ⟨k1, k2, k3, k4⟩ := M.dry c
      have k3 := abs_le.1 k3
      have k4 := abs_le.1 k4
      rw [k1, k2, g1, g2, sub_self, abs_zero, g3, g4]
      refine ⟨?_, ?_, nn, nn⟩ <;> rw [abs_le] <;> constructor <;> linarith [dd.1, dd.2, DD.1, DD.2, k3.1, k3.2, k4.1, k4.2]
  obtain ⟨F1, F2, F3, F4⟩ := flows
  refine ⟨⟨?_, ?_, ⟨x, s' + u', hx, ?_, ?_⟩, ⟨y, _, hy, congrArg Fl.fin fprl.1, ?_⟩, ⟨z, _, hz, congrArg Fl.fin fprl.2, hpl⟩, ⟨et, _, M.etv, rfl, F1⟩,
    ⟨tl, _, M.tlv, rfl, F2⟩, ⟨r, _, M.rv, rfl, F3⟩, ⟨ro, _, M.rov, rfl, F4⟩, ⟨v, _, M.top, rfl, ?_⟩, ⟨w, _, M.low, rfl, ?_⟩⟩, v, w, M.top, M.low, hsoil'⟩
  · exact hp.trans (congrArg Fl.fin p1.symm)
  · exact he.trans (congrArg Fl.fin p2.symm)
  · exact congrArg Fl.fin p3
  · rw [abs_le]; constructor <;> linarith [dd.1, dd.2]
  · rw [abs_le]; constructor <;> linarith [dd.1, dd.2, hcl.1, hcl.2]
  · linarith
  · linarith

end CI.B64
