import Verif.Props.Float64Pet

/-!
# C64 in float64: warmer months evaporate at least as much, also after rounding
-/

namespace CI.Props

open CI FloatOps B64

variable {σ : SumOrder}

/-- the power function of the library is monotone in the base: for a positive exponent, of two non-negative bases the larger one has the larger power -/
def PowMono {F : Type} [FloatOps F] (T : Trig F) : Prop :=
  ∀ x x' y : F, flt (lit 0) y = true → fle (lit 0) x = true → fle x x' = true → T.pow x y ≠ nan → T.pow x' y ≠ nan → fle (T.pow x y) (T.pow x' y) = true

/-- one month of Thornthwaite's equation is monotone in the temperature, in every arithmetic with monotone operations -/
theorem thornMonth_mono {F : Type} [FloatOps F] [FloatLaws F] [FloatMono F] {T : Trig F} (hP : PowMono T) {i a dl days t t' : F} (hi : flt (lit 0) i = true) (ha : flt (lit 0) a = true)
    (hpn : T.pow nan a = nan) (hc : fle (lit 0) (lit 16 * (dl / lit 12) * (days / lit 30)) = true) (h0 : lit 10 * t / i ≠ nan → fle (lit 0) (lit 10 * t / i) = true) (h10 : fle (lit 0) (lit 10 : F) = true) (ht : fle t t' = true)
    (hn : thornMonth T i a dl days t ≠ nan) (hn' : thornMonth T i a dl days t' ≠ nan) : fle (thornMonth T i a dl days t) (thornMonth T i a dl days t') = true := by
  unfold thornMonth at *
  have key : ∀ s : F, lit 16 * (dl / lit 12) * (days / lit 30) * T.pow (lit 10 * s / i) a ≠ nan → lit 10 * s ≠ nan ∧ lit 10 * s / i ≠ nan ∧ T.pow (lit 10 * s / i) a ≠ nan := by
    intro s hs
    have h3 : T.pow (lit 10 * s / i) a ≠ nan := by
      intro h
      rw [h] at hs
      exact hs (FloatLaws.mul_nan _)
    have h2 : lit 10 * s / i ≠ nan := by
      intro h
      rw [h] at h3
      exact h3 hpn
    refine ⟨?_, h2, h3⟩
    intro h
    rw [h] at h2
    exact h2 (FloatLaws.nan_div _)
  obtain ⟨k1, k2, k3⟩ := key t hn
  obtain ⟨k1', k2', k3'⟩ := key t' hn'
  have s1 := FloatMono.mul_le_mul_left t t' (lit 10) ht h10 k1 k1'
  have s2 := FloatMono.div_le_div_right _ _ i s1 hi k2 k2'
  exact FloatMono.mul_le_mul_left _ _ _ (hP _ _ a ha (h0 k2) s2 k3 k3') hc hn hn'

theorem rnd_le_nat {q : ℚ} {k : ℕ} (h : q ≤ k) (hk : k ≤ 2 ^ 53) : rnd q ≤ k := by
  have := rnd_mono h
  rwa [rnd_fin (natlit (σ := leftToRight) (k := k) hk)] at this

theorem coefficient_nonneg {dl : B64 σ} {b : ℚ} (hb : ext dl = .fin b) (h0 : 0 ≤ b) (h1 : b ≤ 25) {days : ℕ} (hd : days ≤ 31) :
    fle (lit 0) (lit 16 * (dl / lit 12) * (lit (days : ℚ) / lit 30) : B64 σ) = true := by
  have big : ∀ {z : ℚ}, 0 ≤ z → z ≤ 100 → |z| ≤ 2 ^ (1023 : ℤ) := by
    intro z hz hz'
    rw [abs_of_nonneg hz]
    exact hz'.trans ((by norm_num : (100 : ℚ) ≤ 2 ^ (7 : ℤ)).trans (zpow_le_zpow_right₀ (by norm_num) (by norm_num)))
  have hdq : ((days : ℕ) : ℚ) ≤ 31 := by exact_mod_cast hd
  have l16 := natlit (σ := σ) (k := 16) (by norm_num)
  have l12 := natlit (σ := σ) (k := 12) (by norm_num)
  have l30 := natlit (σ := σ) (k := 30) (by norm_num)
  have ld := natlit (σ := σ) (k := days) (by omega)
  push_cast at l16 l12 l30
  have v1 := fin_div hb l12 (by norm_num) (big (by positivity) (by linarith))
  have r1 : 0 ≤ rnd (b / 12) := rnd_nonneg (by positivity)
  have r1' : rnd (b / 12) ≤ (3 : ℕ) := rnd_le_nat (by push_cast; linarith) (by norm_num)
  push_cast at r1'
  have v2 := fin_mul l16 v1 (big (by positivity) (by linarith))
  have r2 : 0 ≤ rnd (16 * rnd (b / 12)) := rnd_nonneg (by positivity)
  have r2' : rnd (16 * rnd (b / 12)) ≤ (48 : ℕ) := rnd_le_nat (by push_cast; linarith) (by norm_num)
  push_cast at r2'
  have v3 := fin_div ld l30 (by norm_num) (big (by positivity) (by linarith))
  have r3 : 0 ≤ rnd ((days : ℚ) / 30) := rnd_nonneg (by positivity)
  have r3' : rnd ((days : ℚ) / 30) ≤ (2 : ℕ) := rnd_le_nat (by push_cast; linarith) (by norm_num)
  push_cast at r3'
  have v4 := fin_mul v2 v3 (big (by positivity) (by nlinarith))
  rw [fle_ext ext_lit_zero v4]
  exact decide_eq_true (rnd_nonneg (by positivity))

/-- **C64 in float64.** Under the conditions of C134 on data and library, if in addition the library's power function is monotone: of two months of the same calendar month in years of the same length, the one with
the higher temperature has at least as much evapotranspiration, in the computed float64 numbers and without any error margin. -/
theorem C64_float64 (T : Trig (B64 σ)) (hT : TrigNear T) (hP : PowNear T) (hPm : PowMono T) (temps r : Arr (B64 σ)) (hr : reshapeTo2d temps 12 = .ok r) (N : ℕ) (hN : r.data.length = N * 12)
    (hN2 : N ≤ 2 ^ 20) (htemp : ∀ v ∈ temps.data, Temp v) (t : List (Option ℝ)) (ht : t = temps.data.map real64) (x : B64 σ) (q : ℚ) (hx : ext x = .fin q) (hq : |q| ≤ 60)
    (y : ℤ) (hmon : ∀ j, j < 12 → Spec.monthValues t j ≠ []) (hpos : ∃ a : ℝ, some a ∈ t ∧ 0 < a) (k k' : ℕ) (a a' : ℝ) (hk : t[k]? = some (some a)) (hk' : t[k']? = some (some a')) (haa : a ≤ a')
    (hmonth : k % 12 = k' % 12) (hleap : Spec.Leap (y + (k / 12 : ℕ)) ↔ Spec.Leap (y + (k' / 12 : ℕ))) :
    ∃ (out : List (B64 σ)) (v v' : B64 σ) (b b' : ℚ), pet T temps (some x) y = .ok out ∧ out[k]? = some v ∧ out[k']? = some v' ∧ ext v = .fin b ∧ ext v' = .fin b' ∧ b ≤ b' := by
  obtain ⟨out, hout, _, _, hval⟩ := C134_pet T hT hP temps r hr N hN hN2 htemp t ht x q hx hq y hmon hpos
  obtain ⟨v, b, hv, hb, _, _, _⟩ := hval k a hk
  obtain ⟨v', b', hv', hb', _, _, _⟩ := hval k' a' hk'
  refine ⟨out, v, v', b, b', hout, hv, hv', hb, hb', ?_⟩
  obtain ⟨m, hm⟩ := reshape_pad temps r hr
  -- the data the computation works with
  have hd : (r.data.map zeroNegative).map real64 = t.map (Option.map (max · 0)) ++ List.replicate m none := by
    rw [hm, List.map_append, List.map_append, List.map_replicate, List.map_replicate, zneg_nan, ht, List.map_map, List.map_map]
    congr 1
    apply List.map_congr_left
    intro v hv
    exact (zneg_temp (htemp v hv)).2
  have hrain : ∀ v ∈ r.data.map zeroNegative, Rain v := by
    intro v hv
    obtain ⟨w, hw, rfl⟩ := List.mem_map.1 hv
    rw [hm] at hw
    rcases List.mem_append.1 hw with hw | hw
    · exact (zneg_temp (htemp w hw)).1
    · rw [(List.mem_replicate.1 hw).2]; exact Or.inl rfl
  have hmv : ∀ j, j < 12 → ((stride 12 j (r.data.map zeroNegative)).map real64).filterMap id = Spec.monthValues t j := by
    intro j hj
    rw [← stride_map, hd]
    exact filterMap_stride_pad t m j hj
  have hslen : ∀ j, j < 12 → (stride 12 j (r.data.map zeroNegative)).length = N := by
    intro j hj
    exact stride_length N 12 j _ hj (by rw [List.length_map]; exact hN)
  have hN1 : 1 ≤ N := by
    by_contra h
    have h0 : N = 0 := by omega
    have hl := hslen 0 (by norm_num)
    rw [h0] at hl
    have := hmv 0 (by norm_num)
    rw [List.length_eq_zero_iff.1 hl] at this
    exact hmon 0 (by norm_num) this.symm
  have hNr1 : (1 : ℝ) ≤ N := by exact_mod_cast hN1
  have hNr2 : (N : ℝ) ≤ 2 ^ 20 := by exact_mod_cast hN2
  have hmean : ∀ j, j < 12 → Val ((N + 1) / 2 ^ 51) (Spec.mean (Spec.monthValues t j)) (nanmean (stride 12 j (r.data.map zeroNegative))) := by
    intro j hj
    have hne := hmon j hj
    rw [← hmv j hj] at hne ⊢
    exact month_mean (fun v hv => hrain v (mem_of_mem_stride _ _ _ _ hv)) (hslen j hj) hN2 hne
  have htr : ∀ (k : ℕ) (a : ℝ), t[k]? = some (some a) → ∃ v qq, temps.data[k]? = some v ∧ ext v = .fin qq ∧ a = qq ∧ (qq ≤ 0 ∨ 1 / 1000 ≤ qq) ∧ qq ≤ 40 := by
    intro k a hk
    rw [ht, List.getElem?_map] at hk
    obtain ⟨v, hv, hva⟩ := Option.map_eq_some_iff.1 hk
    rcases htemp v (List.mem_of_getElem? hv) with rfl | ⟨qq, h1, h2, h3⟩
    · cases hva
    · rw [real64_fin h1] at hva
      exact ⟨v, qq, hv, h1, (Option.some.inj hva).symm, h2, h3⟩
  have hrange : ∀ j, j < 12 → (Spec.mean (Spec.monthValues t j) = 0 ∨ 1 / (1000 * N) ≤ Spec.mean (Spec.monthValues t j)) ∧ Spec.mean (Spec.monthValues t j) ≤ 40 := by
    intro j hj
    refine mean_range ?_ ?_
    · rw [← hmv j hj, ← hslen j hj]
      refine (List.length_filterMap_le _ _).trans ?_
      rw [List.length_map]
    · intro v hv
      unfold Spec.monthValues at hv
      obtain ⟨i, _, h⟩ := List.mem_filterMap.1 hv
      obtain ⟨a, ha, rfl⟩ := Option.map_eq_some_iff.1 h
      rw [Option.join_eq_some_iff] at ha
      obtain ⟨_, qq, _, _, rfl, h2, h3⟩ := htr _ _ ha
      rcases h2 with h2 | h2
      · left; exact max_eq_right (by exact_mod_cast h2)
      · right
        have h2' : (((1 : ℚ) / 1000 : ℚ) : ℝ) ≤ (qq : ℝ) := by exact_mod_cast h2
        push_cast at h2'
        exact ⟨h2'.trans (le_max_left _ _), max_le (by exact_mod_cast h3) (by norm_num)⟩
  have hIpos := heat_pos t hpos
  obtain ⟨hIv, hI2, hIl⟩ := heat_val hP hN1 hN2 t (r.data.map zeroNegative) hmean hrange hIpos
  have he : (4 * (N : ℝ) + 76) / 2 ^ 52 ≤ 1 / 10 ^ 6 := by
    have : (4 * (N : ℝ) + 76) / 2 ^ 52 ≤ (4 * 2 ^ 20 + 76) / 2 ^ 52 := by gcongr
    exact this.trans (by norm_num)
  have he0 : 0 ≤ (4 * (N : ℝ) + 76) / 2 ^ 52 := by positivity
  obtain ⟨A, hA, hAe⟩ := exponent_near hP hIv hIpos hI2 hIl he0 (he.trans (by norm_num))
  have hE0 := expo_pos (Spec.heat t) hIpos.le
  have hA0 : 0 < A := by
    have h1 := (abs_le.1 hAe).1
    have h2 : (18 : ℝ) * ((4 * (N : ℝ) + 76) / 2 ^ 52) + 72 / 2 ^ 52 ≤ 1 / 2 := by
      have : (72 : ℝ) / 2 ^ 52 ≤ 1 / 10 ^ 6 := by norm_num
      linarith
    have h3 := mul_le_mul_of_nonneg_left h2 hE0.le
    have : (0 : ℝ) < A := by linarith
    exact_mod_cast this
  -- the call
  have hq90 : |q| ≤ 90 := hq.trans (by norm_num)
  obtain ⟨dlN, hdN, -⟩ := C133_total T hT.toTrigBounds x q hx hq90 false
  obtain ⟨dlL, hdL, -⟩ := C133_total T hT.toTrigBounds x q hx hq90 true
  have hq' := abs_le.1 hq
  have hnan : allNan temps.data = false := by
    obtain ⟨a, ha, _⟩ := hpos
    obtain ⟨k, hk⟩ := List.mem_iff_getElem?.1 ha
    obtain ⟨v, qq, hv, hqq, _⟩ := htr k a hk
    by_contra hc
    have hc : allNan temps.data = true := by simpa using hc
    have := List.all_eq_true.1 hc v (List.mem_of_getElem? hv)
    cases v with
    | nan => cases hqq
    | inf s => cases s <;> cases hqq
    | fin s m h => cases this
  have hcall : pet T temps (some x) y = .ok (((r.data.map zeroNegative).zipIdx.map (fun q => thornAt T (heatIndex T (r.data.map zeroNegative))
        (thornExponent T (heatIndex T (r.data.map zeroNegative))) dlN dlL y q.2 q.1)).take temps.data.length) := by
    unfold pet
    rw [hnan]
    have e90 : ext (lit 90 : B64 σ) = .fin 90 := natlit (k := 90) (by norm_num)
    have e90' : ext (lit (-90) : B64 σ) = .fin (-90) := by
      have := intlit (σ := σ) (-90) (by norm_num)
      exact_mod_cast this
    have hxn : isNan x = false := by
      cases x with
      | nan => cases hx
      | inf s => cases s <;> cases hx
      | fin s m h => rfl
    simp only [flt_ext e90' hx, flt_ext hx e90, hxn, decide_eq_true (by linarith : -90 < q), decide_eq_true (by linarith : q < 90)]
    show etoThornthwaite T temps x y = _
    unfold etoThornthwaite
    rw [hr]
    simp only [bind, Except.bind, hdN, hdL, pure, Except.pure]
  have hlen : temps.data.length = t.length := by rw [ht, List.length_map]
  have hget : ∀ k v, temps.data[k]? = some v → (((r.data.map zeroNegative).zipIdx.map (fun q => thornAt T (heatIndex T (r.data.map zeroNegative))
        (thornExponent T (heatIndex T (r.data.map zeroNegative))) dlN dlL y q.2 q.1)).take temps.data.length)[k]? =
        some (thornAt T (heatIndex T (r.data.map zeroNegative)) (thornExponent T (heatIndex T (r.data.map zeroNegative))) dlN dlL y k (zeroNegative v)) := by
    intro k v hv
    have hk : k < temps.data.length := (List.getElem?_eq_some_iff.1 hv).1
    rw [List.getElem?_take_of_lt hk, List.getElem?_map, List.getElem?_zipIdx, List.getElem?_map]
    rw [show r.data[k]? = some v by rw [hm, List.getElem?_append_left hk]; exact hv]
    simp
  obtain ⟨w, qq, hw, hwq, rfl, _, hq40⟩ := htr k a hk
  obtain ⟨w', qq', hw', hwq', rfl, _, _⟩ := htr k' a' hk'
  rw [hcall] at hout
  cases hout
  rw [hget k w hw] at hv
  rw [hget k' w' hw'] at hv'
  cases hv
  cases hv'
  obtain ⟨I0, hI0, hIl0⟩ := hIv
  have hI0p : 0 < I0 := by exact_mod_cast hIl0.pos_iff.2 hIpos
  have hsame : ∀ j w, thornAt T (heatIndex T (r.data.map zeroNegative)) (thornExponent T (heatIndex T (r.data.map zeroNegative))) dlN dlL y j w =
      thornMonth T (heatIndex T (r.data.map zeroNegative)) (thornExponent T (heatIndex T (r.data.map zeroNegative))) ((if isLeap (y + ((j / 12 : ℕ) : ℤ)) = true then dlL else dlN).getD (j % 12) nan)
        (lit ((monthDays (isLeap (y + ((j / 12 : ℕ) : ℤ)))).getD (j % 12) 0)) w := fun _ _ => rfl
  have hlp : isLeap (y + ((k' / 12 : ℕ) : ℤ)) = isLeap (y + ((k / 12 : ℕ) : ℤ)) := by
    rw [Bool.eq_iff_iff, isLeap_iff, isLeap_iff]
    exact hleap.symm
  rw [hsame] at hb hb'
  rw [hlp, ← hmonth] at hb'
  have hm12 : k % 12 < 12 := Nat.mod_lt _ (by norm_num)
  obtain ⟨dlv, hdlen, hdr⟩ : ∃ dlv : List (B64 σ), (if isLeap (y + ((k / 12 : ℕ) : ℤ)) = true then dlL else dlN) = dlv ∧ dlv.length = 12 ∧ ∀ v ∈ dlv, ∃ b, ext v = .fin b ∧ 0 ≤ b ∧ b ≤ 24 + 1 / 2 ^ 41 := by
    obtain ⟨o1, e1, e2, e3⟩ := C133_total T hT.toTrigBounds x q hx hq90 false
    obtain ⟨o2, f1, f2, f3⟩ := C133_total T hT.toTrigBounds x q hx hq90 true
    rw [hdN] at e1
    rw [hdL] at f1
    cases e1
    cases f1
    cases isLeap (y + ((k / 12 : ℕ) : ℤ))
    · exact ⟨_, rfl, e2, e3⟩
    · exact ⟨_, rfl, f2, f3⟩
  rw [hdlen] at hb hb'
  have hg : dlv.getD (k % 12) nan ∈ dlv := by
    rw [List.getD_eq_getElem?_getD, List.getElem?_eq_getElem (show k % 12 < dlv.length by omega), Option.getD_some]
    exact List.getElem_mem _
  obtain ⟨db, d1, d2, d3⟩ := hdr.2 _ hg
  rw [(monthDays_spec _ _ hm12).1] at hb hb'
  have hnn : ∀ (z : B64 σ) (c : ℚ), ext z = .fin c → z ≠ nan := by
    rintro z c hz rfl
    cases hz
  have hz := zneg_fin hwq
  have hz' := zneg_fin hwq'
  have hqq : qq ≤ qq' := by exact_mod_cast haa
  have h10 := natlit (σ := σ) (k := 10) (by norm_num)
  push_cast at h10
  have hfin := thornMonth_mono hPm (T := T) (i := heatIndex T (r.data.map zeroNegative)) (a := thornExponent T (heatIndex T (r.data.map zeroNegative))) (dl := dlv.getD (k % 12) nan)
    (days := lit (Spec.mdays (y + ((k / 12 : ℕ) : ℤ)) (k % 12) : ℚ)) (t := zeroNegative w) (t' := zeroNegative w')
    (by rw [flt_ext ext_lit_zero hI0]; exact decide_eq_true hI0p) (by rw [flt_ext ext_lit_zero hA]; exact decide_eq_true hA0) (hP.nan _ _ hA hA0)
    (coefficient_nonneg d1 d2 (d3.trans (by norm_num)) (mdays_range _ _).2) (by
      intro hne
      have hz10 : fle (lit 0) (lit 10 * zeroNegative w) = true := by
        have hm0 : (0 : ℚ) ≤ max qq 0 := le_max_right _ _
        have hle : max qq 0 ≤ 40 := max_le hq40 (by norm_num)
        rw [fle_ext ext_lit_zero (fin_mul h10 hz (by
          rw [abs_of_nonneg (by positivity)]
          exact (show 10 * max qq 0 ≤ 2 ^ (9 : ℤ) by norm_num; linarith).trans (zpow_le_zpow_right₀ (by norm_num) (by norm_num))))]
        exact decide_eq_true (rnd_nonneg (by positivity))
      have e0 : ext (lit 0 / heatIndex T (r.data.map zeroNegative) : B64 σ) = .fin 0 := by
        rw [fin_div ext_lit_zero hI0 hI0p.ne' (by rw [zero_div, abs_zero]; positivity), zero_div, rnd_zero]
      have := FloatMono.div_le_div_right (lit 0) (lit 10 * zeroNegative w) (heatIndex T (r.data.map zeroNegative)) hz10 (by rw [flt_ext ext_lit_zero hI0]; exact decide_eq_true hI0p) (hnn _ _ e0) hne
      have h2 : Fl.le (ext (lit 0 / heatIndex T (r.data.map zeroNegative) : B64 σ)) (ext (lit 10 * zeroNegative w / heatIndex T (r.data.map zeroNegative))) = true := this
      show Fl.le (ext (lit 0 : B64 σ)) _ = true
      rwa [e0, ← ext_lit_zero (σ := σ)] at h2) (by rw [fle_ext ext_lit_zero h10]; exact decide_eq_true (by norm_num)) (by rw [fle_ext hz hz']; exact decide_eq_true (max_le_max hqq le_rfl))
    (hnn _ _ hb) (hnn _ _ hb')
  rw [fle_ext hb hb'] at hfin
  exact of_decide_eq_true hfin

/-! ## A library and a record -/

open Classical in
/-- powers cut off after 1100 binary places and then rounded: accurate and monotone -/
noncomputable def monoPow (x y : B64 leftToRight) : B64 leftToRight := match ext x, ext y with
  | .fin p, .fin q => if 0 < p then lit ((⌊(p : ℝ) ^ (q : ℝ) * 2 ^ 1100⌋ : ℚ) / 2 ^ 1100) else lit 0
  | _, _ => nan

theorem monoPow_near : PowNear (nearTrig monoPow) := by
  have hu : ((unit : ℚ) : ℝ) = 1 / 2 ^ 53 := by unfold unit; push_cast; norm_num
  refine ⟨?_, ?_, ?_⟩
  · intro x y p q hx hy hp hq h1 h2
    have hp' : (0 : ℝ) < (p : ℝ) ^ (q : ℝ) := Real.rpow_pos_of_pos (by exact_mod_cast hp) _
    have he : (nearTrig monoPow).pow x y = lit ((⌊(p : ℝ) ^ (q : ℝ) * 2 ^ 1100⌋ : ℚ) / 2 ^ 1100) := by
      show monoPow x y = _
      unfold monoPow
      rw [hx, hy]
      exact if_pos hp
    rw [he]
    generalize (p : ℝ) ^ (q : ℝ) = r at *
    obtain ⟨z, hz⟩ : ∃ z : ℚ, z = (⌊r * 2 ^ 1100⌋ : ℚ) / 2 ^ 1100 := ⟨_, rfl⟩
    rw [← hz]
    have hzr : (z : ℝ) = (⌊r * 2 ^ 1100⌋ : ℝ) / 2 ^ 1100 := by rw [hz]; push_cast; rfl
    have hP : (0 : ℝ) < 2 ^ 1100 := by positivity
    have f1 : (z : ℝ) ≤ r := by
      rw [hzr, div_le_iff₀ hP]
      exact Int.floor_le _
    have f2 : r - r / 2 ^ 55 ≤ (z : ℝ) := by
      have h3 : (r * 2 ^ 1100 - 1) / 2 ^ 1100 ≤ (z : ℝ) := by
        rw [hzr]
        exact div_le_div_of_nonneg_right (Int.sub_one_lt_floor _).le hP.le
      have h4 : (r * 2 ^ 1100 - 1) / 2 ^ 1100 = r - 1 / 2 ^ 1100 := by field_simp
      have h5 : (1 : ℝ) / 2 ^ 1100 ≤ r / 2 ^ 55 := by
        have : (1 : ℝ) / 2 ^ 1100 = 2 ^ (-1000 : ℤ) * (1 / 2 ^ 100) := by
          rw [zpow_neg, show ((2 : ℝ) ^ (1000 : ℤ)) = 2 ^ 1000 from zpow_natCast 2 1000, show (1100 : ℕ) = 1000 + 100 from rfl, pow_add, ← one_div, one_div_mul_one_div]
        rw [this, div_eq_mul_one_div r]
        exact mul_le_mul h1 (by norm_num) (by positivity) hp'.le
      linarith
    have hz0 : (0 : ℝ) ≤ z := by
      have : r / 2 ^ 55 ≤ r / 1 := div_le_div_of_nonneg_left hp'.le (by norm_num) (by norm_num)
      rw [div_one] at this
      linarith
    have hb1 : |z| ≤ 2 ^ (1023 : ℤ) := by
      have : ((|z| : ℚ) : ℝ) ≤ ((2 ^ (1023 : ℤ) : ℚ) : ℝ) := by
        rw [Rat.cast_abs, Rat.cast_zpow, Rat.cast_ofNat, abs_of_nonneg hz0]
        exact f1.trans (h2.trans (zpow_le_zpow_right₀ (by norm_num) (by norm_num)))
      exact_mod_cast this
    have hb2 : (2 : ℚ) ^ (-1022 : ℤ) ≤ |z| := by
      have : ((2 ^ (-1022 : ℤ) : ℚ) : ℝ) ≤ ((|z| : ℚ) : ℝ) := by
        rw [Rat.cast_abs, Rat.cast_zpow, Rat.cast_ofNat, abs_of_nonneg hz0]
        have h3 : (2 : ℝ) ^ (-1000 : ℤ) * (1 / 2) ≤ r * (1 - 1 / 2 ^ 55) := mul_le_mul h1 (by norm_num) (by positivity) (by positivity)
        have h4 : (2 : ℝ) ^ (-1000 : ℤ) * (1 / 2) = 2 ^ (-1001 : ℤ) := by
          rw [show (-1001 : ℤ) = -1000 - 1 by norm_num, zpow_sub_one₀ (by norm_num)]; ring
        have h5 : (2 : ℝ) ^ (-1022 : ℤ) ≤ 2 ^ (-1001 : ℤ) := zpow_le_zpow_right₀ (by norm_num) (by norm_num)
        refine h5.trans (h4.ge.trans (h3.trans (le_trans (le_of_eq ?_) f2)))
        ring
      exact_mod_cast this
    refine ⟨rnd z, ext_lit64 z hb1, ?_⟩
    have h3 : ((|rnd z - z| : ℚ) : ℝ) ≤ ((|z| * unit : ℚ) : ℝ) := by exact_mod_cast rnd_rel hb2
    rw [Rat.cast_mul, hu, Rat.cast_abs, Rat.cast_abs, Rat.cast_sub, abs_of_nonneg hz0] at h3
    have h6 : |(z : ℝ) - r| ≤ r / 2 ^ 55 := by
      rw [abs_le]
      constructor <;> linarith [div_nonneg hp'.le (show (0 : ℝ) ≤ 2 ^ 55 by positivity)]
    have h4 := abs_add_le (((rnd z : ℚ) : ℝ) - z) ((z : ℝ) - r)
    rw [sub_add_sub_cancel] at h4
    have h5 : (z : ℝ) * (1 / 2 ^ 53) ≤ r * (1 / 2 ^ 53) := mul_le_mul_of_nonneg_right f1 (by positivity)
    nlinarith
  · intro x y q hx hy hq
    show ext (monoPow x y) = _
    unfold monoPow
    rw [hx, hy]
    simp only [lt_irrefl, if_false]
    exact ext_lit_zero
  · intro y q hy _
    rfl

theorem monoPow_mono : PowMono (nearTrig monoPow) := by
  intro x x' y hy h0 hxx hn hn'
  have val : ∀ z : B64 leftToRight, monoPow z y ≠ nan → ∃ p q, ext z = .fin p ∧ ext y = .fin q := by
    intro z hz
    unfold monoPow at hz
    cases h1 : ext z with
    | fin p =>
      cases h2 : ext y with
      | fin q => exact ⟨p, q, rfl, rfl⟩
      | _ => rw [h1, h2] at hz; exact absurd rfl hz
    | _ => rw [h1] at hz; exact absurd rfl hz
  obtain ⟨p, q, hp, hq⟩ := val x hn
  obtain ⟨p', q', hp', hq'⟩ := val x' hn'
  rw [hq] at hq'
  cases hq'
  rw [flt_ext ext_lit_zero hq] at hy
  rw [fle_ext ext_lit_zero hp] at h0
  rw [fle_ext hp hp'] at hxx
  have hy := of_decide_eq_true hy
  have h0 := of_decide_eq_true h0
  have hxx := of_decide_eq_true hxx
  show fle (monoPow x y) (monoPow x' y) = true
  unfold monoPow
  rw [hp, hp', hq]
  simp only []
  have hnn : ∀ s : ℚ, 0 ≤ s → (0 : ℚ) ≤ (⌊(s : ℝ) ^ (q : ℝ) * 2 ^ 1100⌋ : ℚ) / 2 ^ 1100 := by
    intro s hs
    have : (0 : ℤ) ≤ ⌊(s : ℝ) ^ (q : ℝ) * 2 ^ 1100⌋ := Int.floor_nonneg.2 (mul_nonneg (Real.rpow_nonneg (by exact_mod_cast hs) _) (by positivity))
    have : (0 : ℚ) ≤ (⌊(s : ℝ) ^ (q : ℝ) * 2 ^ 1100⌋ : ℚ) := by exact_mod_cast this
    positivity
  by_cases c : 0 < p
  · rw [if_pos c, if_pos (c.trans_le hxx)]
    refine FloatLaws.lit_mono _ _ (div_le_div_of_nonneg_right ?_ (by positivity))
    have : ⌊(p : ℝ) ^ (q : ℝ) * 2 ^ 1100⌋ ≤ ⌊(p' : ℝ) ^ (q : ℝ) * 2 ^ 1100⌋ :=
      Int.floor_le_floor (mul_le_mul_of_nonneg_right (Real.rpow_le_rpow (by exact_mod_cast h0) (by exact_mod_cast hxx) (by exact_mod_cast hy.le)) (by positivity))
    exact_mod_cast this
  · rw [if_neg c]
    split
    · exact FloatLaws.lit_mono _ _ (hnn _ (h0.trans hxx))
    · exact FloatLaws.lit_mono _ _ le_rfl

/-- the record of fourteen months at 45.5 degrees from 2001: the second February, with 1 °C, has at least as much evapotranspiration as the first, with −2 °C; the library is the one above -/
example : ∃ (out : List (B64 leftToRight)) (v v' : B64 leftToRight) (b b' : ℚ), pet (nearTrig monoPow) exTemps (some (lit 45.5)) 2001 = .ok out ∧
    out[1]? = some v ∧ out[13]? = some v' ∧ ext v = .fin b ∧ ext v' = .fin b' ∧ b ≤ b' := by
  have ht : exTemps.data.map real64 = (([-5, -2, 3, 9, 14, 18, 20, 20, 15, 9, 3, -1] : List ℤ).map (fun z : ℤ => some (z : ℝ)) ++ [none, some ((1 : ℤ) : ℝ)]) := by
    unfold exTemps
    rw [List.map_append, List.map_map]
    congr 1
    · apply List.map_congr_left
      intro z hz
      refine real64_int ?_
      revert z
      decide
    · rw [List.map_cons, List.map_cons, real64_int (by norm_num)]
      rfl
  have htemp : ∀ v ∈ exTemps.data, Temp v := by
    have hz0 : ∀ z ∈ ([-5, -2, 3, 9, 14, 18, 20, 20, 15, 9, 3, -1] : List ℤ), |z| ≤ 2 ^ 53 ∧ (z ≤ 0 ∨ 1 ≤ z) ∧ z ≤ 40 := by decide
    intro v hv
    unfold exTemps at hv
    rcases List.mem_append.1 hv with hv | hv
    · obtain ⟨z, hz, rfl⟩ := List.mem_map.1 hv
      have hz' : |z| ≤ 2 ^ 53 ∧ (z ≤ 0 ∨ 1 ≤ z) ∧ z ≤ 40 := hz0 z hz
      refine Or.inr ⟨z, intlit z hz'.1, ?_, by exact_mod_cast hz'.2.2⟩
      rcases hz'.2.1 with h | h
      · left; exact_mod_cast h
      · right
        have : (1 : ℚ) ≤ z := by exact_mod_cast h
        linarith
    · rcases List.mem_cons.1 hv with rfl | hv
      · exact Or.inl rfl
      · rw [List.mem_singleton] at hv
        subst hv
        exact Or.inr ⟨_, intlit 1 (by norm_num), Or.inr (by norm_num), by norm_num⟩
  have ho1 : ¬ Spec.Leap (2001 + ((1 / 12 : ℕ) : ℤ)) := by unfold Spec.Leap; omega
  have ho2 : ¬ Spec.Leap (2001 + ((13 / 12 : ℕ) : ℤ)) := by unfold Spec.Leap; omega
  refine C64_float64 _ (nearTrig_near _) monoPow_near monoPow_mono exTemps _ rfl 2 (by decide +kernel) (by norm_num) htemp _ rfl (lit 45.5) 45.5 (by decide +kernel) (by norm_num [abs_le]) 2001 ?_ ?_ 1 13
    ((-2 : ℤ) : ℝ) ((1 : ℤ) : ℝ) (by rw [ht]; rfl) (by rw [ht]; rfl) (by norm_num) rfl (iff_of_false ho1 ho2)
  · intro j hj
    rw [ht]
    interval_cases j <;> exact monthValues_ne rfl
  · rw [ht]
    exact ⟨((9 : ℤ) : ℝ), by simp, by norm_num⟩

end CI.Props
