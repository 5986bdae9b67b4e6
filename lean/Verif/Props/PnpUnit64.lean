import Verif.Props.Float64Sums
import Verif.Props.Float64Units

/-!
# C145: in binary64 arithmetic, the unit of precipitation and the percentage of normal

The tool first multiplies data in inches by 25.4 and then computes the percentage of normal. Both steps round. The result is compared with the exact percentage of normal
of the data as they stand in the file, in inches.
-/

namespace CI.Props
open B64 Spec

variable {σ : SumOrder}

/-! The proofs of C97 and C98 again, from data that already carry `c` rounding errors. -/

theorem sumToScale_nearC {c : ℕ} (hc51 : c ≤ 2 ^ 40) {x : List (B64 σ)} {x' : List (Fl ℚ)} (hr : List.Forall₂ (Near c (1 / 10 ^ 100) (10 ^ 100)) x x') (k : ℕ) (h1 : 1 ≤ k) (hk : k ≤ 2 ^ 40)
    (sums : List (B64 σ)) (h : sumToScale x k = .ok sums) :
    ∃ sums', sumToScale x' k = .ok sums' ∧ List.Forall₂ (Near (c + k) (1 / 10 ^ 100) (2 ^ 40 * 10 ^ 100)) sums sums' := by
  have hkq : (k : ℚ) ≤ 2 ^ 40 := by exact_mod_cast hk
  have key : ∀ (l : List (B64 σ)) (m : List (Fl ℚ)), List.Forall₂ (Near c (1 / 10 ^ 100) (10 ^ 100)) l m → l.length ≤ k →
      Near (c + k) (1 / 10 ^ 100) (2 ^ 40 * 10 ^ 100) (fsum l) (fsum m) := by
    intro l m hlm hl
    have hlq : (l.length : ℚ) ≤ 2 ^ 40 := le_trans (by exact_mod_cast hl) hkq
    have hb : (l.length : ℚ) * 10 ^ 100 ≤ 2 ^ 40 * 10 ^ 100 := mul_le_mul_of_nonneg_right hlq (by positivity)
    exact (fsum_near hlm (hb.trans ten_big) (by omega)).mono (by omega) le_rfl hb
  unfold sumToScale at h ⊢
  by_cases hk1 : (k : ℤ) = 1
  · rw [if_pos hk1] at h ⊢
    cases h
    refine ⟨_, rfl, hr.imp fun a b hab => hab.mono (by omega) le_rfl ?_⟩
    exact le_mul_of_one_le_left (by positivity) (by norm_num)
  · rw [if_neg hk1] at h ⊢
    unfold convolveOnes at h ⊢
    by_cases he : x = []
    · rw [if_pos (Or.inr he)] at h; cases h
    · have he' : x' ≠ [] := fun h0 => he (by subst h0; cases hr; rfl)
      rw [if_neg (by rintro (h' | h'); omega; exact he h')] at h
      rw [if_neg (by rintro (h' | h'); omega; exact he' h')]
      dsimp only at h ⊢
      rw [← hr.length_eq]
      have hnan : ∀ n, List.Forall₂ (Near (σ := σ) (c + k) (1 / 10 ^ 100) (2 ^ 40 * 10 ^ 100)) (List.replicate n nan) (List.replicate n nan) := by
        intro n
        induction n with
        | zero => exact .nil
        | succ n ih => exact .cons (Or.inl ⟨rfl, rfl⟩) ih
      by_cases hc : (k : ℤ).toNat ≤ x.length
      · rw [if_pos hc] at h ⊢
        simp only [bind, Except.bind, pure, Except.pure, Except.ok.injEq] at h ⊢
        subst h
        refine ⟨_, rfl, List.rel_append (hnan _) ?_⟩
        refine forall₂_map_range _ _ _ fun i _ => key _ _ (forall₂_slice hr _ _) ?_
        unfold slice
        rw [List.length_take]
        omega
      · rw [if_neg hc] at h ⊢
        simp only [bind, Except.bind, pure, Except.pure, Except.ok.injEq] at h ⊢
        subst h
        refine ⟨_, rfl, List.rel_append (hnan _) ?_⟩
        have hf := key x _ hr (by omega)
        generalize (k : ℤ).toNat - x.length + 1 = n
        induction n with
        | zero => exact .nil
        | succ n ih => exact .cons hf ih

theorem pnp_nearC {c : ℕ} (hc51 : c ≤ 2 ^ 40) {x : List (B64 σ)} {x' : List (Fl ℚ)} (hr : List.Forall₂ (Near c (1 / 10 ^ 100) (10 ^ 100)) x x') (k : ℕ) (h1 : 1 ≤ k) (hk : k ≤ 2 ^ 40)
    (hne : x ≠ []) (per : Periodicity) (hper : per ≠ .other)
    (ds cs ce : ℤ) (hds : ds ≤ cs) (hce : cs ≤ ce) (hspan : (ce - cs + 1) * 12 ≤ x.length) (hY : ce - cs + 1 ≤ 2 ^ 40) :
    ∃ out out', percentageOfNormal x (some k) ds cs ce per = .ok out ∧ percentageOfNormal x' (some k) ds cs ce per = .ok out' ∧
      out.length = out'.length ∧ ∀ (i : ℕ) (a : B64 σ) (b : Fl ℚ), out[i]? = some a → out'[i]? = some b → Agree (3 * (k + c) + 2 * (ce - cs + 1).toNat + 3) a b := by
  obtain ⟨sums, out, hs, ho, hlen, hval⟩ := C28_ratio x k ds cs ce per hper h1 hne hds hce hspan
  obtain ⟨sums', out', hs', ho', hlen', hval'⟩ := C28_ratio x' k ds cs ce per hper h1 (fun h0 => hne (by subst h0; cases hr; rfl)) hds hce (by rw [← hr.length_eq]; exact hspan)
  obtain ⟨sums'', hs'', hnear⟩ := sumToScale_nearC hc51 hr k h1 hk sums hs
  rw [hs'] at hs''
  cases hs''
  refine ⟨out, out', ho, ho', by rw [hlen, hlen', hnear.length_eq], ?_⟩
  intro i a b hia hib
  have hi : i < sums.length := by rw [← hlen]; exact (List.getElem?_eq_some_iff.1 hia).1
  have hi' : i < sums'.length := by rw [← hnear.length_eq]; exact hi
  have e1 := hval i _ (List.getElem?_eq_getElem hi)
  have e2 := hval' i _ (List.getElem?_eq_getElem hi')
  rw [hia] at e1
  rw [hib] at e2
  rw [Option.some.inj e1, Option.some.inj e2]
  have hsn : Near (c + k) (1 / 10 ^ 100) (2 ^ 40 * 10 ^ 100) sums[i] sums'[i] := by simpa using (List.forall₂_iff_get.1 hnear).2 i hi hi'
  have hcv := forall₂_filterMap_get hnear (fun y => ((cs - ds).toNat + y) * pnpSteps per + i % pnpSteps per) (List.range (ce - cs + 1).toNat)
  have hcl : ((List.range (ce - cs + 1).toNat).filterMap (fun y => sums[((cs - ds).toNat + y) * pnpSteps per + i % pnpSteps per]?)).length ≤ (ce - cs + 1).toNat := by
    refine (List.length_filterMap_le _ _).trans ?_
    rw [List.length_range]
  have hmn := nanmean_near hcv (by omega) (by omega)
  have hmn : Near (c + k + (ce - cs + 1).toNat + 1) (1 / (2 ^ 40 * 10 ^ 100)) (2 ^ 40 * 10 ^ 100)
      (nanmean (calendarStepValues sums (pnpSteps per) (i % pnpSteps per) ds cs ce)) (nanmean (calendarStepValues sums' (pnpSteps per) (i % pnpSteps per) ds cs ce)) :=
    hmn.mono (by omega) le_rfl le_rfl
  dsimp only
  generalize nanmean (calendarStepValues sums (pnpSteps per) (i % pnpSteps per) ds cs ce) = u at *
  generalize nanmean (calendarStepValues sums' (pnpSteps per) (i % pnpSteps per) ds cs ce) = u' at *
  rcases hmn with ⟨rfl, rfl⟩ | ⟨ma, mb, hma, rfl, hmab, hmlo, hmhi⟩
  · have q1 : flt (lit 0) (.nan : B64 σ) = false := by
      show (Fl.le _ (ext (.nan : B64 σ)) && _) = false
      rw [ext_lit_zero]; rfl
    have q2 : flt (lit 0) (.nan : Fl ℚ) = false := by rfl
    rw [if_neg (by simp [q1]), if_neg (by simp [q2])]
    exact Or.inl ⟨rfl, rfl⟩
  · have q1 : flt (lit 0) u = decide (0 < ma) := flt_ext ext_lit_zero hma
    have q2 : flt (lit 0) (Fl.fin mb) = decide (0 < mb) := by simp [Fl.lit_def]
    rw [q1, q2]
    by_cases hp : 0 < mb
    · rw [if_pos (by simpa using hmab.pos_iff.2 hp), if_pos (by simpa using hp)]
      rcases hsn with ⟨e1, e2⟩ | ⟨sa, sb, hsa, hsb, hsab, hslo, hshi⟩
      · rw [e1, e2]
        exact Or.inl ⟨FloatLaws.nan_div _, FloatLaws.nan_div _⟩
      · have hml : 1 / (2 ^ 40 * 10 ^ 100) ≤ mb := by
          rcases hmlo with h | h
          · exact absurd h hp.ne'
          · exact h
        have hlo : sb = 0 ∨ (2 : ℚ) ^ (-1000 : ℤ) ≤ sb / mb := by
          refine hslo.imp id fun h => le_trans small_lim ?_
          rw [le_div_iff₀ hp]
          have e : (1 : ℚ) / (2 ^ 80 * 10 ^ 200) * (2 ^ 40 * 10 ^ 100) ≤ 1 / 10 ^ 100 := by
            have e' : (1 : ℚ) / (2 ^ 80 * 10 ^ 200) * (2 ^ 40 * 10 ^ 100) = 1 / 10 ^ 100 * (1 / 2 ^ 40) := by
              rw [show (2 : ℚ) ^ 80 = 2 ^ 40 * 2 ^ 40 by rw [← pow_add], show (10 : ℚ) ^ 200 = 10 ^ 100 * 10 ^ 100 by rw [← pow_add]]
              field_simp
            rw [e']
            exact mul_le_of_le_one_right (by positivity) (by norm_num)
          have := mul_le_mul_of_nonneg_left hmhi (by positivity : (0 : ℚ) ≤ 1 / (2 ^ 80 * 10 ^ 200))
          linarith
        have hhi : sb / mb ≤ 2 ^ (1000 : ℤ) := by
          refine le_trans ?_ big_lim
          rw [div_le_iff₀ hp]
          have e : (2 : ℚ) ^ 80 * 10 ^ 200 * (1 / (2 ^ 40 * 10 ^ 100)) = 2 ^ 40 * 10 ^ 100 := by
            rw [show (2 : ℚ) ^ 80 = 2 ^ 40 * 2 ^ 40 by rw [← pow_add], show (10 : ℚ) ^ 200 = 10 ^ 100 * 10 ^ 100 by rw [← pow_add]]
            field_simp
          have := mul_le_mul_of_nonneg_left hml (by positivity : (0 : ℚ) ≤ 2 ^ 80 * 10 ^ 200)
          linarith
        obtain ⟨r, hr1, hr2⟩ := div_close hsa hma hsab hmab hp (by omega) hlo hhi
        rw [hsb, Fl.fin_div_of_ne _ _ hp.ne']
        refine Near.agree (lo := 0) (hi := sb / mb) (Or.inr ⟨r, sb / mb, hr1, rfl, hr2.mono (by omega), Or.inr (div_nonneg hsab.nonneg hp.le), le_rfl⟩) (by omega)
    · rw [if_neg (by simpa using fun h => hp (hmab.pos_iff.1 h)), if_neg (by simpa using hp)]
      exact Or.inl ⟨rfl, rfl⟩

/-! ## Conversion -/

theorem rain_conv {q k : ℚ} (hk1 : 1 ≤ k) (hk2 : k ≤ 100) (h1 : q = 0 ∨ 1 / 10 ^ 100 ≤ q) (h2 : q ≤ 10 ^ 98) :
    0 ≤ q ∧ (k * q = 0 ∨ 1 / 10 ^ 100 ≤ k * q) ∧ k * q ≤ 10 ^ 100 := by
  have h0 : 0 ≤ q := by
    rcases h1 with h | h
    · exact h.ge
    · exact le_trans (by positivity) h
  refine ⟨h0, h1.imp (fun h => by rw [h, mul_zero]) (fun h => h.trans (le_mul_of_one_le_left h0 hk1)), ?_⟩
  calc k * q ≤ 100 * 10 ^ 98 := mul_le_mul hk2 h2 h0 (by norm_num)
    _ = 10 ^ 100 := by norm_num

theorem inch_lit : ∃ L, ext (lit 25.4 : B64 σ) = .fin L ∧ Close 1 L 25.4 := by
  refine ⟨rnd 25.4, ext_lit64 (σ := σ) 25.4 (small_max (M := 25.4) (by norm_num) (by norm_num)), ?_⟩
  refine (Close.refl (by norm_num : (0 : ℚ) ≤ 25.4)).round (rnd_rel ?_)
  have : (2 : ℚ) ^ (-1022 : ℤ) ≤ 2 ^ (0 : ℤ) := zpow_le_zpow_right₀ (by norm_num) (by norm_num)
  exact this.trans (by norm_num)

theorem convert_near (u : String) (k : ℚ) (hu : (u, k) ∈ precipUnits) (x : List (B64 σ))
    (hx : ∀ v ∈ x, v = .nan ∨ ∃ q, ext v = .fin q ∧ (q = 0 ∨ 1 / 10 ^ 100 ≤ q) ∧ q ≤ 10 ^ 98) :
    0 < k ∧ ∃ mm, convertPrecip u x = .ok mm ∧ mm.length = x.length ∧ List.Forall₂ (Near 2 (1 / 10 ^ 100) (10 ^ 100)) mm ((x.map ext).map (Fl.fin k * ·)) := by
  have one : List.Forall₂ (Near 2 (1 / 10 ^ 100) (10 ^ 100)) x ((x.map ext).map (Fl.fin (1 : ℚ) * ·)) := by
    rw [List.map_map, List.forall₂_map_right_iff, List.forall₂_same]
    intro v hv
    rcases hx v hv with rfl | ⟨q, h1, h2, h3⟩
    · exact Or.inl ⟨rfl, rfl⟩
    · obtain ⟨h0, g1, g2⟩ := rain_conv le_rfl (by norm_num) h2 h3
      refine Or.inr ⟨q, 1 * q, h1, ?_, ?_, g1, g2⟩
      · show Fl.fin 1 * ext v = _
        rw [h1]; rfl
      · rw [one_mul]; exact (Close.refl h0).mono (by omega)
  have inch : List.Forall₂ (Near 2 (1 / 10 ^ 100) (10 ^ 100)) (x.map fun v => v * lit 25.4) ((x.map ext).map (Fl.fin (25.4 : ℚ) * ·)) := by
    rw [List.map_map, List.forall₂_map_left_iff, List.forall₂_map_right_iff, List.forall₂_same]
    intro v hv
    rcases hx v hv with rfl | ⟨q, h1, h2, h3⟩
    · exact Or.inl ⟨rfl, rfl⟩
    · obtain ⟨h0, g1, g2⟩ := rain_conv (k := 25.4) (by norm_num) (by norm_num) h2 h3
      obtain ⟨L, hL, hc⟩ := inch_lit (σ := σ)
      have e : q * 25.4 = 25.4 * q := mul_comm _ _
      obtain ⟨r, hr, hrc⟩ := mul_close h1 hL (Close.refl h0) hc (by norm_num)
        (by rw [e]; exact g1.imp id fun h => le_trans small_lim (le_trans (one_div_le_one_div_of_le (by positivity)
              (le_trans (pow_le_pow_right₀ (by norm_num) (by norm_num)) (le_mul_of_one_le_left (by positivity) (by norm_num)))) h))
        (by rw [e]; exact g2.trans (le_trans (le_mul_of_one_le_left (by positivity) (by norm_num)) ten_big))
      refine Or.inr ⟨r, 25.4 * q, hr, ?_, ?_, g1, g2⟩
      · show Fl.fin 25.4 * ext v = _
        rw [h1]; rfl
      · rw [← e]; exact hrc.mono (by omega)
  simp only [precipUnits, lengthUnits, List.mem_cons, Prod.mk.injEq, List.not_mem_nil, or_false] at hu
  rcases hu with ⟨rfl, rfl⟩ | ⟨rfl, rfl⟩ | ⟨rfl, rfl⟩ | ⟨rfl, rfl⟩ | ⟨rfl, rfl⟩ | ⟨rfl, rfl⟩
  · exact ⟨by norm_num, x, by simp [convertPrecip], rfl, one⟩
  · exact ⟨by norm_num, x, by simp [convertPrecip], rfl, one⟩
  · exact ⟨by norm_num, x, by simp [convertPrecip], rfl, one⟩
  · exact ⟨by norm_num, x, by simp [convertPrecip], rfl, one⟩
  · exact ⟨by norm_num, _, by simp [convertPrecip], by simp, inch⟩
  · exact ⟨by norm_num, _, by simp [convertPrecip], by simp, inch⟩

/-- **C145.** For every accepted unit `u` of precipitation, the percentage of normal that is computed in float64 after the conversion to millimetres differs from the
exact percentage of normal of the unconverted data by at most `3 (s + 2) + 2 Y + 3` units of 2^-52, relative to it, and is missing exactly if that is; `s` is the number of time
steps that are added up, `Y` the number of calibration years. The unit has no other influence. -/
theorem C145_pnp (u : String) (k : ℚ) (hu : (u, k) ∈ precipUnits) (x : List (B64 σ)) (hx : ∀ v ∈ x, v = .nan ∨ ∃ q, ext v = .fin q ∧ (q = 0 ∨ 1 / 10 ^ 100 ≤ q) ∧ q ≤ 10 ^ 98)
    (s : ℕ) (h1 : 1 ≤ s) (hs : s ≤ 2 ^ 40) (hne : x ≠ []) (per : Periodicity) (hper : per ≠ .other)
    (ds cs ce : ℤ) (hds : ds ≤ cs) (hce : cs ≤ ce) (hspan : (ce - cs + 1) * 12 ≤ x.length) (hY : ce - cs + 1 ≤ 2 ^ 40) :
    ∃ mm out out', convertPrecip u x = .ok mm ∧ percentageOfNormal mm (some s) ds cs ce per = .ok out ∧ percentageOfNormal (x.map ext) (some s) ds cs ce per = .ok out' ∧
      out.length = out'.length ∧ ∀ (i : ℕ) (a : B64 σ) (b : Fl ℚ), out[i]? = some a → out'[i]? = some b → Agree (3 * (s + 2) + 2 * (ce - cs + 1).toNat + 3) a b := by
  obtain ⟨hk, mm, hmm, hl, hn⟩ := convert_near u k hu x hx
  have hne' : mm ≠ [] := by
    intro h
    rw [h] at hl
    exact hne (List.length_eq_zero_iff.1 hl.symm)
  obtain ⟨out, out', ho, ho', hlen, hv⟩ := pnp_nearC (by norm_num) hn s h1 hs hne' per hper ds cs ce hds hce (by rw [hl]; exact hspan) hY
  rw [C28_unit k hk] at ho'
  exact ⟨mm, out, out', hmm, ho, ho', hlen, hv⟩

/-- two years in inches meet the hypotheses, and the conversion does round: 0.1 inches are not exactly 2.54 mm -/
example : ("inches", (25.4 : ℚ)) ∈ precipUnits ∧ (twoWetYears64.map (fun q => (CI.lit q : B64 leftToRight))).all (fun v => match ext v with
      | .fin q => (decide (q = 0) || decide (1 / 10 ^ 100 ≤ q)) && decide (q ≤ 10 ^ 98)
      | _ => false) = true ∧ (2001 - 2000 + 1) * 12 ≤ twoWetYears64.length ∧
    (match convertPrecip "inches" (twoWetYears64.map (fun q => (CI.lit q : B64 leftToRight))) with
      | .ok mm => decide (mm[1]?.map ext ≠ some (.fin 5.08))
      | .error _ => false) = true := by
  decide +kernel

/-- and the computed percentage is not the one computed in float64 from the data in millimetres, so that equality would be too much to ask -/
example : (match convertPrecip "inches" (twoWetYears64.map (fun q => (CI.lit q : B64 leftToRight))) with
      | .ok mm => match percentageOfNormal mm (some 2) 2000 2000 2001 .monthly,
          percentageOfNormal (twoWetYears64.map (fun q => (CI.lit q : B64 leftToRight))) (some 2) 2000 2000 2001 .monthly with
        | .ok a, .ok b => decide (a.map ext ≠ b.map ext)
        | _, _ => false
      | .error _ => false) = true := by
  decide +kernel

end CI.Props
