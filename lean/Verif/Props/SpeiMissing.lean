import Verif.Props.CliCells

/-!
# C11 for the SPEI: where it is missing
-/

namespace CI.Props
open CI FloatOps

variable {F : Type} [FloatOps F]

/-- the transform leaves missing values missing, also if all values are missing -/
theorem distTransform_of1d_nan [FloatLaws F] (E : Ext F) (hE : ExtNan E) (s : List F) (dist : Distribution) (per : Periodicity) (ds cs ce : Int) (fp : Option (FitDict F))
    (t : Arr F) (ht : distTransform E (Arr.of1d s) dist ds cs ce per fp = .ok t) (i : Nat) (hi : s[i]? = some nan) : t.data[i]? = some nan := by
  cases hn : allNan s with
  | true =>
    have hn' : allNan (Arr.of1d s).data = true := hn
    have : t = Arr.of1d s := by
      cases dist with
      | other => cases ht
      | gamma =>
        simp only [distTransform, bind, Except.bind] at ht
        cases hg : getGammaArgs fp with
        | error e => rw [hg] at ht; cases ht
        | ok ab =>
          rw [hg] at ht
          simp only [transformFittedGamma, hn', if_true] at ht
          cases ht
          rfl
      | pearson =>
        simp only [distTransform, bind, Except.bind] at ht
        cases hg : getPearsonArgs fp with
        | error e => rw [hg] at ht; cases ht
        | ok ab =>
          rw [hg] at ht
          simp only [transformFittedPearson, hn', if_true] at ht
          split at ht
          · cases ht
          · cases ht
            rfl
    rw [this]
    exact hi
  | false =>
    by_cases hper : per = .other
    · subst hper
      exfalso
      have hn' : allNan (Arr.of1d s).data = false := hn
      have hv : validateArray (Arr.of1d s) .other = .error .valueError := rfl
      cases dist with
      | other => cases ht
      | gamma =>
        simp only [distTransform, bind, Except.bind] at ht
        cases hg : getGammaArgs fp with
        | error e => rw [hg] at ht; cases ht
        | ok ab =>
          rw [hg] at ht
          simp only [transformFittedGamma, hn', hv, bind, Except.bind] at ht
          cases ht
      | pearson =>
        simp only [distTransform, bind, Except.bind] at ht
        cases hg : getPearsonArgs fp with
        | error e => rw [hg] at ht; cases ht
        | ok ab =>
          rw [hg] at ht
          simp only [transformFittedPearson, hn', hv, bind, Except.bind] at ht
          split at ht
          · cases ht
          · cases ht
    · obtain ⟨n, h1, h2⟩ := distTransform_of1d E s dist ds cs ce per fp hn hper
      rw [h2] at ht
      obtain ⟨_, f, hf, hval⟩ := distTransform_point E hE n _ dist ds cs ce per _ t hper h1 ht
      have hl : i < s.length := (List.getElem?_eq_some_iff.1 hi).1
      have := hval i nan (by rw [List.getElem?_append_left hl]; exact hi)
      rw [hf] at this
      exact this

/-- **C11 for the SPEI.** Time step `i` of the SPEI is missing if the window of `scale` steps ending there starts before the record, or the precipitation or the evapotranspiration has
a missing value in it; the precipitation must have at least one number. -/
theorem C11_spei [FloatLaws F] (E : Ext F) (hE : ExtNan E) (p e : Arr F) (scale : Int) (dist : Distribution) (per : Periodicity) (ds cs ce : Int) (fp : Option (FitDict F))
    (out : Arr F) (hn : ∃ x ∈ p.data, isNan x = false) (h : spei E p e scale dist per ds cs ce fp = .ok out) (i : Nat) (hi : i < p.data.length)
    (hm : (i : Int) + 1 < scale ∨ ∃ k : Nat, (k : Int) < scale ∧ k ≤ i ∧ (p.data[i - k]? = some nan ∨ e.data[i - k]? = some nan)) :
    out.data[i]? = some nan := by
  have hn' : allNan p.data = false := allNan_false hn
  rcases spei_inv E p e scale dist per ds cs ce fp out h with ⟨h1, _⟩ | ⟨_, hl, s, t, hs, ht, rfl⟩
  · rw [hn'] at h1; cases h1
  · have hlen : (List.zipWith (fun a b => (a - b) + lit 1000) (clipNeg p.data) e.data).length = p.data.length := by
      rw [List.length_zipWith, clipNeg_length]; omega
    have hsi : s[i]? = some nan := by
      refine sumToScale_nan _ _ _ hs i (by rw [hlen]; exact hi) ?_
      rcases hm with hm | ⟨k, hk, hki, hx⟩
      · exact .inl hm
      · refine .inr ⟨k, hk, hki, ?_⟩
        rw [List.getElem?_zipWith]
        have h1 : i - k < (clipNeg p.data).length := by rw [clipNeg_length]; omega
        have h2 : i - k < e.data.length := by omega
        rcases hx with hx | hx
        · rw [clipNeg_nan _ _ hx, List.getElem?_eq_getElem h2]
          simp
        · rw [hx, List.getElem?_eq_getElem h1]
          simp
    have := distTransform_of1d_nan E hE s dist per ds cs ce _ t ht i hsi
    show (clipFlattenTruncate t p.data.length)[i]? = some nan
    unfold clipFlattenTruncate
    rw [List.getElem?_take_of_lt hi, List.getElem?_map, this]
    simp [npClip_nan]

/-- without any precipitation, or without any evapotranspiration, there is no SPEI -/
theorem C11_spei_no_pet [FloatLaws F] (E : Ext F) (hE : ExtNan E) (p e : Arr F) (scale : Int) (dist : Distribution) (per : Periodicity) (ds cs ce : Int)
    (fp : Option (FitDict F)) (out : Arr F) (h : spei E p e scale dist per ds cs ce fp = .ok out) (hm : allNan p.data = true ∨ allNan e.data = true) :
    out.data = List.replicate p.data.length nan := by
  have hp : ∀ l : List F, allNan l = true → l = List.replicate l.length nan := by
    intro l hl
    refine List.ext_getElem? (fun i => ?_)
    by_cases hi : i < l.length
    · rw [List.getElem?_replicate, if_pos hi, List.getElem?_eq_getElem hi]
      exact congrArg some (eq_nan_of_allNan _ hl i _ (List.getElem?_eq_getElem hi))
    · rw [List.getElem?_eq_none (by omega), List.getElem?_eq_none (by simp; omega)]
  cases hn : allNan p.data with
  | true =>
    rcases spei_inv E p e scale dist per ds cs ce fp out h with ⟨_, rfl⟩ | ⟨h1, _⟩
    · exact hp _ hn
    · rw [hn] at h1; cases h1
  | false =>
    have he : allNan e.data = true := by
      rcases hm with hm | hm
      · rw [hn] at hm; cases hm
      · exact hm
    obtain ⟨hl, hs⟩ : p.data.length = e.data.length ∧ 1 ≤ scale := by
      rcases spei_inv E p e scale dist per ds cs ce fp out h with ⟨h1, _⟩ | ⟨_, hl, s, _, hs, _⟩
      · rw [hn] at h1; cases h1
      · refine ⟨hl, ?_⟩
        by_contra hc
        unfold sumToScale convolveOnes at hs
        rw [if_neg (by omega), if_pos (.inl (by omega))] at hs
        cases hs
    have hlo := spei_size E hE p e scale dist per ds cs ce fp out h
    refine List.ext_getElem? (fun i => ?_)
    by_cases hi : i < p.data.length
    · rw [List.getElem?_replicate, if_pos hi]
      refine C11_spei E hE p e scale dist per ds cs ce fp out ?_ h i hi (.inr ⟨0, by omega, by omega, .inr ?_⟩)
      · by_contra hc
        push_neg at hc
        have : allNan p.data = true := by
          unfold allNan
          rw [List.all_eq_true]
          exact fun x hx => by simpa using hc x hx
        rw [hn] at this; cases this
      · rw [Nat.sub_zero, List.getElem?_eq_getElem (by omega)]
        exact congrArg some (eq_nan_of_allNan _ he i _ (List.getElem?_eq_getElem (by omega)))
    · rw [List.getElem?_eq_none (by omega), List.getElem?_eq_none (by simp; omega)]

/-- a missing evapotranspiration in the fifth month: missing SPEI in the months five to seven -/
example : okAnd (spei toyExt (Arr.of1d (demo.set 0 (.fin 3))) (Arr.of1d (demo.set 4 .nan |>.set 0 (.fin 1))) 3 .gamma .monthly 1990 1990 1994 none)
      (fun out => decide (out.data.take 2 = [.nan, .nan] ∧ (out.data.drop 4).take 3 = [.nan, .nan, .nan] ∧ out.data[2]? ≠ some .nan ∧ out.data[7]? ≠ some .nan)) = true := by
  decide +kernel

end CI.Props
