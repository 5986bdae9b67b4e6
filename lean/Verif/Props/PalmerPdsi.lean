import Verif.Lemmas.PalmerNan
import Verif.Props.PalmerSpell
import Verif.Props.PalmerBalance
import Verif.Props.SpiMono
import Verif.Props.Arrays

/-!
# `pdsi`: lengths, missing values, reuse of parameters, negative precipitation (C17, C40, C41, C43, C44)

Rounding-independent (`FloatLaws`) unless a theorem is stated over `Fl K`. `log10` is arbitrary.
-/

namespace CI.Props
open Fl

section generic
variable {F : Type} [FloatOps F]

/-! ## Missing Z values in the spell machine (C43) -/

/-- C43, month of a missing Z value during a spell (established index beyond 0.5, or a spell-ending probability strictly between 0 and 100, in the
month before): if the function returns, PDSI, PHDI and PMDI are missing in that month and in **all** later months, whatever their Z values. -/
theorem C43_during_spell [FloatLaws F] (a b : List F) (h : Neutral (prevState a).1 (prevState a).2 = false) (cells : List (Cell F))
    (hok : spellCells (a ++ nan :: b) = .ok cells) :
    ∀ c ∈ cells.drop a.length, c.pdsi = nan ∧ c.phdi = nan ∧ c.wplm = nan := by
  have hs : ¬ Stuck (a ++ nan :: b) := by
    intro hc
    rw [spellCells_error _ hc] at hok
    cases hok
  obtain ⟨ms, h1, h2, h3⟩ := months_nan_spell a b h
  obtain ⟨cells', g1, g2, g3⟩ := spellCells_spec _ hs
  rw [hok] at g1
  cases g1
  rw [h1] at g3
  have hlen : (a ++ nan :: b).length = a.length + b.length + 1 := by rw [List.length_append, List.length_cons]; omega
  rw [hlen] at g2
  intro c hc
  obtain ⟨j, hj, rfl⟩ := List.mem_iff_getElem.1 hc
  rw [List.getElem_drop]
  rw [List.length_drop] at hj
  have hjm : j < ms.length := by omega
  have hdead := h3 _ (List.getElem_mem hjm)
  obtain ⟨c', hc', ⟨s1, s2, s3, s4, s5⟩, hf⟩ := g3 (a.length + j) ms[j] (by
    rw [List.getElem?_append_right (by rw [months_length]; omega), months_length, Nat.add_sub_cancel_left,
      List.getElem?_eq_getElem hjm])
  rw [List.getElem?_eq_getElem (by omega)] at hc'
  cases hc'
  have hne : ms ≠ [] := by rintro rfl; simp at h2
  obtain ⟨ml, hml⟩ : ∃ ml, ms.getLast? = some ml := ⟨_, List.getLast?_eq_some_getLast hne⟩
  have hdl := h3 ml (List.mem_of_getLast? hml)
  obtain ⟨f1, f2, f3⟩ := hf ml (by rw [List.getLast?_append, hml, Option.some_or])
  simp only [Month.cell] at s1 s2 s3 s4 s5 f3
  obtain ⟨d1, d2, d3, d4, d5⟩ := hdead
  obtain ⟨e1, e2, e3, e4, e5⟩ := hdl
  refine ⟨?_, ?_, ?_⟩
  · obtain ⟨c, hc1, hc2⟩ := spellCells_pending _ cells hok (a.length + j) (by
      rw [h1, backlog_append, backlog_dead _ _ h3, hlen]; omega) (by rw [hlen]; omega)
    rw [List.getElem?_eq_getElem (by omega)] at hc1
    cases hc1
    rw [hc2, s5, d3]
  · rw [f2, s4, d2, feq_nan_left, if_neg (by simp)]
  · rw [s1, s4, d1, d2, e1, e2, palmerCase_nan, palmerCase_nan] at f3
    rcases f3 with f3 | f3 <;> exact f3

/-- C43 / C41: a missing Z value during a spell, followed by at least 40 more months, makes the function fail with IndexError. -/
theorem C43_during_spell_error [FloatLaws F] (a b : List F) (h : Neutral (prevState a).1 (prevState a).2 = false) (hb : 40 ≤ b.length) :
    spellCells (a ++ nan :: b) = .error .indexError := spellCells_error _ (stuck_of_nan a b h hb)

/-- C43, month of a missing Z value outside a spell: PDSI and PHDI of that month are reported as zero (not as missing), and the numbers of all later months
are those of a record that starts after the missing month. -/
theorem C43_outside_spell [FloatLaws F] (a b : List F) (h : Neutral (prevState a).1 (prevState a).2 = true) (cells : List (Cell F))
    (hok : spellCells (a ++ nan :: b) = .ok cells) :
    (∃ c, cells[a.length]? = some c ∧ c.pdsi = lit 0 ∧ c.phdi = lit 0) ∧
      months (a ++ nan :: b) = months a ++ blankMonth :: months b := by
  have hs : ¬ Stuck (a ++ nan :: b) := by
    intro hc
    rw [spellCells_error _ hc] at hok
    cases hok
  have h1 := months_nan_neutral a b h
  refine ⟨?_, h1⟩
  obtain ⟨cells', g1, g2, g3⟩ := spellCells_spec _ hs
  rw [hok] at g1
  cases g1
  rw [h1] at g3
  obtain ⟨c, hc, ⟨s1, s2, s3, s4, s5⟩, hf⟩ := g3 a.length blankMonth (by
    rw [List.getElem?_append_right (by rw [months_length]), months_length, Nat.sub_self]; rfl)
  obtain ⟨ml, hml⟩ : ∃ ml, (months a ++ blankMonth :: months b).getLast? = some ml :=
    ⟨_, List.getLast?_eq_some_getLast (by simp)⟩
  obtain ⟨f1, f2, _⟩ := hf ml hml
  simp only [Month.cell, blankMonth] at s1 s2 s3 s4 s5
  rw [s2, s3, s4] at f1
  have hp : c.pdsi = lit 0 := by tauto
  exact ⟨c, hc, hp, by rw [f2, s4, if_pos (feq_lit_self 0), hp]⟩

/-! ## Shapes -/

theorem mapM_toNat (n : Nat) (l : List Int) (h : ∀ y ∈ l, 0 ≤ y ∧ y < n) : l.mapM (pyRow n) = .ok (l.map Int.toNat) := by
  induction l with
  | nil => rfl
  | cons y l ih =>
    rw [List.mapM_cons]
    have h1 := h y (by simp)
    have : pyRow n y = .ok y.toNat := by
      unfold pyRow; rw [if_pos h1.1, if_pos h1.2]
    rw [this, ih (fun y hy => h y (by simp [hy]))]
    rfl

/-- rows of a calibration period inside the record -/
theorem kfactorRows_inside (n : Nat) (ci cf : Int) (h0 : 0 ≤ ci) (hn : cf < n) :
    ∃ rows, kfactorRows n ci cf = .ok rows ∧ ∀ y, y ∈ rows ↔ ci ≤ (y : Int) ∧ (y : Int) ≤ cf := by
  unfold kfactorRows
  rw [mapM_toNat]
  · refine ⟨_, rfl, ?_⟩
    intro y
    simp only [List.mem_map, List.mem_range, exists_exists_and_eq_and]
    constructor
    · rintro ⟨i, hi, rfl⟩
      omega
    · intro h
      exact ⟨(y - ci).toNat, by omega, by omega⟩
  · intro y hy
    simp only [List.mem_map, List.mem_range] at hy
    obtain ⟨i, hi, rfl⟩ := hy
    omega

theorem balances_length (awc ss su : F) (l : List (F × F)) : (balances awc ss su l).length = l.length := by
  induction l generalizing ss su with
  | nil => rfl
  | cons q l ih => obtain ⟨p, e⟩ := q; simp only [balances, List.length_cons, ih]

theorem zValues_length (k : Coefs F) (ak : List F) (bs : List (Balance F)) : (zValues k ak bs).length = bs.length := by
  unfold zValues; rw [List.length_map, List.length_zipIdx]

theorem spellCells_length (zs : List F) (cells : List (Cell F)) (h : spellCells zs = .ok cells) : cells.length = zs.length := by
  have hs : ¬ Stuck zs := by
    intro hc
    rw [spellCells_error _ hc] at h
    cases h
  obtain ⟨cells', g1, g2, _⟩ := spellCells_spec _ hs
  rw [h] at g1
  cases g1
  exact g2

/-- what `pdsi` needs to know about the reshaped input -/
theorem reshape12 (a : Arr F) (hwf : a.WF) (r : Arr F) (h : reshapeTo2d a 12 = .ok r) :
    ∃ n, r.shape = [n, 12] ∧ r.data.length = 12 * n ∧ r.data.length = a.data.length + padCount a.data.length 12 ∧
      r.data = a.data ++ List.replicate (padCount a.data.length 12) nan := by
  unfold reshapeTo2d at h
  unfold Arr.WF at hwf
  split at h
  · rename_i n c hs
    split at h
    · rename_i hc
      cases h
      subst hc
      rw [hs] at hwf
      simp only [List.foldr] at hwf
      have hp : padCount a.data.length 12 = 0 := by
        unfold padCount; rw [if_neg (by omega)]
      exact ⟨n, hs, by omega, by omega, by rw [hp]; simp⟩
    · cases h
  · rename_i n hs
    rw [hs] at hwf
    simp only [List.foldr, Nat.mul_one] at hwf
    rw [if_neg (by decide)] at h
    have hm := padCount_mul a.data.length 12 (by decide)
    have hd : (if n % 12 > 0 then a.data ++ List.replicate (12 - n % 12) nan else a.data) =
        a.data ++ List.replicate (padCount a.data.length 12) nan := by
      unfold padCount
      rw [hwf]
      split <;> simp
    simp only at h
    rw [hd] at h
    cases h
    have hl : (a.data ++ List.replicate (padCount a.data.length 12) (nan : F)).length = a.data.length + padCount a.data.length 12 := by
      rw [List.length_append, List.length_replicate]
    exact ⟨_, rfl, by show (a.data ++ _).length = _; rw [hl]; omega, hl, rfl⟩
  · cases h

/-- `pdsi` on data that are not entirely missing: clip, pad, body -/
theorem palmerPdsi_ok (log10 : F → F) (precips pet : Arr F) (awc : F) (ds cs ce : Int) (fp : Option (PalmerDict F)) (out : PalmerOut F)
    (hp : precips.WF) (he : pet.WF) (hn : allNan precips.data = false) (h : palmerPdsi log10 precips pet awc ds cs ce fp = .ok out) :
    ∃ n, 12 * n = precips.data.length + padCount precips.data.length 12 ∧ pet.data.length = precips.data.length ∧
      palmerBody log10 n (clipNeg precips.data ++ List.replicate (padCount precips.data.length 12) nan)
        (pet.data ++ List.replicate (padCount precips.data.length 12) nan) awc (cs - ds) (ce - ds) fp precips.data.length = .ok out := by
  obtain ⟨m, hm⟩ := amin_ok _ (ne_nil_of_allNan _ hn)
  unfold palmerPdsi at h
  rw [if_neg (by rw [hn]; simp)] at h
  split at h
  · cases h
  · rename_i hlen
    have hlen : precips.data.length = pet.data.length := by simpa using hlen
    have hc : clipNeg precips.data =
        if flt m (lit 0) then precips.data.map (npClipMin (lit 0)) else precips.data := by
      unfold clipNeg; rw [hm]
    simp only [hm, bind, Except.bind, ← hc] at h
    cases hr : reshapeTo2d ⟨precips.shape, clipNeg precips.data⟩ 12 with
    | error e => rw [hr] at h; cases h
    | ok p2 =>
      cases hr2 : reshapeTo2d pet 12 with
      | error e => rw [hr, hr2] at h; cases h
      | ok e2 =>
        obtain ⟨n, h1, h2, h3, h4⟩ := reshape12 _ (by unfold Arr.WF at hp ⊢; simp only [clipNeg_length]; exact hp) p2 hr
        obtain ⟨n', k1, k2, k3, k4⟩ := reshape12 _ he e2 hr2
        rw [hr, hr2] at h
        simp only [h1] at h
        simp only [clipNeg_length] at h2 h3 h4
        rw [← hlen] at k4
        refine ⟨n, by omega, hlen.symm, ?_⟩
        rw [h4, k4] at h
        exact h

/-- the parts of a successful `palmerBody` -/
theorem palmerBody_ok (log10 : F → F) (n : Nat) (ps pets : List F) (awc : F) (ci cf : Int) (fp : Option (PalmerDict F)) (size : Nat)
    (out : PalmerOut F) (h : palmerBody log10 n ps pets awc ci cf fp size = .ok out) :
    let bs := waterBalances awc (List.zip ps pets)
    let sums := (List.range 12).map (monthSums ci cf bs)
    let k := palmerCoefs fp sums
    ∃ ak cells, kfactors log10 k bs n sums ci cf = .ok ak ∧ spellCells (zValues k ak bs) = .ok cells ∧
      out = ⟨Arr.of1d ((cells.map (·.pdsi)).take size), Arr.of1d ((cells.map (·.phdi)).take size),
        Arr.of1d ((cells.map (·.wplm)).take size), Arr.of1d ((zValues k ak bs).take size), some k⟩ := by
  intro bs sums k
  unfold palmerBody at h
  simp only [bind, Except.bind, pure, Except.pure] at h
  cases hk : kfactors log10 k bs n sums ci cf with
  | error e => simp only [k, sums, bs] at hk; rw [hk] at h; cases h
  | ok ak =>
    cases hc : spellCells (zValues k ak bs) with
    | error e => simp only [k, sums, bs] at hk hc; rw [hk] at h; simp only [hc] at h; cases h
    | ok cells =>
      simp only [k, sums, bs] at hk hc
      rw [hk] at h
      simp only [hc] at h
      cases h
      exact ⟨ak, cells, rfl, hc, rfl⟩

/-- C40, lengths: when `pdsi` returns, PDSI, PHDI, PMDI and the Z-index each have exactly as many elements as the precipitation. -/
theorem C40_lengths (log10 : F → F) (precips pet : Arr F) (awc : F) (ds cs ce : Int) (fp : Option (PalmerDict F)) (out : PalmerOut F)
    (hp : precips.WF) (he : pet.WF) (h : palmerPdsi log10 precips pet awc ds cs ce fp = .ok out) :
    out.pdsi.data.length = precips.data.length ∧ out.phdi.data.length = precips.data.length ∧
      out.pmdi.data.length = precips.data.length ∧ out.z.data.length = precips.data.length := by
  cases hn : allNan precips.data with
  | true =>
    unfold palmerPdsi at h
    rw [if_pos hn] at h
    cases h
    exact ⟨rfl, rfl, rfl, rfl⟩
  | false =>
    obtain ⟨n, h1, h2, h3⟩ := palmerPdsi_ok log10 precips pet awc ds cs ce fp out hp he hn h
    obtain ⟨ak, cells, _, g2, rfl⟩ := palmerBody_ok _ _ _ _ _ _ _ _ _ _ h3
    have hl := spellCells_length _ _ g2
    have hz := zValues_length (palmerCoefs fp ((List.range 12).map (monthSums (cs - ds) (ce - ds) (waterBalances awc
      (List.zip (clipNeg precips.data ++ List.replicate (padCount precips.data.length 12) nan)
        (pet.data ++ List.replicate (padCount precips.data.length 12) nan)))))) ak (waterBalances awc
      (List.zip (clipNeg precips.data ++ List.replicate (padCount precips.data.length 12) nan)
        (pet.data ++ List.replicate (padCount precips.data.length 12) nan)))
    rw [hz] at hl
    have hb : (waterBalances awc (List.zip (clipNeg precips.data ++ List.replicate (padCount precips.data.length 12) nan)
        (pet.data ++ List.replicate (padCount precips.data.length 12) nan))).length =
        precips.data.length + padCount precips.data.length 12 := by
      unfold waterBalances
      rw [balances_length, List.length_zip, List.length_append, List.length_append, clipNeg_length, List.length_replicate, h2, Nat.min_self]
    rw [hb] at hl hz
    simp only [Arr.of1d, List.length_take, List.length_map, hl, hz]
    omega

/-! ## C44: reuse of the returned parameters -/

theorem validate_toDict (k : Coefs F) (h : k.alpha.length = 12 ∧ k.beta.length = 12 ∧ k.gamma.length = 12 ∧ k.delta.length = 12) :
    validateFittingParams (some k.toDict) = some k := by
  unfold validateFittingParams usableParam Coefs.toDict
  have e1 : ([("alpha", some k.alpha), ("beta", some k.beta), ("gamma", some k.gamma), ("delta", some k.delta)] : PalmerDict F).lookup "alpha"
    = some (some k.alpha) := rfl
  have e2 : ([("alpha", some k.alpha), ("beta", some k.beta), ("gamma", some k.gamma), ("delta", some k.delta)] : PalmerDict F).lookup "beta"
    = some (some k.beta) := rfl
  have e3 : ([("alpha", some k.alpha), ("beta", some k.beta), ("gamma", some k.gamma), ("delta", some k.delta)] : PalmerDict F).lookup "gamma"
    = some (some k.gamma) := rfl
  have e4 : ([("alpha", some k.alpha), ("beta", some k.beta), ("gamma", some k.gamma), ("delta", some k.delta)] : PalmerDict F).lookup "delta"
    = some (some k.delta) := rfl
  simp only [e1, e2, e3, e4, h.1, h.2.1, h.2.2.1, h.2.2.2, if_true]

theorem usableParam_length (d : PalmerDict F) (name : String) (l : List F) (h : usableParam d name = some l) : l.length = 12 := by
  unfold usableParam at h
  split at h
  · split at h
    · rename_i hl; cases h; exact hl
    · cases h
  · cases h

theorem palmerCoefs_lengths (fp : Option (PalmerDict F)) (sums : List (MonthSums F)) (hs : sums.length = 12) :
    (palmerCoefs fp sums).alpha.length = 12 ∧ (palmerCoefs fp sums).beta.length = 12 ∧
      (palmerCoefs fp sums).gamma.length = 12 ∧ (palmerCoefs fp sums).delta.length = 12 := by
  unfold palmerCoefs
  split
  · rename_i k hk
    unfold validateFittingParams at hk
    split at hk
    · cases hk
    · split at hk
      · rename_i a b c e h1 h2 h3 h4
        cases hk
        exact ⟨usableParam_length _ _ _ h1, usableParam_length _ _ _ h2, usableParam_length _ _ _ h3, usableParam_length _ _ _ h4⟩
      · cases hk
  · simp only [cafecCoefficients, List.length_map, hs, and_self]

theorem palmerBody_params (log10 : F → F) (n : Nat) (ps pets : List F) (awc : F) (ci cf : Int) (fp fp' : Option (PalmerDict F)) (size : Nat)
    (h : ∀ sums, sums = (List.range 12).map (monthSums ci cf (waterBalances awc (List.zip ps pets))) →
      palmerCoefs fp sums = palmerCoefs fp' sums) :
    palmerBody log10 n ps pets awc ci cf fp size = palmerBody log10 n ps pets awc ci cf fp' size := by
  unfold palmerBody
  simp only [h _ rfl]

/-- C44, reuse: whatever parameters the first call was given, calling `pdsi` again on the same data with the returned dictionary succeeds with the identical
result, including the dictionary. -/
theorem C44_reuse (log10 : F → F) (precips pet : Arr F) (awc : F) (ds cs ce : Int) (fp : Option (PalmerDict F)) (out : PalmerOut F)
    (h : palmerPdsi log10 precips pet awc ds cs ce fp = .ok out) (k : Coefs F) (hk : out.params = some k) :
    palmerPdsi log10 precips pet awc ds cs ce (some k.toDict) = .ok out := by
  unfold palmerPdsi at h ⊢
  split
  · rename_i hn; rw [if_pos hn] at h; exact h
  · rename_i hn
    rw [if_neg hn] at h
    split
    · rename_i hl; rw [if_pos hl] at h; cases h
    · rename_i hl
      rw [if_neg hl] at h
      simp only [bind, Except.bind] at h ⊢
      cases hm : amin precips.data with
      | error e => rw [hm] at h; cases h
      | ok m =>
        rw [hm] at h
        simp only at h ⊢
        cases hr : reshapeTo2d ⟨precips.shape, if flt m (lit 0) then precips.data.map (npClipMin (lit 0)) else precips.data⟩ 12 with
        | error e => rw [hr] at h; cases h
        | ok p2 =>
          rw [hr] at h
          simp only at h ⊢
          cases hr2 : reshapeTo2d pet 12 with
          | error e => rw [hr2] at h; cases h
          | ok e2 =>
            rw [hr2] at h
            simp only at h ⊢
            split at h
            · rename_i n c hs
              rw [← h]
              refine palmerBody_params _ _ _ _ _ _ _ _ _ _ ?_
              intro sums hsum
              obtain ⟨ak, cells, _, _, rfl⟩ := palmerBody_ok _ _ _ _ _ _ _ _ _ _ h
              simp only [Option.some.injEq] at hk
              rw [← hsum] at hk
              have hl12 := palmerCoefs_lengths fp sums (by rw [hsum]; simp)
              rw [hk] at hl12 ⊢
              conv_lhs => unfold palmerCoefs
              rw [validate_toDict k hl12]
            · cases h

/-- an entry of the dictionary is unusable: absent, not a sequence, or not of 12 elements -/
def Unusable (d : PalmerDict F) (name : String) : Prop :=
  d.lookup name = none ∨ d.lookup name = some none ∨ ∃ l, d.lookup name = some (some l) ∧ l.length ≠ 12

theorem usableParam_none (d : PalmerDict F) (name : String) (h : Unusable d name) : usableParam d name = none := by
  unfold usableParam
  rcases h with h | h | ⟨l, h, hl⟩
  · rw [h]
  · rw [h]
  · rw [h]; simp only [if_neg hl]

/-- C44, incomplete dictionaries: if any one of the four entries is unusable the dictionary is ignored entirely. -/
theorem C44_incomplete (log10 : F → F) (precips pet : Arr F) (awc : F) (ds cs ce : Int) (d : PalmerDict F)
    (h : ∃ name ∈ ["alpha", "beta", "gamma", "delta"], Unusable d name) :
    palmerPdsi log10 precips pet awc ds cs ce (some d) = palmerPdsi log10 precips pet awc ds cs ce none := by
  have hv : validateFittingParams (some d) = none := by
    obtain ⟨name, hm, hu⟩ := h
    have hu := usableParam_none d name hu
    show (match usableParam d "alpha", usableParam d "beta", usableParam d "gamma", usableParam d "delta" with
      | some a, some b, some c, some e => some (⟨a, b, c, e⟩ : Coefs F)
      | _, _, _, _ => none) = none
    simp only [List.mem_cons, List.not_mem_nil, or_false] at hm
    rcases hm with rfl | rfl | rfl | rfl <;>
    · split
      · simp_all
      · rfl
  have hc : ∀ sums : List (MonthSums F), palmerCoefs (some d) sums = palmerCoefs none sums := by
    intro sums
    unfold palmerCoefs
    rw [hv]
    rfl
  have hb : ∀ n ps pets ci cf size, palmerBody log10 n ps pets awc ci cf (some d) size = palmerBody log10 n ps pets awc ci cf none size :=
    fun n ps pets ci cf size => palmerBody_params _ _ _ _ _ _ _ _ _ _ (fun sums _ => hc sums)
  unfold palmerPdsi
  simp only [hb]

/-- C44, complete dictionaries are used: with four usable entries the returned coefficients are the given ones. -/
theorem C44_used (log10 : F → F) (precips pet : Arr F) (awc : F) (ds cs ce : Int) (d : PalmerDict F) (a b g e : List F)
    (ha : d.lookup "alpha" = some (some a)) (hb : d.lookup "beta" = some (some b)) (hg : d.lookup "gamma" = some (some g))
    (he : d.lookup "delta" = some (some e)) (hl : a.length = 12 ∧ b.length = 12 ∧ g.length = 12 ∧ e.length = 12)
    (hp : precips.WF) (hpet : pet.WF) (hn : allNan precips.data = false) (out : PalmerOut F)
    (h : palmerPdsi log10 precips pet awc ds cs ce (some d) = .ok out) : out.params = some ⟨a, b, g, e⟩ := by
  obtain ⟨n, _, _, h3⟩ := palmerPdsi_ok log10 precips pet awc ds cs ce _ out hp hpet hn h
  obtain ⟨ak, cells, _, _, rfl⟩ := palmerBody_ok _ _ _ _ _ _ _ _ _ _ h3
  simp only
  congr 1
  unfold palmerCoefs validateFittingParams usableParam
  simp only [ha, hb, hg, he, hl.1, hl.2.1, hl.2.2.1, hl.2.2.2, if_true]

/-! ## C17: negative precipitation -/

/-- C17, Palmer (`_partial`: false for records with a missing value, as for SPI): without missing values, `pdsi` of a record equals `pdsi` of the record with its
negative values replaced by zero. -/
theorem C17_pdsi_partial [FloatLaws F] (log10 : F → F) (precips pet : Arr F) (awc : F) (ds cs ce : Int) (fp : Option (PalmerDict F))
    (hne : precips.data ≠ []) (hn : ∀ v ∈ precips.data, isNan v = false) :
    palmerPdsi log10 precips pet awc ds cs ce fp = palmerPdsi log10 ⟨precips.shape, precips.data.map nonneg⟩ pet awc ds cs ce fp := by
  have ha : allNan precips.data = false := by
    unfold allNan
    cases hx : precips.data with
    | nil => exact absurd hx hne
    | cons a l => rw [List.all_cons, hn a (by rw [hx]; simp)]; rfl
  obtain ⟨m, hm⟩ := amin_ok _ hne
  obtain ⟨m', hm'⟩ := amin_ok (precips.data.map nonneg) (by simpa using hne)
  have e1 : (if flt m (lit 0) then precips.data.map (npClipMin (lit 0)) else precips.data) = precips.data.map nonneg := by
    have := clipNeg_eq_nonneg precips.data hn
    unfold clipNeg at this; rw [hm] at this; exact this
  have e2 : (if flt m' (lit 0) then (precips.data.map nonneg).map (npClipMin (lit 0)) else precips.data.map nonneg) =
      precips.data.map nonneg := by
    have := clipNeg_id _ (nonneg_nonneg precips.data)
    unfold clipNeg at this; rw [hm'] at this; exact this
  unfold palmerPdsi
  simp only [allNan_map_nonneg, ha, List.length_map, Bool.false_eq_true, if_false, bind, Except.bind, hm, hm', e1, e2]

/-! ## C43: a missing month at the level of `pdsi` -/

theorem fabs_nan [FloatLaws F] : fabs (nan : F) = nan := by
  unfold fabs; simp

theorem runningSum_nan [FloatLaws F] (l : List F) (h : nan ∈ l) : runningSum l = nan := by
  unfold runningSum
  have h1 : ∀ (l : List F), l.foldl (· + ·) nan = nan := by
    intro l
    induction l with
    | nil => rfl
    | cons x l ih => rw [List.foldl_cons, FloatLaws.nan_add]; exact ih
  have : ∀ (l : List F) (a : F), nan ∈ l → l.foldl (· + ·) a = nan := by
    intro l
    induction l with
    | nil => intro a h; simp at h
    | cons x l ih =>
      intro a h
      rw [List.foldl_cons]
      rcases List.mem_cons.1 h with h | h
      · rw [← h, FloatLaws.add_nan]; exact h1 l
      · exact ih _ h
  exact this l _ h

theorem balances_p (awc ss su : F) (l : List (F × F)) : (balances awc ss su l).map (·.p) = l.map Prod.fst := by
  induction l generalizing ss su with
  | nil => rfl
  | cons q l ih =>
    obtain ⟨p, e⟩ := q
    simp only [balances, List.map_cons, ih]
    rfl

theorem kfactors_nan [FloatLaws F] (log10 : F → F) (k : Coefs F) (bs : List (Balance F)) (n : Nat) (sums : List (MonthSums F))
    (hs : sums.length = 12) (ci cf : Int) (h0 : 0 ≤ ci) (hn : cf < n) (t : Nat) (b : Balance F) (hb : bs[t]? = some b) (hp : b.p = nan)
    (h1 : ci ≤ ((t / 12 : Nat) : Int)) (h2 : ((t / 12 : Nat) : Int) ≤ cf) :
    kfactors log10 k bs n sums ci cf = .ok (List.replicate 12 nan) := by
  obtain ⟨rows, hr, hmem⟩ := kfactorRows_inside n ci cf h0 hn
  unfold kfactors
  rw [hr]
  simp only [bind, Except.bind, pure, Except.pure]
  have hsab : sabsd k bs rows (t % 12) = nan := by
    unfold sabsd
    refine runningSum_nan _ ?_
    rw [List.mem_filterMap]
    refine ⟨t / 12, (hmem _).2 ⟨h1, h2⟩, ?_⟩
    rw [show 12 * (t / 12) + t % 12 = t by omega, hb, Option.map_some, hp, FloatLaws.nan_sub, fabs_nan]
  generalize hd : (List.range 12).map (fun m => sabsd k bs rows m / lit (cf - ci + 1 : Int)) = dbar
  have hdn : dbar[t % 12]? = some nan := by
    rw [← hd, List.getElem?_map, List.getElem?_range (by omega), Option.map_some, hsab, FloatLaws.nan_div]
  have hdl : dbar.length = 12 := by rw [← hd]; simp
  generalize hak : List.zipWith (fun s d => lit 1.5 * log10 ((trat s + lit 2.8) / d) + lit 0.5) sums dbar = akhat
  have hal : akhat.length = 12 := by rw [← hak, List.length_zipWith, hs, hdl, Nat.min_self]
  have hsum : fsum (List.zipWith (· * ·) dbar akhat) = nan := by
    refine FloatLaws.fsum_nan _ ?_
    refine List.mem_of_getElem? (i := t % 12) ?_
    have hlt : t % 12 < akhat.length := by omega
    rw [List.getElem?_zipWith, hdn, List.getElem?_eq_getElem hlt]
    simp only [FloatLaws.nan_mul]
  rw [hsum]
  congr 1
  rw [List.eq_replicate_iff]
  refine ⟨by rw [List.length_map, hal], ?_⟩
  intro x hx
  obtain ⟨a, _, rfl⟩ := List.mem_map.1 hx
  rw [FloatLaws.div_nan]

theorem zValues_nan [FloatLaws F] (k : Coefs F) (bs : List (Balance F)) :
    zValues k (List.replicate 12 nan) bs = List.replicate bs.length nan := by
  rw [List.eq_replicate_iff]
  refine ⟨zValues_length _ _ _, ?_⟩
  intro x hx
  unfold zValues at hx
  obtain ⟨q, _, rfl⟩ := List.mem_map.1 hx
  have : coefAt (List.replicate 12 (nan : F)) (q.2 % 12) = nan := by
    unfold coefAt
    rw [List.getD_eq_getElem?_getD, List.getElem?_replicate, if_pos (by omega)]
    rfl
  rw [this, FloatLaws.nan_mul]

/-- C43, what really happens when a month of a calibration year is missing: let `t` be a missing month (or one of the months that pad an incomplete final
year) in a calibration year. Then **every** Z value of the record is missing and **every** PDSI, PHDI and PMDI is zero. -/
theorem C43_collapse [FloatLaws F] (log10 : F → F) (p e : List F) (awc : F) (ds cs ce : Int) (fp : Option (PalmerDict F))
    (hlen : e.length = p.length) (hn : allNan p = false) (t : Nat)
    (ht : p[t]? = some nan ∨ (p.length ≤ t ∧ t < p.length + padCount p.length 12))
    (hcs : ds ≤ cs) (hce : 12 * (ce - ds + 1) ≤ ((p.length + padCount p.length 12 : Nat) : Int))
    (h1 : cs - ds ≤ ((t / 12 : Nat) : Int)) (h2 : ((t / 12 : Nat) : Int) ≤ ce - ds) :
    ∃ out, palmerPdsi log10 (Arr.of1d p) (Arr.of1d e) awc ds cs ce fp = .ok out ∧
      out.z.data = List.replicate p.length nan ∧ out.pdsi.data = List.replicate p.length (lit 0) ∧
      out.phdi.data = List.replicate p.length (lit 0) ∧ out.pmdi.data = List.replicate p.length (lit 0) := by
  obtain ⟨m, hm⟩ := amin_ok _ (ne_nil_of_allNan _ hn)
  have hc : clipNeg p = if flt m (lit 0) then p.map (npClipMin (lit 0)) else p := by
    unfold clipNeg; rw [hm]
  have hmul := padCount_mul p.length 12 (by decide)
  have hr := reshapeTo2d_of1d (clipNeg p) 12 (by decide)
  rw [clipNeg_length] at hr
  have hr2 := reshapeTo2d_of1d e 12 (by decide)
  rw [hlen] at hr2
  generalize hpc : padCount p.length 12 = pc at *
  have hpos : (clipNeg p ++ List.replicate pc nan)[t]? = some nan := by
    rcases ht with ht | ⟨ht, ht'⟩
    · have := clipNeg_nan p t ht
      rw [List.getElem?_append_left (lt_of_getElem? this)]
      exact this
    · rw [List.getElem?_append_right (by rw [clipNeg_length]; omega), List.getElem?_replicate, if_pos (by rw [clipNeg_length]; omega)]
  have htlt : t < p.length + pc := by
    have := lt_of_getElem? hpos
    rw [List.length_append, clipNeg_length, List.length_replicate] at this
    exact this
  generalize hps : clipNeg p ++ List.replicate pc nan = ps at *
  have hpl : ps.length = p.length + pc := by rw [← hps, List.length_append, clipNeg_length, List.length_replicate]
  have hel : (e ++ List.replicate pc nan).length = p.length + pc := by rw [List.length_append, List.length_replicate, hlen]
  generalize hes : e ++ List.replicate pc nan = es at *
  have hbl : (waterBalances awc (List.zip ps es)).length = p.length + pc := by
    unfold waterBalances
    rw [balances_length, List.length_zip, hpl, hel, Nat.min_self]
  have hbp : ((waterBalances awc (List.zip ps es)).map (·.p))[t]? = some nan := by
    unfold waterBalances
    rw [balances_p, List.map_fst_zip (by omega), hpos]
  rw [List.getElem?_map] at hbp
  obtain ⟨b, hb, hbn⟩ := Option.map_eq_some_iff.1 hbp
  obtain ⟨cells, g1, g2, g3⟩ := spellCells_replicate_nan (F := F) (p.length + pc)
  have hk : ∀ k : Coefs F, kfactors log10 k (waterBalances awc (List.zip ps es)) ((p.length + pc) / 12)
      ((List.range 12).map (monthSums (cs - ds) (ce - ds) (waterBalances awc (List.zip ps es)))) (cs - ds) (ce - ds) =
      .ok (List.replicate 12 nan) := by
    intro k
    exact kfactors_nan _ _ _ _ _ (by simp) _ _ (by omega) (by omega) t b hb hbn h1 h2
  have hbody : palmerPdsi log10 (Arr.of1d p) (Arr.of1d e) awc ds cs ce fp =
      palmerBody log10 ((p.length + pc) / 12) ps es awc (cs - ds) (ce - ds) fp p.length := by
    unfold palmerPdsi
    rw [if_neg (by rw [show (Arr.of1d p).data = p from rfl, hn]; simp), if_neg (by
      show ¬ p.length ≠ e.length
      omega)]
    have hr' : reshapeTo2d ⟨(Arr.of1d p).shape, clipNeg p⟩ 12 = .ok ⟨[(p.length + pc) / 12, 12], ps⟩ := by
      rw [← hr]
      unfold Arr.of1d
      rw [clipNeg_length]
    simp only [show (Arr.of1d p).data = p from rfl, hm, bind, Except.bind, ← hc, hr', hr2]
  rw [hbody]
  unfold palmerBody
  simp only [bind, Except.bind, pure, Except.pure, hk, zValues_nan, hbl, g1]
  refine ⟨_, rfl, ?_, ?_, ?_, ?_⟩
  · show (List.replicate (p.length + pc) nan).take p.length = _
    rw [List.take_replicate]
    congr 1
    omega
  all_goals
    show (List.map _ cells).take p.length = _
    rw [List.eq_replicate_iff]
    refine ⟨by rw [List.length_take, List.length_map, g2]; omega, ?_⟩
    intro x hx
    obtain ⟨c, hcm, rfl⟩ := List.mem_map.1 (List.mem_of_mem_take hx)
    obtain ⟨q1, q2, q3⟩ := g3 c hcm
    first
      | exact q1
      | exact q2
      | exact q3

/-- C43 (`_partial`: true of the Z-index only): wherever precipitation is missing the Z value is missing. -/
theorem C43_zindex_partial [FloatLaws F] (log10 : F → F) (precips pet : Arr F) (awc : F) (ds cs ce : Int) (fp : Option (PalmerDict F)) (out : PalmerOut F)
    (hp : precips.WF) (he : pet.WF) (h : palmerPdsi log10 precips pet awc ds cs ce fp = .ok out) (t : Nat)
    (ht : precips.data[t]? = some nan) : out.z.data[t]? = some nan := by
  cases hn : allNan precips.data with
  | true =>
    unfold palmerPdsi at h
    rw [if_pos hn] at h
    cases h
    exact ht
  | false =>
    obtain ⟨n, h1, h2, h3⟩ := palmerPdsi_ok log10 precips pet awc ds cs ce fp out hp he hn h
    obtain ⟨ak, cells, _, g2, rfl⟩ := palmerBody_ok _ _ _ _ _ _ _ _ _ _ h3
    have htl := lt_of_getElem? ht
    simp only [Arr.of1d]
    rw [List.getElem?_take, if_pos htl]
    have hpos : (clipNeg precips.data ++ List.replicate (padCount precips.data.length 12) nan)[t]? = some nan := by
      have := clipNeg_nan _ t ht
      rw [List.getElem?_append_left (lt_of_getElem? this)]
      exact this
    generalize hps : clipNeg precips.data ++ List.replicate (padCount precips.data.length 12) nan = ps at *
    have hpl : ps.length = precips.data.length + padCount precips.data.length 12 := by
      rw [← hps, List.length_append, clipNeg_length, List.length_replicate]
    have hel : (pet.data ++ List.replicate (padCount precips.data.length 12) nan).length =
        precips.data.length + padCount precips.data.length 12 := by rw [List.length_append, List.length_replicate, h2]
    generalize hes : pet.data ++ List.replicate (padCount precips.data.length 12) nan = es at *
    have hbp : ((waterBalances awc (List.zip ps es)).map (·.p))[t]? = some nan := by
      unfold waterBalances
      rw [balances_p, List.map_fst_zip (by omega), hpos]
    rw [List.getElem?_map] at hbp
    obtain ⟨b, hb, hbn⟩ := Option.map_eq_some_iff.1 hbp
    unfold zValues
    rw [List.getElem?_map, List.getElem?_zipIdx, hb]
    simp only [Option.map_some, hbn, FloatLaws.nan_sub, FloatLaws.mul_nan]

/-! ### Months before a missing month -/

theorem balances_take (awc ss su : F) (l : List (F × F)) (i : Nat) : (balances awc ss su l).take i = balances awc ss su (l.take i) := by
  induction l generalizing ss su i with
  | nil => simp [balances]
  | cons q l ih =>
    obtain ⟨p, e⟩ := q
    cases i with
    | zero => simp [balances]
    | succ i => simp only [balances, List.take_succ_cons, ih]

theorem monthSums_take (ci cf : Int) (bs bs' : List (Balance F)) (T : Nat) (hT : 12 * (cf + 1) ≤ (T : Int))
    (h : bs.take T = bs'.take T) (hl : T ≤ bs.length) (hl' : T ≤ bs'.length) (m : Nat) :
    monthSums ci cf bs m = monthSums ci cf bs' m := by
  have h1 : ∀ b : List (Balance F), T ≤ b.length → calibMonth ci cf m b = calibMonth ci cf m (b.take T) := by
    intro b hb
    conv_lhs => rw [← List.take_append_drop T b]
    exact calibMonth_append ci cf m _ _ (by rw [List.length_take]; omega)
  unfold monthSums
  rw [h1 bs hl, h1 bs' hl', h]

theorem kfactors_take (log10 : F → F) (k : Coefs F) (bs bs' : List (Balance F)) (n : Nat) (sums : List (MonthSums F)) (ci cf : Int)
    (h0 : 0 ≤ ci) (hn : cf < n) (T : Nat) (hT : 12 * (cf + 1) ≤ (T : Int)) (h : bs.take T = bs'.take T) :
    kfactors log10 k bs n sums ci cf = kfactors log10 k bs' n sums ci cf := by
  obtain ⟨rows, hr, hmem⟩ := kfactorRows_inside n ci cf h0 hn
  have hs : ∀ m ∈ List.range 12, sabsd k bs rows m = sabsd k bs' rows m := by
    intro m hm
    rw [List.mem_range] at hm
    unfold sabsd
    congr 1
    apply List.filterMap_congr
    intro y hy
    have hy2 := ((hmem y).1 hy).2
    have e1 : bs[12 * y + m]? = (bs.take T)[12 * y + m]? := by
      rw [List.getElem?_take, if_pos (by omega)]
    have e2 : bs'[12 * y + m]? = (bs'.take T)[12 * y + m]? := by
      rw [List.getElem?_take, if_pos (by omega)]
    rw [e1, e2, h]
  unfold kfactors
  rw [hr]
  simp only [bind, Except.bind, pure, Except.pure]
  have hd : (List.range 12).map (fun m => sabsd k bs rows m / lit ((cf - ci + 1 : Int) : ℚ)) =
      (List.range 12).map (fun m => sabsd k bs' rows m / lit ((cf - ci + 1 : Int) : ℚ)) :=
    List.map_congr_left (fun m hm => by rw [hs m hm])
  rw [hd]

theorem zipIdx_take' {α : Type} (l : List α) (T n : Nat) : (l.zipIdx n).take T = (l.take T).zipIdx n := by
  induction l generalizing T n with
  | nil => simp
  | cons a l ih =>
    cases T with
    | zero => simp
    | succ T => simp only [List.zipIdx_cons, List.take_succ_cons, ih]

theorem zValues_take (k : Coefs F) (ak : List F) (bs : List (Balance F)) (T : Nat) :
    (zValues k ak bs).take T = zValues k ak (bs.take T) := by
  unfold zValues
  rw [← List.map_take, zipIdx_take']

/-- C43, months before a missing month: two records of the same length that agree in the first `T` months, the calibration years lying within those months:
the returned coefficients are equal and the Z values agree in the first `T` months, whatever comes later (missing or not). -/
theorem C43_before (log10 : F → F) (n : Nat) (ps ps' es es' : List F) (awc : F) (ci cf : Int) (fp : Option (PalmerDict F)) (size T : Nat)
    (h0 : 0 ≤ ci) (hn : cf < n) (hT : 12 * (cf + 1) ≤ (T : Int)) (hl : T ≤ ps.length ∧ T ≤ es.length ∧ T ≤ ps'.length ∧ T ≤ es'.length)
    (hp : ps.take T = ps'.take T) (he : es.take T = es'.take T) (out out' : PalmerOut F)
    (h : palmerBody log10 n ps es awc ci cf fp size = .ok out) (h' : palmerBody log10 n ps' es' awc ci cf fp size = .ok out') :
    out.params = out'.params ∧ out.z.data.take T = out'.z.data.take T := by
  obtain ⟨ak, cells, g1, g2, rfl⟩ := palmerBody_ok _ _ _ _ _ _ _ _ _ _ h
  obtain ⟨ak', cells', g1', g2', rfl⟩ := palmerBody_ok _ _ _ _ _ _ _ _ _ _ h'
  have hb : (waterBalances awc (List.zip ps es)).take T = (waterBalances awc (List.zip ps' es')).take T := by
    unfold waterBalances
    rw [balances_take, balances_take]
    congr 1
    rw [List.zip_eq_zipWith, List.zip_eq_zipWith, List.take_zipWith, List.take_zipWith, hp, he]
  have hbl : T ≤ (waterBalances awc (List.zip ps es)).length := by
    unfold waterBalances; rw [balances_length, List.length_zip]; omega
  have hbl' : T ≤ (waterBalances awc (List.zip ps' es')).length := by
    unfold waterBalances; rw [balances_length, List.length_zip]; omega
  have hsums : (List.range 12).map (monthSums ci cf (waterBalances awc (List.zip ps es))) =
      (List.range 12).map (monthSums ci cf (waterBalances awc (List.zip ps' es'))) :=
    List.map_congr_left (fun m _ => monthSums_take ci cf _ _ T hT hb hbl hbl' m)
  rw [hsums, kfactors_take log10 _ _ _ n _ ci cf h0 hn T hT hb] at g1
  rw [g1] at g1'
  cases g1'
  refine ⟨by rw [hsums], ?_⟩
  simp only [Arr.of1d]
  have hswap : ∀ l : List F, (l.take size).take T = (l.take T).take size := by
    intro l
    rw [List.take_take, List.take_take, Nat.min_comm]
  rw [hswap, hswap, zValues_take, zValues_take, zValues_take, zValues_take, hsums, hb]

/-! ## C61: an incomplete final year in the calibration period -/

/-- C61 is false, for every record: if the record does not end with a December and the calibration period reaches into its incomplete final year (`ce - ds` is the index
of that year), all Z values are missing and all PDSI, PHDI and PMDI are zero, although every month may have data. -/
theorem C61_fails [FloatLaws F] (log10 : F → F) (p e : List F) (awc : F) (ds cs ce : Int) (fp : Option (PalmerDict F))
    (hlen : e.length = p.length) (hn : allNan p = false) (hpart : p.length % 12 ≠ 0)
    (hcs : ds ≤ cs) (hc : cs ≤ ce) (hce : ce - ds = ((p.length / 12 : Nat) : Int)) :
    ∃ out, palmerPdsi log10 (Arr.of1d p) (Arr.of1d e) awc ds cs ce fp = .ok out ∧
      out.z.data = List.replicate p.length nan ∧ out.pdsi.data = List.replicate p.length (lit 0) ∧
      out.phdi.data = List.replicate p.length (lit 0) ∧ out.pmdi.data = List.replicate p.length (lit 0) := by
  have hpad : padCount p.length 12 = 12 - p.length % 12 := by unfold padCount; rw [if_pos (by omega)]
  refine C43_collapse log10 p e awc ds cs ce fp hlen hn p.length (Or.inr ⟨le_rfl, by omega⟩) hcs ?_ ?_ ?_
  · rw [hpad]; omega
  · omega
  · omega

/-! ## C63: the weighting factors and the calibration period -/

/-- C63 (`_partial`: true when the calibration period lies within the record): the weighting factors depend only on the calendar-month sums and on the months of the
calibration years. -/
theorem C63_partial (log10 : F → F) (k : Coefs F) (bs bs' : List (Balance F)) (n : Nat) (sums : List (MonthSums F)) (ci cf : Int)
    (h0 : 0 ≤ ci) (hn : cf < n) (h : ∀ t : Nat, ci ≤ ((t / 12 : Nat) : Int) → ((t / 12 : Nat) : Int) ≤ cf → bs[t]? = bs'[t]?) :
    kfactors log10 k bs n sums ci cf = kfactors log10 k bs' n sums ci cf := by
  obtain ⟨rows, hr, hmem⟩ := kfactorRows_inside n ci cf h0 hn
  have hs : ∀ m ∈ List.range 12, sabsd k bs rows m = sabsd k bs' rows m := by
    intro m hm
    rw [List.mem_range] at hm
    unfold sabsd
    congr 1
    apply List.filterMap_congr
    intro y hy
    have hy2 := (hmem y).1 hy
    rw [h (12 * y + m) (by omega) (by omega)]
  unfold kfactors
  rw [hr]
  simp only [bind, Except.bind, pure, Except.pure]
  have hd : (List.range 12).map (fun m => sabsd k bs rows m / lit ((cf - ci + 1 : Int) : ℚ)) =
      (List.range 12).map (fun m => sabsd k bs' rows m / lit ((cf - ci + 1 : Int) : ℚ)) :=
    List.map_congr_left (fun m hm => by rw [hs m hm])
  rw [hd]

theorem mapM_indexError (n : Nat) (l : List Int) (h : ∃ y ∈ l, (n : Int) ≤ y ∨ y < -(n : Int)) : l.mapM (pyRow n) = .error .indexError := by
  induction l with
  | nil => simp at h
  | cons y l ih =>
    rw [List.mapM_cons]
    by_cases hy : (n : Int) ≤ y ∨ y < -(n : Int)
    · have : pyRow n y = .error .indexError := by
        unfold pyRow
        split
        · rw [if_neg (by omega)]
        · rw [if_neg (by omega)]
      rw [this]
      rfl
    · have h' : ∃ y ∈ l, (n : Int) ≤ y ∨ y < -(n : Int) := by
        obtain ⟨z, hz, hz'⟩ := h
        rcases List.mem_cons.1 hz with rfl | hz
        · exact absurd hz' hy
        · exact ⟨z, hz, hz'⟩
      rw [ih h']
      have : ∃ r, pyRow n y = .ok r := by
        unfold pyRow
        split
        · rw [if_pos (by omega)]; exact ⟨_, rfl⟩
        · rw [if_pos (by omega)]; exact ⟨_, rfl⟩
      obtain ⟨r, hr⟩ := this
      rw [hr]
      rfl

/-- C63, a calibration period that ends after the record (`ce - ds` is not below the number of years): `pdsi` raises IndexError, unless all data are missing
or the period is empty. -/
theorem C63_after_record (log10 : F → F) (p e : List F) (awc : F) (ds cs ce : Int) (fp : Option (PalmerDict F))
    (hlen : e.length = p.length) (hn : allNan p = false) (hc : cs ≤ ce)
    (hce : ((p.length + padCount p.length 12 : Nat) : Int) ≤ 12 * (ce - ds)) :
    palmerPdsi log10 (Arr.of1d p) (Arr.of1d e) awc ds cs ce fp = .error .indexError := by
  obtain ⟨m, hm⟩ := amin_ok _ (ne_nil_of_allNan _ hn)
  have hcl : clipNeg p = if flt m (lit 0) then p.map (npClipMin (lit 0)) else p := by
    unfold clipNeg; rw [hm]
  have hmul := padCount_mul p.length 12 (by decide)
  have hr := reshapeTo2d_of1d (clipNeg p) 12 (by decide)
  rw [clipNeg_length] at hr
  have hr2 := reshapeTo2d_of1d e 12 (by decide)
  rw [hlen] at hr2
  unfold palmerPdsi
  rw [if_neg (by rw [show (Arr.of1d p).data = p from rfl, hn]; simp), if_neg (by
    show ¬ p.length ≠ e.length
    omega)]
  have hr' : reshapeTo2d ⟨(Arr.of1d p).shape, clipNeg p⟩ 12 =
      .ok ⟨[(p.length + padCount p.length 12) / 12, 12], clipNeg p ++ List.replicate (padCount p.length 12) nan⟩ := by
    rw [← hr]
    unfold Arr.of1d
    rw [clipNeg_length]
  simp only [show (Arr.of1d p).data = p from rfl, hm, bind, Except.bind, ← hcl, hr', hr2]
  unfold palmerBody kfactors kfactorRows
  rw [mapM_indexError]
  · rfl
  · refine ⟨ce - ds, ?_, Or.inl (by omega)⟩
    rw [List.mem_map]
    exact ⟨(ce - cs).toNat, by rw [List.mem_range]; omega, by omega⟩

end generic

/-! ## C62: soil moisture after a missing month (exact arithmetic) -/

section field
variable {K : Type} [Field K] [LinearOrder K] [IsStrictOrderedRing K]

theorem balanceMonth_missing (awc ss su : K) (pet : Fl K) :
    (balanceMonth (fin awc) (fin ss) (fin su) nan pet).sss = fin 0 ∧ (balanceMonth (fin awc) (fin ss) (fin su) nan pet).ssu = fin 0 := by
  unfold balanceMonth calcRecharge
  have h1 : fle pet (nan : Fl K) = false := FloatLaws.fle_nan_right _
  have h2 : fle (pet - (nan : Fl K)) (fin ss) = false := by rw [FloatLaws.sub_nan]; exact FloatLaws.fle_nan_left _
  have h3 : (pet - (nan : Fl K) - fin ss) * fin su / fin awc = nan := by simp
  simp only [h1, h2, h3, Bool.false_eq_true, if_false, pyMin_nan, fin_sub, sub_self, and_true]
  rw [lit_def, Rat.cast_zero]

theorem balances_split (awc : K) (h : awc ≠ 0) (ms : List (K × K)) (r : List (Fl K × Fl K)) (ss su : K) :
    ∃ ss' su' : K, balances (fin awc) (fin ss) (fin su) (toFl ms ++ r) =
      balances (fin awc) (fin ss) (fin su) (toFl ms) ++ balances (fin awc) (fin ss') (fin su') r := by
  induction ms generalizing ss su with
  | nil => exact ⟨ss, su, rfl⟩
  | cons q ms ih =>
    obtain ⟨p, e⟩ := q
    have hc : toFl ((p, e) :: ms) = (fin p, fin e) :: toFl ms := rfl
    rw [hc, List.cons_append]
    simp only [balances, balanceMonth_fin awc ss su p e h, Balance.map]
    obtain ⟨ss', su', h'⟩ := ih (balK awc ss su p e).sss (balK awc ss su p e).ssu
    exact ⟨ss', su', by rw [h', List.cons_append]⟩

/-- C62 is false, for every history: after a month with missing precipitation the water balance continues from an **empty** soil, whatever the soil moisture was
before. -/
theorem C62_fails (awc : K) (h : awc ≠ 0) (ms : List (K × K)) (pet : Fl K) (rest : List (Fl K × Fl K)) :
    ∃ b, waterBalances (fin awc) (toFl ms ++ (nan, pet) :: rest) =
      waterBalances (fin awc) (toFl ms) ++ b :: balances (fin awc) (fin 0) (fin 0) rest := by
  unfold waterBalances
  rw [awcBot_fin, lit_one]
  obtain ⟨ss', su', h'⟩ := balances_split awc h ms ((nan, pet) :: rest) 1 (max (awc - 1) 0)
  refine ⟨balanceMonth (fin awc) (fin ss') (fin su') nan pet, ?_⟩
  rw [h']
  simp only [balances, (balanceMonth_missing awc ss' su' pet).1, (balanceMonth_missing awc ss' su' pet).2]

end field

/-! ## Concrete cases -/

/-- two years of precipitation, one January missing -/
def gapYears : List (Fl ℚ) := (List.replicate 24 (fin 2)).set 12 nan

/-- C43 is false: with one missing month in a calibration year the PDSI of that month is reported as 0, and the Z values of all months are lost, for every `log10`. -/
theorem C43_fails : ∃ p e : List (Fl ℚ), p.length = 24 ∧ p[12]? = some nan ∧ (∀ t, t < 24 → t ≠ 12 → p[t]? ≠ some nan) ∧
    ∀ log10 : Fl ℚ → Fl ℚ, ∃ out, palmerPdsi log10 (Arr.of1d p) (Arr.of1d e) (fin 1) 2000 2000 2001 none = .ok out ∧
      out.pdsi.data[12]? = some (fin 0) ∧ out.z.data[0]? = some nan := by
  refine ⟨gapYears, List.replicate 24 (fin 1), by decide +kernel, by decide +kernel, by decide +kernel, ?_⟩
  intro log10
  obtain ⟨out, h1, h2, h3, _⟩ := C43_collapse log10 gapYears (List.replicate 24 (fin 1)) (fin 1) 2000 2000 2001 none
    (by decide +kernel) (by decide +kernel) 12 (Or.inl (by decide +kernel)) (by decide) (by decide +kernel) (by decide) (by decide)
  refine ⟨out, h1, ?_, ?_⟩
  · rw [h3]; decide +kernel
  · rw [h2]; decide +kernel

/-- C43 during a spell: three wet months, a missing one, then ordinary months: everything after the third month is missing -/
example : Neutral (prevState [fin 3, fin 3, (fin 3 : Fl ℚ)]).1 (prevState [fin 3, fin 3, (fin 3 : Fl ℚ)]).2 = false ∧
    okAnd (spellCells [fin 3, fin 3, fin 3, nan, fin 1, (fin 1 : Fl ℚ)]) (fun cells => decide (cells.map (·.pdsi) =
      [fin 1, fin 1.897, fin 2.701609, nan, nan, nan])) = true := by
  constructor <;> decide +kernel

/-- C43 outside a spell -/
example : Neutral (prevState [fin 1, (fin 1 : Fl ℚ)]).1 (prevState [fin 1, (fin 1 : Fl ℚ)]).2 = true ∧
    okAnd (spellCells [fin 1, fin 1, nan, (fin 1 : Fl ℚ)]) (fun cells => decide (cells[2]?.map (·.pdsi) = some (fin 0))) = true := by
  constructor <;> decide +kernel

/-- C61: a year and a half of data without any missing month; calibration 2000-2001 -/
example : allNan (List.replicate 18 (fin 2 : Fl ℚ)) = false ∧ (2001 : Int) - 2000 = ((18 / 12 : Nat) : Int) ∧ (18 % 12 ≠ 0) := by
  decide +kernel

/-- C62: before the gap the soil holds 2, after it nothing -/
example : (waterBalances (fin 2) (toFl [((3 : ℚ), 1), (3, 1)] ++ [(nan, fin 1), (fin 0, fin 0)])).map (·.sp) = [fin 2, fin 2, fin 2, fin 0] := by
  decide +kernel

/-- two years; the second with `q` in its January and a wet February -/
def wrapYears (q : ℚ) : List (Fl ℚ) := fin 3 :: List.replicate 11 (fin 2) ++ fin q :: fin 3 :: List.replicate 10 (fin 2)

/-- C63 is false: calibration period 1999-2000 of a record of 2000-2001: the January 2001 value, which is not in the period, changes the weighting
factors and with them the Z value of February 2001 (row `-1` of the arrays is their last row). The runs differ in January 2001 only. -/
theorem C63_fails : ∃ (log10 : Fl ℚ → Fl ℚ) (q q' : ℚ),
    okAnd (palmerPdsi log10 (Arr.of1d (wrapYears q)) (Arr.of1d (List.replicate 24 (fin 1))) (fin 1) 2000 1999 2000 none) (fun out =>
      okAnd (palmerPdsi log10 (Arr.of1d (wrapYears q')) (Arr.of1d (List.replicate 24 (fin 1))) (fin 1) 2000 1999 2000 none) (fun out' =>
        decide ((wrapYears q).set 12 nan = (wrapYears q').set 12 nan ∧ out.params = out'.params ∧ out.z.data[13]? ≠ out'.z.data[13]?))) = true :=
  ⟨fun _ => fin 1, 4, 5, by decide +kernel⟩

/-- C63: a period ending after the record -/
example : allNan (wrapYears 4) = false ∧ (((wrapYears 4).length + padCount (wrapYears 4).length 12 : Nat) : Int) ≤ 12 * (2002 - 2000) := by
  decide +kernel

/-- deviations from 2 of the precipitation, eight years (2000-2007); PET 0, AWC 1 -/
def longWaitP : List (Fl ℚ) :=
  let row (jan feb rest : ℚ) : List (Fl ℚ) := fin (2 + jan) :: fin (2 + feb) :: List.replicate 10 (fin (2 + rest))
  row 0.38 (-0.152) 0 ++ row 0 0 0 ++ row 0 0 0 ++ row 0 0 0 ++ row 0 0 0 ++ row 1.14 1.52 1.52 ++ row (-1.52) (-1.368) (-1.52) ++ row 0 0 0

def longWaitBs : List (Balance (Fl ℚ)) := waterBalances (fin 1) (List.zip longWaitP (List.replicate 96 (fin 0)))
def longWaitSums : List (MonthSums (Fl ℚ)) := (List.range 12).map (monthSums 0 7 longWaitBs)
def longWaitCoefs : Coefs (Fl ℚ) := cafecCoefficients longWaitSums
def longWaitDbar : List (Fl ℚ) := (List.range 12).map (fun m => sabsd longWaitCoefs longWaitBs (List.range 8) m / lit (8 : Int))

theorem longWait_args : List.zipWith (fun s d => (trat s + lit 2.8) / d) longWaitSums longWaitDbar = List.replicate 12 (fin 10) := by
  decide +kernel

/-- C41 is false for `pdsi` itself: a complete record of eight years, all calibrated, for every `log10` with `log10 10 = 1`. -/
theorem C41_pdsi_fails (log10 : Fl ℚ → Fl ℚ) (hlog : log10 (fin 10) = fin 1) :
    palmerPdsi log10 (Arr.of1d longWaitP) (Arr.of1d (List.replicate 96 (fin 0))) (fin 1) 2000 2000 2007 none = .error .indexError := by
  have hk : kfactors log10 longWaitCoefs longWaitBs 8 longWaitSums 0 7 = .ok (List.replicate 12 (fin 3.875)) := by
    unfold kfactors
    have hr : kfactorRows 8 0 7 = .ok (List.range 8) := by decide +kernel
    rw [hr]
    simp only [bind, Except.bind, pure, Except.pure]
    have hd : (List.range 12).map (fun m => sabsd longWaitCoefs longWaitBs (List.range 8) m / lit ((7 - 0 + 1 : Int) : ℚ)) = longWaitDbar := rfl
    rw [hd]
    have hz : List.zipWith (fun s d => lit 1.5 * log10 ((trat s + lit 2.8) / d) + lit 0.5) longWaitSums longWaitDbar =
        (List.zipWith (fun s d => (trat s + lit 2.8) / d) longWaitSums longWaitDbar).map (fun a => lit 1.5 * log10 a + lit 0.5) := by
      rw [List.map_zipWith]
    rw [hz, longWait_args, List.map_replicate, hlog]
    decide +kernel
  have hbody : palmerPdsi log10 (Arr.of1d longWaitP) (Arr.of1d (List.replicate 96 (fin 0))) (fin 1) 2000 2000 2007 none =
      palmerBody log10 8 longWaitP (List.replicate 96 (fin 0)) (fin 1) 0 7 none 96 := by
    unfold palmerPdsi
    rw [if_neg (by decide +kernel), if_neg (by decide +kernel)]
    have h1 : amin longWaitP = .ok (fin 0.48) := by decide +kernel
    have h2 : flt (fin 0.48 : Fl ℚ) (lit 0) = false := by decide +kernel
    have h3 : reshapeTo2d ⟨(Arr.of1d longWaitP).shape, longWaitP⟩ 12 = .ok ⟨[8, 12], longWaitP⟩ := by decide +kernel
    have h4 : reshapeTo2d (Arr.of1d (List.replicate 96 (fin 0 : Fl ℚ))) 12 = .ok ⟨[8, 12], List.replicate 96 (fin 0)⟩ := by decide +kernel
    have h5 : longWaitP.length = 96 := by decide +kernel
    simp only [show (Arr.of1d longWaitP).data = longWaitP from rfl, h1, h2, bind, Except.bind, Bool.false_eq_true, if_false, h3, h4, h5]
    rfl
  rw [hbody]
  unfold palmerBody
  simp only [bind, Except.bind]
  have hcoef : palmerCoefs none ((List.range 12).map (monthSums 0 7 (waterBalances (fin 1) (List.zip longWaitP (List.replicate 96 (fin 0)))))) =
      longWaitCoefs := rfl
  rw [hcoef]
  rw [show kfactors log10 longWaitCoefs (waterBalances (fin 1) (List.zip longWaitP (List.replicate 96 (fin 0)))) 8
    ((List.range 12).map (monthSums 0 7 (waterBalances (fin 1) (List.zip longWaitP (List.replicate 96 (fin 0)))))) 0 7 =
      .ok (List.replicate 12 (fin 3.875)) from hk]
  have hs : spellCells (zValues longWaitCoefs (List.replicate 12 (fin 3.875)) longWaitBs) = .error .indexError := by decide +kernel
  simp only
  rw [show spellCells (zValues longWaitCoefs (List.replicate 12 (fin 3.875)) (waterBalances (fin 1) (List.zip longWaitP (List.replicate 96 (fin 0))))) =
    .error .indexError from hs]

/-- C44: a dictionary without `delta`, and one with eleven values -/
example : Unusable ([("alpha", some []), ("beta", none)] : PalmerDict (Fl ℚ)) "delta" ∧
    Unusable ([("alpha", some (List.replicate 11 (fin 1)))] : PalmerDict (Fl ℚ)) "alpha" := by
  refine ⟨Or.inl rfl, Or.inr (Or.inr ⟨_, rfl, by decide⟩)⟩

/-- C40, C44: a complete run returning parameters -/
example : okAnd (palmerPdsi (fun _ => fin 1) (Arr.of1d (longWaitP.take 72)) (Arr.of1d (List.replicate 72 (fin (0 : ℚ)))) (fin 1) 2000 2000 2005 none)
    (fun out => decide (out.pdsi.data.length = 72 ∧ out.params.isSome = true)) = true := by
  decide +kernel

/-- C17: a negative value in the record -/
example : okAnd (palmerPdsi (fun _ => fin 1) (Arr.of1d ((longWaitP.take 72).set 3 (fin (-1)))) (Arr.of1d (List.replicate 72 (fin (0 : ℚ)))) (fin 1) 2000 2000 2005 none)
    (fun out => decide (out.pdsi.data.length = 72)) = true := by
  decide +kernel

end CI.Props
