import Verif.Lemmas.Alias
import Verif.Props.SpiFit
import Verif.Props.Stats
import Verif.Model.Eto

/-! Heap behaviour of the fitting functions and of `eto_thornthwaite`, and the data state during a batch run of the SPI tool. -/

namespace CI
open CI.Props
variable {F : Type} [FloatOps F]

theorem scaleValues_shape (a : Arr F) (scale : Int) (per : Periodicity) (hdim : a.shape.length = 2 ∨ a.shape.length = 1) (hn : allNan a.data = false) :
    scaleValues a scale per = (do let s ← sumToScale (clipNeg a.data) scale; reshapeValues (Arr.of1d s) per) := by
  obtain ⟨m, hm⟩ := amin_ok _ (ne_nil_of_allNan _ hn)
  have hc : clipNeg a.data = if flt m (lit 0) then a.data.map (npClipMin (lit 0)) else a.data := by unfold clipNeg; rw [hm]
  unfold scaleValues
  rw [if_pos hdim, hn, hm, hc]
  rfl

/-- whether the array returned by `scale_values` is the caller's -/
def scaleKeeps (a : Arr F) (scale : Int) (per : Periodicity) : Bool :=
  if allNan a.data then decide (a.shape.length = 1) else stays a scale per

theorem scaleValuesH_runs (h0 : Heap F) (r : Ref) (a : Arr F) (ha : h0.arr r = a) (hwf : a.WF) (scale : Int) (per : Periodicity) :
    Runs r.buf h0 h0 (scaleValuesH r scale per) (scaleValues a scale per) (scaleKeeps a scale per) := by
  have S0 : Sim r.buf h0 h0 r a true := Sim.init ha
  unfold scaleValuesH
  by_cases hdim : a.shape.length = 2 ∨ a.shape.length = 1
  case neg =>
    rcases flatten_runs S0 hwf with ⟨e, h', h1, h2, ex, h3⟩ | ⟨_, _, _, h1, _⟩
    · rw [if_neg hdim] at h1
      injection h1 with h1
      subst h1
      exact Or.inl ⟨_, h', by unfold scaleValues; rw [if_neg hdim], H_bind_err h2, ex, h3⟩
    · rw [if_neg hdim] at h1; cases h1
  rcases flatten_runs S0 hwf with ⟨e, h', h1, h2, ex, h3⟩ | ⟨b1, r1, h1, e1, x1, S1⟩
  · rw [if_pos hdim] at h1; cases h1
  rw [if_pos hdim] at e1
  injection e1 with e1
  subst e1
  unfold Runs
  rw [H_bind_ok x1, H_get_bind, S1.arr]
  have S1' := S1
  unfold scaleKeeps
  cases hn : allNan a.data with
  | true =>
    have hn' : allNan (Arr.of1d a.data).data = true := hn
    simp only [hn', if_true]
    have : scaleValues a scale per = .ok (Arr.of1d a.data) := by unfold scaleValues; rw [if_pos hdim, if_pos hn]
    rw [this]
    rw [Bool.true_and] at S1
    exact Runs.pure S1
  | false =>
    have hn' : allNan (Arr.of1d a.data).data = false := hn
    simp only [hn', Bool.false_eq_true, if_false]
    have := scaled_runs S1 (ne_nil_of_allNan _ hn) scale per
    rw [scaleValues_shape a scale per hdim hn]
    have e : stays a scale per = (true && decide (a.shape.length = 1) && !clips a.data && decide (scale = 1) && decide (a.data.length % per.steps = 0)) := by
      unfold stays; simp
    rw [e]
    exact this

/-- whether fitting a gamma distribution overwrites the caller's array -/
def fitWrites (a : Arr F) (scale : Int) (per : Periodicity) : Bool := !allNan a.data && stays a scale per

/-- the parameters of `scale_values` followed by `gamma_parameters` -/
def fitGammaVal (E : Ext F) (a : Arr F) (scale ds cs ce : Int) (per : Periodicity) : Res (FitDict F) := do
  let s ← scaleValues a scale per
  let ab ← gammaParameters E s ds cs ce per
  pure [("alpha", some ab.1), ("beta", some ab.2)]

theorem fitGammaH_spec (E : Ext F) (h0 : Heap F) (r : Ref) (a : Arr F) (ha : h0.arr r = a) (hc : r.buf < h0.length) (hwf : a.WF)
    (scale ds cs ce : Int) (per : Periodicity) :
    ∃ h', fitGammaH E r scale ds cs ce per h0 = (fitGammaVal E a scale ds cs ce per, h') ∧
      ∃ ex, h' = (if fitWrites a scale per then h0.set r.buf (a.data.map zeroToNan) else h0) ++ ex := by
  have gen : ∀ (s : Ref) (h h' : Heap F) (x : Res (List F × List F)), gammaParametersH E s ds cs ce per h = (x, h') →
      (gammaParametersH E s ds cs ce per >>= fun ab => (pure [("alpha", some ab.1), ("beta", some ab.2)] : H F (FitDict F))) h =
        ((do let ab ← x; pure [("alpha", some ab.1), ("beta", some ab.2)]), h') := by
    intro s h h' x hx
    cases x with
    | error e => rw [H_bind_err hx]; rfl
    | ok ab => rw [H_bind_ok hx]; rfl
  unfold fitGammaH fitGammaVal
  have hR := scaleValuesH_runs h0 r a ha hwf scale per
  cases hn : allNan a.data with
  | true =>
    have hw : fitWrites a scale per = false := by unfold fitWrites; rw [hn]; rfl
    rw [hw]
    simp only [Bool.false_eq_true, if_false]
    rcases hR with ⟨e, h', h1, h2, ex, h3⟩ | ⟨b, s, h1, e1, x1, S1⟩
    · rw [H_bind_err h2, h1]; exact ⟨h', rfl, ex, h3⟩
    · rw [H_bind_ok x1, e1]
      have hb : allNan b.data = true := by
        unfold scaleValues at e1
        by_cases hd : a.shape.length = 2 ∨ a.shape.length = 1
        · rw [if_pos hd] at e1
          simp only [hn, if_true] at e1; injection e1 with e1; rw [← e1]; exact hn
        · rw [if_neg hd] at e1; cases e1
      refine ⟨h1, ?_, S1.pre⟩
      rw [gen s h1 h1 _ (gammaParametersH_nan E h1 s ds cs ce per (by rw [S1.arr]; exact hb)), S1.arr]
      rfl
  | false =>
    have hk : scaleKeeps a scale per = stays a scale per := by unfold scaleKeeps; rw [hn]; rfl
    have hw : fitWrites a scale per = stays a scale per := by unfold fitWrites; rw [hn]; rfl
    rw [hk] at hR
    rw [hw]
    rcases hR with ⟨e, h', h1, h2, ex, h3⟩ | ⟨b, s, h1, e1, x1, S1⟩
    · rw [H_bind_err h2, h1]
      refine ⟨h', rfl, ex, ?_⟩
      have : stays a scale per = false := by
        cases hst : stays a scale per with
        | false => rfl
        | true =>
          exfalso
          unfold stays at hst
          simp only [Bool.and_eq_true, Bool.not_eq_true', decide_eq_true_eq] at hst
          obtain ⟨⟨⟨g0, _⟩, g2⟩, g3⟩ := hst
          subst g2
          rw [scaleValues_shape a 1 per (Or.inr g0) hn] at h1
          have : sumToScale (clipNeg a.data) 1 = .ok (clipNeg a.data) := by unfold sumToScale; simp
          rw [this] at h1
          have h1 : reshapeValues (Arr.of1d (clipNeg a.data)) per = .error e := h1
          cases per with
          | other =>
            simp only [Periodicity.steps, Nat.mod_zero] at g3
            exact ne_nil_of_allNan _ hn (List.length_eq_zero_iff.1 g3)
          | monthly => unfold reshapeValues at h1; simp only at h1; rw [reshapeTo2d_of1d _ 12 (by norm_num)] at h1; cases h1
          | daily => unfold reshapeValues at h1; simp only at h1; rw [reshapeTo2d_of1d _ 366 (by norm_num)] at h1; cases h1
      rw [this]; simpa using h3
    · rw [H_bind_ok x1, e1]
      obtain ⟨hdim, sc, hs1, hs2⟩ := scaleValues_eq a scale per b hn e1
      obtain ⟨hper, n, hsh, _, _⟩ := reshapeValues_ok sc per b hs2
      have hdat : stays a scale per = true → b.data = a.data := by
        intro h
        refine stays_data a sc b scale per ?_ hs1 hs2
        unfold stays at h
        simp only [Bool.and_eq_true] at h ⊢
        tauto
      obtain ⟨sh, d⟩ := b
      simp only at hsh hdat
      subst hsh
      cases hnd : allNan d with
      | true =>
        have hst : stays a scale per = false := by
          cases hb : stays a scale per with
          | false => rfl
          | true => rw [hdat hb, hn] at hnd; cases hnd
        rw [hst]
        simp only [Bool.false_eq_true, if_false]
        refine ⟨h1, ?_, S1.pre⟩
        rw [gen s h1 h1 _ (gammaParametersH_nan E h1 s ds cs ce per (by rw [S1.arr]; exact hnd)), S1.arr]
        rfl
      | false =>
        obtain ⟨ex, hex⟩ := S1.set hc (d.map zeroToNan)
        refine ⟨h1.set s.buf (d.map zeroToNan), ?_, ex, ?_⟩
        · rw [gen s h1 _ _ (gammaParametersH_2d E h1 s n per.steps d ds cs ce per (S1.lt hc) S1.arr (steps_12_366 per hper) hnd)]
          rfl
        · rw [hex]
          cases hb : stays a scale per with
          | false => rfl
          | true => rw [hdat hb]

/-- the parameters of `scale_values` followed by `pearson_parameters` -/
def fitPearsonVal (E : Ext F) (a : Arr F) (scale ds cs ce : Int) (per : Periodicity) : Res (FitDict F) := do
  let s ← scaleValues a scale per
  let ps ← pearsonParameters (lmomentsFit E) s ds cs ce per
  pure (pearsonDict ps)

theorem fitPearsonH_spec (E : Ext F) (h0 : Heap F) (r : Ref) (a : Arr F) (ha : h0.arr r = a) (hwf : a.WF) (scale ds cs ce : Int) (per : Periodicity) :
    ∃ h', fitPearsonH E r scale ds cs ce per h0 = (fitPearsonVal E a scale ds cs ce per, h') ∧ ∃ ex, h' = h0 ++ ex := by
  unfold fitPearsonH fitPearsonVal
  rcases scaleValuesH_runs h0 r a ha hwf scale per with ⟨e, h', h1, h2, ex, h3⟩ | ⟨b, s, h1, e1, x1, S1⟩
  · rw [H_bind_err h2, h1]; exact ⟨h', rfl, ex, h3⟩
  · rw [H_bind_ok x1, e1, H_get_bind, S1.arr]
    refine ⟨h1, ?_, S1.pre⟩
    show _ = ((do let ps ← pearsonParameters (lmomentsFit E) b ds cs ce per; pure (pearsonDict ps)), h1)
    cases hp : pearsonParameters (lmomentsFit E) b ds cs ce per with
    | error e => rfl
    | ok ps => rfl

/-! ## When precipitation is clipped -/

theorem clips_iff [FloatLaws F] (d : List F) (hd : d ≠ []) : clips d = true ↔ (∀ v ∈ d, v ≠ nan) ∧ ∃ v ∈ d, flt v (lit 0) = true := by
  unfold clips
  by_cases hn : ∀ v ∈ d, v ≠ nan
  · obtain ⟨m, hm, h1, h2⟩ := amin_min d hd hn
    rw [h1]
    simp only
    constructor
    · intro h; exact ⟨hn, m, hm, h⟩
    · rintro ⟨_, v, hv, h⟩
      rw [FloatLaws.flt_iff] at h ⊢
      have hmv := h2 v hv
      refine ⟨FloatLaws.fle_trans _ _ _ hmv h.1, ?_⟩
      by_contra hc
      have hc : fle (lit 0) m = true := by simpa using hc
      have := FloatLaws.fle_trans _ _ _ hc hmv
      rw [h.2] at this; cases this
  · constructor
    · intro h
      exfalso
      obtain ⟨x, xs, rfl⟩ := List.exists_cons_of_ne_nil hd
      have hany : (x :: xs).any isNan = true := by
        push Not at hn
        obtain ⟨v, hv, hvn⟩ := hn
        rw [List.any_eq_true]
        exact ⟨v, hv, (FloatLaws.isNan_iff v).2 hvn⟩
      unfold amin at h
      simp only [hany, if_true] at h
      rw [FloatLaws.flt_iff, FloatLaws.fle_nan_left] at h
      cases h.1
    · intro h; exact absurd h.1 hn

theorem clips_zeroToNan [FloatLaws F] (d : List F) (h : clips d = false) : clips (d.map zeroToNan) = false := by
  rcases d with _ | ⟨x, xs⟩
  · rfl
  cases hc : clips ((x :: xs).map zeroToNan) with
  | false => rfl
  | true =>
    obtain ⟨h1, h2⟩ := (clips_iff _ (by simp)).1 hc
    have e : (x :: xs).map zeroToNan = x :: xs := by
      conv_rhs => rw [← List.map_id (x :: xs)]
      apply List.map_congr_left
      intro v hv
      have := h1 _ (List.mem_map_of_mem hv)
      unfold zeroToNan at this ⊢
      split
      · rename_i hz; rw [if_pos hz] at this; exact absurd rfl this
      · rfl
    rw [e, h] at hc; cases hc

theorem allNan_zeroToNan [FloatLaws F] (d : List F) (h : allNan d = true) : d.map zeroToNan = d := by
  conv_rhs => rw [← List.map_id d]
  apply List.map_congr_left
  intro v hv
  have : v = nan := (FloatLaws.isNan_iff v).1 (List.all_eq_true.1 h v hv)
  subst this
  unfold zeroToNan
  split <;> rfl

/-! ## `eto_thornthwaite` -/

/-- the array is years by 12 or a flat series of whole years -/
def etoWrites (a : Arr F) : Bool := match a.shape with | [_, c] => c == 12 | [n] => n % 12 == 0 | _ => false

theorem etoThornthwaiteH_spec (T : Trig F) (h0 : Heap F) (r : Ref) (a : Arr F) (ha : h0.arr r = a) (hc : r.buf < h0.length) (hwf : a.WF) (lat : F) (y : Int) :
    ∃ res h', etoThornthwaiteH T r lat y h0 = (res, h') ∧ (res.map fun r' => (h'.arr r').data) = etoThornthwaite T a lat y ∧
      ∃ ex, h' = (if etoWrites a then h0.set r.buf (a.data.map zeroNegative) else h0) ++ ex := by
  have S0 : Sim r.buf h0 h0 r a true := Sim.init ha
  unfold etoThornthwaiteH etoThornthwaite
  rw [H_get_bind, ha]
  rcases reshape_runs S0 12 with ⟨e, h', h1, h2, ex, h3⟩ | ⟨b, s, h1, e1, x1, S1⟩
  · rw [H_bind_err h2, h1]
    refine ⟨.error e, h', rfl, rfl, ex, ?_⟩
    have : etoWrites a = false := by
      obtain ⟨sh, d⟩ := a
      unfold etoWrites
      unfold reshapeTo2d at h1
      match sh with
      | [] => rfl
      | [n] => simp only at h1; rw [if_neg (by norm_num)] at h1; split at h1 <;> cases h1
      | [n, c] =>
        simp only at h1 ⊢
        split at h1
        · cases h1
        · simpa using ‹¬ c = 12›
      | _ :: _ :: _ :: _ => rfl
    rw [this]; simpa using h3
  · have hal : (true && noPad a 12) = etoWrites a := by
      obtain ⟨sh, d⟩ := a
      unfold etoWrites noPad
      unfold reshapeTo2d at e1
      match sh with
      | [] => cases e1
      | [n] => simp
      | [n, c] =>
        simp only at e1 ⊢
        split at e1
        · simp [‹c = 12›]
        · cases e1
      | _ :: _ :: _ :: _ => cases e1
    have hdat : etoWrites a = true → b.data = a.data := by
      intro hw
      obtain ⟨sh, d⟩ := a
      unfold etoWrites at hw
      unfold reshapeTo2d at e1
      match sh with
      | [] => cases e1
      | [n] =>
        simp only [beq_iff_eq] at e1 hw
        rw [if_neg (by norm_num), if_neg (by omega)] at e1
        injection e1 with e1; rw [← e1]
      | [n, c] =>
        simp only at e1
        split at e1
        · injection e1 with e1; rw [← e1]
        · cases e1
      | _ :: _ :: _ :: _ => cases e1
    rw [H_bind_ok x1, H_get_bind, S1.arr, e1]
    have hput : putData s (b.data.map zeroNegative) h1 = (.ok (), h1.set s.buf (b.data.map zeroNegative)) := rfl
    rw [H_bind_ok hput, H_get_bind, heap_set_arr _ _ _ (S1.lt hc)]
    obtain ⟨ex, hex⟩ := S1.set hc (b.data.map zeroNegative)
    rw [hal] at hex
    have hbase : (if etoWrites a then h0.set r.buf (a.data.map zeroNegative) else h0) = (if etoWrites a then h0.set r.buf (b.data.map zeroNegative) else h0) := by
      cases hb : etoWrites a with
      | false => rfl
      | true => rw [hdat hb]
    rw [hbase]
    simp only [bind, Except.bind, pure, Except.pure, H.bind, liftRes]
    cases monthlyMeanDaylight T (radians T lat) false with
    | error e => exact ⟨_, _, rfl, rfl, ex, hex⟩
    | ok dlN =>
      simp only
      cases monthlyMeanDaylight T (radians T lat) true with
      | error e => exact ⟨_, _, rfl, rfl, ex, hex⟩
      | ok dlL =>
        refine ⟨_, _, rfl, ?_, ex ++ [_], by simp only [hex, List.append_assoc]; rfl⟩
        show Except.ok _ = Except.ok _
        unfold Heap.arr; simp [Arr.of1d]

theorem petH_spec (T : Trig F) (h0 : Heap F) (r : Ref) (a : Arr F) (ha : h0.arr r = a) (hc : r.buf < h0.length) (hwf : a.WF) (lat : Option F) (y : Int) :
    ∃ res h', petH T r lat y h0 = (res, h') ∧ (res.map fun r' => (h'.arr r').data) = pet T a lat y ∧
      ((∃ ex, h' = h0 ++ ex) ∨ etoWrites a = true ∧ ∃ ex, h' = h0.set r.buf (a.data.map zeroNegative) ++ ex) := by
  unfold petH pet
  rw [H_get_bind, ha]
  cases hn : allNan a.data with
  | true => exact ⟨.ok r, h0, rfl, by rw [← ha]; rfl, Or.inl ⟨[], by simp⟩⟩
  | false =>
    simp only [Bool.false_eq_true, if_false]
    cases lat with
    | none => exact ⟨_, h0, rfl, rfl, Or.inl ⟨[], by simp⟩⟩
    | some x =>
      simp only
      split
      · obtain ⟨res, h', h1, h2, ex, h3⟩ := etoThornthwaiteH_spec T h0 r a ha hc hwf x y
        refine ⟨res, h', h1, h2, ?_⟩
        cases hw : etoWrites a with
        | true => rw [hw] at h3; exact Or.inr ⟨rfl, ex, by simpa using h3⟩
        | false => rw [hw] at h3; exact Or.inl ⟨ex, by simpa using h3⟩
      · exact ⟨_, h0, rfl, rfl, Or.inl ⟨[], by simp⟩⟩

end CI
