import Verif.Props.SpiMono

/-!
# C20, C21, C27: SPEI input, fitting-parameter dictionaries, Pearson parameter arrays
-/

namespace CI.Props

variable {F : Type} [FloatOps F] [FloatLaws F]

/-! ## C20 -/

/-- **C20.** `spei` depends only on `precips - pet`: two pairs of non-negative precipitation (with at least one number) and
PET with the same element-wise difference give the same result, for all other arguments. -/
theorem C20_difference (E : Ext F) (p1 pet1 p2 pet2 : Arr F) (scale : Int) (dist : Distribution) (per : Periodicity)
    (ds cs ce : Int) (fp : Option (FitDict F))
    (h1 : ∃ v ∈ p1.data, isNan v = false) (h2 : ∃ v ∈ p2.data, isNan v = false)
    (n1 : ∀ v ∈ p1.data, flt v (lit 0) = false) (n2 : ∀ v ∈ p2.data, flt v (lit 0) = false)
    (s1 : p1.data.length = pet1.data.length) (s2 : p2.data.length = pet2.data.length)
    (hd : List.zipWith (· - ·) p1.data pet1.data = List.zipWith (· - ·) p2.data pet2.data) :
    spei E p1 pet1 scale dist per ds cs ce fp = spei E p2 pet2 scale dist per ds cs ce fp := by
  have hlen : p1.data.length = p2.data.length := by
    have := congrArg List.length hd
    simp only [List.length_zipWith] at this
    omega
  have clip : ∀ x : List F, (∀ v ∈ x, flt v (lit 0) = false) → ∀ m, amin x = .ok m →
      (if flt m (lit 0) then x.map (npClipMin (lit 0)) else x) = x := by
    intro x hx m hm
    have := clipNeg_id x hx
    unfold clipNeg at this; rw [hm] at this; exact this
  have hz : ∀ a b : List F, List.zipWith (fun a b => (a - b) + lit 1000) a b =
      (List.zipWith (· - ·) a b).map (· + lit 1000) := by
    intro a b; rw [List.map_zipWith]
  have a1 := allNan_false h1
  have a2 := allNan_false h2
  obtain ⟨m1, hm1⟩ := amin_ok _ (ne_nil_of_allNan _ a1)
  obtain ⟨m2, hm2⟩ := amin_ok _ (ne_nil_of_allNan _ a2)
  unfold spei
  simp only [a1, a2, Bool.false_eq_true, if_false, s1, s2, ne_eq, not_true_eq_false, bind, Except.bind, hm1, hm2,
    clip _ n1 _ hm1, clip _ n2 _ hm2, hz, hd]
  rw [← s1, ← s2, hlen]

omit [FloatLaws F] in
/-- **C20.** Arrays of different sizes raise ValueError (if precipitation is not entirely missing). -/
theorem C20_size (E : Ext F) (p pet : Arr F) (scale : Int) (dist : Distribution) (per : Periodicity)
    (ds cs ce : Int) (fp : Option (FitDict F)) (h : ∃ v ∈ p.data, isNan v = false)
    (hs : p.data.length ≠ pet.data.length) : spei E p pet scale dist per ds cs ce fp = .error .valueError := by
  unfold spei
  simp [allNan_false h, hs]

omit [FloatLaws F] in
/-- **C20.** Entirely missing precipitation is returned as it is. -/
theorem C20_missing (E : Ext F) (p pet : Arr F) (scale : Int) (dist : Distribution) (per : Periodicity)
    (ds cs ce : Int) (fp : Option (FitDict F)) (h : ∀ v ∈ p.data, isNan v = true) :
    spei E p pet scale dist per ds cs ce fp = .ok p := by
  unfold spei
  have : allNan p.data = true := by unfold allNan; rw [List.all_eq_true]; exact h
  simp [this]

/-- `five1` and a PET of 3, against `five1 + 4` and a PET of 7 -/
example : List.zipWith (· - ·) five1 (List.replicate 60 (Fl.fin (3 : ℚ))) =
      List.zipWith (· - ·) (five1.map (· + .fin 4)) (List.replicate 60 (Fl.fin (7 : ℚ))) ∧
    (∀ v ∈ five1, flt v (lit 0) = false) ∧
    okAnd (spei toyExt (Arr.of1d five1) (Arr.of1d (List.replicate 60 (.fin 3))) 2 .gamma .monthly 1990 1990 1994 none)
      (fun o => decide (o.data.length = 60)) = true := by decide +kernel

/-! ## C21 -/

omit [FloatOps F] [FloatLaws F] in
theorem lookup_rename (d : FitDict F) (f : String → String) (old new : String) (hf : ∀ k, f k = new → k = old ∨ k = new)
    (hold : f old = new) (hnew : d.lookup new = none) : (d.map (fun e => (f e.1, e.2))).lookup new = d.lookup old := by
  induction d with
  | nil => rfl
  | cons e d ih =>
    obtain ⟨k, v⟩ := e
    rw [List.lookup_cons] at hnew
    have hk : (new == k) = false := by
      cases h : (new == k) with
      | true => rw [h] at hnew; cases hnew
      | false => rfl
    rw [hk] at hnew
    rw [List.map_cons, List.lookup_cons, List.lookup_cons, ih hnew]
    by_cases hko : old = k
    · subst hko; simp [hold]
    · have h1 : (old == k) = false := by simpa using hko
      have h2 : (new == f k) = false := by
        simp only [beq_eq_false_iff_ne, ne_eq]
        intro hc
        rcases hf k hc.symm with h | h
        · exact hko h.symm
        · subst h; simp at hk
      rw [h1, h2]

/-- new name of a deprecated key; other keys keep their name -/
def newKey (k : String) : String :=
  if k = "alphas" then "alpha" else if k = "betas" then "beta" else if k = "skews" then "skew"
  else if k = "scales" then "scale" else if k = "locs" then "loc"
  else if k = "probabilities_of_zero" then "prob_zero" else k

def oldKeys : List String := ["alphas", "betas", "skews", "scales", "locs", "probabilities_of_zero"]

theorem newKey_spec (k : String) : (newKey k = k ∧ k ∉ oldKeys) ∨ (newKey k, k) ∈ fitAltnames := by
  by_cases h : k ∈ oldKeys
  · right
    revert k; decide
  · left
    refine ⟨?_, h⟩
    simp only [oldKeys, List.mem_cons, List.not_mem_nil, or_false, not_or] at h
    unfold newKey
    rw [if_neg h.1, if_neg h.2.1, if_neg h.2.2.1, if_neg h.2.2.2.1, if_neg h.2.2.2.2.1, if_neg h.2.2.2.2.2]

theorem newKey_not_old (k : String) : newKey k ∉ oldKeys := by
  rcases newKey_spec k with ⟨h1, h2⟩ | h
  · rw [h1]; exact h2
  · have : ∀ q ∈ fitAltnames, q.1 ∉ oldKeys := by decide
    exact this _ h

omit [FloatLaws F] in
/-- **C21.** A dictionary that uses old keys only means the same to `spei` as the dictionary with the keys renamed
(arrays as values; for `None` values see `C21_fails_none`). -/
theorem C21_old_keys (E : Ext F) (p pet : Arr F) (scale : Int) (dist : Distribution) (per : Periodicity)
    (ds cs ce : Int) (d : FitDict F)
    (hnew : ∀ e ∈ d, e.1 ∉ ["alpha", "beta", "skew", "scale", "loc", "prob_zero"])
    (hval : ∀ e ∈ d, e.2 ≠ none) :
    spei E p pet scale dist per ds cs ce (some d) =
      spei E p pet scale dist per ds cs ce (some (d.map (fun e => (newKey e.1, e.2)))) := by
  have hl : ∀ k, k ∈ ["alpha", "beta", "skew", "scale", "loc", "prob_zero"] → d.lookup k = none := by
    intro k hk
    rw [List.lookup_eq_none_iff]
    intro e he
    have := hnew e he
    rw [bne_iff_ne]
    intro hc; rw [← hc] at this; exact this hk
  have hsome : ∀ k v, d.lookup k = some v → v ≠ none := by
    intro k v hkv
    rw [List.lookup_eq_some_iff] at hkv
    obtain ⟨l1, l2, rfl, _⟩ := hkv
    exact hval (k, v) (by simp)
  have hsome' : ∀ k v, (d.map (fun e => (newKey e.1, e.2))).lookup k = some v → v ≠ none := by
    intro k v hkv
    rw [List.lookup_eq_some_iff] at hkv
    obtain ⟨l1, l2, hd, _⟩ := hkv
    have : (k, v) ∈ d.map (fun e => (newKey e.1, e.2)) := by rw [hd]; simp
    obtain ⟨e, he, heq⟩ := List.mem_map.1 this
    cases heq
    exact hval e he
  have hr : ∀ q ∈ fitAltnames, (d.map (fun e => (newKey e.1, e.2))).lookup q.1 = d.lookup q.2 := by
    intro q hq
    have hmem : q.1 ∈ ["alpha", "beta", "skew", "scale", "loc", "prob_zero"] := by
      revert q; decide
    refine lookup_rename d newKey q.2 q.1 ?_ ?_ (hl _ hmem)
    · intro k hk
      rcases newKey_spec k with ⟨h1, _⟩ | h
      · right; rw [← h1, hk]
      · left
        have : ∀ q ∈ fitAltnames, ∀ q' ∈ fitAltnames, q.1 = q'.1 → q.2 = q'.2 := by decide
        exact this _ h _ hq hk
    · revert q; decide
  have hn : normFitdict (some d) = normFitdict (some (d.map (fun e => (newKey e.1, e.2)))) := by
    unfold normFitdict
    simp only [Option.map_some, Option.some.injEq]
    apply List.filterMap_congr
    intro q hq
    have hmem : q.1 ∈ ["alpha", "beta", "skew", "scale", "loc", "prob_zero"] := by
      revert q; decide
    obtain ⟨name, alt⟩ := q
    have h1 := hl name hmem
    have h2 := hr _ hq
    simp only at h1 h2 ⊢
    rw [h1, h2]
    simp only
    cases hd : d.lookup alt with
    | none =>
      simp only
      have : (d.map (fun e => (newKey e.1, e.2))).lookup alt = none := by
        rw [List.lookup_eq_none_iff]
        intro e he
        obtain ⟨e', he', rfl⟩ := List.mem_map.1 he
        rw [bne_iff_ne]
        intro hc
        have halt : ∀ q ∈ fitAltnames, q.2 ∈ oldKeys := by decide
        have := halt _ hq
        simp only at this
        rw [hc] at this
        exact newKey_not_old _ this
      rw [this]
    | some v =>
      have hv := hsome _ _ hd
      cases v with
      | none => exact absurd rfl hv
      | some v => rfl
  unfold spei
  rw [hn]

omit [FloatLaws F] in
/-- **C21.** When both the new key (with an array) and the old key are present, the new one is used: the old entry may be
anything. -/
theorem C21_new_wins (E : Ext F) (p pet : Arr F) (scale : Int) (dist : Distribution) (per : Periodicity)
    (ds cs ce : Int) (alpha beta : List F) (x y : Option (List F)) :
    spei E p pet scale dist per ds cs ce (some [("alphas", x), ("alpha", some alpha), ("beta", some beta), ("betas", y)]) =
      spei E p pet scale dist per ds cs ce (some [("alpha", some alpha), ("beta", some beta)]) := by
  have : normFitdict (some [("alphas", x), ("alpha", some alpha), ("beta", some beta), ("betas", y)]) =
      normFitdict (some [("alpha", some alpha), ("beta", some beta)]) := by
    rfl
  unfold spei
  rw [this]

omit [FloatOps F] [FloatLaws F] in
/-- **C21.** The normalised dictionary holds the value of the new key whenever that is an array, else that of the old key. -/
theorem C21_lookup (d : FitDict F) (name alt : String) (h : (name, alt) ∈ fitAltnames) (n : FitDict F)
    (hn : normFitdict (some d) = some n) :
    n.lookup name = match d.lookup name with | some (some v) => some (some v) | _ => d.lookup alt := by
  unfold normFitdict at hn
  simp only [Option.map_some, Option.some.injEq] at hn
  subst hn
  have key : ∀ (l : List (String × String)), (l.map Prod.fst).Nodup → (name, alt) ∈ l →
      (l.filterMap (fun (name, altname) =>
        match d.lookup name with
        | some (some v) => some (name, some v)
        | _ =>
          match d.lookup altname with
          | some v => some (name, v)
          | none => none)).lookup name =
        match d.lookup name with | some (some v) => some (some v) | _ => d.lookup alt := by
    intro l
    induction l with
    | nil => intro _ hm; simp at hm
    | cons e l ih =>
      intro hnd hm
      obtain ⟨a, b⟩ := e
      simp only [List.map_cons, List.nodup_cons] at hnd
      have hnone : ∀ (l : List (String × String)), a ∉ l.map Prod.fst → (l.filterMap (fun (name, altname) =>
        match d.lookup name with
        | some (some v) => some (name, some v)
        | _ =>
          match d.lookup altname with
          | some v => some (name, v)
          | none => none)).lookup a = none := by
        intro l hl
        rw [List.lookup_eq_none_iff]
        intro e he
        obtain ⟨e', he', hv⟩ := List.mem_filterMap.1 he
        have h1 : e.1 = e'.1 := by
          obtain ⟨x, y⟩ := e'
          simp only at hv
          split at hv
          · cases hv; rfl
          · split at hv
            · cases hv; rfl
            · cases hv
        rw [bne_iff_ne]
        intro hc
        exact hl (List.mem_map.2 ⟨e', he', by rw [← h1, hc]⟩)
      rw [List.filterMap_cons]
      rcases List.mem_cons.1 hm with heq | hm'
      · cases heq
        simp only
        cases hd : d.lookup name with
        | none =>
          simp only
          cases ha : d.lookup alt with
          | none => simp only; exact hnone l hnd.1
          | some v => simp [List.lookup]
        | some v =>
          cases v with
          | some v => simp [List.lookup]
          | none =>
            simp only
            cases ha : d.lookup alt with
            | none => simp only; exact hnone l hnd.1
            | some v => simp [List.lookup]
      · have hne : (name == a) = false := by
          simp only [beq_eq_false_iff_ne, ne_eq]
          intro hc; subst hc
          exact hnd.1 (List.mem_map.2 ⟨(name, alt), hm', rfl⟩)
        have ih' := ih hnd.2 hm'
        simp only
        split
        · rename_i heq
          exact ih'
        · rename_i e heq
          have he : e.1 = a := by
            split at heq
            · cases heq; rfl
            · split at heq
              · cases heq; rfl
              · cases heq
          obtain ⟨e1, e2⟩ := e
          simp only at he
          subst he
          rw [List.lookup_cons, hne]
          exact ih'
  exact key fitAltnames (by decide) h

/-- **C21 is false for `None` entries**: `{"alphas": None, "betas": None}` makes `spei` fit the parameters, but
`{"alpha": None, "beta": None}` raises KeyError. -/
theorem C21_fails_none :
    spei toyExt (Arr.of1d five1) (Arr.of1d (List.replicate 60 (.fin 3))) 1 .gamma .monthly 1990 1990 1994
      (some [("alpha", none), ("beta", none)]) = .error .keyError ∧
    okAnd (spei toyExt (Arr.of1d five1) (Arr.of1d (List.replicate 60 (.fin 3))) 1 .gamma .monthly 1990 1990 1994
      (some [("alphas", none), ("betas", none)])) (fun o => decide (o.data.length = 60)) = true := by decide +kernel

/-- **C21 is false for `spi`**: it does not normalise the dictionary, old keys raise KeyError. -/
theorem C21_fails_spi :
    spi toyExt (Arr.of1d five1) 1 .gamma 1990 1990 1994 .monthly (some [("alphas", some [.fin 2]), ("betas", some [.fin 3])])
      = .error .keyError ∧
    okAnd (spi toyExt (Arr.of1d five1) 1 .gamma 1990 1990 1994 .monthly (some [("alpha", some [.fin 2]), ("beta", some [.fin 3])]))
      (fun o => decide (o.length = 60)) = true := by decide +kernel

omit [FloatOps F] [FloatLaws F] in
/-- **C21.** Normalising twice changes nothing (dictionaries without `None`). -/
theorem C21_idempotent (d : FitDict F) (hval : ∀ e ∈ d, e.2 ≠ none) :
    normFitdict (normFitdict (some d)) = normFitdict (some d) := by
  obtain ⟨n, hn⟩ : ∃ n, normFitdict (some d) = some n := ⟨_, rfl⟩
  rw [hn]
  have hL := fun name alt h => C21_lookup d name alt h n hn
  have hsome : ∀ k v, d.lookup k = some v → v ≠ none := by
    intro k v hkv
    rw [List.lookup_eq_some_iff] at hkv
    obtain ⟨l1, l2, rfl, _⟩ := hkv
    exact hval (k, v) (by simp)
  rw [← hn]
  conv_lhs => rw [hn]
  unfold normFitdict
  simp only [Option.map_some, Option.some.injEq]
  have halt : ∀ q ∈ fitAltnames, n.lookup q.2 = none := by
    intro q hq
    have hn' := hn
    unfold normFitdict at hn'
    simp only [Option.map_some, Option.some.injEq] at hn'
    rw [List.lookup_eq_none_iff]
    intro e he
    rw [← hn'] at he
    obtain ⟨e', he', hv⟩ := List.mem_filterMap.1 he
    have h1 : e.1 = e'.1 := by
      obtain ⟨x, y⟩ := e'
      simp only at hv
      split at hv
      · cases hv; rfl
      · split at hv
        · cases hv; rfl
        · cases hv
    rw [h1]
    have : ∀ q ∈ fitAltnames, ∀ e' ∈ fitAltnames, (q.2 != e'.1) = true := by decide
    exact this q hq e' he'
  apply List.filterMap_congr
  intro q hq
  obtain ⟨name, alt⟩ := q
  have h1 := hL name alt hq
  have h2 := halt _ hq
  simp only at h2 ⊢
  rw [h1, h2]
  cases hd : d.lookup name with
  | none =>
    simp only
    cases ha : d.lookup alt with
    | none => rfl
    | some v =>
      cases v with
      | none => exact absurd rfl (hsome _ _ ha)
      | some v => rfl
  | some v =>
    cases v with
    | none => exact absurd rfl (hsome _ _ hd)
    | some v => rfl

example : okAnd (spei toyExt (Arr.of1d five1) (Arr.of1d (List.replicate 60 (.fin 3))) 1 .gamma .monthly 1990 1990 1994
    (some [("alphas", some [.fin 2]), ("betas", some [.fin 3])])) (fun o => decide (o.data.length = 60)) = true := by
  decide +kernel

/-! ## C27 -/

omit [FloatLaws F] in
/-- **C27.** Some but not all of the four parameter arrays given: ValueError, whatever the data. -/
theorem C27_some (E : Ext F) (values : Arr F) (ds cs ce : Int) (per : Periodicity) (args : PearsonArgs F)
    (hsome : ¬(args.probZeros = none ∧ args.locs = none ∧ args.scales = none ∧ args.skews = none))
    (hnone : args.probZeros = none ∨ args.locs = none ∨ args.scales = none ∨ args.skews = none) :
    transformFittedPearson E (lmomentsFit E) values ds cs ce per args = .error .valueError := by
  obtain ⟨a, b, c, d⟩ := args
  unfold transformFittedPearson
  simp only at hsome hnone ⊢
  cases a <;> cases b <;> cases c <;> cases d <;> simp_all

example : transformFittedPearson toyExt (lmomentsFit toyExt) ⟨[5, 12], five1⟩ 1990 1990 1994 .monthly
    ⟨some [.fin 0], none, some [.fin 1], some [.fin 1]⟩ = .error .valueError := by decide +kernel

omit [FloatLaws F] in
/-- **C27.** None given: the transform is the one with the parameters computed by `pearson_parameters` for the same data
and calibration years (data: years x calendar steps, with at least one number). -/
theorem C27_none (E : Ext F) (n : Nat) (data : List F) (ds cs ce : Int) (per : Periodicity)
    (ps : List (PearsonParams F)) (hper : per ≠ .other) (hn : ∃ v ∈ data, isNan v = false)
    (hp : pearsonParameters (lmomentsFit E) ⟨[n, per.steps], data⟩ ds cs ce per = .ok ps) :
    transformFittedPearson E (lmomentsFit E) ⟨[n, per.steps], data⟩ ds cs ce per ⟨none, none, none, none⟩ =
      transformFittedPearson E (lmomentsFit E) ⟨[n, per.steps], data⟩ ds cs ce per
        ⟨some (ps.map PearsonParams.probZero), some (ps.map PearsonParams.loc),
          some (ps.map PearsonParams.scale), some (ps.map PearsonParams.skew)⟩ := by
  have hnd := allNan_false hn
  rw [pearsonParameters_2d _ n _ data ds cs ce per hper rfl] at hp
  have hl := pearsonFits_length _ _ _ _ _ _ _ _ hp
  rw [transformFittedPearson_given E _ n _ data ds cs ce per _ _ _ _ _ _ _ _ (steps_12_366 per hper) hnd
      (bcast_length _ _ (by rw [List.length_map, hl])) (bcast_length _ _ (by rw [List.length_map, hl]))
      (bcast_length _ _ (by rw [List.length_map, hl])) (bcast_length _ _ (by rw [List.length_map, hl])),
    zipParams_map, transformFittedPearson_fit E _ n _ data ds cs ce per hper rfl hnd, hp]

/-- **C27.** All given (one entry per calendar step): every value is transformed with exactly the given parameters of its
calendar step; the calibration years and the fitting routine have no influence. -/
theorem C27_all (E : Ext F) (hE : ExtNan E) (fit : List F → Res (F × F × F)) (n : Nat) (data : List F)
    (ds cs ce : Int) (per : Periodicity) (p0 loc scale skew : List F) (hper : per ≠ .other)
    (hlen : data.length = n * per.steps) (hn : ∃ v ∈ data, isNan v = false)
    (l1 : p0.length = per.steps) (l2 : loc.length = per.steps) (l3 : scale.length = per.steps)
    (l4 : skew.length = per.steps) :
    ∃ t, transformFittedPearson E fit ⟨[n, per.steps], data⟩ ds cs ce per
        ⟨some p0, some loc, some scale, some skew⟩ = .ok t ∧ t.shape = [n, per.steps] ∧ t.data.length = data.length ∧
      ∀ i x a b c d, data[i]? = some x → p0[i % per.steps]? = some a → loc[i % per.steps]? = some b →
        scale[i % per.steps]? = some c → skew[i % per.steps]? = some d →
        t.data[i]? = some (E.normPpf (npClip (lit 0) (lit 1) (a + (lit 1 - a) * pearsonProb1 E ⟨a, b, c, d⟩ x))) := by
  have hnd := allNan_false hn
  have ht := transformFittedPearson_given E fit n _ data ds cs ce per p0 loc scale skew p0 loc scale skew
    (steps_12_366 per hper) hnd (bcast_length _ _ l1) (bcast_length _ _ l2) (bcast_length _ _ l3) (bcast_length _ _ l4)
  refine ⟨_, ht, rfl, ?_, ?_⟩
  · apply pearsonFit_length
    rw [tile_length, zipParams_length _ _ _ _ _ l1 l2 l3 l4, hlen]
  · intro i x a b c d hx ha hb hc hd
    have hm : i % per.steps < per.steps := Nat.mod_lt _ (steps_pos per hper)
    rcases pearson_value E hE fit n data ds cs ce per _ _ hper hlen ht i x hx with ⟨h1, _⟩ | ⟨q, hq, hv⟩
    · rw [hnd] at h1; cases h1
    · rw [hv]
      simp only [pearsonParamAt, Option.some.injEq] at hq
      rw [← hq]
      unfold bcastAt
      simp only [l1, l2, l3, l4, if_true, List.getD, ha, hb, hc, hd, Option.getD_some]
      rfl

example : okAnd (transformFittedPearson toyExt (lmomentsFit toyExt) ⟨[5, 12], five1⟩ 1990 1990 1994 .monthly
    ⟨some (List.replicate 12 (.fin 0)), some (List.replicate 12 (.fin 5)), some (List.replicate 12 (.fin 1)),
     some (List.replicate 12 (.fin 1))⟩) (fun t => decide (t.data.length = 60 ∧ t.data[3]? ≠ t.data[1]?)) = true := by
  decide +kernel

end CI.Props
