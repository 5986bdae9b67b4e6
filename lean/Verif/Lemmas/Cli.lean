import Verif.Model.Cli
import Verif.Spec.Cli
import Verif.Lemmas.Parallel

/-!
# Lemmas about the model of the command line tools
-/

namespace CI

/-! ## The state monad -/

theorem SE.bind_ok {σ α β : Type} {x : SE σ α} {f : α → SE σ β} {s s'' : σ} {b : β} (h : (x >>= f) s = (.ok b, s'')) :
    ∃ a s', x s = (.ok a, s') ∧ f a s' = (.ok b, s'') := by
  have h' : SE.bind x f s = (.ok b, s'') := h
  unfold SE.bind at h'
  split at h'
  · next a s' hx => exact ⟨a, s', hx, h'⟩
  · cases h'

theorem SE.bind_run {σ α β : Type} (x : SE σ α) (f : α → SE σ β) (s s' : σ) (a : α) (h : x s = (.ok a, s')) : (x >>= f) s = f a s' := by
  show SE.bind x f s = _
  unfold SE.bind
  rw [h]

theorem SE.pure_run {σ α : Type} (a : α) (s : σ) : (pure a : SE σ α) s = (.ok a, s) := rfl

theorem SE.lift_ok {σ α : Type} {x : Res α} {s s' : σ} {a : α} (h : SE.lift x s = (.ok a, s')) : x = .ok a ∧ s' = s := by
  simp only [SE.lift, Prod.mk.injEq] at h
  exact ⟨h.1, h.2.symm⟩

theorem Res.bind_ok {α β : Type} {x : Res α} {f : α → Res β} {b : β} (h : (x >>= f) = .ok b) : ∃ a, x = .ok a ∧ f a = .ok b := by
  cases x with
  | error e => simp [bind, Except.bind] at h
  | ok a => exact ⟨a, rfl, h⟩

/-! ## Chunks overwrite everything -/

/-- chunks that follow each other from row `a` on, the last one without end -/
def ChainFrom : Nat → List (Nat × Option Nat) → Prop
  | _, [] => False
  | a, (b, none) :: cs => a = b ∧ cs = []
  | a, (b, some c) :: cs => a = b ∧ b ≤ c ∧ ChainFrom c cs

theorem chain_regular_aux (n w : Nat) (k a : Nat) (hk : a + k = w) (hk0 : 0 < k) :
    ChainFrom (gIdx (n / w) (n % w) a) ((List.range' a k).map (fun i => (gIdx (n / w) (n % w) i, if i < w - 1 then some (gIdx (n / w) (n % w) (i + 1)) else none))) := by
  induction k generalizing a with
  | zero => omega
  | succ k ih =>
    rw [List.range'_succ, List.map_cons]
    by_cases h : a < w - 1
    · rw [if_pos h]
      exact ⟨rfl, gIdx_mono _ _ _, ih (a + 1) (by omega) (by omega)⟩
    · rw [if_neg h]
      have : k = 0 := by omega
      subst this
      exact ⟨rfl, rfl⟩

theorem chain_regular (n w : Nat) (hw : 0 < w) : ChainFrom 0 (regularChunks n w) := by
  have := chain_regular_aux n w w 0 (by omega) hw
  simpa [regularChunks, gIdx, List.range_eq_range'] using this

/-- the result of writing all chunks does not depend on what was in the output array before -/
theorem applyChunks_indep {ρ σ : Type} (g : List ρ → Res (List σ)) (hg : ∀ l o, g l = .ok o → o.length = l.length) (rows : List ρ) (cs : List (Nat × Option Nat)) :
    ∀ (a : Nat) (o o' : List σ), ChainFrom a cs → o.length = rows.length → o'.length = rows.length → o.take a = o'.take a →
      applyChunks g rows cs o = applyChunks g rows cs o' ∧ ∀ r, applyChunks g rows cs o = .ok r → r.length = rows.length := by
  induction cs with
  | nil => intro a o o' h; exact h.elim
  | cons c cs ih =>
    obtain ⟨b, e⟩ := c
    intro a o o' h ho ho' ht
    cases e with
    | none =>
      obtain ⟨rfl, rfl⟩ := h
      simp only [applyChunks, Option.getD_none]
      cases hx : g ((rows.take rows.length).drop a) with
      | error e => simp [bind, Except.bind]
      | ok new =>
        simp only [bind, Except.bind, ht, List.drop_length, Except.ok.injEq, true_and]
        rintro r rfl
        have := hg _ _ hx
        simp at this
        simp [this]
        omega
    | some e =>
      obtain ⟨rfl, hbe, hc⟩ := h
      simp only [applyChunks, Option.getD_some]
      cases hx : g ((rows.take e).drop a) with
      | error e => simp [bind, Except.bind]
      | ok new =>
        simp only [bind, Except.bind]
        have hl := hg _ _ hx
        simp only [List.length_drop, List.length_take] at hl
        refine ih e _ _ hc ?_ ?_ ?_
        · simp [hl, ho]; omega
        · simp [hl, ho']; omega
        · rw [← ht]
          by_cases hr : e ≤ rows.length
          · have hlen : (o.take a ++ new).length = e := by simp [hl, ho]; omega
            rw [List.take_append_of_le_length (l₁ := o.take a ++ new) (by omega), List.take_append_of_le_length (l₁ := o.take a ++ new) (by omega)]
          · rw [List.drop_of_length_le (by omega), List.drop_of_length_le (by omega)]

/-! ## What a finished computation writes -/

section
variable {F : Type} [FloatOps F]
variable (K : Int → Job → List F → List F → Res (List F)) (wk : Nat) (lower : String → String) (yearOf : F → Int)

theorem outputFile_ok {d : NcFile F} {ds : Int} {like : NcVar F} {j : Job} {shape : List Nat} {out : List F} {r : String × String × NcFile F}
    (h : outputFile d ds like j shape out = .ok r) :
    ∃ name v, variableName j = .ok name ∧ outputValues j.periodicity ds (like.shape.getLastD 0) shape out = .ok v ∧ v.shape = like.shape ∧
      r = (j.base ++ "_" ++ name ++ ".nc", name, coordsOf d ++ [(name, ⟨like.dims, like.shape, outputUnits j, v.data⟩)]) := by
  unfold outputFile at h
  obtain ⟨name, hn, h⟩ := Res.bind_ok h
  obtain ⟨v, hv, h⟩ := Res.bind_ok h
  refine ⟨name, v, hn, hv, ?_⟩
  split at h
  · next hs =>
    simp only [pure, Except.pure, Except.ok.injEq] at h
    exact ⟨hs, by rw [← h, hs]⟩
  · cases h

omit [FloatOps F] in
theorem computePalmers_error (w : World F) (j : Job) (r : String × String) : computePalmers w j ≠ .ok r := by
  intro h
  unfold computePalmers at h
  obtain ⟨f, _, h⟩ := Res.bind_ok h
  obtain ⟨d, _, h⟩ := Res.bind_ok h
  obtain ⟨x, _, h⟩ := Res.bind_ok h
  cases h

theorem cwi_ok {j : Job} {w w' : World F} {r : String × String} (h : computeWriteIndex K wk lower yearOf j w = (.ok r, w')) :
    j.index ≠ "palmers" ∧ ∃ name, variableName j = .ok name ∧ r = (j.base ++ "_" ++ name ++ ".nc", name) ∧ w'.written = w.written ++ [r] := by
  unfold computeWriteIndex at h
  split at h
  · cases h
  · next d ds like sh shape hl =>
    split at h
    · simp only [Prod.mk.injEq] at h
      exact absurd h.1 (computePalmers_error w j r)
    · next hp =>
      refine ⟨hp, ?_⟩
      simp only [] at h
      split at h
      · cases h
      · next out ho =>
        split at h
        · cases h
        · next file name new hf =>
          obtain ⟨nm, _, h1, _, _, h2⟩ := outputFile_ok hf
          simp only [Prod.mk.injEq] at h2
          obtain ⟨rfl, rfl, rfl⟩ := h2
          cases h
          exact ⟨_, h1, rfl, rfl⟩

/-- file and variable written for a job -/
def jobOut (j : Job) : String × String :=
  match variableName j with
  | .ok name => (j.base ++ "_" ++ name ++ ".nc", name)
  | .error _ => ("", "")

theorem runJobs_ok (js : List Job) : ∀ {w w' : World F}, runJobs K wk lower yearOf js w = (.ok (), w') →
    w'.written = w.written ++ js.map jobOut ∧ ∀ j ∈ js, j.index ≠ "palmers" := by
  induction js with
  | nil => intro w w' h; cases h; simp
  | cons j js ih =>
    intro w w' h
    unfold runJobs at h
    obtain ⟨r, w1, h1, h2⟩ := SE.bind_ok h
    obtain ⟨hp, name, hn, rfl, hw⟩ := cwi_ok K wk lower yearOf h1
    obtain ⟨h3, h4⟩ := ih h2
    refine ⟨?_, ?_⟩
    · rw [h3, hw]
      simp [jobOut, hn]
    · intro j' hj'
      rcases List.mem_cons.1 hj' with rfl | h5
      · exact hp
      · exact h4 _ h5

end

/-! ## Names -/

open Spec in
theorem twoDigits_decode (n : Nat) : Nat.ofDigitChars 10 (twoDigits n).toList 0 = n := by
  unfold twoDigits
  split
  · rw [String.toList_append, Nat.toString_eq_repr, Nat.toList_repr]
    have : ("0" : String).toList = ['0'] := rfl
    rw [this, List.singleton_append, Nat.ofDigitChars_cons]
    exact Nat.ofDigitChars_ten_toDigits
  · rw [Nat.toString_eq_repr, Nat.toList_repr]
    exact Nat.ofDigitChars_ten_toDigits

open Spec in
theorem twoDigits_inj {n m : Nat} (h : twoDigits n = twoDigits m) : n = m := by
  rw [← twoDigits_decode n, h, twoDigits_decode]

open Spec in
theorem zfill2_twoDigits (n : Nat) : zfill2 (n : Int) = twoDigits n := by
  have h1 : toString (n : Int) = toString n := String.toByteArray_inj.mp rfl
  have h2 : (toString n).length < 2 ↔ n < 10 := by
    rw [← String.length_toList, Nat.toString_eq_repr, Nat.toList_repr]
    have := Nat.length_toDigits_le_iff (b := 10) (n := n) (k := 1) (by omega) (by omega)
    rw [show (Nat.toDigits 10 n).length < 2 ↔ (Nat.toDigits 10 n).length ≤ 1 by omega, this]
  unfold zfill2 twoDigits
  simp only [h1]
  by_cases h : n < 10
  · rw [if_pos h, if_pos (h2.2 h)]
  · rw [if_neg h, if_neg (fun h' => h (h2.1 h'))]

open Spec in
theorem output_name_inj {x y : Output} (h : x.name = y.name) : x = y := by
  have ht := congrArg String.toList h
  rcases x with ⟨d, n⟩ | ⟨d, n⟩ | n | _ <;> rcases y with ⟨d', n'⟩ | ⟨d', n'⟩ | n' | _ <;>
    (try cases d) <;> (try cases d') <;>
    first
    | rfl
    | (exfalso; simp [Output.name, distName, String.toList_append] at ht; done)
    | (simp only [Output.name, distName, String.append_right_inj] at h; rw [twoDigits_inj h])

/-! ## The sequence of computations -/

section
variable {F : Type} [FloatOps F]
variable (K : Int → Job → List F → List F → Res (List F)) (wk : Nat) (lower : String → String) (yearOf : F → Int)

omit [FloatOps F] in
theorem validateScales_ok {a : CliArgs} (h : validateScales a = .ok ()) (hi : a.index ∈ ["spi", "spei", "scaled", "pnp"]) : ∃ s, a.scales = some s ∧ ∀ n ∈ s, 0 ≤ n := by
  unfold validateScales at h
  rw [if_pos hi] at h
  split at h
  · cases h
  · next s hs =>
    refine ⟨s, hs, ?_⟩
    split at h
    · cases h
    · next hn =>
      intro n hm
      simp only [List.any_eq_true, not_exists, not_and, decide_eq_true_eq] at hn
      exact not_lt.1 (hn n hm)

omit [FloatOps F] in
theorem validateArgs_scales {cmp : CoordCmp F} {fs : Files F} {a : CliArgs} {it : InputType} (h : validateArgs cmp fs a = .ok it) : validateScales a = .ok () := by
  unfold validateArgs at h
  split at h
  · obtain ⟨⟨it', p⟩, _, h⟩ := Res.bind_ok h
    obtain ⟨_, _, h⟩ := Res.bind_ok h
    obtain ⟨_, h, _⟩ := Res.bind_ok h
    exact h
  · obtain ⟨it', _, h⟩ := Res.bind_ok h
    obtain ⟨_, h, _⟩ := Res.bind_ok h
    exact h

omit [FloatOps F] in
theorem getFiles_bind {α : Type} {f : Files F → SE (World F) α} {w w' : World F} {b : α} (h : (getFiles >>= f) w = (.ok b, w')) : f w.files w = (.ok b, w') := by
  obtain ⟨fs, w1, h1, h2⟩ := SE.bind_ok h
  cases h1
  exact h2

omit [FloatOps F] in
theorem lift_bind {α β : Type} {x : Res α} {f : α → SE (World F) β} {w w' : World F} {b : β} (h : (SE.lift x >>= f) w = (.ok b, w')) : ∃ a, x = .ok a ∧ f a w = (.ok b, w') := by
  obtain ⟨a, w1, h1, h2⟩ := SE.bind_ok h
  obtain ⟨h3, rfl⟩ := SE.lift_ok h1
  exact ⟨a, h3, h2⟩

omit [FloatOps F] in
theorem orElseRaise_ok {α : Type} {x : Option α} {e : PyErr} {v : α} (h : orElseRaise x e = .ok v) : x = some v := by
  unfold orElseRaise at h
  split at h
  · cases h
  · cases h; rfl

theorem runSpi_ok {a : CliArgs} {it : InputType} {w w' : World F} (h : runSpi K wk lower yearOf a it w = (.ok (), w')) :
    (a.index ∉ ["spi", "scaled", "all"] ∧ w' = w) ∨ (a.index ∈ ["spi", "scaled", "all"] ∧ ∃ s fp, a.scales = some s ∧ w'.written = w.written ++
      (s.flatMap (fun n => distributions.map (fun dist => jobOut (mkJob a it "spi" (some n) (some dist) (some (fp, a.varNamePrecip.getD "")) none none none))))) := by
  unfold runSpi at h
  split at h
  · next hi =>
    refine .inr ⟨hi, ?_⟩
    have h := getFiles_bind h
    obtain ⟨fp, _, h⟩ := lift_bind h
    obtain ⟨s, hs, h⟩ := lift_bind h
    refine ⟨s, fp, orElseRaise_ok hs, ?_⟩
    rw [(runJobs_ok K wk lower yearOf _ h).1, List.map_flatMap]
    simp only [List.map_map]
    rfl
  · next hi => cases h; exact .inl ⟨hi, rfl⟩

theorem runSpei_ok {a : CliArgs} {it : InputType} {pet : Option String × Option String} {w w' : World F} (h : runSpei K wk lower yearOf a it pet w = (.ok (), w')) :
    (a.index ∉ ["spei", "scaled", "all"] ∧ w' = w) ∨ (a.index ∈ ["spei", "scaled", "all"] ∧ ∃ s fp fe, a.scales = some s ∧ w'.written = w.written ++
      (s.flatMap (fun n => distributions.map (fun dist => jobOut (mkJob a it "spei" (some n) (some dist) (some (fp, a.varNamePrecip.getD "")) none (some (fe, pet.2.getD "")) none))))) := by
  unfold runSpei at h
  split at h
  · next hi =>
    refine .inr ⟨hi, ?_⟩
    have h := getFiles_bind h
    obtain ⟨fp, _, h⟩ := lift_bind h
    obtain ⟨fe, _, h⟩ := lift_bind h
    obtain ⟨s, hs, h⟩ := lift_bind h
    refine ⟨s, fp, fe, orElseRaise_ok hs, ?_⟩
    rw [(runJobs_ok K wk lower yearOf _ h).1, List.map_flatMap]
    simp only [List.map_map]
    rfl
  · next hi => cases h; exact .inl ⟨hi, rfl⟩

theorem runPnp_ok {a : CliArgs} {it : InputType} {w w' : World F} (h : runPnp K wk lower yearOf a it w = (.ok (), w')) :
    (a.index ∉ ["pnp", "scaled", "all"] ∧ w' = w) ∨ (a.index ∈ ["pnp", "scaled", "all"] ∧ ∃ s fp, a.scales = some s ∧ w'.written = w.written ++
      (s.map (fun n => jobOut (mkJob a it "pnp" (some n) none (some (fp, a.varNamePrecip.getD "")) none none none)))) := by
  unfold runPnp at h
  split at h
  · next hi =>
    refine .inr ⟨hi, ?_⟩
    have h := getFiles_bind h
    obtain ⟨fp, _, h⟩ := lift_bind h
    obtain ⟨s, hs, h⟩ := lift_bind h
    refine ⟨s, fp, orElseRaise_ok hs, ?_⟩
    rw [(runJobs_ok K wk lower yearOf _ h).1]
    simp only [List.map_map]
    rfl
  · next hi => cases h; exact .inl ⟨hi, rfl⟩

theorem runPet_ok {a : CliArgs} {it : InputType} {w w' : World F} {pet : Option String × Option String} (h : runPet K wk lower yearOf a it w = (.ok pet, w')) :
    (a.index ∉ ["pet", "spei", "scaled", "palmers", "all"] ∧ w' = w) ∨ (a.index ∈ ["pet", "spei", "scaled", "palmers", "all"] ∧ a.netcdfPet.isSome ∧ w' = w) ∨
    (a.index ∈ ["pet", "spei", "scaled", "palmers", "all"] ∧ a.netcdfPet = none ∧ w'.written = w.written ++ [(a.outputFileBase ++ "_" ++ "pet_thornthwaite" ++ ".nc", "pet_thornthwaite")]) := by
  unfold runPet at h
  split at h
  · next hi =>
    cases hf : a.netcdfPet with
    | some f =>
      rw [hf] at h
      cases h
      exact .inr (.inl ⟨hi, rfl, rfl⟩)
    | none =>
      rw [hf] at h
      refine .inr (.inr ⟨hi, rfl, ?_⟩)
      have h := getFiles_bind h
      obtain ⟨ft, _, h⟩ := lift_bind h
      obtain ⟨r, w1, h1, h2⟩ := SE.bind_ok h
      obtain ⟨_, name, hn, rfl, hw⟩ := cwi_ok K wk lower yearOf h1
      cases h2
      rw [hw]
      simp only [variableName, mkJob, Except.ok.injEq] at hn
      subst hn
      rfl
  · next hi => cases h; exact .inl ⟨hi, rfl⟩

theorem runPalmers_ok {a : CliArgs} {it : InputType} {pet : Option String × Option String} {w w' : World F} (h : runPalmers K wk lower yearOf a it pet w = (.ok (), w')) :
    a.index ∉ ["palmers", "all"] ∧ w' = w := by
  unfold runPalmers at h
  split at h
  · next hi =>
    exfalso
    have h := getFiles_bind h
    obtain ⟨fp, _, h⟩ := lift_bind h
    obtain ⟨fe, _, h⟩ := lift_bind h
    obtain ⟨fa, _, h⟩ := lift_bind h
    exact (runJobs_ok K wk lower yearOf _ h).2 _ (List.mem_singleton.2 rfl) rfl
  · next hi => cases h; exact ⟨hi, rfl⟩

/-- the log of a finished run, step by step -/
theorem process_ok {cmp : CoordCmp F} {a : CliArgs} {w w' : World F} (h : processIndices K wk lower yearOf cmp a w = (.ok (), w')) :
    ∃ it w1 w2 w3 pet, validateArgs cmp w.files a = .ok it ∧ runSpi K wk lower yearOf a it w = (.ok (), w1) ∧ runPet K wk lower yearOf a it w1 = (.ok pet, w2) ∧
      runSpei K wk lower yearOf a it pet w2 = (.ok (), w3) ∧ runPnp K wk lower yearOf a it w3 = (.ok (), w') ∧ a.index ∉ ["palmers", "all"] := by
  unfold processIndices at h
  have h := getFiles_bind h
  obtain ⟨it, hv, h⟩ := lift_bind h
  obtain ⟨_, w1, h1, h⟩ := SE.bind_ok h
  obtain ⟨pet, w2, h2, h⟩ := SE.bind_ok h
  obtain ⟨_, w3, h3, h⟩ := SE.bind_ok h
  obtain ⟨_, w4, h4, h⟩ := SE.bind_ok h
  obtain ⟨h5, rfl⟩ := runPalmers_ok K wk lower yearOf h
  exact ⟨it, w1, w2, w3, pet, hv, h1, h2, h3, h4, h5⟩

end

/-! ## Lookup -/

theorem lookup_isSome_of_mem {α : Type} {l : List (String × α)} {k : String} {v : α} (h : (k, v) ∈ l) : (List.lookup k l).isSome := by
  induction l with
  | nil => cases h
  | cons p l ih =>
    obtain ⟨k', v'⟩ := p
    rw [List.lookup_cons]
    by_cases hk : k = k'
    · simp [hk]
    · rcases List.mem_cons.1 h with h | h
      · cases h; exact absurd rfl hk
      · simp only [beq_eq_false_iff_ne.2 hk]
        exact ih h

theorem mem_of_lookup {α : Type} {l : List (String × α)} {k : String} {v : α} (h : List.lookup k l = some v) : (k, v) ∈ l := by
  induction l with
  | nil => cases h
  | cons p l ih =>
    obtain ⟨k', v'⟩ := p
    rw [List.lookup_cons] at h
    by_cases hk : k = k'
    · subst hk
      simp only [beq_self_eq_true, Option.some.injEq] at h
      subst h
      exact List.mem_cons_self
    · simp only [beq_eq_false_iff_ne.2 hk] at h
      exact List.mem_cons_of_mem _ (ih h)

/-! ## Invariants -/

/-- every outcome of the call keeps the invariant -/
def SE.Keeps {σ α : Type} (I : σ → Prop) (x : SE σ α) : Prop := ∀ s, I s → I (x s).2

theorem SE.keeps_bind {σ α β : Type} {I : σ → Prop} {x : SE σ α} {f : α → SE σ β} (hx : SE.Keeps I x) (hf : ∀ a, SE.Keeps I (f a)) : SE.Keeps I (x >>= f) := by
  intro s hs
  have h1 := hx s hs
  show I (SE.bind x f s).2
  unfold SE.bind
  split
  · next a s' h => rw [h] at h1; exact hf a s' h1
  · next e s' h => rw [h] at h1; exact h1

theorem SE.keeps_lift {σ α : Type} {I : σ → Prop} (x : Res α) : SE.Keeps I (SE.lift x) := fun _ hs => hs
theorem SE.keeps_pure {σ α : Type} {I : σ → Prop} (a : α) : SE.Keeps I (pure a : SE σ α) := fun _ hs => hs

section
variable {F : Type} [FloatOps F]
variable (K : Int → Job → List F → List F → Res (List F)) (wk : Nat) (lower : String → String) (yearOf : F → Int)

omit [FloatOps F] in
theorem keeps_getFiles {I : World F → Prop} : SE.Keeps I getFiles := fun _ hs => hs

theorem keeps_runJobs {I : World F → Prop} (js : List Job) (h : ∀ j ∈ js, SE.Keeps I (computeWriteIndex K wk lower yearOf j)) : SE.Keeps I (runJobs K wk lower yearOf js) := by
  induction js with
  | nil => exact SE.keeps_pure ()
  | cons j js ih =>
    unfold runJobs
    exact SE.keeps_bind (h j (by simp)) (fun _ => ih (fun j' hj' => h j' (by simp [hj'])))

/-- an invariant kept by every computation of the run is kept by the run -/
theorem keeps_process {I : World F → Prop} (cmp : CoordCmp F) (a : CliArgs) (h : ∀ j : Job, j.base = a.outputFileBase → SE.Keeps I (computeWriteIndex K wk lower yearOf j)) :
    SE.Keeps I (processIndices K wk lower yearOf cmp a) := by
  unfold processIndices
  refine SE.keeps_bind keeps_getFiles fun fs => SE.keeps_bind (SE.keeps_lift _) fun it => SE.keeps_bind ?_ fun _ => SE.keeps_bind ?_ fun pet => SE.keeps_bind ?_ fun _ =>
    SE.keeps_bind ?_ fun _ => ?_
  · unfold runSpi
    split
    · refine SE.keeps_bind keeps_getFiles fun fs => SE.keeps_bind (SE.keeps_lift _) fun fp => SE.keeps_bind (SE.keeps_lift _) fun s => keeps_runJobs _ _ _ _ _ ?_
      intro j hj
      simp only [List.mem_flatMap, List.mem_map] at hj
      obtain ⟨n, _, dist, _, rfl⟩ := hj
      exact h _ rfl
    · exact SE.keeps_pure _
  · unfold runPet
    split
    · cases a.netcdfPet with
      | some f => exact SE.keeps_pure _
      | none => exact SE.keeps_bind keeps_getFiles fun fs => SE.keeps_bind (SE.keeps_lift _) fun fp => SE.keeps_bind (h _ rfl) fun _ => SE.keeps_pure _
    · exact SE.keeps_pure _
  · unfold runSpei
    split
    · refine SE.keeps_bind keeps_getFiles fun fs => SE.keeps_bind (SE.keeps_lift _) fun fp => SE.keeps_bind (SE.keeps_lift _) fun fe => SE.keeps_bind (SE.keeps_lift _) fun s =>
        keeps_runJobs _ _ _ _ _ ?_
      intro j hj
      simp only [List.mem_flatMap, List.mem_map] at hj
      obtain ⟨n, _, dist, _, rfl⟩ := hj
      exact h _ rfl
    · exact SE.keeps_pure _
  · unfold runPnp
    split
    · refine SE.keeps_bind keeps_getFiles fun fs => SE.keeps_bind (SE.keeps_lift _) fun fp => SE.keeps_bind (SE.keeps_lift _) fun s => keeps_runJobs _ _ _ _ _ ?_
      intro j hj
      simp only [List.mem_map] at hj
      obtain ⟨n, _, rfl⟩ := hj
      exact h _ rfl
    · exact SE.keeps_pure _
  · unfold runPalmers
    split
    · refine SE.keeps_bind keeps_getFiles fun fs => SE.keeps_bind (SE.keeps_lift _) fun fp => SE.keeps_bind (SE.keeps_lift _) fun fe => SE.keeps_bind (SE.keeps_lift _) fun fa =>
        keeps_runJobs _ _ _ _ _ ?_
      intro j hj
      rw [List.mem_singleton] at hj
      subst hj
      exact h _ rfl
    · exact SE.keeps_pure _

/-- the effect of `_compute_write_index` on files and log: nothing, or one new file -/
theorem cwi_effect (j : Job) (w : World F) :
    ((∃ e, (computeWriteIndex K wk lower yearOf j w).1 = .error e) ∧ (computeWriteIndex K wk lower yearOf j w).2.files = w.files ∧ (computeWriteIndex K wk lower yearOf j w).2.written = w.written) ∨
    ∃ name d x, variableName j = .ok name ∧ (computeWriteIndex K wk lower yearOf j w).1 = .ok (j.base ++ "_" ++ name ++ ".nc", name) ∧
      (computeWriteIndex K wk lower yearOf j w).2.files = (fun f => if f = j.base ++ "_" ++ name ++ ".nc" then some (coordsOf d ++ [(name, x)]) else w.files f) ∧
      (computeWriteIndex K wk lower yearOf j w).2.written = w.written ++ [(j.base ++ "_" ++ name ++ ".nc", name)] := by
  unfold computeWriteIndex
  cases hl : loadInputs lower yearOf j w with
  | error e => exact .inl ⟨⟨e, rfl⟩, rfl, rfl⟩
  | ok t =>
    obtain ⟨d, ds, like, sh, shape⟩ := t
    simp only []
    split
    · refine .inl ⟨?_, rfl, rfl⟩
      cases hp : computePalmers w j with
      | error e => exact ⟨e, rfl⟩
      | ok r => exact absurd hp (computePalmers_error w j r)
    · split
      · next e _ => exact .inl ⟨⟨e, rfl⟩, rfl, rfl⟩
      · next out ho =>
        split
        · next e _ => exact .inl ⟨⟨e, rfl⟩, rfl, rfl⟩
        · next file name new hf =>
          obtain ⟨nm, _, h1, _, _, h2⟩ := outputFile_ok hf
          simp only [Prod.mk.injEq] at h2
          obtain ⟨rfl, rfl, rfl⟩ := h2
          exact .inr ⟨_, d, _, h1, rfl, rfl, rfl⟩

end

/-! ## Output names of the jobs -/

section
open Spec

theorem jobOut_spi (a : CliArgs) (it : InputType) (n : Int) (hn : 0 ≤ n) (dist : Distribution) (hd : dist ∈ distributions) (p t e w : Option (String × String)) :
    jobOut (mkJob a it "spi" (some n) (some dist) p t e w) = (fileName a.outputFileBase (Output.spi dist n.toNat).name, (Output.spi dist n.toNat).name) := by
  obtain ⟨m, rfl⟩ := Int.eq_ofNat_of_zero_le hn
  simp only [distributions, List.mem_cons, List.not_mem_nil, or_false] at hd
  rcases hd with rfl | rfl <;> simp [jobOut, mkJob, variableName, fileName, Output.name, distName, Distribution.value, zfill2_twoDigits, Int.toNat_natCast]

theorem jobOut_spei (a : CliArgs) (it : InputType) (n : Int) (hn : 0 ≤ n) (dist : Distribution) (hd : dist ∈ distributions) (p t e w : Option (String × String)) :
    jobOut (mkJob a it "spei" (some n) (some dist) p t e w) = (fileName a.outputFileBase (Output.spei dist n.toNat).name, (Output.spei dist n.toNat).name) := by
  obtain ⟨m, rfl⟩ := Int.eq_ofNat_of_zero_le hn
  simp only [distributions, List.mem_cons, List.not_mem_nil, or_false] at hd
  rcases hd with rfl | rfl <;> simp [jobOut, mkJob, variableName, fileName, Output.name, distName, Distribution.value, zfill2_twoDigits, Int.toNat_natCast]

theorem jobOut_pnp (a : CliArgs) (it : InputType) (n : Int) (hn : 0 ≤ n) (p t e w : Option (String × String)) :
    jobOut (mkJob a it "pnp" (some n) none p t e w) = (fileName a.outputFileBase (Output.pnp n.toNat).name, (Output.pnp n.toNat).name) := by
  obtain ⟨m, rfl⟩ := Int.eq_ofNat_of_zero_le hn
  simp [jobOut, mkJob, variableName, fileName, Output.name, zfill2_twoDigits, Int.toNat_natCast]

theorem entries_spi (a : CliArgs) (it : InputType) (s : List Int) (hs : ∀ n ∈ s, 0 ≤ n) (fp : String) :
    s.flatMap (fun n => distributions.map (fun dist => jobOut (mkJob a it "spi" (some n) (some dist) (some (fp, a.varNamePrecip.getD "")) none none none)))
      = entries a.outputFileBase (spiOutputs (s.map Int.toNat)) := by
  unfold entries spiOutputs
  rw [List.flatMap_map, List.map_flatMap]
  apply List.flatMap_congr
  intro n hn
  simp only [distributions, List.map_cons, List.map_nil, jobOut_spi a it n (hs n hn) .pearson (by decide), jobOut_spi a it n (hs n hn) .gamma (by decide)]

theorem entries_spei (a : CliArgs) (it : InputType) (s : List Int) (hs : ∀ n ∈ s, 0 ≤ n) (fp fe v : String) :
    s.flatMap (fun n => distributions.map (fun dist => jobOut (mkJob a it "spei" (some n) (some dist) (some (fp, a.varNamePrecip.getD "")) none (some (fe, v)) none)))
      = entries a.outputFileBase (speiOutputs (s.map Int.toNat)) := by
  unfold entries speiOutputs
  rw [List.flatMap_map, List.map_flatMap]
  apply List.flatMap_congr
  intro n hn
  simp only [distributions, List.map_cons, List.map_nil, jobOut_spei a it n (hs n hn) .pearson (by decide), jobOut_spei a it n (hs n hn) .gamma (by decide)]

theorem entries_pnp (a : CliArgs) (it : InputType) (s : List Int) (hs : ∀ n ∈ s, 0 ≤ n) (fp : String) :
    s.map (fun n => jobOut (mkJob a it "pnp" (some n) none (some (fp, a.varNamePrecip.getD "")) none none none))
      = entries a.outputFileBase (pnpOutputs (s.map Int.toNat)) := by
  unfold entries pnpOutputs
  rw [List.map_map, List.map_map]
  apply List.map_congr_left
  intro n hn
  simp [jobOut_pnp a it n (hs n hn)]

theorem fileName_inj {b n m : String} (h : fileName b n = fileName b m) : n = m := by
  unfold fileName at h
  exact (String.append_right_inj _).1 ((String.append_left_inj _).1 h)

theorem documented_nodup (i : String) (p : Bool) (s : List Nat) (hs : s.Nodup) : (documented i p s).Nodup := by
  have hspi : (spiOutputs s).Nodup := by
    induction s with
    | nil => exact List.nodup_nil
    | cons n s ih =>
      have := List.nodup_cons.1 hs
      simp only [spiOutputs, List.flatMap_cons, List.cons_append, List.nil_append, List.nodup_cons, List.mem_cons, List.mem_flatMap, List.not_mem_nil, or_false,
        Output.spi.injEq, reduceCtorEq, false_and, true_and, false_or]
      exact ⟨by simpa using this.1, by simpa using this.1, ih this.2⟩
  have hspei : (speiOutputs s).Nodup := by
    clear hspi
    induction s with
    | nil => exact List.nodup_nil
    | cons n s ih =>
      have := List.nodup_cons.1 hs
      simp only [speiOutputs, List.flatMap_cons, List.cons_append, List.nil_append, List.nodup_cons, List.mem_cons, List.mem_flatMap, List.not_mem_nil, or_false,
        Output.spei.injEq, reduceCtorEq, false_and, true_and, false_or]
      exact ⟨by simpa using this.1, by simpa using this.1, ih this.2⟩
  have hpnp : (pnpOutputs s).Nodup := List.Nodup.map (fun _ _ h => by injection h) hs
  have hpet : (petOutputs p).Nodup := by cases p <;> simp [petOutputs]
  unfold documented
  split
  · exact hspi
  · exact hpnp
  · exact hpet
  · refine List.nodup_append'.2 ⟨hpet, hspei, ?_⟩
    intro x h1 h2
    cases p <;> simp [petOutputs, speiOutputs] at h1 h2
    subst h1
    simp at h2
  · refine List.nodup_append'.2 ⟨List.nodup_append'.2 ⟨List.nodup_append'.2 ⟨hspi, hpet, ?_⟩, hspei, ?_⟩, hpnp, ?_⟩
    · intro x h1 h2
      cases p <;> simp [petOutputs, spiOutputs] at h1 h2
      subst h2
      simp at h1
    · intro x h1 h2
      cases p <;> simp only [petOutputs, spiOutputs, speiOutputs, List.mem_append, List.mem_flatMap, List.mem_cons, List.not_mem_nil, or_false, if_true, if_false, Bool.false_eq_true] at h1 h2 <;>
        (obtain ⟨n, _, rfl | rfl⟩ := h2 <;> simp at h1)
    · intro x h1 h2
      cases p <;> simp only [petOutputs, spiOutputs, speiOutputs, pnpOutputs, List.mem_append, List.mem_flatMap, List.mem_map, List.mem_cons, List.not_mem_nil, or_false, if_true, if_false, Bool.false_eq_true] at h1 h2 <;>
        (obtain ⟨n, _, rfl⟩ := h2; simp at h1)
  · exact List.nodup_nil

end

/-! ## Validation -/

section
open Spec
variable {F : Type}

theorem openFile_ok {fs : Files F} {f : Option String} {d : NcFile F} (h : openFile fs f = .ok d) : ∃ n, f = some n ∧ fs n = some d := by
  unfold openFile at h
  split at h
  · cases h
  · next n =>
    split at h
    · cases h
    · next d' hd => cases h; exact ⟨n, rfl, hd⟩

theorem require_ok {d : NcFile F} {v : Option String} {x : NcVar F} (h : d.require v = .ok x) : ∃ n, v = some n ∧ List.lookup n d = some x := by
  unfold NcFile.require at h
  split at h
  · cases h
  · next n =>
    split at h
    · cases h
    · next d' hd => cases h; exact ⟨n, rfl, hd⟩

theorem get_ok {d : NcFile F} {v : String} {x : NcVar F} (h : d.get v = .ok x) : List.lookup v d = some x := by
  unfold NcFile.get at h
  split at h
  · cases h
  · next hd => cases h; exact hd

theorem inputTypeOf_ok {dims : List String} {it : InputType} (h : inputTypeOf dims = .ok it) : dims ∈ dataDims it := by
  unfold inputTypeOf at h
  split at h
  · next h' => cases h; exact h'
  · split at h
    · next h' =>
      cases h
      simp only [dimsDivisions, dataDims, List.mem_cons, List.not_mem_nil, or_false] at h' ⊢
      exact h'.symm
    · split at h
      · next h' => cases h; exact h'
      · cases h

theorem validatePrecip_ok {fs : Files F} {a : CliArgs} {it : InputType} {p : NcFile F} (h : validatePrecip fs a = .ok (it, p)) :
    Given fs a.netcdfPrecip a.varNamePrecip (dataDims it) ∧ openFile fs a.netcdfPrecip = .ok p := by
  unfold validatePrecip at h
  split at h
  · cases h
  · cases h
  · next f v hf hv =>
    obtain ⟨d, h1, h⟩ := Res.bind_ok h
    obtain ⟨x, h2, h⟩ := Res.bind_ok h
    obtain ⟨it', h3, h⟩ := Res.bind_ok h
    have h4 := inputTypeOf_ok h3
    obtain ⟨n, e, hn⟩ := openFile_ok h1
    cases e
    obtain ⟨m, e, hm⟩ := require_ok h2
    cases e
    have key : it' = it ∧ d = p := by
      cases it' <;> simp only [] at h
      · obtain ⟨_, _, h⟩ := Res.bind_ok h
        obtain ⟨_, _, h⟩ := Res.bind_ok h
        obtain ⟨_, _, h⟩ := Res.bind_ok h
        cases h
        exact ⟨rfl, rfl⟩
      · obtain ⟨_, _, h⟩ := Res.bind_ok h
        obtain ⟨_, _, h⟩ := Res.bind_ok h
        cases h
        exact ⟨rfl, rfl⟩
      · obtain ⟨_, _, h⟩ := Res.bind_ok h
        cases h
        exact ⟨rfl, rfl⟩
    obtain ⟨rfl, rfl⟩ := key
    exact ⟨⟨_, _, _, _, hf, hv, hn, hm, h4⟩, by rw [hf]; exact h1⟩

theorem validatePetTemp_ok {fs : Files F} {a : CliArgs} {it : InputType} (h : validatePetTemp fs a = .ok it) :
    a.periodicity = .monthly ∧ Given fs a.netcdfTemp a.varNameTemp (dataDims it) := by
  unfold validatePetTemp at h
  split at h
  · cases h
  · next f hf =>
    split at h
    · cases h
    · next hp =>
      obtain ⟨d, h1, h⟩ := Res.bind_ok h
      obtain ⟨x, h2, h⟩ := Res.bind_ok h
      obtain ⟨n, e, hn⟩ := openFile_ok h1
      cases e
      obtain ⟨m, hv, hm⟩ := require_ok h2
      exact ⟨not_not.1 hp, _, _, _, _, hf, hv, hn, hm, inputTypeOf_ok h⟩

theorem validateSecond_ok {cmp : CoordCmp F} {fs : Files F} {it : InputType} {p : NcFile F} {file var : Option String} (h : validateSecond cmp fs it p file var = .ok ()) :
    Given fs file var (dataDims it) := by
  unfold validateSecond at h
  obtain ⟨d, h1, h⟩ := Res.bind_ok h
  obtain ⟨x, h2, h⟩ := Res.bind_ok h
  obtain ⟨n, hf, hn⟩ := openFile_ok h1
  obtain ⟨m, hv, hm⟩ := require_ok h2
  refine ⟨n, m, d, x, hf, hv, hn, hm, ?_⟩
  cases it <;> simp only [] at h
  · by_cases hx : x.dims ∈ dimsGrid
    · exact hx
    · rw [if_neg hx] at h; cases h
  · by_cases hx : x.dims ∈ dimsDivisions
    · simp only [dimsDivisions, dataDims, List.mem_cons, List.not_mem_nil, or_false] at hx ⊢
      exact hx.symm
    · rw [if_neg hx] at h; cases h
  · by_cases hx : x.dims ∈ dimsTimeseries
    · exact hx
    · rw [if_neg hx] at h; cases h

theorem validateTempOrPet_ok {cmp : CoordCmp F} {fs : Files F} {a : CliArgs} {it : InputType} {p : NcFile F} (h : validateTempOrPet cmp fs a it p = .ok ()) :
    (a.netcdfPet = none ∧ Given fs a.netcdfTemp a.varNameTemp (dataDims it)) ∨ (a.netcdfTemp = none ∧ Given fs a.netcdfPet a.varNamePet (dataDims it)) := by
  unfold validateTempOrPet at h
  split at h
  · cases h
  · next h1 h2 => exact .inr ⟨h1, by rw [h2]; exact validateSecond_ok h⟩
  · cases h
  · next h1 h2 => exact .inl ⟨h2, by rw [h1]; exact validateSecond_ok h⟩

theorem validateAwc_ok {cmp : CoordCmp F} {fs : Files F} {it : InputType} {p : NcFile F} {file var : Option String} (h : validateAwc cmp fs it p file var = .ok ()) :
    Given fs file var (awcDims it) := by
  unfold validateAwc at h
  split at h
  · cases h
  · next f =>
    obtain ⟨d, h1, h⟩ := Res.bind_ok h
    obtain ⟨x, h2, h⟩ := Res.bind_ok h
    obtain ⟨n, hf, hn⟩ := openFile_ok h1
    obtain ⟨m, hv, hm⟩ := require_ok h2
    refine ⟨n, m, d, x, hf, hv, hn, hm, ?_⟩
    cases it <;> simp only [] at h
    · split at h
      · next hx =>
        simp only [dimsGridAwc, awcDims, dataDims, List.mem_cons, List.not_mem_nil, or_false] at hx ⊢
        tauto
      · cases h
    · split at h
      · next hx =>
        simp only [dimsDivisionsAwc, awcDims, dataDims, List.mem_cons, List.not_mem_nil, or_false] at hx ⊢
        tauto
      · cases h
    · cases h

end

/-! ## Parts of a computation -/

section
variable {F : Type} [FloatOps F]
variable {K : Int → Job → List F → List F → Res (List F)} {wk : Nat} {lower : String → String} {yearOf : F → Int}

/-- all parts of a finished computation -/
theorem cwi_parts {j : Job} {w w' : World F} {r : String × String} (h : computeWriteIndex K wk lower yearOf j w = (.ok r, w')) :
    ∃ d ds like sh shape out v, loadInputs lower yearOf j w = .ok (d, ds, like, sh, shape) ∧ j.index ≠ "palmers" ∧
      computeValues (K ds) wk d j (sh.put keyResult (resultArray sh shape)) (resultArray sh shape) = .ok out ∧
      outputValues j.periodicity ds (like.shape.getLastD 0) (resultArray sh shape).shape out = .ok v ∧ v.shape = like.shape ∧
      variableName j = .ok r.2 ∧ r.1 = j.base ++ "_" ++ r.2 ++ ".nc" ∧
      w'.files = (fun f => if f = r.1 then some (coordsOf d ++ [(r.2, ⟨like.dims, like.shape, outputUnits j, v.data⟩)]) else w.files f) ∧
      w'.shared = (sh.put keyResult (resultArray sh shape)).put keyResult ⟨(resultArray sh shape).shape, out⟩ ∧ w'.written = w.written ++ [r] := by
  unfold computeWriteIndex at h
  split at h
  · cases h
  · next d ds like sh shape hl =>
    split at h
    · simp only [Prod.mk.injEq] at h
      exact absurd h.1 (computePalmers_error w j r)
    · next hp =>
      simp only [] at h
      split at h
      · cases h
      · next out ho =>
        split at h
        · cases h
        · next file name new hf =>
          obtain ⟨nm, v, h1, h3, h4, h2⟩ := outputFile_ok hf
          simp only [Prod.mk.injEq] at h2
          obtain ⟨rfl, rfl, rfl⟩ := h2
          cases h
          exact ⟨d, ds, like, sh, shape, out, v, hl, hp, ho, h3, h4, h1, rfl, rfl, rfl, rfl⟩

theorem dropVar_ok {j : Job} {d : NcFile F} {p q : String × NcVar F} (h : dropVar yearOf j d p = .ok q) :
    dropDimsOk j.inputType p.2.dims = true ∧ q.1 = p.1 ∧ q.2.dims = p.2.dims ∧
      (j.inputType = .divisions → q = p) ∧ (j.inputType ≠ .divisions → dailyValues yearOf j.periodicity d p.2 = .ok ⟨q.2.shape, q.2.data⟩) ∧ (j.periodicity ≠ .daily → q = p) := by
  unfold dropVar at h
  split at h
  swap
  · cases h
  next hd =>
  have key : ∀ h : (do let v ← dailyValues yearOf j.periodicity d p.2; pure (p.1, { p.2 with shape := v.shape, data := v.data }) : Res (String × NcVar F)) = .ok q,
      q.1 = p.1 ∧ q.2.dims = p.2.dims ∧ dailyValues yearOf j.periodicity d p.2 = .ok ⟨q.2.shape, q.2.data⟩ ∧ (j.periodicity ≠ .daily → q = p) := by
    intro h
    obtain ⟨v, hv, h⟩ := Res.bind_ok h
    cases h
    refine ⟨rfl, rfl, hv, ?_⟩
    intro hp
    unfold dailyValues at hv
    split at hv
    · next hp' => exact absurd hp' hp
    · cases hv; rfl
  refine ⟨hd, ?_⟩
  cases hi : j.inputType with
  | divisions =>
    rw [hi] at h
    cases h
    exact ⟨rfl, rfl, fun _ => rfl, fun h => absurd rfl h, fun _ => rfl⟩
  | grid =>
    rw [hi] at h
    obtain ⟨k1, k2, k3, k4⟩ := key h
    exact ⟨k1, k2, (fun h => by cases h), fun _ => k3, k4⟩
  | timeseries =>
    rw [hi] at h
    obtain ⟨k1, k2, k3, k4⟩ := key h
    exact ⟨k1, k2, (fun h => by cases h), fun _ => k3, k4⟩

theorem loadInputs_ok {j : Job} {w : World F} {d : NcFile F} {ds : Int} {like : NcVar F} {sh : Dict (Arr F)} {shape : List Nat}
    (h : loadInputs lower yearOf j w = .ok (d, ds, like, sh, shape)) :
    ∃ v cvars vars, openAll w.files ((j.precip.toList ++ j.temp.toList ++ j.pet.toList).map Prod.fst) = .ok d ∧ outputLike j = .ok v ∧ List.lookup v d = some like ∧
      convertInputs lower d j = .ok cvars ∧ cvars.mapM (dropVar yearOf j d) = .ok vars ∧ outputShape j.inputType vars = some shape ∧
      sh = vars.foldl (fun d p => d.put p.1 ⟨p.2.shape, p.2.data⟩) w.shared ∧ firstYear yearOf d = .ok ds := by
  unfold loadInputs at h
  obtain ⟨d', h1, h⟩ := Res.bind_ok h
  obtain ⟨ds', h0, h⟩ := Res.bind_ok h
  obtain ⟨v, h2, h⟩ := Res.bind_ok h
  obtain ⟨x, h3, h⟩ := Res.bind_ok h
  obtain ⟨cvars, h4, h⟩ := Res.bind_ok h
  obtain ⟨⟨sh', s'⟩, h5, h⟩ := Res.bind_ok h
  simp only [] at h
  split at h
  swap
  · cases h
  cases h
  unfold dropData at h5
  obtain ⟨vars, h6, h5⟩ := Res.bind_ok h5
  split at h5
  · cases h5
  · next s hs =>
    cases h5
    exact ⟨v, cvars, vars, h1, h2, get_ok h3, h4, h6, hs, rfl, h0⟩

omit [FloatOps F] in
theorem convertVar_ok {conv : String → List F → Res (List F)} {x y : NcVar F} (h : convertVar lower conv x = .ok y) :
    ∃ u, x.units = some u ∧ y.dims = x.dims ∧ y.shape = x.shape ∧ conv (lower u) x.data = .ok y.data := by
  unfold convertVar at h
  split at h
  · cases h
  · next u hu =>
    obtain ⟨dt, h1, h2⟩ := Res.bind_ok h
    cases h2
    exact ⟨u, hu, rfl, rfl, h1⟩

omit [FloatOps F] in
theorem convertInput_ok {conv : String → List F → Res (List F)} {d : NcFile F} {o : Option (String × String)} {l : List (String × NcVar F)}
    (h : convertInput lower conv d o = .ok l) :
    (o = none ∧ l = []) ∨ ∃ f v x y, o = some (f, v) ∧ l = [(v, y)] ∧ List.lookup v d = some x ∧ convertVar lower conv x = .ok y := by
  unfold convertInput at h
  split at h
  · cases h; exact .inl ⟨rfl, rfl⟩
  · next f v =>
    obtain ⟨x, h1, h⟩ := Res.bind_ok h
    obtain ⟨y, h2, h⟩ := Res.bind_ok h
    cases h
    exact .inr ⟨f, v, x, y, rfl, rfl, get_ok h1, h2⟩

theorem convertInputs_ok {d : NcFile F} {j : Job} {vars : List (String × NcVar F)} (h : convertInputs lower d j = .ok vars) :
    ∃ p t e l, convertInput lower convertPrecip d j.precip = .ok p ∧ convertInput lower convertTemp d j.temp = .ok t ∧ convertInput lower convertPet d j.pet = .ok e ∧
      latInput d j.inputType = .ok l ∧ vars = p ++ t ++ e ++ l := by
  unfold convertInputs at h
  obtain ⟨p, h1, h⟩ := Res.bind_ok h
  obtain ⟨t, h2, h⟩ := Res.bind_ok h
  obtain ⟨e, h3, h⟩ := Res.bind_ok h
  obtain ⟨l, h4, h⟩ := Res.bind_ok h
  cases h
  exact ⟨p, t, e, l, h1, h2, h3, h4, rfl⟩

omit [FloatOps F] in
theorem lookup_append_some {α : Type} {l l' : List (String × α)} {k : String} {v : α} (h : List.lookup k l = some v) : List.lookup k (l ++ l') = some v := by
  rw [List.lookup_append, h]
  rfl

/-- one file is taken as it is -/
theorem openAll_one {fs : Files F} {f : String} {md : NcFile F} (h : openAll fs [f] = .ok md) : fs f = some md := by
  unfold openAll at h
  obtain ⟨ds, h1, h⟩ := Res.bind_ok h
  rw [List.mapM_cons] at h1
  obtain ⟨d, h2, h1⟩ := Res.bind_ok h1
  cases h1
  obtain ⟨n, e, hn⟩ := openFile_ok h2
  cases e
  rw [if_pos (by simp [coordsAgree])] at h
  cases h
  rw [hn]
  simp

/-- two files whose common coordinates agree -/
theorem openAll_two {fs : Files F} {f g : String} {md d e : NcFile F} (h : openAll fs [f, g] = .ok md) (hd : fs f = some d) (he : fs g = some e) (ha : agree d e = true) :
    md = d ++ e := by
  unfold openAll at h
  simp only [List.mapM_cons, List.mapM_nil, openFile, hd, he] at h
  simp only [bind, Except.bind, pure, Except.pure] at h
  rw [if_pos (by simp [coordsAgree, ha])] at h
  cases h
  simp

/-- the data set merged from two files: both, if common coordinates are equal, otherwise both on the union of the coordinates -/
def merged (d e : NcFile F) : NcFile F := if agree d e then d ++ e else d.map (alignVar [d, e] d) ++ e.map (alignVar [d, e] e)

theorem openAll_pair {fs : Files F} {f g : String} {d e : NcFile F} (hd : fs f = some d) (he : fs g = some e) : openAll fs [f, g] = .ok (merged d e) := by
  unfold openAll merged
  simp only [List.mapM_cons, List.mapM_nil, openFile, hd, he]
  simp only [bind, Except.bind, pure, Except.pure]
  by_cases h : agree d e = true
  · rw [if_pos (by simp [coordsAgree, h]), if_pos h]
    simp
  · rw [if_neg (by simpa [coordsAgree] using h), if_neg h]
    simp

theorem merged_agree {d e : NcFile F} (h : agree d e = true) : merged d e = d ++ e := if_pos h

omit [FloatOps F] in
theorem lookup_map_keys {α : Type} {g : String × α → String × α} (hg : ∀ p, (g p).1 = p.1) {l : List (String × α)} {k : String} {v : α} (h : List.lookup k l = some v) :
    List.lookup k (l.map g) = some (g (k, v)).2 := by
  induction l with
  | nil => cases h
  | cons p l ih =>
    obtain ⟨k', v'⟩ := p
    rw [List.lookup_cons] at h
    rw [List.map_cons]
    have e : g (k', v') = (k', (g (k', v')).2) := Prod.ext (hg (k', v')) rfl
    rw [e, List.lookup_cons]
    cases hk : (k == k') with
    | true =>
      rw [hk] at h
      cases h
      have := eq_of_beq hk
      subst this
      rfl
    | false =>
      rw [hk] at h
      exact ih h

theorem alignVar_keeps (ds : List (NcFile F)) (d : NcFile F) (p : String × NcVar F) : (alignVar ds d p).1 = p.1 ∧ (alignVar ds d p).2.dims = p.2.dims := by
  unfold alignVar
  simp only []
  split <;> exact ⟨rfl, rfl⟩

/-- the first file wins -/
theorem openAll_head {fs : Files F} {f : String} {names : List String} {md : NcFile F} (h : openAll fs (f :: names) = .ok md) :
    ∃ d, fs f = some d ∧ ∀ v x, List.lookup v d = some x → ∃ x', List.lookup v md = some x' ∧ x'.dims = x.dims := by
  unfold openAll at h
  obtain ⟨ds, h1, h⟩ := Res.bind_ok h
  rw [List.mapM_cons] at h1
  obtain ⟨d, h2, h1⟩ := Res.bind_ok h1
  obtain ⟨ds', h3, h1⟩ := Res.bind_ok h1
  cases h1
  obtain ⟨n, e, hn⟩ := openFile_ok h2
  cases e
  refine ⟨d, hn, fun v x hx => ?_⟩
  split at h
  · cases h
    exact ⟨x, by rw [List.flatten_cons]; exact lookup_append_some hx, rfl⟩
  · cases h
    refine ⟨_, ?_, (alignVar_keeps (d :: ds') d (v, x)).2⟩
    rw [List.map_cons, List.flatten_cons]
    exact lookup_append_some (lookup_map_keys (fun p => (alignVar_keeps (d :: ds') d p).1) hx)

/-- the variable that gives the output its shape, as loaded: the precipitation variable of the precipitation file -/
theorem load_precip {j : Job} {w : World F} {d : NcFile F} {ds : Int} {like : NcVar F} {sh : Dict (Arr F)} {shape : List Nat} {f v : String} {df : NcFile F} {x : NcVar F}
    (h : loadInputs lower yearOf j w = .ok (d, ds, like, sh, shape)) (hp : j.precip = some (f, v)) (hf : w.files f = some df) (hx : List.lookup v df = some x) :
    like.dims = x.dims ∧ List.lookup v d = some like ∧ dropDimsOk j.inputType x.dims = true := by
  obtain ⟨v', cvars, vars, h1, h2, h3, h4, h5, _⟩ := loadInputs_ok h
  rw [hp] at h1
  obtain ⟨d1, h6, h7⟩ := openAll_head h1
  rw [hf] at h6
  cases h6
  obtain ⟨x', h8, h9⟩ := h7 v x hx
  unfold outputLike at h2
  rw [hp] at h2
  cases h2
  rw [h3] at h8
  cases h8
  refine ⟨h9, h3, ?_⟩
  obtain ⟨p, t, e, l, c1, _, _, _, rfl⟩ := convertInputs_ok h4
  rcases convertInput_ok c1 with ⟨c, _⟩ | ⟨f', v', x', y, c, rfl, c2, c3⟩
  · rw [hp] at c; cases c
  · rw [hp] at c
    cases c
    rw [h3] at c2
    cases c2
    obtain ⟨u, _, c4, _⟩ := convertVar_ok c3
    rw [List.append_assoc, List.append_assoc, List.singleton_append, List.mapM_cons] at h5
    obtain ⟨q, h10, _⟩ := Res.bind_ok h5
    have := (dropVar_ok h10).1
    rw [← h9, ← c4]
    exact this

/-- SPEI and PET are not implemented for single time series -/
theorem cwi_timeseries {j : Job} {w w' : World F} {r : String × String} (hi : j.index = "spei" ∨ j.index = "pet") (hj : j.inputType = .timeseries) :
    computeWriteIndex K wk lower yearOf j w ≠ (.ok r, w') := by
  intro h
  obtain ⟨d, ds, like, sh, shape, out, v, _, _, h2, _⟩ := cwi_parts h
  unfold computeValues at h2
  obtain ⟨_, _, h2⟩ := Res.bind_ok h2
  obtain ⟨_, _, h2⟩ := Res.bind_ok h2
  obtain ⟨_, _, h2⟩ := Res.bind_ok h2
  obtain ⟨_, _, h2⟩ := Res.bind_ok h2
  obtain ⟨_, _, h2⟩ := Res.bind_ok h2
  unfold parallelProcess at h2
  obtain ⟨_, _, h2⟩ := Res.bind_ok h2
  obtain ⟨_, _, h2⟩ := Res.bind_ok h2
  split at h2
  · obtain ⟨_, _, h2⟩ := Res.bind_ok h2
    rw [hj] at h2
    simp only [] at h2
    rw [if_pos (by rcases hi with hi | hi <;> rw [hi] <;> decide)] at h2
    cases h2
  · cases h2

end

end CI
