import Verif.Model.Alias
import Verif.Lemmas.SpiFit

/-! The heap functions compute the same values as the value level models, and what they do to the caller's buffer. -/

namespace CI
variable {F : Type}

theorem H_bind_ok {α β : Type} {x : H F α} {f : α → H F β} {h h' : Heap F} {a : α} (hx : x h = (.ok a, h')) : (x >>= f) h = f a h' := by
  show H.bind x f h = _
  unfold H.bind; rw [hx]

theorem H_bind_err {α β : Type} {x : H F α} {f : α → H F β} {h h' : Heap F} {e : PyErr} (hx : x h = (.error e, h')) : (x >>= f) h = (.error e, h') := by
  show H.bind x f h = _
  unfold H.bind; rw [hx]

theorem H_get_bind {β : Type} (r : Ref) (f : Arr F → H F β) (h : Heap F) : (getArr r >>= f) h = f (h.arr r) h := rfl

/-- `r` holds `a` in heap `h`, which is `h0` plus later buffers; `al` says whether `r` is the buffer `c` of `h0` or a later one -/
structure Sim (c : Nat) (h0 h : Heap F) (r : Ref) (a : Arr F) (al : Bool) : Prop where
  pre : ∃ ex, h = h0 ++ ex
  arr : h.arr r = a
  loc : if al then r.buf = c else h0.length ≤ r.buf ∧ r.buf < h.length

/-- call `x` on heap `h` gives the value (or exception) `g`, keeps `h0` as it is, and the result is the buffer `c` itself iff `al` -/
def Runs (c : Nat) (h0 h : Heap F) (x : H F Ref) (g : Res (Arr F)) (al : Bool) : Prop :=
  (∃ e h', g = .error e ∧ x h = (.error e, h') ∧ ∃ ex, h' = h0 ++ ex) ∨ ∃ a' r' h', g = .ok a' ∧ x h = (.ok r', h') ∧ Sim c h0 h' r' a' al

theorem Runs.bind {c : Nat} {h0 h : Heap F} {x : H F Ref} {g : Res (Arr F)} {al al' : Bool} {f : Ref → H F Ref} {k : Arr F → Res (Arr F)}
    (hx : Runs c h0 h x g al) (hf : ∀ a' r' h', g = .ok a' → Sim c h0 h' r' a' al → Runs c h0 h' (f r') (k a') al') : Runs c h0 h (x >>= f) (g >>= k) al' := by
  rcases hx with ⟨e, h', rfl, h1, h2⟩ | ⟨a', r', h', rfl, h1, h2⟩
  · exact Or.inl ⟨e, h', rfl, H_bind_err h1, h2⟩
  · have := hf a' r' h' rfl h2
    unfold Runs at this ⊢
    rw [H_bind_ok h1]
    exact this

theorem Runs.pure {c : Nat} {h0 h : Heap F} {r : Ref} {a : Arr F} {al : Bool} (hS : Sim c h0 h r a al) : Runs c h0 h (pure r) (.ok a) al :=
  Or.inr ⟨a, r, h, rfl, rfl, hS⟩

theorem Runs.error {c : Nat} {h0 h : Heap F} {r : Ref} {a : Arr F} {al al' : Bool} (hS : Sim c h0 h r a al) (e : PyErr) :
    Runs c h0 h (liftRes (.error e)) (.error e) al' := Or.inl ⟨e, h, rfl, rfl, hS.pre⟩

theorem Runs.alloc {c : Nat} {h0 h : Heap F} {r : Ref} {a : Arr F} {al : Bool} (hS : Sim c h0 h r a al) (b : Arr F) :
    Runs c h0 h (allocArr b) (.ok b) false := by
  obtain ⟨ex, hex⟩ := hS.pre
  refine Or.inr ⟨b, ⟨h.length, b.shape⟩, h ++ [b.data], rfl, rfl, ⟨⟨ex ++ [b.data], by rw [hex, List.append_assoc]⟩, ?_, ?_⟩⟩
  · unfold Heap.arr; simp
  · simp [hex]

theorem Sim.init {h0 : Heap F} {r : Ref} {a : Arr F} (ha : h0.arr r = a) : Sim r.buf h0 h0 r a true :=
  ⟨⟨[], by simp⟩, ha, by simp⟩

theorem Sim.shape {c : Nat} {h0 h : Heap F} {r : Ref} {a : Arr F} {al : Bool} (hS : Sim c h0 h r a al) : r.shape = a.shape := by
  rw [← hS.arr]; rfl

theorem Sim.data {c : Nat} {h0 h : Heap F} {r : Ref} {a : Arr F} {al : Bool} (hS : Sim c h0 h r a al) : h.getD r.buf [] = a.data := by
  rw [← hS.arr]; rfl

variable [FloatOps F]

/-- no padding needed -/
def noPad (a : Arr F) (k : Nat) : Bool := match a.shape with | [n] => n % k == 0 | _ => true

theorem reshape_runs {c : Nat} {h0 h : Heap F} {r : Ref} {a : Arr F} {al : Bool} (hS : Sim c h0 h r a al) (k : Nat) :
    Runs c h0 h (reshapeTo2dH r k) (reshapeTo2d a k) (al && noPad a k) := by
  have hget : reshapeTo2dH r k h = _ := H_get_bind r _ h
  unfold Runs
  rw [hget, hS.arr]
  obtain ⟨sh, d⟩ := a
  unfold reshapeTo2d noPad
  match sh with
  | [] => exact Runs.error hS _
  | [n] =>
    simp only
    by_cases hk : k = 0
    · subst hk; simp only [if_true]; exact Runs.error hS _
    · simp only [if_neg hk]
      by_cases hn : n % k > 0
      · have e : (n % k == 0) = false := by simp; omega
        rw [e, Bool.and_false]
        simp only [hn, if_true]
        exact Runs.alloc hS _
      · have e : (n % k == 0) = true := by simp; omega
        rw [e, Bool.and_true]
        simp only [hn, if_false]
        refine Runs.pure ⟨hS.pre, ?_, hS.loc⟩
        unfold Heap.arr
        simp only
        rw [hS.data]
  | [n, m] =>
    simp only
    split
    · rw [Bool.and_true]; exact Runs.pure hS
    · exact Runs.error hS _
  | _ :: _ :: _ :: _ => exact Runs.error hS _

theorem reshapePer_runs {c : Nat} {h0 h : Heap F} {r : Ref} {a : Arr F} {al : Bool} (hS : Sim c h0 h r a al) (per : Periodicity) :
    Runs c h0 h (reshapePerH r per) (reshapeValues a per) (al && noPad a per.steps) := by
  unfold reshapePerH reshapeValues
  cases per with
  | monthly => exact reshape_runs hS 12
  | daily => exact reshape_runs hS 366
  | other => exact Runs.error hS _

theorem validate_runs {c : Nat} {h0 h : Heap F} {r : Ref} {a : Arr F} {al : Bool} (hS : Sim c h0 h r a al) (per : Periodicity) :
    Runs c h0 h (validateArrayH r per) (validateArray a per) (al && noPad a per.steps) := by
  unfold validateArrayH validateArray
  rw [hS.shape]
  match hsh : a.shape with
  | [] => exact Runs.error hS _
  | [n] =>
    cases per with
    | monthly => exact reshape_runs hS 12
    | daily => exact reshape_runs hS 366
    | other => exact Runs.error hS _
  | [n, m] =>
    simp only
    split
    · have : noPad a per.steps = true := by unfold noPad; rw [hsh]
      rw [this, Bool.and_true]; exact Runs.pure hS
    · exact Runs.error hS _
  | _ :: _ :: _ :: _ => exact Runs.error hS _

theorem flatten_runs {c : Nat} {h0 h : Heap F} {r : Ref} {a : Arr F} {al : Bool} (hS : Sim c h0 h r a al) (hwf : a.WF) :
    Runs c h0 h (flattenH r) (if a.shape.length = 2 ∨ a.shape.length = 1 then .ok (Arr.of1d a.data) else .error .valueError)
      (al && decide (a.shape.length = 1)) := by
  unfold flattenH
  rw [hS.shape]
  by_cases h2 : a.shape.length = 2
  · rw [if_pos h2, if_pos (Or.inl h2)]
    have : decide (a.shape.length = 1) = false := by simp; omega
    rw [this, Bool.and_false]
    unfold Runs
    rw [H_get_bind, hS.arr]
    exact Runs.alloc hS _
  · rw [if_neg h2]
    by_cases h1 : a.shape.length = 1
    · rw [if_pos h1, if_pos (Or.inr h1)]
      simp only [h1, decide_true, Bool.and_true]
      have e : Arr.of1d a.data = a := by
        obtain ⟨sh, d⟩ := a
        match sh, h1 with
        | [n], _ =>
          have : d.length = n := by simpa [Arr.WF] using hwf
          simp [Arr.of1d, this]
      rw [e]
      exact Runs.pure hS
    · rw [if_neg h1, if_neg (by tauto)]
      exact Runs.error hS _

/-- the series is clipped (has a negative value and no missing one) -/
def clips (d : List F) : Bool := match amin d with | .ok m => flt m (lit 0) | .error _ => false

theorem clip_runs {c : Nat} {h0 h : Heap F} {r : Ref} {d : List F} {al : Bool} (hS : Sim c h0 h r (Arr.of1d d) al) (hd : d ≠ []) :
    Runs c h0 h (clipNegH r) (.ok (Arr.of1d (clipNeg d))) (al && !clips d) := by
  obtain ⟨m, hm⟩ := amin_ok d hd
  unfold Runs clipNegH
  rw [H_get_bind, hS.arr]
  have h1 : ((liftRes (amin (Arr.of1d d).data) : H F F)) h = (.ok m, h) := by
    show (amin d, h) = _
    rw [hm]
  rw [H_bind_ok h1]
  unfold clips clipNeg
  rw [hm]
  simp only
  by_cases hf : flt m (lit 0) = true
  · rw [if_pos hf, if_pos hf, hf]
    have := Runs.alloc hS (Arr.of1d (d.map (npClipMin (lit 0))))
    simpa [Arr.of1d, Runs] using this
  · rw [if_neg hf, if_neg hf]
    have hf' : flt m (lit 0) = false := by simpa using hf
    rw [hf']
    simp only [Bool.not_false, Bool.and_true]
    exact Runs.pure hS

theorem sum_runs {c : Nat} {h0 h : Heap F} {r : Ref} {d : List F} {al : Bool} (hS : Sim c h0 h r (Arr.of1d d) al) (scale : Int) :
    Runs c h0 h (sumToScaleH r scale) (sumToScale d scale >>= fun s => .ok (Arr.of1d s)) (al && decide (scale = 1)) := by
  unfold sumToScaleH
  by_cases h1 : scale = 1
  · subst h1
    simp only [if_true, decide_true, Bool.and_true]
    exact Runs.pure hS
  · simp only [h1, if_false, decide_false, Bool.and_false]
    unfold Runs
    rw [H_get_bind, hS.arr]
    show (∃ e h', _ ∧ (liftRes (sumToScale d scale) >>= _) h = _ ∧ _) ∨ ∃ a' r' h', _ ∧ (liftRes (sumToScale d scale) >>= _) h = _ ∧ _
    cases hs : sumToScale d scale with
    | error e => exact Runs.error (r := r) hS e
    | ok s => exact Runs.alloc hS _

/-- the buffer of the caller is still the one that is reshaped -/
def stays (a : Arr F) (scale : Int) (per : Periodicity) : Bool :=
  decide (a.shape.length = 1) && !clips a.data && decide (scale = 1) && decide (a.data.length % per.steps = 0)

theorem scaled_runs {c : Nat} {h0 h : Heap F} {r : Ref} {d : List F} {al : Bool} (hS : Sim c h0 h r (Arr.of1d d) al) (hd : d ≠ []) (scale : Int) (per : Periodicity) :
    Runs c h0 h (do let r ← clipNegH r; let r ← sumToScaleH r scale; reshapePerH r per)
      (do let s ← sumToScale (clipNeg d) scale; reshapeValues (Arr.of1d s) per)
      (al && !clips d && decide (scale = 1) && decide (d.length % per.steps = 0)) := by
  have key : Runs c h0 h (do let r ← clipNegH r; let r ← sumToScaleH r scale; reshapePerH r per)
      ((.ok (Arr.of1d (clipNeg d)) : Res (Arr F)) >>= fun b => ((sumToScale b.data scale >>= fun s => .ok (Arr.of1d s)) >>= fun b => reshapeValues b per))
      (al && !clips d && decide (scale = 1) && decide (d.length % per.steps = 0)) := by
    refine Runs.bind (clip_runs hS hd) (fun a1 r1 h1 e1 S1 => ?_)
    injection e1 with e1
    subst e1
    refine Runs.bind (sum_runs S1 scale) (fun a2 r2 h2 e2 S2 => ?_)
    have := reshapePer_runs S2 per
    by_cases h1 : scale = 1
    · subst h1
      have e : a2 = Arr.of1d (clipNeg d) := by
        have : sumToScale (Arr.of1d (clipNeg d)).data 1 = .ok (clipNeg d) := by unfold sumToScale; simp [Arr.of1d]
        simp only [sumToScale, if_true, bind, Except.bind] at e2
        injection e2 with e2
        exact e2.symm
      subst e
      have e3 : noPad (Arr.of1d (clipNeg d)) per.steps = decide (d.length % per.steps = 0) := by
        unfold noPad Arr.of1d
        simp only [clipNeg_length]
        rfl
      rw [e3] at this
      exact this
    · simp only [h1, decide_false, Bool.and_false, Bool.false_and] at this ⊢
      exact this
  have e : ((.ok (Arr.of1d (clipNeg d)) : Res (Arr F)) >>= fun b => ((sumToScale b.data scale >>= fun s => .ok (Arr.of1d s)) >>= fun b => reshapeValues b per))
      = (do let s ← sumToScale (clipNeg d) scale; reshapeValues (Arr.of1d s) per) := by
    show ((sumToScale (clipNeg d) scale >>= fun s => (.ok (Arr.of1d s) : Res (Arr F))) >>= fun b => reshapeValues b per) = _
    cases sumToScale (clipNeg d) scale <;> rfl
  rw [e] at key
  exact key

/-! ## in-place writes -/

theorem heap_set_arr (h : Heap F) (r : Ref) (d : List F) (hr : r.buf < h.length) : Heap.arr (h.set r.buf d) r = ⟨r.shape, d⟩ := by
  unfold Heap.arr
  simp [List.getD, hr]

theorem gammaParameters_fitArr (E : Ext F) (n p : Nat) (d : List F) (ds cs ce : Int) (per : Periodicity) (hp : p = 12 ∨ p = 366) (hn : allNan d = false) :
    gammaParameters E ⟨[n, p], d⟩ ds cs ce per = gammaFitArr E ⟨[n, p], d.map zeroToNan⟩ ds cs ce := by
  unfold gammaParameters
  simp only [hn, Bool.false_eq_true, if_false, validateArray, hp, if_true]
  rfl

/-- `gamma_parameters` on a years by calendar steps array -/
theorem gammaParametersH_2d (E : Ext F) (h : Heap F) (r : Ref) (n p : Nat) (d : List F) (ds cs ce : Int) (per : Periodicity) (hr : r.buf < h.length)
    (ha : h.arr r = ⟨[n, p], d⟩) (hp : p = 12 ∨ p = 366) (hn : allNan d = false) :
    gammaParametersH E r ds cs ce per h = (gammaParameters E ⟨[n, p], d⟩ ds cs ce per, h.set r.buf (d.map zeroToNan)) := by
  have hsh : r.shape = [n, p] := by have := congrArg Arr.shape ha; exact this
  unfold gammaParametersH
  rw [H_get_bind, ha]
  simp only [hn, Bool.false_eq_true, if_false]
  have hv : validateArrayH r per h = (.ok r, h) := by
    unfold validateArrayH; rw [hsh]; simp only [hp, if_true]; rfl
  rw [H_bind_ok hv, H_get_bind, ha]
  have hput : putData r ((⟨[n, p], d⟩ : Arr F).data.map zeroToNan) h = (.ok (), h.set r.buf (d.map zeroToNan)) := rfl
  rw [H_bind_ok hput, H_get_bind, heap_set_arr _ _ _ hr, hsh, gammaParameters_fitArr E n p d ds cs ce per hp hn]
  rfl

theorem gammaParametersH_nan (E : Ext F) (h : Heap F) (r : Ref) (ds cs ce : Int) (per : Periodicity) (hn : allNan (h.arr r).data = true) :
    gammaParametersH E r ds cs ce per h = (gammaParameters E (h.arr r) ds cs ce per, h) := by
  unfold gammaParametersH gammaParameters
  rw [H_get_bind]
  simp only [hn, if_true]
  cases per <;> rfl

theorem transformGamma_outArr (E : Ext F) (n p : Nat) (d : List F) (ds cs ce : Int) (per : Periodicity) (al be : Option (List F)) (hp : p = 12 ∨ p = 366)
    (hn : allNan d = false) :
    transformFittedGamma E ⟨[n, p], d⟩ ds cs ce per al be =
      (match al, be with
        | some x, some y => .ok (x, y)
        | _, _ => gammaParameters E ⟨[n, p], d.map zeroToNan⟩ ds cs ce per) >>= fun ab => gammaOutArr E ⟨[n, p], d⟩ ⟨[n, p], d.map zeroToNan⟩ ab.1 ab.2 := by
  unfold transformFittedGamma
  simp only [hn, Bool.false_eq_true, if_false, validateArray, hp, if_true]
  cases al <;> cases be <;> rfl

/-- `transform_fitted_gamma` on a years by calendar steps array -/
theorem transformFittedGammaH_2d [FloatLaws F] (E : Ext F) (h : Heap F) (r : Ref) (n p : Nat) (d : List F) (ds cs ce : Int) (per : Periodicity) (al be : Option (List F))
    (hr : r.buf < h.length) (ha : h.arr r = ⟨[n, p], d⟩) (hp : p = 12 ∨ p = 366) (hn : allNan d = false) :
    transformFittedGammaH E r ds cs ce per al be h = match transformFittedGamma E ⟨[n, p], d⟩ ds cs ce per al be with
      | .error e => (.error e, h.set r.buf (d.map zeroToNan))
      | .ok out => (.ok ⟨h.length, out.shape⟩, h.set r.buf (d.map zeroToNan) ++ [out.data]) := by
  have hsh : r.shape = [n, p] := by have := congrArg Arr.shape ha; exact this
  unfold transformFittedGammaH
  rw [H_get_bind, ha]
  simp only [hn, Bool.false_eq_true, if_false]
  have hv : validateArrayH r per h = (.ok r, h) := by
    unfold validateArrayH; rw [hsh]; simp only [hp, if_true]; rfl
  rw [H_bind_ok hv, H_get_bind, ha]
  have hput : putData r ((⟨[n, p], d⟩ : Arr F).data.map zeroToNan) h = (.ok (), h.set r.buf (d.map zeroToNan)) := rfl
  rw [H_bind_ok hput, transformGamma_outArr E n p d ds cs ce per al be hp hn]
  have hr' : r.buf < (h.set r.buf (d.map zeroToNan)).length := by simpa using hr
  have ha' : Heap.arr (h.set r.buf (d.map zeroToNan)) r = ⟨[n, p], d.map zeroToNan⟩ := by rw [heap_set_arr _ _ _ hr, hsh]
  have hg : gammaParametersH E r ds cs ce per (h.set r.buf (d.map zeroToNan)) =
      (gammaParameters E ⟨[n, p], d.map zeroToNan⟩ ds cs ce per, h.set r.buf (d.map zeroToNan)) := by
    cases hnn : allNan (d.map zeroToNan) with
    | true =>
      rw [gammaParametersH_nan E _ r ds cs ce per (by rw [ha']; exact hnn), ha']
    | false =>
      rw [gammaParametersH_2d E _ r n p _ ds cs ce per hr' ha' hp hnn, zeroToNan_map_idem, List.set_set]
  have fin : ∀ ab : List F × List F, (do
      let a ← getArr r
      let out ← liftRes (gammaOutArr E ⟨[n, p], d⟩ a ab.1 ab.2)
      allocArr out : H F Ref) (h.set r.buf (d.map zeroToNan)) = match gammaOutArr E ⟨[n, p], d⟩ ⟨[n, p], d.map zeroToNan⟩ ab.1 ab.2 with
      | .error e => (.error e, h.set r.buf (d.map zeroToNan))
      | .ok out => (.ok ⟨h.length, out.shape⟩, h.set r.buf (d.map zeroToNan) ++ [out.data]) := by
    intro ab
    rw [H_get_bind, ha']
    cases ho : gammaOutArr E ⟨[n, p], d⟩ ⟨[n, p], d.map zeroToNan⟩ ab.1 ab.2 with
    | error e => rfl
    | ok out =>
      show ((.ok ⟨(h.set r.buf (d.map zeroToNan)).length, out.shape⟩, _) : Res Ref × Heap F) = _
      rw [List.length_set]
  have gen : ∀ (x : H F (List F × List F)) (g : Res (List F × List F)), x (h.set r.buf (d.map zeroToNan)) = (g, h.set r.buf (d.map zeroToNan)) →
      (x >>= fun ab => (do
        let a ← getArr r
        let out ← liftRes (gammaOutArr E ⟨[n, p], d⟩ a ab.1 ab.2)
        allocArr out : H F Ref)) (h.set r.buf (d.map zeroToNan)) = match g >>= fun ab => gammaOutArr E ⟨[n, p], d⟩ ⟨[n, p], d.map zeroToNan⟩ ab.1 ab.2 with
      | .error e => (.error e, h.set r.buf (d.map zeroToNan))
      | .ok out => (.ok ⟨h.length, out.shape⟩, h.set r.buf (d.map zeroToNan) ++ [out.data]) := by
    intro x g hx
    cases g with
    | error e => rw [H_bind_err hx]; rfl
    | ok ab => rw [H_bind_ok hx]; exact fin ab
  cases al with
  | none => exact gen _ _ hg
  | some x =>
    cases be with
    | none => exact gen _ _ hg
    | some y => exact gen _ _ rfl

/-- the caller's buffer after `spi` -/
def spiWrites (a : Arr F) (scale : Int) (dist : Distribution) (per : Periodicity) (fp : Option (FitDict F)) : Bool :=
  decide (dist = .gamma) && !allNan a.data && stays a scale per && (match getGammaArgs fp with | .ok _ => true | .error _ => false)

theorem clipNeg_of_not_clips (d : List F) (h : clips d = false) : clipNeg d = d := by
  unfold clips at h
  unfold clipNeg
  split
  · rename_i m hm
    rw [hm] at h
    simp only at h
    rw [h]; simp
  · rfl

theorem stays_data (a : Arr F) (s : List F) (b : Arr F) (scale : Int) (per : Periodicity)
    (hst : (!clips a.data && decide (scale = 1) && decide (a.data.length % per.steps = 0)) = true)
    (hs : sumToScale (clipNeg a.data) scale = .ok s) (hb : reshapeValues (Arr.of1d s) per = .ok b) : b.data = a.data := by
  simp only [Bool.and_eq_true, Bool.not_eq_true', decide_eq_true_eq] at hst
  obtain ⟨⟨h1, h2⟩, h3⟩ := hst
  subst h2
  rw [clipNeg_of_not_clips _ h1] at hs
  have : s = a.data := by unfold sumToScale at hs; simpa using hs.symm
  subst this
  obtain ⟨_, n, _, _, hd⟩ := reshapeValues_ok _ per b hb
  rw [hd]
  have : padCount a.data.length per.steps = 0 := by
    unfold padCount; simp [h3]
  rw [this]; simp

theorem Sim.lt {c : Nat} {h0 h : Heap F} {r : Ref} {a : Arr F} {al : Bool} (hS : Sim c h0 h r a al) (hc : c < h0.length) : r.buf < h.length := by
  have := hS.loc
  obtain ⟨ex, hex⟩ := hS.pre
  cases al with
  | true => simp only [if_true] at this; rw [this, hex, List.length_append]; omega
  | false => simp only [Bool.false_eq_true, if_false] at this; exact this.2

theorem Sim.set {c : Nat} {h0 h : Heap F} {r : Ref} {a : Arr F} {al : Bool} (hS : Sim c h0 h r a al) (hc : c < h0.length) (d : List F) :
    ∃ ex, h.set r.buf d = (if al then h0.set c d else h0) ++ ex := by
  have := hS.loc
  obtain ⟨ex, hex⟩ := hS.pre
  cases al with
  | true =>
    simp only [if_true] at this ⊢
    exact ⟨ex, by rw [this, hex, List.set_append_left _ _ hc]⟩
  | false =>
    simp only [Bool.false_eq_true, if_false] at this ⊢
    exact ⟨ex.set (r.buf - h0.length) d, by rw [hex, List.set_append_right _ _ this.1]⟩

/-- the end of `spi`: clip, flatten, truncate into a new array -/
theorem spi_tail (h3 base : Heap F) (x : H F Ref) (g : Res (Arr F)) (len : Nat)
    (hx : (∃ e h4, g = .error e ∧ x h3 = (.error e, h4) ∧ ∃ ex, h4 = base ++ ex) ∨
      (∃ t r4 h4, g = .ok t ∧ x h3 = (.ok r4, h4) ∧ Heap.arr h4 r4 = t ∧ ∃ ex, h4 = base ++ ex)) :
    ∃ res h', (x >>= fun r => (do let a' ← getArr r; allocArr (Arr.of1d (clipFlattenTruncate a' len)) : H F Ref)) h3 = (res, h') ∧
      (res.map fun r' => (Heap.arr h' r').data) = (g >>= fun t => (.ok (clipFlattenTruncate t len) : Res (List F))) ∧ ∃ ex, h' = base ++ ex := by
  rcases hx with ⟨e, h4, rfl, h1, h2⟩ | ⟨t, r4, h4, rfl, h1, h2, ex, h3⟩
  · exact ⟨.error e, h4, H_bind_err h1, rfl, h2⟩
  · refine ⟨.ok ⟨h4.length, [(clipFlattenTruncate t len).length]⟩, h4 ++ [clipFlattenTruncate t len], ?_, ?_, ex ++ [clipFlattenTruncate t len], ?_⟩
    · rw [H_bind_ok h1, H_get_bind, h2]; rfl
    · show Except.ok _ = Except.ok _
      unfold Heap.arr; simp
    · rw [h3, List.append_assoc]

theorem spiH_spec [FloatLaws F] (E : Ext F) (h0 : Heap F) (r : Ref) (a : Arr F) (ha : h0.arr r = a) (hc : r.buf < h0.length) (hwf : a.WF) (scale : Int)
    (dist : Distribution) (ds cs ce : Int) (per : Periodicity) (fp : Option (FitDict F)) :
    ∃ res h', spiH E r scale dist ds cs ce per fp h0 = (res, h') ∧ (res.map fun r' => (h'.arr r').data) = spi E a scale dist ds cs ce per fp ∧
      ∃ ex, h' = (if spiWrites a scale dist per fp then h0.set r.buf (a.data.map zeroToNan) else h0) ++ ex := by
  have S0 : Sim r.buf h0 h0 r a true := Sim.init ha
  by_cases hdim : a.shape.length = 2 ∨ a.shape.length = 1
  case neg =>
    rcases flatten_runs S0 hwf with ⟨e, h', h1, h2, ex, h3⟩ | ⟨_, _, _, h1, _⟩
    · rw [if_neg hdim] at h1
      injection h1 with h1
      subst h1
      refine ⟨_, h', by unfold spiH; rw [H_bind_err h2], by unfold spi; rw [if_neg hdim]; rfl, ex, ?_⟩
      have : stays a scale per = false := by unfold stays; simp; intro h; omega
      unfold spiWrites
      rw [this]
      simpa using h3
    · rw [if_neg hdim] at h1; cases h1
  rcases flatten_runs S0 hwf with ⟨e, h', h1, h2, ex, h3⟩ | ⟨b1, r1, h1, e1, x1, S1⟩
  · rw [if_pos hdim] at h1; cases h1
  rw [if_pos hdim] at e1
  injection e1 with e1
  subst e1
  unfold spiH
  rw [H_bind_ok x1, H_get_bind, S1.arr]
  cases hn : allNan a.data with
  | true =>
    have hn' : allNan (Arr.of1d a.data).data = true := hn
    simp only [hn', if_true]
    refine ⟨.ok r1, h1, rfl, ?_, ?_⟩
    · show Except.ok ((h1.arr r1).data) = _
      rw [S1.arr]
      unfold spi; rw [if_pos hdim, if_pos hn]; rfl
    · obtain ⟨ex, hex⟩ := S1.pre
      refine ⟨ex, ?_⟩
      unfold spiWrites
      rw [hn]
      simpa using hex
  | false =>
    have hn' : allNan (Arr.of1d a.data).data = false := hn
    have hne := ne_nil_of_allNan _ hn
    simp only [hn', Bool.false_eq_true, if_false]
    rw [spi_eq E a scale dist ds cs ce per fp hdim hn]
    rcases clip_runs S1 hne with ⟨_, _, e2, _⟩ | ⟨b2, r2, h2, e2, x2, S2⟩
    · cases e2
    injection e2 with e2
    subst e2
    rw [H_bind_ok x2, H_get_bind, S2.arr]
    have hlen : (Arr.of1d (clipNeg a.data)).data.length = a.data.length := clipNeg_length _
    rw [hlen]
    have noW : ∀ (e : PyErr) (h' : Heap F), (∃ ex, h' = h0 ++ ex) → spiWrites a scale dist per fp = false →
        ∃ res h'', ((.error e, h') : Res Ref × Heap F) = (res, h'') ∧ (res.map fun r' => (h''.arr r').data) = (.error e : Res (List F)) ∧
          ∃ ex, h'' = (if spiWrites a scale dist per fp then h0.set r.buf (a.data.map zeroToNan) else h0) ++ ex := by
      intro e h' hex hw
      refine ⟨_, _, rfl, rfl, ?_⟩
      rw [hw]
      simpa using hex
    have wEq : spiWrites a scale dist per fp = (decide (dist = .gamma) && (true && decide (a.shape.length = 1) && !clips a.data && decide (scale = 1) &&
        decide (a.data.length % per.steps = 0)) && (match getGammaArgs fp with | .ok _ => true | .error _ => false)) := by
      unfold spiWrites stays
      rw [hn]
      simp
    have SR : Runs r.buf h0 h2 (sumToScaleH r2 scale >>= fun r => reshapePerH r per)
        (do let s ← sumToScale (clipNeg a.data) scale; reshapeValues (Arr.of1d s) per)
        (true && decide (a.shape.length = 1) && !clips a.data && decide (scale = 1) && decide (a.data.length % per.steps = 0)) := by
      have := scaled_runs S1 hne scale per
      unfold Runs at this ⊢
      rw [H_bind_ok x2] at this
      exact this
    generalize hal : (true && decide (a.shape.length = 1) && !clips a.data && decide (scale = 1) && decide (a.data.length % per.steps = 0)) = al at SR wEq
    generalize hK : (fun r : Ref => (do
        let r ← match dist with
          | .gamma => do
            let ab ← liftRes (getGammaArgs fp)
            transformFittedGammaH E r ds cs ce per ab.1 ab.2
          | .pearson => do
            let args ← liftRes (getPearsonArgs fp)
            transformFittedPearsonH E r ds cs ce per args
          | .other => liftRes (.error .valueError)
        let a' ← getArr r
        allocArr (Arr.of1d (clipFlattenTruncate a' a.data.length)) : H F Ref)) = K
    have assoc : (sumToScaleH r2 scale >>= fun r => reshapePerH r per >>= K) h2 = ((sumToScaleH r2 scale >>= fun r => reshapePerH r per) >>= K) h2 := by
      show H.bind _ _ _ = H.bind (H.bind _ _) _ _
      unfold H.bind
      cases sumToScaleH r2 scale h2 with
      | mk x y => cases x <;> rfl
    show ∃ res h', (sumToScaleH r2 scale >>= fun r => reshapePerH r per >>= K) h2 = (res, h') ∧ _
    rw [assoc]
    have val : (do
        let scaled ← sumToScale (clipNeg a.data) scale
        let a_1 ← reshapeValues (Arr.of1d scaled) per
        let t ← distTransform E a_1 dist ds cs ce per fp
        pure (clipFlattenTruncate t a.data.length) : Res (List F)) =
        ((do let s ← sumToScale (clipNeg a.data) scale; reshapeValues (Arr.of1d s) per) >>= fun b => do
          let t ← distTransform E b dist ds cs ce per fp
          pure (clipFlattenTruncate t a.data.length)) := by
      cases sumToScale (clipNeg a.data) scale <;> rfl
    rw [val]
    have alDim : al = true → (!clips a.data && decide (scale = 1) && decide (a.data.length % per.steps = 0)) = true := by
      intro h
      rw [h] at hal
      revert hal
      simp only [Bool.true_and, Bool.and_eq_true]
      tauto
    rcases SR with ⟨e, h3, e3, x3, hex⟩ | ⟨b3, r3, h3, e3, x3, S3⟩
    · rw [H_bind_err x3, e3]
      refine noW e h3 hex ?_
      have : al = false := by
        cases hb : al with
        | false => rfl
        | true =>
          exfalso
          have h1 := alDim hb
          simp only [Bool.and_eq_true, Bool.not_eq_true', decide_eq_true_eq] at h1
          obtain ⟨⟨_, g2⟩, g3⟩ := h1
          subst g2
          have : sumToScale (clipNeg a.data) 1 = .ok (clipNeg a.data) := by unfold sumToScale; simp
          rw [this] at e3
          have e3 : reshapeValues (Arr.of1d (clipNeg a.data)) per = .error e := e3
          cases per with
          | other =>
            simp only [Periodicity.steps, Nat.mod_zero] at g3
            exact hne (List.length_eq_zero_iff.1 g3)
          | monthly => unfold reshapeValues at e3; simp only at e3; rw [reshapeTo2d_of1d _ 12 (by norm_num)] at e3; cases e3
          | daily => unfold reshapeValues at e3; simp only at e3; rw [reshapeTo2d_of1d _ 366 (by norm_num)] at e3; cases e3
      rw [wEq, this]; simp
    · rw [H_bind_ok x3, e3, ← hK]
      have hsc : ∃ s, sumToScale (clipNeg a.data) scale = .ok s ∧ reshapeValues (Arr.of1d s) per = .ok b3 := by
        cases hs : sumToScale (clipNeg a.data) scale with
        | error e => rw [hs] at e3; cases e3
        | ok s => rw [hs] at e3; exact ⟨s, rfl, e3⟩
      obtain ⟨s, hs1, hs2⟩ := hsc
      obtain ⟨hper, n, hsh, _, _⟩ := reshapeValues_ok s per b3 hs2
      have hdat : al = true → b3.data = a.data := fun h => stays_data a s b3 scale per (alDim h) hs1 hs2
      obtain ⟨sh3, d3⟩ := b3
      simp only at hsh hdat
      subst hsh
      show ∃ res h', _ ∧ _ = (distTransform E ⟨[n, per.steps], d3⟩ dist ds cs ce per fp >>= fun t => (.ok (clipFlattenTruncate t a.data.length) : Res (List F))) ∧ _
      have h3pre := S3.pre
      cases dist with
      | other =>
        exact noW _ h3 h3pre (by rw [wEq]; simp)
      | pearson =>
        have hw : spiWrites a scale .pearson per fp = false := by rw [wEq]; simp
        unfold distTransform
        cases hargs : getPearsonArgs fp with
        | error e => exact noW e h3 h3pre hw
        | ok args =>
          refine spi_tail h3 _ _ (transformFittedPearson E (lmomentsFit E) ⟨[n, per.steps], d3⟩ ds cs ce per args) a.data.length ?_
          rw [hw]
          simp only [Bool.false_eq_true, if_false]
          unfold transformFittedPearsonH
          rw [H_get_bind, S3.arr]
          cases ht : transformFittedPearson E (lmomentsFit E) ⟨[n, per.steps], d3⟩ ds cs ce per args with
          | error e => exact Or.inl ⟨e, h3, rfl, rfl, h3pre⟩
          | ok t =>
            refine Or.inr ?_
            have hl : (liftRes (.ok t) : H F (Arr F)) h3 = (.ok t, h3) := rfl
            rw [H_bind_ok hl]
            cases hnd : allNan d3 with
            | true =>
              simp only [if_true]
              refine ⟨t, r3, h3, rfl, rfl, ?_, h3pre⟩
              rw [S3.arr]
              unfold transformFittedPearson at ht
              simp only [hnd, if_true] at ht
              split at ht
              · cases ht
              · injection ht
            | false =>
              simp only [Bool.false_eq_true, if_false]
              obtain ⟨ex, hex⟩ := h3pre
              refine ⟨t, ⟨h3.length, t.shape⟩, h3 ++ [t.data], rfl, rfl, ?_, ex ++ [t.data], by rw [hex, List.append_assoc]⟩
              unfold Heap.arr; simp
      | gamma =>
        unfold distTransform
        cases hargs : getGammaArgs fp with
        | error e => exact noW e h3 h3pre (by rw [wEq, hargs]; simp)
        | ok ab =>
          have hw : spiWrites a scale .gamma per fp = al := by rw [wEq, hargs]; simp
          refine spi_tail h3 _ _ (transformFittedGamma E ⟨[n, per.steps], d3⟩ ds cs ce per ab.1 ab.2) a.data.length ?_
          rw [hw]
          cases hnd : allNan d3 with
          | true =>
            have hal' : al = false := by
              cases hb : al with
              | false => rfl
              | true => rw [hdat hb, hn] at hnd; cases hnd
            rw [hal']
            simp only [Bool.false_eq_true, if_false]
            refine Or.inr ⟨⟨[n, per.steps], d3⟩, r3, h3, by unfold transformFittedGamma; simp only [hnd, if_true], ?_, S3.arr, h3pre⟩
            unfold transformFittedGammaH
            rw [H_get_bind, S3.arr]
            simp only [hnd, if_true]
            rfl
          | false =>
            rw [transformFittedGammaH_2d E h3 r3 n per.steps d3 ds cs ce per ab.1 ab.2 (S3.lt hc) S3.arr (steps_12_366 per hper) hnd]
            obtain ⟨ex, hex⟩ := S3.set hc (d3.map zeroToNan)
            have hbase : (if al then h0.set r.buf (a.data.map zeroToNan) else h0) = (if al then h0.set r.buf (d3.map zeroToNan) else h0) := by
              cases hb : al with
              | false => rfl
              | true => rw [hdat hb]
            rw [hbase]
            cases ht : transformFittedGamma E ⟨[n, per.steps], d3⟩ ds cs ce per ab.1 ab.2 with
            | error e => exact Or.inl ⟨e, _, rfl, rfl, ex, hex⟩
            | ok t =>
              refine Or.inr ⟨t, ⟨h3.length, t.shape⟩, _, rfl, rfl, ?_, ex ++ [t.data], by rw [hex, List.append_assoc]⟩
              unfold Heap.arr; simp

end CI
