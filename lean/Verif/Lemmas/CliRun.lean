import Verif.Lemmas.Cli
import Verif.Lemmas.Daily

/-!
# Lemmas about complete computations of the command line tool: the result row by row, and the influence of the shared arrays
-/

namespace CI
open Spec

/-! ## Chunks in sequence are the whole -/

theorem mapM_len {α β : Type} {f : α → Res β} : ∀ {l : List α} {o : List β}, l.mapM f = .ok o → o.length = l.length := by
  intro l
  induction l with
  | nil =>
    intro o h
    cases h
    rfl
  | cons x l ih =>
    intro o h
    rw [List.mapM_cons] at h
    obtain ⟨a, _, h⟩ := Res.bind_ok h
    obtain ⟨b, h2, h⟩ := Res.bind_ok h
    cases h
    simp [ih h2]

theorem mapM_get {α β : Type} {f : α → Res β} : ∀ {l : List α} {o : List β}, l.mapM f = .ok o → ∀ (i : Nat) (x : α), l[i]? = some x → ∃ y, o[i]? = some y ∧ f x = .ok y := by
  intro l
  induction l with
  | nil =>
    intro o h i x hx
    simp at hx
  | cons z l ih =>
    intro o h i x hx
    rw [List.mapM_cons] at h
    obtain ⟨a, h1, h⟩ := Res.bind_ok h
    obtain ⟨b, h2, h⟩ := Res.bind_ok h
    cases h
    cases i with
    | zero =>
      simp only [List.getElem?_cons_zero, Option.some.injEq] at hx
      subst hx
      exact ⟨a, rfl, h1⟩
    | succ i =>
      simp only [List.getElem?_cons_succ] at hx ⊢
      exact ih h2 i x hx

theorem mainChunks_chain {n w : Nat} {cs : List (Nat × Option Nat)} (h : mainChunks n w = .ok cs) : 1 ≤ n ∧ 1 ≤ w ∧ ChainFrom 0 cs := by
  have key : 1 ≤ n ∧ 1 ≤ w := by
    by_contra hc
    have hr : min n w = 0 := by omega
    unfold mainChunks at h
    simp only [hr] at h
    obtain ⟨s, h1, _⟩ := Res.bind_ok h
    unfold splitIndices at h1
    simp at h1
  refine ⟨key.1, key.2, ?_⟩
  rw [mainChunks_spec n w key.1 key.2] at h
  cases h
  exact chain_regular n _ (by omega)

/-- chunk after chunk, every row is the function of the row of the input -/
theorem applyChunks_mapM {ρ σ : Type} (f : ρ → Res σ) (rows : List ρ) (cs : List (Nat × Option Nat)) :
    ∀ (a : Nat) (o r : List σ), ChainFrom a cs → o.length = rows.length → applyChunks (fun l => l.mapM f) rows cs o = .ok r →
      ∃ r', (rows.drop a).mapM f = .ok r' ∧ r = o.take a ++ r' := by
  induction cs with
  | nil => intro a o r h; exact h.elim
  | cons c cs ih =>
    obtain ⟨b, e⟩ := c
    intro a o r h ho hr
    cases e with
    | none =>
      obtain ⟨rfl, rfl⟩ := h
      simp only [applyChunks, Option.getD_none, List.take_length] at hr
      obtain ⟨new, h1, h2⟩ := Res.bind_ok hr
      cases h2
      exact ⟨new, h1, by simp⟩
    | some e =>
      obtain ⟨rfl, hbe, hc⟩ := h
      simp only [applyChunks, Option.getD_some] at hr
      obtain ⟨new, h1, h2⟩ := Res.bind_ok hr
      have hl := mapM_len h1
      simp only [List.length_drop, List.length_take] at hl
      obtain ⟨r', h3, h4⟩ := ih e _ _ hc (by simp [hl, ho]; omega) h2
      refine ⟨new ++ r', ?_, ?_⟩
      · have : rows.drop a = (rows.take e).drop a ++ rows.drop e := by
          by_cases he : e ≤ rows.length
          · rw [← List.drop_append_of_le_length (by simp; omega), List.take_append_drop]
          · rw [List.take_of_length_le (by omega), List.drop_of_length_le (i := e) (by omega), List.append_nil]
        rw [this, List.mapM_append, h1, h3]
        rfl
      · rw [h4]
        by_cases he : e ≤ rows.length
        · have hlen : (o.take a ++ new).length = e := by simp [hl, ho]; omega
          rw [List.take_append_of_le_length (l₁ := o.take a ++ new) (by omega), List.take_of_length_le (by omega), List.append_assoc]
        · rw [List.drop_of_length_le (i := e) (by omega), List.append_nil, List.take_of_length_le (by simp [hl, ho]; omega), List.append_assoc]

/-! ## Rows and series -/

theorem rowsOf_length {F : Type} (n : Nat) (d : List F) : (rowsOf n d).length = n := by simp [rowsOf]

theorem rowsOf_get {F : Type} {a m : Nat} {d : List F} (hd : d.length = a * m) (i : Nat) (hi : i < a) : (rowsOf a d)[i]? = some ((d.drop (i * m)).take m) := by
  have ha : 0 < a := by omega
  have : d.length / a = m := by rw [hd, Nat.mul_div_cancel_left _ ha]
  simp [rowsOf, this, hi]

theorem row_series {F : Type} {d : List F} (b n i k : Nat) (hk : k < b) : ((((d.drop (i * (b * n))).take (b * n)).drop (k * n)).take n) = seriesAt b n i k d := by
  unfold seriesAt
  rw [List.drop_take, List.take_take, List.drop_drop, Nat.min_eq_left]
  · congr 2
    ring
  · have : (k + 1) * n ≤ b * n := Nat.mul_le_mul_right _ hk
    rw [Nat.add_mul] at this
    omega

theorem flatten_block {F : Type} {n : Nat} : ∀ {l : List (List F)} (_ : ∀ x ∈ l, x.length = n) (k : Nat) (x : List F), l[k]? = some x →
    (l.flatten.drop (k * n)).take n = x := by
  intro l
  induction l with
  | nil => intro _ k x h; simp at h
  | cons y l ih =>
    intro hl k x h
    cases k with
    | zero =>
      simp only [List.getElem?_cons_zero, Option.some.injEq] at h
      subst h
      rw [List.flatten_cons, Nat.zero_mul, List.drop_zero, List.take_append_of_le_length (by rw [hl y (by simp)]), List.take_of_length_le (by rw [hl y (by simp)])]
    | succ k =>
      simp only [List.getElem?_cons_succ] at h
      have hy := hl y (by simp)
      rw [List.flatten_cons, Nat.add_mul, Nat.one_mul, Nat.add_comm, ← List.drop_drop, List.drop_append_of_le_length (by omega), List.drop_of_length_le (l := y) (by omega), List.nil_append]
      exact ih (fun x hx => hl x (by simp [hx])) k x h

theorem flatten_len {F : Type} {n : Nat} {l : List (List F)} (h : ∀ x ∈ l, x.length = n) : l.flatten.length = l.length * n := by
  induction l with
  | nil => simp
  | cons y l ih =>
    rw [List.flatten_cons, List.length_append, ih (fun x hx => h x (by simp [hx])), h y (by simp), List.length_cons]
    ring

theorem assignSeries_ok {F : Type} {n : Nat} {x y : List F} (h : assignSeries n x = .ok y) : y.length = n := by
  unfold assignSeries at h
  split at h
  · next hx => cases h; exact hx
  · split at h
    · cases h; simp
    · cases h

theorem mapM_mem {α β : Type} {f : α → Res β} : ∀ {l : List α} {o : List β}, l.mapM f = .ok o → ∀ y ∈ o, ∃ x ∈ l, f x = .ok y := by
  intro l
  induction l with
  | nil =>
    intro o h
    cases h
    simp
  | cons z l ih =>
    intro o h y hy
    rw [List.mapM_cons] at h
    obtain ⟨a, h1, h⟩ := Res.bind_ok h
    obtain ⟨b, h2, h⟩ := Res.bind_ok h
    cases h
    rcases List.mem_cons.1 hy with rfl | hy
    · exact ⟨z, by simp, h1⟩
    · obtain ⟨x, hx, h3⟩ := ih h2 y hy
      exact ⟨x, by simp [hx], h3⟩

theorem rowFunc_ok {F : Type} {func : List F → List F → Res (List F)} {cols n : Nat} {lat : Bool} {r : List F × List F} {o : List F} (h : rowFunc func cols n lat r = .ok o) :
    o.length = cols * n ∧ ∀ k < cols, ∃ y, func ((r.1.drop (k * n)).take n) (if lat then r.2 else (r.2.drop (k * n)).take n) = .ok y ∧
      assignSeries n y = .ok ((o.drop (k * n)).take n) := by
  unfold rowFunc at h
  obtain ⟨parts, h1, h⟩ := Res.bind_ok h
  cases h
  have hp : ∀ x ∈ parts, x.length = n := by
    intro x hx
    obtain ⟨j, _, h2⟩ := mapM_mem h1 x hx
    obtain ⟨y, _, h3⟩ := Res.bind_ok h2
    exact assignSeries_ok h3
  refine ⟨by rw [flatten_len hp, mapM_len h1, List.length_range], ?_⟩
  intro k hk
  obtain ⟨y, hy, h2⟩ := mapM_get h1 k k (by simp [hk])
  obtain ⟨z, h3, h4⟩ := Res.bind_ok h2
  rw [flatten_block hp k y hy]
  exact ⟨z, h3, h4⟩

/-- the rows of a result -/
theorem rows_result {F : Type} {func : List F → List F → Res (List F)} {a b n : Nat} {lat : Bool} {x y : List F} {cs : List (Nat × Option Nat)} {o : List (List F)} {out : List (List F)}
    (hc : ChainFrom 0 cs) (hx : x.length = a * (b * n)) (ho : o.length = a)
    (h : applyChunks (fun rs => rs.mapM (rowFunc func b n lat)) ((rowsOf a x).zip (rowsOf a y)) cs o = .ok out) :
    out.flatten.length = a * (b * n) ∧
    ∀ i < a, ∀ k < b, ∃ s, func (seriesAt b n i k x) (if lat then ((rowsOf a y)[i]?).getD [] else ((((rowsOf a y)[i]?).getD []).drop (k * n)).take n) = .ok s ∧
      assignSeries n s = .ok (seriesAt b n i k out.flatten) := by
  have hz : ((rowsOf a x).zip (rowsOf a y)).length = a := by simp [rowsOf_length]
  obtain ⟨r', h1, h2⟩ := applyChunks_mapM _ _ cs 0 o out hc (by rw [ho, hz]) h
  rw [List.drop_zero] at h1
  rw [List.take_zero, List.nil_append] at h2
  subst h2
  have hl := mapM_len h1
  rw [hz] at hl
  have hr : ∀ z ∈ out, z.length = b * n := by
    intro z hzm
    obtain ⟨_, _, h3⟩ := mapM_mem h1 z hzm
    exact (rowFunc_ok h3).1
  refine ⟨by rw [flatten_len hr, hl], ?_⟩
  intro i hi k hk
  have hy : (rowsOf a y)[i]? = some (((rowsOf a y)[i]?).getD []) := by
    rw [List.getElem?_eq_getElem (by rw [rowsOf_length]; exact hi)]
    rfl
  have hxi := rowsOf_get hx i hi
  obtain ⟨z, h3, h4⟩ := mapM_get h1 i ((x.drop (i * (b * n))).take (b * n), ((rowsOf a y)[i]?).getD []) (by
    rw [List.getElem?_zip_eq_some]
    exact ⟨hxi, hy⟩)
  obtain ⟨_, h5⟩ := rowFunc_ok h4
  obtain ⟨s, h6, h7⟩ := h5 k hk
  refine ⟨s, ?_, ?_⟩
  · rw [← row_series b n i k hk]
    exact h6
  · rw [h7, ← row_series b n i k hk, flatten_block hr i z h3]

/-! ## The parallel computation -/

section
variable {F : Type} [FloatOps F] {K : Job → List F → List F → Res (List F)} {wk : Nat}

omit [FloatOps F] in
theorem viewShape_res (j : Job) (first second r1 r2 : Arr F) (hs : r1.shape = r2.shape) (hl : r1.data.length = r2.data.length) : viewShape j first second r1 = viewShape j first second r2 := by
  unfold viewShape
  rw [hs, hl]

omit [FloatOps F] in
theorem viewShape_ok {j : Job} {first second res : Arr F} {s : List Nat} (h : viewShape j first second res = .ok s) :
    first.data.length = res.data.length ∧ res.WF ∧ (j.index = "spei" → second.data.length = res.data.length ∧ s = res.shape) ∧
    (j.index = "pet" → res.shape.head? = some second.data.length ∧ s = res.shape) ∧ (j.index ≠ "spei" → j.index ≠ "pet" → s = first.shape) := by
  unfold viewShape at h
  split at h
  · cases h
  next h0 =>
  simp only [not_or, not_not] at h0
  obtain ⟨h1, hw⟩ := h0
  split at h
  · next hi =>
    split at h
    · cases h
    · next h2 =>
      cases h
      refine ⟨h1, hw, fun _ => ⟨not_not.1 h2, rfl⟩, fun hp => ?_, fun hp => absurd hi hp⟩
      rw [hi] at hp
      exact absurd hp (by decide)
  · next hi =>
    split at h
    · next hp =>
      split at h
      · cases h
      · next n l hs =>
        split at h
        · cases h
        · next h2 =>
          cases h
          refine ⟨h1, hw, fun h => absurd h hi, fun _ => ⟨?_, rfl⟩, fun _ h => absurd hp h⟩
          rw [hs, not_not.1 h2]
          rfl
    · next hp =>
      cases h
      exact ⟨h1, hw, fun h => absurd h hi, fun h => absurd h hp, fun _ _ => rfl⟩

omit [FloatOps F] in
theorem rows_indep {func : List F → List F → Res (List F)} {a b n : Nat} {lat : Bool} {x y : List F} {cs : List (Nat × Option Nat)} (hc : ChainFrom 0 cs) (d d' : List F) :
    applyChunks (fun rs => rs.mapM (rowFunc func b n lat)) ((rowsOf a x).zip (rowsOf a y)) cs (rowsOf a d) =
    applyChunks (fun rs => rs.mapM (rowFunc func b n lat)) ((rowsOf a x).zip (rowsOf a y)) cs (rowsOf a d') :=
  (applyChunks_indep _ (fun _ _ h => mapM_len h) _ cs 0 _ _ hc (by simp [rowsOf_length]) (by simp [rowsOf_length]) (by simp)).1

omit [FloatOps F] in
/-- the previous contents of the result array do not matter -/
theorem parallelProcess_indep (j : Job) (first second r1 r2 : Arr F) (hs : r1.shape = r2.shape) (hl : r1.data.length = r2.data.length) :
    parallelProcess K wk j first second r1 = parallelProcess K wk j first second r2 := by
  unfold parallelProcess
  rw [hs, viewShape_res j first second r1 r2 hs hl]
  cases h0 : orElseRaise r2.shape.head? PyErr.indexError with
  | error e => rfl
  | ok n0 =>
    show (mainChunks n0 wk >>= _) = (mainChunks n0 wk >>= _)
    cases hc : mainChunks n0 wk with
    | error e => rfl
    | ok chunks =>
      have hch := (mainChunks_chain hc).2.2
      show (if _ then _ else _) = (if _ then _ else _)
      split
      · cases hv : viewShape j first second r2 with
        | error e => rfl
        | ok s =>
          have hfl := (viewShape_ok hv).1
          simp only [bind, Except.bind]
          generalize j.inputType = it
          have ht : applyChunks (fun xs => K j xs [] >>= assignSeries xs.length) first.data chunks r1.data =
              applyChunks (fun xs => K j xs [] >>= assignSeries xs.length) first.data chunks r2.data := by
            refine (applyChunks_indep _ ?_ _ chunks 0 _ _ hch (by omega) (by omega) (by simp)).1
            intro l o h
            obtain ⟨y, _, h⟩ := Res.bind_ok h
            exact assignSeries_ok h
          simp only [bind, Except.bind] at ht
          rw [ht]
          cases it with
          | timeseries => rfl
          | grid =>
            rcases s with _ | ⟨a, _ | ⟨b, _ | ⟨n, _ | ⟨m, s⟩⟩⟩⟩ <;> try rfl
            simp only []
            rw [rows_indep hch r1.data r2.data]
          | divisions =>
            rcases s with _ | ⟨a, _ | ⟨b, _ | ⟨n, s⟩⟩⟩ <;> try rfl
            simp only []
            rw [rows_indep hch r1.data r2.data]
      · rfl

omit [FloatOps F] in
/-- the result fills the result array -/
theorem parallelProcess_length {j : Job} {first second res : Arr F} {out : List F} (h : parallelProcess K wk j first second res = .ok out) (hf : first.WF) (hr : res.WF) :
    out.length = res.data.length := by
  unfold parallelProcess at h
  obtain ⟨n0, _, h⟩ := Res.bind_ok h
  obtain ⟨cs, hc, h⟩ := Res.bind_ok h
  have hch := (mainChunks_chain hc).2.2
  split at h
  swap
  · cases h
  next hi =>
  obtain ⟨s, hv, h⟩ := Res.bind_ok h
  obtain ⟨v1, _, v2, v3, v4⟩ := viewShape_ok hv
  have hws : first.data.length = s.foldr (· * ·) 1 := by
    by_cases h1 : j.index = "spei"
    · rw [(v2 h1).2, v1]; exact hr
    · by_cases h2 : j.index = "pet"
      · rw [(v3 h2).2, v1]; exact hr
      · rw [v4 h1 h2]; exact hf
  split at h
  · split at h
    · cases h
    · rw [← v1]
      refine (applyChunks_indep _ ?_ _ cs 0 _ _ hch (by omega) (by omega : res.data.length = _) (by simp)).2 out h
      intro l o h
      obtain ⟨y, _, h⟩ := Res.bind_ok h
      exact assignSeries_ok h
  · next a b n =>
    obtain ⟨o, h1, h⟩ := Res.bind_ok h
    cases h
    simp only [List.foldr_cons, List.foldr_nil, Nat.mul_one] at hws
    rw [(rows_result hch hws (rowsOf_length _ _) h1).1, ← hws, v1]
  · next a n =>
    obtain ⟨o, h1, h⟩ := Res.bind_ok h
    cases h
    simp only [List.foldr_cons, List.foldr_nil, Nat.mul_one] at hws
    rw [(rows_result hch (by rw [hws, Nat.one_mul]) (rowsOf_length _ _) h1).1, Nat.one_mul, ← hws, v1]
  · cases h

end

/-! ## The shared arrays of earlier computations -/

/-- two computations with the same result, leading from related states to related states -/
def SE.Rel {σ α : Type} (R : σ → σ → Prop) (x y : SE σ α) : Prop := ∀ s t, R s t → (x s).1 = (y t).1 ∧ R (x s).2 (y t).2

theorem SE.rel_bind {σ α β : Type} {R : σ → σ → Prop} {x y : SE σ α} {f g : α → SE σ β} (h : SE.Rel R x y) (hf : ∀ a, SE.Rel R (f a) (g a)) : SE.Rel R (x >>= f) (y >>= g) := by
  intro s t hst
  obtain ⟨h1, h2⟩ := h s t hst
  show (SE.bind x f s).1 = (SE.bind y g t).1 ∧ R (SE.bind x f s).2 (SE.bind y g t).2
  unfold SE.bind
  rcases hx : x s with ⟨r, s'⟩
  rcases hy : y t with ⟨r', t'⟩
  rw [hx, hy] at h1 h2
  simp only at h1 h2
  subst h1
  cases r with
  | error e => exact ⟨rfl, h2⟩
  | ok a => exact hf a s' t' h2

theorem SE.rel_bind_post {σ α β : Type} {R : σ → σ → Prop} {x y : SE σ α} {f g : α → SE σ β} (P : α → Prop) (hP : ∀ s a s', x s = (.ok a, s') → P a) (h : SE.Rel R x y)
    (hf : ∀ a, P a → SE.Rel R (f a) (g a)) : SE.Rel R (x >>= f) (y >>= g) := by
  intro s t hst
  obtain ⟨h1, h2⟩ := h s t hst
  show (SE.bind x f s).1 = (SE.bind y g t).1 ∧ R (SE.bind x f s).2 (SE.bind y g t).2
  unfold SE.bind
  rcases hx : x s with ⟨r, s'⟩
  rcases hy : y t with ⟨r', t'⟩
  rw [hx, hy] at h1 h2
  simp only at h1 h2
  subst h1
  cases r with
  | error e => exact ⟨rfl, h2⟩
  | ok a => exact hf a (hP s a s' hx) s' t' h2

theorem SE.rel_lift {σ α : Type} {R : σ → σ → Prop} (x : Res α) : SE.Rel R (SE.lift x) (SE.lift x) := fun _ _ h => ⟨rfl, h⟩
theorem SE.rel_pure {σ α : Type} {R : σ → σ → Prop} (a : α) : SE.Rel R (pure a : SE σ α) (pure a) := fun _ _ h => ⟨rfl, h⟩

/-- a variable of the expected size: as many values as its shape says, of shape `S` if it is one of the named input variables, not 2-D if it holds the latitudes -/
def SizeOk {F : Type} (N : List String) (S : List Nat) (p : String × NcVar F) : Prop :=
  p.2.data.length = p.2.shape.foldr (· * ·) 1 ∧ (p.1 ∈ N → p.2.shape = S) ∧ (p.1 = "lat" → p.2.shape.length ≠ 2)

/-- a variable of the expected size, with the values `C` if it is a coordinate -/
def VarOk {F : Type} (N : List String) (S : List Nat) (C : String → List F) (p : String × NcVar F) : Prop := SizeOk N S p ∧ (p.2.dims = [p.1] → p.2.data = C p.1)

/-- all variables of all files are of the expected size -/
def GoodFiles {F : Type} (N : List String) (S : List Nat) (C : String → List F) (fs : Files F) : Prop := ∀ f d, fs f = some d → ∀ p ∈ d, VarOk N S C p

/-- the result array of an earlier computation, if there is one, has shape `S` -/
def ResOk {F : Type} (S : List Nat) (sh : Dict (Arr F)) : Prop := ∀ r, sh keyResult = some r → r.shape = S ∧ r.WF

/-- same files, same log, possibly different shared arrays -/
def WorldSim {F : Type} (N : List String) (S : List Nat) (C : String → List F) (w1 w2 : World F) : Prop :=
  w1.files = w2.files ∧ w1.written = w2.written ∧ GoodFiles N S C w1.files ∧ ResOk S w1.shared ∧ ResOk S w2.shared

/-- all input variables of a job are among the named ones, and it is not for daily data -/
def JobNames (N : List String) (j : Job) : Prop := j.periodicity ≠ .daily ∧ ∀ o ∈ [j.precip, j.temp, j.pet], ∀ f v, o = some (f, v) → v ∈ N

section
variable {F : Type} [FloatOps F] {K : Int → Job → List F → List F → Res (List F)} {wk : Nat} {lower : String → String} {yearOf : F → Int} {N : List String} {S : List Nat} {C : String → List F}

theorem convert_length {u : String} {x y : List F} : (convertPrecip u x = .ok y → y.length = x.length) ∧ (convertTemp u x = .ok y → y.length = x.length) ∧
    (convertPet u x = .ok y → y.length = x.length) := by
  refine ⟨fun h => ?_, fun h => ?_, fun h => ?_⟩
  · unfold convertPrecip at h
    split at h
    · cases h; rfl
    · split at h
      · cases h; simp
      · cases h
  · unfold convertTemp at h
    split at h
    · cases h; rfl
    · split at h
      · cases h; simp
      · split at h
        · cases h; simp
        · cases h
  · unfold convertPet at h
    split at h
    · cases h; rfl
    · split at h
      · cases h; simp
      · cases h

theorem sameCoord_refl [FloatLaws F] (l : List F) : sameCoord l l = true := by
  unfold sameCoord sameCoordVal
  simp only [beq_self_eq_true, Bool.true_and, List.all_eq_true]
  intro p hp
  have hp' : p.1 = p.2 := by
    rw [List.zip_eq_zipWith, List.mem_iff_getElem?] at hp
    obtain ⟨i, hi⟩ := hp
    simp only [List.getElem?_zipWith, Option.map₂] at hi
    cases h : l[i]? with
    | none => simp [h] at hi
    | some v =>
      simp [h] at hi
      rw [← hi]
  rw [← hp', Bool.or_eq_true, Bool.and_eq_true]
  by_cases h : p.1 = nan
  · right
    rw [h]
    simp
  · left
    exact feq_refl h

theorem agree_of_table [FloatLaws F] {d e : NcFile F} (hd : ∀ p ∈ d, p.2.dims = [p.1] → p.2.data = C p.1) (he : ∀ p ∈ e, p.2.dims = [p.1] → p.2.data = C p.1) : agree d e = true := by
  unfold agree
  simp only [List.all_eq_true]
  intro p hp q hq
  unfold coordsOf at hp hq
  simp only [List.mem_filter, decide_eq_true_eq] at hp hq
  by_cases hn : p.1 = q.1
  · rw [hd p hp.1 hp.2, he q hq.1 hq.2, hn, sameCoord_refl]
    simp
  · simp [hn]

theorem coordsAgree_of_table [FloatLaws F] {ds : List (NcFile F)} (h : ∀ d ∈ ds, ∀ p ∈ d, p.2.dims = [p.1] → p.2.data = C p.1) : coordsAgree ds = true := by
  induction ds with
  | nil => rfl
  | cons d ds ih =>
    unfold coordsAgree
    rw [Bool.and_eq_true, List.all_eq_true]
    exact ⟨fun e he => agree_of_table (h d (by simp)) (h e (by simp [he])), ih (fun e he => h e (by simp [he]))⟩

theorem openAll_mem [FloatLaws F] {fs : Files F} (hg : GoodFiles N S C fs) {names : List String} {md : NcFile F} (h : openAll fs names = .ok md) : ∀ p ∈ md, ∃ f d, fs f = some d ∧ p ∈ d := by
  unfold openAll at h
  obtain ⟨ds, h1, h⟩ := Res.bind_ok h
  have hds : ∀ d ∈ ds, ∃ f, fs f = some d := by
    intro d hd
    obtain ⟨n, _, h2⟩ := mapM_mem h1 d hd
    obtain ⟨m, e, h3⟩ := openFile_ok h2
    exact ⟨m, h3⟩
  rw [if_pos (coordsAgree_of_table (C := C) (fun d hd p hp => by
    obtain ⟨f, hf⟩ := hds d hd
    exact (hg f d hf p hp).2))] at h
  cases h
  intro p hp
  obtain ⟨d, hd, hp⟩ := List.mem_flatten.1 hp
  obtain ⟨f, hf⟩ := hds d hd
  exact ⟨f, d, hf, hp⟩

omit [FloatOps F] in
theorem convertInput_mem {conv : String → List F → Res (List F)} (hconv : ∀ u x y, conv u x = .ok y → y.length = x.length) {d : NcFile F} {o : Option (String × String)}
    {l : List (String × NcVar F)} (h : convertInput lower conv d o = .ok l) (hd : ∀ p ∈ d, VarOk N S C p) (hN : ∀ f v, o = some (f, v) → v ∈ N) :
    (∀ p ∈ l, p.1 ∈ N ∧ SizeOk N S p) ∧ ∀ f v, o = some (f, v) → ∃ y, (v, y) ∈ l := by
  rcases convertInput_ok h with ⟨rfl, rfl⟩ | ⟨f, v, x, y, rfl, rfl, h1, h2⟩
  · exact ⟨by simp, by simp⟩
  · obtain ⟨u, _, _, h4, h5⟩ := convertVar_ok h2
    obtain ⟨⟨a1, a2, a3⟩, _⟩ := hd _ (mem_of_lookup h1)
    refine ⟨?_, ?_⟩
    · intro p hp
      simp only [List.mem_singleton] at hp
      subst hp
      refine ⟨hN f v rfl, ?_, ?_, ?_⟩
      · simp only [] at a1 ⊢
        rw [hconv _ _ _ h5, h4]
        exact a1
      · simp only [] at a2 ⊢
        rw [h4]
        exact a2
      · simp only [] at a3 ⊢
        rw [h4]
        exact a3
    · rintro f' v' e
      cases e
      exact ⟨y, by simp⟩

theorem convertInputs_mem {d : NcFile F} {j : Job} {vars : List (String × NcVar F)} (h : convertInputs lower d j = .ok vars) (hd : ∀ p ∈ d, VarOk N S C p) (hN : JobNames N j) :
    (∀ p ∈ vars, SizeOk N S p ∧ (p.1 ∈ N ∨ p.1 = "lat" ∧ j.inputType = .divisions)) ∧ ∀ o ∈ [j.precip, j.temp, j.pet], ∀ f v, o = some (f, v) → ∃ y, (v, y) ∈ vars := by
  obtain ⟨p, t, e, l, h1, h2, h3, h4, rfl⟩ := convertInputs_ok h
  obtain ⟨p1, p2⟩ := convertInput_mem (fun u x y => convert_length.1) h1 hd (hN.2 _ (by simp))
  obtain ⟨t1, t2⟩ := convertInput_mem (fun u x y => convert_length.2.1) h2 hd (hN.2 _ (by simp))
  obtain ⟨e1, e2⟩ := convertInput_mem (fun u x y => convert_length.2.2) h3 hd (hN.2 _ (by simp))
  constructor
  · intro q hq
    simp only [List.mem_append] at hq
    rcases hq with ((hq | hq) | hq) | hq
    · exact ⟨(p1 q hq).2, .inl (p1 q hq).1⟩
    · exact ⟨(t1 q hq).2, .inl (t1 q hq).1⟩
    · exact ⟨(e1 q hq).2, .inl (e1 q hq).1⟩
    · unfold latInput at h4
      split at h4
      · next hi =>
        obtain ⟨x, h5, h4⟩ := Res.bind_ok h4
        cases h4
        simp only [List.mem_singleton] at hq
        subst hq
        exact ⟨(hd _ (mem_of_lookup (get_ok h5))).1, .inr ⟨rfl, hi⟩⟩
      · cases h4
        simp at hq
  · intro o ho f v hov
    simp only [List.mem_cons, List.not_mem_nil, or_false] at ho
    rcases ho with rfl | rfl | rfl
    · obtain ⟨y, hy⟩ := p2 f v hov; exact ⟨y, by simp [hy]⟩
    · obtain ⟨y, hy⟩ := t2 f v hov; exact ⟨y, by simp [hy]⟩
    · obtain ⟨y, hy⟩ := e2 f v hov; exact ⟨y, by simp [hy]⟩

theorem convertInputs_dims {d : NcFile F} {j : Job} {vars : List (String × NcVar F)} (h : convertInputs lower d j = .ok vars) :
    ∀ o ∈ [j.precip, j.temp, j.pet], ∀ f v, o = some (f, v) → ∀ {x : NcVar F}, List.lookup v d = some x → ∃ y, (v, y) ∈ vars ∧ y.dims = x.dims := by
  obtain ⟨p, t, e, l, h1, h2, h3, h4, rfl⟩ := convertInputs_ok h
  have key : ∀ {conv : String → List F → Res (List F)} {o : Option (String × String)} {l : List (String × NcVar F)}, convertInput lower conv d o = .ok l →
      ∀ f v, o = some (f, v) → ∀ {x : NcVar F}, List.lookup v d = some x → ∃ y, (v, y) ∈ l ∧ y.dims = x.dims := by
    intro conv o l h f v ho x hx
    rcases convertInput_ok h with ⟨c, _⟩ | ⟨f', v', x', y, c, rfl, c1, c2⟩
    · rw [c] at ho; cases ho
    · rw [c] at ho
      cases ho
      rw [hx] at c1
      cases c1
      obtain ⟨_, _, c3, _⟩ := convertVar_ok c2
      exact ⟨y, by simp, c3⟩
  intro o ho f v hov x hx
  simp only [List.mem_cons, List.not_mem_nil, or_false] at ho
  rcases ho with rfl | rfl | rfl
  · obtain ⟨y, hy, hd⟩ := key h1 f v hov hx; exact ⟨y, by simp [hy], hd⟩
  · obtain ⟨y, hy, hd⟩ := key h2 f v hov hx; exact ⟨y, by simp [hy], hd⟩
  · obtain ⟨y, hy, hd⟩ := key h3 f v hov hx; exact ⟨y, by simp [hy], hd⟩

omit [FloatOps F] in
theorem outputShape_ok {it : InputType} {vars : List (String × NcVar F)} {s : List Nat} (h : outputShape it vars = some s)
    (hv : ∀ p ∈ vars, SizeOk N S p ∧ (p.1 ∈ N ∨ p.1 = "lat" ∧ it = .divisions)) : s = S := by
  have key : ∀ p ∈ vars, p.1 ∈ N → p.2.shape = S := fun p hp hn => (hv p hp).1.2.1 hn
  unfold outputShape at h
  split at h
  · obtain ⟨p, hp, rfl⟩ := Option.map_eq_some_iff.1 h
    have hm := List.mem_of_getLast? hp
    obtain ⟨hm, h2⟩ := List.mem_filter.1 hm
    rcases (hv p hm).2 with h3 | ⟨h3, _⟩
    · exact key p hm h3
    · exact absurd (of_decide_eq_true h2) ((hv p hm).1.2.2 h3)
  · next hn =>
    obtain ⟨p, hp, rfl⟩ := Option.map_eq_some_iff.1 h
    have hm := List.mem_of_getLast? hp
    rcases (hv p hm).2 with h3 | ⟨_, h3⟩
    · exact key p hm h3
    · exact absurd h3 hn

omit [FloatOps F] in
theorem fold_put (vars : List (String × NcVar F)) : ∀ (s1 s2 : Dict (Arr F)),
    (∀ k, (∃ y, (k, y) ∈ vars) → vars.foldl (fun d p => d.put p.1 ⟨p.2.shape, p.2.data⟩) s1 k = vars.foldl (fun d p => d.put p.1 ⟨p.2.shape, p.2.data⟩) s2 k ∧
      ∃ y, (k, y) ∈ vars ∧ vars.foldl (fun d p => d.put p.1 ⟨p.2.shape, p.2.data⟩) s1 k = some ⟨y.shape, y.data⟩) ∧
    (∀ k, (¬ ∃ y, (k, y) ∈ vars) → vars.foldl (fun d p => d.put p.1 ⟨p.2.shape, p.2.data⟩) s1 k = s1 k) := by
  induction vars using List.reverseRecOn with
  | nil => intro s1 s2; simp
  | append_singleton l q ih =>
    intro s1 s2
    obtain ⟨v, x⟩ := q
    simp only [List.foldl_append, List.foldl_cons, List.foldl_nil, Dict.put]
    obtain ⟨h1, h2⟩ := ih s1 s2
    refine ⟨?_, ?_⟩
    · rintro k ⟨y, hy⟩
      by_cases hk : k = v
      · subst hk
        simp only [if_true, true_and]
        exact ⟨x, by simp, rfl⟩
      · rw [if_neg hk, if_neg hk]
        have : (k, y) ∈ l := by
          simp only [List.mem_append, List.mem_singleton, Prod.mk.injEq, hk, false_and, or_false] at hy
          exact hy
        obtain ⟨a, z, hz, b⟩ := h1 k ⟨y, this⟩
        exact ⟨a, z, by simp [hz], b⟩
    · intro k hk
      rw [if_neg (by rintro rfl; exact hk ⟨x, by simp⟩)]
      exact h2 k (fun ⟨y, hy⟩ => hk ⟨y, by simp [hy]⟩)

theorem dropVars_monthly {j : Job} (hj : j.periodicity ≠ .daily) {d : NcFile F} {l l' : List (String × NcVar F)} (h : l.mapM (dropVar yearOf j d) = .ok l') :
    l' = l ∧ ∀ p ∈ l, dropDimsOk j.inputType p.2.dims = true := by
  induction l generalizing l' with
  | nil =>
    cases h
    simp
  | cons p l ih =>
    rw [List.mapM_cons] at h
    obtain ⟨q, h1, h⟩ := Res.bind_ok h
    obtain ⟨l1, h2, h⟩ := Res.bind_ok h
    cases h
    obtain ⟨a1, _, _, _, _, a2⟩ := dropVar_ok h1
    obtain ⟨b1, b2⟩ := ih h2
    refine ⟨by rw [a2 hj, b1], ?_⟩
    intro r hr
    rcases List.mem_cons.1 hr with rfl | hr
    · exact a1
    · exact b2 r hr

/-- what the two loads have in common -/
def LoadRel (N : List String) (S : List Nat) (C : String → List F) (j : Job) :
    Res (NcFile F × Int × NcVar F × Dict (Arr F) × List Nat) → Res (NcFile F × Int × NcVar F × Dict (Arr F) × List Nat) → Prop
  | .error e, r2 => r2 = .error e
  | .ok (d, ds, like, sh1, shape), r2 => ∃ sh2, r2 = .ok (d, ds, like, sh2, shape) ∧ shape = S ∧ like.shape = S ∧ ResOk S sh1 ∧ ResOk S sh2 ∧ (∀ p ∈ d, VarOk N S C p) ∧
      (∀ o ∈ [j.precip, j.temp, j.pet], ∀ f v, o = some (f, v) → sh1 v = sh2 v ∧ ∃ y, sh1 v = some y ∧ y.WF) ∧ dropDimsOk j.inputType like.dims = true

theorem load_rel [FloatLaws F] (hK : keyResult ∉ N) {j : Job} (hN : JobNames N j) {w1 w2 : World F} (h : WorldSim N S C w1 w2) :
    LoadRel N S C j (loadInputs lower yearOf j w1) (loadInputs lower yearOf j w2) := by
  obtain ⟨hf, _, hg, hr1, hr2⟩ := h
  unfold loadInputs
  rw [← hf]
  cases h1 : openAll w1.files ((j.precip.toList ++ j.temp.toList ++ j.pet.toList).map Prod.fst) with
  | error e => rfl
  | ok d =>
  simp only [bind, Except.bind]
  have hd : ∀ p ∈ d, VarOk N S C p := by
    intro p hp
    obtain ⟨f, d', h2, h3⟩ := openAll_mem hg h1 p hp
    exact hg f d' h2 p h3
  cases h0 : firstYear yearOf d with
  | error e => rfl
  | ok ds =>
  simp only []
  cases h2 : outputLike j with
  | error e => rfl
  | ok v =>
  simp only []
  cases h3 : d.get v with
  | error e => rfl
  | ok x =>
  simp only []
  cases h4 : convertInputs lower d j with
  | error e => rfl
  | ok cvars =>
  simp only []
  obtain ⟨hv, hm⟩ := convertInputs_mem h4 hd hN
  unfold dropData
  cases h4' : cvars.mapM (dropVar yearOf j d) with
  | error e => rfl
  | ok vars =>
  obtain ⟨rfl, hdims⟩ := dropVars_monthly hN.1 h4'
  simp only [bind, Except.bind]
  cases h5 : outputShape j.inputType vars with
  | none => rfl
  | some s =>
  simp only []
  by_cases hidx : j.index ∈ ["spi", "spei", "pnp", "palmers", "pet"]
  swap
  · rw [if_neg hidx, if_neg hidx]
    rfl
  rw [if_pos hidx, if_pos hidx]
  obtain ⟨a1, a2⟩ := fold_put vars w1.shared w2.shared
  obtain ⟨_, b2⟩ := fold_put vars w2.shared w1.shared
  have hkey : ¬ ∃ y, (keyResult, y) ∈ vars := by
    rintro ⟨y, hy⟩
    rcases (hv _ hy).2 with h | ⟨h, _⟩
    · exact hK h
    · exact absurd (show keyResult = "lat" from h) (by decide)
  have hvo : ∃ o ∈ [j.precip, j.temp, j.pet], ∃ f, o = some (f, v) := by
    unfold outputLike at h2
    split at h2
    · next f v' hp => cases h2; exact ⟨_, by simp, f, hp⟩
    · next f v' _ ht => cases h2; exact ⟨_, by simp, f, ht⟩
    · cases h2
  refine ⟨_, rfl, outputShape_ok h5 hv, ?_, ?_, ?_, hd, ?_, ?_⟩
  · have hvN : v ∈ N := by
      obtain ⟨o, ho, f, hof⟩ := hvo
      exact hN.2 o ho f v hof
    exact (hd _ (mem_of_lookup (get_ok h3))).1.2.1 hvN
  · intro r hr
    rw [a2 _ hkey] at hr
    exact hr1 r hr
  · intro r hr
    rw [b2 _ hkey] at hr
    exact hr2 r hr
  · intro o ho f v hov
    obtain ⟨c1, y, hy, c2⟩ := a1 v (hm o ho f v hov)
    exact ⟨c1, _, c2, (hv _ hy).1.1⟩
  · obtain ⟨o, ho, f, hof⟩ := hvo
    have := convertInputs_dims h4 o ho f v hof (get_ok h3)
    obtain ⟨y, hy, hyd⟩ := this
    rw [← hyd]
    exact hdims _ hy

theorem resultArray_ok {sh : Dict (Arr F)} (h : ResOk S sh) : (resultArray sh S).shape = S ∧ (resultArray sh S).WF := by
  unfold resultArray
  cases hk : sh keyResult with
  | none => exact ⟨rfl, by simp [Arr.WF]⟩
  | some r => exact h r hk

theorem computeValues_rel {K : Job → List F → List F → Res (List F)} (hK : keyResult ∉ N) {j : Job} (hN : JobNames N j) {d : NcFile F} {sh1 sh2 : Dict (Arr F)} (hr1 : ResOk S sh1) (hr2 : ResOk S sh2)
    (hd : ∀ p ∈ d, VarOk N S C p)
    (hv : ∀ o ∈ [j.precip, j.temp, j.pet], ∀ f v, o = some (f, v) → sh1 v = sh2 v ∧ ∃ y, sh1 v = some y ∧ y.WF) :
    computeValues K wk d j (sh1.put keyResult (resultArray sh1 S)) (resultArray sh1 S) = computeValues K wk d j (sh2.put keyResult (resultArray sh2 S)) (resultArray sh2 S) ∧
    ∀ out, computeValues K wk d j (sh1.put keyResult (resultArray sh1 S)) (resultArray sh1 S) = .ok out → out.length = S.foldr (· * ·) 1 := by
  obtain ⟨s1, w1⟩ := resultArray_ok hr1
  obtain ⟨s2, w2⟩ := resultArray_ok hr2
  generalize resultArray sh1 S = res1 at *
  generalize resultArray sh2 S = res2 at *
  -- lookups of the inputs
  have look : ∀ (l : Option (Arr F)), (∀ a, l = some a → a.WF) → ∀ o ∈ [j.precip, j.temp, j.pet], ∀ f v, o = some (f, v) →
      ∃ y : Arr F, y.WF ∧ (if v = keyLat ∧ l.isSome then l else (sh1.put keyResult res1) v) = some y ∧ (if v = keyLat ∧ l.isSome then l else (sh2.put keyResult res2) v) = some y := by
    intro l hl o ho f v hov
    have hne : v ≠ keyResult := fun h => hK (h ▸ hN.2 o ho f v hov)
    obtain ⟨c1, y, c2, c3⟩ := hv o ho f v hov
    split
    · next h =>
      obtain ⟨a, ha⟩ := Option.isSome_iff_exists.1 h.2
      exact ⟨a, hl a ha, ha, ha⟩
    · refine ⟨y, c3, ?_, ?_⟩
      · simp [Dict.put, hne, c2]
      · simp [Dict.put, hne, ← c1, c2]
  -- the dictionary after the latitudes
  have hlat : (∃ e, putLat d j (sh1.put keyResult res1) = .error e ∧ putLat d j (sh2.put keyResult res2) = .error e) ∨
      ∃ (l : Option (Arr F)) (t1 t2 : Dict (Arr F)), (∀ a, l = some a → a.WF) ∧ (j.index = "pet" → l.isSome) ∧
        putLat d j (sh1.put keyResult res1) = .ok t1 ∧ putLat d j (sh2.put keyResult res2) = .ok t2 ∧
        (∀ v, t1 v = if v = keyLat ∧ l.isSome then l else (sh1.put keyResult res1) v) ∧ (∀ v, t2 v = if v = keyLat ∧ l.isSome then l else (sh2.put keyResult res2) v) := by
    unfold putLat
    split
    · cases hx : d.get "lat" with
      | error e => left; exact ⟨e, rfl, rfl⟩
      | ok x =>
        right
        refine ⟨some ⟨x.shape, x.data⟩, _, _, ?_, fun _ => rfl, rfl, rfl, ?_, ?_⟩
        · intro a ha
          cases ha
          exact (hd _ (mem_of_lookup (get_ok hx))).1.1
        · intro v; simp [Dict.put]
        · intro v; simp [Dict.put]
    · next hi =>
      right
      exact ⟨none, _, _, by simp, fun h => absurd h hi, rfl, rfl, by simp, by simp⟩
  unfold computeValues
  rcases hlat with ⟨e, e1, e2⟩ | ⟨l, t1, t2, hl, hpet, e1, e2, f1, f2⟩
  · rw [e1, e2]
    exact ⟨rfl, by rintro out ⟨⟩⟩
  · rw [e1, e2]
    simp only [bind, Except.bind]
    cases hfn : firstName j with
    | error e => exact ⟨rfl, by rintro out ⟨⟩⟩
    | ok fn =>
      simp only []
      have hfn' : ∃ o ∈ [j.precip, j.temp, j.pet], ∃ f, o = some (f, fn) := by
        unfold firstName at hfn
        split at hfn
        · cases hfn
        · next f v hif =>
          cases hfn
          split at hif
          · exact ⟨_, by simp, f, hif⟩
          · exact ⟨_, by simp, f, hif⟩
      obtain ⟨o, ho, f, hof⟩ := hfn'
      obtain ⟨y, hy, g1, g2⟩ := look l hl o ho f fn hof
      have a1 : t1.at fn = .ok y := by unfold Dict.at; rw [f1, g1]
      have a2 : t2.at fn = .ok y := by unfold Dict.at; rw [f2, g2]
      rw [a1, a2]
      simp only []
      cases hsn : secondName j fn with
      | error e => exact ⟨rfl, by rintro out ⟨⟩⟩
      | ok sn =>
        simp only []
        have hsec : t1.at sn = t2.at sn := by
          unfold secondName at hsn
          split at hsn
          · split at hsn
            · cases hsn
            · next f v hp =>
              cases hsn
              obtain ⟨z, _, g1, g2⟩ := look l hl j.pet (by simp) f sn hp
              unfold Dict.at
              rw [f1, f2, g1, g2]
          · split at hsn
            · next hi =>
              cases hsn
              obtain ⟨a, ha⟩ := Option.isSome_iff_exists.1 (hpet hi)
              unfold Dict.at
              rw [f1, f2, if_pos ⟨rfl, hpet hi⟩, if_pos ⟨rfl, hpet hi⟩]
            · cases hsn
              rw [a1, a2]
        rw [hsec]
        cases t2.at sn with
        | error e => exact ⟨rfl, by rintro out ⟨⟩⟩
        | ok z =>
          simp only []
          refine ⟨parallelProcess_indep j y z res1 res2 (by rw [s1, s2]) (by unfold Arr.WF at w1 w2; rw [w1, w2, s1, s2]), ?_⟩
          intro out hout
          rw [parallelProcess_length hout hy w1]
          unfold Arr.WF at w1
          rw [w1, s1]

omit [FloatOps F] in
theorem variableName_start {j : Job} {q : String} {b : Char} {m : List Char} (hq : q.toList = b :: m) (h1 : 's' ≠ b) (h2 : 'p' ≠ b) : variableName j ≠ .ok q := by
  have c : ∀ (p : String) (a : Char) (l : List Char), p.toList = a :: l → a ≠ b → ∀ t, p ++ t ≠ q := by
    intro p a l hp hab t he
    have := congrArg String.toList he
    rw [String.toList_append, hp, hq] at this
    simp only [List.cons_append, List.cons.injEq] at this
    exact hab this.1
  unfold variableName
  split <;> intro h
  · rw [Except.ok.injEq, String.append_assoc, String.append_assoc] at h
    exact c "spi_" 's' _ rfl h1 _ h
  · rw [Except.ok.injEq, String.append_assoc, String.append_assoc] at h
    exact c "spei_" 's' _ rfl h1 _ h
  · cases h
  · cases h
  · rw [Except.ok.injEq] at h
    exact c "pnp_" 'p' _ rfl h2 _ h
  · cases h
  · rw [Except.ok.injEq] at h
    exact c "pet_thornthwaite" 'p' _ rfl h2 "" (by rw [← h]; decide)
  · cases h

omit [FloatOps F] in
/-- dimensions that are accepted are not the name of an output -/
theorem dropDims_name {j : Job} {name : String} {dims : List String} (hn : variableName j = .ok name) (h : dropDimsOk j.inputType dims = true) : dims ≠ [name] := by
  rintro rfl
  have key : name = "time" ∨ name = "division" := by
    unfold dropDimsOk at h
    split at h
    · simp [divisionDimsOk] at h
      exact .inr h
    · simp [gridDimsOk] at h
      exact .inl h
  rcases key with rfl | rfl
  · exact variableName_start (q := "time") rfl (by decide) (by decide) hn
  · exact variableName_start (q := "division") rfl (by decide) (by decide) hn

/-- one computation, with different shared arrays from earlier ones -/
theorem cwi_rel [FloatLaws F] (hK : keyResult ∉ N) {j : Job} (hN : JobNames N j) : SE.Rel (WorldSim N S C) (computeWriteIndex K wk lower yearOf j) (computeWriteIndex K wk lower yearOf j) := by
  intro w1 w2 hs
  have hl := load_rel (lower := lower) (yearOf := yearOf) hK hN hs
  obtain ⟨hf, hw, hg, hr1, hr2⟩ := hs
  unfold computeWriteIndex
  cases h1 : loadInputs lower yearOf j w1 with
  | error e =>
    rw [h1] at hl
    simp only [LoadRel] at hl
    rw [hl]
    exact ⟨rfl, hf, hw, hg, hr1, hr2⟩
  | ok q =>
    obtain ⟨d, ds, like, sh1, shape⟩ := q
    rw [h1] at hl
    obtain ⟨sh2, h2, rfl, hlk, r1, r2, hd, hv, hdims⟩ := hl
    rw [h2]
    simp only []
    split
    · refine ⟨?_, hf, hw, hg, r1, r2⟩
      unfold computePalmers
      rw [hf]
    · obtain ⟨c1, c2⟩ := computeValues_rel (K := K ds) (wk := wk) hK hN r1 r2 hd hv
      rw [← c1]
      obtain ⟨s1, x1⟩ := resultArray_ok r1
      obtain ⟨s2, x2⟩ := resultArray_ok r2
      have p1 : ∀ (sh : Dict (Arr F)) (a : Arr F), a.shape = shape → a.WF → ResOk shape (sh.put keyResult a) := by
        intro sh a ha hb r hr
        simp only [Dict.put, if_true, Option.some.injEq] at hr
        subst hr
        exact ⟨ha, hb⟩
      cases hc : computeValues (K ds) wk d j (sh1.put keyResult (resultArray sh1 shape)) (resultArray sh1 shape) with
      | error e => exact ⟨rfl, hf, hw, hg, p1 _ _ s1 x1, p1 _ _ s2 x2⟩
      | ok out =>
        simp only []
        rw [s1, s2]
        have hout := c2 out hc
        cases ho : outputFile d ds like j shape out with
        | error e => exact ⟨rfl, hf, hw, hg, p1 _ _ rfl hout, p1 _ _ rfl hout⟩
        | ok t =>
          obtain ⟨file, name, new⟩ := t
          obtain ⟨nm, v, n1, n2, n4, n3⟩ := outputFile_ok ho
          simp only [Prod.mk.injEq] at n3
          obtain ⟨rfl, rfl, rfl⟩ := n3
          have hvd : v = ⟨shape, out⟩ := by
            unfold outputValues at n2
            split at n2
            · next hp => exact absurd hp hN.1
            · cases n2; rfl
          subst hvd
          refine ⟨rfl, ?_, ?_, ?_, p1 _ _ rfl hout, p1 _ _ rfl hout⟩
          · simp only [hf]
          · simp only [hw]
          · intro f d' hfd p hp
            simp only at hfd
            split at hfd
            · cases hfd
              rcases List.mem_append.1 hp with hp | hp
              · exact hd p (List.mem_of_mem_filter hp)
              · simp only [List.mem_singleton] at hp
                subst hp
                refine ⟨⟨by rw [hlk]; exact hout, fun _ => hlk, fun h => absurd (by rw [n1]; exact congrArg _ h) (variableName_start (j := j) (q := "lat") rfl (by decide) (by decide))⟩, ?_⟩
                intro h
                exact absurd h (dropDims_name n1 hdims)
            · exact hg f d' hfd p hp

theorem runJobs_rel [FloatLaws F] (hK : keyResult ∉ N) (js : List Job) (hN : ∀ j ∈ js, JobNames N j) : SE.Rel (WorldSim N S C) (runJobs K wk lower yearOf js) (runJobs K wk lower yearOf js) := by
  induction js with
  | nil => exact SE.rel_pure _
  | cons j js ih => exact SE.rel_bind (cwi_rel hK (hN j (by simp))) (fun _ => ih (fun k hk => hN k (by simp [hk])))

omit [FloatOps F] in
theorem getFiles_rel {α : Type} {f g : Files F → SE (World F) α} (h : ∀ fs, SE.Rel (WorldSim N S C) (f fs) (g fs)) : SE.Rel (WorldSim N S C) (getFiles >>= f) (getFiles >>= g) := by
  intro w1 w2 hs
  have := h w1.files w1 w2 hs
  have e : (getFiles >>= g) w2 = g w1.files w2 := by
    rw [hs.1]
    rfl
  rw [e]
  exact this

/-- a whole call, with different shared arrays from earlier ones -/
theorem process_rel [FloatLaws F] (hK : keyResult ∉ N) (cmp : CoordCmp F) (a : CliArgs) (hper : a.periodicity ≠ .daily) (hN : ∀ o ∈ [a.varNamePrecip, a.varNameTemp, a.varNamePet], o.getD "" ∈ N) (hpet : "pet_thornthwaite" ∈ N) :
    SE.Rel (WorldSim N S C) (processIndices K wk lower yearOf cmp a) (processIndices K wk lower yearOf cmp a) := by
  have hp := hN a.varNamePrecip (by simp)
  have ht := hN a.varNameTemp (by simp)
  have he := hN a.varNamePet (by simp)
  have names : ∀ (it : InputType) (i : String) (s : Option Int) (d : Option Distribution) (p t e c : Option (String × String)),
      (∀ f v, p = some (f, v) → v ∈ N) → (∀ f v, t = some (f, v) → v ∈ N) → (∀ f v, e = some (f, v) → v ∈ N) → JobNames N (mkJob a it i s d p t e c) := by
    intro it i s d p t e c h1 h2 h3
    refine ⟨hper, ?_⟩
    intro o ho f v hov
    simp only [mkJob, List.mem_cons, List.not_mem_nil, or_false] at ho
    rcases ho with rfl | rfl | rfl
    · exact h1 f v hov
    · exact h2 f v hov
    · exact h3 f v hov
  unfold processIndices
  refine getFiles_rel (fun fs => SE.rel_bind (SE.rel_lift _) (fun it => ?_))
  refine SE.rel_bind ?_ (fun _ => ?_)
  · unfold runSpi
    split
    · refine getFiles_rel (fun fs => SE.rel_bind (SE.rel_lift _) (fun fp => SE.rel_bind (SE.rel_lift _) (fun sc => runJobs_rel hK _ ?_)))
      intro j hj
      obtain ⟨s, _, hj⟩ := List.mem_flatMap.1 hj
      obtain ⟨d, _, rfl⟩ := List.mem_map.1 hj
      exact names _ _ _ _ _ _ _ _ (by rintro f v ⟨⟩; exact hp) (by rintro f v ⟨⟩) (by rintro f v ⟨⟩)
    · exact SE.rel_pure _
  · -- the name of the PET variable afterwards is among the names or the computed one
    have hcont : ∀ pet : Option String × Option String, pet.2.getD "" ∈ N → SE.Rel (WorldSim N S C)
        (runSpei K wk lower yearOf a it pet >>= fun _ => runPnp K wk lower yearOf a it >>= fun _ => runPalmers K wk lower yearOf a it pet)
        (runSpei K wk lower yearOf a it pet >>= fun _ => runPnp K wk lower yearOf a it >>= fun _ => runPalmers K wk lower yearOf a it pet) := by
      intro pet hpe
      refine SE.rel_bind ?_ (fun _ => SE.rel_bind ?_ (fun _ => ?_))
      · unfold runSpei
        split
        · refine getFiles_rel (fun fs => SE.rel_bind (SE.rel_lift _) (fun fp => SE.rel_bind (SE.rel_lift _) (fun fe => SE.rel_bind (SE.rel_lift _) (fun sc => runJobs_rel hK _ ?_))))
          intro j hj
          obtain ⟨s, _, hj⟩ := List.mem_flatMap.1 hj
          obtain ⟨d, _, rfl⟩ := List.mem_map.1 hj
          exact names _ _ _ _ _ _ _ _ (by rintro f v ⟨⟩; exact hp) (by rintro f v ⟨⟩) (by rintro f v ⟨⟩; exact hpe)
        · exact SE.rel_pure _
      · unfold runPnp
        split
        · refine getFiles_rel (fun fs => SE.rel_bind (SE.rel_lift _) (fun fp => SE.rel_bind (SE.rel_lift _) (fun sc => runJobs_rel hK _ ?_)))
          intro j hj
          obtain ⟨s, _, rfl⟩ := List.mem_map.1 hj
          exact names _ _ _ _ _ _ _ _ (by rintro f v ⟨⟩; exact hp) (by rintro f v ⟨⟩) (by rintro f v ⟨⟩)
        · exact SE.rel_pure _
      · unfold runPalmers
        split
        · refine getFiles_rel (fun fs => SE.rel_bind (SE.rel_lift _) (fun fp => SE.rel_bind (SE.rel_lift _) (fun fe => SE.rel_bind (SE.rel_lift _) (fun fa => runJobs_rel hK _ ?_))))
          intro j hj
          simp only [List.mem_singleton] at hj
          subst hj
          exact names _ _ _ _ _ _ _ _ (by rintro f v ⟨⟩; exact hp) (by rintro f v ⟨⟩) (by rintro f v ⟨⟩; exact hpe)
        · exact SE.rel_pure _
    refine SE.rel_bind_post (fun pet => pet.2.getD "" ∈ N) ?_ ?_ hcont
    · intro w pet w' h
      unfold runPet at h
      split at h
      · cases hf : a.netcdfPet with
        | some f =>
          rw [hf] at h
          cases h
          exact he
        | none =>
          rw [hf] at h
          have h := getFiles_bind h
          obtain ⟨ft, _, h⟩ := lift_bind h
          obtain ⟨r, w'', h3, h⟩ := SE.bind_ok h
          cases h
          obtain ⟨_, _, _, _, _, _, _, _, _, _, _, _, hn, _⟩ := cwi_parts h3
          have : variableName (mkJob a it "pet" none none none (some (ft, a.varNameTemp.getD "")) none none) = .ok "pet_thornthwaite" := rfl
          rw [this, Except.ok.injEq] at hn
          simp only [Option.getD_some, ← hn]
          exact hpet
      · cases h
        exact he
    · unfold runPet
      split
      · split
        · exact SE.rel_pure _
        · refine getFiles_rel (fun fs => SE.rel_bind (SE.rel_lift _) (fun ft => SE.rel_bind (cwi_rel hK ?_) (fun _ => SE.rel_pure _)))
          exact names _ _ _ _ _ _ _ _ (by rintro f v ⟨⟩) (by rintro f v ⟨⟩; exact ht) (by rintro f v ⟨⟩)
      · exact SE.rel_pure _

end

/-! ## Series along the last axis -/

section
variable {F : Type} [FloatOps F]

omit [FloatOps F] in
theorem alongLast_gen {f : List F → Res (List F)} {m A B N : Nat} {shape : List Nat} {data : List F} {r : Arr F} (hdata : data.length = A * (B * N))
    (hs : shape.dropLast.foldr (· * ·) 1 = A * B) (hf : ∀ s t, f s = .ok t → t.length = m) (h : alongLast f m shape data = .ok r) :
    shape ≠ [] ∧ 0 < A * B ∧ r.shape = shape.dropLast ++ [m] ∧ r.data.length = A * (B * m) ∧ ∀ i < A, ∀ k < B, f (seriesAt B N i k data) = .ok (seriesAt B m i k r.data) := by
  unfold alongLast at h
  simp only [hs] at h
  split at h
  · cases h
  next hk =>
  rw [not_or] at hk
  obtain ⟨parts, hp, h⟩ := Res.bind_ok h
  cases h
  have hl : data.length = (A * B) * N := by rw [hdata, Nat.mul_assoc]
  have hlen : ∀ x ∈ parts, x.length = m := by
    intro x hx
    obtain ⟨s, _, hs⟩ := mapM_mem hp x hx
    exact hf s x hs
  have hpl := mapM_len hp
  rw [rowsOf_length] at hpl
  refine ⟨hk.1, Nat.pos_of_ne_zero hk.2, rfl, by rw [flatten_len hlen, hpl, Nat.mul_assoc], ?_⟩
  intro i hi k hk
  have hik : i * B + k < A * B := by
    have : (i + 1) * B ≤ A * B := Nat.mul_le_mul_right _ hi
    rw [Nat.add_mul, Nat.one_mul] at this
    omega
  obtain ⟨y, hy, hfy⟩ := mapM_get hp (i * B + k) _ (rowsOf_get hl _ hik)
  rw [show seriesAt B N i k data = (data.drop ((i * B + k) * N)).take N from rfl, hfy]
  congr 1
  exact (flatten_block hlen _ y hy).symm

omit [FloatOps F] in
theorem alongLast_ok {f : List F → Res (List F)} {m A B N N' : Nat} {data : List F} {r : Arr F} (hdata : data.length = A * (B * N)) (hf : ∀ s t, f s = .ok t → t.length = m)
    (h : alongLast f m [A, B, N'] data = .ok r) :
    0 < A ∧ 0 < B ∧ r.shape = [A, B, m] ∧ r.data.length = A * (B * m) ∧ ∀ i < A, ∀ k < B, f (seriesAt B N i k data) = .ok (seriesAt B m i k r.data) := by
  obtain ⟨_, h1, h2, h3, h4⟩ := alongLast_gen hdata (by simp) hf h
  exact ⟨Nat.pos_of_mul_pos_right h1, Nat.pos_of_mul_pos_left h1, h2, h3, h4⟩

theorem transformTo366_length {s t : List F} {y : Int} {n : Nat} (h : transformTo366day (Arr.of1d s) y n = .ok t) : t.length = n * 366 := by
  unfold transformTo366day at h
  rw [if_neg (by simp [Arr.of1d])] at h
  rw [to366Loop_length _ _ _ _ _ _ _ h]
  simp

end

/-! ## The result place by place -/

section
variable {F : Type} [FloatOps F] {K : Job → List F → List F → Res (List F)} {wk : Nat} {lower : String → String}

omit [FloatOps F] in
theorem parallelProcess_cells {j : Job} {first second res : Arr F} {out : List F} {a b n : Nat} (h : parallelProcess K wk j first second res = .ok out) (hf : first.WF)
    (hl : IsLayout j.inputType first.shape a b n) (hr : res.shape = first.shape) (hs : j.index ≠ "pet" → j.index ≠ "spei" → second.data.length = first.data.length) :
    ∀ i < a, ∀ k < b, ∃ s, K j (seriesAt b n i k first.data) (if j.index = "pet" then (second.data.drop i).take 1 else seriesAt b n i k second.data) = .ok s ∧
      assignSeries n s = .ok (seriesAt b n i k out) := by
  unfold parallelProcess at h
  obtain ⟨n0, _, h⟩ := Res.bind_ok h
  obtain ⟨cs, hc, h⟩ := Res.bind_ok h
  have hch := (mainChunks_chain hc).2.2
  split at h
  swap
  · cases h
  next hi =>
  obtain ⟨s, hv, h⟩ := Res.bind_ok h
  obtain ⟨v1, _, v2, v3, v4⟩ := viewShape_ok hv
  have hss : s = first.shape := by
    by_cases h1 : j.index = "spei"
    · rw [(v2 h1).2, hr]
    · by_cases h2 : j.index = "pet"
      · rw [(v3 h2).2, hr]
      · exact v4 h1 h2
  have hlen : first.data.length = a * (b * n) := by
    rcases hl with ⟨_, e⟩ | ⟨_, e, rfl⟩
    · unfold Arr.WF at hf
      rw [hf, e]
      simp
    · unfold Arr.WF at hf
      rw [hf, e]
      simp
  have main : ∀ o : List (List F), applyChunks (fun rs => rs.mapM (rowFunc (K j) b n (j.index == "pet"))) ((rowsOf a first.data).zip (rowsOf a second.data)) cs (rowsOf a res.data) = .ok o →
      ∀ i < a, ∀ k < b, ∃ s, K j (seriesAt b n i k first.data) (if j.index = "pet" then (second.data.drop i).take 1 else seriesAt b n i k second.data) = .ok s ∧
      assignSeries n s = .ok (seriesAt b n i k o.flatten) := by
    intro o ho i hi k hk
    obtain ⟨s, h1, h2⟩ := (rows_result hch hlen (rowsOf_length _ _) ho).2 i hi k hk
    refine ⟨s, ?_, h2⟩
    by_cases hp : j.index = "pet"
    · have hrow : (rowsOf a second.data)[i]? = some ((second.data.drop (i * 1)).take 1) := by
        refine rowsOf_get ?_ i hi
        have := (v3 hp).1
        rw [hr] at this
        rcases hl with ⟨_, e⟩ | ⟨_, e, rfl⟩
        · rw [e] at this
          simp only [List.head?_cons, Option.some.injEq] at this
          omega
        · rw [e] at this
          simp only [List.head?_cons, Option.some.injEq] at this
          omega
      rw [hrow] at h1
      rw [if_pos hp]
      simpa [hp] using h1
    · have hrow : (rowsOf a second.data)[i]? = some ((second.data.drop (i * (b * n))).take (b * n)) := rowsOf_get (by
        rw [← hlen]
        by_cases h1 : j.index = "spei"
        · rw [(v2 h1).1, v1]
        · exact hs hp h1) i hi
      rw [hrow] at h1
      rw [if_neg hp]
      have : (j.index == "pet") = false := by simpa using hp
      rw [this, Option.getD_some, row_series b n i k hk] at h1
      exact h1
  rcases hl with ⟨e1, e2⟩ | ⟨e1, e2, rfl⟩
  · rw [hss, e2, e1] at h
    simp only at h
    obtain ⟨o, h1, h⟩ := Res.bind_ok h
    cases h
    exact main o h1
  · rw [hss, e2, e1] at h
    simp only at h
    obtain ⟨o, h1, h⟩ := Res.bind_ok h
    cases h
    exact main o h1

end

section
variable {F : Type} [FloatOps F] {K : Int → Job → List F → List F → Res (List F)} {wk : Nat} {lower : String → String} {yearOf : F → Int}

/-- the arrays that the index function of a finished computation has seen, and the variable written -/
theorem cwi_arrays {j : Job} {w w' : World F} {r : String × String} (h : computeWriteIndex K wk lower yearOf j w = (.ok r, w')) :
    ∃ d ds cvars vars fn sn first second res out v lv like, openAll w.files ((j.precip.toList ++ j.temp.toList ++ j.pet.toList).map Prod.fst) = .ok d ∧
      firstYear yearOf d = .ok ds ∧ convertInputs lower d j = .ok cvars ∧ cvars.mapM (dropVar yearOf j d) = .ok vars ∧ firstName j = .ok fn ∧ secondName j fn = .ok sn ∧
      (∃ sh t : Dict (Arr F), sh = vars.foldl (fun d p => d.put p.1 ⟨p.2.shape, p.2.data⟩) w.shared ∧ putLat d j (sh.put keyResult res) = .ok t ∧ t.at fn = .ok first ∧ t.at sn = .ok second) ∧
      parallelProcess (K ds) wk j first second res = .ok out ∧ outputLike j = .ok lv ∧ List.lookup lv d = some like ∧
      outputValues j.periodicity ds (like.shape.getLastD 0) res.shape out = .ok v ∧ v.shape = like.shape ∧
      w'.files = (fun f => if f = r.1 then some (coordsOf d ++ [(r.2, ⟨like.dims, like.shape, outputUnits j, v.data⟩)]) else w.files f) ∧
      r.1 = j.base ++ "_" ++ r.2 ++ ".nc" ∧ variableName j = .ok r.2 ∧ w'.written = w.written ++ [r] := by
  obtain ⟨d, ds, like, sh, shape, out, v, hl, _, hc, ho, hsh, hn, hr, hf, _, hw⟩ := cwi_parts h
  obtain ⟨lv, cvars, vars, l1, l2, l3, l4, l5, _, l7, l8⟩ := loadInputs_ok hl
  unfold computeValues at hc
  obtain ⟨t, c1, hc⟩ := Res.bind_ok hc
  obtain ⟨fn, c2, hc⟩ := Res.bind_ok hc
  obtain ⟨first, c3, hc⟩ := Res.bind_ok hc
  obtain ⟨sn, c4, hc⟩ := Res.bind_ok hc
  obtain ⟨second, c5, hc⟩ := Res.bind_ok hc
  exact ⟨d, ds, cvars, vars, fn, sn, first, second, _, out, v, lv, like, l1, l8, l4, l5, c2, c4, ⟨sh, t, l7, c1, c3, c5⟩, hc, l2, l3, ho, hsh, hf, hr, hn, hw⟩

/-- the values of an input as the index function gets them -/
def preparedIt (it : InputType) (per : Periodicity) (y0 y1 : Int) (l : List F) : Res (List F) := if it = .divisions then .ok l else prepared per y0 y1 l

theorem preparedIt_for {it : InputType} {x : NcVar F} {A b n : Nat} (hl : Layout x A b n) (hl' : IsLayout it x.shape A b n) (hd : dropDimsOk it x.dims = true) (per : Periodicity) (y0 y1 : Int) (l : List F) :
    preparedFor x.dims per y0 y1 l = preparedIt it per y0 y1 l := by
  have h2 : ("division" ∈ x.dims) ↔ it = .divisions := by
    rcases hl with ⟨e, e'⟩ | ⟨e, e', _⟩ <;> rcases hl' with ⟨e1, e2⟩ | ⟨e1, e2, _⟩ <;> rw [e, e1]
    · decide
    · rw [e'] at e2; simp at e2
    · rw [e'] at e2; simp at e2
    · decide
  unfold preparedFor preparedIt
  simp only [h2]

omit [FloatOps F] in
theorem layout_length {it : InputType} {shape : List Nat} {a b n : Nat} (hl : IsLayout it shape a b n) {l : Nat} (h : l = shape.foldr (· * ·) 1) : l = a * (b * n) := by
  rcases hl with ⟨_, e⟩ | ⟨_, e, rfl⟩
  · rw [h, e]; simp
  · rw [h, e]; simp

omit [FloatOps F] in
theorem seriesAt_len {it : InputType} {shape : List Nat} {a b n : Nat} (hl : IsLayout it shape a b n) {d : List F} (hd : d.length = shape.foldr (· * ·) 1) {i k : Nat} (hi : i < a) (hk : k < b) :
    (seriesAt b n i k d).length = n := by
  have hlen := layout_length hl hd
  rw [← Nat.mul_assoc] at hlen
  unfold seriesAt
  rw [List.length_take, List.length_drop, hlen]
  have h1 : (i * b + k + 1) * n ≤ a * b * n := by
    apply Nat.mul_le_mul_right
    calc i * b + k + 1 ≤ i * b + b := by omega
      _ = (i + 1) * b := by rw [Nat.add_mul, Nat.one_mul]
      _ ≤ a * b := Nat.mul_le_mul_right _ hi
  rw [Nat.add_mul, Nat.one_mul] at h1
  omega

/-- an input variable in shared memory, place by place -/
theorem in_cells {j : Job} {d : NcFile F} {p q : String × NcVar F} {a b n : Nat} {y0 y1 : Int} (h : dropVar yearOf j d p = .ok q) (hl : IsLayout j.inputType p.2.shape a b n)
    (hwf : p.2.data.length = p.2.shape.foldr (· * ·) 1) (h0 : firstYear yearOf d = .ok y0) (h1 : lastYear yearOf d = .ok y1) :
    ∃ n1, IsLayout j.inputType q.2.shape a b n1 ∧ q.2.data.length = q.2.shape.foldr (· * ·) 1 ∧ (j.periodicity ≠ .daily → n1 = n) ∧ (j.inputType = .grid → j.periodicity = .daily → n1 = (y1 - y0 + 1).toNat * 366) ∧
      (j.inputType = .divisions → n1 = n) ∧
      ∀ i < a, ∀ k < b, preparedIt j.inputType j.periodicity y0 y1 (seriesAt b n i k p.2.data) = .ok (seriesAt b n1 i k q.2.data) := by
  obtain ⟨_, _, _, c1, c2, c3⟩ := dropVar_ok h
  by_cases hp : j.periodicity = .daily
  swap
  · rw [c3 hp]
    refine ⟨n, hl, hwf, fun _ => rfl, fun _ h => absurd h hp, fun _ => rfl, fun i _ k _ => ?_⟩
    unfold preparedIt prepared
    rw [if_neg hp]
    split <;> rfl
  rcases hl with ⟨e1, e2⟩ | ⟨e1, e2, e3⟩
  swap
  · rw [c1 e1]
    refine ⟨n, .inr ⟨e1, e2, e3⟩, hwf, fun _ => rfl, fun h => absurd (e1.symm.trans h) (by decide), fun _ => rfl, fun i _ k _ => ?_⟩
    unfold preparedIt
    rw [if_pos e1]
  have hd := c2 (by rw [e1]; decide)
  unfold dailyValues at hd
  rw [hp] at hd
  simp only [h0, h1, bind, Except.bind] at hd
  split at hd
  · cases hd
  rw [e2] at hd
  obtain ⟨_, _, k1, k2, k3⟩ := alongLast_ok (A := a) (B := b) (N := n) (by rw [hwf, e2]; simp) (fun s t h => transformTo366_length h) hd
  have k1 : q.2.shape = [a, b, (y1 - y0 + 1).toNat * 366] := k1
  have k2 : q.2.data.length = a * (b * ((y1 - y0 + 1).toNat * 366)) := k2
  refine ⟨(y1 - y0 + 1).toNat * 366, .inl ⟨e1, k1⟩, by rw [k1, k2]; simp, fun h => absurd hp h, fun _ _ => rfl, fun h => absurd (e1.symm.trans h) (by decide), fun i hi k hk => ?_⟩
  unfold preparedIt prepared
  rw [if_neg (by rw [e1]; decide), if_pos hp]
  exact k3 i hi k hk

/-- the values written, place by place -/
theorem cells_out {K : Job → List F → List F → Res (List F)} {j : Job} {first second res v : Arr F} {out : List F} {like : List Nat} {a b n n1 : Nat} {ds : Int}
    (h : parallelProcess K wk j first second res = .ok out) (hf : first.WF) (hl1 : IsLayout j.inputType first.shape a b n1)
    (ho : outputValues j.periodicity ds (like.getLastD 0) res.shape out = .ok v) (hv : v.shape = like) (hl : IsLayout j.inputType like a b n)
    (hn : j.periodicity ≠ .daily → n1 = n) (hs : j.index ≠ "pet" → j.index ≠ "spei" → second.data.length = first.data.length) :
    ∀ i < a, ∀ k < b, ∃ s t, K j (seriesAt b n1 i k first.data) (if j.index = "pet" then (second.data.drop i).take 1 else seriesAt b n1 i k second.data) = .ok s ∧
      assignSeries n1 s = .ok t ∧ restored j.periodicity ds t = .ok (seriesAt b n i k v.data) := by
  have hres : first.data.length = res.data.length ∧ res.WF := by
    unfold parallelProcess at h
    obtain ⟨n0, _, h⟩ := Res.bind_ok h
    obtain ⟨cs, hc, h⟩ := Res.bind_ok h
    split at h
    swap
    · cases h
    obtain ⟨s, hv, h⟩ := Res.bind_ok h
    obtain ⟨v1, v2, _⟩ := viewShape_ok hv
    exact ⟨v1, v2⟩
  have hfl := layout_length hl1 hf
  have hol := parallelProcess_length h hf hres.2
  by_cases hp : j.periodicity = .daily
  swap
  · have hvv : v = ⟨res.shape, out⟩ := by
      unfold outputValues at ho
      split at ho
      · next c => exact absurd c hp
      · cases ho; rfl
    subst hvv
    obtain rfl := hn hp
    have hrs : res.shape = first.shape := by
      have hv : res.shape = like := hv
      rw [hv]
      rcases hl with ⟨e1, e2⟩ | ⟨e1, e2, rfl⟩ <;> rcases hl1 with ⟨g1, g2⟩ | ⟨g1, g2, _⟩
      · rw [e2, g2]
      · rw [e1] at g1; cases g1
      · rw [e1] at g1; cases g1
      · rw [e2, g2]
    intro i hi k hk
    obtain ⟨s, s1, s2⟩ := parallelProcess_cells h hf hl1 hrs hs i hi k hk
    refine ⟨s, _, s1, s2, ?_⟩
    unfold restored
    rw [if_neg hp]
  unfold outputValues at ho
  rw [hp] at ho
  simp only [] at ho
  have hd : ∀ r n', res.shape = r ++ [n'] → res.shape.dropLast = r := by
    intro r n' e
    rw [e]
    simp
  have hne : res.shape ≠ [] := by
    intro e
    rw [e] at ho
    unfold alongLast at ho
    rw [if_pos (.inl rfl)] at ho
    cases ho
  obtain ⟨r, n', hr⟩ : ∃ r n', res.shape = r ++ [n'] := ⟨_, _, (List.dropLast_append_getLast hne).symm⟩
  have hvs : v.shape = r ++ [like.getLastD 0] := by
    unfold alongLast at ho
    simp only [] at ho
    split at ho
    · cases ho
    · obtain ⟨parts, _, ho⟩ := Res.bind_ok ho
      cases ho
      rw [hd r n' hr]
  have key : IsLayout j.inputType res.shape a b n' ∧ r.foldr (· * ·) 1 = a * b ∧ like.getLastD 0 = n := by
    rw [hv] at hvs
    rcases hl with ⟨e1, e2⟩ | ⟨e1, e2, rfl⟩
    · have : r = [a, b] ∧ like.getLastD 0 = n := by
        have : ([a, b] ++ [n] : List Nat) = r ++ [like.getLastD 0] := by rw [← hvs]; exact e2.symm
        obtain ⟨x, y⟩ := List.append_inj' this rfl
        exact ⟨x.symm, by simpa using y.symm⟩
      obtain ⟨rfl, h2⟩ := this
      exact ⟨.inl ⟨e1, hr⟩, by simp, h2⟩
    · have : r = [a] ∧ like.getLastD 0 = n := by
        have : ([a] ++ [n] : List Nat) = r ++ [like.getLastD 0] := by rw [← hvs]; exact e2.symm
        obtain ⟨x, y⟩ := List.append_inj' this rfl
        exact ⟨x.symm, by simpa using y.symm⟩
      obtain ⟨rfl, h2⟩ := this
      exact ⟨.inr ⟨e1, hr, rfl⟩, by simp, h2⟩
  obtain ⟨hlr, hprod, hm⟩ := key
  rw [hm] at ho
  have hrl := layout_length hlr hres.2
  obtain ⟨_, k0, _, _, k3⟩ := alongLast_gen (A := a) (B := b) (N := n') (by rw [hol, hrl]) (by rw [hd r n' hr]; exact hprod) (by
    intro s t hst
    obtain ⟨g, _, hst⟩ := Res.bind_ok hst
    split at hst
    · next e => cases hst; exact e
    · cases hst) ho
  have hnn : n' = n1 := by
    have : a * b * n1 = a * b * n' := by
      rw [Nat.mul_assoc, Nat.mul_assoc, ← hfl, ← hrl, hres.1]
    exact (Nat.eq_of_mul_eq_mul_left k0 this).symm
  subst hnn
  have hrs : res.shape = first.shape := by
    rcases hlr with ⟨e1, e2⟩ | ⟨e1, e2, rfl⟩ <;> rcases hl1 with ⟨g1, g2⟩ | ⟨g1, g2, _⟩
    · rw [e2, g2]
    · rw [e1] at g1; cases g1
    · rw [e1] at g1; cases g1
    · rw [e2, g2]
  intro i hi k hk
  obtain ⟨s, s1, s2⟩ := parallelProcess_cells h hf hl1 hrs hs i hi k hk
  refine ⟨s, _, s1, s2, ?_⟩
  unfold restored
  rw [if_pos hp]
  have := k3 i hi k hk
  obtain ⟨g, g1, g2⟩ := Res.bind_ok this
  split at g2
  · rw [g1]
    exact g2
  · cases g2

/-- a named variable in shared memory after the inputs have been dropped there -/
theorem drop_at {j : Job} {d : NcFile F} {l l' : List (String × NcVar F)} (h : l.mapM (dropVar yearOf j d) = .ok l') {v : String} {y : NcVar F} (hv : (v, y) ∈ l)
    (hu : ∀ z, (v, z) ∈ l → z = y) (sh : Dict (Arr F)) :
    ∃ q, dropVar yearOf j d (v, y) = .ok q ∧ l'.foldl (fun d p => d.put p.1 ⟨p.2.shape, p.2.data⟩) sh v = some ⟨q.2.shape, q.2.data⟩ := by
  obtain ⟨i, hi⟩ := List.mem_iff_getElem?.1 hv
  obtain ⟨q, h1, h2⟩ := mapM_get h i _ hi
  obtain ⟨_, hq, _⟩ := dropVar_ok h2
  refine ⟨q, h2, ?_⟩
  obtain ⟨_, z, hz, e⟩ := (fold_put l' sh sh).1 v ⟨q.2, by
    have := List.mem_of_getElem? h1
    rw [← show q.1 = v from hq]
    exact this⟩
  rw [e]
  obtain ⟨p, hp, hpz⟩ := mapM_mem h _ hz
  obtain ⟨_, hp1, _⟩ := dropVar_ok hpz
  have : p = (v, y) := Prod.ext hp1.symm (hu p.2 (by
    have e : p.1 = v := hp1.symm
    rw [← e]
    exact hp))
  rw [this, h2] at hpz
  rw [Except.ok.injEq] at hpz
  rw [hpz]

/-- the year of the data and the last year -/
theorem years_ok {d : NcFile F} {y0 y1 : Int} (h : Years yearOf d y0 y1) : firstYear yearOf d = .ok y0 ∧ lastYear yearOf d = .ok y1 := by
  obtain ⟨t, t0, t1, h1, h2, h3, rfl, rfl⟩ := h
  have h4 : getIdx t.data 0 = .ok t0 := by
    unfold getIdx
    rw [← List.head?_eq_getElem?, h2]
  refine ⟨?_, ?_⟩
  · unfold firstYear NcFile.get
    rw [h1]
    show (getIdx t.data 0 >>= _) = _
    rw [h4]
    rfl
  · unfold lastYear NcFile.get
    rw [h1]
    show (orElseRaise t.data.getLast? .indexError >>= _) = _
    rw [h3]
    rfl

omit [FloatOps F] in
theorem convertInput_none {conv : String → List F → Res (List F)} {d : NcFile F} {l : List (String × NcVar F)} (h : convertInput lower conv d none = .ok l) : l = [] := by
  cases h
  rfl

omit [FloatOps F] in
theorem latInput_names {d : NcFile F} {it : InputType} {l : List (String × NcVar F)} (h : latInput d it = .ok l) : ∀ p ∈ l, p.1 = "lat" := by
  unfold latInput at h
  split at h
  · obtain ⟨x, _, h⟩ := Res.bind_ok h
    cases h
    simp
  · cases h
    simp

/-- as many values are written as the shape says -/
theorem outputValues_length {K : Job → List F → List F → Res (List F)} {j : Job} {first second res v : Arr F} {out : List F} {like : List Nat} {ds : Int}
    (h : parallelProcess K wk j first second res = .ok out) (hf : first.WF)
    (ho : outputValues j.periodicity ds (like.getLastD 0) res.shape out = .ok v) (hv : v.shape = like) : v.data.length = like.foldr (· * ·) 1 := by
  have hres : res.WF := by
    unfold parallelProcess at h
    obtain ⟨n0, _, h⟩ := Res.bind_ok h
    obtain ⟨cs, hc, h⟩ := Res.bind_ok h
    split at h
    swap
    · cases h
    obtain ⟨s, hv, h⟩ := Res.bind_ok h
    exact (viewShape_ok hv).2.1
  have hol := parallelProcess_length h hf hres
  unfold Arr.WF at hres
  unfold outputValues at ho
  split at ho
  · unfold alongLast at ho
    simp only [] at ho
    split at ho
    · cases ho
    next hk =>
    rw [not_or] at hk
    obtain ⟨parts, hp, ho⟩ := Res.bind_ok ho
    cases ho
    simp only at hv
    have hlen : ∀ x ∈ parts, x.length = like.getLastD 0 := by
      intro x hx
      obtain ⟨s, _, hs⟩ := mapM_mem hp x hx
      obtain ⟨g, _, hs⟩ := Res.bind_ok hs
      split at hs
      · next e => cases hs; exact e
      · cases hs
    have hpl := mapM_len hp
    rw [rowsOf_length] at hpl
    show parts.flatten.length = _
    rw [flatten_len hlen, hpl]
    conv => rhs; rw [← hv]
    rw [List.foldr_append]
    simp only [List.foldr_cons, List.foldr_nil, Nat.mul_one]
    generalize res.shape.dropLast = l
    generalize like.getLastD 0 = m
    induction l with
    | nil => simp
    | cons z l ih => simp only [List.foldr_cons, ← ih, Nat.mul_assoc]
  · cases ho
    rw [hol, hres, hv]

theorem carries_coords {d l : NcFile F} : Carries d (coordsOf d ++ l) := by
  intro c y hm hd
  exact List.mem_append_left _ (List.mem_filter.2 ⟨hm, by simpa using hd⟩)

/-- **SPI and PNP, one computation.** -/
theorem cwi_precip {j : Job} {w w' : World F} {r : String × String} {f v : String} {d : NcFile F} {x : NcVar F} {a b n : Nat} {y0 y1 : Int}
    (h : computeWriteIndex K wk lower yearOf j w = (.ok r, w')) (hi : j.index = "spi" ∨ j.index = "pnp") (hp : j.precip = some (f, v)) (ht : j.temp = none) (he : j.pet = none)
    (hv : v ≠ "lat" ∧ v ≠ keyResult) (hf : w.files f = some d) (hx : List.lookup v d = some x) (hl : IsLayout j.inputType x.shape a b n)
    (hwf : x.data.length = x.shape.foldr (· * ·) 1) (hy : Years yearOf d y0 y1) :
    ∃ u mm new y, x.units = some u ∧ convertPrecip (lower u) x.data = .ok mm ∧ w'.files r.1 = some new ∧ (r.2, y) ∈ new ∧ (y.dims = x.dims ∧ Carries d new) ∧ (y.shape = x.shape ∧ y.data.length = x.shape.foldr (· * ·) 1) ∧ dropDimsOk j.inputType x.dims = true ∧
      ∀ i < a, ∀ k < b, ∃ p s t, preparedIt j.inputType j.periodicity y0 y1 (seriesAt b n i k mm) = .ok p ∧ K y0 j p p = .ok s ∧ assignSeries p.length s = .ok t ∧
        restored j.periodicity y0 t = .ok (seriesAt b n i k y.data) := by
  obtain ⟨md, ds, cvars, vars, fn, sn, first, second, res, out, ov, lv, like, h1, h0, h2, h2', h3, h4, ⟨sh, t, h5, h6, h7, h8⟩, h9, h11, h12, h13, h14, h10, _⟩ := cwi_arrays h
  rw [hp, ht, he] at h1
  have hmd := openAll_one h1
  rw [hf, Option.some.injEq] at hmd
  subst hmd
  obtain ⟨hy0, hy1⟩ := years_ok hy
  rw [hy0, Except.ok.injEq] at h0
  subst h0
  have hnp : j.index ≠ "pet" := by rcases hi with hi | hi <;> rw [hi] <;> decide
  have hns : j.index ≠ "spei" := by rcases hi with hi | hi <;> rw [hi] <;> decide
  have hfn : fn = v := by
    unfold firstName at h3
    rw [if_neg hnp, hp] at h3
    cases h3
    rfl
  have hsn : sn = v := by
    unfold secondName at h4
    rw [if_neg hns, if_neg hnp] at h4
    cases h4
    exact hfn
  have hv' : lv = v := by
    unfold outputLike at h11
    rw [hp] at h11
    cases h11
    rfl
  rw [hv', hx] at h12
  cases h12
  obtain ⟨p, tt, e, l, c1, c2, c3, c4, rfl⟩ := convertInputs_ok h2
  rw [ht] at c2
  rw [he] at c3
  cases convertInput_none c2
  cases convertInput_none c3
  rw [hp] at c1
  rcases convertInput_ok c1 with ⟨c, _⟩ | ⟨f', v'', x', y, c, rfl, c5, c6⟩
  · cases c
  cases c
  rw [hx] at c5
  cases c5
  obtain ⟨u, u1, u2, u3, u4⟩ := convertVar_ok c6
  obtain ⟨q, q1, q2⟩ := drop_at h2' (v := v) (y := y) (by simp) (by
    intro z hz
    simp only [List.append_nil, List.cons_append, List.nil_append, List.mem_cons, Prod.mk.injEq, true_and] at hz
    rcases hz with hz | hz
    · exact hz
    · exact absurd (latInput_names c4 _ hz) hv.1) w.shared
  rw [← h5] at q2
  have ht : t = sh.put keyResult res := by
    unfold putLat at h6
    rw [if_neg hnp] at h6
    cases h6
    rfl
  have hfirst : first = ⟨q.2.shape, q.2.data⟩ ∧ second = ⟨q.2.shape, q.2.data⟩ := by
    have htv : t v = some ⟨q.2.shape, q.2.data⟩ := by
      rw [ht]
      simp [Dict.put, hv.2, q2]
    rw [hfn] at h7
    rw [hsn] at h8
    unfold Dict.at at h7 h8
    rw [htv] at h7 h8
    cases h7
    cases h8
    exact ⟨rfl, rfl⟩
  obtain ⟨rfl, rfl⟩ := hfirst
  obtain ⟨n1, m1, m2, m3, _, _, m4⟩ := in_cells (a := a) (b := b) (n := n) q1 (by rw [u3]; exact hl) (by rw [u3, convert_length.1 u4]; exact hwf) hy0 hy1
  have hcells := cells_out h9 m2 m1 h13 h14 hl m3 (fun _ _ => rfl)
  refine ⟨u, y.data, _, ⟨x.dims, x.shape, outputUnits j, ov.data⟩, u1, u4, by rw [h10]; exact if_pos rfl, by simp, ⟨rfl, carries_coords⟩, ⟨rfl, outputValues_length h9 m2 h13 h14⟩, by rw [← u2]; exact (dropVar_ok q1).1, ?_⟩
  intro i hi k hk
  obtain ⟨s, t, s1, s2, s3⟩ := hcells i hi k hk
  rw [if_neg hnp] at s1
  refine ⟨_, s, t, m4 i hi k hk, s1, ?_, s3⟩
  rw [seriesAt_len m1 m2 hi hk]
  exact s2

end

end CI
