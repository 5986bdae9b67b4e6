import Verif.Model.Parallel
import Verif.Lemmas.Py
import Mathlib.Data.DFinsupp.WellFounded
import Mathlib.Tactic.Ring
import Mathlib.Tactic.Linarith

/-! Lemmas on chunks and on programs over shared memory. -/

namespace CI

/-! ## chunks -/

/-- first row of chunk `i` -/
def gIdx (d m i : Nat) : Nat := i * d + min i m

theorem gIdx_mono (d m i : Nat) : gIdx d m i ≤ gIdx d m (i + 1) := by
  unfold gIdx
  have := Nat.le_mul_of_pos_left d (Nat.succ_pos i)
  have h : (i + 1) * d = i * d + d := by ring
  omega

theorem split_spec (n w : Nat) (hw : 0 < w) :
    splitIndices n w = .ok ((List.range (if n / w = 0 then n % w + 1 else w)).map (gIdx (n / w) (n % w))) := by
  unfold splitIndices
  rw [if_neg (by omega)]
  have hn : w * (n / w) + n % w = n := Nat.div_add_mod n w
  have hm : n % w < w := Nat.mod_lt _ hw
  generalize n / w = d at *
  generalize n % w = m at *
  have h1 : rangeStep 0 ((d + 1) * (m + 1)) (d + 1) = (List.range (m + 1)).map (gIdx d m) := by
    unfold rangeStep
    have : ((d + 1) * (m + 1) - 0 + (d + 1 - 1)) / (d + 1) = m + 1 := by
      rw [Nat.sub_zero, Nat.add_sub_cancel, Nat.mul_comm]
      apply Nat.div_eq_of_lt_le
      · omega
      · have : (m + 1 + 1) * (d + 1) = (m + 1) * (d + 1) + (d + 1) := by ring
        omega
    rw [this]
    apply List.map_congr_left
    intro k hk
    have hk : k < m + 1 := List.mem_range.1 hk
    unfold gIdx
    rw [Nat.min_eq_left (by omega)]
    ring
  simp only [h1]
  by_cases hd : d = 0
  · subst hd
    simp
  · rw [if_pos hd, if_neg hd]
    rw [List.range_succ, List.map_append, List.map_singleton, List.getLast?_concat]
    simp only []
    congr 1
    have hlast : gIdx d m m = m * d + m := by unfold gIdx; rw [Nat.min_self]
    have h2 : rangeStep (gIdx d m m + d) n d = (List.range (w - (m + 1))).map (fun k => gIdx d m (m + 1 + k)) := by
      unfold rangeStep
      rw [hlast]
      obtain ⟨q, hq⟩ := Nat.exists_eq_add_of_lt hm
      have e : n - (m * d + m + d) = q * d := by
        have : w * d = m * d + q * d + d := by rw [hq]; ring
        omega
      have e2 : (n - (m * d + m + d) + (d - 1)) / d = w - (m + 1) := by
        rw [e]
        apply Nat.div_eq_of_lt_le
        · rw [show w - (m + 1) = q by omega]; omega
        · rw [show w - (m + 1) + 1 = q + 1 by omega]
          have : (q + 1) * d = q * d + d := by ring
          omega
      rw [e2]
      apply List.map_congr_left
      intro k _
      unfold gIdx
      rw [Nat.min_eq_right (by omega)]
      ring
    rw [h2, ← List.map_singleton (f := gIdx d m), ← List.map_append, ← List.range_succ]
    rw [show w = (m + 1) + (w - (m + 1)) by omega, List.range_add, List.map_append, List.map_map]
    congr 2
    rw [show m + 1 + (w - (m + 1)) - (m + 1) = w - (m + 1) by omega]

theorem drop_take_range (n a b : Nat) (hb : b ≤ n) : ((List.range n).take b).drop a = List.range' a (b - a) := by
  rw [List.take_range, Nat.min_eq_left hb, List.range_eq_range', List.drop_range']
  simp

theorem flatMap_range' (g : Nat → Nat) (h0 : g 0 = 0) (hm : ∀ i, g i ≤ g (i + 1)) (k : Nat) :
    (List.range k).flatMap (fun i => List.range' (g i) (g (i + 1) - g i)) = List.range (g k) := by
  induction k with
  | zero => simp [h0]
  | succ k ih =>
    rw [List.range_succ, List.flatMap_append, ih, List.flatMap_singleton]
    have hk := hm k
    rw [List.range_eq_range', List.range_eq_range']
    conv_rhs => rw [show g (k + 1) = g k + (g (k + 1) - g k) by omega, ← List.range'_append]
    simp

theorem gIdx_end (n w : Nat) (hw : 0 < w) : gIdx (n / w) (n % w) w = n := by
  unfold gIdx
  rw [Nat.min_eq_right (Nat.le_of_lt (Nat.mod_lt _ hw))]
  exact Nat.div_add_mod n w

theorem gIdx_le (n w i : Nat) (hw : 0 < w) (hi : i ≤ w) : gIdx (n / w) (n % w) i ≤ n := by
  have h : ∀ k, gIdx (n / w) (n % w) i ≤ gIdx (n / w) (n % w) (i + k) := by
    intro k
    induction k with
    | zero => simp
    | succ k ih => exact ih.trans (gIdx_mono _ _ _)
  have := h (w - i)
  rw [show i + (w - i) = w by omega, gIdx_end _ _ hw] at this
  exact this

/-- the chunks when there are at least as many rows as processes -/
def regularChunks (n w : Nat) : List (Nat × Option Nat) :=
  (List.range w).map (fun i => (gIdx (n / w) (n % w) i, if i < w - 1 then some (gIdx (n / w) (n % w) (i + 1)) else none))

theorem regular_rows (n w i : Nat) (hi : i < w) :
    chunkRows n (gIdx (n / w) (n % w) i, if i < w - 1 then some (gIdx (n / w) (n % w) (i + 1)) else none)
      = List.range' (gIdx (n / w) (n % w) i) (gIdx (n / w) (n % w) (i + 1) - gIdx (n / w) (n % w) i) := by
  unfold chunkRows
  by_cases h : i < w - 1
  · rw [if_pos h]
    exact drop_take_range _ _ _ (gIdx_le _ _ _ (by omega) (by omega))
  · rw [if_neg h]
    have : i + 1 = w := by omega
    rw [this, gIdx_end _ _ (by omega)]
    exact drop_take_range _ _ _ (Nat.le_refl _)

theorem regular_cover (n w : Nat) (hw : 0 < w) : (regularChunks n w).flatMap (chunkRows n) = List.range n := by
  unfold regularChunks
  rw [List.flatMap_map]
  have : (List.range w).flatMap (fun i => chunkRows n (gIdx (n / w) (n % w) i, if i < w - 1 then some (gIdx (n / w) (n % w) (i + 1)) else none))
      = (List.range w).flatMap (fun i => List.range' (gIdx (n / w) (n % w) i) (gIdx (n / w) (n % w) (i + 1) - gIdx (n / w) (n % w) i)) := by
    apply List.flatMap_congr
    intro i hi
    exact regular_rows n w i (List.mem_range.1 hi)
  rw [this, flatMap_range' _ (by simp [gIdx]) (gIdx_mono _ _), gIdx_end _ _ hw]

theorem regular_size (n w : Nat) (c : Nat × Option Nat) (hc : c ∈ regularChunks n w) :
    n / w ≤ (chunkRows n c).length ∧ (chunkRows n c).length ≤ n / w + 1 := by
  unfold regularChunks at hc
  obtain ⟨i, hi, rfl⟩ := List.mem_map.1 hc
  rw [regular_rows n w i (List.mem_range.1 hi), List.length_range']
  unfold gIdx
  have h : (i + 1) * (n / w) = i * (n / w) + n / w := by ring
  rw [h]
  generalize i * (n / w) = a
  generalize n / w = b
  generalize n % w = c
  omega

theorem mapM_ok_of {α β : Type} (f : α → Res β) (g : α → β) (l : List α) (h : ∀ x ∈ l, f x = .ok (g x)) : l.mapM f = .ok (l.map g) := by
  induction l with
  | nil => rfl
  | cons a l ih =>
    rw [List.mapM_cons, h a (by simp), ih (fun x hx => h x (by simp [hx]))]
    rfl

theorem mainChunks_spec (n w : Nat) (hn : 1 ≤ n) (hw : 1 ≤ w) : mainChunks n w = .ok (regularChunks n (min n w)) := by
  unfold mainChunks
  simp only []
  have hr : 0 < min n w := by omega
  have hle : min n w ≤ n := Nat.min_le_left _ _
  generalize min n w = r at *
  have hd : ¬ n / r = 0 := by
    have := Nat.div_pos hle hr
    omega
  rw [split_spec n r hr, if_neg hd]
  simp only [bind, Except.bind, pure, Except.pure]
  unfold regularChunks
  apply mapM_ok_of
  intro i hi
  have hi := List.mem_range.1 hi
  rw [getIdx_of_lt _ _ (by simpa using hi)]
  by_cases h : i < r - 1
  · rw [getIdx_of_lt _ _ (by simp; omega)]
    simp [h]
  · simp [h]

theorem spiLoop_regular (s : List Nat) (w k a : Nat) (hs : s.length = w) (hk : a + k = w) (hk0 : 0 < k) :
    spiChunksLoop s w (List.range' a k) = .ok ((List.range' a k).map (fun i => (s.getD i 0, if i < w - 1 then some (s.getD (i + 1) 0) else none))) := by
  induction k generalizing a with
  | zero => omega
  | succ k ih =>
    rw [List.range'_succ]
    unfold spiChunksLoop
    rw [getIdx_of_lt _ _ (by omega)]
    simp only [bind, Except.bind, pure, Except.pure]
    by_cases hk1 : k = 0
    · subst hk1
      have h : ¬ (a < w - 1 ∧ s.length > a + 1) := by omega
      have h' : ¬ a < w - 1 := by omega
      rw [if_neg h]
      simp [h', show a < s.length by omega]
    · have h : (a < w - 1 ∧ s.length > a + 1) := by omega
      rw [if_pos h, getIdx_of_lt _ _ (by omega), ih (a + 1) (by omega) (by omega)]
      simp [h.1, show a < s.length by omega, show a + 1 < s.length by omega]

/-- the chunks of the SPI tool when there are fewer rows than processes: one row each and an empty one -/
def smallChunks (n : Nat) : List (Nat × Option Nat) := (List.range n).map (fun i => (i, some (i + 1))) ++ [(n, none)]

theorem spiLoop_small (n w k a : Nat) (hn : n < w) (ha : a ≤ n) (hk : a + k = w) :
    spiChunksLoop (List.range (n + 1)) w (List.range' a k) = .ok ((List.range' a (n - a)).map (fun i => (i, some (i + 1))) ++ [(n, none)]) := by
  induction k generalizing a with
  | zero => omega
  | succ k ih =>
    rw [List.range'_succ]
    unfold spiChunksLoop
    rw [getIdx_of_lt _ _ (by simp; omega)]
    simp only [bind, Except.bind, pure, Except.pure]
    by_cases h : a = n
    · subst h
      rw [if_neg (by simp)]
      simp
    · rw [if_pos (by simp; omega), getIdx_of_lt _ _ (by simp; omega), ih (a + 1) (by omega) (by omega)]
      rw [show n - a = (n - (a + 1)) + 1 by omega, List.range'_succ]
      simp

theorem spiChunks_spec (n w : Nat) (hw : 1 ≤ w) : spiChunks n w = .ok (if n < w then smallChunks n else regularChunks n w) := by
  unfold spiChunks
  rw [split_spec n w hw]
  simp only [bind, Except.bind]
  by_cases h : n < w
  · have hd : n / w = 0 := Nat.div_eq_of_lt h
    have hmm : n % w = n := Nat.mod_eq_of_lt h
    rw [if_pos h, if_pos hd, hd, hmm]
    have : (List.range (n + 1)).map (gIdx 0 n) = List.range (n + 1) := by
      conv_rhs => rw [← List.map_id (List.range (n + 1))]
      apply List.map_congr_left
      intro i hi
      have := List.mem_range.1 hi
      unfold gIdx
      simp; omega
    rw [this, List.range_eq_range', ← List.range_eq_range']
    conv_lhs => rw [List.range_eq_range' (n := w)]
    rw [spiLoop_small n w w 0 h (by omega) (by omega)]
    simp [smallChunks, List.range_eq_range']
  · have hd : ¬ n / w = 0 := by
      have := Nat.div_pos (show w ≤ n by omega) hw
      omega
    rw [if_neg h, if_neg hd]
    conv_lhs => arg 3; rw [List.range_eq_range']
    rw [spiLoop_regular _ w w 0 (by simp) (by omega) (by omega)]
    unfold regularChunks
    rw [← List.range_eq_range']
    congr 1
    apply List.map_congr_left
    intro i hi
    have hi := List.mem_range.1 hi
    by_cases h1 : i < w - 1
    · simp [h1, hi, show i + 1 < w by omega]
    · simp [h1, hi]

theorem small_cover (n : Nat) : (smallChunks n).flatMap (chunkRows n) = List.range n := by
  unfold smallChunks
  rw [List.flatMap_append, List.flatMap_map, List.flatMap_singleton]
  have h : (List.range n).flatMap (fun i => chunkRows n (i, some (i + 1))) = (List.range n).flatMap (fun i => List.range' i (i + 1 - i)) := by
    apply List.flatMap_congr
    intro i hi
    exact drop_take_range _ _ _ (by have := List.mem_range.1 hi; show i + 1 ≤ n; omega)
  rw [h, flatMap_range' (fun i => i) rfl (fun i => by omega)]
  simp [chunkRows]

theorem small_size (n : Nat) (c : Nat × Option Nat) (hc : c ∈ smallChunks n) : (chunkRows n c).length ≤ 1 := by
  unfold smallChunks at hc
  rcases List.mem_append.1 hc with h | h
  · obtain ⟨i, hi, rfl⟩ := List.mem_map.1 h
    have := List.mem_range.1 hi
    simp [chunkRows]
    omega
  · rw [List.mem_singleton.1 h]
    simp [chunkRows]

/-! ## programs -/

section
variable {V : Type}

/-- all places read or written belong to `S` -/
inductive StaysIn (S : Loc → Prop) : Prog V → Prop
  | done : StaysIn S .done
  | read (l : Loc) (k : V → Prog V) (h : S l) (hk : ∀ v, StaysIn S (k v)) : StaysIn S (.read l k)
  | write (l : Loc) (v : V) (k : Prog V) (h : S l) (hk : StaysIn S k) : StaysIn S (.write l v k)

theorem upd_self (m : Mem V) (l : Loc) (v : V) : upd m l v l = v := by simp [upd]
theorem upd_ne (m : Mem V) (l x : Loc) (v : V) (h : x ≠ l) : upd m l v x = m x := by simp [upd, h]

theorem run_outside (S : Loc → Prop) (p : Prog V) (hp : StaysIn S p) (m : Mem V) (x : Loc) (hx : ¬ S x) : p.run m x = m x := by
  induction hp generalizing m with
  | done => rfl
  | read l k h hk ih => exact ih _ m
  | write l v k h hk ih =>
    show k.run (upd m l v) x = m x
    rw [ih, upd_ne _ _ _ _ (fun e => hx (by rw [e]; exact h))]

theorem run_congr (S : Loc → Prop) (p : Prog V) (hp : StaysIn S p) (m m' : Mem V) (h : ∀ x, S x → m x = m' x) : ∀ x, S x → p.run m x = p.run m' x := by
  induction hp generalizing m m' with
  | done => exact h
  | read l k hl hk ih =>
    intro x hx
    show (k (m l)).run m x = (k (m' l)).run m' x
    rw [h l hl]
    exact ih _ m m' h x hx
  | write l v k hl hk ih =>
    intro x hx
    exact ih _ _ (fun y hy => by unfold upd; split <;> [rfl; exact h y hy]) x hx

/-- **Main invariant**: programs with disjoint footprints do not disturb each other. -/
theorem exec_invariant {ι : Type} [DecidableEq ι] (S : ι → Loc → Prop) (hdis : ∀ i j, i ≠ j → ∀ x, S i x → ¬ S j x)
    (m0 : Mem V) (ps0 : ι → Prog V) (hW : ∀ i, StaysIn (S i) (ps0 i)) (st : Mem V × (ι → Prog V)) (h : Exec (m0, ps0) st) :
    (∀ i, StaysIn (S i) (st.2 i)) ∧ (∀ i x, S i x → (st.2 i).run st.1 x = (ps0 i).run m0 x) ∧ (∀ x, (∀ i, ¬ S i x) → st.1 x = m0 x) := by
  induction h with
  | refl => exact ⟨hW, fun _ _ _ => rfl, fun _ _ => rfl⟩
  | step h h' ih =>
    obtain ⟨i1, i2, i3⟩ := ih
    cases h' with
    | read m ps i l k hi =>
      have hw := i1 i
      simp only [hi] at hw
      cases hw with
      | read _ _ hl hk =>
      refine ⟨fun j => ?_, fun j x hx => ?_, i3⟩
      · show StaysIn (S j) (updProg ps i (k (m l)) j)
        unfold updProg
        split
        · rename_i e; subst e; exact hk _
        · exact i1 j
      · show (updProg ps i (k (m l)) j).run m x = _
        rw [← i2 j x hx]
        unfold updProg
        split
        · rename_i e; subst e; simp only [hi]; rfl
        · rfl
    | write m ps i l v k hi =>
      have hw := i1 i
      simp only [hi] at hw
      cases hw with
      | write _ _ _ hl hk =>
      refine ⟨fun j => ?_, fun j x hx => ?_, fun x hx => ?_⟩
      · show StaysIn (S j) (updProg ps i k j)
        unfold updProg
        split
        · rename_i e; subst e; exact hk
        · exact i1 j
      · show (updProg ps i k j).run (upd m l v) x = _
        rw [← i2 j x hx]
        unfold updProg
        split
        · rename_i e; subst e; simp only [hi]; rfl
        · rename_i e
          refine run_congr (S j) _ (i1 j) _ _ (fun y hy => ?_) x hx
          refine upd_ne _ _ _ _ (fun e2 => ?_)
          subst e2
          exact hdis j i e y hy hl
      · show upd m l v x = m0 x
        rw [upd_ne _ _ _ _ (fun e => hx i (by rw [e]; exact hl))]
        exact i3 x hx

/-- all programs are finished -/
def AllDone {ι : Type} (ps : ι → Prog V) : Prop := ∀ i, ps i = .done

/-- a program that is one step further -/
inductive SubProg : Prog V → Prog V → Prop
  | read (l : Loc) (k : V → Prog V) (v : V) : SubProg (k v) (.read l k)
  | write (l : Loc) (v : V) (k : Prog V) : SubProg k (.write l v k)

theorem subProg_wf : WellFounded (SubProg (V := V)) := by
  constructor
  intro p
  induction p with
  | done => exact ⟨_, fun q h => by cases h⟩
  | read l k ih => exact ⟨_, fun q h => by cases h; exact ih _⟩
  | write l v k ih => exact ⟨_, fun q h => by cases h; exact ih⟩

/-- no execution goes on for ever -/
theorem no_infinite (c : Nat) (f : Nat → Mem V × (Fin c → Prog V)) : ¬ ∀ k, Step (f k) (f (k + 1)) := by
  intro h
  have wf : WellFounded (Pi.Lex (fun a b : Fin c => a < b) (fun {_} => SubProg (V := V))) := Pi.Lex.wellFounded _ (fun _ => subProg_wf)
  have hs : ∀ s t : Mem V × (Fin c → Prog V), Step s t → Pi.Lex (fun a b : Fin c => a < b) (fun {_} => SubProg (V := V)) t.2 s.2 := by
    intro s t hst
    cases hst with
    | read m ps i l k hi =>
      refine ⟨i, fun j hj => ?_, ?_⟩
      · simp [updProg, (ne_of_lt hj)]
      · simp only [updProg, hi, if_true]; exact SubProg.read l k _
    | write m ps i l v k hi =>
      refine ⟨i, fun j hj => ?_, ?_⟩
      · simp [updProg, (ne_of_lt hj)]
      · simp only [updProg, hi, if_true]; exact SubProg.write l v k
  have : ∀ x, ∀ k, (f k).2 = x → False := by
    intro x
    induction x using wf.induction with
    | _ x ih =>
      intro k hk
      exact ih _ (hk ▸ hs _ _ (h k)) (k + 1) rfl
  exact this _ 0 rfl

/-- a state in which no step is possible is one in which all programs are finished -/
theorem stuck_done {ι : Type} [DecidableEq ι] (s : Mem V × (ι → Prog V)) (h : ∀ t, ¬ Step s t) : AllDone s.2 := by
  obtain ⟨m, ps⟩ := s
  intro i
  show ps i = .done
  cases hi : ps i with
  | done => rfl
  | read l k => exact absurd (Step.read m ps i l k hi) (h _)
  | write l v k => exact absurd (Step.write m ps i l v k hi) (h _)

/-! ## programs of the workers -/

theorem within_readAll (S : Loc → Prop) (ls : List Loc) (hl : ∀ l ∈ ls, S l) (k : List V → Prog V) (hk : ∀ vs, StaysIn S (k vs)) : StaysIn S (readAll ls k) := by
  induction ls generalizing k with
  | nil => exact hk _
  | cons l ls ih => exact StaysIn.read _ _ (hl l (by simp)) (fun v => ih (fun x hx => hl x (by simp [hx])) _ (fun vs => hk _))

theorem within_writeAll (S : Loc → Prop) (ws : List (Loc × V)) (hl : ∀ w ∈ ws, S w.1) (k : Prog V) (hk : StaysIn S k) : StaysIn S (writeAll ws k) := by
  induction ws with
  | nil => exact hk
  | cons w ws ih => exact StaysIn.write _ _ _ (hl w (by simp)) (ih (fun x hx => hl x (by simp [hx])))

theorem run_readAll (ls : List Loc) (k : List V → Prog V) (m : Mem V) : (readAll ls k).run m = (k (ls.map m)).run m := by
  induction ls generalizing k with
  | nil => rfl
  | cons l ls ih => exact ih _

/-- memory after a list of writes -/
def applyWrites (ws : List (Loc × V)) (m : Mem V) : Mem V := ws.foldl (fun m w => upd m w.1 w.2) m

theorem run_writeAll (ws : List (Loc × V)) (k : Prog V) (m : Mem V) : (writeAll ws k).run m = k.run (applyWrites ws m) := by
  induction ws generalizing m with
  | nil => rfl
  | cons w ws ih => exact ih _

theorem applyWrites_append (ws ws' : List (Loc × V)) (m : Mem V) : applyWrites (ws ++ ws') m = applyWrites ws' (applyWrites ws m) := by
  unfold applyWrites; rw [List.foldl_append]

theorem applyWrites_not_mem (ws : List (Loc × V)) (m : Mem V) (x : Loc) (h : ∀ w ∈ ws, w.1 ≠ x) : applyWrites ws m x = m x := by
  induction ws generalizing m with
  | nil => rfl
  | cons w ws ih =>
    show applyWrites ws (upd m w.1 w.2) x = m x
    rw [ih _ (fun w' hw' => h w' (by simp [hw'])), upd_ne _ _ _ _ (h w (by simp)).symm]

theorem applyWrites_mem (ws : List (Loc × V)) (m : Mem V) (x : Loc) (v : V) (h : (x, v) ∈ ws) (hu : ∀ w ∈ ws, w.1 = x → w.2 = v) : applyWrites ws m x = v := by
  induction ws generalizing m with
  | nil => simp at h
  | cons w ws ih =>
    show applyWrites ws (upd m w.1 w.2) x = v
    by_cases hw : (x, v) ∈ ws
    · exact ih _ hw (fun w' hw' => hu w' (by simp [hw']))
    · have e : (x, v) = w := by simpa [hw] using h
      have hn : ∀ w' ∈ ws, w'.1 ≠ x := by
        intro w' hw' e'
        have := hu w' (by simp [hw']) e'
        exact hw (by rw [← this, ← e']; exact hw')
      rw [applyWrites_not_mem _ _ _ hn, ← e, upd_self]

/-- row of a place -/
def Loc.row : Loc → Nat
  | .inp _ r _ _ => r
  | .out _ r _ _ => r

/-- column of a place -/
def Loc.col : Loc → Nat
  | .inp _ _ j _ => j
  | .out _ _ j _ => j

theorem mem_inLocs (a n : Nat) (rj : Nat × Nat) (l : Loc) (h : l ∈ inLocs a n rj) : l.row = rj.1 ∧ l.col = rj.2 := by
  obtain ⟨t, _, rfl⟩ := List.mem_map.1 h
  exact ⟨rfl, rfl⟩

theorem mem_outWrites (o : Nat) (rj : Nat × Nat) (vs : List V) (w : Loc × V) (h : w ∈ outWrites o rj vs) :
    ∃ t, w.1 = .out o rj.1 rj.2 t ∧ vs[t]? = some w.2 := by
  obtain ⟨q, hq, rfl⟩ := List.mem_map.1 h
  exact ⟨q.2, rfl, by simpa using List.mem_zipIdx_iff_getElem?.1 hq⟩

theorem outWrites_mem (o : Nat) (rj : Nat × Nat) (vs : List V) (t : Nat) (v : V) (h : vs[t]? = some v) : (Loc.out o rj.1 rj.2 t, v) ∈ outWrites o rj vs := by
  exact List.mem_map.2 ⟨(v, t), List.mem_zipIdx_iff_getElem?.2 h, rfl⟩

theorem mem_outWritesAll (rj : Nat × Nat) (vss : List (List V)) (w : Loc × V) (h : w ∈ outWritesAll rj vss) :
    ∃ o t vs, w.1 = .out o rj.1 rj.2 t ∧ vss[o]? = some vs ∧ vs[t]? = some w.2 := by
  obtain ⟨q, hq, hw⟩ := List.mem_flatMap.1 h
  obtain ⟨t, h1, h2⟩ := mem_outWrites _ _ _ _ hw
  exact ⟨q.2, t, q.1, h1, by simpa using List.mem_zipIdx_iff_getElem?.1 hq, h2⟩

theorem outWritesAll_mem (rj : Nat × Nat) (vss : List (List V)) (o t : Nat) (vs : List V) (v : V) (h : vss[o]? = some vs) (h' : vs[t]? = some v) :
    (Loc.out o rj.1 rj.2 t, v) ∈ outWritesAll rj vss :=
  List.mem_flatMap.2 ⟨(vs, o), List.mem_zipIdx_iff_getElem?.2 h, outWrites_mem _ _ _ _ _ h'⟩

theorem mem_inWrites (rj : Nat × Nat) (vs : List V) (w : Loc × V) (h : w ∈ inWrites rj vs) : ∃ t, w.1 = .inp 0 rj.1 rj.2 t ∧ vs[t]? = some w.2 := by
  obtain ⟨q, hq, rfl⟩ := List.mem_map.1 h
  exact ⟨q.2, rfl, by simpa using List.mem_zipIdx_iff_getElem?.1 hq⟩

theorem within_single (S : Loc → Prop) (n : Nat) (func inplace : List V → List V) (srs : List (Nat × Nat)) (acc : List (Loc × V))
    (hS : ∀ rj ∈ srs, ∀ l : Loc, l.row = rj.1 → S l) (hacc : ∀ w ∈ acc, S w.1) : StaysIn S (progSingle n func inplace srs acc) := by
  induction srs generalizing acc with
  | nil => exact within_writeAll S _ hacc _ StaysIn.done
  | cons rj rest ih =>
    refine within_readAll S _ (fun l hl => hS rj (by simp) l (mem_inLocs _ _ _ _ hl).1) _ (fun vs => ?_)
    refine within_writeAll S _ (fun w hw => ?_) _ (ih _ (fun q hq => hS q (by simp [hq])) (fun w hw => ?_))
    · obtain ⟨t, h, _⟩ := mem_inWrites _ _ _ hw
      exact hS rj (by simp) _ (by rw [h]; rfl)
    · rcases List.mem_append.1 hw with h | h
      · exact hacc w h
      · obtain ⟨t, h, _⟩ := mem_outWrites _ _ _ _ h
        exact hS rj (by simp) _ (by rw [h]; rfl)

theorem within_double (S : Loc → Prop) (n : Nat) (second : Nat × Nat → List Loc) (hsec : ∀ rj, ∀ l ∈ second rj, l.row = rj.1)
    (func : List V → List V → List (List V)) (inplace : List V → List V) (srs : List (Nat × Nat))
    (hS : ∀ rj ∈ srs, ∀ l : Loc, l.row = rj.1 → S l) : StaysIn S (progDouble n second func inplace srs) := by
  induction srs with
  | nil => exact StaysIn.done
  | cons rj rest ih =>
    refine within_readAll S _ (fun l hl => hS rj (by simp) l (mem_inLocs _ _ _ _ hl).1) _ (fun vs => ?_)
    refine within_readAll S _ (fun l hl => hS rj (by simp) l (hsec rj l hl)) _ (fun ws => ?_)
    refine within_writeAll S _ (fun w hw => ?_) _ (within_writeAll S _ (fun w hw => ?_) _ (ih (fun q hq => hS q (by simp [hq]))))
    · obtain ⟨t, h, _⟩ := mem_inWrites _ _ _ hw
      exact hS rj (by simp) _ (by rw [h]; rfl)
    · obtain ⟨o, t, _, h, _, _⟩ := mem_outWritesAll _ _ _ hw
      exact hS rj (by simp) _ (by rw [h]; rfl)

/-- result of `progSingle` -/
theorem run_single (n : Nat) (func inplace : List V → List V) (srs : List (Nat × Nat)) (hnd : srs.Nodup) (acc : List (Loc × V)) (m m0 : Mem V)
    (hm : ∀ rj ∈ srs, (inLocs 0 n rj).map m = (inLocs 0 n rj).map m0)
    (hacc : ∀ w ∈ acc, ∀ w' ∈ acc, w.1 = w'.1 → w.2 = w'.2) (hacc2 : ∀ w ∈ acc, ∃ r j t, w.1 = .out 0 r j t ∧ (r, j) ∉ srs) (r j t : Nat) (v : V) :
    ((r, j) ∈ srs → (func ((inLocs 0 n (r, j)).map m0))[t]? = some v → (progSingle n func inplace srs acc).run m (.out 0 r j t) = v) ∧
    ((Loc.out 0 r j t, v) ∈ acc → (progSingle n func inplace srs acc).run m (.out 0 r j t) = v) := by
  induction srs generalizing acc m with
  | nil =>
    refine ⟨fun h => by simp at h, fun h => ?_⟩
    show (writeAll acc .done).run m _ = v
    rw [run_writeAll]
    exact applyWrites_mem acc m _ v h (fun w hw e => hacc w hw _ h e)
  | cons rj rest ih =>
    have hrun : (progSingle n func inplace (rj :: rest) acc).run m
        = (progSingle n func inplace rest (acc ++ outWrites 0 rj (func ((inLocs 0 n rj).map m0)))).run
            (applyWrites (inWrites rj (inplace ((inLocs 0 n rj).map m0))) m) := by
      conv_lhs => unfold progSingle
      rw [run_readAll, run_writeAll, hm rj (by simp)]
    rw [hrun]
    have hnd' := List.nodup_cons.1 hnd
    have hm' : ∀ q ∈ rest, (inLocs 0 n q).map (applyWrites (inWrites rj (inplace ((inLocs 0 n rj).map m0))) m) = (inLocs 0 n q).map m0 := by
      intro q hq
      rw [← hm q (by simp [hq])]
      apply List.map_congr_left
      intro l hl
      apply applyWrites_not_mem
      intro w hw e
      obtain ⟨t, h, _⟩ := mem_inWrites _ _ _ hw
      have := mem_inLocs _ _ _ _ hl
      rw [← e, h] at this
      have : rj = q := Prod.ext this.1 this.2
      exact hnd'.1 (this ▸ hq)
    have hacc' : ∀ w ∈ acc ++ outWrites 0 rj (func ((inLocs 0 n rj).map m0)), ∀ w' ∈ acc ++ outWrites 0 rj (func ((inLocs 0 n rj).map m0)), w.1 = w'.1 → w.2 = w'.2 := by
      have cross : ∀ w ∈ acc, ∀ w' ∈ outWrites 0 rj (func ((inLocs 0 n rj).map m0)), w.1 ≠ w'.1 := by
        intro w hw w' hw' e
        obtain ⟨r1, j1, t1, h1, h2⟩ := hacc2 w hw
        obtain ⟨t2, h3, _⟩ := mem_outWrites _ _ _ _ hw'
        rw [h1, h3] at e
        injection e with _ e1 e2 _
        exact h2 (by rw [e1, e2]; simp)
      intro w hw w' hw' e
      rcases List.mem_append.1 hw with h | h <;> rcases List.mem_append.1 hw' with h' | h'
      · exact hacc w h w' h' e
      · exact absurd e (cross w h w' h')
      · exact absurd e.symm (cross w' h' w h)
      · obtain ⟨t1, h1, h2⟩ := mem_outWrites _ _ _ _ h
        obtain ⟨t2, h3, h4⟩ := mem_outWrites _ _ _ _ h'
        rw [h1, h3] at e
        injection e with _ _ _ e
        rw [e] at h2
        exact Option.some.inj (h2.symm.trans h4)
    have hacc2' : ∀ w ∈ acc ++ outWrites 0 rj (func ((inLocs 0 n rj).map m0)), ∃ r j t, w.1 = .out 0 r j t ∧ (r, j) ∉ rest := by
      intro w hw
      rcases List.mem_append.1 hw with h | h
      · obtain ⟨r1, j1, t1, h1, h2⟩ := hacc2 w h
        exact ⟨r1, j1, t1, h1, fun hx => h2 (by simp [hx])⟩
      · obtain ⟨t1, h1, _⟩ := mem_outWrites _ _ _ _ h
        exact ⟨_, _, t1, h1, hnd'.1⟩
    obtain ⟨g1, g2⟩ := ih hnd'.2 _ _ hm' hacc' hacc2'
    refine ⟨fun hmem hv => ?_, fun hmem => g2 (List.mem_append_left _ hmem)⟩
    rcases List.mem_cons.1 hmem with h | h
    · apply g2
      apply List.mem_append_right
      rw [← h]
      exact outWrites_mem 0 (r, j) _ t v hv
    · exact g1 h hv

/-- result of `progDouble` -/
theorem run_double (n : Nat) (second : Nat × Nat → List Loc) (hsec : ∀ rj, ∀ l ∈ second rj, ∃ a j t, l = .inp (a + 1) rj.1 j t)
    (func : List V → List V → List (List V)) (inplace : List V → List V) (srs : List (Nat × Nat)) (hnd : srs.Nodup) (m m0 : Mem V)
    (hm : ∀ rj ∈ srs, (inLocs 0 n rj).map m = (inLocs 0 n rj).map m0) (hm2 : ∀ rj ∈ srs, (second rj).map m = (second rj).map m0)
    (o r j t : Nat) :
    (∀ vs v, (r, j) ∈ srs → (func ((inLocs 0 n (r, j)).map m0) ((second (r, j)).map m0))[o]? = some vs → vs[t]? = some v →
      (progDouble n second func inplace srs).run m (.out o r j t) = v) ∧
    ((r, j) ∉ srs → (progDouble n second func inplace srs).run m (.out o r j t) = m (.out o r j t)) := by
  induction srs generalizing m with
  | nil => exact ⟨fun _ _ h => by simp at h, fun _ => rfl⟩
  | cons rj rest ih =>
    generalize hM : applyWrites (outWritesAll rj (func ((inLocs 0 n rj).map m0) ((second rj).map m0))) (applyWrites (inWrites rj (inplace ((inLocs 0 n rj).map m0))) m) = M
    have hrun : (progDouble n second func inplace (rj :: rest)).run m = (progDouble n second func inplace rest).run M := by
      conv_lhs => unfold progDouble
      rw [run_readAll, run_readAll, run_writeAll, run_writeAll, hm rj (by simp), hm2 rj (by simp), hM]
    rw [hrun]
    have hnd' := List.nodup_cons.1 hnd
    have hM0 : ∀ q ∈ rest, ∀ a t, M (.inp a q.1 q.2 t) = m (.inp a q.1 q.2 t) := by
      intro q hq a t
      rw [← hM, applyWrites_not_mem, applyWrites_not_mem]
      · intro w hw e
        obtain ⟨t', h, _⟩ := mem_inWrites _ _ _ hw
        rw [h] at e
        injection e with _ e1 e2 _
        exact hnd'.1 (by rw [show rj = q from Prod.ext e1 e2]; exact hq)
      · intro w hw e
        obtain ⟨_, _, _, h, _, _⟩ := mem_outWritesAll _ _ _ hw
        rw [h] at e
        cases e
    have hM1 : ∀ a r j t, M (.inp (a + 1) r j t) = m (.inp (a + 1) r j t) := by
      intro a r j t
      rw [← hM, applyWrites_not_mem, applyWrites_not_mem]
      · intro w hw e
        obtain ⟨t', h, _⟩ := mem_inWrites _ _ _ hw
        rw [h] at e
        injection e with e0 _ _ _
        omega
      · intro w hw e
        obtain ⟨_, _, _, h, _, _⟩ := mem_outWritesAll _ _ _ hw
        rw [h] at e
        cases e
    obtain ⟨g1, g2⟩ := ih hnd'.2 M
      (fun q hq => by
        rw [← hm q (by simp [hq])]
        apply List.map_congr_left
        intro l hl
        obtain ⟨t, _, rfl⟩ := List.mem_map.1 hl
        exact hM0 q hq 0 t)
      (fun q hq => by
        rw [← hm2 q (by simp [hq])]
        apply List.map_congr_left
        intro l hl
        obtain ⟨a, j, t, rfl⟩ := hsec q l hl
        exact hM1 a _ _ _)
    refine ⟨fun vs v hmem h1 h2 => ?_, fun hmem => ?_⟩
    · rcases List.mem_cons.1 hmem with h | h
      · subst h
        rw [g2 hnd'.1, ← hM]
        apply applyWrites_mem _ _ _ _ (outWritesAll_mem (r, j) _ o t vs v h1 h2)
        intro w hw e
        obtain ⟨o', t', vs', h3, h4, h5⟩ := mem_outWritesAll _ _ _ hw
        rw [h3] at e
        injection e with e0 _ _ e3
        rw [e0, h1] at h4
        rw [← Option.some.inj h4, e3, h2] at h5
        exact (Option.some.inj h5).symm
      · exact g1 vs v h h1 h2
    · rw [g2 (fun h => hmem (by simp [h])), ← hM, applyWrites_not_mem, applyWrites_not_mem]
      · intro w hw e
        obtain ⟨t', h, _⟩ := mem_inWrites _ _ _ hw
        rw [h] at e
        cases e
      · intro w hw e
        obtain ⟨o', t', _, h, _, _⟩ := mem_outWritesAll _ _ _ hw
        rw [h] at e
        injection e with _ e1 e2 _
        exact hmem (by rw [← e1, ← e2]; simp)

/-! ## series of the chunks -/

theorem nodup_series (rows : List Nat) (cols : Nat) (h : rows.Nodup) : (rows.flatMap (fun r => (List.range cols).map (fun j => (r, j)))).Nodup := by
  rw [List.nodup_flatMap]
  refine ⟨fun r _ => (List.nodup_range).map (fun a b e => by injection e), ?_⟩
  refine h.imp (fun {a b} hab x hx hx' => ?_)
  obtain ⟨_, _, rfl⟩ := List.mem_map.1 hx
  obtain ⟨_, _, e⟩ := List.mem_map.1 hx'
  injection e with e1 e2
  exact hab e1.symm

theorem chunkRows_nodup (n : Nat) (c : Nat × Option Nat) : (chunkRows n c).Nodup := by
  unfold chunkRows
  exact ((List.nodup_range (n := n)).sublist (List.take_sublist _ _)).sublist (List.drop_sublist _ _)

theorem mem_chunkSeries (n cols : Nat) (c : Nat × Option Nat) (r j : Nat) : (r, j) ∈ chunkSeries n cols c ↔ r ∈ chunkRows n c ∧ j < cols := by
  unfold chunkSeries
  simp only [List.mem_flatMap, List.mem_map, List.mem_range, Prod.mk.injEq]
  constructor
  · rintro ⟨r', h, j', hj, rfl, rfl⟩; exact ⟨h, hj⟩
  · rintro ⟨h, hj⟩; exact ⟨r, h, j, hj, rfl, rfl⟩

theorem series_row (n cols : Nat) (c : Nat × Option Nat) (rj : Nat × Nat) (h : rj ∈ chunkSeries n cols c) : rj.1 ∈ chunkRows n c :=
  ((mem_chunkSeries n cols c rj.1 rj.2).1 h).1

/-- rows of different chunks are different, and every row is in a chunk -/
theorem cover_disjoint (n : Nat) (cs : List (Nat × Option Nat)) (h : cs.flatMap (chunkRows n) = List.range n) :
    (∀ i k : Fin cs.length, i ≠ k → ∀ r, r ∈ chunkRows n (cs.get i) → r ∉ chunkRows n (cs.get k)) ∧
    (∀ r, r < n → ∃ i : Fin cs.length, r ∈ chunkRows n (cs.get i)) := by
  have hnd : (cs.flatMap (chunkRows n)).Nodup := by rw [h]; exact List.nodup_range
  rw [List.nodup_flatMap] at hnd
  constructor
  · have key : ∀ a b : Fin cs.length, a < b → ∀ r, r ∈ chunkRows n (cs.get a) → r ∉ chunkRows n (cs.get b) := by
      intro a b hab r h1 h2
      have := List.pairwise_iff_get.1 hnd.2 a b hab
      exact this h1 h2
    intro i k hik r h1 h2
    rcases lt_or_gt_of_ne hik with hlt | hlt
    · exact key i k hlt r h1 h2
    · exact key k i hlt r h2 h1
  · intro r hr
    have : r ∈ cs.flatMap (chunkRows n) := by rw [h]; exact List.mem_range.2 hr
    obtain ⟨c, hc, hrc⟩ := List.mem_flatMap.1 this
    obtain ⟨i, hi⟩ := List.get_of_mem hc
    exact ⟨i, by rw [hi]; exact hrc⟩

end

end CI
