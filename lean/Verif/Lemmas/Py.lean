import Verif.Base.Py
import Mathlib.Data.List.Basic
import Mathlib.Tactic.Common

namespace CI

theorem setSlice_append {α : Type} (pre mid post v : List α) (h : v.length = mid.length) :
    setSlice (pre ++ mid ++ post) pre.length (pre.length + mid.length) v = .ok (pre ++ v ++ post) := by
  unfold setSlice
  have e1 : min pre.length (pre ++ mid ++ post).length = pre.length := by simp
  have e2 : max pre.length (min (pre.length + mid.length) (pre ++ mid ++ post).length)
      = pre.length + mid.length := by
    simp only [List.length_append]; omega
  simp only [e1, e2]
  rw [if_pos (by omega)]
  congr 2
  · rw [List.append_assoc, List.take_left]
  · have : pre.length + mid.length = (pre ++ mid).length := by simp
    rw [this, List.drop_left]

theorem setSlice_append' {α : Type} (a pre mid post v : List α) (lo hi : Nat)
    (ha : a = pre ++ mid ++ post) (hlo : lo = pre.length) (hhi : hi = lo + mid.length)
    (h : v.length = mid.length) :
    setSlice a lo hi v = .ok (pre ++ v ++ post) := by
  subst ha hlo hhi; exact setSlice_append _ _ _ _ h

theorem slice_append {α : Type} (l pre mid post : List α) (lo hi : Nat)
    (hl : l = pre ++ mid ++ post) (hlo : lo = pre.length) (hhi : hi = lo + mid.length) :
    slice l lo hi = mid := by
  subst hl hlo hhi
  unfold slice
  rw [List.append_assoc, List.drop_left, Nat.add_sub_cancel_left, List.take_left]

theorem setIdx_append {α : Type} (a pre post : List α) (x y : α) (i : Nat)
    (ha : a = pre ++ [x] ++ post) (hi : i = pre.length) : setIdx a i y = .ok (pre ++ [y] ++ post) := by
  subst ha hi; unfold setIdx; simp

theorem getIdx_append {α : Type} (a pre post : List α) (x : α) (i : Nat)
    (ha : a = pre ++ [x] ++ post) (hi : i = pre.length) : getIdx a i = .ok x := by
  subst ha hi; unfold getIdx; simp

theorem getIdx_of_lt {α : Type} (a : List α) (i : Nat) (h : i < a.length) : getIdx a i = .ok a[i] := by
  unfold getIdx; simp [h]

/-- splitting a list at two positions -/
theorem split3 {α : Type} (l : List α) (i n : Nat) :
    l = l.take i ++ (l.drop i).take n ++ l.drop (i + n) := by
  rw [List.append_assoc, ← List.drop_drop, List.take_append_drop, List.take_append_drop]

end CI
