import Verif.Lemmas.PalmerRun
import Mathlib.Data.Rat.Cast.Order

/-!
# Runs of the spell machine on rational numbers are runs on any ordered field
-/

namespace CI
namespace Fl
variable {K : Type} [Field K] [LinearOrder K] [IsStrictOrderedRing K]

/-- a rational extended number as one over `K` -/
def ofRat : Fl ℚ → Fl K
  | .nan => .nan
  | .ninf => .ninf
  | .fin q => .fin (q : K)
  | .pinf => .pinf

theorem ofRat_lit (q : ℚ) : (ofRat (lit q) : Fl K) = lit q := by
  rw [lit_def, lit_def]; simp only [ofRat, Rat.cast_id]

theorem ofRat_neg (x : Fl ℚ) : (ofRat (-x) : Fl K) = -ofRat x := by
  cases x with
  | fin a => exact congrArg Fl.fin (Rat.cast_neg a)
  | _ => rfl

theorem ofRat_infSign (a : ℚ) : (ofRat (infSign a) : Fl K) = infSign (a : K) := by
  unfold infSign
  by_cases h : a = 0
  · rw [if_pos h, if_pos (by rw [h, Rat.cast_zero])]; rfl
  · have hc : (a : K) ≠ 0 := fun h' => h (Rat.cast_eq_zero.1 h')
    rw [if_neg h, if_neg hc]
    by_cases h2 : 0 < a
    · rw [if_pos h2, if_pos (Rat.cast_pos.2 h2)]; rfl
    · rw [if_neg h2, if_neg (fun h => h2 (Rat.cast_pos.1 h))]; rfl

theorem ofRat_add (x y : Fl ℚ) : (ofRat (x + y) : Fl K) = ofRat x + ofRat y := by
  cases x <;> cases y <;> first | rfl | exact congrArg Fl.fin (Rat.cast_add _ _)

theorem ofRat_sub (x y : Fl ℚ) : (ofRat (x - y) : Fl K) = ofRat x - ofRat y := by
  have h1 : x - y = x + -y := rfl
  have h2 : (ofRat x - ofRat y : Fl K) = ofRat x + -ofRat y := rfl
  rw [h1, h2, ofRat_add, ofRat_neg]

theorem ofRat_mul (x y : Fl ℚ) : (ofRat (x * y) : Fl K) = ofRat x * ofRat y := by
  cases x <;> cases y <;> first
    | rfl
    | exact congrArg Fl.fin (Rat.cast_mul _ _)
    | exact ofRat_infSign _
    | exact (ofRat_neg _).trans (congrArg Fl.neg (ofRat_infSign _))

theorem ofRat_div (x y : Fl ℚ) : (ofRat (x / y) : Fl K) = ofRat x / ofRat y := by
  cases x <;> cases y <;> try first | rfl | exact congrArg Fl.fin Rat.cast_zero
  · next b =>
    show (ofRat (if (0 : ℚ) ≤ b then Fl.ninf else Fl.pinf) : Fl K) = if (0 : K) ≤ (b : K) then Fl.ninf else Fl.pinf
    by_cases h : 0 ≤ b
    · rw [if_pos h, if_pos (Rat.cast_nonneg.2 h)]; rfl
    · rw [if_neg h, if_neg (fun h' => h (Rat.cast_nonneg.1 h'))]; rfl
  · next a b =>
    simp only [ofRat, fin_div]
    by_cases h : b = 0
    · rw [if_pos h, if_pos (by rw [h, Rat.cast_zero])]; exact ofRat_infSign a
    · rw [if_neg h, if_neg (by rwa [Rat.cast_eq_zero])]; exact congrArg Fl.fin (Rat.cast_div _ _)
  · next b =>
    show (ofRat (if (0 : ℚ) ≤ b then Fl.pinf else Fl.ninf) : Fl K) = if (0 : K) ≤ (b : K) then Fl.pinf else Fl.ninf
    by_cases h : 0 ≤ b
    · rw [if_pos h, if_pos (Rat.cast_nonneg.2 h)]; rfl
    · rw [if_neg h, if_neg (fun h' => h (Rat.cast_nonneg.1 h'))]; rfl

theorem fle_ofRat (x y : Fl ℚ) : fle (ofRat x : Fl K) (ofRat y) = fle x y := by
  cases x <;> cases y <;> try rfl
  simp only [ofRat, fle_fin, Rat.cast_le]

theorem flt_ofRat (x y : Fl ℚ) : flt (ofRat x : Fl K) (ofRat y) = flt x y := by
  show (fle (ofRat x : Fl K) (ofRat y) && !fle (ofRat y : Fl K) (ofRat x)) = (fle x y && !fle y x)
  rw [fle_ofRat, fle_ofRat]

theorem feq_ofRat (x y : Fl ℚ) : feq (ofRat x : Fl K) (ofRat y) = feq x y := by
  show (fle (ofRat x : Fl K) (ofRat y) && fle (ofRat y : Fl K) (ofRat x)) = (fle x y && fle y x)
  rw [fle_ofRat, fle_ofRat]

end Fl

open Fl
variable {K : Type} [Field K] [LinearOrder K] [IsStrictOrderedRing K]

def Month.ofRat (m : Month (Fl ℚ)) : Month (Fl K) :=
  ⟨Fl.ofRat m.ppr, Fl.ofRat m.px1, Fl.ofRat m.px2, Fl.ofRat m.px3, Fl.ofRat m.x, Fl.ofRat m.pv, m.dec⟩

theorem pyMax_ofRat (x y : Fl ℚ) : pyMax (Fl.ofRat x : Fl K) (Fl.ofRat y) = Fl.ofRat (pyMax x y) := by
  unfold pyMax; rw [flt_ofRat]; split <;> rfl
theorem pyMin_ofRat (x y : Fl ℚ) : pyMin (Fl.ofRat x : Fl K) (Fl.ofRat y) = Fl.ofRat (pyMin x y) := by
  unfold pyMin; rw [flt_ofRat]; split <;> rfl

theorem eval200_ofRat (x1 x2 z ppr px3 pv : Fl ℚ) :
    eval200 (Fl.ofRat x1 : Fl K) (Fl.ofRat x2) (Fl.ofRat z) (Fl.ofRat ppr) (Fl.ofRat px3) (Fl.ofRat pv) = (eval200 x1 x2 z ppr px3 pv).ofRat := by
  unfold eval200
  simp only [← ofRat_lit (K := K), ← ofRat_mul, ← ofRat_div, ← ofRat_add, pyMax_ofRat, pyMin_ofRat, fle_ofRat, feq_ofRat]
  split
  · rfl
  · split
    · rfl
    · split
      · rfl
      · split <;> rfl

theorem eval210_ofRat (x3 z : Fl ℚ) : eval210 (Fl.ofRat x3 : Fl K) (Fl.ofRat z) = (eval210 x3 z).ofRat := by
  unfold eval210
  simp only [← ofRat_lit (K := K), ← ofRat_mul, ← ofRat_div, ← ofRat_add]
  rfl

theorem eval190_ofRat (v pro x1 x2 x3 z pv ze : Fl ℚ) :
    eval190 (Fl.ofRat v : Fl K) (Fl.ofRat pro) (Fl.ofRat x1) (Fl.ofRat x2) (Fl.ofRat x3) (Fl.ofRat z) (Fl.ofRat pv) (Fl.ofRat ze) =
      (eval190 v pro x1 x2 x3 z pv ze).ofRat := by
  unfold eval190
  have hq : (if feq pro (lit 100) then (Fl.ofRat ze : Fl K) else Fl.ofRat (ze + v)) = Fl.ofRat (if feq pro (lit 100) then ze else ze + v) := by
    split <;> rfl
  simp only [← ofRat_lit (K := K), ← ofRat_mul, ← ofRat_div, ← ofRat_add, feq_ofRat, hq, fle_ofRat, eval200_ofRat]
  exact (apply_ite Month.ofRat _ _ _).symm

theorem eval180_ofRat (v pro x1 x2 x3 z : Fl ℚ) :
    eval180 (Fl.ofRat v : Fl K) (Fl.ofRat pro) (Fl.ofRat x1) (Fl.ofRat x2) (Fl.ofRat x3) (Fl.ofRat z) = (eval180 v pro x1 x2 x3 z).ofRat := by
  unfold eval180
  simp only [← ofRat_lit (K := K), ← ofRat_mul, ← ofRat_sub, pyMax_ofRat, ← ofRat_add, fle_ofRat, eval210_ofRat, eval190_ofRat]
  split <;> rfl

theorem eval170_ofRat (v pro x1 x2 x3 z : Fl ℚ) :
    eval170 (Fl.ofRat v : Fl K) (Fl.ofRat pro) (Fl.ofRat x1) (Fl.ofRat x2) (Fl.ofRat x3) (Fl.ofRat z) = (eval170 v pro x1 x2 x3 z).ofRat := by
  unfold eval170
  simp only [← ofRat_lit (K := K), ← ofRat_mul, ← ofRat_sub, pyMin_ofRat, ← ofRat_add, fle_ofRat, eval210_ofRat, eval190_ofRat]
  split <;> rfl

theorem monthEval_ofRat (v pro x1 x2 x3 z : Fl ℚ) :
    monthEval (Fl.ofRat v : Fl K) (Fl.ofRat pro) (Fl.ofRat x1) (Fl.ofRat x2) (Fl.ofRat x3) (Fl.ofRat z) = (monthEval v pro x1 x2 x3 z).ofRat := by
  unfold monthEval
  simp only [← ofRat_lit (K := K), fle_ofRat, flt_ofRat, feq_ofRat, eval210_ofRat, eval200_ofRat, eval180_ofRat, eval170_ofRat]
  repeat' split
  all_goals rfl

theorem monthsFrom_ofRat (zs : List (Fl ℚ)) : ∀ v pro x1 x2 x3 : Fl ℚ,
    monthsFrom (Fl.ofRat v : Fl K) (Fl.ofRat pro) (Fl.ofRat x1) (Fl.ofRat x2) (Fl.ofRat x3) (zs.map Fl.ofRat) =
      (monthsFrom v pro x1 x2 x3 zs).map Month.ofRat := by
  induction zs with
  | nil => intros; rfl
  | cons z zs ih =>
    intro v pro x1 x2 x3
    simp only [List.map_cons, monthsFrom, monthEval_ofRat]
    rw [← ih]
    rfl

/-- the months of a rational record, over any field -/
theorem months_ofRat (zs : List (Fl ℚ)) : (months (zs.map Fl.ofRat) : List (Month (Fl K))) = (months zs).map Month.ofRat := by
  have := monthsFrom_ofRat (K := K) zs (lit 0) (lit 0) (lit 0) (lit 0) (lit 0)
  rw [ofRat_lit] at this
  exact this

end CI
