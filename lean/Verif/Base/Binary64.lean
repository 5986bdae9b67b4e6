import Verif.Base.Float
import Verif.Base.Rounding

/-!
# IEEE-754 binary64 as an instance of the laws

Sign, magnitude and infinities, one NaN, signed zeros, round to nearest with ties to even, subnormal numbers, overflow to infinity. Operations as in numpy
(division by zero gives an infinity or NaN). `FloatLaws` and `FloatMono` are theorems about this arithmetic: every theorem of the model that assumes
nothing but these classes holds for float64 with rounding.

`np.sum` adds in an order chosen by numpy: the type has the order as a parameter, the laws hold for all orders.
-/

namespace CI
open Round

/-- an order of additions of the elements of a list, given by position; `zero` is a start value 0.0 -/
inductive SumTree where
  | zero
  | leaf (i : ℕ)
  | node (l r : SumTree)

def SumTree.leaves : SumTree → List ℕ
  | .zero => []
  | .leaf i => [i]
  | .node l r => l.leaves ++ r.leaves

/-- an order of additions for every length: every element is added once -/
structure SumOrder where
  tree : ℕ → SumTree
  once : ∀ n, (tree n).leaves.Perm (List.range n)

/-- from left to right, starting with 0 -/
def leftTree : ℕ → SumTree
  | 0 => .zero
  | n + 1 => .node (leftTree n) (.leaf n)

theorem leftTree_leaves (n : ℕ) : (leftTree n).leaves = List.range n := by
  induction n with
  | zero => rfl
  | succ n ih => rw [leftTree, SumTree.leaves, ih, List.range_succ]; rfl

def leftToRight : SumOrder := ⟨leftTree, fun n => by rw [leftTree_leaves]⟩

/-- magnitudes: not negative, at most 53 bits, below 2^1024 -/
def Mag (m : ℚ) : Prop := 0 ≤ m ∧ rndPos m = m ∧ m < pow2 1024

/-- a binary64 number: NaN, infinity, or sign and magnitude -/
inductive B64 (σ : SumOrder) where
  | nan
  | inf (neg : Bool)
  | fin (neg : Bool) (m : ℚ) (h : Mag m)

namespace B64
variable {σ : SumOrder}

theorem mag_rnd (q : ℚ) (h : rndPos |q| < pow2 1024) : Mag (rndPos |q|) := ⟨rndPos_nonneg _, rndPos_rndPos _, h⟩

theorem mag_zero : Mag 0 := ⟨le_rfl, by simp [rndPos], pow2_pos _⟩

/-- the number nearest to `q`; `z` is the sign of the result if `q` is zero -/
def round (z : Bool) (q : ℚ) : B64 σ :=
  let s := if q < 0 then true else if 0 < q then false else z
  if h : rndPos |q| < pow2 1024 then .fin s (rndPos |q|) (mag_rnd q h) else .inf s

/-- the value of a number -/
def val (s : Bool) (m : ℚ) : ℚ := if s then -m else m

def neg : B64 σ → B64 σ
  | .nan => .nan
  | .inf s => .inf (!s)
  | .fin s m h => .fin (!s) m h

def add : B64 σ → B64 σ → B64 σ
  | .nan, _ => .nan
  | _, .nan => .nan
  | .inf s, .inf t => if s = t then .inf s else .nan
  | .inf s, .fin _ _ _ => .inf s
  | .fin _ _ _, .inf t => .inf t
  | .fin s a _, .fin t b _ => round (s && t) (val s a + val t b)

def mul : B64 σ → B64 σ → B64 σ
  | .nan, _ => .nan
  | _, .nan => .nan
  | .inf s, .inf t => .inf (s ^^ t)
  | .inf s, .fin t b _ => if b = 0 then .nan else .inf (s ^^ t)
  | .fin s a _, .inf t => if a = 0 then .nan else .inf (s ^^ t)
  | .fin s a _, .fin t b _ => round (s ^^ t) (val s a * val t b)

def div : B64 σ → B64 σ → B64 σ
  | .nan, _ => .nan
  | _, .nan => .nan
  | .inf _, .inf _ => .nan
  | .inf s, .fin t _ _ => .inf (s ^^ t)
  | .fin s _ _, .inf t => .fin (s ^^ t) 0 mag_zero
  | .fin s a _, .fin t b _ =>
    if b = 0 then (if a = 0 then .nan else .inf (s ^^ t)) else round (s ^^ t) (val s a / val t b)

/-- the extended number without the sign of zero -/
def ext : B64 σ → Fl ℚ
  | .nan => .nan
  | .inf true => .ninf
  | .inf false => .pinf
  | .fin s m _ => .fin (val s m)

def isnan : B64 σ → Bool
  | .nan => true
  | _ => false

/-- the sum of the elements at the positions of a tree -/
def evalTree (l : List (B64 σ)) : SumTree → B64 σ
  | .zero => .fin false 0 mag_zero
  | .leaf i => (l[i]?).getD (.fin false 0 mag_zero)
  | .node a b => add (evalTree l a) (evalTree l b)

instance instFloatOps : FloatOps (B64 σ) where
  add := add
  sub := fun x y => add x (neg y)
  mul := mul
  div := div
  neg := neg
  nan := .nan
  isNan := isnan
  fle := fun x y => Fl.le (ext x) (ext y)
  flt := fun x y => Fl.le (ext x) (ext y) && !Fl.le (ext y) (ext x)
  feq := fun x y => Fl.le (ext x) (ext y) && Fl.le (ext y) (ext x)
  lit := round false
  fsum := fun l => evalTree l (σ.tree l.length)

/-! ## Rounding on extended numbers -/

/-- rounding of an extended number -/
def rfl64 : Fl ℚ → Fl ℚ
  | .fin q => if rndPos |q| < pow2 1024 then .fin (if q < 0 then -rndPos |q| else rndPos |q|) else if q < 0 then .ninf else .pinf
  | x => x

theorem ext_round (z : Bool) (q : ℚ) : ext (round z q : B64 σ) = rfl64 (.fin q) := by
  unfold round rfl64
  dsimp only
  by_cases h : rndPos |q| < pow2 1024
  · rw [dif_pos h, if_pos h]
    simp only [ext, val]
    rcases lt_trichotomy q 0 with hq | hq | hq
    · rw [if_pos hq, if_pos hq, if_pos rfl]
    · subst hq
      simp [rndPos]
    · rw [if_neg hq.not_gt, if_pos hq, if_neg hq.not_gt, if_neg (by decide)]
  · rw [dif_neg h, if_neg h]
    rcases lt_trichotomy q 0 with hq | hq | hq
    · rw [if_pos hq, if_pos hq]; rfl
    · subst hq
      exact absurd (by simp [rndPos, pow2_pos]) h
    · rw [if_neg hq.not_gt, if_pos hq, if_neg hq.not_gt]; rfl

theorem rfl64_fin (q : ℚ) : rfl64 (.fin q) =
    if rndPos |q| < pow2 1024 then .fin (if q < 0 then -rndPos |q| else rndPos |q|) else if q < 0 then .ninf else .pinf := rfl

theorem ninf_le_rfl64 (b : ℚ) : Fl.le .ninf (rfl64 (.fin b)) = true := by
  rw [rfl64_fin]
  split
  · rfl
  · split <;> rfl

theorem rfl64_mono (x y : Fl ℚ) (h : Fl.le x y = true) : Fl.le (rfl64 x) (rfl64 y) = true := by
  cases x with
  | nan => cases h
  | ninf => cases y with
    | nan => cases h
    | ninf => rfl
    | pinf => rfl
    | fin b => exact ninf_le_rfl64 b
  | pinf => cases y with
    | pinf => rfl
    | _ => cases h
  | fin a => cases y with
    | nan => cases h
    | ninf => cases h
    | pinf =>
      rw [rfl64_fin]
      split
      · rfl
      · split <;> rfl
    | fin b =>
      have hab : a ≤ b := by simpa [Fl.le] using h
      rw [rfl64_fin, rfl64_fin]
      by_cases ha : a < 0
      · by_cases hb : b < 0
        · have hm : rndPos |b| ≤ rndPos |a| := by
            rw [abs_of_neg ha, abs_of_neg hb]; exact rndPos_mono (by linarith)
          by_cases h1 : rndPos |a| < pow2 1024
          · rw [if_pos h1, if_pos (hm.trans_lt h1), if_pos ha, if_pos hb]
            simpa [Fl.le] using hm
          · rw [if_neg h1, if_pos ha]
            exact ninf_le_rfl64 b
        · have h0 := rndPos_nonneg |a|
          have h0' := rndPos_nonneg |b|
          rw [if_pos ha, if_neg hb, if_pos ha, if_neg hb]
          split
          · split
            · simp only [Fl.le, decide_eq_true_eq]; linarith
            · rfl
          · split <;> rfl
      · have hb : ¬ b < 0 := by linarith
        have hm : rndPos |a| ≤ rndPos |b| := by
          rw [abs_of_nonneg (not_lt.1 ha), abs_of_nonneg (not_lt.1 hb)]; exact rndPos_mono hab
        rw [if_neg ha, if_neg hb, if_neg ha, if_neg hb]
        by_cases h1 : rndPos |b| < pow2 1024
        · rw [if_pos h1, if_pos (hm.trans_lt h1)]
          simpa [Fl.le] using hm
        · rw [if_neg h1]
          split <;> rfl

theorem val_zero (s : Bool) : val s 0 = 0 := by cases s <;> simp [val]
theorem val_eq_zero {s : Bool} {m : ℚ} : val s m = 0 ↔ m = 0 := by cases s <;> simp [val]
theorem val_pos {s : Bool} {m : ℚ} (h : 0 ≤ m) : 0 < val s m ↔ s = false ∧ m ≠ 0 := by
  cases s
  · simp only [val, Bool.false_eq_true, if_false, true_and]
    exact ⟨fun h => h.ne', fun h' => lt_of_le_of_ne h (Ne.symm h')⟩
  · simp only [val, if_true, Bool.true_eq_false, false_and, iff_false]
    linarith
theorem val_neg (s : Bool) (m : ℚ) : val (!s) m = -val s m := by cases s <;> simp [val]

theorem infSign_val (s : Bool) (m : ℚ) (h : 0 ≤ m) : Fl.infSign (val s m) = if m = 0 then .nan else ext (.inf s : B64 σ) := by
  unfold Fl.infSign
  rw [if_congr val_eq_zero rfl rfl]
  by_cases h0 : m = 0
  · rw [if_pos h0, if_pos h0]
  · rw [if_neg h0, if_neg h0, if_congr (val_pos h) rfl rfl]
    cases s
    · rw [if_pos ⟨rfl, h0⟩]; rfl
    · rw [if_neg (by simp)]; rfl

theorem ext_neg (x : B64 σ) : ext (neg x) = Fl.neg (ext x) := by
  cases x with
  | nan => rfl
  | inf s => cases s <;> rfl
  | fin s m h => simp only [neg, ext, Fl.neg, val_neg]

/-- the sum is the rounded exact sum -/
theorem ext_add (x y : B64 σ) : ext (add x y) = rfl64 (Fl.add (ext x) (ext y)) := by
  cases x with
  | nan => rfl
  | inf s => cases y with
    | nan => cases s <;> rfl
    | inf t => cases s <;> cases t <;> rfl
    | fin t b hb => cases s <;> rfl
  | fin s a ha => cases y with
    | nan => rfl
    | inf t => cases t <;> rfl
    | fin t b hb => exact ext_round _ _

/-- the product is the rounded exact product -/
theorem ext_mul (x y : B64 σ) : ext (mul x y) = rfl64 (Fl.mul (ext x) (ext y)) := by
  cases x with
  | nan => rfl
  | inf s => cases y with
    | nan => cases s <;> rfl
    | inf t => cases s <;> cases t <;> rfl
    | fin t b hb =>
      have := infSign_val (σ := σ) t b hb.1
      by_cases h0 : b = 0
      · rw [if_pos h0] at this
        simp only [mul, h0, if_true]
        cases s <;> (simp only [ext, Fl.mul]; rw [← h0, this]; rfl)
      · rw [if_neg h0] at this
        simp only [mul, h0, if_false]
        cases s <;> (simp only [ext, Fl.mul]; rw [this]; cases t <;> rfl)
  | fin s a ha => cases y with
    | nan => rfl
    | inf t =>
      have := infSign_val (σ := σ) s a ha.1
      by_cases h0 : a = 0
      · rw [if_pos h0] at this
        simp only [mul, h0, if_true]
        cases t <;> (simp only [ext, Fl.mul]; rw [← h0, this]; rfl)
      · rw [if_neg h0] at this
        simp only [mul, h0, if_false]
        cases t <;> (simp only [ext, Fl.mul]; rw [this]; cases s <;> rfl)
    | fin t b hb => exact ext_round _ _

/-- the quotient is the rounded exact quotient, for divisors other than -0 -/
theorem ext_div (x y : B64 σ) (hy : y ≠ .fin true 0 mag_zero) : ext (div x y) = rfl64 (Fl.div (ext x) (ext y)) := by
  cases x with
  | nan => rfl
  | inf s => cases y with
    | nan => cases s <;> rfl
    | inf t => cases s <;> cases t <;> rfl
    | fin t b hb =>
      have hv : (0 : ℚ) ≤ val t b ↔ t = false := by
        cases t
        · simpa [val] using hb.1
        · have : b ≠ 0 := by rintro rfl; exact hy rfl
          have : 0 < b := lt_of_le_of_ne hb.1 (Ne.symm this)
          simp only [val, if_true, Bool.true_eq_false, iff_false, not_le]
          linarith
      cases s <;> (simp only [div, ext, Fl.div]; rw [if_congr hv rfl rfl]; cases t <;> rfl)
  | fin s a ha => cases y with
    | nan => rfl
    | inf t =>
      have : rfl64 (.fin 0) = .fin 0 := by simp [rfl64, rndPos, pow2_pos]
      cases t <;> simp only [div, ext, Fl.div, val_zero, this]
    | fin t b hb =>
      by_cases h0 : b = 0
      · subst h0
        have ht : t = false := by
          cases t
          · rfl
          · exact absurd rfl hy
        subst ht
        have := infSign_val (σ := σ) s a ha.1
        simp only [div, ext, Fl.div, val_zero, if_true]
        rw [this]
        by_cases ha0 : a = 0
        · rw [if_pos ha0, if_pos ha0]; rfl
        · rw [if_neg ha0, if_neg ha0, Bool.xor_false]; cases s <;> rfl
      · simp only [div, ext, Fl.div, if_neg h0, if_neg (fun h => h0 (val_eq_zero.1 h))]
        exact ext_round _ _

theorem ext_nan (x : B64 σ) : ext x = .nan ↔ x = .nan := by
  cases x with
  | nan => simp [ext]
  | inf s => cases s <;> simp [ext]
  | fin s m h => simp [ext]

/-! ## Exactly representable numbers -/

theorem rfl64_exact (m : ℕ) (k : ℤ) (hm : m ≤ 2 ^ 53) (hk : -1074 ≤ k) (hb : (m : ℚ) * 2 ^ k < pow2 1024) :
    rfl64 (.fin (m * 2 ^ k)) = .fin (m * 2 ^ k) := by
  have h2 : (0 : ℚ) < 2 ^ k := zpow_pos (by norm_num) k
  have h0 : (0 : ℚ) ≤ m * 2 ^ k := mul_nonneg (Nat.cast_nonneg m) h2.le
  rw [rfl64_fin, abs_of_nonneg h0, rndPos_exact m k hm hk, if_pos hb, if_neg (not_lt.2 h0)]

theorem rfl64_neg (q : ℚ) : rfl64 (.fin (-q)) = Fl.neg (rfl64 (.fin q)) := by
  rcases lt_trichotomy q 0 with h | h | h
  · have h' : ¬ -q < 0 := by linarith
    rw [rfl64_fin, rfl64_fin, abs_neg]
    simp only [h, h', if_true, if_false]
    split <;> simp [Fl.neg]
  · subst h; simp [rfl64, rndPos, pow2_pos, Fl.neg]
  · have h' : -q < 0 := by linarith
    rw [rfl64_fin, rfl64_fin, abs_neg]
    simp only [not_lt.2 h.le, h', if_true, if_false]
    split <;> simp [Fl.neg]

theorem rfl64_int (a : ℤ) (h : |a| ≤ 2 ^ 53) : rfl64 (.fin (a : ℚ)) = .fin (a : ℚ) := by
  have key : ∀ n : ℕ, n ≤ 2 ^ 53 → rfl64 (.fin (n : ℚ)) = .fin (n : ℚ) := by
    intro n hn
    have hb : (n : ℚ) < pow2 1024 := by
      have h1 : (n : ℚ) ≤ 2 ^ 53 := by exact_mod_cast hn
      refine lt_of_le_of_lt h1 ?_
      rw [pow2_eq, ← zpow_natCast]
      exact zpow_lt_zpow_right₀ (by norm_num) (by norm_num)
    have := rfl64_exact n 0 hn (by norm_num) (by simpa using hb)
    simpa using this
  obtain ⟨n, rfl | rfl⟩ := Int.eq_nat_or_neg a
  · have hn : n ≤ 2 ^ 53 := by
      rw [Nat.abs_cast] at h; exact_mod_cast h
    simpa using key n hn
  · have hn : n ≤ 2 ^ 53 := by
      rw [abs_neg, Nat.abs_cast] at h; exact_mod_cast h
    have := key n hn
    rw [Int.cast_neg, rfl64_neg, Int.cast_natCast, this]; rfl

/-! ## The laws -/

theorem nan_def : (CI.nan : B64 σ) = .nan := rfl
theorem lit_def (q : ℚ) : (CI.lit q : B64 σ) = round false q := rfl

theorem add_nan' (x : B64 σ) : add x .nan = .nan := by cases x <;> rfl

theorem evalTree_nan (l : List (B64 σ)) (t : SumTree) (i : ℕ) (hi : i ∈ t.leaves) (hl : l[i]? = some .nan) : evalTree l t = .nan := by
  induction t with
  | zero => simp [SumTree.leaves] at hi
  | leaf j =>
    simp only [SumTree.leaves, List.mem_singleton] at hi
    subst hi
    simp [evalTree, hl]
  | node a b iha ihb =>
    rcases List.mem_append.1 hi with h | h
    · rw [evalTree, iha h]; rfl
    · rw [evalTree, ihb h]; exact add_nan' _

instance instFloatLaws : FloatLaws (B64 σ) where
  isNan_iff := by
    intro x
    cases x with
    | nan => exact ⟨fun _ => rfl, fun _ => rfl⟩
    | inf s => exact ⟨fun h => Bool.noConfusion h, fun h => by cases h⟩
    | fin s m h => exact ⟨fun h => Bool.noConfusion h, fun h => by cases h⟩
  nan_add := by intro x; cases x <;> rfl
  add_nan := by intro x; cases x <;> rfl
  nan_sub := by intro x; cases x <;> rfl
  sub_nan := by intro x; cases x <;> rfl
  nan_mul := by intro x; cases x <;> rfl
  mul_nan := by intro x; cases x <;> rfl
  nan_div := by intro x; cases x <;> rfl
  div_nan := by intro x; cases x <;> rfl
  neg_nan := rfl
  fle_nan_left := by intro x; exact FloatLaws.fle_nan_left (F := Fl ℚ) (ext x)
  fle_nan_right := by intro x; exact FloatLaws.fle_nan_right (F := Fl ℚ) (ext x)
  fle_refl := by intro x h; exact FloatLaws.fle_refl (F := Fl ℚ) (ext x) (fun h' => h ((ext_nan x).1 h'))
  fle_total := by
    intro x y hx hy
    exact FloatLaws.fle_total (F := Fl ℚ) (ext x) (ext y) (fun h' => hx ((ext_nan x).1 h')) (fun h' => hy ((ext_nan y).1 h'))
  fle_trans := by intro x y z; exact FloatLaws.fle_trans (F := Fl ℚ) (ext x) (ext y) (ext z)
  flt_iff := by intro x y; exact FloatLaws.flt_iff (F := Fl ℚ) (ext x) (ext y)
  feq_iff := by intro x y; exact FloatLaws.feq_iff (F := Fl ℚ) (ext x) (ext y)
  lit_ne_nan := by
    intro q h
    rw [lit_def, nan_def] at h
    unfold round at h
    dsimp only at h
    split at h <;> cases h
  lit_mono := by
    intro p q h
    show Fl.le (ext (round false p)) (ext (round false q)) = true
    rw [ext_round, ext_round]
    exact rfl64_mono _ _ (by simpa [Fl.le] using h)
  lit_int_lt := by
    intro a b ha hb h
    show (Fl.le (ext (round false (a : ℚ))) (ext (round false (b : ℚ))) && !Fl.le (ext (round false (b : ℚ))) (ext (round false (a : ℚ)))) = true
    rw [ext_round, ext_round, rfl64_int a ha, rfl64_int b hb]
    simp only [Fl.le, Bool.and_eq_true, decide_eq_true_eq, Bool.not_eq_true', decide_eq_false_iff_not, not_le]
    have : (a : ℚ) < b := by exact_mod_cast h
    exact ⟨this.le, this⟩
  lit_pos := by
    intro q h
    show (Fl.le (ext (round false 0)) (ext (round false q)) && !Fl.le (ext (round false q)) (ext (round false 0))) = true
    have h0 : rfl64 (.fin (0 : ℚ)) = .fin 0 := by simp [rfl64, rndPos, pow2_pos]
    rw [ext_round, ext_round, h0]
    have hs : (2 : ℚ) ^ (-1000 : ℤ) ≤ q := by
      refine le_trans ?_ h
      refine le_trans (zpow_le_zpow_right₀ (by norm_num) (by norm_num : (-1000 : ℤ) ≤ -800)) ?_
      rw [zpow_neg, ← one_div]
      refine one_div_le_one_div_of_le (by positivity) ?_
      have e : (2 : ℚ) ^ (800 : ℤ) = (2 ^ 4) ^ 200 := by rw [← pow_mul]; exact_mod_cast rfl
      rw [e]
      exact pow_le_pow_left₀ (by norm_num) (by norm_num) 200
    have h1 := rfl64_exact 1 (-1000) (by norm_num) (by norm_num) (by rw [pow2_eq, Nat.cast_one, one_mul]; exact zpow_lt_zpow_right₀ (by norm_num) (by norm_num))
    rw [Nat.cast_one, one_mul] at h1
    have h2 := rfl64_mono (.fin ((2 : ℚ) ^ (-1000 : ℤ))) (.fin q) (by simpa [Fl.le] using hs)
    rw [h1] at h2
    have hp : (0 : ℚ) < 2 ^ (-1000 : ℤ) := by positivity
    cases hq : rfl64 (.fin q) with
    | nan => rw [hq] at h2; cases h2
    | ninf => rw [hq] at h2; cases h2
    | pinf => rfl
    | fin r =>
      rw [hq] at h2
      have h3 : (2 : ℚ) ^ (-1000 : ℤ) ≤ r := by simpa [Fl.le] using h2
      have : (0 : ℚ) < r := lt_of_lt_of_le hp h3
      simp only [Fl.le, Bool.and_eq_true, decide_eq_true_eq, Bool.not_eq_true', decide_eq_false_iff_not, not_le]
      exact ⟨this.le, this⟩
  fsum_nan := by
    intro l h
    obtain ⟨i, hi, he⟩ := List.mem_iff_getElem.1 h
    refine evalTree_nan l _ i ?_ (by rw [List.getElem?_eq_getElem hi, he]; rfl)
    exact (σ.once l.length).mem_iff.2 (List.mem_range.2 hi)

/-- a representable number is not changed by rounding -/
theorem round_val (z s : Bool) (m : ℚ) (h : Mag m) (hs : m = 0 → z = s) : (round z (val s m) : B64 σ) = .fin s m h := by
  have ha : |val s m| = m := by cases s <;> simp [val, abs_of_nonneg h.1]
  have hr : rndPos |val s m| = m := by rw [ha]; exact h.2.1
  have hsg : (if val s m < 0 then true else if 0 < val s m then false else z) = s := by
    by_cases h0 : m = 0
    · subst h0; rw [val_zero, if_neg (lt_irrefl _), if_neg (lt_irrefl _)]; exact hs rfl
    · have hp : 0 < m := lt_of_le_of_ne h.1 (Ne.symm h0)
      cases s
      · rw [if_neg (by simpa [val] using h.1), if_pos (by simpa [val] using hp)]
      · rw [if_pos (by simpa [val] using hp)]
  unfold round
  dsimp only
  rw [hsg]
  have hlt : rndPos |val s m| < pow2 1024 := by rw [hr]; exact h.2.2
  rw [dif_pos hlt]
  congr 1

theorem mag_int (n : ℕ) (hn : n ≤ 2 ^ 53) : Mag (n : ℚ) := by
  have h1 := rndPos_exact n 0 hn (by norm_num)
  simp only [zpow_zero, mul_one] at h1
  refine ⟨Nat.cast_nonneg n, h1, ?_⟩
  have h2 : (n : ℚ) ≤ 2 ^ 53 := by exact_mod_cast hn
  refine lt_of_le_of_lt h2 ?_
  rw [pow2_eq, ← zpow_natCast]
  exact zpow_lt_zpow_right₀ (by norm_num) (by norm_num)

theorem lit_nat (n : ℕ) (hn : n ≤ 2 ^ 53) : (CI.lit (n : ℚ) : B64 σ) = .fin false n (mag_int n hn) :=
  round_val false false n (mag_int n hn) fun _ => rfl

theorem mag_one : Mag 1 := by simpa using mag_int 1 (by norm_num)

theorem lit_zero : (CI.lit 0 : B64 σ) = .fin false 0 mag_zero := round_val false false 0 mag_zero fun _ => rfl
theorem lit_one : (CI.lit 1 : B64 σ) = .fin false 1 mag_one := round_val false false 1 mag_one fun _ => rfl

/-- if the rounded result is a number, so was the exact one -/
theorem rfl64_nan (x : Fl ℚ) : rfl64 x = .nan ↔ x = .nan := by
  cases x with
  | fin q =>
    rw [rfl64_fin]
    split
    · simp
    · split <;> simp
  | _ => simp [rfl64]

instance instFloatMono : FloatMono (B64 σ) where
  add_le_add_left := by
    intro x y z h h1 h2
    show Fl.le (ext (add z x)) (ext (add z y)) = true
    have h1' : Fl.add (ext z) (ext x) ≠ .nan := fun e => h1 ((ext_nan _).1 ((ext_add z x).trans ((rfl64_nan _).2 e)))
    have h2' : Fl.add (ext z) (ext y) ≠ .nan := fun e => h2 ((ext_nan _).1 ((ext_add z y).trans ((rfl64_nan _).2 e)))
    rw [ext_add, ext_add]
    exact rfl64_mono _ _ (FloatMono.add_le_add_left (F := Fl ℚ) (ext x) (ext y) (ext z) h h1' h2')
  mul_le_mul_left := by
    intro x y z h hz h1 h2
    show Fl.le (ext (mul z x)) (ext (mul z y)) = true
    have h1' : Fl.mul (ext z) (ext x) ≠ .nan := fun e => h1 ((ext_nan _).1 ((ext_mul z x).trans ((rfl64_nan _).2 e)))
    have h2' : Fl.mul (ext z) (ext y) ≠ .nan := fun e => h2 ((ext_nan _).1 ((ext_mul z y).trans ((rfl64_nan _).2 e)))
    rw [ext_mul, ext_mul]
    refine rfl64_mono _ _ (FloatMono.mul_le_mul_left (F := Fl ℚ) (ext x) (ext y) (ext z) h ?_ h1' h2')
    change Fl.le (ext (CI.lit 0 : B64 σ)) (ext z) = true at hz
    rw [lit_zero] at hz
    exact hz
  div_le_div_right := by
    intro x y z h hz h1 h2
    have hz0 : z ≠ .fin true 0 mag_zero := by
      rintro rfl
      rw [lit_zero] at hz
      have := ((FloatLaws.flt_iff _ _).1 hz).2
      exact absurd this (by simp [FloatOps.fle, ext, val, Fl.le])
    show Fl.le (ext (div x z)) (ext (div y z)) = true
    have h1' : Fl.div (ext x) (ext z) ≠ .nan := fun e => h1 ((ext_nan _).1 ((ext_div x z hz0).trans ((rfl64_nan _).2 e)))
    have h2' : Fl.div (ext y) (ext z) ≠ .nan := fun e => h2 ((ext_nan _).1 ((ext_div y z hz0).trans ((rfl64_nan _).2 e)))
    rw [ext_div x z hz0, ext_div y z hz0]
    refine rfl64_mono _ _ (FloatMono.div_le_div_right (F := Fl ℚ) (ext x) (ext y) (ext z) h ?_ h1' h2')
    rw [lit_zero] at hz
    have h3 := (FloatLaws.flt_iff _ _).1 hz
    refine (FloatLaws.flt_iff (F := Fl ℚ) _ _).2 ⟨?_, ?_⟩
    · have := h3.1
      simpa [FloatOps.fle, ext, val, Fl.lit_def] using this
    · have := h3.2
      simpa [FloatOps.fle, ext, val, Fl.lit_def] using this
  sub_le_sub_left := by
    intro x y z h h1 h2
    show Fl.le (ext (add z (neg y))) (ext (add z (neg x))) = true
    have h1' : Fl.add (ext z) (Fl.neg (ext x)) ≠ .nan := by
      intro e
      exact h1 ((ext_nan _).1 ((ext_add z (neg x)).trans ((rfl64_nan _).2 (by rw [ext_neg]; exact e))))
    have h2' : Fl.add (ext z) (Fl.neg (ext y)) ≠ .nan := by
      intro e
      exact h2 ((ext_nan _).1 ((ext_add z (neg y)).trans ((rfl64_nan _).2 (by rw [ext_neg]; exact e))))
    rw [ext_add, ext_add, ext_neg, ext_neg]
    exact rfl64_mono _ _ (FloatMono.sub_le_sub_left (F := Fl ℚ) (ext x) (ext y) (ext z) h h1' h2')
  one_mul := by
    intro x
    show mul (CI.lit 1) x = x
    rw [lit_one]
    cases x with
    | nan => rfl
    | inf s => simp [mul]
    | fin s m h =>
      show round (false ^^ s) (val false 1 * val s m) = _
      have : val false 1 * val s m = val s m := by simp [val]
      rw [this]
      exact round_val _ s m h fun _ => by simp
  one_sub_zero := by
    show add (CI.lit 1) (neg (CI.lit 0)) = CI.lit 1
    rw [lit_one, lit_zero]
    show round (false && true) (val false 1 + val true 0) = _
    have : val false 1 + val true 0 = val false 1 := by simp [val]
    rw [this]
    exact round_val _ false 1 mag_one fun h => absurd h (by norm_num)
  one_sub_one := by
    show add (CI.lit 1) (neg (CI.lit 1)) = CI.lit 0
    rw [lit_one, lit_zero]
    show round (false && true) (val false 1 + val true 1) = _
    have : val false 1 + val true 1 = val false 0 := by simp [val]
    rw [this]
    exact round_val _ false 0 mag_zero fun _ => rfl
  zero_add_lit := by
    intro q hq
    have hq0 : 0 < q := lt_of_lt_of_le (by positivity) hq
    show add (CI.lit 0) (CI.lit q) = CI.lit q
    rw [lit_zero, lit_def]
    unfold round
    dsimp only
    rw [if_neg hq0.not_gt, if_pos hq0]
    by_cases h : rndPos |q| < pow2 1024
    · rw [dif_pos h]
      show round (false && false) (val false 0 + val false (rndPos |q|)) = _
      have : val false 0 + val false (rndPos |q|) = val false (rndPos |q|) := by simp [val]
      rw [this]
      exact round_val _ false _ _ fun _ => rfl
    · rw [dif_neg h]; rfl
  lit_div_self := by
    intro n hn hb
    show div (CI.lit (n : ℚ)) (CI.lit (n : ℚ)) = CI.lit 1
    rw [lit_nat n hb, lit_one]
    have h0 : (n : ℚ) ≠ 0 := by exact_mod_cast hn.ne'
    have : val false (n : ℚ) / val false (n : ℚ) = val false 1 := by simp [val, h0]
    simp only [div, if_neg h0, this]
    exact round_val _ false 1 mag_one fun _ => rfl

/-! ## Checks against the binary64 of python -/

/-- 0.1 + 0.2 is not 0.3 -/
example : FloatOps.feq (CI.lit (1 / 10) + CI.lit (2 / 10) : B64 leftToRight) (CI.lit (3 / 10)) = false := by decide +kernel

/-- 0.1 is 0x1.999999999999ap-4 -/
example : (match (CI.lit (1 / 10) : B64 leftToRight) with | .fin s m _ => (s, m) | _ => (true, 0)) = (false, 3602879701896397 / 2 ^ 55) := by
  decide +kernel

/-- 2^53 + 1 is 2^53 -/
example : FloatOps.feq (CI.lit (2 ^ 53) + CI.lit 1 : B64 leftToRight) (CI.lit (2 ^ 53)) = true := by decide +kernel

/-- 1e308 * 10 is inf, 5e-324 / 2 is 0 -/
example : (match (CI.lit (10 ^ 308) * CI.lit 10 : B64 leftToRight) with | .inf false => true | _ => false) = true := by decide +kernel
example : (match (CI.lit (5 / 10 ^ 324) / CI.lit 2 : B64 leftToRight) with | .fin _ m _ => decide (m = 0) | _ => false) = true := by decide +kernel

/-- -0 and 0 are equal, but the quotients of 1 differ -/
example : FloatOps.feq (-(CI.lit 0) : B64 leftToRight) (CI.lit 0) = true := by decide +kernel
example : (match (CI.lit 1 / -(CI.lit 0) : B64 leftToRight) with | .inf true => true | _ => false) = true := by decide +kernel

end B64
end CI
