import Verif.Props.Arrays
import Verif.Lemmas.SpiFit
import Verif.Model.Indices
import Verif.Spec.Calendar
import Mathlib.Algebra.BigOperators.Group.List.Basic
import Mathlib.Algebra.Order.BigOperators.Group.List
import Mathlib.Algebra.BigOperators.Ring.List
import Mathlib.Tactic.FieldSimp

/-!
# C28, C29, C33: percentage of normal and precipitation concentration index

`C28_ratio` and C29 hold for every float type; the other theorems are about exact arithmetic (`Fl K`).
-/

namespace CI.Props

variable {F : Type} [FloatOps F]

/-! ## C28 -/

/-- the entries of `s` that belong to calendar step `j` (of `p`) in the years `cs .. ce`, for a record that starts in
year `ds`; years without data are left out -/
def calendarStepValues {α : Type} (s : List α) (p j : Nat) (ds cs ce : Int) : List α :=
  (List.range (ce - cs + 1).toNat).filterMap (fun y => s[((cs - ds).toNat + y) * p + j]?)

theorem filterMap_range_getElem? {α : Type} (l : List α) (n : Nat) (h : l.length ≤ n) :
    (List.range n).filterMap (fun y => l[y]?) = l := by
  induction l generalizing n with
  | nil => simp
  | cons a l ih =>
    obtain ⟨m, rfl⟩ : ∃ m, n = m + 1 := ⟨n - 1, by simp at h; omega⟩
    rw [List.range_succ_eq_map, List.filterMap_cons]
    simp only [List.getElem?_cons_zero, List.filterMap_map]
    congr 1
    exact ih m (by simpa using h)

theorem stride_pySlice {α : Type} (s : List α) (p j : Nat) (ds cs ce : Int) (hp : j < p) (h1 : ds ≤ cs) (h2 : cs ≤ ce) :
    stride p j (pySlice s ((cs - ds) * p) ((cs - ds) * p + (ce - cs + 1) * p)) = calendarStepValues s p j ds cs ce := by
  obtain ⟨a, ha⟩ : ∃ a : Nat, cs - ds = a := ⟨(cs - ds).toNat, by omega⟩
  obtain ⟨n, hn⟩ : ∃ n : Nat, ce - cs + 1 = n := ⟨(ce - cs + 1).toNat, by omega⟩
  unfold calendarStepValues
  rw [ha, hn, Int.toNat_natCast, Int.toNat_natCast]
  have e1 : sliceBound s.length ((a : Int) * p) = min (a * p) s.length := by
    rw [sliceBound_nonneg _ _ (by positivity)]; congr 1
  have e2 : sliceBound s.length ((a : Int) * p + (n : Int) * p) = min (a * p + n * p) s.length := by
    rw [sliceBound_nonneg _ _ (by positivity)]; congr 1
  unfold pySlice
  simp only [e1, e2]
  set l := (s.drop (min (a * p) s.length)).take (min (a * p + n * p) s.length - min (a * p) s.length) with hl
  have hget : ∀ i, i < n * p → l[i]? = s[a * p + i]? := by
    intro i hi
    rw [hl, List.getElem?_take]
    by_cases hc : a * p + i < s.length
    · rw [if_pos (by omega), List.getElem?_drop, Nat.min_eq_left (by omega)]
    · rw [List.getElem?_eq_none (by omega : s.length ≤ a * p + i)]
      split
      · rename_i h; omega
      · rfl
  have hlen : l.length ≤ n * p := by rw [hl, List.length_take, List.length_drop]; omega
  have hget2 : ∀ i, i < n → (stride p j l)[i]? = s[(a + i) * p + j]? := by
    intro i hi
    rw [stride_getElem? p j l hp]
    have : i * p + j < n * p := by
      calc i * p + j < i * p + p := by omega
        _ = (i + 1) * p := by ring
        _ ≤ n * p := Nat.mul_le_mul_right p hi
    rw [hget _ this]
    congr 1; ring
  have hsl : (stride p j l).length ≤ n := by
    by_contra hc
    have h1 : (stride p j l)[n]? ≠ none := by
      rw [ne_eq, List.getElem?_eq_none_iff]; omega
    rw [stride_getElem? p j l hp, ne_eq, List.getElem?_eq_none_iff] at h1
    omega
  rw [← filterMap_range_getElem? (stride p j l) n hsl]
  apply List.filterMap_congr
  intro y hy
  exact hget2 y (List.mem_range.1 hy)

/-- number of calendar steps per year -/
def pnpSteps : Periodicity → Nat
  | .monthly => 12
  | .daily => 366
  | .other => 0

theorem pnp_unfold (x : List F) (k : Nat) (ds cs ce : Int) (per : Periodicity) (hper : per ≠ .other)
    (h1 : 1 ≤ k) (hds : ds ≤ cs) (hspan : (ce - cs + 1) * 12 ≤ x.length) :
    percentageOfNormal x (some k) ds cs ce per = (do
      let sums ← sumToScale x k
      pure (sums.mapIdx (fun i s =>
            match ((List.range (pnpSteps per)).map (fun i => nanmean (stride (pnpSteps per) i
                (pySlice sums ((cs - ds) * pnpSteps per)
                  ((cs - ds) * pnpSteps per + (ce - cs + 1) * pnpSteps per)))))[i % pnpSteps per]? with
            | some divisor => if flt (lit 0) divisor then s / divisor else nan
            | none => nan))) := by
  unfold percentageOfNormal
  cases per with
  | other => exact absurd rfl hper
  | monthly =>
    simp only
    rw [if_neg (by omega), if_neg (by omega), if_neg (by omega)]
    rfl
  | daily =>
    simp only
    rw [if_neg (by omega), if_neg (by omega), if_neg (by omega)]
    rfl

theorem pnpSteps_pos (per : Periodicity) (h : per ≠ .other) : 0 < pnpSteps per := by
  cases per <;> simp_all [pnpSteps]

theorem sumToScale_ok (x : List F) (k : Nat) (h1 : 1 ≤ k) (hx : x ≠ []) : ∃ s, sumToScale x k = .ok s := by
  unfold sumToScale
  split
  · exact ⟨_, rfl⟩
  · unfold convolveOnes
    rw [if_neg (by rintro (h | h); omega; exact hx h)]
    simp only
    split <;> exact ⟨_, rfl⟩

/-- **C28.** For a calibration period within the limits that the code checks, the result has one value per entry of the
sums, which is the ratio of the `k`-step sum to the mean of the sums of the same calendar step over the calibration
years if that mean is positive, else missing. (The sums are described by C07.) -/
theorem C28_ratio (x : List F) (k : Nat) (ds cs ce : Int) (per : Periodicity) (hper : per ≠ .other)
    (h1 : 1 ≤ k) (hx : x ≠ []) (hds : ds ≤ cs) (hce : cs ≤ ce) (hspan : (ce - cs + 1) * 12 ≤ x.length) :
    ∃ sums out, sumToScale x k = .ok sums ∧ percentageOfNormal x (some k) ds cs ce per = .ok out ∧
      out.length = sums.length ∧
      ∀ i s, sums[i]? = some s →
        out[i]? = some (
          let normal := nanmean (calendarStepValues sums (pnpSteps per) (i % pnpSteps per) ds cs ce)
          if flt (lit 0) normal then s / normal else nan) := by
  obtain ⟨sums, hs⟩ := sumToScale_ok x k h1 hx
  rw [pnp_unfold x k ds cs ce per hper h1 hds hspan, hs]
  refine ⟨sums, _, rfl, rfl, ?_, ?_⟩
  · rw [List.length_mapIdx]
  · intro i s hi
    have hp := pnpSteps_pos per hper
    have hm : i % pnpSteps per < pnpSteps per := Nat.mod_lt _ hp
    rw [List.getElem?_mapIdx, hi]
    simp only [Option.map_some]
    have : ((List.range (pnpSteps per)).map (fun i => nanmean (stride (pnpSteps per) i
        (pySlice sums ((cs - ds) * pnpSteps per)
          ((cs - ds) * pnpSteps per + (ce - cs + 1) * pnpSteps per)))))[i % pnpSteps per]? =
        some (nanmean (calendarStepValues sums (pnpSteps per) (i % pnpSteps per) ds cs ce)) := by
      rw [List.getElem?_map, List.getElem?_range hm]
      simp only [Option.map_some]
      rw [stride_pySlice sums _ _ ds cs ce hm hds hce]
    rw [this]

section exact
variable {K : Type} [Field K] [LinearOrder K] [IsStrictOrderedRing K]

/-- a number or missing (no infinity) -/
def FinOrNan (v : Fl K) : Prop := v = .nan ∨ ∃ a : K, v = .fin a

omit [IsStrictOrderedRing K] in
theorem filter_finOrNan (l : List (Fl K)) (h : ∀ v ∈ l, FinOrNan v) (f : Fl K → Fl K) (g : K → K) (hf : f .nan = .nan)
    (hg : ∀ a, f (.fin a) = .fin (g a)) :
    ∃ q : List K, l.filter (fun v => !isNan v) = q.map Fl.fin ∧
      (l.map f).filter (fun v => !isNan v) = (q.map g).map Fl.fin := by
  induction l with
  | nil => exact ⟨[], rfl, rfl⟩
  | cons a l ih =>
    obtain ⟨q, hq, hq'⟩ := ih (fun v hv => h v (List.mem_cons_of_mem _ hv))
    rcases h a (by simp) with rfl | ⟨b, rfl⟩
    · refine ⟨q, by rw [List.filter_cons_of_neg (by simp), hq], ?_⟩
      rw [List.map_cons, hf, List.filter_cons_of_neg (by simp), hq']
    · refine ⟨b :: q, by rw [List.filter_cons_of_pos (by simp), hq, List.map_cons], ?_⟩
      rw [List.map_cons, hg, List.filter_cons_of_pos (by simp), hq', List.map_cons, List.map_cons]

theorem nanmean_fin (l : List (Fl K)) (q : List K) (h : l.filter (fun v => !isNan v) = q.map Fl.fin) :
    nanmean l = if q = [] then .nan else .fin (q.sum / q.length) := by
  unfold nanmean
  simp only [h]
  by_cases hq : q = []
  · subst hq; simp [Fl.nan_def]
  · have hl : (q.length : K) ≠ 0 := by
      have : q.length ≠ 0 := by rw [ne_eq, List.length_eq_zero_iff]; exact hq
      exact_mod_cast this
    rw [if_neg (by simp [hq]), if_neg hq, Fl.fsum_fin, Fl.lit_def, List.length_map]
    have : ((q.length : ℚ) : K) = (q.length : K) := by norm_cast
    rw [this, Fl.fin_div_of_ne _ _ hl]

theorem nanmean_div (l : List (Fl K)) (h : ∀ v ∈ l, FinOrNan v) (m : K) (hm : nanmean l = .fin m) (hpos : 0 < m) :
    nanmean (l.map (· / Fl.fin m)) = .fin 1 := by
  have hm0 : m ≠ 0 := ne_of_gt hpos
  obtain ⟨q, hq, hq'⟩ := filter_finOrNan l h (· / Fl.fin m) (· / m) rfl (fun a => Fl.fin_div_of_ne a m hm0)
  have hmean := nanmean_fin l q hq
  rw [nanmean_fin _ _ hq']
  by_cases hq0 : q = []
  · rw [if_pos hq0, hm] at hmean; cases hmean
  · rw [if_neg (by simp [hq0])]
    rw [if_neg hq0, hm, Fl.fin.injEq] at hmean
    congr 1
    have : (q.map (· / m)).sum = q.sum / m := by
      simp only [div_eq_mul_inv]
      rw [List.sum_map_mul_right]; simp
    rw [this, List.length_map, div_div, mul_comm, ← div_div, ← hmean, div_self hm0]

omit [IsStrictOrderedRing K] in
theorem fsum_finOrNan (l : List (Fl K)) (h : ∀ v ∈ l, FinOrNan v) : FinOrNan (fsum l) := by
  show FinOrNan (l.foldr Fl.add (.fin 0))
  induction l with
  | nil => exact Or.inr ⟨0, rfl⟩
  | cons a l ih =>
    rw [List.foldr_cons]
    rcases h a (by simp) with rfl | ⟨b, rfl⟩
    · left; rfl
    · rcases ih (fun v hv => h v (List.mem_cons_of_mem _ hv)) with h' | ⟨c, h'⟩
      · left; rw [h']; rfl
      · right; rw [h']; exact ⟨_, rfl⟩

omit [IsStrictOrderedRing K] in
theorem sumToScale_finOrNan (x s : List (Fl K)) (k : Int) (h : ∀ v ∈ x, FinOrNan v) (hs : sumToScale x k = .ok s) :
    ∀ v ∈ s, FinOrNan v := by
  unfold sumToScale at hs
  split at hs
  · cases hs; exact h
  · unfold convolveOnes at hs
    split at hs
    · cases hs
    · have key : ∀ r : List (Fl K), ((.ok r : Res (List (Fl K))) >>= fun slidingSums =>
          pure (List.replicate (k - 1).toNat nan ++ slidingSums)) = Except.ok s → (∀ v ∈ r, FinOrNan v) →
          ∀ v ∈ s, FinOrNan v := by
        intro r hr hall v hv
        simp only [bind, Except.bind, pure, Except.pure, Except.ok.injEq] at hr
        rw [← hr] at hv
        rcases List.mem_append.1 hv with hv | hv
        · left; exact (List.mem_replicate.1 hv).2
        · exact hall v hv
      simp only at hs
      split at hs
      · refine key _ hs ?_
        intro v hv
        obtain ⟨t, _, rfl⟩ := List.mem_map.1 hv
        apply fsum_finOrNan
        intro w hw
        exact h w (List.mem_of_mem_drop (List.mem_of_mem_take hw))
      · refine key _ hs ?_
        intro v hv
        rw [(List.mem_replicate.1 hv).2]
        exact fsum_finOrNan x h

/-- **C28.** Within the calibration years the ratios of each calendar step average to one: for data without infinities,
every calendar step whose normal is a positive number. -/
theorem C28_average (x out : List (Fl K)) (k : Nat) (ds cs ce : Int) (per : Periodicity) (hper : per ≠ .other)
    (h1 : 1 ≤ k) (hx : x ≠ []) (hds : ds ≤ cs) (hce : cs ≤ ce) (hspan : (ce - cs + 1) * 12 ≤ x.length)
    (hfin : ∀ v ∈ x, FinOrNan v) (hout : percentageOfNormal x (some k) ds cs ce per = .ok out)
    (j : Nat) (hj : j < pnpSteps per) (sums : List (Fl K)) (hsums : sumToScale x k = .ok sums) (m : K)
    (hm : nanmean (calendarStepValues sums (pnpSteps per) j ds cs ce) = .fin m) (hpos : 0 < m) :
    nanmean (calendarStepValues out (pnpSteps per) j ds cs ce) = .fin 1 := by
  obtain ⟨s', o', hs', ho', hl, hv⟩ := C28_ratio x k ds cs ce per hper h1 hx hds hce hspan
  rw [hsums] at hs'; cases hs'
  rw [hout] at ho'; cases ho'
  have : calendarStepValues out (pnpSteps per) j ds cs ce =
      (calendarStepValues sums (pnpSteps per) j ds cs ce).map (· / Fl.fin m) := by
    unfold calendarStepValues
    rw [List.map_filterMap]
    apply List.filterMap_congr
    intro y _
    have hmod : (((cs - ds).toNat + y) * pnpSteps per + j) % pnpSteps per = j := by
      rw [Nat.mul_add_mod_self_right, Nat.mod_eq_of_lt hj]
    cases hsy : sums[((cs - ds).toNat + y) * pnpSteps per + j]? with
    | none =>
      rw [List.getElem?_eq_none_iff] at hsy
      rw [List.getElem?_eq_none (by omega)]; rfl
    | some s =>
      rw [hv _ s hsy, hmod]
      simp only [hm, Option.map_some]
      rw [Fl.lit_def, Fl.flt_fin, if_pos (by simpa using hpos)]
  rw [this]
  refine nanmean_div _ ?_ m hm hpos
  intro v hvm
  obtain ⟨y, _, hy⟩ := List.mem_filterMap.1 hvm
  exact sumToScale_finOrNan x sums k hfin hsums v (List.mem_of_getElem? hy)

omit [IsStrictOrderedRing K] in
theorem mulc_add (c : K) (hc : 0 < c) (a b : Fl K) : Fl.fin c * (a + b) = Fl.fin c * a + Fl.fin c * b := by
  have hc0 : c ≠ 0 := ne_of_gt hc
  show Fl.mul (.fin c) (Fl.add a b) = Fl.add (Fl.mul (.fin c) a) (Fl.mul (.fin c) b)
  cases a <;> cases b <;> simp [Fl.mul, Fl.add, Fl.infSign, hc, hc0, Fl.neg, mul_add]

omit [IsStrictOrderedRing K] in
theorem mulc_isNan (c : K) (hc : 0 < c) (a : Fl K) : isNan (Fl.fin c * a) = isNan a := by
  have hc0 : c ≠ 0 := ne_of_gt hc
  show Fl.isnan (Fl.mul (.fin c) a) = Fl.isnan a
  cases a <;> simp [Fl.mul, Fl.infSign, hc, hc0, Fl.neg, Fl.isnan]

omit [IsStrictOrderedRing K] in
theorem mulc_fsum (c : K) (hc : 0 < c) (l : List (Fl K)) : fsum (l.map (Fl.fin c * ·)) = Fl.fin c * fsum l := by
  show (l.map (Fl.fin c * ·)).foldr Fl.add (.fin 0) = Fl.fin c * l.foldr Fl.add (.fin 0)
  induction l with
  | nil => show _ = Fl.fin (c * 0); simp
  | cons a l ih =>
    rw [List.map_cons, List.foldr_cons, List.foldr_cons, ih]
    exact (mulc_add c hc _ _).symm

omit [IsStrictOrderedRing K] in
theorem mulc_sumToScale (c : K) (hc : 0 < c) (x : List (Fl K)) (k : Int) :
    sumToScale (x.map (Fl.fin c * ·)) k = (sumToScale x k).map (List.map (Fl.fin c * ·)) := by
  have hnan : Fl.fin c * (nan : Fl K) = nan := rfl
  unfold sumToScale
  split
  · rfl
  · unfold convolveOnes
    by_cases h : k ≤ 0 ∨ x = []
    · rw [if_pos h, if_pos (by simpa using h)]; rfl
    · rw [if_neg h, if_neg (by simpa using h)]
      simp only [List.length_map]
      split
      · simp only [bind, Except.bind, pure, Except.pure, Except.map, List.map_append, List.map_replicate, hnan,
          List.map_map]
        congr 2
        apply List.map_congr_left
        intro t _
        simp only [Function.comp]
        rw [slice_map, mulc_fsum c hc]
      · simp only [bind, Except.bind, pure, Except.pure, Except.map, List.map_append, List.map_replicate, hnan]
        rw [mulc_fsum c hc]

theorem mulc_div (c : K) (hc : 0 < c) (a b : Fl K) (hb : flt (lit 0) b = true) :
    (Fl.fin c * a) / (Fl.fin c * b) = a / b := by
  have hc0 : c ≠ 0 := ne_of_gt hc
  show Fl.div (Fl.mul (.fin c) a) (Fl.mul (.fin c) b) = Fl.div a b
  cases b with
  | nan => exact absurd hb (by rw [← Fl.nan_def, flt_nan_right]; simp)
  | ninf => cases hb
  | pinf => cases a <;> simp [Fl.mul, Fl.infSign, hc, hc0, Fl.neg, Fl.div]
  | fin b =>
    rw [Fl.lit_def, Fl.flt_fin] at hb
    have hb : 0 < b := by simpa using hb
    have hb0 : b ≠ 0 := ne_of_gt hb
    cases a <;> simp [Fl.mul, Fl.infSign, hc, hc0, Fl.neg, Fl.div, hb0, hb.le]
    field_simp

theorem mulc_pos (c : K) (hc : 0 < c) (b : Fl K) : flt (lit 0) (Fl.fin c * b) = flt (lit 0) b := by
  have hc0 : c ≠ 0 := ne_of_gt hc
  cases b with
  | nan => rfl
  | ninf => show flt _ (Fl.mul _ _) = _; simp [Fl.mul, Fl.infSign, hc, hc0, Fl.neg]
  | pinf => show flt _ (Fl.mul _ _) = _; simp [Fl.mul, Fl.infSign, hc, hc0]
  | fin b => simp [Fl.lit_def, hc]

theorem mulc_nanmean (c : K) (hc : 0 < c) (l : List (Fl K)) :
    nanmean (l.map (Fl.fin c * ·)) = Fl.fin c * nanmean l := by
  unfold nanmean
  have hf : (l.map (Fl.fin c * ·)).filter (fun x => !isNan x) =
      (l.filter (fun x => !isNan x)).map (Fl.fin c * ·) := by
    rw [List.filter_map]
    congr 1
    apply List.filter_congr
    intro v _
    simp only [Function.comp, mulc_isNan c hc]
  simp only [hf]
  by_cases h : l.filter (fun x => !isNan x) = []
  · simp [h]
  · rw [if_neg (by simpa using h), if_neg (by simpa using h), mulc_fsum c hc, List.length_map]
    have hn : 0 < (l.filter (fun x => !isNan x)).length := List.length_pos_iff.2 h
    generalize (l.filter (fun x => !isNan x)).length = n at hn
    generalize fsum (l.filter (fun x => !isNan x)) = v
    rw [Fl.lit_def]
    have hn' : (0 : K) < ((n : ℚ) : K) := by
      have : (0 : K) < (n : K) := by exact_mod_cast hn
      simpa using this
    generalize ((n : ℚ) : K) = d at hn'
    have hd0 : d ≠ 0 := ne_of_gt hn'
    have hc0 : c ≠ 0 := ne_of_gt hc
    show Fl.div (Fl.mul _ _) _ = Fl.mul _ (Fl.div _ _)
    cases v <;> simp [Fl.mul, Fl.infSign, hc, hc0, Fl.neg, Fl.div, hd0, hn'.le, mul_div_assoc]

/-- **C28.** Multiplying the data by a positive constant changes nothing, for all data (also missing and infinite values)
and all arguments. -/
theorem C28_unit (c : K) (hc : 0 < c) (x : List (Fl K)) (scale : Option Int) (ds cs ce : Int) (per : Periodicity) :
    percentageOfNormal (x.map (Fl.fin c * ·)) scale ds cs ce per = percentageOfNormal x scale ds cs ce per := by
  unfold percentageOfNormal
  cases scale with
  | none => rfl
  | some k =>
    simp only [List.length_map]
    split
    · rfl
    · split
      · rfl
      · rename_i p _
        split
        · rfl
        · split
          · rfl
          · rw [mulc_sumToScale c hc]
            cases hs : sumToScale x k with
            | error e => rfl
            | ok s =>
              simp only [Except.map, bind, Except.bind, pure, Except.pure, Except.ok.injEq]
              apply List.ext_getElem?
              intro i
              rw [List.getElem?_mapIdx, List.getElem?_mapIdx, List.getElem?_map (l := s)]
              cases s[i]? with
              | none => rfl
              | some v =>
                simp only [Option.map_some, Option.some.injEq]
                have hsl : ∀ a b : Int, pySlice (s.map (Fl.fin c * ·)) a b = (pySlice s a b).map (Fl.fin c * ·) := by
                  intro a b; unfold pySlice; simp [List.map_drop, List.map_take]
                rw [List.getElem?_map, List.getElem?_map]
                cases hr : (List.range p)[i % p]? with
                | none => rfl
                | some j =>
                  simp only [Option.map_some]
                  rw [hsl, stride_map, mulc_nanmean c hc, mulc_pos c hc]
                  split
                  · rename_i hb; exact mulc_div c hc _ _ hb
                  · rfl

end exact

/-- three years of monthly data, 2-month sums, first two years as normal period: the sums of March are
1+2, 2+3, 3+4 (shifted by the year), so the ratios of March are 3/(7/2)... -/
example : let x := (List.range 36).map (fun i => Fl.fin ((i : ℚ) + 1))
    okAnd (percentageOfNormal x (some 2) 1990 1990 1991 .monthly)
      (fun out => decide (out[0]? = some .nan ∧ out[2]? = some (.fin (5 / 17)) ∧ out[14]? = some (.fin (29 / 17)) ∧
        out[26]? = some (.fin (53 / 17)))) = true := by decide +kernel

/-! ## C29 -/

/-- **C29.** Missing or non-positive scale, unknown periodicity, calibration start before the data: ValueError. -/
theorem C29_rejects (x : List F) (scale : Option Int) (ds cs ce : Int) (per : Periodicity)
    (h : (∀ k, scale = some k → k < 1) ∨ per = .other ∨ cs < ds) :
    percentageOfNormal x scale ds cs ce per = .error .valueError := by
  unfold percentageOfNormal
  cases scale with
  | none => rfl
  | some k =>
    simp only
    split
    · rfl
    · rename_i hk
      rcases h with h | h | h
      · exact absurd (h k rfl) hk
      · subst h; rfl
      · split
        · rfl
        · rw [if_pos (by omega)]

/-- **C29 (partial).** Full statement: for monthly and daily data, a calibration period of more years than the data
holds raises ValueError. Proved for monthly data; false for daily data (`C29_fails_daily`). -/
theorem C29_span_partial (x : List F) (scale : Option Int) (ds cs ce : Int) (years : Nat) (hx : x.length = years * 12)
    (h : (years : Int) < ce - cs + 1) :
    percentageOfNormal x scale ds cs ce .monthly = .error .valueError := by
  unfold percentageOfNormal
  cases scale with
  | none => rfl
  | some k =>
    simp only
    split
    · rfl
    · split
      · rfl
      · rw [if_pos (by rw [hx]; push_cast; omega)]

/-- **C29 is false for daily data**: for `years` years of daily data every calibration period that starts with the data
and spans up to 30 times as many years is accepted. -/
theorem C29_fails_daily (x : List F) (k : Nat) (ds ce : Int) (years : Nat) (hy : 0 < years) (hx : x.length = years * 366)
    (h1 : 1 ≤ k) (h : ce - ds + 1 ≤ 30 * years) :
    ∃ out, percentageOfNormal x (some k) ds ds ce .daily = .ok out := by
  have hx0 : x ≠ [] := by rintro rfl; simp at hx; omega
  obtain ⟨s, hs⟩ := sumToScale_ok x k h1 hx0
  rw [pnp_unfold x k ds ds ce .daily (by decide) h1 (le_refl _) (by rw [hx]; push_cast; omega), hs]
  exact ⟨_, rfl⟩

example : let x := (List.range 36).map (fun i => Fl.fin (i : ℚ))
    percentageOfNormal x (some 2) 1990 1990 1993 .monthly = .error .valueError ∧
    percentageOfNormal x (some 0) 1990 1990 1991 .monthly = .error .valueError ∧
    percentageOfNormal x (some 2) 1990 1989 1991 .monthly = .error .valueError := by decide +kernel

/-- **C29**, reversed periods: a period that ends before it starts is not rejected; with an end before the record the
negative slice bound selects years counted from the end of the record. -/
theorem C29_fails_reversed :
    let x := (List.range 36).map (fun i => Fl.fin (i : ℚ) + .fin 1)
    percentageOfNormal x (some 1) 1990 1990 1988 .monthly = percentageOfNormal x (some 1) 1990 1990 1991 .monthly := by
  decide +kernel

end CI.Props
