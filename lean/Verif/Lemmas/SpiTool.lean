import Verif.Model.SpiTool
import Verif.Lemmas.CliCells
import Verif.Props.Alias

/-!
# Lemmas about complete runs of the SPI tool: one series, one row, one stage, one (scale, distribution)
-/

namespace CI
open Spec CI.Props

variable {F : Type} [FloatOps F]

/-! ## One series -/

/-- the parameters of `scale_values` followed by the fitting function of the distribution -/
def fitVal (E : Ext F) (dist : Distribution) (s : List F) (scale ds cs ce : Int) (per : Periodicity) : Res (FitDict F) :=
  match dist with
  | .gamma => fitGammaVal E (Arr.of1d s) scale ds cs ce per
  | .pearson => fitPearsonVal E (Arr.of1d s) scale ds cs ce per
  | .other => .error .valueError

/-- whether fitting overwrites the zeros of the series -/
def fitOverwrites (dist : Distribution) (s : List F) (scale : Int) (per : Periodicity) : Bool := decide (dist = .gamma) && fitWrites (Arr.of1d s) scale per

/-- the series, overwritten or not -/
def overwritten (b : Bool) (s : List F) : List F := if b then s.map zeroToNan else s

omit [FloatOps F] in
theorem of1d_arr (s : List F) : Heap.arr [s] ⟨0, [s.length]⟩ = Arr.of1d s := rfl

omit [FloatOps F] in
theorem of1d_WF (s : List F) : (Arr.of1d s).WF := by simp [Arr.WF, Arr.of1d]

theorem cellOp_fit (E : Ext F) (dist : Distribution) (s : List F) (scale ds cs ce : Int) (per : Periodicity) {r : FitDict F × List F}
    (h : cellOp (fitOp E dist scale ds cs ce per) s = .ok r) :
    fitVal E dist s scale ds cs ce per = .ok r.1 ∧ r.2 = overwritten (fitOverwrites dist s scale per) s := by
  unfold cellOp at h
  cases dist with
  | other => cases h
  | gamma =>
    obtain ⟨h', g1, ex, g2⟩ := fitGammaH_spec E [s] ⟨0, [s.length]⟩ (Arr.of1d s) (of1d_arr s) (by simp) (of1d_WF s) scale ds cs ce per
    simp only [fitOp, g1] at h
    cases hv : fitGammaVal E (Arr.of1d s) scale ds cs ce per with
    | error e => rw [hv] at h; cases h
    | ok fp =>
      rw [hv] at h
      cases h
      refine ⟨hv, ?_⟩
      subst g2
      unfold overwritten fitOverwrites
      cases fitWrites (Arr.of1d s) scale per <;> simp [Arr.of1d]
  | pearson =>
    obtain ⟨h', g1, ex, g2⟩ := fitPearsonH_spec E [s] ⟨0, [s.length]⟩ (Arr.of1d s) (of1d_arr s) (of1d_WF s) scale ds cs ce per
    simp only [fitOp, g1] at h
    cases hv : fitPearsonVal E (Arr.of1d s) scale ds cs ce per with
    | error e => rw [hv] at h; cases h
    | ok fp =>
      rw [hv] at h
      cases h
      refine ⟨hv, ?_⟩
      subst g2
      simp [overwritten, fitOverwrites]

theorem cellOp_spi [FloatLaws F] (E : Ext F) (dist : Distribution) (s : List F) (scale ds cs ce : Int) (per : Periodicity) (fp : FitDict F) {r : List F × List F}
    (h : cellOp (spiOp E dist scale ds cs ce per fp) s = .ok r) :
    spi E (Arr.of1d s) scale dist ds cs ce per (some fp) = .ok r.1 ∧ r.2 = overwritten (spiWrites (Arr.of1d s) scale dist per (some fp)) s := by
  unfold cellOp at h
  obtain ⟨res, h', g1, g2, ex, g3⟩ := spiH_spec E [s] ⟨0, [s.length]⟩ (Arr.of1d s) (of1d_arr s) (by simp) (of1d_WF s) scale dist ds cs ce per (some fp)
  cases res with
  | error e =>
    have : spiOp E dist scale ds cs ce per fp ⟨0, [s.length]⟩ [s] = (.error e, h') := by unfold spiOp; rw [H_bind_err g1]
    rw [this] at h
    cases h
  | ok r' =>
    have : spiOp E dist scale ds cs ce per fp ⟨0, [s.length]⟩ [s] = (.ok (h'.arr r').data, h') := by unfold spiOp; rw [H_bind_ok g1]; rfl
    rw [this] at h
    cases h
    refine ⟨g2.symm, ?_⟩
    subst g3
    unfold overwritten
    cases spiWrites (Arr.of1d s) scale dist per (some fp) <;> simp [Arr.of1d]

/-! ## One row -/

theorem overwritten_length (b : Bool) (s : List F) : (overwritten b s).length = s.length := by
  unfold overwritten; cases b <;> simp

theorem fitRow_ok {E : Ext F} {dist : Distribution} {scale ds cs ce : Int} {per : Periodicity} {cols n p : Nat} {row : List F} {o : List F × List (List (List F))}
    (hrow : row.length = cols * n) (h : fitRow (fitOp E dist scale ds cs ce per) cols n p row = .ok o) :
    o.1.length = cols * n ∧ o.2.length = cols ∧ ∀ k < cols, ∃ fp ps, fitVal E dist ((row.drop (k * n)).take n) scale ds cs ce per = .ok fp ∧
      fp.mapM (fun kv => assignSeries p (kv.2.getD [])) = .ok ps ∧ o.2[k]? = some ps ∧
      (o.1.drop (k * n)).take n = overwritten (fitOverwrites dist ((row.drop (k * n)).take n) scale per) ((row.drop (k * n)).take n) := by
  unfold fitRow at h
  obtain ⟨cells, h1, h⟩ := Res.bind_ok h
  cases h
  have hser : ∀ k < cols, ((row.drop (k * n)).take n).length = n := by
    intro k hk
    have : (k + 1) * n ≤ cols * n := Nat.mul_le_mul_right _ hk
    rw [Nat.add_mul, Nat.one_mul] at this
    rw [List.length_take, List.length_drop, hrow]
    omega
  have hp : ∀ x ∈ cells.map Prod.fst, x.length = n := by
    intro x hx
    obtain ⟨c, hc, rfl⟩ := List.mem_map.1 hx
    obtain ⟨k, hk, h2⟩ := mapM_mem h1 c hc
    obtain ⟨r, h3, h2⟩ := Res.bind_ok h2
    obtain ⟨ps, h4, h2⟩ := Res.bind_ok h2
    cases h2
    show r.2.length = n
    rw [(cellOp_fit E dist _ scale ds cs ce per h3).2, overwritten_length, hser k (List.mem_range.1 hk)]
  have hl := mapM_len h1
  rw [List.length_range] at hl
  refine ⟨by rw [flatten_len hp, List.length_map, hl], by rw [List.length_map, hl], ?_⟩
  intro k hk
  obtain ⟨y, hy, h2⟩ := mapM_get h1 k k (by simp [hk])
  obtain ⟨r, h3, h2⟩ := Res.bind_ok h2
  obtain ⟨ps, h4, h2⟩ := Res.bind_ok h2
  cases h2
  obtain ⟨g1, g2⟩ := cellOp_fit E dist _ scale ds cs ce per h3
  refine ⟨r.1, ps, g1, h4, by simp [hy], ?_⟩
  rw [flatten_block hp k r.2 (by simp [hy]), g2]

theorem spiRow_ok [FloatLaws F] {E : Ext F} {dist : Distribution} {scale ds cs ce : Int} {per : Periodicity} {cols n i : Nat} {row : List F} {names : List String} {fits : List (Arr F)}
    {o : List F × List F} (hrow : row.length = cols * n) (h : spiRow (spiOp E dist scale ds cs ce per) names fits cols n (i, row) = .ok o) :
    o.1.length = cols * n ∧ o.2.length = cols * n ∧ ∀ k < cols, ∃ ps out, fits.mapM (fun x => fitAt x i k) = .ok ps ∧
      spi E (Arr.of1d ((row.drop (k * n)).take n)) scale dist ds cs ce per (some (names.zip (ps.map some))) = .ok out ∧
      assignSeries n out = .ok ((o.2.drop (k * n)).take n) ∧
      (o.1.drop (k * n)).take n = overwritten (spiWrites (Arr.of1d ((row.drop (k * n)).take n)) scale dist per (some (names.zip (ps.map some)))) ((row.drop (k * n)).take n) := by
  unfold spiRow at h
  obtain ⟨cells, h1, h⟩ := Res.bind_ok h
  cases h
  have hser : ∀ k < cols, ((row.drop (k * n)).take n).length = n := by
    intro k hk
    have : (k + 1) * n ≤ cols * n := Nat.mul_le_mul_right _ hk
    rw [Nat.add_mul, Nat.one_mul] at this
    rw [List.length_take, List.length_drop, hrow]
    omega
  have hp : (∀ x ∈ cells.map Prod.fst, x.length = n) ∧ ∀ x ∈ cells.map Prod.snd, x.length = n := by
    constructor
    · intro x hx
      obtain ⟨c, hc, rfl⟩ := List.mem_map.1 hx
      obtain ⟨k, hk, h2⟩ := mapM_mem h1 c hc
      obtain ⟨ps, h4, h2⟩ := Res.bind_ok h2
      obtain ⟨r, h3, h2⟩ := Res.bind_ok h2
      obtain ⟨q, h5, h2⟩ := Res.bind_ok h2
      cases h2
      show r.2.length = n
      rw [(cellOp_spi E dist _ scale ds cs ce per _ h3).2, overwritten_length]
      exact hser k (List.mem_range.1 hk)
    · intro x hx
      obtain ⟨c, hc, rfl⟩ := List.mem_map.1 hx
      obtain ⟨k, hk, h2⟩ := mapM_mem h1 c hc
      obtain ⟨ps, h4, h2⟩ := Res.bind_ok h2
      obtain ⟨r, h3, h2⟩ := Res.bind_ok h2
      obtain ⟨q, h5, h2⟩ := Res.bind_ok h2
      cases h2
      exact assignSeries_ok h5
  have hl := mapM_len h1
  rw [List.length_range] at hl
  refine ⟨by rw [flatten_len hp.1, List.length_map, hl], by rw [flatten_len hp.2, List.length_map, hl], ?_⟩
  intro k hk
  obtain ⟨y, hy, h2⟩ := mapM_get h1 k k (by simp [hk])
  obtain ⟨ps, h4, h2⟩ := Res.bind_ok h2
  obtain ⟨r, h3, h2⟩ := Res.bind_ok h2
  obtain ⟨q, h5, h2⟩ := Res.bind_ok h2
  cases h2
  obtain ⟨g1, g2⟩ := cellOp_spi E dist _ scale ds cs ce per _ h3
  refine ⟨ps, r.1, h4, g1, ?_, ?_⟩
  · rw [flatten_block hp.2 k q (by simp [hy])]
    exact h5
  · rw [flatten_block hp.1 k r.2 (by simp [hy]), g2]

/-! ## Chunks -/

theorem small_chain (n : Nat) : ChainFrom 0 (smallChunks n) := by
  have key : ∀ k a, a + k = n → ChainFrom a ((List.range' a k).map (fun i => (i, some (i + 1))) ++ [(n, none)]) := by
    intro k
    induction k with
    | zero => intro a h; exact ⟨by omega, rfl⟩
    | succ k ih =>
      intro a h
      rw [List.range'_succ, List.map_cons, List.cons_append]
      exact ⟨rfl, by omega, ih (a + 1) (by omega)⟩
  have := key n 0 (by omega)
  simpa [smallChunks, List.range_eq_range'] using this

theorem spiChunks_chain {n w : Nat} {cs : List (Nat × Option Nat)} (h : spiChunks n w = .ok cs) : 1 ≤ w ∧ ChainFrom 0 cs := by
  have hw : 1 ≤ w := by
    by_contra hc
    have : w = 0 := by omega
    subst this
    unfold spiChunks splitIndices at h
    simp [bind, Except.bind] at h
  refine ⟨hw, ?_⟩
  rw [spiChunks_spec n w hw] at h
  cases h
  split
  · exact small_chain n
  · exact chain_regular n w (by omega)

end CI
