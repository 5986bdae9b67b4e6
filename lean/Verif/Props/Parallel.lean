import Verif.Lemmas.Parallel
import Verif.Model.Indices
import Verif.Props.SpiBasic

/-! # Properties of the worker processes (C46–C49) -/

namespace CI.Props

open CI

/-! ## C46: chunks -/

/-- **C46, main tool.** For every number of rows and of workers (at least one each) the chunks, taken one after another, are exactly the rows `0, 1, …, n-1` in order
(so every row is in exactly one chunk), there are `min n w` of them, none is empty, and their sizes differ by at most one. -/
theorem C46_main (n w : Nat) (hn : 1 ≤ n) (hw : 1 ≤ w) :
    ∃ cs, mainChunks n w = .ok cs ∧ cs.length = min n w ∧ cs.flatMap (chunkRows n) = List.range n ∧ (∀ c ∈ cs, chunkRows n c ≠ []) ∧
      ∀ c ∈ cs, ∀ c' ∈ cs, (chunkRows n c).length ≤ (chunkRows n c').length + 1 := by
  refine ⟨_, mainChunks_spec n w hn hw, by simp [regularChunks], regular_cover _ _ (by omega), fun c hc h => ?_, fun c hc c' hc' => ?_⟩
  · have := (regular_size _ _ c hc).1
    have h2 := Nat.div_pos (Nat.min_le_left n w) (show 0 < min n w by omega)
    rw [h] at this
    simp at this
    omega
  · have h1 := (regular_size _ _ c hc).2
    have h2 := (regular_size _ _ c' hc').1
    omega

/-- ten rows for four workers: sizes 3, 3, 2, 2 -/
example : mainChunks 10 4 = .ok [(0, some 3), (3, some 6), (6, some 8), (8, none)] := by decide
example : mainChunks 3 8 = .ok [(0, some 1), (1, some 2), (2, none)] := by decide

/-- **C46, SPI tool** (fitting and SPI use the same chunks): as above, at most `w` chunks; with fewer rows than workers the last chunk is empty. -/
theorem C46_spi (n w : Nat) (hw : 1 ≤ w) :
    ∃ cs, spiChunks n w = .ok cs ∧ cs.length ≤ w ∧ cs.flatMap (chunkRows n) = List.range n ∧
      ∀ c ∈ cs, ∀ c' ∈ cs, (chunkRows n c).length ≤ (chunkRows n c').length + 1 := by
  refine ⟨_, spiChunks_spec n w hw, ?_⟩
  by_cases h : n < w
  · rw [if_pos h]
    refine ⟨by simp [smallChunks]; omega, small_cover n, fun c hc c' _ => ?_⟩
    have := small_size n c hc
    omega
  · rw [if_neg h]
    refine ⟨by simp [regularChunks], regular_cover n w hw, fun c hc c' hc' => ?_⟩
    have h1 := (regular_size _ _ c hc).2
    have h2 := (regular_size _ _ c' hc').1
    omega

example : spiChunks 10 4 = .ok [(0, some 3), (3, some 6), (6, some 8), (8, none)] := by decide
example : spiChunks 2 4 = .ok [(0, some 1), (1, some 2), (2, none)] := by decide

/-! ## C47: interleavings -/

section
variable {V : Type}

/-- the series (`r`, `j`) of input array `a` -/
def seriesAt (a n : Nat) (m : Mem V) (r j : Nat) : List V := (List.range n).map (fun t => m (.inp a r j t))

/-- `final` is the state of the shared memory after some execution of the programs in which all of them have finished -/
def Final {ι : Type} [DecidableEq ι] (m0 : Mem V) (ps : ι → Prog V) (final : Mem V) : Prop := ∃ qs : ι → Prog V, Exec (m0, ps) (final, qs) ∧ ∀ i, qs i = .done

/-- the chunks of either tool -/
def ToolChunks (n w : Nat) (cs : List (Nat × Option Nat)) : Prop := mainChunks n w = .ok cs ∨ spiChunks n w = .ok cs

theorem tool_cover (n w : Nat) (hn : 1 ≤ n) (hw : 1 ≤ w) (cs : List (Nat × Option Nat)) (h : ToolChunks n w cs) : cs.flatMap (chunkRows n) = List.range n := by
  rcases h with h | h
  · obtain ⟨cs', h1, _, h2, _⟩ := C46_main n w hn hw
    rw [h1] at h; injection h with h; rw [← h]; exact h2
  · obtain ⟨cs', h1, _, h2, _⟩ := C46_spi n w hw
    rw [h1] at h; injection h with h; rw [← h]; exact h2

theorem final_eq (n cols : Nat) (cs : List (Nat × Option Nat)) (hcov : cs.flatMap (chunkRows n) = List.range n) (P : List (Nat × Nat) → Prog V)
    (hP : ∀ (S : Loc → Prop) srs, (∀ rj ∈ srs, ∀ l : Loc, l.row = rj.1 → S l) → StaysIn S (P srs))
    (m0 final : Mem V) (h : Final m0 (fun i : Fin cs.length => P (chunkSeries n cols (cs.get i))) final) :
    (∀ i : Fin cs.length, ∀ l : Loc, l.row ∈ chunkRows n (cs.get i) → final l = (P (chunkSeries n cols (cs.get i))).run m0 l) ∧
    (∀ l : Loc, n ≤ l.row → final l = m0 l) := by
  obtain ⟨qs, hex, hdone⟩ := h
  obtain ⟨hdis, hall⟩ := cover_disjoint n cs hcov
  have inv := exec_invariant (fun (i : Fin cs.length) (l : Loc) => l.row ∈ chunkRows n (cs.get i)) (fun i k hik l h1 h2 => hdis i k hik _ h1 h2) m0
    (fun i => P (chunkSeries n cols (cs.get i))) (fun i => hP _ _ (fun rj hrj l hl => by rw [hl]; exact series_row n cols _ rj hrj)) _ hex
  constructor
  · intro i l hl
    have h1 := inv.2.1 i l hl
    have hd : (final, qs).2 i = Prog.done := hdone i
    rw [hd] at h1
    exact h1
  · intro l hl
    refine inv.2.2 l (fun i hi => ?_)
    have : l.row ∈ List.range n := by
      rw [← hcov]
      exact List.mem_flatMap.2 ⟨_, List.get_mem cs i, hi⟩
    have := List.mem_range.1 this
    omega

/-- **C47, one input array** (`_apply_along_axis`: SPI and PNP of the main tool). For every number of workers, every interleaving of their reads and writes, every
function `func` of a series and every in-place change `inplace` the function makes to its input: when all workers have finished, the value of the output array at row
`r`, column `j`, time `t` is the one obtained by applying `func` to the original series of that grid cell. Rows beyond the array are untouched. -/
theorem C47_single (n cols len w : Nat) (hn : 1 ≤ n) (hw : 1 ≤ w) (cs : List (Nat × Option Nat)) (hcs : ToolChunks n w cs)
    (func inplace : List V → List V) (m0 final : Mem V)
    (h : Final m0 (fun i : Fin cs.length => progSingle len func inplace (chunkSeries n cols (cs.get i)) []) final) :
    (∀ r j t v, r < n → j < cols → (func (seriesAt 0 len m0 r j))[t]? = some v → final (.out 0 r j t) = v) ∧ (∀ l : Loc, n ≤ l.row → final l = m0 l) := by
  have hcov := tool_cover n w hn hw cs hcs
  obtain ⟨h1, h2⟩ := final_eq n cols cs hcov (fun srs => progSingle len func inplace srs [])
    (fun S srs hS => within_single S len func inplace srs [] hS (by simp)) m0 final h
  refine ⟨fun r j t v hr hj hv => ?_, h2⟩
  obtain ⟨i, hi⟩ := (cover_disjoint n cs hcov).2 r hr
  rw [h1 i (.out 0 r j t) hi]
  refine (run_single len func inplace _ (nodup_series _ cols (chunkRows_nodup n _)) [] m0 m0 (fun _ _ => rfl) (by simp) (by simp) r j t v).1
    ((mem_chunkSeries n cols _ r j).2 ⟨hi, hj⟩) ?_
  rw [← hv]
  unfold seriesAt inLocs
  rw [List.map_map]
  rfl

/-- **C47, several arrays** (`_apply_along_axis_double` for SPEI and PET, `_apply_to_subarray_spi` on grids, `_apply_to_subarray_gamma`, `_apply_to_subarray_pearson`):
the second input of the series (`r`, `j`) is any list of places in row `r` of the input arrays other than the first; one or more output arrays. -/
theorem C47_double (n cols len w : Nat) (hn : 1 ≤ n) (hw : 1 ≤ w) (cs : List (Nat × Option Nat)) (hcs : ToolChunks n w cs)
    (second : Nat × Nat → List Loc) (hsec : ∀ rj, ∀ l ∈ second rj, ∃ a j t, l = .inp (a + 1) rj.1 j t)
    (func : List V → List V → List (List V)) (inplace : List V → List V) (m0 final : Mem V)
    (h : Final m0 (fun i : Fin cs.length => progDouble len second func inplace (chunkSeries n cols (cs.get i))) final) :
    (∀ o r j t vs v, r < n → j < cols → (func (seriesAt 0 len m0 r j) ((second (r, j)).map m0))[o]? = some vs → vs[t]? = some v → final (.out o r j t) = v) ∧
    (∀ l : Loc, n ≤ l.row → final l = m0 l) := by
  have hcov := tool_cover n w hn hw cs hcs
  have hrow : ∀ rj, ∀ l ∈ second rj, l.row = rj.1 := by
    intro rj l hl
    obtain ⟨a, j, t, rfl⟩ := hsec rj l hl
    rfl
  obtain ⟨h1, h2⟩ := final_eq n cols cs hcov (fun srs => progDouble len second func inplace srs)
    (fun S srs hS => within_double S len second hrow func inplace srs hS) m0 final h
  refine ⟨fun o r j t vs v hr hj hvs hv => ?_, h2⟩
  obtain ⟨i, hi⟩ := (cover_disjoint n cs hcov).2 r hr
  rw [h1 i (.out o r j t) hi]
  refine (run_double len second hsec func inplace _ (nodup_series _ cols (chunkRows_nodup n _)) m0 m0 (fun _ _ => rfl) (fun _ _ => rfl) o r j t).1 vs v
    ((mem_chunkSeries n cols _ r j).2 ⟨hi, hj⟩) ?_ hv
  rw [← hvs]
  unfold seriesAt inLocs
  rw [List.map_map]
  rfl

/-- the second inputs of SPEI, PET, the SPI tool and the fitting functions are of the form asked for in `C47_double` -/
theorem second_forms (n k p : Nat) : ∀ second ∈ [secondSeries n, secondLat, secondFit k p, secondNone], ∀ rj, ∀ l ∈ second rj, ∃ a j t, l = Loc.inp (a + 1) rj.1 j t := by
  intro second hs rj l hl
  simp only [List.mem_cons, List.not_mem_nil, or_false] at hs
  rcases hs with rfl | rfl | rfl | rfl
  · obtain ⟨t, _, rfl⟩ := List.mem_map.1 hl
    exact ⟨0, _, t, rfl⟩
  · rw [List.mem_singleton.1 hl]
    exact ⟨0, 0, 0, rfl⟩
  · obtain ⟨a, _, ha⟩ := List.mem_flatMap.1 hl
    obtain ⟨t, _, rfl⟩ := List.mem_map.1 ha
    exact ⟨a, _, t, rfl⟩
  · simp [secondNone] at hl

/-- **C47, SPEI** (`_apply_along_axis_double`): the output of a grid cell is the function of the precipitation and of the PET series of the same cell. -/
theorem C47_spei (n cols len w : Nat) (hn : 1 ≤ n) (hw : 1 ≤ w) (cs : List (Nat × Option Nat)) (hcs : ToolChunks n w cs) (func : List V → List V → List V)
    (inplace : List V → List V) (m0 final : Mem V)
    (h : Final m0 (fun i : Fin cs.length => progDouble len (secondSeries len) (fun p e => [func p e]) inplace (chunkSeries n cols (cs.get i))) final) :
    ∀ r j t v, r < n → j < cols → (func (seriesAt 0 len m0 r j) (seriesAt 1 len m0 r j))[t]? = some v → final (.out 0 r j t) = v := by
  intro r j t v hr hj hv
  have e : (secondSeries len (r, j)).map m0 = seriesAt 1 len m0 r j := by simp [secondSeries, inLocs, seriesAt]
  refine (C47_double n cols len w hn hw cs hcs _ (second_forms len 0 0 _ (by simp)) _ inplace m0 final h).1 0 r j t _ v hr hj (by rw [e]; rfl) hv

/-- **C47, PET**: the output of a grid cell is the function of the temperature series of the cell and the latitude of its row. -/
theorem C47_pet (n cols len w : Nat) (hn : 1 ≤ n) (hw : 1 ≤ w) (cs : List (Nat × Option Nat)) (hcs : ToolChunks n w cs) (func : List V → V → List V)
    (d : V) (inplace : List V → List V) (m0 final : Mem V)
    (h : Final m0 (fun i : Fin cs.length => progDouble len secondLat (fun p e => [func p (e.headD d)]) inplace (chunkSeries n cols (cs.get i))) final) :
    ∀ r j t v, r < n → j < cols → (func (seriesAt 0 len m0 r j) (m0 (.inp 1 r 0 0)))[t]? = some v → final (.out 0 r j t) = v := by
  intro r j t v hr hj hv
  refine (C47_double n cols len w hn hw cs hcs _ (second_forms 0 0 0 _ (by simp)) _ inplace m0 final h).1 0 r j t _ v hr hj rfl hv

/-- **C47, SPI tool with parameters**: the output of a grid cell is the function of the values of the cell and of the `k` parameter arrays at the same cell. -/
theorem C47_fit (n cols len k p w : Nat) (hn : 1 ≤ n) (hw : 1 ≤ w) (cs : List (Nat × Option Nat)) (hcs : ToolChunks n w cs) (func : List V → List V → List V)
    (inplace : List V → List V) (m0 final : Mem V)
    (h : Final m0 (fun i : Fin cs.length => progDouble len (secondFit k p) (fun x q => [func x q]) inplace (chunkSeries n cols (cs.get i))) final) :
    ∀ r j t v, r < n → j < cols → (func (seriesAt 0 len m0 r j) ((List.range k).flatMap (fun a => seriesAt (a + 1) p m0 r j)))[t]? = some v →
      final (.out 0 r j t) = v := by
  intro r j t v hr hj hv
  have e : (secondFit k p (r, j)).map m0 = (List.range k).flatMap (fun a => seriesAt (a + 1) p m0 r j) := by
    simp [secondFit, inLocs, seriesAt, List.map_flatMap, Function.comp_def]
  refine (C47_double n cols len w hn hw cs hcs _ (second_forms 0 k p _ (by simp)) _ inplace m0 final h).1 0 r j t _ v hr hj (by rw [e]; rfl) hv

/-- **C47, termination.** No execution goes on for ever, and an execution that cannot go on has finished all programs: the workers cannot block each other. -/
theorem C47_terminates (c : Nat) (ps : Fin c → Prog V) (m0 : Mem V) :
    (∀ f : Nat → Mem V × (Fin c → Prog V), f 0 = (m0, ps) → ¬ ∀ k, Step (f k) (f (k + 1))) ∧
    (∀ st, Exec (m0, ps) st → (∀ t, ¬ Step st t) → ∀ i, st.2 i = .done) :=
  ⟨fun f _ => no_infinite c f, fun st _ h => stuck_done st h⟩

theorem final_exists (c : Nat) (ps : Fin c → Prog V) (m0 : Mem V) : ∃ final, Final m0 ps final := by
  by_contra hne
  have next : ∀ st, Exec (m0, ps) st → ∃ t, Step st t := by
    intro st hst
    by_contra hno
    have hd := stuck_done st (fun t ht => hno ⟨t, ht⟩)
    exact hne ⟨st.1, st.2, hst, hd⟩
  let g : Nat → {st // Exec (m0, ps) st} := fun k => Nat.rec ⟨(m0, ps), Exec.refl _⟩ (fun _ st => ⟨(next st.1 st.2).choose, Exec.step st.2 (next st.1 st.2).choose_spec⟩) k
  exact no_infinite c (fun k => (g k).1) (fun k => (next (g k).1 (g k).2).choose_spec)

/-- finished executions exist for every set of worker programs, so the theorems above speak about something -/
example (n cols len w : Nat) (cs : List (Nat × Option Nat)) (_ : ToolChunks n w cs) (func inplace : List V → List V) (m0 : Mem V) :
    ∃ final, Final m0 (fun i : Fin cs.length => progSingle len func inplace (chunkSeries n cols (cs.get i)) []) final := final_exists _ _ _

/-- two workers on two rows of one series of length 1 with an in-place change (the input is set to 0): the second worker runs first, and both results are still those
of the original values -/
example : ∃ final : Mem Nat, Final (fun l => match l with | .inp _ r _ _ => r + 5 | _ => 0)
    (fun i : Fin 2 => progSingle 1 (fun vs => vs.map (· * 10)) (fun vs => vs.map (fun _ => 0)) (chunkSeries 2 1 ([(0, some 1), (1, none)].get i)) []) final ∧
    final (.out 0 0 0 0) = 50 ∧ final (.out 0 1 0 0) = 60 ∧ final (.inp 0 0 0 0) = 0 := by
  refine ⟨_, ⟨_, Exec.step (Exec.step (Exec.step (Exec.step (Exec.step (Exec.step (Exec.refl _) (Step.read _ _ 1 _ _ rfl)) (Step.write _ _ 1 _ _ _ rfl))
    (Step.write _ _ 1 _ _ _ rfl)) (Step.read _ _ 0 _ _ rfl)) (Step.write _ _ 0 _ _ _ rfl)) (Step.write _ _ 0 _ _ _ rfl), fun i => ?_⟩, rfl, rfl, rfl⟩
  match i with
  | 0 => rfl
  | 1 => rfl

/-! ## C48: number of workers -/

/-- **C48, grids and divisions, part.** For two numbers of workers (any chunks of either tool, any interleavings) the output arrays agree, if `func` gives as many
values as the array has time steps: every value the computation is asked for is the same. What is missing: single time series input, for which the claim is false
(`C48_fails`). -/
theorem C48_partial (n cols len w w' : Nat) (hn : 1 ≤ n) (hw : 1 ≤ w) (hw' : 1 ≤ w') (cs cs' : List (Nat × Option Nat)) (hcs : ToolChunks n w cs)
    (hcs' : ToolChunks n w' cs') (func inplace : List V → List V) (hlen : ∀ l, (func l).length = l.length) (m0 final final' : Mem V)
    (h : Final m0 (fun i : Fin cs.length => progSingle len func inplace (chunkSeries n cols (cs.get i)) []) final)
    (h' : Final m0 (fun i : Fin cs'.length => progSingle len func inplace (chunkSeries n cols (cs'.get i)) []) final') :
    ∀ r j t, r < n → j < cols → t < len → final (.out 0 r j t) = final' (.out 0 r j t) := by
  intro r j t hr hj ht
  have hl : t < (func (seriesAt 0 len m0 r j)).length := by rw [hlen]; simpa [seriesAt] using ht
  rw [(C47_single n cols len w hn hw cs hcs func inplace m0 final h).1 r j t _ hr hj (List.getElem?_eq_getElem hl),
    (C47_single n cols len w' hn hw' cs' hcs' func inplace m0 final' h').1 r j t _ hr hj (List.getElem?_eq_getElem hl)]

/-- **C48, grids and divisions with several arrays, part** -/
theorem C48_double_partial (n cols len outs outLen w w' : Nat) (hn : 1 ≤ n) (hw : 1 ≤ w) (hw' : 1 ≤ w') (cs cs' : List (Nat × Option Nat)) (hcs : ToolChunks n w cs)
    (hcs' : ToolChunks n w' cs') (second : Nat × Nat → List Loc) (hsec : ∀ rj, ∀ l ∈ second rj, ∃ a j t, l = .inp (a + 1) rj.1 j t)
    (func : List V → List V → List (List V)) (hlen : ∀ l l', (func l l').length = outs ∧ ∀ x ∈ func l l', x.length = outLen) (inplace : List V → List V)
    (m0 final final' : Mem V)
    (h : Final m0 (fun i : Fin cs.length => progDouble len second func inplace (chunkSeries n cols (cs.get i))) final)
    (h' : Final m0 (fun i : Fin cs'.length => progDouble len second func inplace (chunkSeries n cols (cs'.get i))) final') :
    ∀ o r j t, o < outs → r < n → j < cols → t < outLen → final (.out o r j t) = final' (.out o r j t) := by
  intro o r j t ho hr hj ht
  have h1 : o < (func (seriesAt 0 len m0 r j) ((second (r, j)).map m0)).length := by rw [(hlen _ _).1]; exact ho
  have h2 : t < (func (seriesAt 0 len m0 r j) ((second (r, j)).map m0))[o].length := by rw [(hlen _ _).2 _ (List.getElem_mem h1)]; exact ht
  rw [(C47_double n cols len w hn hw cs hcs second hsec func inplace m0 final h).1 o r j t _ _ hr hj (List.getElem?_eq_getElem h1) (List.getElem?_eq_getElem h2),
    (C47_double n cols len w' hn hw' cs' hcs' second hsec func inplace m0 final' h').1 o r j t _ _ hr hj (List.getElem?_eq_getElem h1) (List.getElem?_eq_getElem h2)]

/-- both statements are about real chunks: five rows, two and three workers -/
example : ToolChunks 5 2 [(0, some 3), (3, none)] ∧ ToolChunks 5 3 [(0, some 2), (2, some 4), (4, none)] := ⟨Or.inl (by decide), Or.inl (by decide)⟩

end

/-- two years of monthly rainfall, 10 mm in every month of the first year and 20 mm in the second -/
def c48Data : List (Fl ℚ) := List.replicate 12 (.fin 10) ++ List.replicate 12 (.fin 20)

/-- **C48 is false for a single time series.** The time axis is the first axis, so with two workers each of them sees one year only: the percentage of normal of the
second year (calibration: first year) is 2 with one worker and 1 with two. -/
theorem C48_fails :
    applyTimeseries (fun x => percentageOfNormal x (some 1) 2000 2000 2000 .monthly) c48Data 1 = .ok (List.replicate 12 (.fin 1) ++ List.replicate 12 (.fin 2)) ∧
    applyTimeseries (fun x => percentageOfNormal x (some 1) 2000 2000 2000 .monthly) c48Data 2 = .ok (List.replicate 24 (.fin 1)) := by
  decide +kernel

theorem take_drop_rows {V : Type} (x : List V) (c : Nat × Option Nat) (d : V) :
    (x.take (c.2.getD x.length)).drop c.1 = (chunkRows x.length c).map (fun r => x.getD r d) := by
  have hx : x = (List.range x.length).map (fun r => x.getD r d) := by
    apply List.ext_getElem?
    intro i
    by_cases hi : i < x.length
    · simp [List.getElem?_map, List.getElem?_range hi, List.getElem?_eq_getElem hi]
    · rw [List.getElem?_eq_none (by omega), List.getElem?_eq_none (by simp; omega)]
  unfold chunkRows
  rw [List.map_drop, List.map_take, ← hx]

/-- **C48, single time series, what happens instead.** A series is cut into consecutive blocks of (almost) equal length, one for each worker, in the order of time;
the function is applied to each block on its own; the output is the results one after the other. -/
theorem C48_blocks_partial {V : Type} (func : List V → Res (List V)) (x : List V) (w : Nat) (hx : x ≠ []) (hw : 1 ≤ w) :
    ∃ blocks : List (List V), blocks.flatten = x ∧ blocks.length = min x.length w ∧ (∀ b ∈ blocks, b ≠ []) ∧ (∀ b ∈ blocks, ∀ b' ∈ blocks, b.length ≤ b'.length + 1) ∧
      applyTimeseries func x w = (blocks.mapM func).map List.flatten := by
  have hn : 1 ≤ x.length := List.length_pos_of_ne_nil hx
  obtain ⟨d, _⟩ := List.exists_mem_of_ne_nil x hx
  obtain ⟨cs, h1, h2, h3, h4, h5⟩ := C46_main x.length w hn hw
  have hfun : (fun c : Nat × Option Nat => (x.take (c.2.getD x.length)).drop c.1) = fun c => (chunkRows x.length c).map (fun r => x.getD r d) :=
    funext (fun c => take_drop_rows x c d)
  refine ⟨cs.map (fun c => (x.take (c.2.getD x.length)).drop c.1), ?_, by rw [List.length_map, h2], ?_, ?_, ?_⟩
  · rw [hfun]
    have : (cs.map (fun c => (chunkRows x.length c).map (fun r => x.getD r d))).flatten = (cs.flatMap (chunkRows x.length)).map (fun r => x.getD r d) := by
      rw [List.map_flatMap]; rfl
    rw [this, h3]
    apply List.ext_getElem?
    intro i
    by_cases hi : i < x.length
    · simp [List.getElem?_map, List.getElem?_range hi, List.getElem?_eq_getElem hi]
    · rw [List.getElem?_eq_none (by simp; omega), List.getElem?_eq_none (by omega)]
  · intro b hb
    rw [hfun] at hb
    obtain ⟨c, hc, rfl⟩ := List.mem_map.1 hb
    exact fun h => h4 c hc (List.map_eq_nil_iff.1 h)
  · intro b hb b' hb'
    rw [hfun] at hb hb'
    obtain ⟨c, hc, rfl⟩ := List.mem_map.1 hb
    obtain ⟨c', hc', rfl⟩ := List.mem_map.1 hb'
    rw [List.length_map, List.length_map]
    exact h5 c hc c' hc'
  · unfold applyTimeseries
    rw [h1]
    rw [List.mapM_map]
    simp only [bind, Except.bind, pure, Except.pure]
    generalize hq : List.mapM (fun c : Nat × Option Nat => func ((x.take (c.2.getD x.length)).drop c.1)) cs = q
    rw [show List.mapM (func ∘ fun c : Nat × Option Nat => (x.take (c.2.getD x.length)).drop c.1) cs = q from hq]
    cases q with
    | error e => rfl
    | ok v => rfl

/-- **C48, single time series, part**: a function that works value by value gives the same output with every number of workers. -/
theorem C48_pointwise_partial {V : Type} (f : V → V) (x : List V) (w : Nat) (hx : x ≠ []) (hw : 1 ≤ w) :
    applyTimeseries (fun b => .ok (b.map f)) x w = .ok (x.map f) := by
  obtain ⟨bs, h1, -, -, -, h2⟩ := C48_blocks_partial (fun b => .ok (b.map f)) x w hx hw
  rw [h2, mapM_ok_of _ (fun b => b.map f) bs (fun _ _ => rfl), ← h1, List.map_flatten]
  rfl

/-- five values, two workers: blocks of three and two values, in this order -/
example : applyTimeseries (fun b => .ok (b.map (· + b.length))) [10, 20, 30, 40, 50] 2 = .ok [13, 23, 33, 42, 52] := by decide

/-! ## C49: multiprocessing options -/

/-- **C49 is false**: the default option `all_but_one` on a machine with one CPU gives no worker, and both tools then fail with a division by zero for every array. -/
theorem C49_fails : numberOfWorkers .allButOne 1 = 0 ∧ ∀ n, mainChunks n (numberOfWorkers .allButOne 1) = .error .zeroDivisionError ∧
    spiChunks n (numberOfWorkers .allButOne 1) = .error .zeroDivisionError := by
  refine ⟨rfl, fun n => ⟨?_, rfl⟩⟩
  unfold mainChunks
  simp only [numberOfWorkers, Nat.sub_self, Nat.min_zero]
  rfl

/-- **C49, part**: with that one exception there is at least one worker, and both tools find chunks for every array with a row. -/
theorem C49_partial (o : MpOption) (cpus : Nat) (hc : 1 ≤ cpus) (hex : ¬ (o = .allButOne ∧ cpus = 1)) (n : Nat) (hn : 1 ≤ n) :
    1 ≤ numberOfWorkers o cpus ∧ (∃ cs, mainChunks n (numberOfWorkers o cpus) = .ok cs) ∧ ∃ cs, spiChunks n (numberOfWorkers o cpus) = .ok cs := by
  have hw : 1 ≤ numberOfWorkers o cpus := by
    cases o with
    | single => exact Nat.le_refl 1
    | all => exact hc
    | allButOne =>
      have : cpus ≠ 1 := fun h => hex ⟨rfl, h⟩
      show 1 ≤ cpus - 1
      omega
  exact ⟨hw, ⟨_, mainChunks_spec n _ hn hw⟩, ⟨_, spiChunks_spec n _ hw⟩⟩

example : numberOfWorkers .allButOne 8 = 7 ∧ numberOfWorkers .all 1 = 1 ∧ numberOfWorkers .single 4 = 1 := by decide

/-! ## C65: divisions in the SPI tool -/

section
variable {F : Type} [FloatOps F]

/-- **C65 is false**: with two or more divisions in a chunk, no division ever gets a result, whatever the data, the distribution and the parameters. -/
theorem C65_fails [FloatLaws F] (E : Ext F) (hE : ExtNan E) (chunk : List (List F)) (len : Nat) (hk : 2 ≤ chunk.length) (hl : 1 ≤ len) (hrow : ∀ x ∈ chunk, x.length = len) (scale : Int)
    (dist : Distribution) (ds cs ce : Int) (per : Periodicity) (fp : Option (FitDict F)) :
    ∀ out, spiDivisionRow E chunk len scale dist ds cs ce per fp ≠ .ok out := by
  intro out h
  unfold spiDivisionRow at h
  cases hs : spi E ⟨[chunk.length, len], chunk.flatten⟩ scale dist ds cs ce per fp with
  | error e => rw [hs] at h; cases h
  | ok o =>
    rw [hs] at h
    have hlen := C10_size E hE _ scale dist ds cs ce per fp o hs
    have hfl : (chunk.flatten).length = chunk.length * len := by
      rw [List.length_flatten, List.map_congr_left (g := fun _ => len) (fun x hx => hrow x hx), List.map_const', List.sum_replicate, smul_eq_mul]
    have hlen : o.length = chunk.length * len := hlen.trans hfl
    have h2 : 2 * len ≤ chunk.length * len := Nat.mul_le_mul_right _ hk
    simp only [bind, Except.bind, pure, Except.pure] at h
    rw [if_neg (by omega)] at h
    match o, hlen, h with
    | [], _, h => cases h
    | [x], hlen, _ => simp at hlen; omega
    | x :: y :: l, _, h => cases h

/-- **C65, part**: a division that is alone in its chunk gets the SPI of its own series. -/
theorem C65_partial [FloatLaws F] (E : Ext F) (hE : ExtNan E) (series : List F) (scale : Int) (dist : Distribution) (ds cs ce : Int) (per : Periodicity) (fp : Option (FitDict F)) :
    spiDivisionRow E [series] series.length scale dist ds cs ce per fp = spi E (Arr.of1d series) scale dist ds cs ce per fp := by
  have e : spi E ⟨[1, series.length], [series].flatten⟩ scale dist ds cs ce per fp = spi E (Arr.of1d series) scale dist ds cs ce per fp := by
    unfold spi
    simp [Arr.of1d]
  unfold spiDivisionRow
  rw [show [series].length = 1 from rfl, e]
  cases hs : spi E (Arr.of1d series) scale dist ds cs ce per fp with
  | error x => rfl
  | ok o =>
    have hlen : o.length = series.length := C10_size E hE _ scale dist ds cs ce per fp o hs
    simp only [bind, Except.bind, pure, Except.pure]
    rw [if_pos hlen]

end

/-- two divisions with the same 60 months: an error; one of them alone: 60 values -/
example : spiDivisionRow toyExt [demo, demo] 60 1 .pearson 1990 1990 1994 .monthly none = .error .valueError ∧
    okAnd (spiDivisionRow toyExt [demo] 60 1 .pearson 1990 1990 1994 .monthly none) (fun out => decide (out.length = 60)) = true := by
  decide +kernel

end CI.Props
