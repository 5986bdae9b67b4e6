import Verif.Props.EndToEnd64
import Verif.Props.SpiCommand
import Verif.Props.SpiNoYears
import Verif.Props.ShortRecordRuns

/-!
# C146: the SPI tool from the command line to the gamma files, in binary64 arithmetic

C119 does this in exact arithmetic, C139 for the main tool. The SPI tool works on one copy of the record for all scales and both distributions: once scale 1 was processed, months without
precipitation are missing.
-/

namespace CI.Props

open CI FloatOps FloatLaws B64 Spec Spec.McKee

section
variable {F : Type} [FloatOps F] [FloatLaws F]

/-- gamma parameters can always be fitted -/
theorem fitted_gamma (E : Ext F) (l : List F) (k : ℕ) (h1 : 1 ≤ k) (h2 : k ≤ l.length) (ds cs ce : ℤ) (per : Periodicity) (hper : per ≠ .other) :
    ∃ fp, fittedParameters E .gamma l k ds cs ce per = .ok fp := by
  have hx : ∃ x, scaleValues (Arr.of1d l) k per = .ok x ∧ (x = Arr.of1d l ∧ allNan l = true ∨ ∃ n data, x = ⟨[n, per.steps], data⟩ ∧ data.length = n * per.steps) := by
    unfold scaleValues
    rw [if_pos (show (Arr.of1d l).shape.length = 2 ∨ (Arr.of1d l).shape.length = 1 from Or.inr rfl)]
    cases hn : allNan l with
    | true => exact ⟨Arr.of1d l, by rw [if_pos (show allNan (Arr.of1d l).data = true from hn)]; rfl, .inl ⟨rfl, rfl⟩⟩
    | false =>
      rw [if_neg (by rw [show (Arr.of1d l).data = l from rfl, hn]; simp)]
      obtain ⟨m, hm⟩ : ∃ m, amin (Arr.of1d l).data = .ok m := by
        cases l with
        | nil => simp at h2; omega
        | cons a l =>
          show ∃ m, (if (a :: l).any isNan then _ else _) = _
          split
          · exact ⟨_, rfl⟩
          · exact ⟨_, rfl⟩
      rw [hm]
      simp only [bind, Except.bind]
      generalize hg : (if flt m (lit 0) = true then (Arr.of1d l).data.map (npClipMin (lit 0)) else (Arr.of1d l).data) = data
      have hlen : data.length = l.length := by
        rw [← hg]
        split <;> simp [Arr.of1d]
      obtain ⟨s, hs, hsl, _⟩ := C07_windows_partial data k h1 (by rw [hlen]; exact h2)
      obtain ⟨n, hr, hl⟩ := reshapeValues_total s per hper
      rw [hs]
      refine ⟨_, ?_, .inr ⟨n, _, rfl, hl⟩⟩
      rw [← hr]
      cases per with
      | other => exact absurd rfl hper
      | monthly => rfl
      | daily => rfl
  obtain ⟨x, hx, hc⟩ := hx
  unfold fittedParameters
  rw [hx]
  simp only [bind, Except.bind]
  suffices ∃ ab, gammaParameters E x ds cs ce per = .ok ab by
    obtain ⟨ab, h⟩ := this
    simp only [h]
    exact ⟨_, rfl⟩
  have hall : ∀ x : Arr F, allNan x.data = true → ∃ ab, gammaParameters E x ds cs ce per = .ok ab := by
    intro x h
    unfold gammaParameters
    rw [if_pos h]
    cases per with
    | other => exact absurd rfl hper
    | monthly => exact ⟨_, rfl⟩
    | daily => exact ⟨_, rfl⟩
  rcases hc with ⟨rfl, hn⟩ | ⟨n, data, rfl, _⟩
  · exact hall _ hn
  · cases hn : allNan data with
    | true => exact hall _ hn
    | false => exact ⟨_, gammaParameters_2d E n _ _ ds cs ce per (steps_12_366 per hper) hn⟩

theorem toolSeries_length (per : Periodicity) (done : List Int) (l : List F) : (toolSeries per done l).length = l.length := by
  unfold toolSeries
  split <;> simp

/-- at every place Pearson parameters can be fitted to what is left of the record once the scales `done` were processed, and the index can be computed -/
def PearsonFine (E : Ext F) (cs ce y0 : Int) (A B N : Nat) (mm : List F) (done : List Nat) (s : Nat) : Prop :=
  ∀ i < A, ∀ k < B, (∃ fp, fittedParameters E .pearson (toolSeries .monthly (done.map Int.ofNat) (seriesAt B N i k mm)) s y0 cs ce .monthly = .ok fp) ∧
    ∃ out, spi E (Arr.of1d (toolSeries .monthly (done.map Int.ofNat) (seriesAt B N i k mm))) s .pearson y0 cs ce .monthly none = .ok out

theorem feasible_gamma (E : Ext F) (cs ce y0 : Int) (A B N : Nat) (mm : List F) (hlen : ∀ i < A, ∀ k < B, (seriesAt B N i k mm).length = N) (done : List (Int × Distribution)) (s : Nat)
    (h1 : 1 ≤ s) (h2 : s ≤ N) : Feasible E cs ce y0 A B N mm done ((s : Int), .gamma) := by
  intro i hi k hk
  exact ⟨fitted_gamma E _ s h1 (by rw [toolSeries_length, hlen i hi k hk]; exact h2) y0 cs ce .monthly (by decide), spi_gamma_total E _ s (by exact_mod_cast h1) y0 cs ce⟩

theorem feasible_pearson (E : Ext F) (cs ce y0 : Int) (A B N : Nat) (mm : List F) (before : List Nat) (s : Nat) :
    Feasible E cs ce y0 A B N mm (processingOrder (before.map Int.ofNat) ++ [((s : Int), .gamma)]) ((s : Int), .pearson) ↔ PearsonFine E cs ce y0 A B N mm (before ++ [s]) s := by
  have hone := order_one (before.map Int.ofNat)
  unfold Feasible PearsonFine
  refine forall_congr' fun i => forall_congr' fun _ => forall_congr' fun k => forall_congr' fun _ => ?_
  rw [toolSeries_mem (done := (processingOrder (before.map Int.ofNat) ++ [((s : Int), Distribution.gamma)]).map Prod.fst) (done' := (before ++ [s]).map Int.ofNat) (by
      simp only [List.map_append, List.mem_append, hone]; simp),
    toolSeries_mem (done := ((processingOrder (before.map Int.ofNat) ++ [((s : Int), Distribution.gamma)]) ++ [((s : Int), Distribution.pearson)]).map Prod.fst) (done' := (before ++ [s]).map Int.ofNat) (by
      simp only [List.map_append, List.mem_append, hone]; simp)]

theorem order_len (l : List Int) : (processingOrder l).length = 2 * l.length := by
  induction l with
  | nil => rfl
  | cons s l ih => simp only [processingOrder, List.length_cons, ih]; ring

end

variable {σ : SumOrder}

/-- what the tool works on once the scales `done` were processed: after scale 1 the zeros of a record of whole years are missing -/
def remaining64 (done : List ℕ) (x : List (B64 σ)) : List (B64 σ) :=
  if 1 ∈ done ∧ 12 ∣ x.length then x.map (fun v => if ext v = .fin 0 then .nan else v) else x

theorem remaining64_length (done : List ℕ) (x : List (B64 σ)) : (remaining64 done x).length = x.length := by
  unfold remaining64
  split <;> simp

theorem toolSeries_64 (done : List ℕ) (x : List (B64 σ)) (hx : ∀ v ∈ x, StepAmount v) : toolSeries .monthly (done.map Int.ofNat) x = remaining64 done x := by
  have h1 : (1 : Int) ∈ done.map Int.ofNat ↔ 1 ∈ done := by
    rw [List.mem_map]
    constructor
    · rintro ⟨n, hn, e⟩
      have : n = 1 := Int.ofNat.inj e
      rwa [this] at hn
    · exact fun h => ⟨1, h, rfl⟩
  have hz : ∀ v ∈ x, (if feq v (lit 0) then nan else v) = if ext v = .fin 0 then .nan else v := by
    intro v hv
    rcases hx v hv with rfl | ⟨q, hq, _, _⟩
    · split <;> split <;> rfl
    · rw [feq_ext hq ext_lit_zero, hq]
      by_cases h0 : q = 0
      · simp [h0]; rfl
      · simp [h0]
  have hmap : x.map (fun v => if feq v (lit 0) then nan else v) = x.map (fun v => if ext v = .fin 0 then .nan else v) := List.map_congr_left hz
  have hin : 12 ∣ x.length → (∃ v ∈ x, v ≠ nan) → InPlace (Arr.of1d x) .monthly := by
    intro hd hs
    refine ⟨rfl, hs, ?_, hd⟩
    rintro ⟨_, v, hv, hn⟩
    rcases hx v hv with rfl | ⟨q, hq, hlo, _⟩
    · have : flt (B64.nan : B64 σ) (lit 0) = false := flt_nan_left _
      rw [this] at hn
      cases hn
    · rw [flt_ext hq ext_lit_zero] at hn
      have h0 : 0 ≤ q := by
        rcases hlo with h | h
        · exact h.ge
        · exact le_trans (by positivity) h
      simp only [decide_eq_true_eq] at hn
      linarith
  unfold toolSeries remaining64
  by_cases h2 : 1 ∈ done ∧ 12 ∣ x.length
  · rw [if_pos h2]
    by_cases h3 : ∃ v ∈ x, v ≠ nan
    · rw [if_pos ⟨h1.2 h2.1, hin h2.2 h3⟩, hmap]
    · rw [if_neg (fun q => h3 q.2.2.1)]
      conv_lhs => rw [← List.map_id x]
      apply List.map_congr_left
      intro v hv
      have : v = .nan := by
        by_contra hc
        exact h3 ⟨v, hv, hc⟩
      subst this
      split <;> rfl
  · rw [if_neg h2, if_neg]
    rintro ⟨k1, _, _, _, k2⟩
    exact h2 ⟨h1.1 k1, k2⟩

/-- **C146.** The documented command line of the SPI tool for monthly precipitation (any files, names, scales from 1 to the length of the record, calibration years inside the record, numbers of workers,
separate values or `=`), in IEEE float64 arithmetic. The tool ends without exception exactly if for every scale the Pearson index can be computed at every place from what is left of the record; it has then
written two files per scale, gamma before Pearson, and then the parameters if asked for. Other files are never changed. In any case, also when the tool fails later, the gamma file of every scale that is reached
holds at every place the gamma SPI of what is left of the record of that place, in the sense of `GammaIndex64`. -/
theorem C146_spi (E : Ext (B64 σ)) (hE : ExtNan E) (hA : Accurate E) (G : ℝ → ℝ → ℝ → ℝ) (Φ : ℝ → ℝ) (η δ : ℝ) (hI : IndexNear E G Φ η δ)
    (toInt : String → Option Int) (ht : ∀ n : Int, toInt (toString n) = some n) (cpus : Nat) (lower : String → String)
    (yearOf : B64 σ → Int) (j : String → Bool) (c : SpiCommand) (hc : SpiWritable j c) (cs ce : Int)
    (hcs : c.calibrationStart = some cs) (hce : c.calibrationEnd = some ce) (hcpu : 1 ≤ numberOfWorkers c.multiprocessing cpus) (w : World (B64 σ)) {d : NcFile (B64 σ)}
    {x t lat lon : NcVar (B64 σ)} {A B N : Nat} {mm : List (B64 σ)} {y0 : Int} (h : SpiReady lower yearOf c.args w d x t lat lon A B N mm y0)
    (scales : List Nat) (hs : c.args.scales = some (scales.map Int.ofNat)) (hsc : ∀ s ∈ scales, 1 ≤ s ∧ s ≤ N) (c1 : y0 ≤ cs) (c2 : cs ≤ ce)
    (c3 : ce < y0 + yearsOf N 12) (hsave : ∀ p ∈ monthlySpiFiles c.outputFileBase scales, c.args.saveParams ≠ some p.1) :
    ∃ res w', spiTool E toInt cpus lower yearOf (spiCommandLine j c) w = (.ended res, w') ∧
      (res = .ok () ↔ ∀ pre s post, scales = pre ++ s :: post → PearsonFine E cs ce y0 A B N mm (pre ++ [s]) s) ∧
      (res = .ok () → w'.written = w.written ++ monthlySpiFiles c.outputFileBase scales ++ (c.args.saveParams.map (fun f => (f, ""))).toList) ∧
      (∀ f, (∀ p ∈ monthlySpiFiles c.outputFileBase scales, f ≠ p.1) → c.args.saveParams ≠ some f → w'.files f = w.files f) ∧
      ∀ pre s post, scales = pre ++ s :: post → s ∉ post → (∀ pre' s' post', pre = pre' ++ s' :: post' → PearsonFine E cs ce y0 A B N mm (pre' ++ [s']) s') →
        SpiFileHolds w'.files (c.outputFileBase ++ "_spi_gamma_" ++ toString s ++ "_month.nc") ("spi_gamma_" ++ toString s ++ "_month") t lat lon A B N
          (fun i k out => (∀ v ∈ seriesAt B N i k mm, StepAmount v) → GammaIndex64 G Φ η δ (remaining64 (pre ++ [s]) (seriesAt B N i k mm)) s y0 cs ce out) := by
  have hpos : ∀ s ∈ scales.map Int.ofNat, 0 ≤ s := by
    intro s hs'
    obtain ⟨n, _, rfl⟩ := List.mem_map.1 hs'
    exact Int.natCast_nonneg n
  obtain ⟨res, w', good, rest, r1, r2, r3, r4, r5, r6, r7, r8⟩ :=
    C118_run E hE yearOf lower cs ce c.outputFileBase (numberOfWorkers c.multiprocessing cpus) hcpu c.args w h hs hpos
  have hlen : ∀ i < A, ∀ k < B, (seriesAt B N i k mm).length = N := by
    intro i hi k hk
    obtain ⟨u, hu, hcv⟩ := h.units
    exact seriesAt_len (.inl ⟨rfl, h.input.grid.2.1⟩ : IsLayout .grid x.shape A B N) (by rw [convert_length.1 hcv, h.input.grid.2.1]; simpa using h.input.grid.2.2) hi hk
  have hfile : ∀ p ∈ processingOrder (scales.map Int.ofNat), (fileName c.outputFileBase (spiName p.2 p.1 false), spiName p.2 p.1 false) ∈ monthlySpiFiles c.outputFileBase scales := by
    intro p hp
    rw [← order_files]
    exact List.mem_map.2 ⟨p, hp, rfl⟩
  -- where a run stops
  have hstop : ∀ sd post, rest = sd :: post → ∃ (before : List Nat) (s : Nat) (after : List Nat), scales = before ++ s :: after ∧ good = processingOrder (before.map Int.ofNat) ++ [((s : Int), .gamma)] ∧
      ¬ PearsonFine E cs ce y0 A B N mm (before ++ [s]) s := by
    rintro ⟨s, dist⟩ post e
    have hn := r4 _ _ e
    rw [e] at r2
    obtain ⟨before, after, e1, e2⟩ := order_split r2
    obtain ⟨before, l2, e0, rfl, h3⟩ := List.map_eq_append_iff.1 e1
    obtain ⟨s, after, rfl, rfl, rfl⟩ := List.map_eq_cons_iff.1 h3
    have hs' := hsc s (by rw [e0]; simp)
    rcases e2 with ⟨rfl, rfl⟩ | ⟨rfl, rfl⟩
    · exact absurd (feasible_gamma E cs ce y0 A B N mm hlen _ s hs'.1 hs'.2) hn
    · exact ⟨before, s, after, e0, rfl, fun q => hn ((feasible_pearson E cs ce y0 A B N mm before s).2 q)⟩
  refine ⟨res, w', ?_, ?_, ?_, ?_, ?_⟩
  · unfold spiTool
    rw [C105_spi toInt ht j c hc]
    simp only [hcs, hce, spiMain_both, r1]
  · rw [r5]
    constructor
    · rintro rfl pre s post e
      rw [List.append_nil] at r2
      refine (feasible_pearson E cs ce y0 A B N mm pre s).1 (r3 _ _ (processingOrder (post.map Int.ofNat)) ?_)
      rw [← r2, e, List.map_append, order_append]
      simp [processingOrder]
    · intro hall
      cases hr : rest with
      | nil => rfl
      | cons sd post =>
        obtain ⟨before, s, after, e1, _, e3⟩ := hstop sd post hr
        exact absurd (hall before s after e1) e3
  · intro hok
    have hr := r5.1 hok
    subst hr
    rw [List.append_nil] at r2
    subst r2
    rw [if_pos rfl, order_files] at r6
    exact r6
  · intro f hf hf'
    exact r8 f (fun sd hsd e => hf _ (hfile sd (by rw [r2]; simp [hsd])) e) (fun _ => hf')
  · intro pre s post e hlast hpre
    obtain ⟨n1, _, n3, _⟩ := spi_names c.outputFileBase s
    have hs' := hsc s (by rw [e]; simp)
    have hord : processingOrder (scales.map Int.ofNat) =
        processingOrder (pre.map Int.ofNat) ++ ((s : Int), .gamma) :: ((s : Int), .pearson) :: processingOrder (post.map Int.ofNat) := by
      rw [e, List.map_append, order_append]
      rfl
    have hlast' : ∀ dist, ((s : Int), dist) ∉ processingOrder (post.map Int.ofNat) := by
      intro dist hm
      obtain ⟨n, hn, hns⟩ := List.mem_map.1 (order_mem hm)
      have : n = s := Int.ofNat.inj hns
      exact hlast (this ▸ hn)
    -- the scale is reached
    obtain ⟨post2, hgood, hsub⟩ : ∃ post2, good = processingOrder (pre.map Int.ofNat) ++ ((s : Int), .gamma) :: post2 ∧
        ∀ p ∈ post2, p ∈ ((s : Int), Distribution.pearson) :: processingOrder (post.map Int.ofNat) := by
      have hlong : (processingOrder (pre.map Int.ofNat)).length < good.length := by
        by_contra hshort
        cases hr : rest with
        | nil =>
          have := congrArg List.length r2
          rw [hr, hord] at this
          simp only [List.length_append, List.length_cons, List.length_nil] at this
          omega
        | cons sd post2 =>
          obtain ⟨before, s', after, e1, e2, e3⟩ := hstop sd post2 hr
          rw [e2, List.length_append, order_len, order_len, List.length_map, List.length_map, List.length_singleton] at hshort
          have hlt : before.length < pre.length := by omega
          rw [e] at e1
          rcases List.append_eq_append_iff.1 e1 with ⟨a, h5, h6⟩ | ⟨a, h5, h6⟩
          · have := congrArg List.length h5
            rw [List.length_append] at this
            omega
          · cases a with
            | nil =>
              rw [List.append_nil] at h5
              rw [h5] at hlt
              omega
            | cons z a =>
              rw [List.cons_append] at h6
              obtain ⟨rfl, _⟩ := List.cons.inj h6
              exact e3 (hpre before s' a h5)
      rw [hord] at r2
      rcases List.append_eq_append_iff.1 r2 with ⟨a, h5, h6⟩ | ⟨a, h5, h6⟩
      · cases a with
        | nil => rw [h5] at hlong; simp at hlong
        | cons z a =>
          rw [List.cons_append] at h6
          obtain ⟨rfl, h7⟩ := List.cons.inj h6
          exact ⟨a, h5, fun p hp => by rw [h7]; simp [hp]⟩
      · rw [h5, List.length_append] at hlong
        omega
    obtain ⟨file, y, g1, g2, g3, g4, g5, g6, g7, g8, g9⟩ := r7 _ _ _ _ hgood (by
      intro hm
      rcases List.mem_cons.1 (hsub _ hm) with h' | h'
      · cases h'
      · exact hlast' _ h') (hsave _ (hfile ((s : Int), .gamma) (by rw [hord]; simp)))
    rw [n3] at g1
    rw [n1] at g5
    refine ⟨file, y, g1, g2, g3, g4, g5, g6, g7, g8, fun i hi k hk hx => ?_⟩
    have ho := g9 i hi k hk
    beta_reduce at ho
    have hone := order_one (pre.map Int.ofNat)
    rw [toolSeries_mem (done' := (pre ++ [s]).map Int.ofNat) (by simp only [List.map_append, List.mem_append, hone]; simp), toolSeries_64 _ _ hx] at ho
    have hl : (remaining64 (pre ++ [s]) (seriesAt B N i k mm)).length = N := by rw [remaining64_length, hlen i hi k hk]
    exact gamma_index64 E hE hA G Φ η δ hI _ s hs'.1 (by rw [hl]; exact hs'.2) y0 cs ce c1 c2 (by rw [hl]; exact c3) _ ho

/-! ## A run -/

def exGridFile : NcFile (B64 leftToRight) :=
  [("prcp", ⟨["lat", "lon", "time"], [1, 1, 60], some "mm", fiveRain64⟩), ("lat", ⟨["lat"], [1], some "degrees_north", [lit 45.5]⟩), ("lon", ⟨["lon"], [1], some "degrees_east", [lit 0]⟩), ("time", exTime 60)]

def exGridWorld : World (B64 leftToRight) := ⟨fun g => if g = "p.nc" then some exGridFile else none, fun _ => none, []⟩

theorem ex_spi_ready : SpiReady id monthYear (spiArgs [1] none none) exGridWorld exGridFile ⟨["lat", "lon", "time"], [1, 1, 60], some "mm", fiveRain64⟩ (exTime 60) ⟨["lat"], [1], some "degrees_north", [lit 45.5]⟩
    ⟨["lon"], [1], some "degrees_east", [lit 0]⟩ 1 1 60 fiveRain64 2000 where
  input := ⟨⟨"p.nc", rfl, rfl⟩, ⟨"prcp", rfl, rfl, by simp, rain_ne_fitting⟩, ⟨rfl, rfl, rfl⟩, ⟨rfl, rfl, by simp [exTime]⟩, ⟨rfl, rfl, rfl⟩, ⟨rfl, rfl, rfl⟩⟩
  places := by decide
  coords := by
    intro p hp
    simp only [exGridFile, List.mem_cons, List.not_mem_nil, or_false] at hp
    rcases hp with rfl | rfl | rfl | rfl <;> simp
  coordUnits := ⟨by simp, by simp⟩
  units := ⟨"mm", rfl, by unfold convertPrecip; rw [if_pos (by decide)]⟩
  first := ⟨lit ((0 : ℕ) : ℚ), rfl, by decide +kernel⟩
  monthly := rfl
  fresh := rfl
  load := rfl
  save := by intro f hf; cases hf

theorem five_amounts : ∀ v ∈ fiveRain64, StepAmount v := by
  have hall : fiveRain64.all (fun v => match ext v with
      | .fin q => (decide (q = 0) || decide (1 / 10 ^ 50 ≤ q)) && decide (q ≤ 10 ^ 50)
      | _ => false) = true := by
    decide +kernel
  intro v hv
  have h := List.all_eq_true.1 hall v hv
  split at h
  · rename_i q hq
    simp only [Bool.and_eq_true, Bool.or_eq_true, decide_eq_true_eq] at h
    exact Or.inr ⟨q, hq, h.1, h.2⟩
  · cases h

/-- what is left of a year with two dry months, after scale 1 and after scale 3 -/
example : ((remaining64 [3, 1] ([0, 5, 0, 1, 1, 1, 1, 1, 1, 1, 1, 1].map (fun q : ℚ => (lit q : B64 leftToRight)))).take 3).map ext = [.nan, .fin 5, .nan] ∧
    ((remaining64 [3] ([0, 5, 0, 1, 1, 1, 1, 1, 1, 1, 1, 1].map (fun q : ℚ => (lit q : B64 leftToRight)))).take 3).map ext = [.fin 0, .fin 5, .fin 0] := by
  decide +kernel

/-- C146 for the command line `--scales 1` and the five years of rain of C139: whether or not the Pearson index can be computed, the gamma file is there -/
example (toInt : String → Option Int) (ht : ∀ n : Int, toInt (toString n) = some n) :
    ∃ res w' file y, spiTool nearIndex toInt 1 id monthYear (spiCommandLine (fun _ => false) gaugeCommand) exGridWorld = (.ended res, w') ∧
      w'.files "out_spi_gamma_1_month.nc" = some file ∧ List.lookup "spi_gamma_1_month" file = some y ∧
      GammaIndex64 (fun v _ b => v / (v + b)) (fun p => 6 * p - 3) (1 / 2 ^ 50) (1 / 2 ^ 50) (remaining64 [1] fiveRain64) 1 2000 2000 2004 (seriesAt 1 60 0 0 y.data) := by
  obtain ⟨res, w', h1, _, _, _, h5⟩ := C146_spi nearIndex nearIndex_nan ⟨nearExt_accurate.log, nearExt_accurate.sqrt⟩ _ _ _ _ nearIndex_near toInt ht 1 id monthYear (fun _ => false) gaugeCommand gauge_writable
    2000 2004 rfl rfl (by decide) exGridWorld ex_spi_ready [1] rfl (by decide) le_rfl (by norm_num) (by norm_num [yearsOf]) (by intro p _ h'; cases h')
  obtain ⟨file, y, g1, _, _, _, g5, _, _, _, g9⟩ := h5 [] 1 [] rfl (by simp) (by
    intro pre' s' post' h'
    simp at h')
  exact ⟨res, w', file, y, h1, g1, g5, g9 0 (by decide) 0 (by decide) five_amounts⟩

end CI.Props
