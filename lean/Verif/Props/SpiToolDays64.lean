import Verif.Props.SpiDaily64
import Verif.Props.SpiTool64
import Verif.Props.SpiToolDays

/-!
# C149: the SPI tool on daily precipitation from the command line to the gamma files, in binary64 arithmetic

C127 does this in exact arithmetic, C146 for monthly data in float64, C148 for the main tool.
-/

namespace CI.Props

open CI FloatOps FloatLaws B64 Spec Spec.McKee

section
variable {F : Type} [FloatOps F] [FloatLaws F]

/-- at every place Pearson parameters can be fitted to what is left of the years of 366 days once the scales `done` were processed, and the index can be computed -/
def PearsonFineDays (E : Ext F) (cs ce y0 : Int) (Y A B N : Nat) (mm : List F) (done : List Nat) (s : Nat) : Prop :=
  ∀ i < A, ∀ k < B, (∃ fp, fittedParameters E .pearson (toolSeries .daily (done.map Int.ofNat) (place366 y0 Y (seriesAt B N i k mm))) s y0 cs ce .daily = .ok fp) ∧
    ∃ out, spi E (Arr.of1d (toolSeries .daily (done.map Int.ofNat) (place366 y0 Y (seriesAt B N i k mm)))) s .pearson y0 cs ce .daily none = .ok out

theorem spi_gamma_days_total (E : Ext F) (l : List F) (s : Int) (hs : 1 ≤ s) (ds cs ce : Int) : ∃ out, spi E (Arr.of1d l) s .gamma ds cs ce .daily none = .ok out := by
  by_cases hdata : ∃ v ∈ l, isNan v = false
  · obtain ⟨r, hr, _⟩ := C10_gamma E (Arr.of1d l) s ds cs ce .daily (Or.inl rfl) (by simp) hs hdata
    exact ⟨r, hr⟩
  · refine ⟨l, ?_⟩
    unfold spi
    rw [if_pos (show (Arr.of1d l).shape.length = 2 ∨ (Arr.of1d l).shape.length = 1 from Or.inr rfl), if_pos]
    · rfl
    · show allNan l = true
      unfold allNan
      rw [List.all_eq_true]
      intro v hv
      by_contra hc
      exact hdata ⟨v, hv, by simpa using hc⟩

theorem feasible_gamma_days (E : Ext F) (cs ce y0 : Int) (Y A B N : Nat) (mm : List F) (hlen : ∀ i < A, ∀ k < B, (seriesAt B N i k mm).length = yearsLen y0 Y) (done : List (Int × Distribution)) (s : Nat)
    (h1 : 1 ≤ s) (h2 : s ≤ Y * 366) : FeasibleDays E cs ce y0 Y A B N mm done ((s : Int), .gamma) := by
  intro i hi k hk
  refine ⟨fitted_gamma E _ s h1 ?_ y0 cs ce .daily (by decide), spi_gamma_days_total E _ s (by exact_mod_cast h1) y0 cs ce⟩
  rw [toolSeries_length, place366, days366_length _ _ _ (hlen i hi k hk)]
  exact h2

theorem feasible_pearson_days (E : Ext F) (cs ce y0 : Int) (Y A B N : Nat) (mm : List F) (before : List Nat) (s : Nat) :
    FeasibleDays E cs ce y0 Y A B N mm (processingOrder (before.map Int.ofNat) ++ [((s : Int), .gamma)]) ((s : Int), .pearson) ↔ PearsonFineDays E cs ce y0 Y A B N mm (before ++ [s]) s := by
  have hone := order_one (before.map Int.ofNat)
  unfold FeasibleDays PearsonFineDays
  refine forall_congr' fun i => forall_congr' fun _ => forall_congr' fun k => forall_congr' fun _ => ?_
  rw [toolSeries_mem (done := (processingOrder (before.map Int.ofNat) ++ [((s : Int), Distribution.gamma)]).map Prod.fst) (done' := (before ++ [s]).map Int.ofNat) (by
      simp only [List.map_append, List.mem_append, hone]; simp),
    toolSeries_mem (done := ((processingOrder (before.map Int.ofNat) ++ [((s : Int), Distribution.gamma)]) ++ [((s : Int), Distribution.pearson)]).map Prod.fst) (done' := (before ++ [s]).map Int.ofNat) (by
      simp only [List.map_append, List.mem_append, hone]; simp)]

end

variable {σ : SumOrder}

/-- the zeros of a record are missing -/
def withoutZeros (done : List ℕ) (x : List (B64 σ)) : List (B64 σ) := if 1 ∈ done then x.map (fun v => if ext v = .fin 0 then .nan else v) else x

theorem toolSeries_days64 (done : List ℕ) (x : List (B64 σ)) (hd : 366 ∣ x.length) (hx : ∀ v ∈ x, StepAmount v) : toolSeries .daily (done.map Int.ofNat) x = withoutZeros done x := by
  have h1 : (1 : Int) ∈ done.map Int.ofNat ↔ 1 ∈ done := by
    rw [List.mem_map]
    constructor
    · rintro ⟨n, hn, e⟩
      have : n = 1 := Int.ofNat.inj e
      rwa [this] at hn
    · exact fun h => ⟨1, h, rfl⟩
  have hz : ∀ v ∈ x, (if feq v (lit 0) then nan else v) = if ext v = .fin 0 then .nan else v := by
    intro v hv
    rcases hx v hv with rfl | ⟨q, hq, _, _⟩
    · split <;> split <;> rfl
    · rw [feq_ext hq ext_lit_zero, hq]
      by_cases h0 : q = 0
      · simp [h0]; rfl
      · simp [h0]
  have hmap : x.map (fun v => if feq v (lit 0) then nan else v) = x.map (fun v => if ext v = .fin 0 then .nan else v) := List.map_congr_left hz
  have hin : (∃ v ∈ x, v ≠ nan) → InPlace (Arr.of1d x) .daily := by
    intro hs
    refine ⟨rfl, hs, ?_, hd⟩
    rintro ⟨_, v, hv, hn⟩
    rcases hx v hv with rfl | ⟨q, hq, hlo, _⟩
    · have : flt (B64.nan : B64 σ) (lit 0) = false := flt_nan_left _
      rw [this] at hn
      cases hn
    · rw [flt_ext hq ext_lit_zero] at hn
      have h0 : 0 ≤ q := by
        rcases hlo with h | h
        · exact h.ge
        · exact le_trans (by positivity) h
      simp only [decide_eq_true_eq] at hn
      linarith
  unfold toolSeries withoutZeros
  by_cases h2 : 1 ∈ done
  · rw [if_pos h2]
    by_cases h3 : ∃ v ∈ x, v ≠ nan
    · rw [if_pos ⟨h1.2 h2, hin h3⟩, hmap]
    · rw [if_neg (fun q => h3 q.2.2.1)]
      conv_lhs => rw [← List.map_id x]
      apply List.map_congr_left
      intro v hv
      have : v = .nan := by
        by_contra hc
        exact h3 ⟨v, hv, hc⟩
      subst this
      split <;> rfl
  · rw [if_neg h2, if_neg]
    rintro ⟨k1, _⟩
    exact h2 (h1.1 k1)

theorem withoutZeros_step {done : List ℕ} {x : List (B64 σ)} (hx : ∀ v ∈ x, StepAmount v) : ∀ v ∈ withoutZeros done x, StepAmount v := by
  intro v hv
  unfold withoutZeros at hv
  split at hv
  · obtain ⟨u, hu, rfl⟩ := List.mem_map.1 hv
    split
    · exact .inl rfl
    · exact hx u hu
  · exact hx v hv

theorem withoutZeros_next {done : List ℕ} {ε : ℝ} (h1 : ε < 1) {x : List (B64 σ)} {p : List (Option ℝ)} (h : List.Forall₂ (NextTo ε) (x.map real64) p) :
    List.Forall₂ (NextTo ε) ((withoutZeros done x).map real64) (remainingDays done p) := by
  unfold withoutZeros remainingDays
  by_cases hd : 1 ∈ done
  · rw [if_pos hd, if_pos hd, List.map_map, List.forall₂_map_left_iff, List.forall₂_map_right_iff]
    rw [List.forall₂_map_left_iff] at h
    refine h.imp fun v o hvo => ?_
    rcases hvo with ⟨e1, rfl⟩ | ⟨u, a, e1, rfl, ha, hua⟩
    · left
      refine ⟨?_, by simp⟩
      simp only [Function.comp_apply]
      split
      · rfl
      · exact e1
    · have hz : ext v = .fin 0 ↔ u = 0 := by
        unfold real64 at e1
        cases hv : ext v with
        | fin q =>
          rw [hv] at e1
          have : (q : ℝ) = u := Option.some.inj e1
          rw [← this, Fl.fin.injEq]
          exact_mod_cast Iff.rfl
        | nan => rw [hv] at e1; cases e1
        | pinf => rw [hv] at e1; cases e1
        | ninf => rw [hv] at e1; cases e1
      have hua' := abs_le.1 hua
      have hua0 : u = 0 ↔ a = 0 := by
        constructor
        · rintro rfl
          nlinarith [hua'.1, hua'.2]
        · rintro rfl
          rw [zero_mul] at hua'
          linarith [hua'.1, hua'.2]
      simp only [Function.comp_apply, Option.some.injEq]
      by_cases ha0 : a = 0
      · rw [if_pos (hz.2 (hua0.2 ha0)), if_pos ha0]
        exact .inl ⟨rfl, rfl⟩
      · rw [if_neg (fun q => ha0 (hua0.1 (hz.1 q))), if_neg ha0]
        exact .inr ⟨u, a, e1, rfl, ha, hua⟩
  · rw [if_neg hd, if_neg hd]
    exact h

/-- the values `out` are the gamma SPI of the days of `x`, in years of 366 days; if scale 1 is among the processed scales `done`, days without precipitation count as missing -/
def ToolGamma64 (G : ℝ → ℝ → ℝ → ℝ) (Φ : ℝ → ℝ) (η δ : ℝ) (x : List (B64 σ)) (done : List ℕ) (k : ℕ) (ds : ℤ) (Y : ℕ) (cs ce : ℤ) (out : List (B64 σ)) : Prop :=
  (∀ v ∈ x, DayAmount v) → (∃ a, some a ∈ remainingDays done (days366 optMean ds Y (x.map real64))) → Y * 366 ≤ 2 ^ 40 →
    ∃ r : List (B64 σ), out = calendarDays ds Y r ∧ GammaDays64 G Φ η δ (remainingDays done (days366 optMean ds Y (x.map real64))) k ds Y cs ce r

theorem tool_gamma64 (E : Ext (B64 σ)) (hE : ExtNan E) (hA : Accurate E) (G : ℝ → ℝ → ℝ → ℝ) (Φ : ℝ → ℝ) (η δ : ℝ) (hI : IndexNear E G Φ η δ) (x : List (B64 σ)) (ds : ℤ) (Y : ℕ)
    (hl : x.length = yearsLen ds Y) (done : List ℕ) (k : ℕ) (h1 : 1 ≤ k) (h2 : k ≤ Y * 366) (cs ce : ℤ) (c1 : ds ≤ cs) (c2 : cs ≤ ce) (c3 : ce < ds + Y) (r : List (B64 σ))
    (ho : spi E (Arr.of1d (toolSeries .daily (done.map Int.ofNat) (place366 ds Y x))) k .gamma ds cs ce .daily none = .ok r) : ToolGamma64 G Φ η δ x done k ds Y cs ce (calendarDays ds Y r) := by
  intro hx hsome hxl
  have hlen : (place366 ds Y x).length = Y * 366 := days366_length x ds Y hl
  have hstep := day_step hx ds Y
  have hn := withoutZeros_next (done := done) (ε := 2 / 2 ^ 52) (by norm_num) (day_next hx ds Y)
  rw [toolSeries_days64 done _ (by rw [hlen]; exact ⟨Y, Nat.mul_comm _ _⟩) hstep] at ho
  refine ⟨r, rfl, gamma_days64 E hE hA G Φ η δ hI _ _ ds Y ?_ hxl (withoutZeros_step hstep) ?_ hn k h1 h2 cs ce c1 c2 c3 r ho⟩
  · rw [← hlen]
    unfold withoutZeros
    split <;> simp
  · obtain ⟨a, ha⟩ := hsome
    obtain ⟨i, hi, e⟩ := List.getElem_of_mem ha
    have hi' : i < ((withoutZeros done (place366 ds Y x)).map real64).length := by rw [hn.length_eq]; exact hi
    have := (List.forall₂_iff_get.1 hn).2 i hi' hi
    simp only [List.get_eq_getElem, e, List.getElem_map] at this
    rcases this with ⟨_, h⟩ | ⟨u, _, h, _⟩
    · cases h
    · rw [List.length_map] at hi'
      refine ⟨_, List.getElem_mem hi', ?_⟩
      cases hv : (withoutZeros done (place366 ds Y x))[i] with
      | nan => rw [hv] at h; cases h
      | _ => rfl

/-- **C149.** The documented command line of the SPI tool for daily precipitation of whole calendar years (any files, names, scales from 1 to the number of days in years of 366 days, calibration years inside
the record, numbers of workers, separate values or `=`), in IEEE float64 arithmetic. The tool ends without exception exactly if for every scale the Pearson index can be computed at every place from what is
left of the record; it has then written two files per scale, gamma before Pearson, and then the parameters if asked for. Other files are never changed. In any case, also when the tool fails later, the gamma
file of every scale that is reached holds at every place the gamma SPI of what is left of the record of that place, in the sense of `ToolGamma64`. -/
theorem C149_spi (E : Ext (B64 σ)) (hE : ExtNan E) (hA : Accurate E) (G : ℝ → ℝ → ℝ → ℝ) (Φ : ℝ → ℝ) (η δ : ℝ) (hI : IndexNear E G Φ η δ)
    (toInt : String → Option Int) (ht : ∀ n : Int, toInt (toString n) = some n) (cpus : Nat) (lower : String → String)
    (yearOf : B64 σ → Int) (j : String → Bool) (c : SpiCommand) (hc : SpiWritable j c) (cs ce : Int)
    (hcs : c.calibrationStart = some cs) (hce : c.calibrationEnd = some ce) (hcpu : 1 ≤ numberOfWorkers c.multiprocessing cpus) (w : World (B64 σ)) {d : NcFile (B64 σ)}
    {x t lat lon : NcVar (B64 σ)} {A B N Y : Nat} {mm : List (B64 σ)} {y0 : Int} (h : SpiDays lower yearOf c.args w d x t lat lon A B N mm y0 Y)
    (scales : List Nat) (hs : c.args.scales = some (scales.map Int.ofNat)) (hsc : ∀ s ∈ scales, 1 ≤ s ∧ s ≤ Y * 366) (c1 : y0 ≤ cs) (c2 : cs ≤ ce)
    (c3 : ce < y0 + Y) (hsave : ∀ p ∈ dailySpiFiles c.outputFileBase scales, c.args.saveParams ≠ some p.1) :
    ∃ res w', spiTool E toInt cpus lower yearOf (spiCommandLine j c) w = (.ended res, w') ∧
      (res = .ok () ↔ ∀ pre s post, scales = pre ++ s :: post → PearsonFineDays E cs ce y0 Y A B N mm (pre ++ [s]) s) ∧
      (res = .ok () → w'.written = w.written ++ dailySpiFiles c.outputFileBase scales ++ (c.args.saveParams.map (fun f => (f, ""))).toList) ∧
      (∀ f, (∀ p ∈ dailySpiFiles c.outputFileBase scales, f ≠ p.1) → c.args.saveParams ≠ some f → w'.files f = w.files f) ∧
      ∀ pre s post, scales = pre ++ s :: post → s ∉ post → (∀ pre' s' post', pre = pre' ++ s' :: post' → PearsonFineDays E cs ce y0 Y A B N mm (pre' ++ [s']) s') →
        SpiFileHolds w'.files (c.outputFileBase ++ "_spi_gamma_" ++ toString s ++ "_day.nc") ("spi_gamma_" ++ toString s ++ "_day") t lat lon A B N
          (fun i k out => ToolGamma64 G Φ η δ (seriesAt B N i k mm) (pre ++ [s]) s y0 Y cs ce out) := by
  have hpos : ∀ s ∈ scales.map Int.ofNat, 0 ≤ s := by
    intro s hs'
    obtain ⟨n, _, rfl⟩ := List.mem_map.1 hs'
    exact Int.natCast_nonneg n
  obtain ⟨res, w', good, rest, r1, r2, r3, r4, r5, r6, r7, r8⟩ :=
    C126_run E hE yearOf lower cs ce c.outputFileBase (numberOfWorkers c.multiprocessing cpus) hcpu c.args w h hs hpos
  have hlen : ∀ i < A, ∀ k < B, (seriesAt B N i k mm).length = yearsLen y0 Y := by
    intro i hi k hk
    obtain ⟨u, hu, hcv⟩ := h.units
    rw [← h.whole]
    exact seriesAt_len (.inl ⟨rfl, h.input.grid.2.1⟩ : IsLayout .grid x.shape A B N) (by rw [convert_length.1 hcv, h.input.grid.2.1]; simpa using h.input.grid.2.2) hi hk
  have hfile : ∀ p ∈ processingOrder (scales.map Int.ofNat), (fileName c.outputFileBase (spiName p.2 p.1 true), spiName p.2 p.1 true) ∈ dailySpiFiles c.outputFileBase scales := by
    intro p hp
    rw [← order_day_files]
    exact List.mem_map.2 ⟨p, hp, rfl⟩
  -- where a run stops
  have hstop : ∀ sd post, rest = sd :: post → ∃ (before : List Nat) (s : Nat) (after : List Nat), scales = before ++ s :: after ∧ good = processingOrder (before.map Int.ofNat) ++ [((s : Int), .gamma)] ∧
      ¬ PearsonFineDays E cs ce y0 Y A B N mm (before ++ [s]) s := by
    rintro ⟨s, dist⟩ post e
    have hn := r4 _ _ e
    rw [e] at r2
    obtain ⟨before, after, e1, e2⟩ := order_split r2
    obtain ⟨before, l2, e0, rfl, h3⟩ := List.map_eq_append_iff.1 e1
    obtain ⟨s, after, rfl, rfl, rfl⟩ := List.map_eq_cons_iff.1 h3
    have hs' := hsc s (by rw [e0]; simp)
    rcases e2 with ⟨rfl, rfl⟩ | ⟨rfl, rfl⟩
    · exact absurd (feasible_gamma_days E cs ce y0 Y A B N mm hlen _ s hs'.1 hs'.2) hn
    · exact ⟨before, s, after, e0, rfl, fun q => hn ((feasible_pearson_days E cs ce y0 Y A B N mm before s).2 q)⟩
  refine ⟨res, w', ?_, ?_, ?_, ?_, ?_⟩
  · unfold spiTool
    rw [C105_spi toInt ht j c hc]
    simp only [hcs, hce, spiMain_both, r1]
  · rw [r5]
    constructor
    · rintro rfl pre s post e
      rw [List.append_nil] at r2
      refine (feasible_pearson_days E cs ce y0 Y A B N mm pre s).1 (r3 _ _ (processingOrder (post.map Int.ofNat)) ?_)
      rw [← r2, e, List.map_append, order_append]
      simp [processingOrder]
    · intro hall
      cases hr : rest with
      | nil => rfl
      | cons sd post =>
        obtain ⟨before, s, after, e1, _, e3⟩ := hstop sd post hr
        exact absurd (hall before s after e1) e3
  · intro hok
    have hr := r5.1 hok
    subst hr
    rw [List.append_nil] at r2
    subst r2
    rw [if_pos rfl, order_day_files] at r6
    exact r6
  · intro f hf hf'
    exact r8 f (fun sd hsd e => hf _ (hfile sd (by rw [r2]; simp [hsd])) e) (fun _ => hf')
  · intro pre s post e hlast hpre
    obtain ⟨n1, _, n3, _⟩ := spi_day_names c.outputFileBase s
    have hs' := hsc s (by rw [e]; simp)
    have hord : processingOrder (scales.map Int.ofNat) =
        processingOrder (pre.map Int.ofNat) ++ ((s : Int), .gamma) :: ((s : Int), .pearson) :: processingOrder (post.map Int.ofNat) := by
      rw [e, List.map_append, order_append]
      rfl
    have hlast' : ∀ dist, ((s : Int), dist) ∉ processingOrder (post.map Int.ofNat) := by
      intro dist hm
      obtain ⟨n, hn, hns⟩ := List.mem_map.1 (order_mem hm)
      have : n = s := Int.ofNat.inj hns
      exact hlast (this ▸ hn)
    -- the scale is reached
    obtain ⟨post2, hgood, hsub⟩ : ∃ post2, good = processingOrder (pre.map Int.ofNat) ++ ((s : Int), .gamma) :: post2 ∧
        ∀ p ∈ post2, p ∈ ((s : Int), Distribution.pearson) :: processingOrder (post.map Int.ofNat) := by
      have hlong : (processingOrder (pre.map Int.ofNat)).length < good.length := by
        by_contra hshort
        cases hr : rest with
        | nil =>
          have := congrArg List.length r2
          rw [hr, hord] at this
          simp only [List.length_append, List.length_cons, List.length_nil] at this
          omega
        | cons sd post2 =>
          obtain ⟨before, s', after, e1, e2, e3⟩ := hstop sd post2 hr
          rw [e2, List.length_append, order_len, order_len, List.length_map, List.length_map, List.length_singleton] at hshort
          have hlt : before.length < pre.length := by omega
          rw [e] at e1
          rcases List.append_eq_append_iff.1 e1 with ⟨a, h5, h6⟩ | ⟨a, h5, h6⟩
          · have := congrArg List.length h5
            rw [List.length_append] at this
            omega
          · cases a with
            | nil =>
              rw [List.append_nil] at h5
              rw [h5] at hlt
              omega
            | cons z a =>
              rw [List.cons_append] at h6
              obtain ⟨rfl, _⟩ := List.cons.inj h6
              exact e3 (hpre before s' a h5)
      rw [hord] at r2
      rcases List.append_eq_append_iff.1 r2 with ⟨a, h5, h6⟩ | ⟨a, h5, h6⟩
      · cases a with
        | nil => rw [h5] at hlong; simp at hlong
        | cons z a =>
          rw [List.cons_append] at h6
          obtain ⟨rfl, h7⟩ := List.cons.inj h6
          exact ⟨a, h5, fun p hp => by rw [h7]; simp [hp]⟩
      · rw [h5, List.length_append] at hlong
        omega
    obtain ⟨file, y, g1, g2, g3, g4, g5, g6, g7, g8, g9⟩ := r7 _ _ _ _ hgood (by
      intro hm
      rcases List.mem_cons.1 (hsub _ hm) with h' | h'
      · cases h'
      · exact hlast' _ h') (hsave _ (hfile ((s : Int), .gamma) (by rw [hord]; simp)))
    rw [n3] at g1
    rw [n1] at g5
    refine ⟨file, y, g1, g2, g3, g4, g5, g6, g7, g8, fun i hi k hk => ?_⟩
    have ho := g9 i hi k hk
    beta_reduce at ho ⊢
    have hone := order_one (pre.map Int.ofNat)
    unfold toolDays at ho
    rw [toolSeries_mem (done' := (pre ++ [s]).map Int.ofNat) (by simp only [List.map_append, List.mem_append, hone]; simp)] at ho
    obtain ⟨r, q1, q2⟩ := Res.bind_ok ho
    have he := Except.ok.inj q2
    rw [← he]
    exact tool_gamma64 E hE hA G Φ η δ hI _ y0 Y (hlen i hi k hk) (pre ++ [s]) s hs'.1 hs'.2 cs ce c1 c2 c3 r q1

/-! ## A run -/

def exPlotVar : NcVar (B64 leftToRight) := ⟨["lat", "lon", "time"], [1, 1, 1827], some "mm", fiveDaily64⟩

def exPlotFile : NcFile (B64 leftToRight) :=
  [("prcp", exPlotVar), ("lat", ⟨["lat"], [1], some "degrees_north", [lit 45.5]⟩), ("lon", ⟨["lon"], [1], some "degrees_east", [lit 0]⟩), ("time", exTime 1827)]

def exPlotWorld : World (B64 leftToRight) := ⟨fun g => if g = "p.nc" then some exPlotFile else none, fun _ => none, []⟩

theorem ex_plot_days : SpiDays id dayYear64 (dayArgs [1]) exPlotWorld exPlotFile exPlotVar (exTime 1827) ⟨["lat"], [1], some "degrees_north", [lit 45.5]⟩
    ⟨["lon"], [1], some "degrees_east", [lit 0]⟩ 1 1 1827 fiveDaily64 2000 5 where
  input := ⟨⟨"p.nc", rfl, rfl⟩, ⟨"prcp", rfl, rfl, by simp, rain_ne_fitting⟩, ⟨rfl, rfl, by simp [exPlotVar, fiveDaily64_length]⟩, ⟨rfl, rfl, by simp [exTime]⟩, ⟨rfl, rfl, rfl⟩, ⟨rfl, rfl, rfl⟩⟩
  places := by decide
  coords := by
    intro p hp
    simp only [exPlotFile, List.mem_cons, List.not_mem_nil, or_false] at hp
    rcases hp with rfl | rfl | rfl | rfl <;> simp [exPlotVar]
  coordUnits := ⟨by simp, by simp⟩
  units := ⟨"mm", rfl, by unfold convertPrecip; rw [if_pos (by decide)]; rfl⟩
  first := ⟨lit ((0 : ℕ) : ℚ), by simp [exTime, List.head?_range], by decide +kernel⟩
  last := ⟨lit ((1826 : ℕ) : ℚ), by simp [exTime, List.getLast?_range], by decide +kernel⟩
  years := by decide
  whole := by decide
  dates := by decide
  daily := rfl
  fresh := rfl
  load := rfl
  save := by intro f hf; cases hf

theorem five_days_amounts : ∀ v ∈ fiveDaily64, DayAmount v := by
  have hall : [(0 : ℚ), 0.1, 0.2, 0.3, 0.4, 0.8].all (fun a => match ext (lit a : B64 leftToRight) with
      | .fin q => (decide (q = 0) || decide (4 / 10 ^ 50 ≤ q)) && decide (q ≤ 10 ^ 50 / 4)
      | _ => false) = true := by
    decide +kernel
  intro v hv
  obtain ⟨a, ha, rfl⟩ : ∃ a ∈ [(0 : ℚ), 0.1, 0.2, 0.3, 0.4, 0.8], v = lit a := by
    simp only [fiveDaily64, List.mem_append, List.mem_replicate, List.mem_cons, List.not_mem_nil, or_false] at hv
    rcases hv with ((((((h | h) | h) | ((h | h) | h)) | ((h | h) | h)) | ((h | h) | h)) | ((h | h) | h))
    all_goals first
      | exact ⟨_, by simp, h.2⟩
      | exact ⟨_, by simp, h⟩
  have h := List.all_eq_true.1 hall a ha
  split at h
  · rename_i q hq
    simp only [Bool.and_eq_true, Bool.or_eq_true, decide_eq_true_eq] at h
    exact Or.inr ⟨q, hq, h.1, h.2⟩
  · cases h

/-- something is left of that record after scale 1 -/
theorem five_days_left : ∃ a, some a ∈ remainingDays [1] (days366 optMean 2000 5 (fiveDaily64.map real64)) := by
  have hm : (lit 0.3 : B64 leftToRight) ∈ fiveDaily64 := by
    simp only [fiveDaily64, List.mem_append, List.mem_cons, true_or, or_true]
  have hq : ∃ q : ℚ, ext (lit 0.3 : B64 leftToRight) = .fin q ∧ q ≠ 0 := by
    have : (match ext (lit 0.3 : B64 leftToRight) with
      | .fin q => decide (q ≠ 0)
      | _ => false) = true := by decide +kernel
    split at this
    · rename_i q hq
      exact ⟨q, hq, of_decide_eq_true this⟩
    · cases this
  obtain ⟨q, hq, h0⟩ := hq
  have hr : real64 (lit 0.3 : B64 leftToRight) = some (q : ℝ) := by unfold real64; rw [hq]
  have := days366_mem optMean 5 2000 (fiveDaily64.map real64) (by rw [List.length_map, fiveDaily64_length]; decide) (some (q : ℝ)) (by rw [← hr]; exact List.mem_map_of_mem hm)
  refine ⟨q, ?_⟩
  unfold remainingDays
  rw [if_pos (by simp), List.mem_map]
  exact ⟨_, this, by rw [if_neg]; simpa using h0⟩

/-- C149 for the command line `--periodicity daily --scales 1` and the five years of daily rain of C147: whether or not the Pearson index can be computed, the gamma file is there -/
example (toInt : String → Option Int) (ht : ∀ n : Int, toInt (toString n) = some n) :
    ∃ res w' file y r, spiTool nearIndex toInt 1 id dayYear64 (spiCommandLine (fun _ => false) plotCommand) exPlotWorld = (.ended res, w') ∧
      w'.files "out_spi_gamma_1_day.nc" = some file ∧ List.lookup "spi_gamma_1_day" file = some y ∧ seriesAt 1 1827 0 0 y.data = calendarDays 2000 5 r ∧
      GammaDays64 (fun v _ b => v / (v + b)) (fun p => 6 * p - 3) (1 / 2 ^ 50) (1 / 2 ^ 50) (remainingDays [1] (days366 optMean 2000 5 (fiveDaily64.map real64))) 1 2000 5 2000 2004 r := by
  have hser : seriesAt 1 1827 0 0 fiveDaily64 = fiveDaily64 := by
    show (fiveDaily64.drop 0).take 1827 = _
    rw [List.drop_zero, List.take_of_length_le fiveDaily64_length.le]
  obtain ⟨res, w', h1, _, _, _, h5⟩ := C149_spi nearIndex nearIndex_nan ⟨nearExt_accurate.log, nearExt_accurate.sqrt⟩ _ _ _ _ nearIndex_near toInt ht 1 id dayYear64 (fun _ => false) plotCommand plot_writable
    2000 2004 rfl rfl (by decide) exPlotWorld ex_plot_days [1] rfl (by decide) le_rfl (by norm_num) (by norm_num) (by intro p _ h'; cases h')
  obtain ⟨file, y, g1, _, _, _, g5, _, _, _, g9⟩ := h5 [] 1 [] rfl (by simp) (by
    intro pre' s' post' h'
    simp at h')
  have hg := g9 0 (by decide) 0 (by decide)
  beta_reduce at hg
  rw [hser] at hg
  obtain ⟨r, r1, r2⟩ := hg five_days_amounts five_days_left (by norm_num)
  exact ⟨res, w', file, y, r, h1, g1, g5, r1, r2⟩

end CI.Props
