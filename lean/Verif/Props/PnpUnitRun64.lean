import Verif.Props.EndToEnd64
import Verif.Props.PnpUnit64

/-!
# C145: from a file in any unit to the percentage of normal, in binary64 arithmetic

C139 compares the file with the converted data. Here it is compared with the data as they stand in the input file.
-/

namespace CI.Props

open CI FloatOps FloatLaws B64 Spec Spec.McKee

variable {σ : SumOrder}

/-- the values `out` are the exact percentage of normal of the amounts `raw` up to `3 (s + 2) + 2 Y + 3` units 2^-52 (`Y`: number of calibration years), missing where that is; for amounts that are missing,
zero, or between 10^-100 and 10^98 -/
def FileRatio64 (raw : List (B64 σ)) (s : ℕ) (y0 cs ce : ℤ) (out : List (B64 σ)) : Prop :=
  (∀ v ∈ raw, v = .nan ∨ ∃ q, ext v = .fin q ∧ (q = 0 ∨ 1 / 10 ^ 100 ≤ q) ∧ q ≤ 10 ^ 98) → s ≤ 2 ^ 40 → ce - cs + 1 ≤ 2 ^ 40 →
    ∃ exact, percentageOfNormal (raw.map ext) (some s) y0 cs ce .monthly = .ok exact ∧ out.length = exact.length ∧
      ∀ (t : ℕ) (a : B64 σ) (b : Fl ℚ), out[t]? = some a → exact[t]? = some b → Agree (3 * (s + 2) + 2 * (ce - cs + 1).toNat + 3) a b

theorem unit_known {u : String} {x mm : List (B64 σ)} (h : convertPrecip u x = .ok mm) : ∃ k, (u, k) ∈ precipUnits := by
  unfold convertPrecip at h
  split at h
  · rename_i hu
    refine ⟨1, ?_⟩
    simp only [List.mem_cons, List.not_mem_nil, or_false] at hu
    rcases hu with rfl | rfl | rfl | rfl <;> simp [precipUnits, lengthUnits]
  · split at h
    · rename_i hu
      refine ⟨25.4, ?_⟩
      simp only [List.mem_cons, List.not_mem_nil, or_false] at hu
      rcases hu with rfl | rfl <;> simp [precipUnits, lengthUnits]
    · cases h

theorem convert_series {u : String} {x mm : List (B64 σ)} (h : convertPrecip u x = .ok mm) (b n i k : ℕ) : convertPrecip u (seriesAt b n i k x) = .ok (seriesAt b n i k mm) := by
  unfold convertPrecip at h ⊢
  split at h
  · rename_i hu
    rw [if_pos hu]
    cases h
    rfl
  · rename_i hu
    rw [if_neg hu]
    split at h
    · rename_i hu'
      rw [if_pos hu']
      cases h
      rw [seriesAt_toFl]
    · cases h

open Classical in
/-- **C145, runs.** The documented command line for the percentage of normal, for a file of monthly precipitation in any of the accepted units, in IEEE float64 arithmetic: the tool ends without exception,
writes one file per scale, changes no other file, and at every place the values are the percentage of normal of the amounts in the input file in the sense of `FileRatio64`, in which the unit does not occur. -/
theorem C145_run (E : Ext (B64 σ)) (hE : ExtNan E) (T : Trig (B64 σ)) (toInt : String → Option Int) (ht : ∀ n : Int, toInt (toString n) = some n) (cpus : Nat) (lower : String → String)
    (yearOf : B64 σ → Int) (cmp : CoordCmp (B64 σ)) (j : String → Bool) (c : MainCommand) (hc : Writable j c) (hi : c.args.index = "pnp") (cs ce : Int)
    (hcs : c.calibrationStart = some cs) (hce : c.calibrationEnd = some ce) (hcpu : 1 ≤ numberOfWorkers c.multiprocessing cpus) (w : World (B64 σ)) {f v : String} {d : NcFile (B64 σ)} {x : NcVar (B64 σ)}
    {A b n : Nat} {mm : List (B64 σ)} {y0 y1 : Int} (hM : Monthly lower yearOf c.args w f v d x A b n mm y0 y1) (hfresh : w.shared "result_array" = none)
    (scales : List Nat) (hs : c.args.scales = some (scales.map Int.ofNat)) (hsc : ∀ s ∈ scales, 1 ≤ s ∧ s ≤ n) (c1 : y0 ≤ cs) (c2 : cs ≤ ce) (c4 : (ce - cs + 1) * 12 ≤ n) :
    ∃ w', mainTool E T toInt cpus lower yearOf cmp (commandLine j c) w = (.ended (.ok ()), w') ∧
      w'.written = w.written ++ entries c.args.outputFileBase (pnpOutputs scales) ∧
      (∀ g, (∀ o ∈ pnpOutputs scales, g ≠ fileName c.args.outputFileBase o.name) → w'.files g = w.files g) ∧
      ∀ s ∈ scales, FileHolds w'.files (c.args.outputFileBase ++ "_" ++ ("pnp_" ++ twoDigits s) ++ ".nc") ("pnp_" ++ twoDigits s) d x A b n
          (fun i k out => FileRatio64 (seriesAt b n i k x.data) s y0 cs ce out) := by
  have hdoc : documented c.args.index false scales = pnpOutputs scales := by rw [hi]; rfl
  have hmo : ∀ o, o ∈ pnpOutputs scales ↔ ∃ s ∈ scales, o = .pnp s := by
    intro o
    simp [pnpOutputs, eq_comm]
  have hlen : ∀ i < A, ∀ k < b, (seriesAt b n i k mm).length = n := by
    intro i hi' k hk
    obtain ⟨u, hu, hcv⟩ := hM.units
    obtain ⟨it, hl⟩ : ∃ it, IsLayout it x.shape A b n := by
      rcases hM.layout with ⟨_, h⟩ | ⟨_, h, hb⟩
      · exact ⟨.grid, .inl ⟨rfl, h⟩⟩
      · exact ⟨.divisions, .inr ⟨rfl, h, hb⟩⟩
    exact seriesAt_len hl (by rw [convert_length.1 hcv]; exact hM.input.wf) hi' hk
  have hall : ∀ o ∈ pnpOutputs scales, Computable E cs ce y0 mm A b n o := by
    intro o ho i hi' k hk
    obtain ⟨s, hs', rfl⟩ := (hmo o).1 ho
    have hl := hlen i hi' k hk
    exact (resultFor_pnp E _ s y0 cs ce).2 ⟨c1, by rw [hl]; exact c4, .inr (by rw [hl]; exact hsc s hs')⟩
  rw [C106_given E T toInt cpus lower yearOf cmp (commandLine j c) w c (C105_main toInt ht j c hc) cs ce hcs hce]
  obtain ⟨res, w', h1, h2, h3, h4, h5⟩ := C113_run E hE T cs ce _ hcpu lower yearOf cmp c.args w (.inr hi) hM hfresh scales hs
  rw [hdoc] at h2 h3 h4 h5
  have htake : (pnpOutputs scales).takeWhile (fun o => decide (Computable E cs ce y0 mm A b n o)) = pnpOutputs scales := by
    rw [List.takeWhile_eq_self_iff]
    intro o ho
    exact decide_eq_true (hall o ho)
  rw [htake] at h3 h4 h5
  rw [h1]
  refine ⟨w', by rw [h2.2 hall], h3, h5, fun s hs' => ?_⟩
  obtain ⟨file, y, g1, g2, ⟨g3, g4⟩, ⟨g5, _⟩, g6⟩ := h4 (.pnp s) ((hmo _).2 ⟨s, hs', rfl⟩)
  have hn : (Output.pnp s).name = "pnp_" ++ twoDigits s := rfl
  rw [hn] at g1 g2
  refine ⟨file, y, g1, g2, g3, g5, g4, fun i hi' k hk => ?_⟩
  have hl := hlen i hi' k hk
  have hr := g6 i hi' k hk
  intro hx hk40 hY
  obtain ⟨u, _, hcv⟩ := hM.units
  obtain ⟨kk, hkk⟩ := unit_known hcv
  have hcs' := convert_series hcv b n i k
  have hlx : (seriesAt b n i k x.data).length = n := (convert_length.1 hcs').symm.trans hl
  obtain ⟨m1, o1, o2, p0, p1, p2, p3, p4⟩ := C145_pnp (lower u) kk hkk (seriesAt b n i k x.data) hx s (hsc s hs').1 hk40 (by
      intro h
      rw [h, List.length_nil] at hlx
      have := hsc s hs'
      omega) .monthly (by simp) y0 cs ce c1 c2 (by rw [hlx]; exact c4) hY
  rw [hcs'] at p0
  cases p0
  refine ⟨o2, p2, ?_⟩
  unfold resultFor at hr
  simp only [bind, Except.bind] at hr
  rw [p1] at hr
  simp only at hr
  split at hr
  · cases hr
    exact ⟨p3, p4⟩
  · cases hr

/-- the five years of rain of C139, given in inches -/
def exInchFile : NcFile (B64 leftToRight) :=
  [("prcp", ⟨["lat", "lon", "time"], [1, 1, 60], some "Inches", fiveRain64⟩), ("lat", ⟨["lat"], [1], none, [lit 45.5]⟩), ("lon", ⟨["lon"], [1], none, [lit 0]⟩), ("time", exTime 60)]

def exInchWorld : World (B64 leftToRight) := ⟨fun g => if g = "p.nc" then some exInchFile else none, fun _ => none, []⟩

theorem ex_inch : Monthly String.toLower monthYear (demoArgs "pnp" [1]) exInchWorld "p.nc" "prcp" exInchFile ⟨["lat", "lon", "time"], [1, 1, 60], some "Inches", fiveRain64⟩ 1 1 60
    (fiveRain64.map fun v => v * lit 25.4) 2000 2004 := by
  refine ⟨⟨rfl, rfl, rfl, rfl, rfl, by decide, demo_notOutput _ (by decide)⟩, .inl ⟨rfl, rfl⟩, by decide, ?_, ?_, ⟨exTime 60, lit ((0 : ℕ) : ℚ), lit ((59 : ℕ) : ℚ), rfl, rfl, rfl, ?_, ?_⟩, ⟨"Inches", rfl, ?_⟩, rfl⟩
  · intro c hc
    rcases (show c = "lat" ∨ c = "lon" ∨ c = "time" by simpa using hc) with rfl | rfl | rfl
    · exact ⟨_, rfl⟩
    · exact ⟨_, rfl⟩
    · exact ⟨_, rfl⟩
  · intro h
    exact absurd h (by simp)
  · decide +kernel
  · decide +kernel
  · have : String.toLower "Inches" = "inches" := by decide +kernel
    rw [this]
    unfold convertPrecip
    rw [if_neg (by decide), if_pos (by decide)]

/-- C145 for this file -/
example (T : Trig (B64 leftToRight)) (cmp : CoordCmp (B64 leftToRight)) (toInt : String → Option Int) (ht : ∀ n : Int, toInt (toString n) = some n) :
    ∃ w' file y, mainTool nearIndex T toInt 1 String.toLower monthYear cmp (commandLine (fun _ => false) (soloCommand "pnp")) exInchWorld = (.ended (.ok ()), w') ∧
      w'.files "out_pnp_01.nc" = some file ∧ ("pnp_01", y) ∈ file ∧ FileRatio64 fiveRain64 1 2000 2000 2004 (seriesAt 1 60 0 0 y.data) := by
  have hser : seriesAt 1 60 0 0 fiveRain64 = fiveRain64 := rfl
  obtain ⟨w', h1, _, _, h4⟩ := C145_run nearIndex nearIndex_nan T toInt ht 1 String.toLower monthYear cmp (fun _ => false) (soloCommand "pnp") (solo_writable (by decide)) rfl
    2000 2004 rfl rfl (by decide) exInchWorld ex_inch rfl [1] rfl (by decide) le_rfl (by norm_num) (by norm_num)
  obtain ⟨file, y, g1, g2, _, _, _, g6⟩ := h4 1 (by decide)
  have hn : "pnp_" ++ twoDigits 1 = "pnp_01" := by decide +kernel
  rw [hn] at g1 g2
  have := g6 0 (by decide) 0 (by decide)
  beta_reduce at this
  rw [hser] at this
  exact ⟨w', file, y, h1, g1, g2, this⟩

/-- its amounts are in the range -/
example : fiveRain64.all (fun v => match ext v with
      | .fin q => (decide (q = 0) || decide (1 / 10 ^ 100 ≤ q)) && decide (q ≤ 10 ^ 98)
      | _ => isNan v) = true := by
  decide +kernel

end CI.Props
