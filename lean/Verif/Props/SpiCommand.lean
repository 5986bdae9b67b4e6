import Verif.Props.SpiToolLive
import Verif.Props.SpiToolYears
import Verif.Props.EndToEnd
import Verif.Props.CliOptions
import Verif.Model.SpiCommand

/-!
# C119: the SPI tool from the command line to the files; C120: the two tools compared
-/

namespace CI.Props
open CI Spec Spec.McKee

section
variable {F : Type} [FloatOps F]

theorem fitStage_both (E : Ext F) (j : SpiJob) (u : String) (ds scale : Int) (dist : Distribution) (sh : Dict (Arr F)) :
    fitStageOpt E (some j.calStart) (some j.calEnd) j u ds scale dist sh = fitStage E j u ds scale dist sh := by
  unfold fitStageOpt fitStage
  rfl

theorem spiPair_both (E : Ext F) (j : SpiJob) (u : String) (ds : Int) (d : NcFile F) (sd : Int × Distribution) :
    spiPairOpt E (some j.calStart) (some j.calEnd) j u ds d sd = spiPair E j u ds d sd := by
  funext w
  unfold spiPairOpt spiPair spiComputeOpt spiCompute spiFitOpt spiFit
  simp only [fitStage_both]
  rfl

theorem spiScales_both (E : Ext F) (j : SpiJob) (u : String) (ds : Int) (d : NcFile F) : ∀ (l : List Int) (fitting : NcFile F),
    spiScalesOpt E (some j.calStart) (some j.calEnd) j u ds d l fitting = spiScales E j u ds d l fitting
  | [], _ => rfl
  | s :: rest, fitting => by
    unfold spiScalesOpt spiScales
    simp only [spiPair_both, spiScales_both E j u ds d rest]

/-- with both years given -/
theorem spiMain_both (E : Ext F) (yearOf : F → Int) (lower : String → String) (cs ce : Int) (base : String) (wk : Nat) (a : SpiArgs) (w : World F) :
    spiMainOpt E yearOf lower (some cs) (some ce) base wk a w = spiMain E yearOf lower cs ce base wk a w := by
  have h : ∀ it f, spiComputeWriteOpt E (some cs) (some ce) yearOf lower (spiJob a it f cs ce base wk) = spiComputeWrite E yearOf lower (spiJob a it f cs ce base wk) := by
    intro it f
    funext w
    unfold spiComputeWriteOpt spiComputeWrite
    have := fun u ds d l g => spiScales_both E (spiJob a it f cs ce base wk) u ds d l g
    simp only [show (spiJob a it f cs ce base wk).calStart = cs from rfl, show (spiJob a it f cs ce base wk).calEnd = ce from rfl] at this
    simp only [this]
    rfl
  unfold spiMainOpt spiMain
  simp only [Option.getD_some, h]

end

/-- the file is there, with the coordinates of the input and the variable on `A` × `B` places with `N` time steps, whose values at every place satisfy `P` -/
def SpiFileHolds {F : Type} (fs : Files F) (file name : String) (t lat lon : NcVar F) (A B N : Nat) (P : Nat → Nat → List F → Prop) : Prop :=
  ∃ g y, fs file = some g ∧ List.lookup "lat" g = some lat ∧ List.lookup "lon" g = some lon ∧ List.lookup "time" g = some t ∧ List.lookup name g = some y ∧
    y.dims = ["lat", "lon", "time"] ∧ y.shape = [A, B, N] ∧ y.data.length = A * (B * N) ∧ ∀ i < A, ∀ k < B, P i k (seriesAt B N i k y.data)

/-- the two files of a scale, in the order in which they are written -/
def monthlySpiFiles (base : String) (scales : List ℕ) : List (String × String) :=
  scales.flatMap (fun s => [(base ++ "_spi_gamma_" ++ toString s ++ "_month.nc", "spi_gamma_" ++ toString s ++ "_month"),
    (base ++ "_spi_pearson_" ++ toString s ++ "_month.nc", "spi_pearson_" ++ toString s ++ "_month")])

theorem spi_names (base : String) (s : ℕ) :
    spiName .gamma (s : Int) false = "spi_gamma_" ++ toString s ++ "_month" ∧ spiName .pearson (s : Int) false = "spi_pearson_" ++ toString s ++ "_month" ∧
      fileName base (spiName .gamma (s : Int) false) = base ++ "_spi_gamma_" ++ toString s ++ "_month.nc" ∧
      fileName base (spiName .pearson (s : Int) false) = base ++ "_spi_pearson_" ++ toString s ++ "_month.nc" := by
  have e : toString (s : Int) = toString s := rfl
  refine ⟨?_, ?_, ?_, ?_⟩ <;> simp only [fileName, spiName, distName, e, Bool.false_eq_true, if_false] <;> apply String.toList_inj.1 <;> simp [String.toList_append]

theorem order_mem {l : List Int} {p : Int × Distribution} (h : p ∈ processingOrder l) : p.1 ∈ l := by
  induction l with
  | nil => simp [processingOrder] at h
  | cons s l ih =>
    simp only [processingOrder, List.mem_cons] at h ⊢
    rcases h with rfl | rfl | h
    · exact .inl rfl
    · exact .inl rfl
    · exact .inr (ih h)

theorem order_files (base : String) (scales : List ℕ) :
    (processingOrder (scales.map Int.ofNat)).map (fun sd => (fileName base (spiName sd.2 sd.1 false), spiName sd.2 sd.1 false)) = monthlySpiFiles base scales := by
  induction scales with
  | nil => rfl
  | cons s l ih =>
    obtain ⟨e1, e2, e3, e4⟩ := spi_names base s
    simp only [List.map_cons, processingOrder, ih, monthlySpiFiles, List.flatMap_cons, List.cons_append, List.nil_append]
    rw [show Int.ofNat s = (s : Int) from rfl, e3, e4, e1, e2]

/-- **C119.** The documented command line of the SPI tool for monthly precipitation (any files, names, scales, calibration years inside the record, numbers of workers, separate values or `=`), in
exact arithmetic, for precipitation that is not negative and, for every scale, has a Pearson fit at all places and months in the record that remains when its turn comes (else no run
finishes, C118): the tool ends without exception, writes exactly two files per scale, gamma before Pearson, in the order of the scales, and then the fitting parameters if asked for; it changes
no other file. The values of the file of a scale are, at every place, the published index of the precipitation of that place in millimetres; once scale 1 was processed, months without
precipitation count as missing if the record is of whole years. -/
theorem C119_spi (E : Ext (Fl ℝ)) (hE : ExtNan E) (hR : ExtReal E) (G : ℝ → ℝ → ℝ → ℝ) (P : ℝ → ℝ → ℝ → ℝ → ℝ) (Φ : ℝ → ℝ)
    (hG : ∀ v a b, 0 < v → 0 < a → 0 < b → E.gammaCdf (.fin v) (.fin a) (.fin b) = .fin (G v a b) ∧ 0 < G v a b ∧ G v a b < 1)
    (hP : ∀ v sk loc sc, 0 < v → 0 < sc → Pearson3.Inside loc sc sk v →
      E.pearson3Cdf (.fin v) (.fin sk) (.fin loc) (.fin sc) = .fin (P v sk loc sc) ∧ 0 < P v sk loc sc ∧ P v sk loc sc < 1)
    (hΦ : ∀ q, 0 < q → q < 1 → E.normPpf (.fin q) = .fin (Φ q))
    (toInt : String → Option Int) (ht : ∀ n : Int, toInt (toString n) = some n) (cpus : Nat) (lower : String → String)
    (yearOf : Fl ℝ → Int) (j : String → Bool) (c : SpiCommand) (hc : SpiWritable j c) (cs ce : Int)
    (hcs : c.calibrationStart = some cs) (hce : c.calibrationEnd = some ce) (hcpu : 1 ≤ numberOfWorkers c.multiprocessing cpus) (w : World (Fl ℝ)) {d : NcFile (Fl ℝ)}
    {x t lat lon : NcVar (Fl ℝ)} {A B N : Nat} {vals : List (Option ℝ)} {y0 : Int} (h : SpiReady lower yearOf c.args w d x t lat lon A B N (vals.map toFl) y0)
    (hnn : ∀ u, some u ∈ vals → 0 ≤ u) (scales : List Nat) (hs : c.args.scales = some (scales.map Int.ofNat)) (hsc : ∀ s ∈ scales, 1 ≤ s ∧ s ≤ N) (c1 : y0 ≤ cs) (c2 : cs ≤ ce)
    (c3 : ce < y0 + yearsOf N 12) (hsave : ∀ p ∈ monthlySpiFiles c.outputFileBase scales, c.args.saveParams ≠ some p.1)
    (hfit : ∀ pre s post, scales = pre ++ s :: post → ∀ i < A, ∀ k < B, ∀ m < 12, ¬ Unfit (remaining (pre ++ [s]) (seriesAt B N i k vals)) s m y0 cs ce) :
    ∃ w', spiTool E toInt cpus lower yearOf (spiCommandLine j c) w = (.ended (.ok ()), w') ∧
      w'.written = w.written ++ monthlySpiFiles c.outputFileBase scales ++ (c.args.saveParams.map (fun f => (f, ""))).toList ∧
      (∀ f, (∀ p ∈ monthlySpiFiles c.outputFileBase scales, f ≠ p.1) → c.args.saveParams ≠ some f → w'.files f = w.files f) ∧
      ∀ pre s post, scales = pre ++ s :: post → s ∉ post →
        SpiFileHolds w'.files (c.outputFileBase ++ "_spi_gamma_" ++ toString s ++ "_month.nc") ("spi_gamma_" ++ toString s ++ "_month") t lat lon A B N
          (fun i k out => GammaIndex G Φ (remaining (pre ++ [s]) (seriesAt B N i k vals)) s y0 cs ce out) ∧
        SpiFileHolds w'.files (c.outputFileBase ++ "_spi_pearson_" ++ toString s ++ "_month.nc") ("spi_pearson_" ++ toString s ++ "_month") t lat lon A B N
          (fun i k out => PearsonIndex P Φ (remaining (pre ++ [s]) (seriesAt B N i k vals)) s y0 cs ce out) := by
  have hpos : ∀ s ∈ scales.map Int.ofNat, 0 ≤ s := by
    intro s hs'
    obtain ⟨n, _, rfl⟩ := List.mem_map.1 hs'
    exact Int.natCast_nonneg n
  obtain ⟨res, w', good, rest, r1, r2, _, _, r5, r6, r7, r8⟩ :=
    C118_run E hE yearOf lower cs ce c.outputFileBase (numberOfWorkers c.multiprocessing cpus) hcpu c.args w h hs hpos
  have hfin : res = .ok () := by
    obtain ⟨w'', hw⟩ := (C118_exact E hE hR yearOf lower cs ce c.outputFileBase (numberOfWorkers c.multiprocessing cpus) hcpu c.args w h hnn scales hs hsc c1 c2 c3).2 hfit
    rw [r1] at hw
    exact (Prod.ext_iff.1 hw).1
  have hrest := r5.1 hfin
  subst hfin hrest
  rw [List.append_nil] at r2
  subst r2
  rw [if_pos rfl, order_files] at r6
  have hfile : ∀ p ∈ processingOrder (scales.map Int.ofNat), (fileName c.outputFileBase (spiName p.2 p.1 false), spiName p.2 p.1 false) ∈ monthlySpiFiles c.outputFileBase scales := by
    intro p hp
    rw [← order_files]
    exact List.mem_map.2 ⟨p, hp, rfl⟩
  have hmem : ∀ i k u, some u ∈ seriesAt B N i k vals → 0 ≤ u := fun i k u hu => hnn u (List.mem_of_mem_drop (List.mem_of_mem_take hu))
  have hlen : ∀ i < A, ∀ k < B, (seriesAt B N i k vals).length = N := by
    intro i hi k hk
    obtain ⟨u, hu, hc⟩ := h.units
    have := seriesAt_len (.inl ⟨rfl, h.input.grid.2.1⟩ : IsLayout .grid x.shape A B N) (by rw [convert_length.1 hc, h.input.grid.2.1]; simpa using h.input.grid.2.2) hi hk
    rw [seriesAt_toFl, List.length_map] at this
    exact this
  refine ⟨w', ?_, r6, ?_, ?_⟩
  · unfold spiTool
    rw [C105_spi toInt ht j c hc]
    simp only [hcs, hce, spiMain_both, r1]
  · intro f hf hf'
    exact r8 f (fun sd hsd e => hf _ (hfile sd hsd) e) (fun _ => hf')
  · intro pre s post e hlast
    obtain ⟨n1, n2, n3, n4⟩ := spi_names c.outputFileBase s
    have hs' := hsc s (by rw [e]; simp)
    have hord : processingOrder (scales.map Int.ofNat) =
        processingOrder (pre.map Int.ofNat) ++ ((s : Int), .gamma) :: ((s : Int), .pearson) :: processingOrder (post.map Int.ofNat) := by
      rw [e, List.map_append, order_append]
      rfl
    have hlast' : ∀ dist, ((s : Int), dist) ∉ processingOrder (post.map Int.ofNat) := by
      intro dist hm
      obtain ⟨n, hn, hns⟩ := List.mem_map.1 (order_mem hm)
      have : n = s := Int.ofNat.inj hns
      exact hlast (this ▸ hn)
    have key : ∀ (dist : Distribution) (pre' : List (Int × Distribution)), (1 ∈ pre'.map Prod.fst ++ [(s : Int)] ↔ (1 : Int) ∈ (pre ++ [s]).map Int.ofNat) → ∀ i < A, ∀ k < B, ∀ out,
        spi E (Arr.of1d (toolSeries .monthly (pre'.map Prod.fst ++ [(s : Int)]) (seriesAt B N i k (vals.map toFl)))) s dist y0 cs ce .monthly none = .ok out →
        spi E (Arr.of1d ((remaining (pre ++ [s]) (seriesAt B N i k vals)).map toFl)) s dist y0 cs ce .monthly none = .ok out := by
      intro dist pre' hone i hi k hk out ho
      rw [toolSeries_mem (done' := (pre ++ [s]).map Int.ofNat) hone, seriesAt_toFl, toolSeries_toFl _ _ (hmem i k)] at ho
      exact ho
    have hone := order_one (pre.map Int.ofNat)
    constructor
    · obtain ⟨file, y, g1, g2, g3, g4, g5, g6, g7, g8, g9⟩ := r7 _ _ _ _ hord (by
        rw [List.mem_cons, not_or]
        exact ⟨by simp, hlast' _⟩) (hsave _ (hfile ((s : Int), .gamma) (by rw [hord]; simp)))
      rw [n3] at g1
      rw [n1] at g5
      refine ⟨file, y, g1, g2, g3, g4, g5, g6, g7, g8, fun i hi k hk => ?_⟩
      have hl : (remaining (pre ++ [s]) (seriesAt B N i k vals)).length = N := by rw [remaining_length, hlen i hi k hk]
      exact gammaIndex_of E hE hR G Φ hG hΦ _ (remaining_nonneg (hmem i k)) s hs'.1 (by rw [hl]; exact hs'.2) y0 cs ce c1 c2 (by rw [hl]; exact c3) _
        (key .gamma _ (by simp only [List.map_append, List.mem_append, hone]; simp) i hi k hk _ (g9 i hi k hk))
    · obtain ⟨file, y, g1, g2, g3, g4, g5, g6, g7, g8, g9⟩ := r7 (processingOrder (pre.map Int.ofNat) ++ [((s : Int), .gamma)]) _ _ _ (by rw [hord]; simp) (hlast' .pearson)
        (hsave _ (hfile ((s : Int), .pearson) (by rw [hord]; simp)))
      rw [n4] at g1
      rw [n2] at g5
      refine ⟨file, y, g1, g2, g3, g4, g5, g6, g7, g8, fun i hi k hk => ?_⟩
      have hl : (remaining (pre ++ [s]) (seriesAt B N i k vals)).length = N := by rw [remaining_length, hlen i hi k hk]
      exact pearsonIndex_of E hE hR P Φ hP hΦ _ (remaining_nonneg (hmem i k)) s hs'.1 (by rw [hl]; exact hs'.2) y0 cs ce c1 c2 (by rw [hl]; exact c3) _
        (key .pearson _ (by simp only [List.map_append, List.mem_append, hone]; simp) i hi k hk _ (g9 i hi k hk))

/-! ## The two tools -/

section
variable {F : Type} [FloatOps F] [FloatLaws F]

open Classical in
/-- **C120, agreement.** In every arithmetic: if the main tool (SPI) and the SPI tool finish on the same monthly grid with the same calibration years, then for a scale and distribution that both
compute, their files hold the same values at every place, bit by bit, whose record has no month without precipitation - and at all places if the SPI tool got no scale 1 before or at this scale. -/
theorem C120_agree (E : Ext F) (hE : ExtNan E) (T : Trig F) (cs ce : Int) (wk wk' : Nat) (hwk : 1 ≤ wk) (hwk' : 1 ≤ wk') (lower : String → String) (yearOf : F → Int) (cmp : CoordCmp F)
    (a : CliArgs) (w : World F) (hi : a.index = "spi") {f v : String} {d : NcFile F} {x t lat lon : NcVar F} {A B N : Nat} {mm : List F} {y0 y1 : Int}
    (hM : Monthly lower yearOf a w f v d x A B N mm y0 y1) (hfresh : w.shared "result_array" = none) (scales : List Nat) (hs : a.scales = some (scales.map Int.ofNat))
    (a' : SpiArgs) (base : String) (w' : World F) (h : SpiReady lower yearOf a' w' d x t lat lon A B N mm y0) (scales' : List Nat) (hs' : a'.scales = some (scales'.map Int.ofNat))
    {u u' : World F} (hr : processIndices (indexFunction E T cs ce) wk lower yearOf cmp a w = (.ok (), u)) (hr' : spiMain E yearOf lower cs ce base wk' a' w' = (.ok (), u'))
    (s : Nat) (hm : s ∈ scales) (pre post : List Nat) (hm' : scales' = pre ++ s :: post) (hlast : s ∉ post) (dist : Distribution) (hd : dist = .gamma ∨ dist = .pearson)
    (hsave : a'.saveParams ≠ some (fileName base (spiName dist s false))) :
    ∃ file y file' y', u.files (fileName a.outputFileBase (Output.spi dist s).name) = some file ∧ ((Output.spi dist s).name, y) ∈ file ∧
      u'.files (fileName base (spiName dist s false)) = some file' ∧ List.lookup (spiName dist s false) file' = some y' ∧
      ∀ i < A, ∀ k < B, 1 ∉ pre ++ [s] ∨ (∀ z ∈ seriesAt B N i k mm, feq z (lit 0) = false) → seriesAt B N i k y.data = seriesAt B N i k y'.data := by
  -- the main tool
  obtain ⟨res, u1, m1, m2, m3, m4, _⟩ := C113_run E hE T cs ce wk hwk lower yearOf cmp a w (.inl hi) hM hfresh scales hs
  rw [hr] at m1
  obtain ⟨rfl, rfl⟩ := Prod.mk.inj m1
  have hall := m2.1 rfl
  have hdoc : Output.spi dist s ∈ documented a.index false scales := by
    rw [hi]
    show _ ∈ spiOutputs scales
    unfold spiOutputs
    rw [List.mem_flatMap]
    exact ⟨s, hm, by rcases hd with rfl | rfl <;> simp⟩
  have htake : (documented a.index false scales).takeWhile (fun o => decide (Computable E cs ce y0 mm A B N o)) = documented a.index false scales := by
    rw [List.takeWhile_eq_self_iff]
    intro o ho
    exact @decide_eq_true _ (Classical.propDecidable _) (hall o ho)
  rw [htake] at m4
  obtain ⟨file, y, e1, e2, _, _, e3⟩ := m4 _ hdoc
  -- the SPI tool
  obtain ⟨res, u2, good, rest, r1, r2, _, _, r5, _, r7, _⟩ := C118_run E hE yearOf lower cs ce base wk' hwk' a' w' h hs' (by
    intro n hn
    obtain ⟨n, _, rfl⟩ := List.mem_map.1 hn
    exact Int.natCast_nonneg n)
  rw [hr'] at r1
  obtain ⟨rfl, rfl⟩ := Prod.mk.inj r1
  have hrest := r5.1 rfl
  subst hrest
  rw [List.append_nil] at r2
  subst r2
  have hord : processingOrder (scales'.map Int.ofNat) =
      processingOrder (pre.map Int.ofNat) ++ ((s : Int), .gamma) :: ((s : Int), .pearson) :: processingOrder (post.map Int.ofNat) := by
    rw [hm', List.map_append, order_append]
    rfl
  have hlast' : ∀ dist, ((s : Int), dist) ∉ processingOrder (post.map Int.ofNat) := by
    intro dist hm
    obtain ⟨n, hn, hns⟩ := List.mem_map.1 (order_mem hm)
    have : n = s := Int.ofNat.inj hns
    exact hlast (this ▸ hn)
  have hone := order_one (pre.map Int.ofNat)
  have hmem1 : (1 : Int) ∈ (pre ++ [s]).map Int.ofNat ↔ 1 ∈ pre ++ [s] := by
    rw [List.mem_map]
    constructor
    · rintro ⟨n, hn, e⟩
      have : n = 1 := Int.ofNat.inj e
      rwa [this] at hn
    · exact fun h => ⟨1, h, rfl⟩
  have hsplit : ∃ pre' post', processingOrder (scales'.map Int.ofNat) = pre' ++ ((s : Int), dist) :: post' ∧ ((s : Int), dist) ∉ post' ∧
      (1 ∈ pre'.map Prod.fst ++ [(s : Int)] ↔ 1 ∈ pre ++ [s]) := by
    rcases hd with rfl | rfl
    · refine ⟨_, _, hord, by rw [List.mem_cons, not_or]; exact ⟨by simp, hlast' _⟩, ?_⟩
      rw [← hmem1]
      simp only [List.map_append, List.mem_append, hone]
      simp
    · refine ⟨processingOrder (pre.map Int.ofNat) ++ [((s : Int), .gamma)], _, by rw [hord]; simp, hlast' _, ?_⟩
      rw [← hmem1]
      simp only [List.map_append, List.mem_append, hone]
      simp
  obtain ⟨pre', post', p1, p2, p3⟩ := hsplit
  obtain ⟨file', y', g1, _, _, _, g5, _, _, _, g9⟩ := r7 pre' (s : Int) dist post' p1 p2 hsave
  refine ⟨file, y, file', y', e1, e2, g1, g5, fun i hi k hk hz => ?_⟩
  have q1 := e3 i hi k hk
  have q2 := g9 i hi k hk
  have hsame : toolSeries .monthly (pre'.map Prod.fst ++ [(s : Int)]) (seriesAt B N i k mm) = seriesAt B N i k mm := by
    unfold toolSeries
    split
    next hc =>
      rcases hz with hz | hz
      · exact absurd (p3.1 hc.1) hz
      · conv_rhs => rw [← List.map_id (seriesAt B N i k mm)]
        apply List.map_congr_left
        intro z hzm
        rw [hz z hzm]
        rfl
    · rfl
  beta_reduce at q2
  rw [hsame] at q2
  have q1 : spi E (Arr.of1d (seriesAt B N i k mm)) s dist y0 cs ce .monthly none = .ok (seriesAt B N i k y.data) := q1
  rw [q1] at q2
  injection q2

end

/-! ## A concrete run: one place with 0, 1, 2, 4 and 8 mm in every month of the years 2000 to 2004 -/

/-- with the quantile function `q - 1/2` -/
noncomputable def unitExt : Ext (Fl ℝ) := { realExt with
  normPpf := fun q => match q with
    | .fin q => .fin (q - 1 / 2)
    | _ => .nan }

theorem unitExt_nan : ExtNan unitExt where
  log_nan := rfl
  gammaCdf_nan := by intro a s; rfl
  gammaCdf_nan_shape := realExt_nan.gammaCdf_nan_shape
  pearson3Cdf_nan := realExt_nan.pearson3Cdf_nan
  normPpf_nan := rfl

noncomputable def gaugeLat : NcVar (Fl ℝ) := ⟨["lat"], [1], some "degrees_north", [.fin 40]⟩
noncomputable def gaugeLon : NcVar (Fl ℝ) := ⟨["lon"], [1], some "degrees_east", [.fin 0]⟩
noncomputable def gaugeTime : NcVar (Fl ℝ) := ⟨["time"], [60], none, (List.range 60).map (fun i : ℕ => .fin (i : ℝ))⟩
noncomputable def gaugeFile : NcFile (Fl ℝ) := [("prcp", soloVar), ("lat", gaugeLat), ("lon", gaugeLon), ("time", gaugeTime)]
noncomputable def gaugeWorld : World (Fl ℝ) := ⟨fun g => if g = "p.nc" then some gaugeFile else none, fun _ => none, []⟩

theorem gauge_ready (scales : List Int) : SpiReady id pairYear (spiArgs scales none none) gaugeWorld gaugeFile soloVar gaugeTime gaugeLat gaugeLon 1 1 60 (steps5.map toFl) 2000 where
  input := ⟨⟨"p.nc", rfl, rfl⟩, ⟨"prcp", rfl, rfl, by simp, rain_ne_fitting⟩, ⟨rfl, rfl, by simp [soloVar, steps5_length]⟩, ⟨rfl, rfl, by simp [gaugeTime]⟩, ⟨rfl, rfl, rfl⟩, ⟨rfl, rfl, rfl⟩⟩
  places := by decide
  coords := by
    intro p hp
    simp only [gaugeFile, List.mem_cons, List.not_mem_nil, or_false] at hp
    rcases hp with rfl | rfl | rfl | rfl <;> simp [soloVar]
  coordUnits := ⟨by simp [gaugeLat], by simp [gaugeLon]⟩
  units := ⟨"mm", rfl, by unfold convertPrecip; rw [if_pos (by decide)]; rfl⟩
  first := ⟨.fin ((0 : ℕ) : ℝ), rfl, by simp [pairYear]⟩
  monthly := rfl
  fresh := rfl
  load := rfl
  save := by intro f hf; cases hf

theorem gauge_monthly : Monthly id pairYear (demoArgs "spi" [1]) gaugeWorld "p.nc" "prcp" gaugeFile soloVar 1 1 60 (steps5.map toFl) 2000 2004 := by
  refine ⟨⟨rfl, rfl, rfl, rfl, ?_, by decide, demo_notOutput _ (by decide)⟩, .inl ⟨rfl, rfl⟩, by decide, ?_, ?_, ⟨_, .fin ((0 : ℕ) : ℝ), .fin ((59 : ℕ) : ℝ), rfl, rfl, rfl, ?_, ?_⟩, ⟨"mm", rfl, ?_⟩, rfl⟩
  · simp [soloVar, steps5]
  · intro c hc
    rcases (show c = "lat" ∨ c = "lon" ∨ c = "time" by simpa [soloVar] using hc) with rfl | rfl | rfl
    · exact ⟨_, rfl⟩
    · exact ⟨_, rfl⟩
    · exact ⟨_, rfl⟩
  · intro h
    exact absurd h (by simp [soloVar])
  · simp [pairYear]
  · show 2000 + ⌊((59 : ℕ) : ℝ) / 12⌋ = 2004
    have : ⌊((59 : ℕ) : ℝ) / 12⌋ = 4 := by
      rw [Int.floor_eq_iff]
      norm_num
    rw [this]
    norm_num
  · unfold convertPrecip
    rw [if_pos (by decide)]
    rfl

theorem unitExt_real : ExtReal unitExt where
  log_pos := realExt_real.log_pos
  sqrt_nonneg := realExt_real.sqrt_nonneg
  exp_fin := realExt_real.exp_fin
  lgamma_pos := realExt_real.lgamma_pos
  pi_eq := rfl
  gammaCdf_scale := realExt_real.gammaCdf_scale
  gammaCdf_nan_scale := realExt_real.gammaCdf_nan_scale

theorem unitExt_P (v sk loc sc : ℝ) (hv : 0 < v) (_ : 0 < sc) (_ : Pearson3.Inside loc sc sk v) :
    unitExt.pearson3Cdf (.fin v) (.fin sk) (.fin loc) (.fin sc) = .fin (v / (v + 1)) ∧ 0 < v / (v + 1) ∧ v / (v + 1) < 1 := by
  refine ⟨?_, by positivity, by rw [div_lt_one (by linarith)]; linarith⟩
  show (if v ≤ 0 then Fl.fin 0 else Fl.fin (v / (v + 1))) = _
  rw [if_neg (by linarith)]

/-- the command of the SPI tool for that place -/
def gaugeCommand : SpiCommand := ⟨spiArgs [1] none none, "out", some 2000, some 2004, .single⟩

theorem gauge_writable : SpiWritable (fun _ => false) gaugeCommand := by
  refine ⟨⟨rfl, rfl⟩, (by decide : Periodicity.monthly ≠ .other), ?_⟩
  intro p hp _ t ht
  simp only [gaugeCommand, spiArgs, List.mem_cons, List.not_mem_nil, or_false] at hp
  rcases hp with rfl | rfl | rfl | rfl | rfl <;> cases ht <;> exact .inl (by decide)

example : spiCommandLine (fun _ => false) gaugeCommand =
    ["--periodicity", "monthly", "--scales", "1", "--calibration_start_year", "2000", "--calibration_end_year", "2004", "--netcdf_precip", "p.nc", "--var_name_precip", "prcp",
      "--output_file_base", "out", "--multiprocessing", "single"] := by decide +kernel

theorem accum_gauge (t : ℕ) (ht : t < 60) : accum (remaining [1] steps5) 1 t = if t < 12 then none else some (2 ^ (t / 12 - 1) : ℝ) := by
  have hr : remaining [1] steps5 = (List.range 60).map (fun i : ℕ => if i < 12 then none else some (2 ^ (i / 12 - 1) : ℝ)) := by
    unfold remaining
    rw [if_pos ⟨by simp, by rw [steps5_length]; norm_num⟩]
    unfold steps5
    rw [List.map_map]
    apply List.map_congr_left
    intro i _
    by_cases hi : i < 12
    · simp [hi]
    · simp [hi]
  have hl : (remaining [1] steps5).length = 60 := by rw [remaining_length, steps5_length]
  unfold accum
  have hg : (remaining [1] steps5)[t]'(by omega) = if t < 12 then none else some (2 ^ (t / 12 - 1) : ℝ) := by simp [hr]
  have hd : ((remaining [1] steps5).drop (t + 1 - 1)).take 1 = [if t < 12 then none else some (2 ^ (t / 12 - 1) : ℝ)] := by
    rw [Nat.add_sub_cancel, List.drop_eq_getElem_cons (by omega), hg]; rfl
  simp only [hd]
  by_cases h : t < 12
  · simp [h]
  · simp [h, hl, ht]

/-- the estimates are positive -/
theorem thom_pos (q : List ℝ) (hpos : ∀ a ∈ q, 0 < a) {a b : ℝ} (ha : a ∈ q) (hb : b ∈ q) (hab : a ≠ b) : 0 < shape q ∧ 0 < scale q := by
  have hq0 : q ≠ [] := List.ne_nil_of_mem ha
  have hgap := logGap_nonneg q hpos hq0
  have hne : logGap q ≠ 0 := fun h => hab (hgap.2.1 h a ha b hb)
  have hgp : 0 < logGap q := lt_of_le_of_ne hgap.1 (Ne.symm hne)
  have hsh : shape q = thomAlpha q := by
    show 1 / (4 * logGap q) * (1 + Real.sqrt (1 + 4 * logGap q / 3)) = _
    unfold thomAlpha
    rw [one_div, inv_mul_eq_div]
  have hal : 0 < thomAlpha q := by unfold thomAlpha; positivity
  refine ⟨by rw [hsh]; exact hal, ?_⟩
  unfold scale
  rw [hsh]
  exact div_pos (mean_pos q hpos hq0) hal

theorem sample_gauge (c : ℕ) (hc : c < 12) : sample (remaining [1] steps5) 1 12 c 0 5 = [1, 2, 4, 8] := by
  unfold sample
  rw [show List.range 5 = [0, 1, 2, 3, 4] from rfl]
  simp only [List.filterMap_cons, List.filterMap_nil]
  rw [accum_gauge _ (by omega), accum_gauge _ (by omega), accum_gauge _ (by omega), accum_gauge _ (by omega), accum_gauge _ (by omega)]
  have d : ∀ y, ((0 + y) * 12 + c) / 12 = y := by omega
  simp only [d]
  have e : ∀ y, (0 + y) * 12 + c < 12 ↔ y = 0 := by omega
  simp only [e]
  norm_num

/-- **C120 fails in general.** The same place, the same years, scale 1: in January 2003 the SPI tool reports less than the main tool, because it counts the year without precipitation as
missing (probability of zero 0) and the main tool does not (1/5). -/
theorem C120_fails (T : Trig (Fl ℝ)) (cmp : CoordCmp (Fl ℝ)) (toInt : String → Option Int) (ht : ∀ n : Int, toInt (toString n) = some n) :
    ∃ w1 w2 f1 y1 f2 y2 z1 z2, mainTool unitExt T toInt 1 id pairYear cmp (commandLine (fun _ => false) (soloCommand "spi")) gaugeWorld = (.ended (.ok ()), w1) ∧
      spiTool unitExt toInt 1 id pairYear (spiCommandLine (fun _ => false) gaugeCommand) gaugeWorld = (.ended (.ok ()), w2) ∧
      w1.files "out_spi_gamma_01.nc" = some f1 ∧ ("spi_gamma_01", y1) ∈ f1 ∧ w2.files "out_spi_gamma_1_month.nc" = some f2 ∧ List.lookup "spi_gamma_1_month" f2 = some y2 ∧
      y1.data[36]? = some (.fin z1) ∧ y2.data[36]? = some (.fin z2) ∧ z2 < z1 := by
  have e2 : ((2000 : ℤ) - 2000).toNat = 0 := rfl
  have e3 : ((2004 : ℤ) - 2000 + 1).toNat = 5 := rfl
  have e5 : 36 % 12 = 0 := rfl
  obtain ⟨w1, a1, _, _, a4⟩ := C114_spi unitExt unitExt_nan unitExt_real (fun v a b => gammaP a (v / b)) (fun v _ _ _ => v / (v + 1)) (fun q => q - 1 / 2) realExt_G unitExt_P
    (fun q _ _ => rfl) T toInt ht 1 id pairYear cmp (fun _ => false) (soloCommand "spi") (solo_writable (by decide)) rfl 2000 2004 rfl rfl (by decide) gaugeWorld gauge_monthly rfl steps5_nonneg
    [1] rfl (by decide) le_rfl (by norm_num) (by norm_num [yearsOf]) (by
      intro s hs i hi k hk m hm
      obtain rfl : s = 1 := by simpa using hs
      obtain rfl : i = 0 := by omega
      obtain rfl : k = 0 := by omega
      rw [solo_series]
      exact solo_fit m hm)
  obtain ⟨w2, b1, _, _, b4⟩ := C119_spi unitExt unitExt_nan unitExt_real (fun v a b => gammaP a (v / b)) (fun v _ _ _ => v / (v + 1)) (fun q => q - 1 / 2) realExt_G unitExt_P
    (fun q _ _ => rfl) toInt ht 1 id pairYear (fun _ => false) gaugeCommand gauge_writable 2000 2004 rfl rfl (by decide) gaugeWorld (gauge_ready [1]) steps5_nonneg [1] rfl (by decide) le_rfl
    (by norm_num) (by norm_num [yearsOf]) (by intro p _ h; cases h) (by
      intro pre s post e i hi k hk m hm
      obtain rfl : i = 0 := by omega
      obtain rfl : k = 0 := by omega
      rw [solo_series]
      match pre, e with
      | [], e =>
        simp only [List.nil_append, List.cons.injEq] at e
        rw [← e.1]
        rintro ⟨_, h⟩
        rw [e2, e3, List.nil_append, sample_gauge m hm] at h
        exact not_allButOne (u := 1) (v := 2) (z := 4) (by simp) (by simp) (by simp) (by norm_num) (by norm_num) (by norm_num) h
      | y :: pre, e => simp at e)
  obtain ⟨⟨f1, y1, g1, g2, _, _, _, g6⟩, _⟩ := a4 1 (by decide)
  have hn : "spi_gamma_" ++ twoDigits 1 = "spi_gamma_01" := by decide +kernel
  rw [hn] at g1 g2
  obtain ⟨⟨f2, y2, k1, _, _, _, k5, _, _, _, k9⟩, _⟩ := b4 [] 1 [] rfl (by simp)
  have hg := g6 0 (by decide) 0 (by decide)
  have hk := k9 0 (by decide) 0 (by decide)
  beta_reduce at hg hk
  rw [solo_series] at hg hk
  rw [List.nil_append] at hk
  have hser : ∀ y : NcVar (Fl ℝ), seriesAt 1 60 0 0 y.data = y.data.take 60 := fun _ => rfl
  have e4 : yearsOf steps5.length 12 = 5 := by rw [steps5_length]; norm_num [yearsOf]
  have e4' : yearsOf (remaining [1] steps5).length 12 = 5 := by rw [remaining_length, e4]
  have hv := (hg.2 36 (by rw [steps5_length]; norm_num)).2.2 4 (by rw [accum_steps5 36 (by omega)]; norm_num) (by norm_num)
  have hv' := (hk.2 36 (by rw [remaining_length, steps5_length]; norm_num)).2.2 4 (by rw [accum_gauge 36 (by omega)]; norm_num) (by norm_num)
  rw [e2, e3, e4, e5, sample_steps5 0 (by omega)] at hv
  rw [e2, e3, e4', e5, sample_gauge 0 (by omega)] at hv'
  have hwet : wet [1, 2, 4, 8] = [1, 2, 4, 8] := by unfold wet; norm_num
  simp only [wet_steps5] at hv
  simp only [hwet] at hv'
  have hv := hv ⟨1, by simp, 2, by simp, by norm_num⟩
  have hv' := hv' ⟨1, by simp, 2, by simp, by norm_num⟩
  rw [hser, List.getElem?_take_of_lt (by omega)] at hv hv'
  have hd : dry [0, 1, 2, 4, 8] = 1 := by unfold dry; norm_num
  have hd' : dry [1, 2, 4, 8] = 0 := by unfold dry; norm_num
  refine ⟨w1, w2, f1, y1, f2, y2, _, _, a1, b1, g1, g2, k1, k5, hv, hv', ?_⟩
  rw [hd, hd']
  unfold index
  rw [wet_steps5, hwet]
  obtain ⟨t1, t2⟩ := thom_pos [1, 2, 4, 8] (by
    intro a ha
    simp only [List.mem_cons, List.not_mem_nil, or_false] at ha
    rcases ha with rfl | rfl | rfl | rfl <;> norm_num) (a := 1) (b := 2) (by simp) (by simp) (by norm_num)
  obtain ⟨_, p0, p1⟩ := realExt_G 4 (shape [1, 2, 4, 8]) (scale [1, 2, 4, 8]) (by norm_num) t1 t2
  beta_reduce
  generalize gammaP (shape [1, 2, 4, 8]) (4 / scale [1, 2, 4, 8]) = p at p0 p1 ⊢
  have hcl : ∀ z : ℝ, -3 < z → z < 3 → clamp z = z := by
    intro z h1 h2
    unfold clamp
    rw [min_eq_right (by norm_num; linarith), max_eq_right (by norm_num; linarith)]
  push_cast
  rw [hcl _ (by linarith) (by linarith), hcl _ (by linarith) (by linarith)]
  linarith

/-! ## C120: a case of agreement -/

theorem rain_monthly : Monthly id rainYear (demoArgs "spi" [3]) rainWorld "p.nc" "prcp" rainData rainVar 1 2 24 rainVar.data 2000 2001 := by
  refine ⟨⟨rfl, rfl, rfl, rfl, by decide +kernel, by decide, demo_notOutput _ (by decide)⟩, .inl ⟨rfl, rfl⟩, by decide, ?_, ?_, ⟨_, .fin 0, .fin 23, rfl, rfl, by decide +kernel, by decide +kernel, by decide +kernel⟩,
    ⟨"mm", rfl, rfl⟩, rfl⟩
  · intro c hc
    rcases (show c = "lat" ∨ c = "lon" ∨ c = "time" by simpa [rainVar] using hc) with rfl | rfl | rfl
    · exact ⟨_, rfl⟩
    · exact ⟨_, rfl⟩
    · exact ⟨_, rfl⟩
  · intro h
    exact absurd h (by simp [rainVar])

/-- C120 applies to the data set of the SPI tool runs: scale 3 without scale 1, at both places -/
example := C120_agree toyExt toyExt_nan toyTrig 2000 2001 2 3 (by decide) (by decide) id rainYear demoCmp (demoArgs "spi" [3]) rainWorld rfl rain_monthly rfl [3] rfl (spiArgs [3] none none) "out" rainWorld
  (rain_ready [3] none (by intro f hf; cases hf)) [3] rfl (u := (processIndices (indexFunction toyExt toyTrig 2000 2001) 2 id rainYear demoCmp (demoArgs "spi" [3]) rainWorld).2)
  (u' := (spiMain toyExt rainYear id 2000 2001 "out" 3 (spiArgs [3] none none) rainWorld).2) (Prod.ext (by decide +kernel) rfl) (Prod.ext (by decide +kernel) rfl) 3 (by decide) [] [] rfl (by decide)
  .gamma (.inl rfl) (by intro h; cases h)

end CI.Props
