import Verif.Model.Compare
import Verif.Props.CliCells
import Verif.Props.Lmoments
import Verif.Props.Stats

/-!
# C77 to C79: input files whose coordinates are compared
-/

namespace CI.Props
open CI Spec

/-! ## The comparison -/

theorem coord_ok {F : Type} {d : NcFile F} {c : String} {l : List F} (h : d.coord c = .ok l) : ∃ x, List.lookup c d = some x ∧ x.data = l := by
  unfold NcFile.coord at h
  obtain ⟨x, h1, h⟩ := Res.bind_ok h
  cases h
  exact ⟨x, get_ok h1, rfl⟩

theorem compareSpace_grid {F : Type} {cmp : CoordCmp F} {p d : NcFile F} (h : compareSpace cmp .grid p d = .ok ()) :
    ∀ c ∈ ["lat", "lon"], ∃ x y, List.lookup c p = some x ∧ List.lookup c d = some y ∧ cmp.close x.data y.data = .ok true := by
  unfold compareSpace at h
  obtain ⟨lp, a1, h⟩ := Res.bind_ok h
  obtain ⟨ld, a2, h⟩ := Res.bind_ok h
  obtain ⟨c1, a3, h⟩ := Res.bind_ok h
  split at h
  swap
  · cases h
  next e1 =>
  obtain ⟨op, b1, h⟩ := Res.bind_ok h
  obtain ⟨od, b2, h⟩ := Res.bind_ok h
  obtain ⟨c2, b3, h⟩ := Res.bind_ok h
  split at h
  swap
  · cases h
  next e2 =>
  obtain ⟨x1, x2, rfl⟩ := coord_ok a1
  obtain ⟨y1, y2, rfl⟩ := coord_ok a2
  obtain ⟨z1, z2, rfl⟩ := coord_ok b1
  obtain ⟨t1, t2, rfl⟩ := coord_ok b2
  rw [e1] at a3
  rw [e2] at b3
  intro c hc
  simp only [List.mem_cons, List.not_mem_nil, or_false] at hc
  rcases hc with rfl | rfl
  · exact ⟨x1, y1, x2, y2, a3⟩
  · exact ⟨z1, t1, z2, t2, b3⟩

/-- what an accepted request for SPEI, all scaled indices or the Palmer indices on a grid has compared -/
theorem accepted_close {F : Type} {cmp : CoordCmp F} {fs : Files F} {a : CliArgs} (h : validateArgs cmp fs a = .ok .grid) (hi : a.index ∈ ["spei", "scaled", "palmers"]) :
    ∃ fp p fd d, a.netcdfPrecip = some fp ∧ fs fp = some p ∧ (a.netcdfTemp = some fd ∨ a.netcdfPet = some fd) ∧ fs fd = some d ∧
      ∀ c ∈ ["lat", "lon"], ∃ x y, List.lookup c p = some x ∧ List.lookup c d = some y ∧ cmp.close x.data y.data = .ok true := by
  have hp : a.index ≠ "pet" := by
    rintro e
    rw [e] at hi
    exact absurd hi (by decide)
  unfold validateArgs at h
  rw [if_pos hp] at h
  obtain ⟨⟨it, p⟩, h1, h⟩ := Res.bind_ok h
  obtain ⟨_, h2, h⟩ := Res.bind_ok h
  obtain ⟨_, _, h⟩ := Res.bind_ok h
  cases h
  obtain ⟨fp, e1, e2⟩ : ∃ fp, a.netcdfPrecip = some fp ∧ fs fp = some p := by
    unfold validatePrecip at h1
    split at h1
    · cases h1
    · cases h1
    · next f v e1 e2 =>
      obtain ⟨d, d1, h1⟩ := Res.bind_ok h1
      obtain ⟨n, n1, n2⟩ := openFile_ok d1
      cases n1
      obtain ⟨x, _, h1⟩ := Res.bind_ok h1
      obtain ⟨it', _, h1⟩ := Res.bind_ok h1
      refine ⟨f, e1, ?_⟩
      suffices d = p by rw [← this]; exact n2
      cases it' with
      | grid =>
        obtain ⟨_, _, h1⟩ := Res.bind_ok h1
        obtain ⟨_, _, h1⟩ := Res.bind_ok h1
        obtain ⟨_, _, h1⟩ := Res.bind_ok h1
        cases h1
        rfl
      | divisions =>
        obtain ⟨_, _, h1⟩ := Res.bind_ok h1
        obtain ⟨_, _, h1⟩ := Res.bind_ok h1
        cases h1
      | timeseries =>
        obtain ⟨_, _, h1⟩ := Res.bind_ok h1
        cases h1
  have key : ∀ {file var : Option String}, validateSecond cmp fs .grid p file var = .ok () →
      ∃ fd d, file = some fd ∧ fs fd = some d ∧ ∀ c ∈ ["lat", "lon"], ∃ x y, List.lookup c p = some x ∧ List.lookup c d = some y ∧ cmp.close x.data y.data = .ok true := by
    intro file var hs
    unfold validateSecond at hs
    obtain ⟨d, d1, hs⟩ := Res.bind_ok hs
    obtain ⟨n, n1, n2⟩ := openFile_ok d1
    obtain ⟨x, _, hs⟩ := Res.bind_ok hs
    dsimp only at hs
    split at hs
    swap
    · cases hs
    obtain ⟨_, hs, _⟩ := Res.bind_ok hs
    exact ⟨n, d, n1, n2, compareSpace_grid hs⟩
  unfold validateOthers at h2
  rw [if_pos hi] at h2
  obtain ⟨_, h2, _⟩ := Res.bind_ok h2
  unfold validateTempOrPet at h2
  split at h2
  · cases h2
  · next g1 g2 =>
    obtain ⟨fd, d, k1, k2, k3⟩ := key h2
    cases k1
    exact ⟨fp, p, _, d, e1, e2, .inr g2, k2, k3⟩
  · cases h2
  · next g1 g2 =>
    obtain ⟨fd, d, k1, k2, k3⟩ := key h2
    cases k1
    exact ⟨fp, p, _, d, e1, e2, .inl g1, k2, k3⟩

/-! ## C78: grids with a single row or column -/

/-- C78 (`_partial`: SPI, PNP and PET only): these requests are accepted or refused whatever the coordinates are. -/
theorem C78_partial {F : Type} (cmp cmp' : CoordCmp F) (fs : Files F) (a : CliArgs) (hi : a.index ∈ ["spi", "pnp", "pet"]) : validateArgs cmp fs a = validateArgs cmp' fs a := by
  have hn : a.index ∉ ["spei", "scaled", "palmers"] := by
    simp only [List.mem_cons, List.not_mem_nil, or_false] at hi ⊢
    rcases hi with hi | hi | hi <;> rw [hi] <;> decide
  unfold validateArgs validateOthers
  simp only [if_neg hn]

/-- **C78 is false, for all files.** Requests for SPEI, all scaled indices or Palmer indices on a grid with a single latitude or a single longitude are always refused. -/
theorem C78_fails {F : Type} [FloatOps F] (fs : Files F) (a : CliArgs) (hi : a.index ∈ ["spei", "scaled", "palmers"]) {fp : String} {p : NcFile F} (hf : a.netcdfPrecip = some fp) (hp : fs fp = some p)
    {c : String} (hc : c = "lat" ∨ c = "lon") {x : NcVar F} (hx : List.lookup c p = some x) (h1 : x.data.length = 1) : validateArgs npCmp fs a ≠ .ok .grid := by
  intro h
  obtain ⟨fp', p', fd, d, e1, e2, _, _, e3⟩ := accepted_close h hi
  rw [hf] at e1
  cases e1
  rw [hp] at e2
  cases e2
  obtain ⟨x', y, k1, k2, k3⟩ := e3 c (by rcases hc with rfl | rfl <;> simp)
  rw [hx] at k1
  cases k1
  obtain ⟨v, hv⟩ := List.length_eq_one_iff.1 h1
  rw [hv] at k3
  cases k3

/-- the files of the small world, which have one latitude: with SPI the request is accepted, with SPEI it is refused -/
example : validateArgs npCmp demoFiles (demoArgs "spi" [3]) = .ok .grid ∧ validateArgs npCmp demoFiles (demoArgs "spei" [3]) = .error .valueError ∧
    validateArgs npCmp demoFiles (demoArgs "spei" [3]) ≠ .ok .grid := by
  exact ⟨by decide +kernel, by decide +kernel, C78_fails demoFiles _ (by decide) (fp := "p.nc") rfl rfl (.inl rfl) (x := demoLat) rfl rfl⟩

/-! ## C77: matching input files with slightly different coordinates -/

/-- precipitation of two latitudes and two longitudes -/
def twoRows (n : Rat) : NcVar Q := ⟨["lat", "lon", "time"], [2, 2, 12], some "mm", (List.range 48).map (fun i => .fin (i + n))⟩

/-- the latitudes of the PET file are 40.000001 and 41.000001 instead of 40 and 41 (as by rounding in single precision) -/
def shiftedFiles : Files Q := fun f =>
  if f = "p.nc" then some [("prcp", twoRows 5), ("lat", ⟨["lat"], [2], none, [.fin 40, .fin 41]⟩), ("lon", demoLon), ("time", demoTime)]
  else if f = "e.nc" then some [("pet", twoRows 1), ("lat", ⟨["lat"], [2], none, [.fin (40 + 1 / 1000000), .fin (41 + 1 / 1000000)]⟩), ("lon", demoLon), ("time", demoTime)]
  else none

def shiftedArgs : CliArgs := { demoArgs "spei" [1] with netcdfTemp := none, varNameTemp := none, netcdfPet := some "e.nc", varNamePet := some "pet" }

/-- C77 (`_partial`: common coordinates are equal, not only within the tolerance; SPEI or all scaled indices with a PET file): every SPEI variable has the dimensions, the shape and the number of values of the
precipitation. -/
theorem C77_partial {F : Type} [FloatOps F] [FloatLaws F] (E : Ext F) (hE : ExtNan E) (T : Trig F) (cs ce : Int) (wk : Nat) (lower : String → String) (yearOf : F → Int) (a : CliArgs) (w w' : World F)
    (h : processIndices (indexFunction E T cs ce) wk lower yearOf npCmp a w = (.ok (), w')) (hi : a.index = "spei" ∨ a.index = "scaled")
    {f v fe ve : String} {d de : NcFile F} {x xe : NcVar F} {A b n : Nat} (hin : Input w.files a.outputFileBase a.netcdfPrecip a.varNamePrecip f v d x) (hl : Layout x A b n)
    (hpet : Input w.files a.outputFileBase a.netcdfPet a.varNamePet fe ve de xe) (hle : Layout xe A b n) (hne : v ≠ ve) (hnone : List.lookup ve d = none ∨ List.lookup ve d = some xe)
    (hsame : SameCoords d de) {y0 y1 : Int} (hy : Years yearOf d y0 y1)
    (s : Int) (hs : s ∈ a.scales.getD []) (dist : Distribution) (hd : dist = .pearson ∨ dist = .gamma) :
    ∃ file y, w'.files (fileName a.outputFileBase (Output.spei dist s.toNat).name) = some file ∧ ((Output.spei dist s.toNat).name, y) ∈ file ∧ y.dims = x.dims ∧ y.shape = x.shape ∧
      y.data.length = x.data.length := by
  obtain ⟨_, _, _, _, _, _, _, _, file, y, h1, h2, h3, ⟨h4, h5⟩, _⟩ := C66_spei_given E hE T cs ce wk lower yearOf npCmp a w w' h hi hin hl hpet hle hne hnone hsame hy s hs dist hd
  exact ⟨file, y, h1, h2, h3.1, h4, by rw [h5, hin.wf]⟩

/-- the values in a file of the world after a run -/
def writtenIn (w : World Q) (o : Output) : Option (List Nat × List Q) :=
  (w.files (fileName shiftedArgs.outputFileBase o.name)).bind (fun file => (List.lookup o.name file).map (fun y => (y.shape, y.data)))

/-- **C77 fails.** Precipitation and PET on the same grid of 2 × 2 places, but the latitudes in the two files differ by a millionth of a degree: the tool accepts the files as matching and finishes, and
what it writes has four latitudes, at none of which there is a value. -/
theorem C77_fails : validateArgs npCmp shiftedFiles shiftedArgs = .ok .grid ∧
    (processIndices (indexFunction toyExt toyTrig 2000 2000) 2 id demoYear npCmp shiftedArgs ⟨shiftedFiles, fun _ => none, []⟩).1 = .ok () ∧
    ∀ dist ∈ [Distribution.gamma, .pearson],
      writtenIn (processIndices (indexFunction toyExt toyTrig 2000 2000) 2 id demoYear npCmp shiftedArgs ⟨shiftedFiles, fun _ => none, []⟩).2 (.spei dist 1) = some ([4, 2, 12], List.replicate 96 .nan) := by
  decide +kernel

/-- with the latitudes of the precipitation file in the PET file the same request gives values at both latitudes -/
example : okAnd (Except.ok (ε := PyErr) (writtenIn (processIndices (indexFunction toyExt toyTrig 2000 2000) 2 id demoYear npCmp shiftedArgs
    ⟨fun f => (shiftedFiles f).map (fun d => d.map (fun p => if p.1 = "lat" then ("lat", ⟨["lat"], [2], none, [.fin 40, .fin 41]⟩) else p)), fun _ => none, []⟩).2 (.spei .gamma 1)))
    (fun o => decide (o.map Prod.fst = some [2, 2, 12]) && ((o.map Prod.snd).getD []).any (fun v => !isNan v)) = true := by
  decide +kernel

/-! ## C79: how far apart matching coordinates can be -/

theorem isClose_fin {t x y : ℝ} (ht : 0 ≤ t) : isClose (Fl.fin t) (.fin x) (.fin y) = true ↔ |x - y| ≤ t + 1e-5 * |y| := by
  unfold isClose
  simp only [Fl.fin_sub, fabs_fin, Fl.lit_def, Fl.fin_mul, Fl.fin_add, Fl.fle_fin, Fl.feq_fin, Bool.or_eq_true, Bool.and_eq_true, decide_eq_true_eq, sub_self]
  push_cast
  constructor
  · rintro (⟨h, _⟩ | h)
    · linarith
    · rw [h]
      simp only [sub_self, abs_zero]
      positivity
  · intro h
    exact .inl ⟨by linarith, by norm_num⟩

/-- the tolerance of an axis of finite numbers -/
theorem tolerance_fin {xs : List ℝ} (h2 : 2 ≤ xs.length) : ∃ t : ℝ, getTolerance (xs.map Fl.fin) = .ok (.fin t) ∧ 0 < t ∧
    (t = 1e-15 ∨ ∀ i a b, xs[i]? = some a → xs[i + 1]? = some b → t ≤ |b - a| / 10) := by
  have fin_diff : ∀ l : List ℝ, ∀ v ∈ npDiff (l.map Fl.fin), ∃ d : ℝ, v = .fin d := by
    intro l
    induction l with
    | nil => simp [npDiff]
    | cons a l ih =>
      cases l with
      | nil => simp [npDiff]
      | cons b l =>
        intro v hv
        simp only [List.map_cons, npDiff, List.mem_cons] at hv
        rcases hv with rfl | hv
        · exact ⟨_, Fl.fin_sub _ _⟩
        · exact ih v (by simpa using hv)
  obtain ⟨tol, h1, h3, h4⟩ := C57_partial (xs.map Fl.fin) (by simpa using h2) (by
    intro v hv
    obtain ⟨d, rfl⟩ := fin_diff xs v hv
    rw [fabs_fin, Fl.lit_def, Fl.fin_div_of_ne _ _ (by norm_num)]
    simp)
  obtain ⟨t, rfl⟩ : ∃ t, tol = Fl.fin t := by
    rcases h4 with h4 | h4
    · exact ⟨_, by rw [h4, Fl.lit_def]⟩
    · match xs, h2 with
      | a :: b :: l, _ =>
        have := h4 0 (.fin a) (.fin b) rfl rfl
        rw [Fl.fin_sub, fabs_fin, Fl.lit_def, Fl.fin_div_of_ne _ _ (by norm_num)] at this
        cases tol with
        | fin t => exact ⟨t, rfl⟩
        | nan => cases this
        | pinf => cases this
        | ninf => cases h3
  rw [Fl.lit_def, Fl.flt_fin, decide_eq_true_eq] at h3
  refine ⟨t, h1, by simpa using h3, ?_⟩
  rcases h4 with h4 | h4
  · left
    rw [Fl.lit_def] at h4
    cases h4
    push_cast
    rfl
  · right
    intro i a b ha hb
    have := h4 i (.fin a) (.fin b) (by rw [List.getElem?_map, ha]; rfl) (by rw [List.getElem?_map, hb]; rfl)
    rw [Fl.fin_sub, fabs_fin, Fl.lit_def, Fl.fin_div_of_ne _ _ (by norm_num), Fl.fle_fin, decide_eq_true_eq] at this
    simpa using this

theorem npClose_axes {xs ys : List ℝ} (h2 : 2 ≤ xs.length) (hl : ys.length = xs.length) : ∃ t : ℝ, getTolerance (xs.map Fl.fin) = .ok (.fin t) ∧ 0 < t ∧
    (t = 1e-15 ∨ ∀ i a b, xs[i]? = some a → xs[i + 1]? = some b → t ≤ |b - a| / 10) ∧
    (npClose (xs.map Fl.fin) (ys.map Fl.fin) = .ok true ↔ ∀ (i : Nat) (x y : ℝ), xs[i]? = some x → ys[i]? = some y → |x - y| ≤ t + 1e-5 * |y|) := by
  obtain ⟨t, h1, h3, h4⟩ := tolerance_fin h2
  refine ⟨t, h1, h3, h4, ?_⟩
  unfold npClose
  rw [h1]
  show (if _ then _ else _) = _ ↔ _
  rw [if_pos (by simp [hl])]
  show Except.ok _ = Except.ok _ ↔ _
  rw [Except.ok.injEq, List.all_eq_true]
  constructor
  · intro h i x y hx hy
    have := h (.fin x, .fin y) (by
      apply List.mem_of_getElem? (i := i)
      rw [List.getElem?_zip_eq_some]
      simp [hx, hy])
    rwa [isClose_fin h3.le] at this
  · rintro h ⟨u, v⟩ hp
    obtain ⟨i, hi⟩ := List.mem_iff_getElem?.1 hp
    rw [List.getElem?_zip_eq_some] at hi
    simp only [List.getElem?_map, Option.map_eq_some_iff] at hi
    obtain ⟨⟨x, hx, rfl⟩, ⟨y, hy, rfl⟩⟩ := hi
    rw [isClose_fin h3.le]
    exact h i x y hx hy

/-- C79 (`_partial`: up to numpy's relative tolerance of 10⁻⁵ of the coordinate, and the resolution of the numbers): coordinates accepted as matching differ by at most a tenth of every spacing of the axis. -/
theorem C79_partial (xs ys : List ℝ) (h2 : 2 ≤ xs.length) (hl : ys.length = xs.length) (h : npClose (xs.map Fl.fin) (ys.map Fl.fin) = .ok true)
    {i : Nat} {x y : ℝ} (hx : xs[i]? = some x) (hy : ys[i]? = some y) {j : Nat} {a b : ℝ} (ha : xs[j]? = some a) (hb : xs[j + 1]? = some b) :
    |x - y| ≤ max 1e-15 (|b - a| / 10) + 1e-5 * |y| := by
  obtain ⟨t, _, _, h4, h5⟩ := npClose_axes h2 hl
  have := h5.1 h i x y hx hy
  rcases h4 with h4 | h4
  · have := le_max_left (1e-15 : ℝ) (|b - a| / 10)
    linarith
  · have := h4 j a b ha hb
    have := le_max_right (1e-15 : ℝ) (|b - a| / 10)
    linarith

/-- a regular axis: `n` points from `a` with spacing `s` -/
def axis (a s : ℝ) (n : Nat) : List (Fl ℝ) := (List.range n).map (fun i : Nat => .fin (a + s * i))

/-- **C79 fails.** For every regular axis of positive coordinates whose spacing is at most 10⁻⁵ of the first coordinate: the axis and the axis moved by one whole cell are accepted as matching, whatever the
number of points. -/
theorem C79_fails (a s : ℝ) (n : Nat) (hn : 2 ≤ n) (hs : 0 < s) (h : s ≤ 1e-5 * a) : npClose (axis a s n) (axis (a + s) s n) = .ok true := by
  have e : ∀ a, axis a s n = ((List.range n).map (fun i : Nat => a + s * i)).map Fl.fin := by
    intro a
    simp [axis]
  rw [e, e]
  obtain ⟨t, _, h3, _, h5⟩ := npClose_axes (xs := (List.range n).map (fun i : Nat => a + s * i)) (ys := (List.range n).map (fun i : Nat => a + s + s * i)) (by simpa using hn) (by simp)
  refine h5.2 ?_
  intro i x y hx hy
  simp only [List.getElem?_map, Option.map_eq_some_iff] at hx hy
  obtain ⟨k, hk, rfl⟩ := hx
  obtain ⟨k', hk', rfl⟩ := hy
  rw [hk] at hk'
  cases hk'
  have ha : 0 < a := by
    by_contra hc
    have : 1e-5 * a ≤ 0 := by nlinarith
    linarith
  have hk : (0 : ℝ) ≤ s * k := by positivity
  have e1 : a + s * k - (a + s + s * k) = -s := by ring
  rw [e1, abs_neg, abs_of_pos hs, abs_of_pos (by linarith)]
  nlinarith

/-- an axis in metres, 30 m apart -/
example : npClose (axis 4000000 30 1000) (axis 4000030 30 1000) = .ok true := by
  have := C79_fails 4000000 30 1000 (by norm_num) (by norm_num) (by norm_num)
  rwa [show (4000000 : ℝ) + 30 = 4000030 by norm_num] at this

/-- matching latitudes in the sense of `C79_partial` -/
example : npClose ([40, 41].map Fl.fin) ([40 + 1e-6, 41 + 1e-6].map (Fl.fin (K := ℝ))) = .ok true := by
  obtain ⟨t, _, h3, _, h5⟩ := npClose_axes (xs := [40, 41]) (ys := [40 + 1e-6, 41 + 1e-6]) (by simp) (by simp)
  refine h5.2 ?_
  intro i x y hx hy
  match i with
  | 0 =>
    cases hx
    cases hy
    rw [abs_le]
    constructor <;> norm_num <;> linarith
  | 1 =>
    cases hx
    cases hy
    rw [abs_le]
    constructor <;> norm_num <;> linarith
  | i + 2 => simp at hx

/-- latitudes moved by a whole cell: accepted by the tool -/
example : validateArgs npCmp (fun f => (shiftedFiles f).map (fun d => d.map (fun p => if p.1 = "lat" then
    ("lat", ⟨["lat"], [2], none, if f = "p.nc" then [.fin 40, .fin (40 + 1 / 5000)] else [.fin (40 + 1 / 5000), .fin (40 + 2 / 5000)]⟩) else p))) shiftedArgs = .ok .grid := by decide +kernel

/-! ## Coordinates of the output of one computation -/

section
variable {F : Type} [FloatOps F]

omit [FloatOps F] in
theorem mapM_mem_left {α β : Type} {f : α → Res β} : ∀ {l : List α} {o : List β}, l.mapM f = .ok o → ∀ x ∈ l, ∃ y ∈ o, f x = .ok y := by
  intro l
  induction l with
  | nil => intro o _ x hx; cases hx
  | cons a l ih =>
    intro o h x hx
    rw [List.mapM_cons] at h
    obtain ⟨b, h1, h⟩ := Res.bind_ok h
    obtain ⟨o', h2, h⟩ := Res.bind_ok h
    cases h
    rcases List.mem_cons.1 hx with rfl | hx
    · exact ⟨b, List.mem_cons_self, h1⟩
    · obtain ⟨y, hy, e⟩ := ih h2 x hx
      exact ⟨y, List.mem_cons_of_mem _ hy, e⟩

omit [FloatOps F] in
theorem lookup_in_list {d : NcFile F} {k : String} {x : NcVar F} (h : List.lookup k d = some x) : (k, x) ∈ d := by
  induction d with
  | nil => cases h
  | cons p d ih =>
    rw [List.lookup_cons] at h
    split at h
    · next e =>
      cases h
      rw [beq_iff_eq] at e
      rw [e]
      exact List.mem_cons_self
    · exact List.mem_cons_of_mem _ (ih h)

theorem sameCoord_self [FloatLaws F] (xs : List F) : sameCoord xs xs = true := by
  unfold sameCoord
  rw [Bool.and_eq_true]
  refine ⟨by simp, ?_⟩
  rw [List.all_eq_true]
  intro p hp
  obtain ⟨i, hi, rfl⟩ := List.mem_iff_getElem.1 hp
  rw [List.getElem_zip]
  unfold sameCoordVal
  by_cases h : xs[i]'(by simpa using hi) = nan
  · rw [h]; simp
  · rw [feq_refl h]; simp

/-- a coordinate that is the same in all files with that coordinate is not changed by the join -/
theorem joinCoord_same [FloatLaws F] {xs : List F} {ls : List (List F)} (hne : ls ≠ []) (h : ∀ l ∈ ls, l = xs) : joinCoord ls = xs := by
  cases ls with
  | nil => exact absurd rfl hne
  | cons l rest =>
    unfold joinCoord
    simp only
    rw [if_pos]
    · exact h l List.mem_cons_self
    · rw [List.all_eq_true]
      intro m hm
      rw [h l List.mem_cons_self, h m (List.mem_cons_of_mem _ hm)]
      exact sameCoord_self xs

/-- **C101.** After every finished computation of the main tool, with any number of input files whose other coordinates may differ: a coordinate with the same values in all
input files that have it is in the output file, with the same values in the same order (a latitude axis from north to south stays so, even if the time axes differ), and
the output file has nothing else than coordinates and the new variable. -/
theorem C101_coordinates [FloatLaws F] {K : Int → Job → List F → List F → Res (List F)} {wk : Nat} {lower : String → String} {yearOf : F → Int} {j : Job} {w w' : World F}
    {r : String × String} (h : computeWriteIndex K wk lower yearOf j w = (.ok r, w')) (c : String) (xs : List F)
    (hin : ∃ f ∈ (j.precip.toList ++ j.temp.toList ++ j.pet.toList).map Prod.fst, ∃ d y, w.files f = some d ∧ (c, y) ∈ d ∧ y.dims = [c])
    (hall : ∀ f ∈ (j.precip.toList ++ j.temp.toList ++ j.pet.toList).map Prod.fst, ∀ d y, w.files f = some d → (c, y) ∈ d → y.dims = [c] → y.data = xs) :
    ∃ file, w'.files r.1 = some file ∧ (∃ y, (c, y) ∈ file ∧ y.dims = [c] ∧ y.data = xs) ∧ (∀ y, (c, y) ∈ file → c ≠ r.2 → y.dims = [c] ∧ y.data = xs) ∧
      ∀ p ∈ file, p.1 = r.2 ∨ p.2.dims = [p.1] := by
  obtain ⟨md, ds, cvars, vars, fn, sn, first, second, res, out, ov, lv, like, h1, -, -, -, -, -, -, -, -, -, -, -, h10, -⟩ := cwi_arrays h
  generalize hnames : (j.precip.toList ++ j.temp.toList ++ j.pet.toList).map Prod.fst = names at *
  refine ⟨_, by rw [h10]; exact if_pos rfl, ?_⟩
  unfold openAll at h1
  obtain ⟨dl, h2, h1⟩ := Res.bind_ok h1
  have hfiles : ∀ d ∈ dl, ∃ f ∈ names, w.files f = some d := by
    intro d hd
    obtain ⟨n, hn, h3⟩ := mapM_mem h2 d hd
    obtain ⟨m, e, h4⟩ := openFile_ok h3
    cases e
    exact ⟨_, hn, h4⟩
  have hsame : ∀ d ∈ dl, ∀ y, (c, y) ∈ d → y.dims = [c] → y.data = xs := by
    intro d hd y hy hdim
    obtain ⟨f, hf, hfd⟩ := hfiles d hd
    exact hall f hf d y hfd hy hdim
  obtain ⟨d0, hd0, y0, hy0, hdim0⟩ : ∃ d0 ∈ dl, ∃ y, (c, y) ∈ d0 ∧ y.dims = [c] := by
    obtain ⟨f, hf, d, y, e1, e2, e3⟩ := hin
    obtain ⟨d', hd', h3⟩ := mapM_mem_left h2 f hf
    obtain ⟨m, e, h4⟩ := openFile_ok h3
    cases e
    rw [e1] at h4
    cases h4
    exact ⟨d, hd', y, e2, e3⟩
  have key : (∃ y, (c, y) ∈ md ∧ y.dims = [c] ∧ y.data = xs) ∧ ∀ y, (c, y) ∈ md → y.dims = [c] → y.data = xs := by
    split at h1
    · cases h1
      refine ⟨⟨y0, List.mem_flatten.2 ⟨d0, hd0, hy0⟩, hdim0, hsame d0 hd0 y0 hy0 hdim0⟩, ?_⟩
      intro y hy hdim
      obtain ⟨d, hd, hy⟩ := List.mem_flatten.1 hy
      exact hsame d hd y hy hdim
    · cases h1
      have hjoin : joinCoord (dl.filterMap (fun e => (List.lookup c (coordsOf e)).map NcVar.data)) = xs := by
        apply joinCoord_same
        · intro he
          have hmem : (c, y0) ∈ coordsOf d0 := List.mem_filter.2 ⟨hy0, by simpa using hdim0⟩
          have hl : (List.lookup c (coordsOf d0)).isSome := lookup_isSome_of_mem hmem
          obtain ⟨z, hz⟩ := Option.isSome_iff_exists.1 hl
          have : z.data ∈ dl.filterMap (fun e => (List.lookup c (coordsOf e)).map NcVar.data) := List.mem_filterMap.2 ⟨d0, hd0, by rw [hz]; rfl⟩
          rw [he] at this
          cases this
        · intro l hl
          obtain ⟨e, he, hl⟩ := List.mem_filterMap.1 hl
          cases hz : List.lookup c (coordsOf e) with
          | none => rw [hz] at hl; cases hl
          | some z =>
            rw [hz, Option.map_some, Option.some.injEq] at hl
            have hm := List.mem_filter.1 (lookup_in_list hz)
            rw [← hl]
            exact hsame e he z hm.1 (by simpa using hm.2)
      constructor
      · refine ⟨(alignVar dl d0 (c, y0)).2, ?_, ?_, ?_⟩
        · refine List.mem_flatten.2 ⟨_, List.mem_map.2 ⟨d0, hd0, rfl⟩, List.mem_map.2 ⟨(c, y0), hy0, ?_⟩⟩
          unfold alignVar
          simp [hdim0]
        · unfold alignVar
          simp [hdim0]
        · unfold alignVar
          simp [hdim0, hjoin]
      · intro y hy hdim
        obtain ⟨l, hl, hy⟩ := List.mem_flatten.1 hy
        obtain ⟨d, hd, rfl⟩ := List.mem_map.1 hl
        obtain ⟨q, hq, he⟩ := List.mem_map.1 hy
        obtain ⟨qc, qy⟩ := q
        unfold alignVar at he
        simp only at he
        split at he
        · simp only [Prod.mk.injEq] at he
          obtain ⟨rfl, rfl⟩ := he
          exact hjoin
        · next hnd =>
          simp only [Prod.mk.injEq] at he
          obtain ⟨rfl, rfl⟩ := he
          exact absurd hdim hnd
  obtain ⟨⟨y, hy, hdim, hdat⟩, hall'⟩ := key
  refine ⟨⟨y, List.mem_append_left _ (List.mem_filter.2 ⟨hy, by simpa using hdim⟩), hdim, hdat⟩, ?_, ?_⟩
  · intro z hz hne
    rcases List.mem_append.1 hz with hz | hz
    · have := List.mem_filter.1 hz
      have hd : z.dims = [c] := by simpa using this.2
      exact ⟨hd, hall' z this.1 hd⟩
    · rw [List.mem_singleton] at hz
      cases hz
      exact absurd rfl hne
  · intro p hp
    rcases List.mem_append.1 hp with hp | hp
    · have := List.mem_filter.1 hp
      right
      simpa using this.2
    · rw [List.mem_singleton] at hp
      left
      rw [hp]

end

/-- C101 on the files of `C77_fails` with the longitudes from east to west: the latitudes of the two files differ, the longitudes do not; the output has four latitudes in
increasing order and the longitudes as they were -/
example : let w := (processIndices (indexFunction toyExt toyTrig 2000 2000) 2 id demoYear npCmp shiftedArgs
    ⟨fun f => (shiftedFiles f).map (fun d => d.map (fun p => if p.1 = "lon" then ("lon", ⟨["lon"], [2], none, [.fin 9, .fin 8]⟩) else p)), fun _ => none, []⟩).2
    (["lat", "lon"].map (fun c => (w.files (fileName shiftedArgs.outputFileBase (Output.spei .gamma 1).name)).bind (fun file => (List.lookup c file).map NcVar.data))) =
    [some [.fin 40, .fin (40 + 1 / 1000000), .fin 41, .fin (41 + 1 / 1000000)], some [.fin 9, .fin 8]] := by
  decide +kernel

end CI.Props
