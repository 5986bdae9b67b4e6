import Verif.Props.EndToEnd64

/-!
# C140: SPEI from the command line to the values in the files, in binary64 arithmetic
-/

namespace CI.Props

open CI FloatOps FloatLaws B64 Spec Spec.McKee

variable {σ : SumOrder}

/-! ## Specification -/

/-- the values `out` are the gamma SPEI of the monthly precipitation `p` and evapotranspiration `e` (from January of year `ds` on) at scale `k` with calibration years `cs` to `ce`: the accumulations
are next to the moving sums of `p - e + 1000` (missing exactly where one of the `2 k` numbers is), and at each of them the value is the clamped normal quantile of a probability next to the gamma
probability for parameters next to Thom's estimates, as in C136 (for amounts as there, if the accumulations of the calendar month in the calibration years are not almost equal) -/
def GammaBalance64 (G : ℝ → ℝ → ℝ → ℝ) (Φ : ℝ → ℝ) (η δ : ℝ) (p e : List (B64 σ)) (k : ℕ) (ds cs ce : ℤ) (out : List (B64 σ)) : Prop :=
  (∀ v ∈ p, Precip v) → (∀ v ∈ e, Evap v) → (∃ (i : ℕ) (x y : ℚ), (p[i]?).map ext = some (.fin x) ∧ (e[i]?).map ext = some (.fin y)) → p.length ≤ 2 ^ 40 →
    out.length = p.length ∧ ∃ acc : List (Option ℝ), acc.length = p.length ∧
      (∀ t < p.length, match accum (List.zipWith (fun x y => x.bind fun u => y.map fun v => u - v + 1000) (p.map real64) (e.map real64)) k t with
        | none => acc[t]? = some none
        | some a => ∃ v : ℝ, acc[t]? = some (some v) ∧ |v - a| ≤ k / 2 ^ 34 + (a + k / 2 ^ 34) * (k / 2 ^ 52)) ∧
      ∀ (t : ℕ) (v : ℝ), acc[t]? = some (some v) → ∀ (m : ℕ) (s : List ℝ), (m : ℤ) = ce - cs + 1 → s = sample acc 1 12 (t % 12) (cs - ds).toNat m →
        ∀ (L : ℚ) (ε : ℝ), 1 ≤ L → L ≤ 1000 → (∀ a ∈ s, |Real.log a| ≤ L) → ε = (L + 1) * (m + 7) / 2 ^ 51 → 8 * ε ≤ Spec.McKee.gap s →
        ∃ (w : B64 σ) (z α β P : ℝ), out[t]? = some w ∧ (∃ zq : ℚ, ext w = .fin zq ∧ z = zq) ∧
          |α - shape s| ≤ shape s * (2 * (ε / Spec.McKee.gap s) + 1 / 2 ^ 48) ∧ |β - scale s| ≤ scale s * (4 * (ε / Spec.McKee.gap s) + (m + 2) / 2 ^ 51 + 1 / 2 ^ 47) ∧
          0 ≤ P ∧ P ≤ 1 ∧ |P - G v α β| ≤ η + 3 / 2 ^ 51 ∧
          (0 < P → P < 1 → |z - clamp (Φ P)| ≤ δ + 1 / 2 ^ 50) ∧ (P = 0 → |z - -3.09| ≤ 1 / 2 ^ 50) ∧ (P = 1 → |z - 3.09| ≤ 1 / 2 ^ 50)

/-! ## The index -/

/-- the gamma SPEI is total, for any numbers -/
theorem spei_gamma_total {F : Type} [FloatOps F] [FloatLaws F] (E : Ext F) (p e : List F) (hl : p.length = e.length) (k : ℤ) (hk : 1 ≤ k) (per : Periodicity) (hper : per ≠ .other) (ds cs ce : ℤ) :
    ∃ out, spei E (Arr.of1d p) (Arr.of1d e) k .gamma per ds cs ce none = .ok out := by
  cases hn : allNan p with
  | true =>
    refine ⟨Arr.of1d p, ?_⟩
    unfold spei
    rw [if_pos (show allNan (Arr.of1d p).data = true from hn)]
  | false =>
    rw [spei_eq E (Arr.of1d p) (Arr.of1d e) k .gamma per ds cs ce none hn hl]
    have hne : balance (clipNeg (Arr.of1d p).data) (Arr.of1d e).data ≠ [] := by
      intro h
      have h' := congrArg List.length h
      have hcl : (clipNeg (Arr.of1d p).data).length = p.length := clipNeg_length _
      rw [balance_length _ _ (by rw [hcl]; exact hl), hcl, List.length_nil] at h'
      exact ne_nil_of_allNan _ hn (List.length_eq_zero_iff.1 h')
    obtain ⟨s, hs⟩ := sumToScale_total _ k hk hne
    rw [hs]
    obtain ⟨n, hr, hlen⟩ := reshapeValues_total s per hper
    obtain ⟨t, ht, _⟩ := gamma_total E n _ ds cs ce per hper hlen
    have h12 := distTransform_1d_2d E s .gamma ds cs ce per none hper 0 (Nat.zero_le _)
    rw [hr] at h12
    have h2 : (Except.ok ⟨[n, per.steps], s ++ List.replicate (padCount s.length per.steps) nan⟩ : Res (Arr F)).bind (fun a => distTransform E a .gamma ds cs ce per none) = .ok t := by
      show distTransform E _ .gamma ds cs ce per none = _
      simp only [distTransform, getGammaArgs, bind, Except.bind, ht]
    rw [h2] at h12
    simp only [bind, Except.bind]
    cases hd : distTransform E (Arr.of1d s) .gamma ds cs ce per none with
    | error err => rw [hd] at h12; cases h12
    | ok t' =>
      rw [show (normFitdict none : Option (FitDict F)) = none from rfl, hd]
      exact ⟨_, rfl⟩

theorem gamma_balance64 (E : Ext (B64 σ)) (hE : ExtNan E) (hA : Accurate E) (G : ℝ → ℝ → ℝ → ℝ) (Φ : ℝ → ℝ) (η δ : ℝ) (hI : IndexNear E G Φ η δ) (p e : List (B64 σ)) (hlen : p.length = e.length)
    (k : ℕ) (h1 : 1 ≤ k) (h2 : k ≤ p.length) (ds cs ce : ℤ) (c1 : ds ≤ cs) (c2 : cs ≤ ce) (c3 : ce < ds + yearsOf p.length 12) (out : Arr (B64 σ))
    (ho : spei E (Arr.of1d p) (Arr.of1d e) k .gamma .monthly ds cs ce none = .ok out) : GammaBalance64 G Φ η δ p e k ds cs ce out.data := by
  intro hp he hsome hxl
  obtain ⟨acc, ha, hl, hm⟩ := C136_accumulations p e hp he hlen k h1 h2 (h2.trans hxl)
  obtain ⟨m, hm0⟩ := Int.eq_ofNat_of_zero_le (show 0 ≤ ce - cs + 1 by omega)
  have hs : ∃ v ∈ List.zipWith (fun x y => x - y + lit 1000) p e, isNan v = false := by
    obtain ⟨i, x, y, hx, hy⟩ := hsome
    rw [Option.map_eq_some_iff] at hx hy
    obtain ⟨u, hu, hux⟩ := hx
    obtain ⟨v, hv, hvy⟩ := hy
    rcases hp u (List.mem_of_getElem? hu) with rfl | ⟨a, ha', a0, a1⟩
    · cases hux
    rcases he v (List.mem_of_getElem? hv) with rfl | ⟨b, hb', b0, b1⟩
    · cases hvy
    obtain ⟨c, hc, _⟩ := balance_near ha' hb' a0 a1 b0 b1
    refine ⟨_, List.mem_of_getElem? (i := i) (by rw [List.getElem?_zipWith, hu, hv]), ?_⟩
    generalize u - v + lit 1000 = z at hc
    cases z with
    | nan => cases hc
    | _ => rfl
  obtain ⟨_, out', o1, o2, o3⟩ := C136_spei E hE hA G Φ η δ hI p e hp he hlen k h1 h2 .monthly (by simp) ds cs ce c1 c2 c3 _ rfl hs acc ha m hm0.symm hxl
  rw [ho] at o1
  cases o1
  refine ⟨o2, acc.map real64, by rw [List.length_map, hl], fun t ht => ?_, ?_⟩
  · have := hm t ht
    revert this
    cases accum (List.zipWith (fun x y => x.bind fun u => y.map fun v => u - v + 1000) (p.map real64) (e.map real64)) k t with
    | none =>
      intro this
      simp only at this ⊢
      rw [List.getElem?_map, this]
      rfl
    | some a => exact id
  · intro t v hv m' s hm' hs'
    have : m' = m := by omega
    subst this
    exact o3 t v hv s hs'

open Classical in
/-- **C140.** The documented command line for SPEI of monthly precipitation and a PET file, in IEEE float64 arithmetic: the tool ends without exception exactly if the Pearson index can be computed at every
place (the gamma index always can); then it has written exactly two files per scale and changed no other file, and at every place the values in the gamma files are the gamma SPEI of the precipitation
and evapotranspiration of that place in the sense of `GammaBalance64`. -/
theorem C140_spei (E : Ext (B64 σ)) (hE : ExtNan E) (hA : Accurate E) (G : ℝ → ℝ → ℝ → ℝ) (Φ : ℝ → ℝ) (η δ : ℝ) (hI : IndexNear E G Φ η δ) (T : Trig (B64 σ))
    (toInt : String → Option Int) (ht : ∀ n : Int, toInt (toString n) = some n) (cpus : Nat) (lower : String → String)
    (yearOf : B64 σ → Int) (cmp : CoordCmp (B64 σ)) (j : String → Bool) (c : MainCommand) (hc : Writable j c) (hi : c.args.index = "spei") (cs ce : Int)
    (hcs : c.calibrationStart = some cs) (hce : c.calibrationEnd = some ce) (hcpu : 1 ≤ numberOfWorkers c.multiprocessing cpus) (w : World (B64 σ)) {f v fe ve : String} {d de : NcFile (B64 σ)}
    {x xe : NcVar (B64 σ)} {A b n : Nat} {mm pe : List (B64 σ)} {y0 y1 : Int} (hM : Monthly lower yearOf c.args w f v d x A b n mm y0 y1) (hP : PetFile lower cmp c.args w d x v fe ve de xe pe)
    (hfresh : w.shared "result_array" = none) (scales : List Nat) (hs : c.args.scales = some (scales.map Int.ofNat)) (hsc : ∀ s ∈ scales, 1 ≤ s ∧ s ≤ n) (c1 : y0 ≤ cs) (c2 : cs ≤ ce)
    (c3 : ce < y0 + yearsOf n 12) :
    ∃ res w', mainTool E T toInt cpus lower yearOf cmp (commandLine j c) w = (.ended res, w') ∧
      (res = .ok () ↔ ∀ s ∈ scales, ∀ i < A, ∀ k < b, ∃ r, spei E (Arr.of1d (seriesAt b n i k mm)) (Arr.of1d (seriesAt b n i k pe)) s .pearson .monthly y0 cs ce none = .ok r) ∧
      (res = .ok () → w'.written = w.written ++ entries c.args.outputFileBase (speiOutputs scales) ∧
        (∀ g, (∀ o ∈ speiOutputs scales, g ≠ fileName c.args.outputFileBase o.name) → w'.files g = w.files g) ∧
        ∀ s ∈ scales, FileHolds w'.files (c.args.outputFileBase ++ "_" ++ ("spei_gamma_" ++ twoDigits s) ++ ".nc") ("spei_gamma_" ++ twoDigits s) d x A b n
          (fun i k out => GammaBalance64 G Φ η δ (seriesAt b n i k mm) (seriesAt b n i k pe) s y0 cs ce out)) := by
  have hdoc : documented c.args.index true scales = speiOutputs scales := by rw [hi]; rfl
  have hmo : ∀ o, o ∈ speiOutputs scales ↔ ∃ s ∈ scales, o = .spei .pearson s ∨ o = .spei .gamma s := by
    intro o
    simp [speiOutputs]
  obtain ⟨it, hlay⟩ : ∃ it, IsLayout it x.shape A b n := by
    rcases hM.layout with ⟨_, h⟩ | ⟨_, h, hb⟩
    · exact ⟨.grid, .inl ⟨rfl, h⟩⟩
    · exact ⟨.divisions, .inr ⟨rfl, h, hb⟩⟩
  have hlen : ∀ i < A, ∀ k < b, (seriesAt b n i k mm).length = n := by
    intro i hi' k hk
    obtain ⟨u, hu, hcv⟩ := hM.units
    exact seriesAt_len hlay (by rw [convert_length.1 hcv]; exact hM.input.wf) hi' hk
  have hlene : ∀ i < A, ∀ k < b, (seriesAt b n i k pe).length = n := by
    intro i hi' k hk
    obtain ⟨u, hu, hcv⟩ := hP.units
    exact seriesAt_len hlay (by rw [convert_length.2.2 hcv, ← hP.shape]; exact hP.input.wf) hi' hk
  have hmap : ∀ dist (s : ℕ) (l e : List (B64 σ)), (∃ r, resultFor₂ E cs ce y0 (.spei dist s) l e = .ok r) ↔ ∃ r, spei E (Arr.of1d l) (Arr.of1d e) s dist .monthly y0 cs ce none = .ok r := by
    intro dist s l e
    unfold resultFor₂
    simp only
    generalize spei E (Arr.of1d l) (Arr.of1d e) s dist .monthly y0 cs ce none = q
    cases q with
    | error err =>
      constructor
      · rintro ⟨r, hr⟩
        cases hr
      · rintro ⟨r, hr⟩
        cases hr
    | ok r => exact ⟨fun _ => ⟨r, rfl⟩, fun _ => ⟨_, rfl⟩⟩
  rw [C106_given E T toInt cpus lower yearOf cmp (commandLine j c) w c (C105_main toInt ht j c hc) cs ce hcs hce]
  obtain ⟨res, w', h1, h2, h3, h4, h5⟩ := C116_run E hE T cs ce _ hcpu lower yearOf cmp c.args w (.inl hi) hM hP hfresh scales hs
  rw [hdoc] at h2 h3 h4 h5
  rw [h1]
  refine ⟨res, w', rfl, ?_, fun hok => ?_⟩
  · rw [h2]
    constructor
    · intro h s hs' i hi' k hk
      exact (hmap _ _ _ _).1 (h _ ((hmo _).2 ⟨s, hs', .inl rfl⟩) i hi' k hk)
    · intro h o ho i hi' k hk
      obtain ⟨s, hs', rfl | rfl⟩ := (hmo o).1 ho
      · exact (hmap _ _ _ _).2 (h s hs' i hi' k hk)
      · exact (hmap _ _ _ _).2 (spei_gamma_total E _ _ (by rw [hlen i hi' k hk, hlene i hi' k hk]) s (by exact_mod_cast (hsc s hs').1) .monthly (by simp) y0 cs ce)
  · have hall := h2.1 hok
    have htake : (speiOutputs scales).takeWhile (fun o => decide (Computable₂ E cs ce y0 mm pe A b n o)) = speiOutputs scales := by
      rw [List.takeWhile_eq_self_iff]
      intro o ho
      exact decide_eq_true (hall o ho)
    rw [htake] at h3 h4 h5
    refine ⟨h3, h5, fun s hs' => ?_⟩
    obtain ⟨file, y, g1, g2, ⟨g3, g4⟩, ⟨g5, _⟩, g6⟩ := h4 (.spei .gamma s) ((hmo _).2 ⟨s, hs', .inr rfl⟩)
    have hn : (Output.spei .gamma s).name = "spei_gamma_" ++ twoDigits s := rfl
    rw [hn] at g1 g2
    refine ⟨file, y, g1, g2, g3, g5, g4, fun i hi' k hk => ?_⟩
    have hl := hlen i hi' k hk
    have hr := g6 i hi' k hk
    beta_reduce at hr ⊢
    unfold resultFor₂ at hr
    simp only at hr
    cases ho : spei E (Arr.of1d (seriesAt b n i k mm)) (Arr.of1d (seriesAt b n i k pe)) s .gamma .monthly y0 cs ce none with
    | error err => rw [ho] at hr; cases hr
    | ok o =>
      rw [ho] at hr
      rw [← Except.ok.inj hr]
      exact gamma_balance64 E hE hA G Φ η δ hI _ _ (by rw [hl, hlene i hi' k hk]) s (hsc s hs').1 (by rw [hl]; exact (hsc s hs').2) y0 cs ce c1 c2 (by rw [hl]; exact c3) o ho

/-! ## Concrete runs that end without exception -/

/-- three years of rain, and two years without a report -/
def threeRain64 : List (B64 leftToRight) := fiveRain64.take 36 ++ List.replicate 24 nan

def exRainVar3 : NcVar (B64 leftToRight) := ⟨["lat", "lon", "time"], [1, 1, 60], some "mm", threeRain64⟩

def exRainFile3 : NcFile (B64 leftToRight) := [("prcp", exRainVar3), ("lat", ⟨["lat"], [1], none, [lit 45.5]⟩), ("lon", ⟨["lon"], [1], none, [lit 0]⟩), ("time", exTime 60)]

def exEvapVar : NcVar (B64 leftToRight) := ⟨["lat", "lon", "time"], [1, 1, 60], some "mm", fiveEvap64⟩

def exEvapFile : NcFile (B64 leftToRight) := [("pet", exEvapVar), ("lat", ⟨["lat"], [1], none, [lit 45.5]⟩), ("lon", ⟨["lon"], [1], none, [lit 0]⟩), ("time", exTime 60)]

def exWorld3 : World (B64 leftToRight) := ⟨fun g => if g = "p.nc" then some exRainFile3 else if g = "e.nc" then some exEvapFile else none, fun _ => none, []⟩

theorem ex_rain3 (a : CliArgs) (h1 : a.netcdfPrecip = some "p.nc") (h2 : a.varNamePrecip = some "prcp") (h3 : a.outputFileBase = "out") (h4 : a.periodicity = .monthly) :
    Monthly id monthYear a exWorld3 "p.nc" "prcp" exRainFile3 exRainVar3 1 1 60 threeRain64 2000 2004 := by
  refine ⟨⟨h1, h2, rfl, rfl, rfl, by decide, by rw [h3]; exact demo_notOutput _ (by decide)⟩, .inl ⟨rfl, rfl⟩, by decide, ?_, ?_, ⟨exTime 60, lit ((0 : ℕ) : ℚ), lit ((59 : ℕ) : ℚ), rfl, rfl, rfl, ?_, ?_⟩, ⟨"mm", rfl, ?_⟩, h4⟩
  · intro c hc
    rcases (show c = "lat" ∨ c = "lon" ∨ c = "time" by simpa [exRainVar3] using hc) with rfl | rfl | rfl
    · exact ⟨_, rfl⟩
    · exact ⟨_, rfl⟩
    · exact ⟨_, rfl⟩
  · intro h
    exact absurd h (by simp [exRainVar3])
  · decide +kernel
  · decide +kernel
  · unfold convertPrecip
    rw [if_pos (by decide)]
    rfl

theorem ex_pet3 (cmp : CoordCmp (B64 leftToRight)) (hcmp : ∀ l, cmp.close l l = .ok true ∧ cmp.equal l l = true) :
    PetFile id cmp (duoArgs "spei") exWorld3 exRainFile3 exRainVar3 "prcp" "e.nc" "pet" exEvapFile exEvapVar fiveEvap64 := by
  refine ⟨⟨rfl, rfl, rfl, rfl, rfl, by decide, demo_notOutput _ (by decide)⟩, rfl, rfl, by decide, .inl rfl, ?_, fun c _ y _ => hcmp y.data, ?_, ⟨"mm", rfl, ?_⟩, rfl⟩
  · intro c hc
    rcases (show c = "lat" ∨ c = "lon" ∨ c = "time" by simpa [exRainVar3] using hc) with rfl | rfl | rfl
    · exact ⟨_, _, rfl, rfl, rfl⟩
    · exact ⟨_, _, rfl, rfl, rfl⟩
    · exact ⟨_, _, rfl, rfl, rfl⟩
  · intro c x y h1 h2 h3 h4
    simp only [exRainFile3, exEvapFile, List.mem_cons, Prod.mk.injEq, List.not_mem_nil, or_false] at h1 h2
    rcases h1 with ⟨rfl, rfl⟩ | ⟨rfl, rfl⟩ | ⟨rfl, rfl⟩ | ⟨rfl, rfl⟩
    · exact absurd h3 (by simp [exRainVar3])
    all_goals
      rcases h2 with ⟨e, rfl⟩ | ⟨e, rfl⟩ | ⟨e, rfl⟩ | ⟨e, rfl⟩
      · exact absurd e (by decide)
      all_goals first | exact absurd e (by decide) | rfl
  · unfold convertPet
    rw [if_pos (by decide)]
    rfl

/-- whether a result is there -/
def isThere {α : Type} : Res α → Bool
  | .ok _ => true
  | .error _ => false

theorem there_ok {α : Type} {r : Res α} (h : isThere r = true) : ∃ a, r = .ok a := by
  cases r with
  | ok a => exact ⟨a, rfl⟩
  | error e => cases h

/-- C140 and C139 for that record: the runs end without exception and the gamma files are there -/
example (T : Trig (B64 leftToRight)) (cmp : CoordCmp (B64 leftToRight)) (hcmp : ∀ l, cmp.close l l = .ok true ∧ cmp.equal l l = true) (toInt : String → Option Int) (ht : ∀ n : Int, toInt (toString n) = some n) :
    (∃ w' file y, mainTool nearIndex T toInt 1 id monthYear cmp (commandLine (fun _ => false) (duoCommand "spei")) exWorld3 = (.ended (.ok ()), w') ∧
      w'.files "out_spei_gamma_01.nc" = some file ∧ ("spei_gamma_01", y) ∈ file ∧
      GammaBalance64 (fun v _ b => v / (v + b)) (fun p => 6 * p - 3) (1 / 2 ^ 50) (1 / 2 ^ 50) threeRain64 fiveEvap64 1 2000 2000 2004 (seriesAt 1 60 0 0 y.data)) ∧
    ∃ w' file y, mainTool nearIndex T toInt 1 id monthYear cmp (commandLine (fun _ => false) (soloCommand "spi")) exWorld3 = (.ended (.ok ()), w') ∧
      w'.files "out_spi_gamma_01.nc" = some file ∧ ("spi_gamma_01", y) ∈ file ∧
      GammaIndex64 (fun v _ b => v / (v + b)) (fun p => 6 * p - 3) (1 / 2 ^ 50) (1 / 2 ^ 50) threeRain64 1 2000 2000 2004 (seriesAt 1 60 0 0 y.data) := by
  have hser : seriesAt 1 60 0 0 threeRain64 = threeRain64 := rfl
  have hsere : seriesAt 1 60 0 0 fiveEvap64 = fiveEvap64 := rfl
  constructor
  · obtain ⟨res, w', h1, h2, h3⟩ := C140_spei nearIndex nearIndex_nan ⟨nearExt_accurate.log, nearExt_accurate.sqrt⟩ _ _ _ _ nearIndex_near T toInt ht 1 id monthYear cmp (fun _ => false) (duoCommand "spei")
      (duo_writable (by decide)) rfl 2000 2004 rfl rfl (by decide) exWorld3 (ex_rain3 _ rfl rfl rfl rfl) (ex_pet3 cmp hcmp) rfl [1] rfl (by decide) le_rfl (by norm_num) (by norm_num [yearsOf])
    have hok : res = .ok () := h2.2 (by
      intro s hs i hi k hk
      obtain rfl : s = 1 := by simpa using hs
      obtain rfl : i = 0 := by omega
      obtain rfl : k = 0 := by omega
      rw [hser, hsere]
      exact there_ok (by decide +kernel))
    obtain ⟨_, _, h4⟩ := h3 hok
    obtain ⟨file, y, g1, g2, _, _, _, g6⟩ := h4 1 (by decide)
    have hn : "spei_gamma_" ++ twoDigits 1 = "spei_gamma_01" := by decide +kernel
    rw [hn] at g1 g2
    have := g6 0 (by decide) 0 (by decide)
    beta_reduce at this
    rw [hser, hsere] at this
    rw [hok] at h1
    exact ⟨w', file, y, h1, g1, g2, this⟩
  · obtain ⟨res, w', h1, h2, h3⟩ := C139_spi nearIndex nearIndex_nan ⟨nearExt_accurate.log, nearExt_accurate.sqrt⟩ _ _ _ _ nearIndex_near T toInt ht 1 id monthYear cmp (fun _ => false) (soloCommand "spi")
      (solo_writable (by decide)) rfl 2000 2004 rfl rfl (by decide) exWorld3 (ex_rain3 _ rfl rfl rfl rfl) rfl [1] rfl (by decide) le_rfl (by norm_num) (by norm_num [yearsOf])
    have hok : res = .ok () := h2.2 (by
      intro s hs i hi k hk
      obtain rfl : s = 1 := by simpa using hs
      obtain rfl : i = 0 := by omega
      obtain rfl : k = 0 := by omega
      rw [hser]
      exact there_ok (by decide +kernel))
    obtain ⟨_, _, h4⟩ := h3 hok
    obtain ⟨file, y, g1, g2, _, _, _, g6⟩ := h4 1 (by decide)
    have hn : "spi_gamma_" ++ twoDigits 1 = "spi_gamma_01" := by decide +kernel
    rw [hn] at g1 g2
    have := g6 0 (by decide) 0 (by decide)
    beta_reduce at this
    rw [hser] at this
    rw [hok] at h1
    exact ⟨w', file, y, h1, g1, g2, this⟩

end CI.Props
