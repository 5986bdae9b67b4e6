import Verif.Lemmas.CliCells
import Verif.Props.SpiBasic
import Verif.Props.Cli

/-!
# C66: the values in the output files of the main command line tool
-/

namespace CI.Props
open CI Spec

variable {F : Type} [FloatOps F]

/-! ## Sizes of the results of the index functions -/

/-- the result of `spei` has one value per value of the precipitation -/
theorem spei_size [FloatLaws F] (E : Ext F) (hE : ExtNan E) (p e : Arr F) (scale : Int) (dist : Distribution) (per : Periodicity) (ds cs ce : Int) (fp : Option (FitDict F))
    (out : Arr F) (h : spei E p e scale dist per ds cs ce fp = .ok out) : out.data.length = p.data.length := by
  rcases spei_inv E p e scale dist per ds cs ce fp out h with ⟨_, rfl⟩ | ⟨_, hl, s, t, hs, ht, rfl⟩
  · rfl
  · have hge := sumToScale_length_ge _ _ _ hs
    rw [List.length_zipWith, clipNeg_length, ← hl, Nat.min_self] at hge
    have key : s.length ≤ t.data.length := by
      cases hn : allNan s with
      | true =>
        have hn' : allNan (Arr.of1d s).data = true := hn
        have : t = Arr.of1d s := by
          cases dist with
          | other => cases ht
          | gamma =>
            simp only [distTransform, bind, Except.bind] at ht
            cases hg : getGammaArgs (normFitdict fp) with
            | error e => rw [hg] at ht; cases ht
            | ok ab =>
              rw [hg] at ht
              simp only [transformFittedGamma, hn', if_true] at ht
              cases ht
              rfl
          | pearson =>
            simp only [distTransform, bind, Except.bind] at ht
            cases hg : getPearsonArgs (normFitdict fp) with
            | error e => rw [hg] at ht; cases ht
            | ok ab =>
              rw [hg] at ht
              simp only [transformFittedPearson, hn', if_true] at ht
              split at ht
              · cases ht
              · cases ht
                rfl
        rw [this]
        exact le_refl _
      | false =>
        by_cases hper : per = .other
        · subst hper
          exfalso
          have hn' : allNan (Arr.of1d s).data = false := hn
          have hv : validateArray (Arr.of1d s) .other = .error .valueError := rfl
          cases dist with
          | other => cases ht
          | gamma =>
            simp only [distTransform, bind, Except.bind] at ht
            cases hg : getGammaArgs (normFitdict fp) with
            | error e => rw [hg] at ht; cases ht
            | ok ab =>
              rw [hg] at ht
              simp only [transformFittedGamma, hn', hv, bind, Except.bind] at ht
              cases ht
          | pearson =>
            simp only [distTransform, bind, Except.bind] at ht
            cases hg : getPearsonArgs (normFitdict fp) with
            | error e => rw [hg] at ht; cases ht
            | ok ab =>
              rw [hg] at ht
              simp only [transformFittedPearson, hn', hv, bind, Except.bind] at ht
              split at ht
              · cases ht
              · cases ht
        · obtain ⟨n, h1, h2⟩ := distTransform_of1d E s dist ds cs ce per (normFitdict fp) hn hper
          rw [h2] at ht
          rw [(distTransform_point E hE n _ dist ds cs ce per _ t hper h1 ht).1, List.length_append]
          omega
    show (clipFlattenTruncate t p.data.length).length = p.data.length
    unfold clipFlattenTruncate
    rw [List.length_take, List.length_map]
    omega

/-- the result of `pet` has one value per temperature -/
theorem pet_size (T : Trig F) (x : List F) (lat : Option F) (y : Int) (out : List F) (h : pet T (Arr.of1d x) lat y = .ok out) : out.length = x.length := by
  unfold pet at h
  split at h
  · cases h
    rfl
  · split at h
    · cases h
    · split at h
      · unfold etoThornthwaite at h
        rw [reshapeTo2d_of1d x 12 (by omega)] at h
        obtain ⟨a, h1, h⟩ := Res.bind_ok h
        cases h1
        obtain ⟨dn, _, h⟩ := Res.bind_ok h
        obtain ⟨dl, _, h⟩ := Res.bind_ok h
        cases h
        simp [Arr.of1d]
      · cases h

/-- a percentage of normal that could be stored in the place of its series is as long as the series -/
theorem pnp_assign (x : List F) (s : Int) (ds cs ce : Int) (per : Periodicity) (out t : List F) (h : percentageOfNormal x (some s) ds cs ce per = .ok out)
    (ht : assignSeries x.length out = .ok t) : t = out := by
  have hlen : out.length = x.length ∨ (1 < out.length ∧ x.length < out.length) := by
    unfold percentageOfNormal at h
    simp only [] at h
    split at h
    · cases h
    next hs =>
    split at h
    · cases h
    · split at h
      · cases h
      · split at h
        · cases h
        · obtain ⟨sums, h1, h⟩ := Res.bind_ok h
          cases h
          rw [List.length_mapIdx]
          unfold sumToScale at h1
          split at h1
          · cases h1
            exact .inl rfl
          · next hs1 =>
            obtain ⟨c, h2, h1⟩ := Res.bind_ok h1
            cases h1
            unfold convolveOnes at h2
            split at h2
            · cases h2
            · next hz =>
              dsimp only at h2
              split at h2
              · cases h2
                left
                simp
                omega
              · cases h2
                right
                simp
                omega
  rcases hlen with hl | ⟨h1, h2⟩
  · exact assignSeries_same ht hl
  · exfalso
    unfold assignSeries at ht
    rw [if_neg (by omega)] at ht
    split at ht
    · simp at h1
    · cases ht

/-! ## Names of the jobs -/

omit [FloatOps F] in
theorem vn_spi (a : CliArgs) (it : InputType) (n : Int) (hn : 0 ≤ n) (dist : Distribution) (hd : dist ∈ distributions) (p t e w : Option (String × String)) :
    variableName (mkJob a it "spi" (some n) (some dist) p t e w) = .ok (Output.spi dist n.toNat).name := by
  obtain ⟨m, rfl⟩ := Int.eq_ofNat_of_zero_le hn
  simp only [distributions, List.mem_cons, List.not_mem_nil, or_false] at hd
  rcases hd with rfl | rfl <;> simp [mkJob, variableName, Output.name, distName, Distribution.value, zfill2_twoDigits, Int.toNat_natCast]

omit [FloatOps F] in
theorem vn_spei (a : CliArgs) (it : InputType) (n : Int) (hn : 0 ≤ n) (dist : Distribution) (hd : dist ∈ distributions) (p t e w : Option (String × String)) :
    variableName (mkJob a it "spei" (some n) (some dist) p t e w) = .ok (Output.spei dist n.toNat).name := by
  obtain ⟨m, rfl⟩ := Int.eq_ofNat_of_zero_le hn
  simp only [distributions, List.mem_cons, List.not_mem_nil, or_false] at hd
  rcases hd with rfl | rfl <;> simp [mkJob, variableName, Output.name, distName, Distribution.value, zfill2_twoDigits, Int.toNat_natCast]

omit [FloatOps F] in
theorem vn_pnp (a : CliArgs) (it : InputType) (n : Int) (hn : 0 ≤ n) (p t e w : Option (String × String)) :
    variableName (mkJob a it "pnp" (some n) none p t e w) = .ok (Output.pnp n.toNat).name := by
  obtain ⟨m, rfl⟩ := Int.eq_ofNat_of_zero_le hn
  simp [mkJob, variableName, Output.name, zfill2_twoDigits, Int.toNat_natCast]

/-! ## Files that a phase of the run leaves as they are -/

section
variable {K : Int → Job → List F → List F → Res (List F)} {wk : Nat} {lower : String → String} {yearOf : F → Int} {a : CliArgs} {it : InputType} {w w' : World F}

theorem runSpi_files (h : runSpi K wk lower yearOf a it w = (.ok (), w')) (hs : a.index ≠ "pet" → ∀ n ∈ a.scales.getD [], 0 ≤ n) {g : String}
    (hg : ∀ dist n, g ≠ fileName a.outputFileBase (Output.spi dist n).name) : w'.files g = w.files g := by
  unfold runSpi at h
  split at h
  · next hc =>
    have hs := hs (by rintro e; rw [e] at hc; exact absurd hc (by decide))
    have h := getFiles_bind h
    obtain ⟨fp, _, h⟩ := lift_bind h
    obtain ⟨s, hs', h⟩ := lift_bind h
    rw [orElseRaise_ok hs', Option.getD_some] at hs
    refine runJobs_files _ h ?_
    intro j hj n hn
    simp only [List.mem_flatMap, List.mem_map] at hj
    obtain ⟨m, hm, dist, hd, rfl⟩ := hj
    rw [vn_spi a it m (hs m hm) dist hd] at hn
    cases hn
    exact hg _ _
  · cases h
    rfl

theorem runSpei_files {pet : Option String × Option String} (h : runSpei K wk lower yearOf a it pet w = (.ok (), w')) (hs : a.index ≠ "pet" → ∀ n ∈ a.scales.getD [], 0 ≤ n) {g : String}
    (hg : ∀ dist n, g ≠ fileName a.outputFileBase (Output.spei dist n).name) : w'.files g = w.files g := by
  unfold runSpei at h
  split at h
  · next hc =>
    have hs := hs (by rintro e; rw [e] at hc; exact absurd hc (by decide))
    have h := getFiles_bind h
    obtain ⟨fp, _, h⟩ := lift_bind h
    obtain ⟨fe, _, h⟩ := lift_bind h
    obtain ⟨s, hs', h⟩ := lift_bind h
    rw [orElseRaise_ok hs', Option.getD_some] at hs
    refine runJobs_files _ h ?_
    intro j hj n hn
    simp only [List.mem_flatMap, List.mem_map] at hj
    obtain ⟨m, hm, dist, hd, rfl⟩ := hj
    rw [vn_spei a it m (hs m hm) dist hd] at hn
    cases hn
    exact hg _ _
  · cases h
    rfl

theorem runPnp_files (h : runPnp K wk lower yearOf a it w = (.ok (), w')) (hs : a.index ≠ "pet" → ∀ n ∈ a.scales.getD [], 0 ≤ n) {g : String}
    (hg : ∀ n, g ≠ fileName a.outputFileBase (Output.pnp n).name) : w'.files g = w.files g := by
  unfold runPnp at h
  split at h
  · next hc =>
    have hs := hs (by rintro e; rw [e] at hc; exact absurd hc (by decide))
    have h := getFiles_bind h
    obtain ⟨fp, _, h⟩ := lift_bind h
    obtain ⟨s, hs', h⟩ := lift_bind h
    rw [orElseRaise_ok hs', Option.getD_some] at hs
    refine runJobs_files _ h ?_
    intro j hj n hn
    simp only [List.mem_map] at hj
    obtain ⟨m, hm, rfl⟩ := hj
    rw [vn_pnp a it m (hs m hm)] at hn
    cases hn
    exact hg _
  · cases h
    rfl

theorem runPet_files {pet : Option String × Option String} (h : runPet K wk lower yearOf a it w = (.ok pet, w')) {g : String}
    (hg : g ≠ fileName a.outputFileBase Output.pet.name) : w'.files g = w.files g := by
  unfold runPet at h
  split at h
  · cases hf : a.netcdfPet with
    | some f =>
      rw [hf] at h
      cases h
      rfl
    | none =>
      rw [hf] at h
      have h := getFiles_bind h
      obtain ⟨ft, _, h⟩ := lift_bind h
      obtain ⟨r, w1, h1, h2⟩ := SE.bind_ok h
      cases h2
      obtain ⟨c1, c2, c3⟩ := cwi_files h1
      simp only [variableName, mkJob, Except.ok.injEq] at c1
      refine c3 g ?_
      rw [c2, ← c1]
      exact hg
  · cases h
    rfl

/-! ## C66 -/

omit [FloatOps F] in
/-- the kind of input of a run on precipitation with a layout -/
theorem run_layout {cmp : CoordCmp F} {fs : Files F} (hv : validateArgs cmp fs a = .ok it) (hi : a.index ≠ "pet") {f v : String} {d : NcFile F} {x : NcVar F} {A b n : Nat}
    (hin : Input fs a.outputFileBase a.netcdfPrecip a.varNamePrecip f v d x) (hl : Layout x A b n) : IsLayout it x.shape A b n := by
  obtain ⟨f', v', d', x', h1, h2, h3, h4, h5⟩ := (C50_inputs_partial cmp fs a it hv).1 hi
  rw [hin.file] at h1
  cases h1
  rw [hin.var] at h2
  cases h2
  rw [hin.opened] at h3
  cases h3
  rw [hin.found] at h4
  cases h4
  rcases hl with ⟨e1, e2⟩ | ⟨e1, e2, e3⟩
  · rw [e1] at h5
    left
    refine ⟨?_, e2⟩
    cases it <;> simp [dataDims] at h5 ⊢
  · rw [e1] at h5
    right
    refine ⟨?_, e2, e3⟩
    cases it <;> simp [dataDims] at h5 ⊢

omit [FloatOps F] in
theorem run_scales {cmp : CoordCmp F} {fs : Files F} (hv : validateArgs cmp fs a = .ok it) (hi : a.index ∈ ["spi", "spei", "scaled", "pnp"]) : ∀ n ∈ a.scales.getD [], 0 ≤ n := by
  obtain ⟨s, h1, h2⟩ := (C50_inputs_partial cmp fs a it hv).2.2.2.2 hi
  rw [h1]
  exact h2

end

/-- the SPI phase of a finished run, row by row, with any index function -/
theorem spi_run_any (K : Int → Job → List F → List F → Res (List F)) (wk : Nat) (lower : String → String) (yearOf : F → Int) (cmp : CoordCmp F) (a : CliArgs) (w w' : World F)
    (h : processIndices K wk lower yearOf cmp a w = (.ok (), w')) (hi : a.index = "spi" ∨ a.index = "scaled")
    {f v : String} {d : NcFile F} {x : NcVar F} {A b n : Nat} (hin : Input w.files a.outputFileBase a.netcdfPrecip a.varNamePrecip f v d x) (hl : ∀ it, validateArgs cmp w.files a = .ok it → IsLayout it x.shape A b n)
    {y0 y1 : Int} (hy : Years yearOf d y0 y1) (s : Int) (hs : s ∈ a.scales.getD []) (dist : Distribution) (hd : dist = .pearson ∨ dist = .gamma) :
    ∃ u mm it, x.units = some u ∧ convertPrecip (lower u) x.data = .ok mm ∧ validateArgs cmp w.files a = .ok it ∧ dropDimsOk it x.dims = true ∧
      ∃ file y, w'.files (fileName a.outputFileBase (Output.spi dist s.toNat).name) = some file ∧ ((Output.spi dist s.toNat).name, y) ∈ file ∧ (y.dims = x.dims ∧ Carries d file) ∧
        (y.shape = x.shape ∧ y.data.length = x.shape.foldr (· * ·) 1) ∧
        ∀ i < A, ∀ k < b, ∃ p r t, preparedIt it a.periodicity y0 y1 (seriesAt b n i k mm) = .ok p ∧
          K y0 (mkJob a it "spi" (some s) (some dist) (some (f, a.varNamePrecip.getD "")) none none none) p p = .ok r ∧ assignSeries p.length r = .ok t ∧
          restored a.periodicity y0 t = .ok (seriesAt b n i k y.data) := by
  obtain ⟨it, w1, w2, w3, pet, hv, h1, h2, h3, h4, _⟩ := process_ok _ wk lower yearOf h
  have hil := hl it hv
  have hsc := run_scales hv (by rcases hi with hi | hi <;> rw [hi] <;> decide)
  have hkeep : w'.files (fileName a.outputFileBase (Output.spi dist s.toNat).name) = w1.files (fileName a.outputFileBase (Output.spi dist s.toNat).name) := by
    rw [runPnp_files h4 (fun _ => hsc) (fun m e => by cases output_name_inj (fileName_inj e)), runSpei_files h3 (fun _ => hsc) (fun dist m e => by cases output_name_inj (fileName_inj e)),
      runPet_files h2 (fun e => by cases output_name_inj (fileName_inj e))]
  unfold runSpi at h1
  rw [if_pos (by rcases hi with hi | hi <;> rw [hi] <;> decide)] at h1
  have h1 := getFiles_bind h1
  obtain ⟨fp, hfp, h1⟩ := lift_bind h1
  obtain ⟨sc, hsc', h1⟩ := lift_bind h1
  have e1 := orElseRaise_ok hsc'
  rw [e1, Option.getD_some] at hs hsc
  have e2 := prepareFile_ok hfp
  rw [hin.file] at e2
  cases e2
  have hdd : ∀ dist : Distribution, dist = .pearson ∨ dist = .gamma → dist ∈ distributions := by
    rintro _ (rfl | rfl) <;> decide
  have key := (runJobs_each (G := [(f, d)]) (P := fun j new => ∃ u mm y nm, variableName j = .ok nm ∧ x.units = some u ∧ convertPrecip (lower u) x.data = .ok mm ∧ (nm, y) ∈ new ∧ (y.dims = x.dims ∧ Carries d new) ∧ (y.shape = x.shape ∧ y.data.length = x.shape.foldr (· * ·) 1) ∧ dropDimsOk j.inputType x.dims = true ∧
      ∀ i < A, ∀ k < b, ∃ p s t, preparedIt j.inputType j.periodicity y0 y1 (seriesAt b n i k mm) = .ok p ∧ K y0 j p p = .ok s ∧ assignSeries p.length s = .ok t ∧
        restored j.periodicity y0 t = .ok (seriesAt b n i k y.data)) _
    ?_ ?_ ?_ ?_ (by simpa using hin.opened) h1).2 (mkJob a it "spi" (some s) (some dist) (some (f, a.varNamePrecip.getD "")) none none none) (by
      simp only [List.mem_flatMap, List.mem_map]
      exact ⟨s, hs, dist, hdd dist hd, rfl⟩)
  · obtain ⟨nm, new, k1, k2, u, mm, y, nm', k3, k4, k5, k6, k7, k8, k8', k9⟩ := key
    rw [k1] at k3
    cases k3
    rw [vn_spi a it s (hsc s hs) dist (hdd dist hd)] at k1
    cases k1
    refine ⟨u, mm, it, k4, k5, hv, k8', new, y, ?_, k6, k7, k8, k9⟩
    rw [hkeep]
    exact k2
  · intro p hp j hj m hm
    rw [List.mem_singleton] at hp
    subst hp
    simp only [List.mem_flatMap, List.mem_map] at hj
    obtain ⟨s', hs', dist', hd', rfl⟩ := hj
    rw [vn_spi a it s' (hsc s' hs') dist' hd'] at hm
    cases hm
    exact hin.notOutput _
  · intro j hj j' hj' m hm hm'
    simp only [List.mem_flatMap, List.mem_map] at hj hj'
    obtain ⟨s', hs', dist', hd', rfl⟩ := hj
    obtain ⟨s'', hs'', dist'', hd'', rfl⟩ := hj'
    rw [vn_spi a it s' (hsc s' hs') dist' hd'] at hm
    rw [vn_spi a it s'' (hsc s'' hs'') dist'' hd''] at hm'
    cases hm
    simp only [Except.ok.injEq] at hm'
    have := output_name_inj hm'
    simp only [Output.spi.injEq] at this
    obtain ⟨rfl, e⟩ := this
    have := hsc s' hs'
    have := hsc s'' hs''
    have : s' = s'' := by omega
    rw [this]
  · intro j hj j' hj'
    simp only [List.mem_flatMap, List.mem_map] at hj hj'
    obtain ⟨s', hs', dist', hd', rfl⟩ := hj
    obtain ⟨s'', hs'', dist'', hd'', rfl⟩ := hj'
    rfl
  · intro j hj v1 v2 r hfs hr
    simp only [List.mem_flatMap, List.mem_map] at hj
    obtain ⟨s', hs', dist', hd', rfl⟩ := hj
    have hvar : a.varNamePrecip.getD "" = v := by rw [hin.var]; rfl
    obtain ⟨u, mm, new, y, c1, c2, c3, c4, c5, c6, c6', c7⟩ := cwi_precip hr (.inl rfl) (by rw [← hvar]; rfl) rfl rfl hin.reserved (hfs (f, d) (by simp)) hin.found hil hin.wf hy
    exact ⟨new, c3, u, mm, y, r.2, (cwi_files hr).1, c1, c2, c4, c5, c6, c6', c7⟩

/-- SPI of a finished run, row by row -/
theorem spi_run [FloatLaws F] (E : Ext F) (hE : ExtNan E) (T : Trig F) (cs ce : Int) (wk : Nat) (lower : String → String) (yearOf : F → Int) (cmp : CoordCmp F) (a : CliArgs) (w w' : World F)
    (h : processIndices (indexFunction E T cs ce) wk lower yearOf cmp a w = (.ok (), w')) (hi : a.index = "spi" ∨ a.index = "scaled")
    {f v : String} {d : NcFile F} {x : NcVar F} {A b n : Nat} (hin : Input w.files a.outputFileBase a.netcdfPrecip a.varNamePrecip f v d x) (hl : ∀ it, validateArgs cmp w.files a = .ok it → IsLayout it x.shape A b n)
    {y0 y1 : Int} (hy : Years yearOf d y0 y1) (s : Int) (hs : s ∈ a.scales.getD []) (dist : Distribution) (hd : dist = .pearson ∨ dist = .gamma) :
    ∃ u mm it, x.units = some u ∧ convertPrecip (lower u) x.data = .ok mm ∧ validateArgs cmp w.files a = .ok it ∧ dropDimsOk it x.dims = true ∧
      Holds w'.files a.outputFileBase (.spi dist s.toNat) d x A b n (fun i k => do
        let p ← preparedIt it a.periodicity y0 y1 (seriesAt b n i k mm)
        let r ← spi E (Arr.of1d p) s dist y0 cs ce a.periodicity none
        restored a.periodicity y0 r) := by
  obtain ⟨u, mm, it, k1, k2, k3, k4, file, y, k5, k6, k7, k8, k9⟩ := spi_run_any _ wk lower yearOf cmp a w w' h hi hin hl hy s hs dist hd
  refine ⟨u, mm, it, k1, k2, k3, k4, file, y, k5, k6, k7, k8, ?_⟩
  intro i hi' k hk
  obtain ⟨p, t, r, t0, t1, t2, t5⟩ := k9 i hi' k hk
  have t3 : spi E (Arr.of1d p) s dist y0 cs ce a.periodicity none = .ok t := t1
  have t4 := C10_size E hE _ _ _ _ _ _ _ _ _ t3
  rw [assignSeries_same t2 t4] at t5
  simp only [t0, t3, bind, Except.bind]
  exact t5

/-- **C66, SPI.** After every finished run of the tool for SPI (or all scaled indices), whatever the number of workers: for every scale and both distributions the documented file
has the documented variable, with the dimensions and the shape of the precipitation, and at every place its values are the SPI of the precipitation of that place in
millimetres, for the years that the time coordinate says. Daily values are in 366-day years for the computation (not those of divisions), and back in Gregorian years
afterwards. -/
theorem C66_spi [FloatLaws F] (E : Ext F) (hE : ExtNan E) (T : Trig F) (cs ce : Int) (wk : Nat) (lower : String → String) (yearOf : F → Int) (cmp : CoordCmp F) (a : CliArgs) (w w' : World F)
    (h : processIndices (indexFunction E T cs ce) wk lower yearOf cmp a w = (.ok (), w')) (hi : a.index = "spi" ∨ a.index = "scaled")
    {f v : String} {d : NcFile F} {x : NcVar F} {A b n : Nat} (hin : Input w.files a.outputFileBase a.netcdfPrecip a.varNamePrecip f v d x) (hl : Layout x A b n)
    {y0 y1 : Int} (hy : Years yearOf d y0 y1) (s : Int) (hs : s ∈ a.scales.getD []) (dist : Distribution) (hd : dist = .pearson ∨ dist = .gamma) :
    ∃ u mm, x.units = some u ∧ convertPrecip (lower u) x.data = .ok mm ∧
      Holds w'.files a.outputFileBase (.spi dist s.toNat) d x A b n
        (fun i k => onSeries x.dims a.periodicity y0 y1 (fun p => spi E (Arr.of1d p) s dist y0 cs ce a.periodicity none) (seriesAt b n i k mm)) := by
  have hip : a.index ≠ "pet" := by rcases hi with hi | hi <;> rw [hi] <;> decide
  obtain ⟨u, mm, it, k1, k2, k3, k4, k5⟩ := spi_run E hE T cs ce wk lower yearOf cmp a w w' h hi hin (fun _ hv => run_layout hv hip hin hl) hy s hs dist hd
  refine ⟨u, mm, k1, k2, ?_⟩
  unfold onSeries
  simp only [preparedIt_for hl (run_layout k3 hip hin hl) k4]
  exact k5

/-- the PNP phase of a finished run, row by row, with any index function -/
theorem pnp_run_any (K : Int → Job → List F → List F → Res (List F)) (wk : Nat) (lower : String → String) (yearOf : F → Int) (cmp : CoordCmp F) (a : CliArgs) (w w' : World F)
    (h : processIndices K wk lower yearOf cmp a w = (.ok (), w')) (hi : a.index = "pnp" ∨ a.index = "scaled")
    {f v : String} {d : NcFile F} {x : NcVar F} {A b n : Nat} (hin : Input w.files a.outputFileBase a.netcdfPrecip a.varNamePrecip f v d x) (hl : Layout x A b n)
    {y0 y1 : Int} (hy : Years yearOf d y0 y1) (s : Int) (hs : s ∈ a.scales.getD []) :
    ∃ u mm it, x.units = some u ∧ convertPrecip (lower u) x.data = .ok mm ∧ validateArgs cmp w.files a = .ok it ∧ dropDimsOk it x.dims = true ∧
      ∃ file y, w'.files (fileName a.outputFileBase (Output.pnp s.toNat).name) = some file ∧ ((Output.pnp s.toNat).name, y) ∈ file ∧ (y.dims = x.dims ∧ Carries d file) ∧
        (y.shape = x.shape ∧ y.data.length = x.shape.foldr (· * ·) 1) ∧
        ∀ i < A, ∀ k < b, ∃ p r t, preparedIt it a.periodicity y0 y1 (seriesAt b n i k mm) = .ok p ∧
          K y0 (mkJob a it "pnp" (some s) none (some (f, a.varNamePrecip.getD "")) none none none) p p = .ok r ∧ assignSeries p.length r = .ok t ∧
          restored a.periodicity y0 t = .ok (seriesAt b n i k y.data) := by
  obtain ⟨it, w1, w2, w3, pet, hv, h1, h2, h3, h4, _⟩ := process_ok _ wk lower yearOf h
  have hil := run_layout hv (by rcases hi with hi | hi <;> rw [hi] <;> decide) hin hl
  have hsc := run_scales hv (by rcases hi with hi | hi <;> rw [hi] <;> decide)
  have hkeep : w3.files f = w.files f := by
    rw [runSpei_files h3 (fun _ => hsc) (fun dist m => hin.notOutput _), runPet_files h2 (hin.notOutput _), runSpi_files h1 (fun _ => hsc) (fun dist m => hin.notOutput _)]
  unfold runPnp at h4
  rw [if_pos (by rcases hi with hi | hi <;> rw [hi] <;> decide)] at h4
  have h4 := getFiles_bind h4
  obtain ⟨fp, hfp, h4⟩ := lift_bind h4
  obtain ⟨sc, hsc', h4⟩ := lift_bind h4
  have e1 := orElseRaise_ok hsc'
  rw [e1, Option.getD_some] at hs hsc
  have e2 := prepareFile_ok hfp
  rw [hin.file] at e2
  cases e2
  have key := (runJobs_each (G := [(f, d)]) (P := fun j new => ∃ u mm y nm, variableName j = .ok nm ∧ x.units = some u ∧ convertPrecip (lower u) x.data = .ok mm ∧ (nm, y) ∈ new ∧ (y.dims = x.dims ∧ Carries d new) ∧ (y.shape = x.shape ∧ y.data.length = x.shape.foldr (· * ·) 1) ∧ dropDimsOk j.inputType x.dims = true ∧
      ∀ i < A, ∀ k < b, ∃ p s t, preparedIt j.inputType j.periodicity y0 y1 (seriesAt b n i k mm) = .ok p ∧ K y0 j p p = .ok s ∧ assignSeries p.length s = .ok t ∧
        restored j.periodicity y0 t = .ok (seriesAt b n i k y.data)) _
    ?_ ?_ ?_ ?_ (by simp only [List.mem_singleton, forall_eq]; rw [hkeep]; exact hin.opened) h4).2 (mkJob a it "pnp" (some s) none (some (f, a.varNamePrecip.getD "")) none none none) (by
      simp only [List.mem_map]
      exact ⟨s, hs, rfl⟩)
  · obtain ⟨nm, new, k1, k2, u, mm, y, nm', k3, k4, k5, k6, k7, k8, k8', k9⟩ := key
    rw [k1] at k3
    cases k3
    rw [vn_pnp a it s (hsc s hs)] at k1
    cases k1
    exact ⟨u, mm, it, k4, k5, hv, k8', new, y, k2, k6, k7, k8, k9⟩
  · intro p hp j hj m hm
    rw [List.mem_singleton] at hp
    subst hp
    simp only [List.mem_map] at hj
    obtain ⟨s', hs', rfl⟩ := hj
    rw [vn_pnp a it s' (hsc s' hs')] at hm
    cases hm
    exact hin.notOutput _
  · intro j hj j' hj' m hm hm'
    simp only [List.mem_map] at hj hj'
    obtain ⟨s', hs', rfl⟩ := hj
    obtain ⟨s'', hs'', rfl⟩ := hj'
    rw [vn_pnp a it s' (hsc s' hs')] at hm
    rw [vn_pnp a it s'' (hsc s'' hs'')] at hm'
    cases hm
    simp only [Except.ok.injEq] at hm'
    have := output_name_inj hm'
    simp only [Output.pnp.injEq] at this
    have := hsc s' hs'
    have := hsc s'' hs''
    have : s' = s'' := by omega
    rw [this]
  · intro j hj j' hj'
    simp only [List.mem_map] at hj hj'
    obtain ⟨s', hs', rfl⟩ := hj
    obtain ⟨s'', hs'', rfl⟩ := hj'
    rfl
  · intro j hj v1 v2 r hfs hr
    simp only [List.mem_map] at hj
    obtain ⟨s', hs', rfl⟩ := hj
    have hvar : a.varNamePrecip.getD "" = v := by rw [hin.var]; rfl
    obtain ⟨u, mm, new, y, c1, c2, c3, c4, c5, c6, c6', c7⟩ := cwi_precip hr (.inr rfl) (by rw [← hvar]; rfl) rfl rfl hin.reserved (hfs (f, d) (by simp)) hin.found hil hin.wf hy
    exact ⟨new, c3, u, mm, y, r.2, (cwi_files hr).1, c1, c2, c4, c5, c6, c6', c7⟩

/-- percentages of normal of a finished run -/
theorem pnp_run (E : Ext F) (T : Trig F) (cs ce : Int) (wk : Nat) (lower : String → String) (yearOf : F → Int) (cmp : CoordCmp F) (a : CliArgs) (w w' : World F)
    (h : processIndices (indexFunction E T cs ce) wk lower yearOf cmp a w = (.ok (), w')) (hi : a.index = "pnp" ∨ a.index = "scaled")
    {f v : String} {d : NcFile F} {x : NcVar F} {A b n : Nat} (hin : Input w.files a.outputFileBase a.netcdfPrecip a.varNamePrecip f v d x) (hl : Layout x A b n)
    {y0 y1 : Int} (hy : Years yearOf d y0 y1) (s : Int) (hs : s ∈ a.scales.getD []) :
    ∃ u mm, x.units = some u ∧ convertPrecip (lower u) x.data = .ok mm ∧
      ∃ file y, w'.files (fileName a.outputFileBase (Output.pnp s.toNat).name) = some file ∧ ((Output.pnp s.toNat).name, y) ∈ file ∧ (y.dims = x.dims ∧ Carries d file) ∧
        (y.shape = x.shape ∧ y.data.length = x.shape.foldr (· * ·) 1) ∧
        ∀ i < A, ∀ k < b, ∃ p r, preparedFor x.dims a.periodicity y0 y1 (seriesAt b n i k mm) = .ok p ∧ percentageOfNormal p (some s) y0 cs ce a.periodicity = .ok r ∧
          r.length = p.length ∧ restored a.periodicity y0 r = .ok (seriesAt b n i k y.data) := by
  have hip : a.index ≠ "pet" := by rcases hi with hi | hi <;> rw [hi] <;> decide
  obtain ⟨u, mm, it, k1, k2, k3, k4, file, y, k5, k6, k7, k8, k9⟩ := pnp_run_any _ wk lower yearOf cmp a w w' h hi hin hl hy s hs
  refine ⟨u, mm, k1, k2, file, y, k5, k6, k7, k8, ?_⟩
  intro i hi' k hk
  obtain ⟨p, t, r, t0, t1, t2, t5⟩ := k9 i hi' k hk
  have t3 : percentageOfNormal p (some s) y0 cs ce a.periodicity = .ok t := t1
  have t6 := assignSeries_ok t2
  rw [pnp_assign _ s y0 cs ce a.periodicity t r t3 t2] at t5 t6
  exact ⟨p, t, by rw [preparedIt_for hl (run_layout k3 hip hin hl) k4]; exact t0, t3, t6, t5⟩

/-- **C66, PNP.** The same for the percentage of normal precipitation. -/
theorem C66_pnp (E : Ext F) (T : Trig F) (cs ce : Int) (wk : Nat) (lower : String → String) (yearOf : F → Int) (cmp : CoordCmp F) (a : CliArgs) (w w' : World F)
    (h : processIndices (indexFunction E T cs ce) wk lower yearOf cmp a w = (.ok (), w')) (hi : a.index = "pnp" ∨ a.index = "scaled")
    {f v : String} {d : NcFile F} {x : NcVar F} {A b n : Nat} (hin : Input w.files a.outputFileBase a.netcdfPrecip a.varNamePrecip f v d x) (hl : Layout x A b n)
    {y0 y1 : Int} (hy : Years yearOf d y0 y1) (s : Int) (hs : s ∈ a.scales.getD []) :
    ∃ u mm, x.units = some u ∧ convertPrecip (lower u) x.data = .ok mm ∧
      Holds w'.files a.outputFileBase (.pnp s.toNat) d x A b n
        (fun i k => onSeries x.dims a.periodicity y0 y1 (fun p => percentageOfNormal p (some s) y0 cs ce a.periodicity) (seriesAt b n i k mm)) := by
  obtain ⟨u, mm, k1, k2, file, y, k3, k4, k5, k6, k7⟩ := pnp_run E T cs ce wk lower yearOf cmp a w w' h hi hin hl hy s hs
  refine ⟨u, mm, k1, k2, file, y, k3, k4, k5, k6, fun i hi' k hk => ?_⟩
  obtain ⟨p, r, e1, e2, _, e3⟩ := k7 i hi' k hk
  simp only [onSeries, e1, e2, bind, Except.bind]
  exact e3

omit [FloatOps F] in
/-- the kind of input of a run on temperature with a layout -/
theorem run_layout_temp {it : InputType} {cmp : CoordCmp F} {fs : Files F} {a : CliArgs} (hv : validateArgs cmp fs a = .ok it) (hi : a.index ∈ ["pet", "spei", "scaled"])
    (hn : a.netcdfPet = none) {f v : String} {d : NcFile F} {x : NcVar F} {A b n : Nat}
    (hin : Input fs a.outputFileBase a.netcdfTemp a.varNameTemp f v d x) (hl : Layout x A b n) : IsLayout it x.shape A b n := by
  have : Given fs a.netcdfTemp a.varNameTemp (dataDims it) := by
    obtain ⟨_, g1, g2, _⟩ := C50_inputs_partial cmp fs a it hv
    by_cases hp : a.index = "pet"
    · exact (g1 hp).2
    · rcases g2 (by
        simp only [List.mem_cons, List.not_mem_nil, or_false] at hi ⊢
        tauto) with ⟨_, g⟩ | ⟨_, f, _, _, _, g, _⟩
      · exact g
      · rw [hn] at g
        cases g
  obtain ⟨f', v', d', x', h1, h2, h3, h4, h5⟩ := this
  rw [hin.file] at h1
  cases h1
  rw [hin.var] at h2
  cases h2
  rw [hin.opened] at h3
  cases h3
  rw [hin.found] at h4
  cases h4
  rcases hl with ⟨e1, e2⟩ | ⟨e1, e2, e3⟩
  · rw [e1] at h5
    left
    refine ⟨?_, e2⟩
    cases it <;> simp [dataDims] at h5 ⊢
  · rw [e1] at h5
    right
    refine ⟨?_, e2, e3⟩
    cases it <;> simp [dataDims] at h5 ⊢

omit [FloatOps F] in
/-- the kind of input of a run with a given PET file with a layout -/
theorem run_layout_pet {it : InputType} {cmp : CoordCmp F} {fs : Files F} {a : CliArgs} (hv : validateArgs cmp fs a = .ok it) (hi : a.index = "spei" ∨ a.index = "scaled")
    {f v : String} {d : NcFile F} {x : NcVar F} {A b n : Nat}
    (hin : Input fs a.outputFileBase a.netcdfPet a.varNamePet f v d x) (hl : Layout x A b n) : IsLayout it x.shape A b n := by
  have : Given fs a.netcdfPet a.varNamePet (dataDims it) := by
    obtain ⟨_, _, g2, _⟩ := C50_inputs_partial cmp fs a it hv
    rcases g2 (by rcases hi with hi | hi <;> rw [hi] <;> decide) with ⟨g, _⟩ | ⟨_, g⟩
    · rw [hin.file] at g
      cases g
    · exact g
  obtain ⟨f', v', d', x', h1, h2, h3, h4, h5⟩ := this
  rw [hin.file] at h1
  cases h1
  rw [hin.var] at h2
  cases h2
  rw [hin.opened] at h3
  cases h3
  rw [hin.found] at h4
  cases h4
  rcases hl with ⟨e1, e2⟩ | ⟨e1, e2, e3⟩
  · rw [e1] at h5
    left
    refine ⟨?_, e2⟩
    cases it <;> simp [dataDims] at h5 ⊢
  · rw [e1] at h5
    right
    refine ⟨?_, e2, e3⟩
    cases it <;> simp [dataDims] at h5 ⊢

omit [FloatOps F] in
theorem head_drop_take (l : List F) (i : Nat) : ((l.drop i).take 1).head? = l[i]? := by
  rw [List.head?_take, if_neg (by omega), List.head?_drop]

/-- the PET phase: the file it has written (before the later phases) -/
theorem pet_phase (E : Ext F) (T : Trig F) (cs ce : Int) (wk : Nat) (lower : String → String) (yearOf : F → Int) (a : CliArgs) (it : InputType) (w w' : World F) (pet : Option String × Option String)
    (h : runPet (indexFunction E T cs ce) wk lower yearOf a it w = (.ok pet, w')) (hi : a.index ∈ ["pet", "spei", "scaled"]) (hn : a.netcdfPet = none)
    {f v : String} {d : NcFile F} {x xl : NcVar F} {A b n : Nat} (hin : Input w.files a.outputFileBase a.netcdfTemp a.varNameTemp f v d x) (hl : IsLayout it x.shape A b n) (hl' : Layout x A b n)
    (hlat : List.lookup "lat" d = some xl) {y0 y1 : Int} (hy : Years yearOf d y0 y1) :
    pet = (some (fileName a.outputFileBase Output.pet.name), some Output.pet.name) ∧
    ∃ u cel out, x.units = some u ∧ convertTemp (lower u) x.data = .ok cel ∧ out.length = x.shape.foldr (· * ·) 1 ∧
      w'.files (fileName a.outputFileBase Output.pet.name) = some (coordsOf d ++ [(Output.pet.name, ⟨x.dims, x.shape, some "millimeters", out⟩)]) ∧
      ∀ i < A, ∀ k < b, onSeries x.dims a.periodicity y0 y1 (fun p => CI.pet T (Arr.of1d p) xl.data[i]? y0) (seriesAt b n i k cel) = .ok (seriesAt b n i k out) := by
  unfold runPet at h
  rw [if_pos (by
    simp only [List.mem_cons, List.not_mem_nil, or_false] at hi ⊢
    tauto), hn] at h
  have h := getFiles_bind h
  obtain ⟨ft, hft, h⟩ := lift_bind h
  obtain ⟨r, w1, h1, h2⟩ := SE.bind_ok h
  cases h2
  have e2 := prepareFile_ok hft
  rw [hin.file] at e2
  cases e2
  obtain ⟨c1, c2, c3⟩ := cwi_files h1
  simp only [variableName, mkJob, Except.ok.injEq] at c1
  have hr1 : r.1 = fileName a.outputFileBase Output.pet.name := by
    rw [c2, ← c1]
    rfl
  have hvar : a.varNameTemp.getD "" = v := by rw [hin.var]; rfl
  obtain ⟨u, cel, out, k1, k2, k2', k2'', k3, k4⟩ := cwi_pet h1 rfl rfl (by rw [← hvar]; rfl) rfl hin.reserved hin.opened hin.found hlat hl hin.wf hy
  refine ⟨by rw [hr1, ← c1]; rfl, u, cel, out, k1, k2, k2'', ?_, ?_⟩
  · rw [hr1, ← c1] at k3
    exact k3
  · intro i hi' k hk
    obtain ⟨p, t, q, t0, t1, t2, t5⟩ := k4 i hi' k hk
    have t0 : preparedIt it a.periodicity y0 y1 (seriesAt b n i k cel) = .ok p := t0
    have t3 : CI.pet T (Arr.of1d p) ((xl.data.drop i).take 1).head? y0 = .ok t := t1
    rw [head_drop_take] at t3
    rw [assignSeries_same t2 (pet_size T _ _ _ _ t3)] at t5
    simp only [onSeries, preparedIt_for hl' hl k2', t0, t3, bind, Except.bind]
    exact t5

/-- **C66, PET.** After every finished run for PET, SPEI or all scaled indices in which no PET file is given: at every place the values of `pet_thornthwaite` are the PET of the
temperature of that place in degrees Celsius, with the latitude of that place, for the years that the time coordinate says. -/
theorem C66_pet (E : Ext F) (T : Trig F) (cs ce : Int) (wk : Nat) (lower : String → String) (yearOf : F → Int) (cmp : CoordCmp F) (a : CliArgs) (w w' : World F)
    (h : processIndices (indexFunction E T cs ce) wk lower yearOf cmp a w = (.ok (), w')) (hi : a.index ∈ ["pet", "spei", "scaled"]) (hn : a.netcdfPet = none)
    {f v : String} {d : NcFile F} {x xl : NcVar F} {A b n : Nat} (hin : Input w.files a.outputFileBase a.netcdfTemp a.varNameTemp f v d x) (hl : Layout x A b n)
    (hlat : List.lookup "lat" d = some xl) {y0 y1 : Int} (hy : Years yearOf d y0 y1) :
    ∃ u cel, x.units = some u ∧ convertTemp (lower u) x.data = .ok cel ∧
      Holds w'.files a.outputFileBase .pet d x A b n (fun i k => onSeries x.dims a.periodicity y0 y1 (fun p => CI.pet T (Arr.of1d p) xl.data[i]? y0) (seriesAt b n i k cel)) := by
  obtain ⟨it, w1, w2, w3, pet, hv, h1, h2, h3, h4, _⟩ := process_ok _ wk lower yearOf h
  have hil := run_layout_temp hv hi hn hin hl
  have hsc : a.index ≠ "pet" → ∀ s ∈ a.scales.getD [], 0 ≤ s := fun hp => run_scales hv (by
    simp only [List.mem_cons, List.not_mem_nil, or_false] at hi ⊢
    tauto)
  have hin' : Input w1.files a.outputFileBase a.netcdfTemp a.varNameTemp f v d x :=
    ⟨hin.file, hin.var, by rw [runSpi_files h1 hsc (fun dist m => hin.notOutput _)]; exact hin.opened, hin.found, hin.wf, hin.reserved, hin.notOutput⟩
  obtain ⟨_, u, cel, out, k1, k2, k2', k3, k4⟩ := pet_phase E T cs ce wk lower yearOf a it w1 w2 pet h2 hi hn hin' hil hl hlat hy
  refine ⟨u, cel, k1, k2, coordsOf d ++ [(Output.pet.name, ⟨x.dims, x.shape, some "millimeters", out⟩)], ⟨x.dims, x.shape, some "millimeters", out⟩, ?_, List.mem_append_right _ (List.mem_singleton.2 rfl), ⟨rfl, carries_coords⟩, ⟨rfl, k2'⟩, k4⟩
  rw [runPnp_files h4 hsc (fun m e => by cases output_name_inj (fileName_inj e)), runSpei_files h3 hsc (fun dist m e => by cases output_name_inj (fileName_inj e))]
  exact k3

/-- the SPEI phase, row by row, with any index function; the variables are those of the merged data set -/
theorem spei_phase_md [FloatLaws F] (K : Int → Job → List F → List F → Res (List F)) (wk : Nat) (lower : String → String) (yearOf : F → Int) (a : CliArgs) (it : InputType) (w w' : World F)
    {f v fe ve : String} {d de : NcFile F} {x₀ x xe : NcVar F} {A b n : Nat}
    (h : runSpei K wk lower yearOf a it (some fe, some ve) w = (.ok (), w')) (hi : a.index = "spei" ∨ a.index = "scaled")
    (hin : Input w.files a.outputFileBase a.netcdfPrecip a.varNamePrecip f v d x₀) (hx : List.lookup v (merged d de) = some x) (hwf : x.data.length = x.shape.foldr (· * ·) 1) (hl : IsLayout it x.shape A b n) (hsc : ∀ s ∈ a.scales.getD [], 0 ≤ s)
    (hfe : w.files fe = some de) (hve : ve ≠ "lat" ∧ ve ≠ "result_array") (hne : v ≠ ve) (hxe : List.lookup ve (merged d de) = some xe)
    (hle : IsLayout it xe.shape A b n) (hwfe : xe.data.length = xe.shape.foldr (· * ·) 1) {y0 y1 : Int} (hy : Years yearOf (merged d de) y0 y1)
    (hout : ∀ dist m, fe ≠ fileName a.outputFileBase (Output.spei dist m).name)
    (s : Int) (hs : s ∈ a.scales.getD []) (dist : Distribution) (hd : dist = .pearson ∨ dist = .gamma) :
    ∃ u mm ue pe, x.units = some u ∧ convertPrecip (lower u) x.data = .ok mm ∧ xe.units = some ue ∧ convertPet (lower ue) xe.data = .ok pe ∧
      dropDimsOk it x.dims = true ∧
      ∃ file y, w'.files (fileName a.outputFileBase (Output.spei dist s.toNat).name) = some file ∧ ((Output.spei dist s.toNat).name, y) ∈ file ∧ (y.dims = x.dims ∧ Carries (merged d de) file) ∧
        (y.shape = x.shape ∧ y.data.length = x.shape.foldr (· * ·) 1) ∧
        ∀ i < A, ∀ k < b, ∃ p q r t, preparedIt it a.periodicity y0 y1 (seriesAt b n i k mm) = .ok p ∧ preparedIt it a.periodicity y0 y1 (seriesAt b n i k pe) = .ok q ∧
          K y0 (mkJob a it "spei" (some s) (some dist) (some (f, a.varNamePrecip.getD "")) none (some (fe, ve)) none) p q = .ok r ∧ assignSeries p.length r = .ok t ∧
          restored a.periodicity y0 t = .ok (seriesAt b n i k y.data) := by
  unfold runSpei at h
  rw [if_pos (by rcases hi with hi | hi <;> rw [hi] <;> decide)] at h
  have h := getFiles_bind h
  obtain ⟨fp, hfp, h⟩ := lift_bind h
  obtain ⟨fe', hfe', h⟩ := lift_bind h
  obtain ⟨sc, hsc', h⟩ := lift_bind h
  have e1 := orElseRaise_ok hsc'
  rw [e1, Option.getD_some] at hs hsc
  have e2 := prepareFile_ok hfp
  rw [hin.file] at e2
  cases e2
  cases prepareFile_ok hfe'
  have hdd : ∀ dist : Distribution, dist = .pearson ∨ dist = .gamma → dist ∈ distributions := by
    rintro _ (rfl | rfl) <;> decide
  have key := (runJobs_each (G := [(f, d), (fe, de)]) (P := fun j new => ∃ u mm ue pe y nm, variableName j = .ok nm ∧ x.units = some u ∧ convertPrecip (lower u) x.data = .ok mm ∧
      xe.units = some ue ∧ convertPet (lower ue) xe.data = .ok pe ∧ (nm, y) ∈ new ∧ (y.dims = x.dims ∧ Carries (merged d de) new) ∧ (y.shape = x.shape ∧ y.data.length = x.shape.foldr (· * ·) 1) ∧ dropDimsOk j.inputType x.dims = true ∧
      ∀ i < A, ∀ k < b, ∃ p q s t, preparedIt j.inputType j.periodicity y0 y1 (seriesAt b n i k mm) = .ok p ∧ preparedIt j.inputType j.periodicity y0 y1 (seriesAt b n i k pe) = .ok q ∧
        K y0 j p q = .ok s ∧ assignSeries p.length s = .ok t ∧ restored j.periodicity y0 t = .ok (seriesAt b n i k y.data)) _
    ?_ ?_ ?_ ?_ (by
      intro p hp
      simp only [List.mem_cons, List.not_mem_nil, or_false] at hp
      rcases hp with rfl | rfl
      · exact hin.opened
      · exact hfe) h).2 (mkJob a it "spei" (some s) (some dist) (some (f, a.varNamePrecip.getD "")) none (some (fe, ve)) none) (by
      simp only [List.mem_flatMap, List.mem_map]
      exact ⟨s, hs, dist, hdd dist hd, rfl⟩)
  · obtain ⟨nm, new, k1, k2, u, mm, ue, pe, y, nm', k3, k4, k5, k4', k5', k6, k7, k8, k8', k9⟩ := key
    rw [k1] at k3
    cases k3
    rw [vn_spei a it s (hsc s hs) dist (hdd dist hd)] at k1
    cases k1
    exact ⟨u, mm, ue, pe, k4, k5, k4', k5', k8', new, y, k2, k6, k7, k8, k9⟩
  · intro p hp j hj m hm
    simp only [List.mem_flatMap, List.mem_map] at hj
    obtain ⟨s', hs', dist', hd', rfl⟩ := hj
    rw [vn_spei a it s' (hsc s' hs') dist' hd'] at hm
    cases hm
    simp only [List.mem_cons, List.not_mem_nil, or_false] at hp
    rcases hp with rfl | rfl
    · exact hin.notOutput _
    · exact hout _ _
  · intro j hj j' hj' m hm hm'
    simp only [List.mem_flatMap, List.mem_map] at hj hj'
    obtain ⟨s', hs', dist', hd', rfl⟩ := hj
    obtain ⟨s'', hs'', dist'', hd'', rfl⟩ := hj'
    rw [vn_spei a it s' (hsc s' hs') dist' hd'] at hm
    rw [vn_spei a it s'' (hsc s'' hs'') dist'' hd''] at hm'
    cases hm
    simp only [Except.ok.injEq] at hm'
    have := output_name_inj hm'
    simp only [Output.spei.injEq] at this
    obtain ⟨rfl, e⟩ := this
    have := hsc s' hs'
    have := hsc s'' hs''
    have : s' = s'' := by omega
    rw [this]
  · intro j hj j' hj'
    simp only [List.mem_flatMap, List.mem_map] at hj hj'
    obtain ⟨s', hs', dist', hd', rfl⟩ := hj
    obtain ⟨s'', hs'', dist'', hd'', rfl⟩ := hj'
    rfl
  · intro j hj v1 v2 r hfs hr
    simp only [List.mem_flatMap, List.mem_map] at hj
    obtain ⟨s', hs', dist', hd', rfl⟩ := hj
    have hvar : a.varNamePrecip.getD "" = v := by rw [hin.var]; rfl
    obtain ⟨u, mm, ue, pe, new, y, c1, c2, c1', c2', c3, c4, c5, c6, c6', c7⟩ := cwi_spei_md hr rfl (by rw [← hvar]; rfl) rfl rfl ⟨hin.reserved.1, hin.reserved.2, hve.1, hve.2⟩ hne
      (hfs (f, d) (by simp)) (hfs (fe, de) (by simp)) hx hxe hl hwf hle hwfe hy
    exact ⟨new, c3, u, mm, ue, pe, y, r.2, (cwi_files hr).1, c1, c2, c1', c2', c4, c5, c6, c6', c7⟩

/-- the SPEI phase, row by row, with any index function -/
theorem spei_phase_any [FloatLaws F] (K : Int → Job → List F → List F → Res (List F)) (wk : Nat) (lower : String → String) (yearOf : F → Int) (a : CliArgs) (it : InputType) (w w' : World F)
    {f v fe ve : String} {d de : NcFile F} {x xe : NcVar F} {A b n : Nat}
    (h : runSpei K wk lower yearOf a it (some fe, some ve) w = (.ok (), w')) (hi : a.index = "spei" ∨ a.index = "scaled")
    (hin : Input w.files a.outputFileBase a.netcdfPrecip a.varNamePrecip f v d x) (hl : IsLayout it x.shape A b n) (hsc : ∀ s ∈ a.scales.getD [], 0 ≤ s)
    (hfe : w.files fe = some de) (hve : ve ≠ "lat" ∧ ve ≠ "result_array") (hne : v ≠ ve) (hnone : List.lookup ve d = none ∨ List.lookup ve d = some xe) (hxe : List.lookup ve de = some xe)
    (hle : IsLayout it xe.shape A b n) (hwfe : xe.data.length = xe.shape.foldr (· * ·) 1) (hsame : SameCoords d de) {y0 y1 : Int} (hy : Years yearOf d y0 y1)
    (hout : ∀ dist m, fe ≠ fileName a.outputFileBase (Output.spei dist m).name)
    (s : Int) (hs : s ∈ a.scales.getD []) (dist : Distribution) (hd : dist = .pearson ∨ dist = .gamma) :
    ∃ u mm ue pe, x.units = some u ∧ convertPrecip (lower u) x.data = .ok mm ∧ xe.units = some ue ∧ convertPet (lower ue) xe.data = .ok pe ∧
      dropDimsOk it x.dims = true ∧
      ∃ file y, w'.files (fileName a.outputFileBase (Output.spei dist s.toNat).name) = some file ∧ ((Output.spei dist s.toNat).name, y) ∈ file ∧ (y.dims = x.dims ∧ Carries d file) ∧
        (y.shape = x.shape ∧ y.data.length = x.shape.foldr (· * ·) 1) ∧
        ∀ i < A, ∀ k < b, ∃ p q r t, preparedIt it a.periodicity y0 y1 (seriesAt b n i k mm) = .ok p ∧ preparedIt it a.periodicity y0 y1 (seriesAt b n i k pe) = .ok q ∧
          K y0 (mkJob a it "spei" (some s) (some dist) (some (f, a.varNamePrecip.getD "")) none (some (fe, ve)) none) p q = .ok r ∧ assignSeries p.length r = .ok t ∧
          restored a.periodicity y0 t = .ok (seriesAt b n i k y.data) := by
  have hm := merged_agree (agree_of_same hsame)
  have hlook2 : List.lookup ve (merged d de) = some xe := by
    rw [hm]
    rcases hnone with hnone | hnone
    · rw [lookup_append_none hnone]
      exact hxe
    · exact lookup_append_some hnone
  have hym : Years yearOf (merged d de) y0 y1 := by
    obtain ⟨tt, t0, t1, a1, a2⟩ := hy
    exact ⟨tt, t0, t1, by rw [hm]; exact lookup_append_some a1, a2⟩
  obtain ⟨u, mm, ue, pe, k1, k2, k3, k4, k5, file, y, k6, k7, ⟨k8, k9⟩, k10⟩ := spei_phase_md K wk lower yearOf a it w w' h hi hin (by rw [hm]; exact lookup_append_some hin.found) hin.wf hl hsc
    hfe hve hne hlook2 hle hwfe hym hout s hs dist hd
  exact ⟨u, mm, ue, pe, k1, k2, k3, k4, k5, file, y, k6, k7, ⟨k8, fun c z hc hz => k9 c z (by rw [hm]; exact List.mem_append_left _ hc) hz⟩, k10⟩

/-- the SPEI phase: the files it has written -/
theorem spei_phase [FloatLaws F] (E : Ext F) (hE : ExtNan E) (T : Trig F) (cs ce : Int) (wk : Nat) (lower : String → String) (yearOf : F → Int) (a : CliArgs) (it : InputType) (w w' : World F)
    {f v fe ve : String} {d de : NcFile F} {x xe : NcVar F} {A b n : Nat}
    (h : runSpei (indexFunction E T cs ce) wk lower yearOf a it (some fe, some ve) w = (.ok (), w')) (hi : a.index = "spei" ∨ a.index = "scaled")
    (hin : Input w.files a.outputFileBase a.netcdfPrecip a.varNamePrecip f v d x) (hl : IsLayout it x.shape A b n) (hl' : Layout x A b n) (hsc : ∀ s ∈ a.scales.getD [], 0 ≤ s)
    (hfe : w.files fe = some de) (hve : ve ≠ "lat" ∧ ve ≠ "result_array") (hne : v ≠ ve) (hnone : List.lookup ve d = none ∨ List.lookup ve d = some xe) (hxe : List.lookup ve de = some xe)
    (hle : IsLayout it xe.shape A b n) (hwfe : xe.data.length = xe.shape.foldr (· * ·) 1) (hsame : SameCoords d de) {y0 y1 : Int} (hy : Years yearOf d y0 y1)
    (hout : ∀ dist m, fe ≠ fileName a.outputFileBase (Output.spei dist m).name)
    (s : Int) (hs : s ∈ a.scales.getD []) (dist : Distribution) (hd : dist = .pearson ∨ dist = .gamma) :
    ∃ u mm ue pe, x.units = some u ∧ convertPrecip (lower u) x.data = .ok mm ∧ xe.units = some ue ∧ convertPet (lower ue) xe.data = .ok pe ∧
      Holds w'.files a.outputFileBase (.spei dist s.toNat) d x A b n
        (fun i k => onSeries₂ x.dims a.periodicity y0 y1 (fun p e => (spei E (Arr.of1d p) (Arr.of1d e) s dist a.periodicity y0 cs ce none).map Arr.data)
          (seriesAt b n i k mm) (seriesAt b n i k pe)) := by
  obtain ⟨u, mm, ue, pe, k1, k2, k3, k4, k8', file, y, k5, k6, k7, k8, k9⟩ := spei_phase_any _ wk lower yearOf a it w w' h hi hin hl hsc hfe hve hne hnone hxe hle hwfe hsame hy hout s hs
    dist hd
  refine ⟨u, mm, ue, pe, k1, k2, k3, k4, file, y, k5, k6, k7, k8, ?_⟩
  intro i hi' k hk
  obtain ⟨p, q, t, r, t0, t0', t1, t2, t5⟩ := k9 i hi' k hk
  have t0 : preparedIt it a.periodicity y0 y1 (seriesAt b n i k mm) = .ok p := t0
  have t0' : preparedIt it a.periodicity y0 y1 (seriesAt b n i k pe) = .ok q := t0'
  have t3 : (spei E (Arr.of1d p) (Arr.of1d q) s dist a.periodicity y0 cs ce none).map Arr.data = .ok t := t1
  cases hsp : spei E (Arr.of1d p) (Arr.of1d q) s dist a.periodicity y0 cs ce none with
  | error e => rw [hsp] at t3; cases t3
  | ok r' =>
    have t4 := spei_size E hE _ _ _ _ _ _ _ _ _ _ hsp
    have t3' : r'.data = t := by
      rw [hsp] at t3
      cases t3
      rfl
    rw [assignSeries_same t2 (by rw [← t3']; exact t4)] at t5
    simp only [onSeries₂, preparedIt_for hl' hl k8', t0, t0', t3, bind, Except.bind]
    exact t5

/-- SPEI of a finished run with a PET file, row by row, with any index function -/
theorem spei_run_any [FloatLaws F] (K : Int → Job → List F → List F → Res (List F)) (wk : Nat) (lower : String → String) (yearOf : F → Int) (cmp : CoordCmp F) (a : CliArgs) (w w' : World F)
    (h : processIndices K wk lower yearOf cmp a w = (.ok (), w')) (hi : a.index = "spei" ∨ a.index = "scaled")
    {f v fe ve : String} {d de : NcFile F} {x xe : NcVar F} {A b n : Nat} (hin : Input w.files a.outputFileBase a.netcdfPrecip a.varNamePrecip f v d x) (hl : Layout x A b n)
    (hpet : Input w.files a.outputFileBase a.netcdfPet a.varNamePet fe ve de xe) (hle : Layout xe A b n) (hne : v ≠ ve) (hnone : List.lookup ve d = none ∨ List.lookup ve d = some xe)
    (hsame : SameCoords d de) {y0 y1 : Int} (hy : Years yearOf d y0 y1)
    (s : Int) (hs : s ∈ a.scales.getD []) (dist : Distribution) (hd : dist = .pearson ∨ dist = .gamma) :
    ∃ u mm ue pe it, x.units = some u ∧ convertPrecip (lower u) x.data = .ok mm ∧ xe.units = some ue ∧ convertPet (lower ue) xe.data = .ok pe ∧
      validateArgs cmp w.files a = .ok it ∧ dropDimsOk it x.dims = true ∧
      ∃ file y, w'.files (fileName a.outputFileBase (Output.spei dist s.toNat).name) = some file ∧ ((Output.spei dist s.toNat).name, y) ∈ file ∧ (y.dims = x.dims ∧ Carries d file) ∧
        (y.shape = x.shape ∧ y.data.length = x.shape.foldr (· * ·) 1) ∧
        ∀ i < A, ∀ k < b, ∃ p q r t, preparedIt it a.periodicity y0 y1 (seriesAt b n i k mm) = .ok p ∧ preparedIt it a.periodicity y0 y1 (seriesAt b n i k pe) = .ok q ∧
          K y0 (mkJob a it "spei" (some s) (some dist) (some (f, a.varNamePrecip.getD "")) none (some (fe, ve)) none) p q = .ok r ∧ assignSeries p.length r = .ok t ∧
          restored a.periodicity y0 t = .ok (seriesAt b n i k y.data) := by
  obtain ⟨it, w1, w2, w3, pet, hv, h1, h2, h3, h4, _⟩ := process_ok _ wk lower yearOf h
  have hil := run_layout hv (by rcases hi with hi | hi <;> rw [hi] <;> decide) hin hl
  have hile := run_layout_pet hv hi hpet hle
  have hsc := run_scales hv (by rcases hi with hi | hi <;> rw [hi] <;> decide)
  have keep : ∀ g, (∀ o : Output, g ≠ fileName a.outputFileBase o.name) → w2.files g = w.files g := by
    intro g hg
    rw [runPet_files h2 (hg _), runSpi_files h1 (fun _ => hsc) (fun dist m => hg _)]
  have hp : pet = (some fe, some ve) := by
    unfold runPet at h2
    rw [if_pos (by rcases hi with hi | hi <;> rw [hi] <;> decide), hpet.file] at h2
    cases h2
    rw [hpet.var]
  subst hp
  have hin2 : Input w2.files a.outputFileBase a.netcdfPrecip a.varNamePrecip f v d x :=
    ⟨hin.file, hin.var, by rw [keep f hin.notOutput]; exact hin.opened, hin.found, hin.wf, hin.reserved, hin.notOutput⟩
  obtain ⟨u, mm, ue, pe, k1, k2, k3, k4, k4', file, y, k5, k6⟩ := spei_phase_any _ wk lower yearOf a it w2 w3 h3 hi hin2 hil hsc (by rw [keep fe hpet.notOutput]; exact hpet.opened)
    hpet.reserved hne hnone hpet.found hile hpet.wf hsame hy (fun _ _ => hpet.notOutput _) s hs dist hd
  refine ⟨u, mm, ue, pe, it, k1, k2, k3, k4, hv, k4', file, y, ?_, k6⟩
  rw [runPnp_files h4 (fun _ => hsc) (fun m e => by cases output_name_inj (fileName_inj e))]
  exact k5

/-- **C66, SPEI with a PET file.** After every finished run for SPEI (or all scaled indices) with a PET file: for every scale and both distributions, at every place the values are
the SPEI of precipitation and PET of that place, both in millimetres, for the years that the time coordinate says. (The two variables have different names; if the precipitation
file, too, has a variable with the name of the PET variable, then it is the same. Common coordinates of the two files are the same.) -/
theorem C66_spei_given [FloatLaws F] (E : Ext F) (hE : ExtNan E) (T : Trig F) (cs ce : Int) (wk : Nat) (lower : String → String) (yearOf : F → Int) (cmp : CoordCmp F) (a : CliArgs) (w w' : World F)
    (h : processIndices (indexFunction E T cs ce) wk lower yearOf cmp a w = (.ok (), w')) (hi : a.index = "spei" ∨ a.index = "scaled")
    {f v fe ve : String} {d de : NcFile F} {x xe : NcVar F} {A b n : Nat} (hin : Input w.files a.outputFileBase a.netcdfPrecip a.varNamePrecip f v d x) (hl : Layout x A b n)
    (hpet : Input w.files a.outputFileBase a.netcdfPet a.varNamePet fe ve de xe) (hle : Layout xe A b n) (hne : v ≠ ve) (hnone : List.lookup ve d = none ∨ List.lookup ve d = some xe)
    (hsame : SameCoords d de) {y0 y1 : Int} (hy : Years yearOf d y0 y1)
    (s : Int) (hs : s ∈ a.scales.getD []) (dist : Distribution) (hd : dist = .pearson ∨ dist = .gamma) :
    ∃ u mm ue pe, x.units = some u ∧ convertPrecip (lower u) x.data = .ok mm ∧ xe.units = some ue ∧ convertPet (lower ue) xe.data = .ok pe ∧
      Holds w'.files a.outputFileBase (.spei dist s.toNat) d x A b n
        (fun i k => onSeries₂ x.dims a.periodicity y0 y1 (fun p e => (spei E (Arr.of1d p) (Arr.of1d e) s dist a.periodicity y0 cs ce none).map Arr.data)
          (seriesAt b n i k mm) (seriesAt b n i k pe)) := by
  obtain ⟨it, w1, w2, w3, pet, hv, h1, h2, h3, h4, _⟩ := process_ok _ wk lower yearOf h
  have hil := run_layout hv (by rcases hi with hi | hi <;> rw [hi] <;> decide) hin hl
  have hile := run_layout_pet hv hi hpet hle
  have hsc := run_scales hv (by rcases hi with hi | hi <;> rw [hi] <;> decide)
  have keep : ∀ g, (∀ o : Output, g ≠ fileName a.outputFileBase o.name) → w2.files g = w.files g := by
    intro g hg
    rw [runPet_files h2 (hg _), runSpi_files h1 (fun _ => hsc) (fun dist m => hg _)]
  have hp : pet = (some fe, some ve) := by
    unfold runPet at h2
    rw [if_pos (by rcases hi with hi | hi <;> rw [hi] <;> decide), hpet.file] at h2
    cases h2
    rw [hpet.var]
  subst hp
  have hin2 : Input w2.files a.outputFileBase a.netcdfPrecip a.varNamePrecip f v d x :=
    ⟨hin.file, hin.var, by rw [keep f hin.notOutput]; exact hin.opened, hin.found, hin.wf, hin.reserved, hin.notOutput⟩
  obtain ⟨u, mm, ue, pe, k1, k2, k3, k4, file, y, k5, k6⟩ := spei_phase E hE T cs ce wk lower yearOf a it w2 w3 h3 hi hin2 hil hl hsc (by rw [keep fe hpet.notOutput]; exact hpet.opened) hpet.reserved
    hne hnone hpet.found hile hpet.wf hsame hy (fun _ _ => hpet.notOutput _) s hs dist hd
  refine ⟨u, mm, ue, pe, k1, k2, k3, k4, file, y, ?_, k6⟩
  rw [runPnp_files h4 (fun _ => hsc) (fun m e => by cases output_name_inj (fileName_inj e))]
  exact k5

/-- **C66, SPEI with computed PET.** After every finished run for SPEI (or all scaled indices) without a PET file: for every scale and both distributions, at every place the values
are the SPEI of the precipitation of that place in millimetres and the PET computed from the temperature of that place in degrees Celsius and its latitude. (No input file
has a variable called `pet_thornthwaite`; common coordinates of the two files are the same; `str.lower` leaves "millimeters" as it is.) -/
theorem C66_spei_computed [FloatLaws F] (E : Ext F) (hE : ExtNan E) (T : Trig F) (cs ce : Int) (wk : Nat) (lower : String → String) (hlow : lower "millimeters" = "millimeters")
    (yearOf : F → Int) (cmp : CoordCmp F) (a : CliArgs) (w w' : World F)
    (h : processIndices (indexFunction E T cs ce) wk lower yearOf cmp a w = (.ok (), w')) (hi : a.index = "spei" ∨ a.index = "scaled") (hn : a.netcdfPet = none)
    {f v ft vt : String} {d dt : NcFile F} {x xt xl : NcVar F} {A b n : Nat} (hin : Input w.files a.outputFileBase a.netcdfPrecip a.varNamePrecip f v d x) (hl : Layout x A b n)
    (htemp : Input w.files a.outputFileBase a.netcdfTemp a.varNameTemp ft vt dt xt) (hlt : Layout xt A b n) (hlat : List.lookup "lat" dt = some xl)
    (hnone : List.lookup "pet_thornthwaite" d = none) (hnone' : List.lookup "pet_thornthwaite" dt = none) (hsame : SameCoords d dt)
    {y0 y1 : Int} (hy : Years yearOf d y0 y1) (hyt : Years yearOf dt y0 y1)
    (s : Int) (hs : s ∈ a.scales.getD []) (dist : Distribution) (hd : dist = .pearson ∨ dist = .gamma) :
    ∃ u mm ut cel, x.units = some u ∧ convertPrecip (lower u) x.data = .ok mm ∧ xt.units = some ut ∧ convertTemp (lower ut) xt.data = .ok cel ∧
      Holds w'.files a.outputFileBase (.spei dist s.toNat) d x A b n (fun i k => do
        let e ← onSeries xt.dims a.periodicity y0 y1 (fun p => pet T (Arr.of1d p) xl.data[i]? y0) (seriesAt b n i k cel)
        onSeries₂ x.dims a.periodicity y0 y1 (fun p e => (spei E (Arr.of1d p) (Arr.of1d e) s dist a.periodicity y0 cs ce none).map Arr.data) (seriesAt b n i k mm) e) := by
  obtain ⟨it, w1, w2, w3, pet, hv, h1, h2, h3, h4, _⟩ := process_ok _ wk lower yearOf h
  have hil := run_layout hv (by rcases hi with hi | hi <;> rw [hi] <;> decide) hin hl
  have hsc := run_scales hv (by rcases hi with hi | hi <;> rw [hi] <;> decide)
  have hi' : a.index ∈ ["pet", "spei", "scaled"] := by rcases hi with hi | hi <;> rw [hi] <;> decide
  have hil' := run_layout_temp hv hi' hn htemp hlt
  have keep1 : ∀ g, (∀ o : Output, g ≠ fileName a.outputFileBase o.name) → w1.files g = w.files g := by
    intro g hg
    rw [runSpi_files h1 (fun _ => hsc) (fun dist m => hg _)]
  have keep : ∀ g, (∀ o : Output, g ≠ fileName a.outputFileBase o.name) → w2.files g = w.files g := by
    intro g hg
    rw [runPet_files h2 (hg _), keep1 g hg]
  have htemp1 : Input w1.files a.outputFileBase a.netcdfTemp a.varNameTemp ft vt dt xt :=
    ⟨htemp.file, htemp.var, by rw [keep1 ft htemp.notOutput]; exact htemp.opened, htemp.found, htemp.wf, htemp.reserved, htemp.notOutput⟩
  obtain ⟨hp, ut, cel, out, p1, p2, p2', p3, p4⟩ := pet_phase E T cs ce wk lower yearOf a it w1 w2 pet h2 hi' hn htemp1 hil' hlt hlat hyt
  subst hp
  have hin2 : Input w2.files a.outputFileBase a.netcdfPrecip a.varNamePrecip f v d x :=
    ⟨hin.file, hin.var, by rw [keep f hin.notOutput]; exact hin.opened, hin.found, hin.wf, hin.reserved, hin.notOutput⟩
  have hlook : List.lookup Output.pet.name (coordsOf dt ++ [(Output.pet.name, (⟨xt.dims, xt.shape, some "millimeters", out⟩ : NcVar F))]) =
      some ⟨xt.dims, xt.shape, some "millimeters", out⟩ := by
    rw [lookup_append_none]
    · simp [List.lookup]
    · cases hc : List.lookup Output.pet.name (coordsOf dt) with
      | none => rfl
      | some z =>
        have h1 := (List.mem_filter.1 (mem_of_lookup hc)).1
        have h2 := lookup_isSome_of_mem h1
        have h3 : List.lookup Output.pet.name dt = none := hnone'
        rw [h3] at h2
        cases h2
  have hsame' : SameCoords d (coordsOf dt ++ [(Output.pet.name, (⟨xt.dims, xt.shape, some "millimeters", out⟩ : NcVar F))]) := by
    intro c z y hz hy hzd hyd
    rcases List.mem_append.1 hy with hy | hy
    · exact hsame c z y hz (List.mem_filter.1 hy).1 hzd hyd
    · simp only [List.mem_singleton, Prod.mk.injEq] at hy
      obtain ⟨rfl, rfl⟩ := hy
      rcases hlt with ⟨e, _⟩ | ⟨e, _⟩ <;> (have hyd : xt.dims = _ := hyd; rw [e] at hyd; simp at hyd)
  have hvne : v ≠ Output.pet.name := by
    rintro rfl
    have h1 := hin.found
    have h2 : List.lookup Output.pet.name d = none := hnone
    rw [h2] at h1
    cases h1
  obtain ⟨u, mm, ue, pe, k1, k2, k3, k4, file, y, k5, k6, k7, k8, k9⟩ := spei_phase E hE T cs ce wk lower yearOf a it w2 w3 h3 hi hin2 hil hl hsc p3 (by decide)
    hvne (.inl hnone) hlook hil' p2' hsame' hy (fun _ _ e => by cases output_name_inj (fileName_inj e)) s hs dist hd
  cases k3
  rw [hlow] at k4
  cases k4
  refine ⟨u, mm, ut, cel, k1, k2, p1, p2, file, y, ?_, k6, k7, k8, ?_⟩
  · rw [runPnp_files h4 (fun _ => hsc) (fun m e => by cases output_name_inj (fileName_inj e))]
    exact k5
  · intro i hi'' k hk
    have e1 := p4 i hi'' k hk
    have e2 := k9 i hi'' k hk
    simp only [e1, bind, Except.bind]
    exact e2

/-! ## A case -/

/-- no file that is named otherwise is an output file of the base `out` -/
theorem demo_notOutput (f : String) (hf : f.toList.head? ≠ some 'o') (o : Output) : f ≠ fileName "out" o.name := by
  rintro rfl
  apply hf
  simp [fileName, String.toList_append]

/-- the precipitation of the small world is an input in the sense of the theorems above, and so is the temperature; both have 1 × 2 places and 12 time steps -/
example (index : String) (scales : List Int) :
    Input demoWorld.files (demoArgs index scales).outputFileBase (demoArgs index scales).netcdfPrecip (demoArgs index scales).varNamePrecip "p.nc" "prcp" (("prcp", demoPrecip) :: demoCoords) demoPrecip ∧
    Layout demoPrecip 1 2 12 ∧
    Input demoWorld.files (demoArgs index scales).outputFileBase (demoArgs index scales).netcdfTemp (demoArgs index scales).varNameTemp "t.nc" "tavg" (("tavg", demoTemp) :: demoCoords) demoTemp ∧
    Layout demoTemp 1 2 12 ∧ List.lookup "lat" (("tavg", demoTemp) :: demoCoords) = some demoLat ∧
    List.lookup "pet_thornthwaite" (("prcp", demoPrecip) :: demoCoords) = none ∧ List.lookup "pet_thornthwaite" (("tavg", demoTemp) :: demoCoords) = none ∧
    SameCoords (("prcp", demoPrecip) :: demoCoords) (("tavg", demoTemp) :: demoCoords) ∧
    Years demoYear (("prcp", demoPrecip) :: demoCoords) 2000 2000 ∧ Years demoYear (("tavg", demoTemp) :: demoCoords) 2000 2000 := by
  refine ⟨⟨rfl, rfl, rfl, rfl, rfl, by decide, ?_⟩, .inl ⟨rfl, rfl⟩, ⟨rfl, rfl, rfl, rfl, rfl, by decide, ?_⟩, .inl ⟨rfl, rfl⟩, rfl, rfl, rfl, ?_,
    ⟨demoTime, .fin 0, .fin 11, rfl, rfl, rfl, rfl, rfl⟩, ⟨demoTime, .fin 0, .fin 11, rfl, rfl, rfl, rfl, rfl⟩⟩
  · exact demo_notOutput _ (by decide)
  · exact demo_notOutput _ (by decide)
  · intro c x y hx hy hxd hyd
    simp only [demoCoords, List.mem_cons, List.not_mem_nil, or_false, Prod.mk.injEq] at hx hy
    rcases hx with ⟨rfl, rfl⟩ | ⟨rfl, rfl⟩ | ⟨rfl, rfl⟩ | ⟨rfl, rfl⟩ <;> rcases hy with ⟨h, rfl⟩ | ⟨h, rfl⟩ | ⟨h, rfl⟩ | ⟨h, rfl⟩ <;>
      first | rfl | exact absurd h (by decide)

/-- an executable stand-in for the trigonometric functions and the power (days of twelve hours, exponent ignored) -/
def toyTrig : Trig Q where
  sin := fun _ => .fin 0
  cos := fun _ => .fin 1
  tan := id
  acos := fun _ => .fin (11 / 7)
  pow := fun x _ => x
  pi := .fin (22 / 7)

/-- a finished run for all scaled indices -/
example : (processIndices (indexFunction toyExt toyTrig 2000 2000) 2 id demoYear demoCmp (demoArgs "scaled" [1, 3]) demoWorld).1 = .ok () := by decide +kernel

/-! ## C67: divisions in the order (time, division) -/

/-- two divisions with 24 months of precipitation, in the order (time, division) -/
def turnedPrecip : NcVar Q := ⟨["time", "division"], [24, 2], some "mm", (List.range 48).map (fun i => .fin ((i * i : ℕ) : ℚ))⟩
def turnedFiles : Files Q := fun f =>
  if f = "p.nc" then some [("prcp", turnedPrecip), ("division", ⟨["division"], [2], none, [.fin 1, .fin 2]⟩), ("lat", ⟨["division"], [2], none, [.fin 40, .fin 41]⟩), ("time", ⟨["time"], [24], none, (List.range 24).map (fun i => .fin i)⟩)] else none
def turnedWorld : World Q := ⟨turnedFiles, fun _ => none, []⟩

/-- what the tool has written for division `k`, and the SPI of the precipitation of division `k` (files of `turnedWorld`) -/
def turnedOut (k : Nat) : Option (List Q) := do
  let file ← (processIndices (indexFunction toyExt toyTrig 2000 2001) 2 id demoYear demoCmp (demoArgs "spi" [2]) turnedWorld).2.files "out_spi_gamma_02.nc"
  let y ← List.lookup "spi_gamma_02" file
  pure ((List.range 24).filterMap (fun t => y.data[t * 2 + k]?))
def turnedSpi (k : Nat) : Res (List Q) :=
  spi toyExt (Arr.of1d ((List.range 24).filterMap (fun t => turnedPrecip.data[t * 2 + k]?))) 2 .gamma 2000 2000 2001 .monthly none

/-- **C67 fails.** Divisions in the order (time, division) pass all checks of the tool; but then after every finished run the values written for time `t` are the SPI of the
precipitation of all divisions at time `t`, as if that were the time series of a division. The first division of `turnedWorld` is a case in which the values differ from the SPI
of the division. -/
theorem C67_fails :
    (∀ (F : Type) [FloatOps F] [FloatLaws F] (E : Ext F) (_ : ExtNan E) (T : Trig F) (cs ce : Int) (wk : Nat) (lower : String → String) (yearOf : F → Int) (cmp : CoordCmp F) (a : CliArgs) (w w' : World F)
      (_ : processIndices (indexFunction E T cs ce) wk lower yearOf cmp a w = (.ok (), w')) (_ : a.index = "spi" ∨ a.index = "scaled")
      (f v : String) (d : NcFile F) (x : NcVar F) (n D : Nat) (_ : Input w.files a.outputFileBase a.netcdfPrecip a.varNamePrecip f v d x)
      (_ : x.dims = ["time", "division"]) (_ : x.shape = [n, D]) (y0 y1 : Int) (_ : Years yearOf d y0 y1) (_ : a.periodicity = .monthly)
      (s : Int) (_ : s ∈ a.scales.getD []) (dist : Distribution) (_ : dist = .pearson ∨ dist = .gamma),
      ∃ u mm file y, x.units = some u ∧ convertPrecip (lower u) x.data = .ok mm ∧ w'.files (fileName a.outputFileBase (Output.spi dist s.toNat).name) = some file ∧
        ((Output.spi dist s.toNat).name, y) ∈ file ∧ y.dims = ["time", "division"] ∧ y.shape = [n, D] ∧
        ∀ t < n, spi E (Arr.of1d ((mm.drop (t * D)).take D)) s dist y0 cs ce .monthly none = .ok ((y.data.drop (t * D)).take D)) ∧
    (processIndices (indexFunction toyExt toyTrig 2000 2001) 2 id demoYear demoCmp (demoArgs "spi" [2]) turnedWorld).1 = .ok () ∧
    ∃ a b : List Q, turnedOut 0 = some a ∧ turnedSpi 0 = .ok b ∧ a[5]? = some .nan ∧ b[5]? = some (.fin (309 / 100)) := by
  refine ⟨?_, by decide +kernel, ?_⟩
  · intro F _ _ E hE T cs ce wk lower yearOf cmp a w w' h hi f v d x n D hin hdims hshape y0 y1 hy hper s hs dist hd
    obtain ⟨u, mm, it, k1, k2, _, _, file, y, k3, k4, k5, k6, k7⟩ := spi_run E hE T cs ce wk lower yearOf cmp a w w' h hi (A := n) (b := 1) (n := D) hin (by
      intro it hv
      obtain ⟨f', v', d', x', h1, h2, h3, h4, h5⟩ := (C50_inputs_partial cmp w.files a it hv).1 (by rcases hi with hi | hi <;> rw [hi] <;> decide)
      rw [hin.file] at h1
      cases h1
      rw [hin.var] at h2
      cases h2
      rw [hin.opened] at h3
      cases h3
      rw [hin.found] at h4
      cases h4
      rw [hdims] at h5
      right
      refine ⟨?_, hshape, rfl⟩
      cases it <;> simp [dataDims] at h5 ⊢) hy s hs dist hd
    refine ⟨u, mm, file, y, k1, k2, k3, k4, by rw [k5.1, hdims], by rw [k6.1, hshape], fun t ht => ?_⟩
    have := k7 t ht 0 Nat.one_pos
    obtain ⟨p, e1, this⟩ := Res.bind_ok this
    obtain ⟨r, e2, this⟩ := Res.bind_ok this
    have e3 : p = seriesAt 1 D t 0 mm := by
      simp only [preparedIt, prepared, hper] at e1
      split at e1 <;> cases e1 <;> rfl
    rw [hper, e3] at e2
    have e4 : r = seriesAt 1 D t 0 y.data := by
      simp only [restored, hper] at this
      cases this
      rfl
    rw [e4] at e2
    simpa [seriesAt] using e2
  · refine ⟨(turnedOut 0).getD [], (match turnedSpi 0 with | .ok b => b | .error _ => []), ?_, ?_, ?_, ?_⟩
    · decide +kernel
    · decide +kernel
    · decide +kernel
    · decide +kernel

end CI.Props
