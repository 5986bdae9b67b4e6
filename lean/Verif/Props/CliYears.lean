import Verif.Model.Argparse
import Verif.Props.CliOptions
import Verif.Props.CliScales

/-!
# C106: options that may be left out
-/

namespace CI.Props
open CI Spec

section
variable {F : Type} [FloatOps F]

/-! ## Calibration years that are given -/

theorem transformYears_eq (E : Ext F) (a : Arr F) (dist : Distribution) (ds cs ce : Int) (per : Periodicity) :
    transformYears E a dist ds cs ce per = distTransform E a dist ds cs ce per none := by
  cases dist <;> rfl

theorem spiOpt_eq (E : Ext F) (v : Arr F) (s : Int) (dist : Distribution) (ds : Int) (c e : Int) (cs ce : Option Int) (per : Periodicity)
    (h : ∀ a, transformOptYears E a dist ds cs ce per = transformYears E a dist ds c e per) : spiOptYears E v s dist ds cs ce per = spi E v s dist ds c e per none := by
  unfold spiOptYears spi
  simp only [h]
  cases dist <;> rfl

theorem speiOpt_eq (E : Ext F) (v p : Arr F) (s : Int) (dist : Distribution) (ds : Int) (c e : Int) (cs ce : Option Int) (per : Periodicity)
    (h : ∀ a, transformOptYears E a dist ds cs ce per = transformYears E a dist ds c e per) : speiOptYears E v p s dist per ds cs ce = spei E v p s dist per ds c e none := by
  unfold speiOptYears spei
  simp only [h]
  cases dist <;> rfl

theorem transform_early (E : Ext F) (a : Arr F) (dist : Distribution) (ds c e e' : Int) (per : Periodicity) (h : c < ds) :
    transformYears E a dist ds c e per = transformYears E a dist ds c e' per := by
  have hadj : ∀ de, adjustCalibrationYears ds de c e = adjustCalibrationYears ds de c e' := by
    intro de
    unfold adjustCalibrationYears
    rw [if_pos (.inl h), if_pos (.inl h)]
  have hc : ∀ (d : List F) n p, calibrationValues d n p ds c e = calibrationValues d n p ds c e' := by
    intro d n p
    unfold calibrationValues
    simp only [hadj]
  cases dist with
  | gamma =>
    unfold transformYears transformFittedGamma gammaParameters
    simp only [hc]
  | pearson =>
    unfold transformYears transformFittedPearson
    simp only [hadj]
  | other => rfl

/-- the index functions with given years are those of the other claims -/
theorem indexFunctionOpt_given (E : Ext F) (T : Trig F) (cs ce : Int) : indexFunctionOpt E T (some cs) (some ce) = indexFunction E T cs ce := by
  funext ds j x y
  have h1 : ∀ v s dist per, spiOptYears E v s dist ds (some cs) (some ce) per = spi E v s dist ds cs ce per none := fun v s dist per => spiOpt_eq E v s dist ds cs ce _ _ per (fun _ => rfl)
  have h2 : ∀ v p s dist per, speiOptYears E v p s dist per ds (some cs) (some ce) = spei E v p s dist per ds cs ce none := fun v p s dist per =>
    speiOpt_eq E v p s dist ds cs ce _ _ per (fun _ => rfl)
  unfold indexFunctionOpt indexFunction
  simp only [h1, h2]
  rfl

/-- **C106, years given.** With both calibration years on the command line the tool is the one of the other claims (C50, C66, ...). -/
theorem C106_given (E : Ext F) (T : Trig F) (toInt : String → Option Int) (cpus : Nat) (lower : String → String) (yearOf : F → Int) (cmp : CoordCmp F) (argv : List String) (w : World F)
    (c : MainCommand) (hc : readMain toInt argv = .ok c) (cs ce : Int) (h1 : c.calibrationStart = some cs) (h2 : c.calibrationEnd = some ce) :
    mainTool E T toInt cpus lower yearOf cmp argv w =
      (.ended (processIndices (indexFunction E T cs ce) (numberOfWorkers c.multiprocessing cpus) lower yearOf cmp c.args w).1,
        (processIndices (indexFunction E T cs ce) (numberOfWorkers c.multiprocessing cpus) lower yearOf cmp c.args w).2) := by
  unfold mainTool
  rw [hc]
  dsimp only
  rw [h1, h2, indexFunctionOpt_given]

/-- **C106, only a start year before the record.** Then the end year is not looked at: SPI and SPEI are those for any end year (the whole record, C14). -/
theorem C106_early (E : Ext F) (v p : Arr F) (s : Int) (dist : Distribution) (ds c e : Int) (per : Periodicity) (h : c < ds) :
    spiOptYears E v s dist ds (some c) none per = spi E v s dist ds c e per none ∧
    speiOptYears E v p s dist per ds (some c) none = spei E v p s dist per ds c e none := by
  have key : ∀ a, transformOptYears E a dist ds (some c) none per = transformYears E a dist ds c e per := by
    intro a
    show (if c < ds then transformYears E a dist ds c ds per else transformNoYears E a dist ds per) = _
    rw [if_pos h]
    exact transform_early E a dist ds c ds e per h
  exact ⟨spiOpt_eq E v s dist ds c e _ _ per key, speiOpt_eq E v p s dist ds c e _ _ per key⟩

/-! ## PET does not need the years -/

theorem cwi_congr {K K' : Int → Job → List F → List F → Res (List F)} {j : Job} (h : ∀ ds, K ds j = K' ds j) (wk : Nat) (lower : String → String) (yearOf : F → Int) :
    computeWriteIndex K wk lower yearOf j = computeWriteIndex K' wk lower yearOf j := by
  have hp : ∀ ds first second res, parallelProcess (K ds) wk j first second res = parallelProcess (K' ds) wk j first second res := by
    intro ds first second res
    unfold parallelProcess
    simp only [h]
  have hv : ∀ ds d sh res, computeValues (K ds) wk d j sh res = computeValues (K' ds) wk d j sh res := by
    intro ds d sh res
    unfold computeValues
    simp only [hp]
  funext w
  unfold computeWriteIndex
  simp only [hv]

/-- **C106, PET.** A run for PET does the same whatever calibration years are given, and if none are given. -/
theorem C106_pet (E : Ext F) (T : Trig F) (wk : Nat) (lower : String → String) (yearOf : F → Int) (cmp : CoordCmp F) (a : CliArgs) (hi : a.index = "pet") (cs ce : Option Int) (cs' ce' : Int)
    (w : World F) :
    processIndices (indexFunctionOpt E T cs ce) wk lower yearOf cmp a w = processIndices (indexFunction E T cs' ce') wk lower yearOf cmp a w := by
  have hj : ∀ it (f v : String), computeWriteIndex (indexFunctionOpt E T cs ce) wk lower yearOf (mkJob a it "pet" none none none (some (f, v)) none none) =
      computeWriteIndex (indexFunction E T cs' ce') wk lower yearOf (mkJob a it "pet" none none none (some (f, v)) none none) := by
    intro it f v
    exact cwi_congr (fun ds => rfl) wk lower yearOf
  have h1 : ∀ it, runSpi (indexFunctionOpt E T cs ce) wk lower yearOf a it = runSpi (indexFunction E T cs' ce') wk lower yearOf a it := by
    intro it
    unfold runSpi
    rw [if_neg (by rw [hi]; decide), if_neg (by rw [hi]; decide)]
  have h2 : ∀ it, runPet (indexFunctionOpt E T cs ce) wk lower yearOf a it = runPet (indexFunction E T cs' ce') wk lower yearOf a it := by
    intro it
    unfold runPet
    simp only [hj]
  have h3 : ∀ it pet, runSpei (indexFunctionOpt E T cs ce) wk lower yearOf a it pet = runSpei (indexFunction E T cs' ce') wk lower yearOf a it pet := by
    intro it pet
    unfold runSpei
    rw [if_neg (by rw [hi]; decide), if_neg (by rw [hi]; decide)]
  have h4 : ∀ it, runPnp (indexFunctionOpt E T cs ce) wk lower yearOf a it = runPnp (indexFunction E T cs' ce') wk lower yearOf a it := by
    intro it
    unfold runPnp
    rw [if_neg (by rw [hi]; decide), if_neg (by rw [hi]; decide)]
  have h5 : ∀ it pet, runPalmers (indexFunctionOpt E T cs ce) wk lower yearOf a it pet = runPalmers (indexFunction E T cs' ce') wk lower yearOf a it pet := by
    intro it pet
    unfold runPalmers
    rw [if_neg (by rw [hi]; decide), if_neg (by rw [hi]; decide)]
  unfold processIndices
  simp only [h1, h2, h3, h4, h5]

/-! ## Years that are needed and not given -/

/-- the years given are not enough for a comparison with the years `ds`, ... of the record: no start year, or a start year within the record and no end year -/
def TooFew (ds : Int) (cs ce : Option Int) : Prop := cs = none ∨ ∃ c, cs = some c ∧ ds ≤ c ∧ ce = none

theorem transform_few {E : Ext F} {a : Arr F} {dist : Distribution} {ds : Int} {cs ce : Option Int} {per : Periodicity} (h : TooFew ds cs ce) :
    transformOptYears E a dist ds cs ce per = transformNoYears E a dist ds per := by
  rcases h with rfl | ⟨c, rfl, hc, rfl⟩
  · cases ce <;> rfl
  · show (if c < ds then transformYears E a dist ds c ds per else transformNoYears E a dist ds per) = _
    rw [if_neg (by omega)]

/-- Pearson needs the years for everything that is not entirely missing -/
theorem transformNoYears_pearson {E : Ext F} {a t : Arr F} {ds : Int} {per : Periodicity} (h : transformNoYears E a .pearson ds per = .ok t) : allNan a.data = true := by
  unfold transformNoYears at h
  cases ha : allNan a.data with
  | true => rfl
  | false =>
    rw [ha] at h
    dsimp only at h
    rw [if_neg (by simp)] at h
    cases hv : validateArray a per with
    | error e => rw [hv] at h; cases h
    | ok v => rw [hv] at h; cases h

theorem clip_allNan [FloatLaws F] {a : Arr F} (n : Nat) (h : allNan a.data = true) : allNan (clipFlattenTruncate a n) = true := by
  unfold allNan clipFlattenTruncate
  rw [List.all_eq_true]
  intro x hx
  obtain ⟨y, hy, rfl⟩ := List.mem_map.1 (List.mem_of_mem_take hx)
  have : y = nan := by
    by_contra hn
    have := (isNan_eq_false_iff y).2 hn
    rw [List.all_eq_true.1 h y hy] at this
    cases this
  rw [this, npClip_nan]
  simp

theorem pearson_allNan (E : Ext F) (a : Arr F) (ds c e : Int) (per : Periodicity) (h : allNan a.data = true) :
    transformFittedPearson E (lmomentsFit E) a ds c e per ⟨none, none, none, none⟩ = .ok a := by
  unfold transformFittedPearson
  rw [if_neg (by simp), if_pos h]

/-- `spi` without enough years on data that are not entirely missing -/
theorem spiOpt_unfold (E : Ext F) (x : List F) (s : Int) (dist : Distribution) (ds : Int) (cs ce : Option Int) (per : Periodicity) (hn : allNan x = false) :
    spiOptYears E (Arr.of1d x) s dist ds cs ce per = (do
      let scaled ← sumToScale (clipNeg x) s
      let a ← reshapeValues (Arr.of1d scaled) per
      let t ← transformOptYears E a dist ds cs ce per
      pure (clipFlattenTruncate t x.length)) := by
  obtain ⟨m, hm⟩ := amin_ok _ (ne_nil_of_allNan _ hn)
  unfold spiOptYears
  rw [if_pos (.inr rfl)]
  have hc : clipNeg x = if flt m (lit 0) then x.map (npClipMin (lit 0)) else x := by
    unfold clipNeg; rw [hm]
  have hl : (if flt m (lit 0) = true then x.map (npClipMin (lit 0)) else x).length = x.length := by split <;> simp
  have hx : (Arr.of1d x).data = x := rfl
  simp only [hx, hn, Bool.false_eq_true, if_false, hm, bind, Except.bind, hc, hl]
  cases per <;> rfl

/-- where SPI (Pearson) for some years has a number, SPI without the years raises an exception -/
theorem spi_few [FloatLaws F] (E : Ext F) (x : List F) (s ds c e : Int) (cs ce : Option Int) (per : Periodicity) (hf : TooFew ds cs ce) (r : List F)
    (h : spi E (Arr.of1d x) s .pearson ds c e per none = .ok r) (hr : ∃ z ∈ r, isNan z = false) : ∃ err, spiOptYears E (Arr.of1d x) s .pearson ds cs ce per = .error err := by
  have hrn := allNan_false hr
  have hn : allNan x = false := by
    cases hn : allNan x with
    | false => rfl
    | true =>
      unfold spi at h
      rw [if_pos (.inr rfl), if_pos (show allNan (Arr.of1d x).data = true from hn)] at h
      cases h
      rw [show (Arr.of1d x).data = x from rfl, hn] at hrn
      cases hrn
  rw [spi_eq E _ s .pearson ds c e per none (.inr rfl) hn] at h
  rw [spiOpt_unfold E x s .pearson ds cs ce per hn]
  rw [show (Arr.of1d x).data = x from rfl] at h
  cases hs : sumToScale (clipNeg x) s with
  | error err => exact ⟨err, rfl⟩
  | ok scaled =>
    rw [hs] at h
    simp only [bind, Except.bind] at h ⊢
    cases ha : reshapeValues (Arr.of1d scaled) per with
    | error err => exact ⟨err, rfl⟩
    | ok a =>
      rw [ha] at h
      dsimp only at h ⊢
      rw [transform_few hf]
      cases ht : transformNoYears E a .pearson ds per with
      | error err => exact ⟨err, rfl⟩
      | ok t =>
        exfalso
        have hall := transformNoYears_pearson ht
        have : distTransform E a .pearson ds c e per none = .ok a := pearson_allNan E a ds c e per hall
        rw [this] at h
        cases h
        rw [clip_allNan _ hall] at hrn
        cases hrn

/-- where SPEI (Pearson) for some years has a number, SPEI without the years raises an exception -/
theorem spei_few [FloatLaws F] (E : Ext F) (x y : List F) (s ds c e : Int) (cs ce : Option Int) (per : Periodicity) (hf : TooFew ds cs ce) (r : Arr F)
    (h : spei E (Arr.of1d x) (Arr.of1d y) s .pearson per ds c e none = .ok r) (hr : ∃ z ∈ r.data, isNan z = false) :
    ∃ err, speiOptYears E (Arr.of1d x) (Arr.of1d y) s .pearson per ds cs ce = .error err := by
  have hrn := allNan_false hr
  unfold spei at h
  unfold speiOptYears
  dsimp only at h
  by_cases hn : allNan (Arr.of1d x).data = true
  · rw [if_pos hn] at h
    cases h
    rw [hn] at hrn
    cases hrn
  rw [if_neg hn] at h ⊢
  by_cases hl : (Arr.of1d x).data.length ≠ (Arr.of1d y).data.length
  · rw [if_pos hl] at h
    cases h
  rw [if_neg hl] at h ⊢
  simp only [bind, Except.bind] at h ⊢
  cases hm : amin (Arr.of1d x).data with
  | error err => exact ⟨err, rfl⟩
  | ok m =>
    rw [hm] at h
    dsimp only at h ⊢
    split at h
    · cases h
    · next scaled hs =>
      rw [transform_few hf]
      cases ht : transformNoYears E (Arr.of1d scaled) .pearson ds per with
      | error err => exact ⟨err, rfl⟩
      | ok t =>
        exfalso
        have hall := transformNoYears_pearson ht
        have : transformFittedPearson E (lmomentsFit E) (Arr.of1d scaled) ds c e per ⟨none, none, none, none⟩ = .ok (Arr.of1d scaled) :=
          pearson_allNan E _ ds c e per hall
        rw [show getPearsonArgs (normFitdict (none : Option (FitDict F))) = .ok ⟨none, none, none, none⟩ from rfl] at h
        dsimp only at h
        rw [this] at h
        cases h
        rw [show ∀ l : List F, (Arr.of1d l).data = l from fun _ => rfl, clip_allNan _ hall] at hrn
        cases hrn

/-- percentages of normal without the years -/
theorem pnp_few (x : List F) (s ds : Int) (cs ce : Option Int) (per : Periodicity) (hf : TooFew ds cs ce) : ∃ err, pnpOptYears x (some s) ds cs ce per = .error err := by
  unfold pnpOptYears
  rcases hf with rfl | ⟨c, rfl, hc, rfl⟩
  · dsimp only
    split
    · exact ⟨_, rfl⟩
    · split <;> exact ⟨_, rfl⟩
  · dsimp only
    split
    · exact ⟨_, rfl⟩
    · split
      · exact ⟨_, rfl⟩
      · split <;> exact ⟨_, rfl⟩

/-- **C106, PNP without the years.** A command line of PNP (or of all scaled indices) that does not give enough calibration years never ends without exception. -/
theorem C106_pnp_fails (E : Ext F) (T : Trig F) (toInt : String → Option Int) (cpus : Nat) (lower : String → String) (yearOf : F → Int) (cmp : CoordCmp F) (argv : List String) (w : World F)
    (c : MainCommand) (hc : readMain toInt argv = .ok c) (hi : c.args.index = "pnp" ∨ c.args.index = "scaled")
    {f v : String} {d : NcFile F} {x : NcVar F} {A b n : Nat} (hin : Input w.files c.args.outputFileBase c.args.netcdfPrecip c.args.varNamePrecip f v d x) (hl : Layout x A b n)
    (hA : 0 < A) (hb : 0 < b) {y0 y1 : Int} (hy : Years yearOf d y0 y1) (hf : TooFew y0 c.calibrationStart c.calibrationEnd) (hs : c.args.scales.getD [] ≠ []) :
    ∃ e, (mainTool E T toInt cpus lower yearOf cmp argv w).1 = .ended (.error e) := by
  unfold mainTool
  rw [hc]
  dsimp only
  cases h : processIndices (indexFunctionOpt E T c.calibrationStart c.calibrationEnd) (numberOfWorkers c.multiprocessing cpus) lower yearOf cmp c.args w with
  | mk r w' =>
    cases r with
    | error e => exact ⟨e, rfl⟩
    | ok u =>
      exfalso
      obtain ⟨s, hs⟩ := List.exists_mem_of_ne_nil _ hs
      obtain ⟨_, mm, it, _, _, _, _, file, y, _, _, _, _, hcell⟩ := pnp_run_any _ _ lower yearOf cmp _ w w' h hi hin hl hy s hs
      obtain ⟨p, r, t, _, hK, _⟩ := hcell 0 hA 0 hb
      obtain ⟨e, he⟩ := pnp_few p s y0 c.calibrationStart c.calibrationEnd c.args.periodicity hf
      have : indexFunctionOpt E T c.calibrationStart c.calibrationEnd y0 (mkJob c.args it "pnp" (some s) none (some (f, c.args.varNamePrecip.getD "")) none none none) p p =
        pnpOptYears p (some s) y0 c.calibrationStart c.calibrationEnd c.args.periodicity := rfl
      rw [this, he] at hK
      cases hK

/-- **C106, SPI without the years.** If at some place the SPI by Pearson's distribution, for some calibration years or other, has a number, then the run for SPI (or for all scaled
indices) without enough calibration years does not end without exception: there are no default years. -/
theorem C106_spi_fails [FloatLaws F] (E : Ext F) (T : Trig F) (toInt : String → Option Int) (cpus : Nat) (lower : String → String) (yearOf : F → Int) (cmp : CoordCmp F) (argv : List String)
    (w : World F) (c : MainCommand) (hc : readMain toInt argv = .ok c) (hi : c.args.index = "spi" ∨ c.args.index = "scaled")
    {f v : String} {d : NcFile F} {x : NcVar F} {A b n : Nat} (hin : Input w.files c.args.outputFileBase c.args.netcdfPrecip c.args.varNamePrecip f v d x) (hl : Layout x A b n)
    {y0 y1 : Int} (hy : Years yearOf d y0 y1) (hf : TooFew y0 c.calibrationStart c.calibrationEnd) (s : Int) (hs : s ∈ c.args.scales.getD [])
    (hnum : ∀ u mm, x.units = some u → convertPrecip (lower u) x.data = .ok mm → ∃ i < A, ∃ k < b, ∃ p cs ce r, preparedFor x.dims c.args.periodicity y0 y1 (seriesAt b n i k mm) = .ok p ∧
      spi E (Arr.of1d p) s .pearson y0 cs ce c.args.periodicity none = .ok r ∧ ∃ z ∈ r, isNan z = false) :
    ∃ e, (mainTool E T toInt cpus lower yearOf cmp argv w).1 = .ended (.error e) := by
  unfold mainTool
  rw [hc]
  dsimp only
  have hip : c.args.index ≠ "pet" := by rcases hi with hi | hi <;> rw [hi] <;> decide
  cases h : processIndices (indexFunctionOpt E T c.calibrationStart c.calibrationEnd) (numberOfWorkers c.multiprocessing cpus) lower yearOf cmp c.args w with
  | mk r w' =>
    cases r with
    | error e => exact ⟨e, rfl⟩
    | ok u =>
      exfalso
      obtain ⟨u, mm, it, hu, hm, hv, hd, file, y, _, _, _, _, hcell⟩ :=
        spi_run_any _ _ lower yearOf cmp _ w w' h hi hin (fun _ hv => run_layout hv hip hin hl) hy s hs .pearson (.inl rfl)
      obtain ⟨i, hi', k, hk, p, cs, ce, r, hp, hr, hz⟩ := hnum u mm hu hm
      obtain ⟨p', r', t, hp', hK, _⟩ := hcell i hi' k hk
      rw [preparedIt_for hl (run_layout hv hip hin hl) hd, hp'] at hp
      cases hp
      obtain ⟨e, he⟩ := spi_few E p s y0 cs ce c.calibrationStart c.calibrationEnd c.args.periodicity hf r hr hz
      have : indexFunctionOpt E T c.calibrationStart c.calibrationEnd y0 (mkJob c.args it "spi" (some s) (some .pearson) (some (f, c.args.varNamePrecip.getD "")) none none none) p p =
        spiOptYears E (Arr.of1d p) s .pearson y0 c.calibrationStart c.calibrationEnd c.args.periodicity := rfl
      rw [this, he] at hK
      cases hK

/-- **C106, SPEI without the years** (with a given file of potential evapotranspiration). -/
theorem C106_spei_fails [FloatLaws F] (E : Ext F) (T : Trig F) (toInt : String → Option Int) (cpus : Nat) (lower : String → String) (yearOf : F → Int) (cmp : CoordCmp F) (argv : List String)
    (w : World F) (c : MainCommand) (hc : readMain toInt argv = .ok c) (hi : c.args.index = "spei" ∨ c.args.index = "scaled")
    {f v fe ve : String} {d de : NcFile F} {x xe : NcVar F} {A b n : Nat} (hin : Input w.files c.args.outputFileBase c.args.netcdfPrecip c.args.varNamePrecip f v d x) (hl : Layout x A b n)
    (hpet : Input w.files c.args.outputFileBase c.args.netcdfPet c.args.varNamePet fe ve de xe) (hle : Layout xe A b n) (hne : v ≠ ve)
    (hnone : List.lookup ve d = none ∨ List.lookup ve d = some xe) (hsame : SameCoords d de)
    {y0 y1 : Int} (hy : Years yearOf d y0 y1) (hf : TooFew y0 c.calibrationStart c.calibrationEnd) (s : Int) (hs : s ∈ c.args.scales.getD [])
    (hnum : ∀ u mm ue pe, x.units = some u → convertPrecip (lower u) x.data = .ok mm → xe.units = some ue → convertPet (lower ue) xe.data = .ok pe →
      ∃ i < A, ∃ k < b, ∃ p q cs ce r, preparedFor x.dims c.args.periodicity y0 y1 (seriesAt b n i k mm) = .ok p ∧ preparedFor x.dims c.args.periodicity y0 y1 (seriesAt b n i k pe) = .ok q ∧
        spei E (Arr.of1d p) (Arr.of1d q) s .pearson c.args.periodicity y0 cs ce none = .ok r ∧ ∃ z ∈ r.data, isNan z = false) :
    ∃ e, (mainTool E T toInt cpus lower yearOf cmp argv w).1 = .ended (.error e) := by
  unfold mainTool
  rw [hc]
  dsimp only
  have hip : c.args.index ≠ "pet" := by rcases hi with hi | hi <;> rw [hi] <;> decide
  cases h : processIndices (indexFunctionOpt E T c.calibrationStart c.calibrationEnd) (numberOfWorkers c.multiprocessing cpus) lower yearOf cmp c.args w with
  | mk r w' =>
    cases r with
    | error e => exact ⟨e, rfl⟩
    | ok u =>
      exfalso
      obtain ⟨u, mm, ue, pe, it, hu, hm, hue, hpe, hv, hd, file, y, _, _, _, _, hcell⟩ :=
        spei_run_any _ _ lower yearOf cmp _ w w' h hi hin hl hpet hle hne hnone hsame hy s hs .pearson (.inl rfl)
      obtain ⟨i, hi', k, hk, p, q, cs, ce, r, hp, hq, hr, hz⟩ := hnum u mm ue pe hu hm hue hpe
      obtain ⟨p', q', r', t, hp', hq', hK, _⟩ := hcell i hi' k hk
      rw [preparedIt_for hl (run_layout hv hip hin hl) hd, hp'] at hp
      rw [preparedIt_for hl (run_layout hv hip hin hl) hd, hq'] at hq
      cases hp
      cases hq
      obtain ⟨e, he⟩ := spei_few E p q s y0 cs ce c.calibrationStart c.calibrationEnd c.args.periodicity hf r hr hz
      have : indexFunctionOpt E T c.calibrationStart c.calibrationEnd y0 (mkJob c.args it "spei" (some s) (some .pearson) (some (f, c.args.varNamePrecip.getD "")) none (some (fe, ve)) none) p q =
        (speiOptYears E (Arr.of1d p) (Arr.of1d q) s .pearson c.args.periodicity y0 c.calibrationStart c.calibrationEnd).map Arr.data := rfl
      rw [this, he] at hK
      cases hK

end

/-! ## Examples -/

/-- a command line for the grid of the other examples -/
def demoLine (index : String) (years : List String) : List String :=
  ["--index", index, "--periodicity", "monthly", "--scales", "1", "--netcdf_precip", "p.nc", "--var_name_precip", "prcp", "--netcdf_temp", "t.nc", "--var_name_temp", "tavg",
    "--output_file_base", "out"] ++ years

def ended : Outcome → Option (Res Unit)
  | .ended r => some r
  | .exit _ => none

/-- what the tool does on the grid of the other examples -/
def demoEnd (index : String) (years : List String) : Option (Res Unit) :=
  ended (mainTool toyExt toyTrig readDigits 4 id demoYear demoCmp (demoLine index years) demoWorld).1

/-- with both years, and with a start year before the record only, SPI is computed; without a start year, or with a start year in the record only, `TypeError` -/
example : demoEnd "spi" ["--calibration_start_year", "2000", "--calibration_end_year", "2000"] = some (.ok ()) ∧ demoEnd "spi" ["--calibration_start_year", "1990"] = some (.ok ()) ∧
    demoEnd "spi" [] = some (.error .typeError) ∧ demoEnd "spi" ["--calibration_end_year", "2000"] = some (.error .typeError) ∧
    demoEnd "spi" ["--calibration_start_year", "2000"] = some (.error .typeError) := by decide +kernel

/-- PNP needs both, PET none -/
example : demoEnd "pnp" [] = some (.error .typeError) ∧ demoEnd "pnp" ["--calibration_start_year", "1990"] = some (.error .valueError) ∧ demoEnd "pet" [] = some (.ok ()) := by
  decide +kernel

/-- the hypothesis on the years for the last lines -/
example : TooFew 2000 none (some 2000) ∧ TooFew 2000 (some 2000) none ∧ ¬ TooFew 2000 (some 1990) none := by
  refine ⟨.inl rfl, .inr ⟨2000, rfl, by decide, rfl⟩, ?_⟩
  rintro (h | ⟨c, h, h', _⟩) <;> cases h
  revert h'
  decide

end CI.Props
