import Verif.Props.CliYears

/-!
# C106: SPEI from temperature needs the calibration years
-/

namespace CI.Props
open CI Spec

section
variable {F : Type} [FloatOps F]

/-- the computation of PET does not use the calibration years -/
theorem runPet_years (E : Ext F) (T : Trig F) (wk : Nat) (lower : String → String) (yearOf : F → Int) (a : CliArgs) (it : InputType) (cs ce : Option Int) (cs' ce' : Int) :
    runPet (indexFunctionOpt E T cs ce) wk lower yearOf a it = runPet (indexFunction E T cs' ce') wk lower yearOf a it := by
  have hj : ∀ (f v : String), computeWriteIndex (indexFunctionOpt E T cs ce) wk lower yearOf (mkJob a it "pet" none none none (some (f, v)) none none) =
      computeWriteIndex (indexFunction E T cs' ce') wk lower yearOf (mkJob a it "pet" none none none (some (f, v)) none none) := by
    intro f v
    exact cwi_congr (fun ds => rfl) wk lower yearOf
  unfold runPet
  simp only [hj]

/-- **C106, SPEI from temperature without the years.** The run computes the PET first, which needs no calibration years; the SPEI does. If at some place the SPEI by Pearson's distribution of the
precipitation and the PET of that place, for some calibration years or other, has a number, then the run for SPEI (or for all scaled indices) without enough calibration years does not end without
exception. -/
theorem C106_spei_temp_fails [FloatLaws F] (E : Ext F) (T : Trig F) (toInt : String → Option Int) (cpus : Nat) (lower : String → String) (hlow : lower "millimeters" = "millimeters")
    (yearOf : F → Int) (cmp : CoordCmp F) (argv : List String) (w : World F) (c : MainCommand) (hc : readMain toInt argv = .ok c) (hi : c.args.index = "spei" ∨ c.args.index = "scaled")
    (hn : c.args.netcdfPet = none) {f v ft vt : String} {d dt : NcFile F} {x xt xl : NcVar F} {A b n : Nat}
    (hin : Input w.files c.args.outputFileBase c.args.netcdfPrecip c.args.varNamePrecip f v d x) (hl : Layout x A b n)
    (htemp : Input w.files c.args.outputFileBase c.args.netcdfTemp c.args.varNameTemp ft vt dt xt) (hlt : Layout xt A b n) (hlat : List.lookup "lat" dt = some xl)
    (hnone : List.lookup "pet_thornthwaite" d = none) (hnone' : List.lookup "pet_thornthwaite" dt = none) (hsame : SameCoords d dt)
    {y0 y1 : Int} (hy : Years yearOf d y0 y1) (hyt : Years yearOf dt y0 y1) (hf : TooFew y0 c.calibrationStart c.calibrationEnd) (s : Int) (hs : s ∈ c.args.scales.getD [])
    (hnum : ∀ u mm ut cel, x.units = some u → convertPrecip (lower u) x.data = .ok mm → xt.units = some ut → convertTemp (lower ut) xt.data = .ok cel →
      ∃ i < A, ∃ k < b, ∃ e p q cs ce r, onSeries xt.dims c.args.periodicity y0 y1 (fun p => pet T (Arr.of1d p) xl.data[i]? y0) (seriesAt b n i k cel) = .ok e ∧
        preparedFor x.dims c.args.periodicity y0 y1 (seriesAt b n i k mm) = .ok p ∧ preparedFor x.dims c.args.periodicity y0 y1 e = .ok q ∧
        spei E (Arr.of1d p) (Arr.of1d q) s .pearson c.args.periodicity y0 cs ce none = .ok r ∧ ∃ z ∈ r.data, isNan z = false) :
    ∃ e, (mainTool E T toInt cpus lower yearOf cmp argv w).1 = .ended (.error e) := by
  unfold mainTool
  rw [hc]
  dsimp only
  have hip : c.args.index ≠ "pet" := by rcases hi with hi | hi <;> rw [hi] <;> decide
  cases h : processIndices (indexFunctionOpt E T c.calibrationStart c.calibrationEnd) (numberOfWorkers c.multiprocessing cpus) lower yearOf cmp c.args w with
  | mk r w' =>
    cases r with
    | error e => exact ⟨e, rfl⟩
    | ok u =>
      exfalso
      obtain ⟨it, w1, w2, w3, pet, hv, h1, h2, h3, h4, _⟩ := process_ok _ _ lower yearOf h
      have hil := run_layout hv hip hin hl
      have hsc := run_scales hv (by rcases hi with hi | hi <;> rw [hi] <;> decide)
      have hi' : c.args.index ∈ ["pet", "spei", "scaled"] := by rcases hi with hi | hi <;> rw [hi] <;> decide
      have hil' := run_layout_temp hv hi' hn htemp hlt
      have keep1 : ∀ g, (∀ o : Output, g ≠ fileName c.args.outputFileBase o.name) → w1.files g = w.files g := by
        intro g hg
        rw [runSpi_files h1 (fun _ => hsc) (fun dist m => hg _)]
      have keep : ∀ g, (∀ o : Output, g ≠ fileName c.args.outputFileBase o.name) → w2.files g = w.files g := by
        intro g hg
        rw [runPet_files h2 (hg _), keep1 g hg]
      have htemp1 : Input w1.files c.args.outputFileBase c.args.netcdfTemp c.args.varNameTemp ft vt dt xt :=
        ⟨htemp.file, htemp.var, by rw [keep1 ft htemp.notOutput]; exact htemp.opened, htemp.found, htemp.wf, htemp.reserved, htemp.notOutput⟩
      rw [runPet_years E T _ lower yearOf c.args it c.calibrationStart c.calibrationEnd 0 0] at h2
      obtain ⟨hp, ut, cel, out, p1, p2, p2', p3, p4⟩ := pet_phase E T 0 0 _ lower yearOf c.args it w1 w2 pet h2 hi' hn htemp1 hil' hlt hlat hyt
      subst hp
      have hin2 : Input w2.files c.args.outputFileBase c.args.netcdfPrecip c.args.varNamePrecip f v d x :=
        ⟨hin.file, hin.var, by rw [keep f hin.notOutput]; exact hin.opened, hin.found, hin.wf, hin.reserved, hin.notOutput⟩
      have hlook : List.lookup Output.pet.name (coordsOf dt ++ [(Output.pet.name, (⟨xt.dims, xt.shape, some "millimeters", out⟩ : NcVar F))]) =
          some ⟨xt.dims, xt.shape, some "millimeters", out⟩ := by
        rw [lookup_append_none]
        · simp [List.lookup]
        · cases hc : List.lookup Output.pet.name (coordsOf dt) with
          | none => rfl
          | some z =>
            have h1 := (List.mem_filter.1 (mem_of_lookup hc)).1
            have h2 := lookup_isSome_of_mem h1
            have h3 : List.lookup Output.pet.name dt = none := hnone'
            rw [h3] at h2
            cases h2
      have hsame' : SameCoords d (coordsOf dt ++ [(Output.pet.name, (⟨xt.dims, xt.shape, some "millimeters", out⟩ : NcVar F))]) := by
        intro c z y hz hy hzd hyd
        rcases List.mem_append.1 hy with hy | hy
        · exact hsame c z y hz (List.mem_filter.1 hy).1 hzd hyd
        · simp only [List.mem_singleton, Prod.mk.injEq] at hy
          obtain ⟨rfl, rfl⟩ := hy
          rcases hlt with ⟨e, _⟩ | ⟨e, _⟩ <;> (have hyd : xt.dims = _ := hyd; rw [e] at hyd; simp at hyd)
      have hvne : v ≠ Output.pet.name := by
        rintro rfl
        have h1 := hin.found
        have h2 : List.lookup Output.pet.name d = none := hnone
        rw [h2] at h1
        cases h1
      obtain ⟨u, mm, ue, pe, k1, k2, k3, k4, k4', file, y, _, _, _, _, hcell⟩ := spei_phase_any _ _ lower yearOf c.args it w2 w3 h3 hi hin2 hil hsc p3 (by decide)
        hvne (.inl hnone) hlook hil' p2' hsame' hy (fun _ _ e => by cases output_name_inj (fileName_inj e)) s hs .pearson (.inl rfl)
      cases k3
      rw [hlow] at k4
      cases k4
      obtain ⟨i, hi', k, hk, e, p, q, cs, ce, r, he, hp, hq, hr, hz⟩ := hnum u mm ut cel k1 k2 p1 p2
      obtain ⟨p', q', r', t, hp', hq', hK, _⟩ := hcell i hi' k hk
      rw [p4 i hi' k hk] at he
      cases he
      rw [preparedIt_for hl hil k4', hp'] at hp
      rw [preparedIt_for hl hil k4', hq'] at hq
      cases hp
      cases hq
      obtain ⟨e, he⟩ := spei_few E p q s y0 cs ce c.calibrationStart c.calibrationEnd c.args.periodicity hf r hr hz
      have : indexFunctionOpt E T c.calibrationStart c.calibrationEnd y0
          (mkJob c.args it "spei" (some s) (some .pearson) (some (f, c.args.varNamePrecip.getD "")) none (some (fileName c.args.outputFileBase Output.pet.name, Output.pet.name)) none) p q =
        (speiOptYears E (Arr.of1d p) (Arr.of1d q) s .pearson c.args.periodicity y0 c.calibrationStart c.calibrationEnd).map Arr.data := rfl
      rw [this, he] at hK
      cases hK

end

/-! ## Examples -/

/-- the grid of the other examples, which has a temperature file: with both years SPEI is computed, without them `TypeError`, with the PET file and nothing else written -/
example : demoEnd "spei" ["--calibration_start_year", "2000", "--calibration_end_year", "2000"] = some (.ok ()) ∧ demoEnd "spei" [] = some (.error .typeError) ∧
    (mainTool toyExt toyTrig readDigits 4 id demoYear demoCmp (demoLine "spei" []) demoWorld).2.written = [("out_pet_thornthwaite.nc", "pet_thornthwaite")] := by decide +kernel

/-- five years of precipitation and temperature at one place -/
def pair5Precip : NcVar Q := ⟨["lat", "lon", "time"], [1, 1, 60], some "mm", (List.range 60).map (fun i => .fin (((i * i) % 53 : ℕ) : ℚ))⟩
def pair5Temp : NcVar Q := ⟨["lat", "lon", "time"], [1, 1, 60], some "celsius", (List.range 60).map (fun i => .fin ((5 + i % 12 : ℕ) : ℚ))⟩
def pair5Coords : NcFile Q := [("lat", ⟨["lat"], [1], none, [.fin 40]⟩), ("lon", ⟨["lon"], [1], none, [.fin 0]⟩), ("time", ⟨["time"], [60], none, (List.range 60).map (fun i => .fin i)⟩)]
def pair5World : World Q :=
  ⟨fun f => if f = "p.nc" then some (("prcp", pair5Precip) :: pair5Coords) else if f = "t.nc" then some (("tavg", pair5Temp) :: pair5Coords) else none, fun _ => none, []⟩
def pair5Year : Q → Int
  | .fin q => 2000 + (q / 12).floor
  | _ => 2000

/-- the SPEI by Pearson's distribution of the place has a number -/
def pair5Number : Bool :=
  match pet toyTrig (Arr.of1d pair5Temp.data) (some (.fin 40)) 2000 with
  | .ok e => match spei toyExt (Arr.of1d pair5Precip.data) (Arr.of1d e) 1 .pearson .monthly 2000 2000 2004 none with
    | .ok r => r.data.any (fun z => !isNan z)
    | .error _ => false
  | .error _ => false

theorem pair5_number : pair5Number = true := by decide +kernel

/-- the theorem for this place: the run for SPEI at scale 1 with a start year only does not end without exception -/
example : ∃ e, (mainTool toyExt toyTrig readDigits 4 id pair5Year demoCmp (demoLine "spei" ["--calibration_start_year", "2000"]) pair5World).1 = .ended (.error e) := by
  refine C106_spei_temp_fails toyExt toyTrig readDigits 4 id rfl pair5Year demoCmp _ pair5World ⟨demoArgs "spei" [1], some 2000, none, .allButOne, "none"⟩ (by rfl) (.inl rfl) rfl
    (f := "p.nc") (v := "prcp") (ft := "t.nc") (vt := "tavg") (d := ("prcp", pair5Precip) :: pair5Coords) (dt := ("tavg", pair5Temp) :: pair5Coords) (x := pair5Precip) (xt := pair5Temp)
    (xl := ⟨["lat"], [1], none, [.fin 40]⟩) (A := 1) (b := 1) (n := 60) ⟨rfl, rfl, rfl, rfl, rfl, by decide, demo_notOutput _ (by decide)⟩ (.inl ⟨rfl, rfl⟩)
    ⟨rfl, rfl, rfl, rfl, rfl, by decide, demo_notOutput _ (by decide)⟩ (.inl ⟨rfl, rfl⟩) rfl rfl rfl ?_ (y0 := 2000) (y1 := 2004)
    ⟨_, .fin 0, .fin 59, rfl, rfl, by decide, by decide +kernel, by decide +kernel⟩ ⟨_, .fin 0, .fin 59, rfl, rfl, by decide, by decide +kernel, by decide +kernel⟩
    (.inr ⟨2000, rfl, by decide, rfl⟩) 1 (by decide) ?_
  · intro c x y hx hy hxd hyd
    simp only [pair5Coords, List.mem_cons, List.not_mem_nil, or_false, Prod.mk.injEq] at hx hy
    rcases hx with ⟨rfl, rfl⟩ | ⟨rfl, rfl⟩ | ⟨rfl, rfl⟩ | ⟨rfl, rfl⟩ <;> rcases hy with ⟨h, rfl⟩ | ⟨h, rfl⟩ | ⟨h, rfl⟩ | ⟨h, rfl⟩ <;>
      first | rfl | exact absurd h (by decide)
  · intro u mm ut cel h1 h2 h3 h4
    cases h1
    cases h3
    obtain rfl : pair5Precip.data = mm := by
      have h : (Except.ok pair5Precip.data : Res (List Q)) = .ok mm := h2
      cases h
      rfl
    obtain rfl : pair5Temp.data = cel := by
      have h : (Except.ok pair5Temp.data : Res (List Q)) = .ok cel := h4
      cases h
      rfl
    have hn := pair5_number
    unfold pair5Number at hn
    cases he : pet toyTrig (Arr.of1d pair5Temp.data) (some (.fin 40)) 2000 with
    | error e => rw [he] at hn; cases hn
    | ok e =>
      rw [he] at hn
      cases hr : spei toyExt (Arr.of1d pair5Precip.data) (Arr.of1d e) 1 .pearson .monthly 2000 2000 2004 none with
      | error e' => simp only [hr] at hn; cases hn
      | ok r =>
        simp only [hr, List.any_eq_true, Bool.not_eq_true'] at hn
        refine ⟨0, by decide, 0, by decide, e, pair5Precip.data, e, 2000, 2004, r, ?_, rfl, rfl, hr, hn⟩
        have hs : seriesAt 1 60 0 0 pair5Temp.data = pair5Temp.data := by decide +kernel
        rw [hs]
        show (do
          let r ← pet toyTrig (Arr.of1d pair5Temp.data) (some (.fin 40)) 2000
          restored .monthly 2000 r) = _
        rw [he]
        rfl

end CI.Props
