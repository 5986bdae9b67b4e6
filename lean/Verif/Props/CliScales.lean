import Verif.Props.CliCells

/-!
# C50: a scale of zero passes validation
-/

namespace CI.Props
open CI Spec

variable {F : Type} [FloatOps F]

/-- an error at one place leaves no finished output -/
theorem not_holds {fs : Files F} {base : String} {o : Output} {d : NcFile F} {like : NcVar F} {A b n : Nat} {expected : Nat → Nat → Res (List F)}
    {i k : Nat} {e : PyErr} (hi : i < A) (hk : k < b) (he : expected i k = .error e) : ¬ Holds fs base o d like A b n expected := by
  rintro ⟨file, y, _, _, _, _, h⟩
  have := h i hi k hk
  rw [he] at this
  cases this

/-- **C50 fails for a scale of zero.** Arguments with the scale 0 pass validation (only negative scales are refused), but no run with the scale 0 among its scales ends
without exception: never with `--index pnp` or `scaled`, and never with `--index spi` if some place of the monthly precipitation has a number. -/
theorem C50_zero_scale_fails :
    (validateArgs demoCmp demoFiles (demoArgs "pnp" [0]) = .ok .grid ∧ validateArgs demoCmp demoFiles (demoArgs "spi" [6, 0]) = .ok .grid) ∧
    ∀ (F : Type) [FloatOps F] [FloatLaws F] (E : Ext F) (_ : ExtNan E) (T : Trig F) (cs ce : Int) (wk : Nat) (lower : String → String) (yearOf : F → Int) (cmp : CoordCmp F) (a : CliArgs)
      (w : World F) (f v : String) (d : NcFile F) (x : NcVar F) (A b n : Nat) (y0 y1 : Int),
      0 ∈ a.scales.getD [] → Input w.files a.outputFileBase a.netcdfPrecip a.varNamePrecip f v d x → Layout x A b n → 0 < A → 0 < b → Years yearOf d y0 y1 →
      a.index = "pnp" ∨ a.index = "scaled" ∨ (a.index = "spi" ∧ a.periodicity = .monthly ∧
        ∀ u mm, x.units = some u → convertPrecip (lower u) x.data = .ok mm → ∃ i < A, ∃ k < b, ∃ z ∈ seriesAt b n i k mm, isNan z = false) →
      ∃ e, (processIndices (indexFunction E T cs ce) wk lower yearOf cmp a w).1 = .error e := by
  refine ⟨⟨by decide +kernel, by decide +kernel⟩, ?_⟩
  intro F _ _ E hE T cs ce wk lower yearOf cmp a w f v d x A b n y0 y1 hs hin hl hA hb hy hi
  cases h : processIndices (indexFunction E T cs ce) wk lower yearOf cmp a w with
  | mk r w' =>
    cases r with
    | error e => exact ⟨e, rfl⟩
    | ok u =>
      exfalso
      have hp : (a.index = "pnp" ∨ a.index = "scaled") → False := by
        intro hi
        obtain ⟨u, mm, _, _, hh⟩ := C66_pnp E T cs ce wk lower yearOf cmp a w w' h hi hin hl hy 0 hs
        have : ∃ e, onSeries x.dims a.periodicity y0 y1 (fun p => percentageOfNormal p (some 0) y0 cs ce a.periodicity) (seriesAt b n 0 0 mm) = .error e := by
          unfold onSeries
          cases preparedFor x.dims a.periodicity y0 y1 (seriesAt b n 0 0 mm) with
          | error e => exact ⟨e, rfl⟩
          | ok p => exact ⟨.valueError, rfl⟩
        obtain ⟨e, he⟩ := this
        exact not_holds hA hb he hh
      rcases hi with hi | hi | ⟨hi, hm, hnum⟩
      · exact hp (.inl hi)
      · exact hp (.inr hi)
      · obtain ⟨u, mm, hu, hc, hh⟩ := C66_spi E hE T cs ce wk lower yearOf cmp a w w' h (.inl hi) hin hl hy 0 hs .gamma (.inr rfl)
        obtain ⟨i, hi', k, hk, z, hz, hzn⟩ := hnum u mm hu hc
        refine not_holds hi' hk (e := .valueError) ?_ hh
        have hpre : preparedFor x.dims a.periodicity y0 y1 (seriesAt b n i k mm) = .ok (seriesAt b n i k mm) := by
          rw [hm]; unfold preparedFor; split <;> rfl
        unfold onSeries
        rw [hpre]
        show (spi E (Arr.of1d (seriesAt b n i k mm)) 0 .gamma y0 cs ce a.periodicity none >>= _) = _
        rw [C10_bad_args E _ 0 .gamma y0 cs ce a.periodicity none ⟨z, hz, hzn⟩ (.inl (by decide))]
        rfl

/-- the run on the grid of the other examples with the scale 0 -/
example : (processIndices (indexFunction toyExt toyTrig 2000 2000) 2 id demoYear demoCmp (demoArgs "pnp" [0]) demoWorld).1 = .error .valueError ∧
    (processIndices (indexFunction toyExt toyTrig 2000 2000) 2 id demoYear demoCmp (demoArgs "spi" [0]) demoWorld).1 = .error .valueError := by decide +kernel

end CI.Props
