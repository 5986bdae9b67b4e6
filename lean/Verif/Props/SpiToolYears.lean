import Verif.Props.SpiToolRuns

/-!
# C107: with saved parameters the SPI tool does not use the calibration years
-/

namespace CI.Props
open CI Spec

section
variable {F : Type} [FloatOps F]

theorem mapM_agree {α β : Type} {f g : α → Res β} : ∀ {l : List α}, (∀ x ∈ l, f x = g x) → l.mapM f = l.mapM g
  | [], _ => rfl
  | a :: l, h => by rw [List.mapM_cons, List.mapM_cons, h a (by simp), mapM_agree (fun x hx => h x (by simp [hx]))]

theorem liftRes_bind {α β : Type} (x : α) (f : α → H F β) : (liftRes (.ok x) >>= f : H F β) = f x := rfl

/-- SPI of one series with given parameters of the gamma distribution -/
theorem spiOp_gamma (E : Ext F) (s ds cs ce cs' ce' : Int) (per : Periodicity) (al be : List F) :
    spiOp E .gamma s ds cs ce per [("alpha", some al), ("beta", some be)] = spiOp E .gamma s ds cs' ce' per [("alpha", some al), ("beta", some be)] := by
  funext r
  unfold spiOp spiH
  have k1 : getGammaArgs (some [("alpha", some al), ("beta", some be)]) = .ok (some al, some be) := by simp [getGammaArgs, fitGet, List.lookup, bind, Except.bind, pure, Except.pure]
  have k2 : ∀ r, transformFittedGammaH E r ds cs ce per (some al) (some be) = transformFittedGammaH E r ds cs' ce' per (some al) (some be) := by
    intro r
    unfold transformFittedGammaH
    rfl
  simp only [k1, liftRes_bind, k2]

/-- SPI of one series with given parameters of Pearson's distribution -/
theorem spiOp_pearson (E : Ext F) (s ds cs ce cs' ce' : Int) (per : Periodicity) (p0 lo sc sk : List F) :
    spiOp E .pearson s ds cs ce per [("prob_zero", some p0), ("loc", some lo), ("scale", some sc), ("skew", some sk)] =
      spiOp E .pearson s ds cs' ce' per [("prob_zero", some p0), ("loc", some lo), ("scale", some sc), ("skew", some sk)] := by
  funext r
  unfold spiOp spiH
  have k1 : getPearsonArgs (some [("prob_zero", some p0), ("loc", some lo), ("scale", some sc), ("skew", some sk)]) = .ok ⟨some p0, some lo, some sc, some sk⟩ := by
    simp [getPearsonArgs, fitGet, List.lookup, bind, Except.bind, pure, Except.pure]
  have k2 : ∀ r, transformFittedPearsonH E r ds cs ce per ⟨some p0, some lo, some sc, some sk⟩ = transformFittedPearsonH E r ds cs' ce' per ⟨some p0, some lo, some sc, some sk⟩ := by
    intro r
    unfold transformFittedPearsonH transformFittedPearson
    rfl
  simp only [k1, liftRes_bind, k2]

theorem spiOp_given (E : Ext F) (dist : Distribution) (s ds cs ce cs' ce' : Int) (per : Periodicity) (ps : List (List F)) (h : ps.length = (distVars dist).length) :
    spiOp E dist s ds cs ce per ((distVars dist).zip (ps.map some)) = spiOp E dist s ds cs' ce' per ((distVars dist).zip (ps.map some)) := by
  cases dist with
  | gamma =>
    match ps, h with
    | [al, be], _ => exact spiOp_gamma E s ds cs ce cs' ce' per al be
  | pearson =>
    match ps, h with
    | [p0, lo, sc, sk], _ => exact spiOp_pearson E s ds cs ce cs' ce' per p0 lo sc sk
  | other =>
    unfold spiOp spiH
    rfl

theorem spiRow_given (E : Ext F) (dist : Distribution) (s ds cs ce cs' ce' : Int) (per : Periodicity) (fits : List (Arr F)) (h : fits.length = (distVars dist).length) (b n : Nat) :
    spiRow (spiOp E dist s ds cs ce per) (distVars dist) fits b n = spiRow (spiOp E dist s ds cs' ce' per) (distVars dist) fits b n := by
  funext row
  unfold spiRow
  refine congrArg₂ Bind.bind (mapM_agree (fun k _ => ?_)) rfl
  have eb : ∀ {α β : Type} (e : PyErr) (f : α → Res β), ((Except.error e : Res α) >>= f) = .error e := fun _ _ => rfl
  have ob : ∀ {α β : Type} (x : α) (f : α → Res β), ((Except.ok x : Res α) >>= f) = f x := fun _ _ => rfl
  cases hp : fits.mapM (fun x => fitAt x row.1 k) with
  | error e => rw [eb, eb]
  | ok ps => rw [ob, ob, spiOp_given E dist s ds cs ce cs' ce' per ps (by rw [mapM_len hp, h])]

theorem spiStage_given (E : Ext F) (a : SpiArgs) (it : InputType) (f : String) (cs ce cs' ce' : Int) (base : String) (wk : Nat) (u : String) (ds s : Int) (dist : Distribution) (sh : Dict (Arr F)) :
    spiStage E (spiJob a it f cs ce base wk) u ds s dist sh = spiStage E (spiJob a it f cs' ce' base wk) u ds s dist sh := by
  unfold spiStage
  simp only [bind, Except.bind]
  cases sh.at keyResult with
  | error e => rfl
  | ok res =>
    dsimp only
    cases orElseRaise res.shape.head? .indexError with
    | error e => rfl
    | ok n0 =>
      dsimp only [spiJob]
      cases spiChunks n0 wk with
      | error e => rfl
      | ok chunks =>
        dsimp only
        cases sh.at (a.varNamePrecip.getD "") with
        | error e => rfl
        | ok vals =>
          dsimp only
          cases hf : (distVars dist).mapM (fun v => sh.at (spiFitName u s v)) with
          | error e => rfl
          | ok fits =>
            dsimp only
            simp only [spiRow_given E dist s ds cs ce cs' ce' a.periodicity fits (mapM_len hf)]

theorem spiPair_given (E : Ext F) (a : SpiArgs) (hl : a.loadParams.isSome) (it : InputType) (f : String) (cs ce cs' ce' : Int) (base : String) (wk : Nat) (u : String) (ds : Int) (d : NcFile F)
    (sd : Int × Distribution) : spiPair E (spiJob a it f cs ce base wk) u ds d sd = spiPair E (spiJob a it f cs' ce' base wk) u ds d sd := by
  obtain ⟨g, hg⟩ := Option.isSome_iff_exists.1 hl
  have h1 : ∀ cs ce sh, spiFit E (spiJob a it f cs ce base wk) u ds sd.1 sd.2 sh = .ok sh := by
    intro cs ce sh
    unfold spiFit
    rw [show (spiJob a it f cs ce base wk).load = some g from hg]
  funext w
  unfold spiPair
  have h2 : spiCompute E (spiJob a it f cs ce base wk) u ds d sd.1 sd.2 w.shared = spiCompute E (spiJob a it f cs' ce' base wk) u ds d sd.1 sd.2 w.shared := by
    unfold spiCompute
    rw [h1, h1]
    simp only [bind, Except.bind]
    rw [spiStage_given E a it f cs ce cs' ce']
    rfl
  rw [h2]
  rfl

theorem spiScales_given (E : Ext F) (a : SpiArgs) (hl : a.loadParams.isSome) (it : InputType) (f : String) (cs ce cs' ce' : Int) (base : String) (wk : Nat) (u : String) (ds : Int) (d : NcFile F) :
    ∀ (l : List Int) (fitting : NcFile F), spiScales E (spiJob a it f cs ce base wk) u ds d l fitting = spiScales E (spiJob a it f cs' ce' base wk) u ds d l fitting
  | [], _ => rfl
  | s :: rest, fitting => by
    unfold spiScales
    simp only [spiPair_given E a hl it f cs ce cs' ce', spiScales_given E a hl it f cs ce cs' ce' base wk u ds d rest]

/-- **C107.** A run of the SPI tool with `--load_params` does the same - same files, same values, same exception if any - whatever the calibration years are. -/
theorem C107_loaded (E : Ext F) (yearOf : F → Int) (lower : String → String) (cs ce cs' ce' : Int) (base : String) (wk : Nat) (a : SpiArgs) (hl : a.loadParams.isSome) (w : World F) :
    spiMain E yearOf lower cs ce base wk a w = spiMain E yearOf lower cs' ce' base wk a w := by
  have h : ∀ it f, spiComputeWrite E yearOf lower (spiJob a it f cs ce base wk) = spiComputeWrite E yearOf lower (spiJob a it f cs' ce' base wk) := by
    intro it f
    funext w
    unfold spiComputeWrite
    simp only [spiScales_given E a hl it f cs ce cs' ce']
    rfl
  unfold spiMain
  simp only [h]

end

/-- the run of the other examples that loads its parameters, with calibration years that lie outside the record and in the wrong order -/
example : spiMain toyExt rainYear id 1900 1800 "again" 2 (spiArgs [1, 3] none (some "fit.nc")) { rainAfter with shared := fun _ => none } = (.ok (), rainLoaded) :=
  (C107_loaded toyExt rainYear id 1900 1800 2000 2001 "again" 2 (spiArgs [1, 3] none (some "fit.nc")) rfl _).trans rain_loads

/-- without saved parameters the years matter: the years 2000 and 2001, and the year 2001 alone -/
example : outOf rainAfter "out_spi_gamma_1_month.nc" "spi_gamma_1_month" ≠
    outOf (spiMain toyExt rainYear id 2001 2001 "out" 2 (spiArgs [1, 3] (some "fit.nc") none) rainWorld).2 "out_spi_gamma_1_month.nc" "spi_gamma_1_month" := by decide +kernel

end CI.Props
