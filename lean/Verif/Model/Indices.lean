import Verif.Model.Lmoments

/-!
# Model of `src/climate_indices/indices.py`: `spi`, `spei`, `percentage_of_normal`, `pci`
(`pet` is in `Model/Eto.lean`). Value level; masked arrays are not modelled.
-/

namespace CI

/-- `Distribution` (indices.py:15-21); `other` stands for any other argument. -/
inductive Distribution where
  | pearson
  | gamma
  | other
  deriving DecidableEq, Repr

/-- A fitting parameter dictionary: Python dict from keys to arrays or `None`. -/
abbrev FitDict (F : Type) := List (String × Option (List F))

section
variable {F : Type} [FloatOps F]

/-- `params[key]`: KeyError if absent -/
def fitGet (d : FitDict F) (key : String) : Res (Option (List F)) :=
  match d.lookup key with
  | some v => .ok v
  | none => .error .keyError

/-- `_fit_altnames` (indices.py:59-66) -/
def fitAltnames : List (String × String) :=
  [("alpha", "alphas"), ("beta", "betas"), ("skew", "skews"), ("scale", "scales"),
   ("loc", "locs"), ("prob_zero", "probabilities_of_zero")]

/-- `_norm_fitdict` (indices.py:32-66): for each pair, the new key if its value is not None, else the old
key if present, else nothing. -/
def normFitdict (params : Option (FitDict F)) : Option (FitDict F) :=
  params.map (fun d =>
    fitAltnames.filterMap (fun (name, altname) =>
      match d.lookup name with
      | some (some v) => some (name, some v)
      | _ =>
        match d.lookup altname with
        | some v => some (name, v)
        | none => none))

/-- the optional gamma parameters (indices.py:150-155, 291-296) -/
def getGammaArgs (fp : Option (FitDict F)) : Res (Option (List F) × Option (List F)) :=
  match fp with
  | some d => do
    let a ← fitGet d "alpha"
    let b ← fitGet d "beta"
    pure (a, b)
  | none => .ok (none, none)

/-- the optional Pearson parameters (indices.py:170-179, 312-321) -/
def getPearsonArgs (fp : Option (FitDict F)) : Res (PearsonArgs F) :=
  match fp with
  | some d => do
    let p0 ← fitGet d "prob_zero"
    let loc ← fitGet d "loc"
    let scale ← fitGet d "scale"
    let skew ← fitGet d "skew"
    pure ⟨p0, loc, scale, skew⟩
  | none => .ok ⟨none, none, none, none⟩

/-- the final clip bounds (indices.py:28-29) -/
def fittedMin : ℚ := -3.09
def fittedMax : ℚ := 3.09

/-- indices.py:201-204 and 343-346: clip, flatten, truncate -/
def clipFlattenTruncate (a : Arr F) (n : Nat) : List F :=
  (a.data.map (npClip (lit fittedMin) (lit fittedMax))).take n

/-- `spi` (indices.py:69-204). -/
def spi (E : Ext F) (values : Arr F) (scale : Int) (dist : Distribution) (ds cs ce : Int)
    (per : Periodicity) (fp : Option (FitDict F)) : Res (List F) :=
  if values.shape.length = 2 ∨ values.shape.length = 1 then
    if allNan values.data then .ok values.data
    else do
      let m ← amin values.data
      let data := if flt m (lit 0) then values.data.map (npClipMin (lit 0)) else values.data
      let originalLength := data.length
      let scaled ← sumToScale data scale
      let values ← match per with
        | .monthly => reshapeTo2d (Arr.of1d scaled) 12
        | .daily => reshapeTo2d (Arr.of1d scaled) 366
        | .other => .error .valueError
      let values ← match dist with
        | .gamma => do
          let (alphas, betas) ← getGammaArgs fp
          transformFittedGamma E values ds cs ce per alphas betas
        | .pearson => do
          let args ← getPearsonArgs fp
          transformFittedPearson E (lmomentsFit E) values ds cs ce per args
        | .other => .error .valueError
      pure (clipFlattenTruncate values originalLength)
  else .error .valueError

/-- `spei` (indices.py:207-346). An entirely missing precipitation array is returned as it is (also 2-D, hence
the result type `Arr`); otherwise the result is 1-D. -/
def spei (E : Ext F) (precips pet : Arr F) (scale : Int) (dist : Distribution) (per : Periodicity)
    (ds cs ce : Int) (fp : Option (FitDict F)) : Res (Arr F) :=
  let fp := normFitdict fp
  if allNan precips.data then .ok precips
  else if precips.data.length ≠ pet.data.length then .error .valueError
  else do
    let m ← amin precips.data
    let p := if flt m (lit 0) then precips.data.map (npClipMin (lit 0)) else precips.data
    let pMinusPet := List.zipWith (fun a b => (a - b) + lit 1000) p pet.data
    let originalLength := p.length
    let scaled ← sumToScale pMinusPet scale
    let values ← match dist with
      | .gamma => do
        let (alphas, betas) ← getGammaArgs fp
        transformFittedGamma E (Arr.of1d scaled) ds cs ce per alphas betas
      | .pearson => do
        let args ← getPearsonArgs fp
        transformFittedPearson E (lmomentsFit E) (Arr.of1d scaled) ds cs ce per args
      | .other => .error .valueError
    pure (Arr.of1d (clipFlattenTruncate values originalLength))

/-- `percentage_of_normal` (indices.py:349-456) on a 1-D array; `scale = none` is `None`. -/
def percentageOfNormal (values : List F) (scale : Option Int) (ds cs ce : Int) (per : Periodicity) :
    Res (List F) :=
  match scale with
  | none => .error .valueError
  | some scale =>
    if scale < 1 then .error .valueError
    else
      match (match per with | .monthly => some 12 | .daily => some 366 | .other => (none : Option Nat)) with
      | none => .error .valueError
      | some p =>
        if ds > cs then .error .valueError
        else if (ce - cs + 1) * 12 > values.length then .error .valueError
        else do
          let sums ← sumToScale values scale
          let calibrationYears := ce - cs + 1
          let startIdx := (cs - ds) * p
          let endIdx := startIdx + calibrationYears * p
          let calib := pySlice sums startIdx endIdx
          let averages := (List.range p).map (fun i => nanmean (stride p i calib))
          pure (sums.mapIdx (fun i s =>
            match averages[i % p]? with
            | some divisor => if flt (lit 0) divisor then s / divisor else nan
            | none => nan))  -- not reachable: `i % p < p`

/-- month-end positions used by `pci` (indices.py:538, 552) -/
def pciEnds366 : List Nat := [31, 29, 91, 121, 152, 182, 213, 244, 274, 305, 335, 366]
def pciEnds365 : List Nat := [31, 28, 90, 120, 151, 181, 212, 243, 273, 304, 334, 365]

/-- Python's builtin `sum(slice)`: left to right from the integer 0 -/
def pySum (l : List F) : F := l.foldl (· + ·) (lit 0)

/-- the month loop of `pci` (indices.py:539-547 and 553-561): (numerator, denominator) -/
def pciLoop (x : List F) : List Nat → Nat → F × F → F × F
  | [], _, acc => acc
  | m :: ms, start, (num, den) =>
    let s := pySum (slice x start m)
    pciLoop x ms m (num + s * s, den + s)

/-- `pci` (indices.py:514-570): a one-element array, or the all-missing input. -/
def pci (rainfall : List F) : Res (List F) :=
  if allNan rainfall then .ok rainfall
  else
    let noNan := !(rainfall.any isNan)
    let run (ends : List Nat) : List F :=
      let r := pciLoop rainfall ends 0 (lit 0, lit 0)
      [(r.1 / (r.2 * r.2)) * lit 100]
    if rainfall.length = 366 ∧ noNan then .ok (run pciEnds366)
    else if rainfall.length = 365 ∧ noNan then .ok (run pciEnds365)
    else .error .valueError

end
end CI
