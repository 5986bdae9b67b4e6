import Verif.Model.PalmerSpell

/-!
# Model of `src/climate_indices/palmer.py`, part 1: water balance, coefficients, Z-index, `pdsi`

Arrays of shape `(n_years, 12)` are lists in C order; position `t` is month `t % 12` of year `t / 12`. `log10` is a parameter (numpy's
`np.log10`). Masked arrays are not modelled.
-/

namespace CI
variable {F : Type} [FloatOps F]

/-- `_get_awc_bot` (palmer.py:19-27) with `AWCTOP = 1.0` (palmer.py:15) -/
def awcBot (awc : F) : F := pyMax (awc - lit 1) (lit 0)

/-- `_calc_potential_loss` (palmer.py:30-49) -/
def potentialLoss (pet ss su awc : F) : F :=
  if fle pet ss then pet
  else pyMin (ss + su) (((pet - ss) * su) / (awcBot awc + lit 1) + ss)

/-- what `_calc_recharge` returns (palmer.py:132) -/
structure Recharge (F : Type) where
  et : F
  tl : F
  r : F
  ro : F
  sss : F
  ssu : F

/-- `_calc_recharge` (palmer.py:52-132) -/
def calcRecharge (p pet ss su awc : F) : Recharge F :=
  let bot := awcBot awc
  if fle pet p then
    if flt (lit 1 - ss) (p - pet) then
      let rs := lit 1 - ss
      let ru := if flt (p - pet - rs) (bot - su) then p - pet - rs else bot - su
      let ro := if flt (p - pet - rs) (bot - su) then lit 0 else p - pet - rs - ru
      ⟨pet, lit 0, rs + ru, ro, lit 1, su + ru⟩
    else ⟨pet, lit 0, p - pet, lit 0, ss + p - pet, su⟩
  else if fle (pet - p) ss then
    let sl := pet - p
    let ul := lit 0
    ⟨p + sl + ul, sl + ul, lit 0, lit 0, ss - sl, su⟩
  else
    let sl := ss
    let ul := pyMin su ((pet - p - sl) * su / awc)
    ⟨p + sl + ul, sl + ul, lit 0, lit 0, lit 0, su - ul⟩

/-- the water balance of one month: inputs, `sp`, `pr`, `pl` and the result of `_calc_recharge` (palmer.py:199-237) -/
structure Balance (F : Type) where
  p : F
  pet : F
  sp : F
  pr : F
  pl : F
  et : F
  tl : F
  r : F
  ro : F
  sss : F
  ssu : F

/-- one month (palmer.py:199-210) -/
def balanceMonth (awc ss su p pet : F) : Balance F :=
  let sp := ss + su
  let pr := awcBot awc + lit 1 - sp
  let pl := potentialLoss pet ss su awc
  let q := calcRecharge p pet ss su awc
  ⟨p, pet, sp, pr, pl, q.et, q.tl, q.r, q.ro, q.sss, q.ssu⟩

/-- the month loop of `_calc_water_balances` (palmer.py:197-241) -/
def balances (awc : F) : F → F → List (F × F) → List (Balance F)
  | _, _, [] => []
  | ss, su, (p, pet) :: rest =>
    let b := balanceMonth awc ss su p pet
    b :: balances awc b.sss b.ssu rest

/-- `_calc_water_balances` (palmer.py:189-241): the soil starts full -/
def waterBalances (awc : F) (months : List (F × F)) : List (Balance F) := balances awc (lit 1) (awcBot awc) months

/-- the test `initial_idx <= year <= final_idx` (palmer.py:213-217) -/
def inCalib (ci cf : Int) (t : Nat) : Bool := decide (ci ≤ ((t / 12 : Nat) : Int)) && decide (((t / 12 : Nat) : Int) ≤ cf)

/-- values of calendar month `m` in the calibration years, in order -/
def calibMonth {α : Type} (ci cf : Int) (m : Nat) (vals : List α) : List α :=
  (vals.zipIdx.filter (fun q => q.2 % 12 == m && inCalib ci cf q.2)).map Prod.fst

/-- `sum[month] += value` over the calibration years, starting from zero (palmer.py:218-226, 781-789) -/
def runningSum (l : List F) : F := l.foldl (· + ·) (lit 0)

/-- the nine sums of one calendar month -/
structure MonthSums (F : Type) where
  p : F
  sp : F
  pet : F
  pl : F
  pr : F
  r : F
  tl : F
  et : F
  ro : F

/-- the sums of calendar month `m` (palmer.py:218-226) -/
def monthSums (ci cf : Int) (bs : List (Balance F)) (m : Nat) : MonthSums F :=
  let b := calibMonth ci cf m bs
  ⟨runningSum (b.map (·.p)), runningSum (b.map (·.sp)), runningSum (b.map (·.pet)), runningSum (b.map (·.pl)),
   runningSum (b.map (·.pr)), runningSum (b.map (·.r)), runningSum (b.map (·.tl)), runningSum (b.map (·.et)),
   runningSum (b.map (·.ro))⟩

/-- `_calc_alpha`, `_calc_beta`, `_calc_gamma` (palmer.py:135-174) for one month: ratio, or 1 for 0/0, or 0 -/
def ratioOrOne (actual potential : F) : F :=
  if !feq potential (lit 0) then actual / potential
  else if feq actual (lit 0) then lit 1
  else lit 0

/-- `_calc_delta` (palmer.py:177-186) for one month -/
def ratioOrZero (actual potential : F) : F :=
  if !feq potential (lit 0) then actual / potential else lit 0

/-- the four coefficient arrays -/
structure Coefs (F : Type) where
  alpha : List F
  beta : List F
  gamma : List F
  delta : List F
  deriving DecidableEq

/-- `_calc_cafec_coefficients` (palmer.py:244-253) -/
def cafecCoefficients (sums : List (MonthSums F)) : Coefs F :=
  ⟨sums.map (fun s => ratioOrOne s.et s.pet), sums.map (fun s => ratioOrOne s.r s.pr),
   sums.map (fun s => ratioOrOne s.ro s.sp), sums.map (fun s => ratioOrZero s.tl s.pl)⟩

/-- `_calc_zindex_factors` (palmer.py:256-267) for one month -/
def trat (s : MonthSums F) : F := (s.pet + s.r + s.ro) / (s.p + s.tl)

/-- coefficient of a calendar month -/
def coefAt (l : List F) (m : Nat) : F := l.getD m nan

/-- CAFEC precipitation of a month (palmer.py:302-307 and 646-650): `cet + cr + cro - cl` -/
def cafec (k : Coefs F) (m : Nat) (b : Balance F) : F :=
  coefAt k.alpha m * b.pet + coefAt k.beta m * b.pr + coefAt k.gamma m * b.sp - coefAt k.delta m * b.pl

/-- numpy row index: negative counts from the end, IndexError outside -/
def pyRow (n : Nat) (y : Int) : Res Nat :=
  if 0 ≤ y then (if y < n then .ok y.toNat else .error .indexError)
  else (if -(n : Int) ≤ y then .ok (y + n).toNat else .error .indexError)

/-- the rows visited by `range(initial_idx, final_idx + 1)` (palmer.py:298-300) -/
def kfactorRows (n : Nat) (ci cf : Int) : Res (List Nat) :=
  ((List.range (cf + 1 - ci).toNat).map (fun (i : Nat) => ci + (i : Int))).mapM (pyRow n)

/-- `sabsd[month]` (palmer.py:301-309) over the given rows -/
def sabsd (k : Coefs F) (bs : List (Balance F)) (rows : List Nat) (m : Nat) : F :=
  runningSum (rows.filterMap (fun y => (bs[12 * y + m]?).map (fun b => fabs (b.p - cafec k m b))))

/-- `_calc_kfactors` (palmer.py:288-314) -/
def kfactors (log10 : F → F) (k : Coefs F) (bs : List (Balance F)) (n : Nat) (sums : List (MonthSums F))
    (ci cf : Int) : Res (List F) := do
  let rows ← kfactorRows n ci cf
  let nCalib : F := lit (cf - ci + 1 : Int)
  let dbar := (List.range 12).map (fun m => sabsd k bs rows m / nCalib)
  let akhat := List.zipWith (fun s d => lit 1.5 * log10 ((trat s + lit 2.8) / d) + lit 0.5) sums dbar
  let swtd := fsum (List.zipWith (· * ·) dbar akhat)
  pure (akhat.map (fun a => lit 17.67 * a / swtd))

/-- the Z values (palmer.py:646-652) -/
def zValues (k : Coefs F) (ak : List F) (bs : List (Balance F)) : List F :=
  bs.zipIdx.map (fun q => coefAt ak (q.2 % 12) * (q.1.p - cafec k (q.2 % 12) q.1))

/-- a fitting parameter dictionary: `none` for a value that is not a list, tuple or array -/
abbrev PalmerDict (F : Type) := List (String × Option (List F))

/-- a usable entry (palmer.py:735-739) -/
def usableParam (d : PalmerDict F) (name : String) : Option (List F) :=
  match d.lookup name with
  | some (some l) => if l.length = 12 then some l else none
  | _ => none

/-- `_validate_fitting_params` (palmer.py:723-743): the four arrays if all are usable (`calibrate = False`); otherwise all four are
computed from the data, overwriting those already stored. -/
def validateFittingParams (fp : Option (PalmerDict F)) : Option (Coefs F) :=
  match fp with
  | none => none
  | some d =>
    match usableParam d "alpha", usableParam d "beta", usableParam d "gamma", usableParam d "delta" with
    | some a, some b, some c, some e => some ⟨a, b, c, e⟩
    | _, _, _, _ => none

/-- what `pdsi` returns: PDSI, PHDI, PMDI, Z-index and the coefficient dictionary -/
structure PalmerOut (F : Type) where
  pdsi : Arr F
  phdi : Arr F
  pmdi : Arr F
  z : Arr F
  params : Option (Coefs F)

/-- the returned dictionary -/
def Coefs.toDict (k : Coefs F) : PalmerDict F :=
  [("alpha", some k.alpha), ("beta", some k.beta), ("gamma", some k.gamma), ("delta", some k.delta)]

/-- the coefficients in use: given ones, or those of the calibration period -/
def palmerCoefs (fp : Option (PalmerDict F)) (sums : List (MonthSums F)) : Coefs F :=
  match validateFittingParams fp with
  | some k => k
  | none => cafecCoefficients sums

/-- the body of `pdsi` after reshaping to years by months (palmer.py:891-919) -/
def palmerBody (log10 : F → F) (n : Nat) (ps pets : List F) (awc : F) (ci cf : Int)
    (fp : Option (PalmerDict F)) (size : Nat) : Res (PalmerOut F) := do
  let bs := waterBalances awc (List.zip ps pets)
  let sums := (List.range 12).map (monthSums ci cf bs)
  let k := palmerCoefs fp sums
  let ak ← kfactors log10 k bs n sums ci cf
  let zs := zValues k ak bs
  let cells ← spellCells zs
  pure ⟨Arr.of1d ((cells.map (·.pdsi)).take size), Arr.of1d ((cells.map (·.phdi)).take size),
    Arr.of1d ((cells.map (·.wplm)).take size), Arr.of1d (zs.take size), some k⟩

/-- `pdsi` (palmer.py:829-922) with `_initialize_data` (746-826) -/
def palmerPdsi (log10 : F → F) (precips pet : Arr F) (awc : F) (ds cs ce : Int)
    (fp : Option (PalmerDict F)) : Res (PalmerOut F) :=
  if allNan precips.data then .ok ⟨precips, precips, precips, precips, none⟩
  else if precips.data.length ≠ pet.data.length then .error .valueError
  else do
    let m ← amin precips.data
    let data := if flt m (lit 0) then precips.data.map (npClipMin (lit 0)) else precips.data
    let p2 ← reshapeTo2d ⟨precips.shape, data⟩ 12
    let e2 ← reshapeTo2d pet 12
    match p2.shape with
    | [n, _] => palmerBody log10 n p2.data e2.data awc (cs - ds) (ce - ds) fp precips.data.length
    | _ => .error .valueError  -- not reachable

end CI
