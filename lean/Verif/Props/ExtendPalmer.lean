import Verif.Props.PalmerPdsi

/-!
# C88: appending new months (Palmer)

`palmer.py:829-922` with everything below it.
-/

namespace CI.Props
open FloatOps Fl

section
variable {F : Type} [FloatOps F]

/-- the calibration rows do not depend on the number of years of the record as long as they lie inside -/
theorem kfactorRows_years (n n' : Nat) (ci cf : Int) (h0 : 0 ≤ ci) (hn : cf < n) (hn' : cf < n') : kfactorRows n ci cf = kfactorRows n' ci cf := by
  unfold kfactorRows
  rw [mapM_toNat, mapM_toNat]
  all_goals
    intro y hy
    simp only [List.mem_map, List.mem_range] at hy
    obtain ⟨i, hi, rfl⟩ := hy
    omega

theorem kfactors_years (log10 : F → F) (k : Coefs F) (bs : List (Balance F)) (n n' : Nat) (sums : List (MonthSums F)) (ci cf : Int)
    (h0 : 0 ≤ ci) (hn : cf < n) (hn' : cf < n') : kfactors log10 k bs n sums ci cf = kfactors log10 k bs n' sums ci cf := by
  unfold kfactors
  rw [kfactorRows_years n n' ci cf h0 hn hn']

/-- **C88 (Palmer, Z and coefficients).** If both computations succeed, the precipitation has no negative value and the calibration years lie in the complete
years of the shorter record, then appending any months leaves the fitted (or given) coefficients and the Z values of the earlier months unchanged. -/
theorem C88_palmer_z [FloatLaws F] (log10 : F → F) (p p' e e' : List F) (awc : F) (ds cs ce : Int) (fp : Option (PalmerDict F)) (out out' : PalmerOut F)
    (hn : allNan p = false) (hneg : ∀ v ∈ p ++ p', flt v (lit 0) = false)
    (hcs : ds ≤ cs) (hce : 12 * (ce - ds + 1) ≤ p.length)
    (h : palmerPdsi log10 (Arr.of1d p) (Arr.of1d e) awc ds cs ce fp = .ok out)
    (h' : palmerPdsi log10 (Arr.of1d (p ++ p')) (Arr.of1d (e ++ e')) awc ds cs ce fp = .ok out') :
    out.params = out'.params ∧ out.z.data = out'.z.data.take p.length := by
  have hn' : allNan (p ++ p') = false := by
    unfold allNan at hn ⊢
    rw [List.all_append, hn, Bool.false_and]
  obtain ⟨n, a1, a2, a3⟩ := palmerPdsi_ok log10 _ _ awc ds cs ce fp out (by simp [Arr.WF, Arr.of1d]) (by simp [Arr.WF, Arr.of1d]) hn h
  obtain ⟨n', b1, b2, b3⟩ := palmerPdsi_ok log10 _ _ awc ds cs ce fp out' (by simp [Arr.WF, Arr.of1d]) (by simp [Arr.WF, Arr.of1d]) hn' h'
  simp only [Arr.of1d] at a1 a2 a3 b1 b2 b3
  rw [clipNeg_id _ (fun v hv => hneg v (by simp [hv]))] at a3
  rw [clipNeg_id _ hneg] at b3
  simp only [List.length_append] at b1 b2 b3
  obtain ⟨ak, cells, g1, g2, rfl⟩ := palmerBody_ok _ _ _ _ _ _ _ _ _ _ a3
  obtain ⟨ak', cells', g1', g2', rfl⟩ := palmerBody_ok _ _ _ _ _ _ _ _ _ _ b3
  have hep : e.length = p.length := a2
  generalize hP : p ++ List.replicate (padCount p.length 12) nan = ps at *
  generalize hE : e ++ List.replicate (padCount p.length 12) nan = es at *
  generalize hP' : (p ++ p') ++ List.replicate (padCount (p.length + p'.length) 12) nan = ps' at *
  generalize hE' : (e ++ e') ++ List.replicate (padCount (p.length + p'.length) 12) nan = es' at *
  have tP : ps.take p.length = p := by rw [← hP, List.take_left]
  have tP' : ps'.take p.length = p := by rw [← hP', List.append_assoc, List.take_left]
  have tE : es.take p.length = e := by rw [← hE, ← hep, List.take_left]
  have tE' : es'.take p.length = e := by rw [← hE', List.append_assoc, ← hep, List.take_left]
  have lP : p.length ≤ ps.length := by rw [← hP]; simp
  have lE : p.length ≤ es.length := by rw [← hE]; simp only [List.length_append]; omega
  have lP' : p.length ≤ ps'.length := by rw [← hP']; simp only [List.length_append]; omega
  have lE' : p.length ≤ es'.length := by rw [← hE']; simp only [List.length_append]; omega
  have hb : (waterBalances awc (List.zip ps es)).take p.length = (waterBalances awc (List.zip ps' es')).take p.length := by
    unfold waterBalances
    rw [balances_take, balances_take]
    congr 1
    rw [List.zip_eq_zipWith, List.zip_eq_zipWith, List.take_zipWith, List.take_zipWith, tP, tP', tE, tE']
  have hbl : p.length ≤ (waterBalances awc (List.zip ps es)).length := by
    unfold waterBalances; rw [balances_length, List.length_zip]; omega
  have hbl' : p.length ≤ (waterBalances awc (List.zip ps' es')).length := by
    unfold waterBalances; rw [balances_length, List.length_zip]; omega
  have hT : 12 * (ce - ds + 1) ≤ ((p.length : Nat) : Int) := hce
  have hsums : (List.range 12).map (monthSums (cs - ds) (ce - ds) (waterBalances awc (List.zip ps es))) =
      (List.range 12).map (monthSums (cs - ds) (ce - ds) (waterBalances awc (List.zip ps' es'))) :=
    List.map_congr_left (fun m _ => monthSums_take _ _ _ _ p.length hT hb hbl hbl' m)
  rw [hsums, kfactors_take log10 _ _ _ n _ _ _ (by omega) (by omega) p.length hT hb,
    kfactors_years log10 _ _ n n' _ _ _ (by omega) (by omega) (by omega)] at g1
  rw [g1] at g1'
  cases g1'
  refine ⟨by rw [hsums], ?_⟩
  simp only [Arr.of1d]
  rw [List.take_take, Nat.min_eq_left (by omega), zValues_take, zValues_take, hsums, hb]

theorem months_take_eq (zs zs' : List F) (T : Nat) (h : zs.take T = zs'.take T) : (months zs).take T = (months zs').take T := by
  unfold months
  rw [← monthsFrom_take, ← monthsFrom_take, h]

/-- **C88 (Palmer, spells).** Two records with the same Z values in the first `T` months: in each of these months the two computations have the same three
candidate indices and the same probability, the reported PDSI is one of the three candidates in both (it need not be the same one, see
`C88_palmer_fails`), and the PHDI is the same whenever the month belongs to an established spell. -/
theorem C88_palmer_numbers (zs zs' : List F) (T : Nat) (h : zs.take T = zs'.take T) (cells cells' : List (Cell F))
    (hc : spellCells zs = .ok cells) (hc' : spellCells zs' = .ok cells') (j : Nat) (hj : j < T) (c c' : Cell F)
    (hcj : cells[j]? = some c) (hcj' : cells'[j]? = some c') :
    c.px1 = c'.px1 ∧ c.px2 = c'.px2 ∧ c.px3 = c'.px3 ∧ c.ppr = c'.ppr ∧
      (c'.pdsi = c.px1 ∨ c'.pdsi = c.px2 ∨ c'.pdsi = c.px3) ∧ (feq c.px3 (lit 0) = false → c.phdi = c'.phdi) := by
  have hs : ∀ zs : List F, ∀ cells, spellCells zs = .ok cells → ¬ Stuck zs := by
    intro zs cells hc hst
    rw [spellCells_error zs hst] at hc
    cases hc
  obtain ⟨d, hd, hl, hall⟩ := spellCells_spec zs (hs _ _ hc)
  obtain ⟨d', hd', hl', hall'⟩ := spellCells_spec zs' (hs _ _ hc')
  rw [hc] at hd; cases hd
  rw [hc'] at hd'; cases hd'
  have hjl : j < zs.length := by rw [← hl]; exact lt_of_getElem? hcj
  have hjl' : j < zs'.length := by rw [← hl']; exact lt_of_getElem? hcj'
  have hm : ∃ m, (months zs)[j]? = some m := ⟨_, List.getElem?_eq_getElem (by rw [months_length]; exact hjl)⟩
  obtain ⟨m, hm⟩ := hm
  have hm' : (months zs')[j]? = some m := by
    have := congrArg (·[j]?) (months_take_eq zs zs' T h)
    simp only [List.getElem?_take_of_lt hj] at this
    rw [← this, hm]
  obtain ⟨x, hx, sx, fx⟩ := hall j m hm
  obtain ⟨x', hx', sx', fx'⟩ := hall' j m hm'
  rw [hcj] at hx; cases hx
  rw [hcj'] at hx'; cases hx'
  have hlast : ∀ zs : List F, j < zs.length → ∃ ml, (months zs).getLast? = some ml := by
    intro zs hz
    rw [List.getLast?_eq_getElem?, months_length]
    exact ⟨_, List.getElem?_eq_getElem (by rw [months_length]; omega)⟩
  obtain ⟨ml, hml⟩ := hlast zs hjl
  obtain ⟨ml', hml'⟩ := hlast zs' hjl'
  obtain ⟨p1, p2, _⟩ := fx ml hml
  obtain ⟨q1, q2, _⟩ := fx' ml' hml'
  obtain ⟨s1, s2, s3, s4, _⟩ := sx
  obtain ⟨t1, t2, t3, t4, _⟩ := sx'
  have e1 := s1.trans t1.symm
  have e2 := s2.trans t2.symm
  have e3 := s3.trans t3.symm
  have e4 := s4.trans t4.symm
  exact ⟨e2, e3, e4, e1, by rw [e2, e3, e4]; exact q1, fun hz => by rw [p2, q2, ← e4, hz]; rfl⟩

end

/-- **C88 is false for the PDSI, PHDI and PMDI**: in the record with Z = -2, 1/2, 2 all months are decided and the second month has PDSI and PHDI 0 and PMDI 4897/6000; after a
fourth month is appended it has PDSI and PHDI 1/6 and PMDI -647/1500. -/
theorem C88_palmer_fails :
    okAnd (spellRun [fin (-2), fin (1 / 2), fin 2] 0 (spellInit 3 : Spell (Fl ℚ))) (fun st => decide (st.k8 = 0)) = true ∧
    okAnd (spellCells [fin (-2), fin (1 / 2), fin (2 : ℚ)]) (fun cells =>
      decide (cells[1]?.map (fun c => (c.pdsi, c.phdi, c.wplm)) = some ((fin 0 : Fl ℚ), (fin 0 : Fl ℚ), fin (4897 / 6000 : ℚ)))) = true ∧
    okAnd (spellCells [fin (-2), fin (1 / 2), fin 2, fin (-1 / 2 : ℚ)]) (fun cells =>
      decide (cells[1]?.map (fun c => (c.pdsi, c.phdi, c.wplm)) = some ((fin (1 / 6) : Fl ℚ), (fin (1 / 6) : Fl ℚ), (fin (-647 / 1500) : Fl ℚ)))) = true := by
  refine ⟨?_, ?_, ?_⟩ <;> decide +kernel

/-- a year of precipitation and a second, incomplete year -/
def longerP : List (Fl ℚ) := fin 3 :: List.replicate 11 (fin 2) ++ [fin 5, fin 1]

/-- both computations succeed on a record of one year to which two months are appended -/
example : okAnd (palmerPdsi (fun x => x) (Arr.of1d (longerP.take 12)) (Arr.of1d (List.replicate 12 (fin (1 : ℚ)))) (fin 1) 2000 2000 2000 none)
      (fun out => decide (out.z.data.length = 12)) = true ∧
    okAnd (palmerPdsi (fun x => x) (Arr.of1d longerP) (Arr.of1d (List.replicate 14 (fin (1 : ℚ)))) (fin 1) 2000 2000 2000 none)
      (fun out => decide (out.z.data.length = 14)) = true := by
  constructor <;> decide +kernel

end CI.Props
