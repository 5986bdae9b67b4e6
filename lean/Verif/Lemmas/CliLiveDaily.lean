import Verif.Lemmas.CliLive
import Verif.Lemmas.Daily
import Verif.Spec.Days366

/-!
# Lemmas about when a computation of the command line tool on daily values finishes
-/

namespace CI
open Spec

section
variable {F : Type} [FloatOps F]

theorem conv366_eq (n : Nat) : ∀ (y : Int) (l : List F), l.length = yearsLen y n → conv366 l y n = days366 (fun e g => (e + g) / lit 2) y n l := by
  induction n with
  | zero => intro y l _; rfl
  | succ n ih =>
    intro y l h
    rw [yearsLen_succ'] at h
    rw [conv366, days366, ih (y + 1) _ (by rw [List.length_drop]; omega)]
    congr 1
    unfold convYear year366
    by_cases hl : Leap y
    · rw [if_pos hl, if_pos hl]
    · rw [if_neg hl, if_neg hl]
      rw [yearLen_nonleap hl] at h ⊢
      congr 2
      generalize hc : l.take 365 = c
      have hcl : c.length = 365 := by rw [← hc, List.length_take]; omega
      have e : ∀ k, k < 365 → (c.drop k).take 1 = [c.getD k nan] := by
        intro k hk
        rw [List.drop_eq_getElem_cons (by omega), List.take_succ_cons, List.take_zero, List.getD_eq_getElem?_getD, List.getElem?_eq_getElem (by omega)]
        rfl
      rw [e 58 (by omega), e 59 (by omega)]
      rfl

omit [FloatOps F] in
theorem unconv_eq (n : Nat) : ∀ (y : Int) (l : List F), unconv l y n = calendarDays y n l := by
  induction n with
  | zero => intro y l; rfl
  | succ n ih => intro y l; rw [unconv, calendarDays, ih]; rfl

/-- the days of whole years in years of 366 days -/
theorem to366_ok (l : List F) (y : Int) (n : Nat) (h : l.length = yearsLen y n) : transformTo366day (Arr.of1d l) y n = .ok (days366 (fun e g => (e + g) / lit 2) y n l) := by
  rw [transformTo366day_whole l y n h, conv366_eq n y l h]

theorem days366_length (l : List F) (y : Int) (n : Nat) (h : l.length = yearsLen y n) : (days366 (fun e g => (e + g) / lit 2) y n l).length = n * 366 := by
  rw [← conv366_eq n y l h, conv366_length l y n (by omega)]

theorem calendarDays_length (l : List F) (y : Int) (n : Nat) (h : l.length = n * 366) : (calendarDays y n l).length = yearsLen y n := by
  induction n generalizing y l with
  | zero => rfl
  | succ n ih =>
    have h1 : (yearDays y (l.take 366)).length = yearLen y := unconvYear_length y _ (by rw [List.length_take]; omega)
    rw [calendarDays, List.length_append, h1, ih (l.drop 366) (y + 1) (by rw [List.length_drop]; omega), yearsLen_succ']

/-- the days of years of 366 days back in calendar years -/
theorem greg_ok (l : List F) (y : Int) (n : Nat) (hl : l.length = n * 366) (hn : 1 ≤ n) (hy : 1 ≤ y) (hy' : y + n - 1 ≤ 9999) : transformToGregorian (Arr.of1d l) y = .ok (calendarDays y n l) := by
  unfold transformToGregorian
  rw [if_neg (by simp [Arr.of1d]), if_neg (by simp only [Arr.of1d]; omega)]
  have hd : (Arr.of1d l).data.length / 366 = n := by simp only [Arr.of1d]; omega
  simp only [hd, bind, Except.bind]
  rw [mkDate_ok (by omega) (by omega) (by omega) (by omega) (by omega) (by simp [daysInMonth]),
    mkDate_ok (by omega) (by omega) (by omega) (by omega) (by omega) (by simp [daysInMonth])]
  simp only
  have hord : ymd2ord (y + n - 1) 12 31 - ymd2ord y 1 1 + 1 = yearsLen y n := by
    have h1 := ymd2ord_next_year (y + n - 1)
    have h2 := daysBeforeYear_add y n
    have e : y + (n : Int) - 1 + 1 = y + n := by omega
    rw [e] at h1
    have h3 : ymd2ord (y + n - 1) 12 31 = ymd2ord (y + n - 1) 12 1 + 30 := by unfold ymd2ord; omega
    have h4 : ∀ z, ymd2ord z 1 1 = daysBeforeYear z + 1 := by
      intro z; simp [ymd2ord, daysBeforeMonth, daysBeforeMonthTable]
    have h5 : monthLen (y + n - 1) 11 = 31 := by simp [monthLen]
    rw [h4] at *
    omega
  rw [hord, if_neg (by omega)]
  have := toGregLoop_full l n y [] 0 0 (by omega) rfl
  simp only [List.nil_append, List.drop_zero] at this
  simp only [Arr.of1d, Int.toNat_natCast]
  rw [this, unconv_eq]

omit [FloatOps F] in
theorem alongLast_exists {f : List F → Res (List F)} {m A B N : Nat} {data : List F} (hdata : data.length = A * (B * N)) (hA : 1 ≤ A) (hB : 1 ≤ B)
    (h : ∀ i < A, ∀ k < B, ∃ t, f (seriesAt B N i k data) = .ok t) : ∃ out, alongLast f m [A, B, N] data = .ok ⟨[A, B, m], out⟩ := by
  have hdata' : data.length = (A * B) * N := by rw [hdata, Nat.mul_assoc]
  have hpos : A * B ≠ 0 := Nat.mul_ne_zero (by omega) (by omega)
  obtain ⟨parts, hp⟩ := mapM_exists (l := rowsOf (A * B) data) (f := f) (by
    intro r hr
    obtain ⟨q, hq, hrq⟩ := List.mem_iff_getElem.1 hr
    have hq' : q < A * B := by simpa [rowsOf_length] using hq
    have e := rowsOf_get hdata' q hq'
    rw [List.getElem?_eq_getElem hq, hrq, Option.some.injEq] at e
    have h1 := Nat.div_add_mod q B
    have h2 : q / B < A := Nat.div_lt_of_lt_mul (by rw [Nat.mul_comm]; exact hq')
    obtain ⟨t, ht⟩ := h (q / B) h2 (q % B) (Nat.mod_lt _ hB)
    refine ⟨t, ?_⟩
    rw [e, ← ht]
    unfold seriesAt
    rw [Nat.mul_comm (q / B) B, h1])
  refine ⟨parts.flatten, ?_⟩
  unfold alongLast
  have e : [A, B, N].dropLast.foldr (· * ·) 1 = A * B := by simp
  simp only [e, hp]
  rw [if_neg (by rintro (h | h); cases h; exact hpos h)]
  rfl

variable {K : Int → Job → List F → List F → Res (List F)} {wk : Nat} {lower : String → String} {yearOf : F → Int}

/-- daily values of whole years on a grid in shared memory -/
theorem loadInputs_daily {j : Job} {w : World F} {f v : String} {d : NcFile F} {x : NcVar F} {mm : List F} {y0 y1 : Int} {A b n Y : Nat} (hi : j.index = "spi" ∨ j.index = "pnp") (hp : j.precip = some (f, v))
    (ht : j.temp = none) (he : j.pet = none) (hper : j.periodicity = .daily) (hit : j.inputType = .grid) (hL : Loadable lower yearOf j.inputType w.files f v d x mm y0)
    (hsh : x.shape = [A, b, n]) (hA : 1 ≤ A) (hb : 1 ≤ b) (hlast : lastYear yearOf d = .ok y1) (hY : y1 - y0 + 1 = Y) (hn : n = yearsLen y0 Y) :
    ∃ (sh : Dict (Arr F)) (p : List F), loadInputs lower yearOf j w = .ok (d, y0, x, sh, [A, b, Y * 366]) ∧ sh v = some ⟨[A, b, Y * 366], p⟩ ∧ sh keyResult = w.shared keyResult ∧
      p.length = A * (b * (Y * 366)) ∧ ∀ i < A, ∀ k < b, seriesAt b (Y * 366) i k p = days366 (fun e g => (e + g) / lit 2) y0 Y (seriesAt b n i k mm) := by
  obtain ⟨u, hu, hc⟩ := hL.units
  have hopen : openAll w.files ((j.precip.toList ++ j.temp.toList ++ j.pet.toList).map Prod.fst) = .ok d := by
    rw [hp, ht, he]
    simp [openAll, openFile, hL.opened, coordsAgree, bind, Except.bind, pure, Except.pure]
  have hlike : outputLike j = .ok v := by unfold outputLike; rw [hp]
  have hget : d.get v = .ok x := by unfold NcFile.get; rw [hL.found]
  have hp1 : convertInput lower convertPrecip d j.precip = .ok [(v, { x with data := mm })] := by
    rw [hp]
    simp only [convertInput, hget, bind, Except.bind, convertVar, hu, hc]
    rfl
  have hmem : j.index ∈ ["spi", "spei", "pnp", "palmers", "pet"] := by rcases hi with hi | hi <;> rw [hi] <;> decide
  have hml : mm.length = A * (b * n) := by rw [convert_length.1 hc, hL.wf, hsh]; simp
  have hser : ∀ i < A, ∀ k < b, transformTo366day (Arr.of1d (seriesAt b n i k mm)) y0 Y = .ok (days366 (fun e g => (e + g) / lit 2) y0 Y (seriesAt b n i k mm)) := by
    intro i hi' k hk
    refine to366_ok _ _ _ ?_
    rw [← hn]
    refine seriesAt_len (it := .grid) (shape := [A, b, n]) (a := A) (.inl ⟨rfl, rfl⟩) ?_ hi' hk
    rw [hml]; simp
  obtain ⟨p, hal⟩ := alongLast_exists (f := fun s => transformTo366day (Arr.of1d s) y0 Y) (m := Y * 366) hml hA hb (fun i hi' k hk => ⟨_, hser i hi' k hk⟩)
  have hdv : dailyValues yearOf j.periodicity d { x with data := mm } = .ok ⟨[A, b, Y * 366], p⟩ := by
    unfold dailyValues
    rw [hper]
    simp only [hL.year, hlast, bind, Except.bind]
    rw [if_neg (by omega), show (y1 - y0 + 1).toNat = Y by omega, hsh]
    exact hal
  have hdrop : dropVar yearOf j d (v, { x with data := mm }) = .ok (v, { x with shape := [A, b, Y * 366], data := p }) := by
    unfold dropVar
    rw [if_pos hL.dims, hit]
    simp only [hdv, bind, Except.bind]
    rfl
  obtain ⟨_, _, _, q4, q5⟩ := alongLast_ok hml (fun s t h => transformTo366_length h) hal
  refine ⟨w.shared.put v ⟨[A, b, Y * 366], p⟩, p, ?_, by simp [Dict.put], by simp [Dict.put, hL.name.2.symm], q4, fun i hi' k hk => ?_⟩
  · have hcv : convertInputs lower d j = .ok [(v, { x with data := mm })] := by
      unfold convertInputs
      rw [hp1, ht, he, hit]
      rfl
    have hm : [(v, { x with data := mm })].mapM (dropVar yearOf j d) = .ok [(v, { x with shape := [A, b, Y * 366], data := p })] := by
      simp [List.mapM_cons, hdrop, bind, Except.bind, pure, Except.pure]
    unfold loadInputs
    simp only [bind, Except.bind, hopen, hL.year, hlike, hget, hcv]
    unfold dropData
    simp only [bind, Except.bind, hm, hit]
    simp only [outputShape, List.getLast?_singleton, Option.map_some, if_pos hmem, List.foldl]
    rfl
  · have := q5 i hi' k hk
    rw [hser i hi' k hk, Except.ok.injEq] at this
    exact this.symm

/-- **SPI and PNP, one computation on daily values of whole years**: it finishes if (and only if, `cwi_precip`) it does at every place. -/
theorem cwi_exists_daily {j : Job} {w : World F} {f v name : String} {d : NcFile F} {x : NcVar F} {mm : List F} {y0 y1 : Int} {A b n Y : Nat} (hi : j.index = "spi" ∨ j.index = "pnp") (hp : j.precip = some (f, v))
    (ht : j.temp = none) (he : j.pet = none) (hper : j.periodicity = .daily) (hit : j.inputType = .grid) (hL : Loadable lower yearOf j.inputType w.files f v d x mm y0)
    (hsh : x.shape = [A, b, n]) (hA : 1 ≤ A) (hb : 1 ≤ b) (hlast : lastYear yearOf d = .ok y1) (hY : y1 - y0 + 1 = Y) (hY1 : 1 ≤ Y) (hn : n = yearsLen y0 Y) (hy0 : 1 ≤ y0) (hy1 : y1 ≤ 9999)
    (hw : 1 ≤ wk) (hr : ResFits [A, b, Y * 366] w.shared) (hnm : variableName j = .ok name)
    (h : ∀ i < A, ∀ k < b, ∃ s t, K y0 j (days366 (fun e g => (e + g) / lit 2) y0 Y (seriesAt b n i k mm)) (days366 (fun e g => (e + g) / lit 2) y0 Y (seriesAt b n i k mm)) = .ok s ∧ assignSeries (Y * 366) s = .ok t) :
    ∃ w', computeWriteIndex K wk lower yearOf j w = (.ok (fileName j.base name, name), w') ∧ ResFits [A, b, Y * 366] w'.shared ∧ w'.written = w.written ++ [(fileName j.base name, name)] := by
  obtain ⟨sh, p, h1, h2, h3, h4, h5⟩ := loadInputs_daily hi hp ht he hper hit hL hsh hA hb hlast hY hn
  have hnpa : j.index ≠ "palmers" := by rcases hi with hi | hi <;> rw [hi] <;> decide
  have hnp : j.index ≠ "pet" := by rcases hi with hi | hi <;> rw [hi] <;> decide
  have hns : j.index ≠ "spei" := by rcases hi with hi | hi <;> rw [hi] <;> decide
  generalize hS : [A, b, Y * 366] = S at h1 h2 hr
  have hres : (resultArray sh S).shape = S ∧ (resultArray sh S).WF := by
    unfold resultArray
    rw [h3]
    cases hk : w.shared keyResult with
    | none => exact ⟨rfl, by simp [Arr.WF]⟩
    | some r => exact hr r hk
  have hwf : (⟨S, p⟩ : Arr F).WF := by
    show p.length = _
    rw [h4, ← hS]
    simp
  obtain ⟨out, hout⟩ := parallelProcess_exists (K := K y0) (arr := ⟨S, p⟩) (a := A) (b := b) (n := Y * 366) hi (.inl ⟨hit, hS.symm⟩) hwf hres hA hw (by
    intro i hi' k hk
    show ∃ s t, K y0 j (seriesAt b (Y * 366) i k p) (seriesAt b (Y * 366) i k p) = .ok s ∧ _
    rw [h5 i hi' k hk]
    exact h i hi' k hk)
  have hol := parallelProcess_length hout hwf hres.2
  have hcv : computeValues (K y0) wk d j (sh.put keyResult (resultArray sh S)) (resultArray sh S) = .ok out := by
    have hfn : firstName j = .ok v := by unfold firstName; rw [if_neg hnp, hp]
    have hsn : secondName j v = .ok v := by unfold secondName; rw [if_neg hns, if_neg hnp]
    have hat : (sh.put keyResult (resultArray sh S)).at v = .ok ⟨S, p⟩ := by
      unfold Dict.at Dict.put
      rw [if_neg hL.name.2, h2]
    unfold computeValues putLat
    simp only [if_neg hnp, pure, Except.pure, bind, Except.bind, hfn, hsn, hat]
    exact hout
  have hout' : out.length = A * (b * (Y * 366)) := by
    rw [hol, hres.2, hres.1, ← hS]
    simp
  have hof : ∃ y, outputFile d y0 x j (resultArray sh S).shape out = .ok (fileName j.base name, name, coordsOf d ++ [(name, y)]) := by
    obtain ⟨g, hg⟩ := alongLast_exists (f := fun s => do
      let g ← transformToGregorian (Arr.of1d s) y0
      if g.length = n then pure g else .error .valueError) (m := n) hout' hA hb (by
        intro i hi' k hk
        have hl : (seriesAt b (Y * 366) i k out).length = Y * 366 := by
          refine seriesAt_len (it := .grid) (shape := [A, b, Y * 366]) (a := A) (.inl ⟨rfl, rfl⟩) ?_ hi' hk
          rw [hout']; simp
        refine ⟨calendarDays y0 Y (seriesAt b (Y * 366) i k out), ?_⟩
        rw [greg_ok _ y0 Y hl hY1 hy0 (by omega)]
        simp only [bind, Except.bind]
        rw [if_pos (by rw [calendarDays_length _ _ _ hl, hn])]
        rfl)
    have e : outputValues j.periodicity y0 (x.shape.getLastD 0) (resultArray sh S).shape out = .ok ⟨x.shape, g⟩ := by
      unfold outputValues
      rw [hper, hres.1, ← hS, hsh]
      exact hg
    refine ⟨⟨x.dims, x.shape, outputUnits j, g⟩, ?_⟩
    unfold outputFile
    simp only [bind, Except.bind, hnm, e, if_true]
    rfl
  obtain ⟨y, hof⟩ := hof
  refine ⟨_, by unfold computeWriteIndex; simp only [h1, if_neg hnpa, hcv, hof]; rfl, ?_, rfl⟩
  intro r hrr
  simp only [Dict.put, if_true, Option.some.injEq] at hrr
  subst hrr
  refine ⟨hres.1, ?_⟩
  show out.length = _
  rw [hol]
  exact hres.2

end

end CI
