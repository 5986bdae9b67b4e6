import Verif.Props.CliCells
import Verif.Props.Daily
import Verif.Props.Eto

/-!
# C74 to C76: daily data in the main command line tool
-/

namespace CI.Props
open CI Spec

variable {F : Type} [FloatOps F]

omit [FloatOps F] in
theorem unconv_length (n : Nat) : ∀ (y : Int) (l : List F), l.length = n * 366 → (unconv l y n).length = yearsLen y n := by
  induction n with
  | zero => intro y l _; rfl
  | succ n ih =>
    intro y l hl
    rw [unconv, List.length_append, unconvYear_length y _ (by rw [List.length_take]; omega), ih (y + 1) _ (by rw [List.length_drop]; omega), yearsLen_succ']

theorem days_of_years (y : Int) (n : Nat) : ymd2ord (y + n - 1) 12 31 - ymd2ord y 1 1 + 1 = yearsLen y n := by
  have h1 := ymd2ord_next_year (y + n - 1)
  have h2 := daysBeforeYear_add y n
  have e : y + (n : Int) - 1 + 1 = y + n := by omega
  rw [e] at h1
  have h3 : ymd2ord (y + n - 1) 12 31 = ymd2ord (y + n - 1) 12 1 + 30 := by unfold ymd2ord; omega
  have h4 : ∀ z, ymd2ord z 1 1 = daysBeforeYear z + 1 := by
    intro z; simp [ymd2ord, daysBeforeMonth, daysBeforeMonthTable]
  have h5 : monthLen (y + n - 1) 11 = 31 := by simp [monthLen]
  rw [h4] at *
  omega

/-- the length of a series that is back in Gregorian years -/
theorem gregorian_length {l g : List F} {y : Int} (h : transformToGregorian (Arr.of1d l) y = .ok g) : l.length % 366 = 0 ∧ g.length = yearsLen y (l.length / 366) := by
  unfold transformToGregorian at h
  rw [if_neg (by simp [Arr.of1d])] at h
  split at h
  · cases h
  next hm =>
  have hm : l.length % 366 = 0 := by simpa [Arr.of1d] using hm
  refine ⟨hm, ?_⟩
  obtain ⟨n, hn⟩ : ∃ n, l.length = n * 366 := ⟨l.length / 366, by omega⟩
  have hd : (Arr.of1d l).data.length / 366 = n := by
    show l.length / 366 = n
    omega
  have hd' : l.length / 366 = n := hd
  simp only [hd] at h
  obtain ⟨last, h1, h⟩ := Res.bind_ok h
  obtain ⟨first, h2, h⟩ := Res.bind_ok h
  unfold mkDate at h1 h2
  split at h1
  · cases h1
    split at h2
    · cases h2
      rw [days_of_years, if_neg (by omega)] at h
      have := toGregLoop_full l n y [] 0 0 (by omega) rfl
      simp only [List.nil_append, List.drop_zero] at this
      simp only [Arr.of1d, Int.toNat_natCast] at h
      rw [this] at h
      cases h
      rw [unconv_length n y l hn, hd']
    · cases h2
  · cases h1

omit [FloatOps F] in
/-- the days of the Gregorian years in the values of years of 366 days -/
theorem unconv_day (n : Nat) : ∀ (y : Int) (l : List F), l.length = n * 366 → ∀ k d, k < n → d < yearLen (y + k) → (unconv l y n)[yearsLen y k + d]? = l[366 * k + slot (y + k) d]? := by
  induction n with
  | zero => intro y l _ k d hk; omega
  | succ n ih =>
    intro y l hl k d hk hd
    have hu : (unconvYear y (l.take 366)).length = yearLen y := unconvYear_length y _ (by rw [List.length_take]; omega)
    rw [unconv]
    cases k with
    | succ k =>
      rw [yearsLen_succ', List.getElem?_append_right (by rw [hu]; omega), hu]
      have e : y + ((k + 1 : Nat) : Int) = (y + 1) + k := by push_cast; omega
      rw [e] at hd ⊢
      rw [show yearLen y + yearsLen (y + 1) k + d - yearLen y = yearsLen (y + 1) k + d by omega, ih (y + 1) (l.drop 366) (by rw [List.length_drop]; omega) k d (by omega) hd, List.getElem?_drop]
      congr 1
      omega
    | zero =>
      simp only [Nat.cast_zero, add_zero, Nat.mul_zero, Nat.zero_add, yearsLen] at *
      rw [List.getElem?_append_left (by omega)]
      by_cases hy : Leap y
      · rw [yearLen_leap hy] at hd
        have hs : slot y d = d := by simp [slot, hy]
        simp only [unconvYear, hy, if_true]
        rw [hs, List.getElem?_take_of_lt hd]
      · rw [yearLen_nonleap hy] at hd
        simp only [unconvYear, hy, if_false]
        by_cases h59 : d < 59
        · have hs : slot y d = d := by simp [slot, h59]
          rw [hs, List.getElem?_append_left (by len_omega), List.take_take, List.getElem?_take_of_lt (by omega)]
        · have hs : slot y d = d + 1 := by simp [slot, hy, h59]
          rw [hs, List.getElem?_append_right (by len_omega), List.getElem?_drop, List.getElem?_take_of_lt (by len_omega)]
          congr 1
          simp
          omega

/-- back in Gregorian years: every day has the value it had in the years of 366 days -/
theorem gregorian_days {l g : List F} {y : Int} (h : transformToGregorian (Arr.of1d l) y = .ok g) : SameDays y (l.length / 366) g l := by
  obtain ⟨n, hn⟩ : ∃ n, l.length = n * 366 := ⟨l.length / 366, by have := (gregorian_length h).1; omega⟩
  refine ⟨(gregorian_length h).2, by omega, ?_⟩
  have hd : l.length / 366 = n := by omega
  rw [hd]
  suffices g = unconv l y n by
    intro k d hk hd
    rw [this, unconv_day n y l hn k d hk hd]
  unfold transformToGregorian at h
  rw [if_neg (by simp [Arr.of1d])] at h
  split at h
  · cases h
  have hd' : (Arr.of1d l).data.length / 366 = n := hd
  simp only [hd'] at h
  obtain ⟨last, h1, h⟩ := Res.bind_ok h
  obtain ⟨first, h2, h⟩ := Res.bind_ok h
  unfold mkDate at h1 h2
  split at h1
  · cases h1
    split at h2
    · cases h2
      rw [days_of_years, if_neg (by omega)] at h
      have := toGregLoop_full l n y [] 0 0 (by omega) rfl
      simp only [List.nil_append, List.drop_zero] at this
      simp only [Arr.of1d, Int.toNat_natCast] at h
      rw [this] at h
      cases h
      rfl
    · cases h2
  · cases h1

/-- years of which every one has 366 days: at most one -/
theorem all_leap {y : Int} {T : Nat} (h : yearsLen y T = T * 366) : T = 0 ∨ (T = 1 ∧ Leap y) := by
  have hle : ∀ T, yearsLen y T ≤ T * 366 := by
    intro T
    induction T with
    | zero => simp [yearsLen]
    | succ T ih =>
      rw [yearsLen]
      have : yearLen (y + T) ≤ 366 := by unfold yearLen; split <;> omega
      omega
  match T, h with
  | 0, _ => exact .inl rfl
  | 1, h =>
    right
    refine ⟨rfl, ?_⟩
    simp only [yearsLen, yearLen] at h
    by_contra hc
    rw [if_neg (by simpa using hc)] at h
    omega
  | T + 2, h =>
    exfalso
    rw [yearsLen, yearsLen] at h
    have h0 := hle T
    have h1 : yearLen (y + T) + yearLen (y + (T + 1 : Nat)) < 732 := by
      unfold yearLen
      split <;> split <;> try omega
      next a b =>
        exfalso
        push_cast at b
        unfold Leap at a b
        omega
    omega

/-- a daily series of which the result is in the output: what its length is. The values of divisions are not put into 366-day years, but they are taken back from them. -/
theorem daily_length {dims : List String} {y0 y1 : Int} {l p r out : List F} (h1 : preparedFor dims .daily y0 y1 l = .ok p) (hr : r.length = p.length) (h : restored .daily y0 r = .ok out) :
    ("division" ∈ dims → l.length % 366 = 0 ∧ out.length = yearsLen y0 (l.length / 366)) ∧ ("division" ∉ dims → out.length = yearsLen y0 (y1 - y0 + 1).toNat) := by
  simp only [restored, if_true] at h
  obtain ⟨g1, g2⟩ := gregorian_length h
  rw [hr] at g1 g2
  unfold preparedFor at h1
  constructor
  · intro hd
    rw [if_pos hd] at h1
    cases h1
    exact ⟨g1, g2⟩
  · intro hd
    rw [if_neg hd] at h1
    simp only [prepared, if_true] at h1
    rw [transformTo366_length h1] at g2
    rw [g2, Nat.mul_div_cancel _ (by omega)]

/-- the record lengths that the tool can process: one leap year for divisions, whole years from the first to the last year of the time coordinate for a grid -/
def Processable (dims : List String) (y0 y1 : Int) (n : Nat) : Prop :=
  if "division" ∈ dims then n = 366 ∧ Leap y0 else n = yearsLen y0 (y1 - y0 + 1).toNat

theorem daily_place {dims : List String} {y0 y1 : Int} {l p r out : List F} {n : Nat} (h1 : preparedFor dims .daily y0 y1 l = .ok p) (hr : r.length = p.length)
    (h : restored .daily y0 r = .ok out) (hl : l.length = n) (ho : out.length = n) (hn : 0 < n) : Processable dims y0 y1 n := by
  obtain ⟨d1, d2⟩ := daily_length h1 hr h
  unfold Processable
  split
  · next hd =>
    obtain ⟨e1, e2⟩ := d1 hd
    rw [hl] at e1 e2
    rcases all_leap (y := y0) (T := n / 366) (by omega) with h0 | ⟨h0, h1⟩
    · omega
    · exact ⟨by omega, h1⟩
  · next hd => rw [← ho]; exact d2 hd

omit [FloatOps F] in
theorem layout_data {x : NcVar F} {A b n : Nat} (hl : Layout x A b n) {m : Nat} (hm : m = x.shape.foldr (· * ·) 1) : m = A * (b * n) := by
  rcases hl with ⟨_, e⟩ | ⟨_, e, rfl⟩
  · rw [hm, e]
    simp
  · rw [hm, e]
    simp

omit [FloatOps F] in
theorem first_place {A b n : Nat} (hA : 0 < A) (hb : 0 < b) {l : List F} (hl : l.length = A * (b * n)) : (seriesAt b n 0 0 l).length = n := by
  unfold seriesAt
  have : n ≤ A * (b * n) := by
    calc n = 1 * (1 * n) := by simp
      _ ≤ A * (b * n) := Nat.mul_le_mul hA (Nat.mul_le_mul hb le_rfl)
  simp
  omega

section
variable (E : Ext F) (T : Trig F) (cs ce : Int) (wk : Nat) (lower : String → String) (yearOf : F → Int) (cmp : CoordCmp F) (a : CliArgs) (w w' : World F)

/-- the daily record of a finished run (SPI, PNP and SPEI with a PET file) -/
theorem daily_run [FloatLaws F] (hE : ExtNan E) (hper : a.periodicity = .daily) (h : processIndices (indexFunction E T cs ce) wk lower yearOf cmp a w = (.ok (), w'))
    (hi : a.index ∈ ["spi", "pnp", "scaled"]) {f v : String} {d : NcFile F} {x : NcVar F} {A b n : Nat}
    (hin : Input w.files a.outputFileBase a.netcdfPrecip a.varNamePrecip f v d x) (hl : Layout x A b n) (hA : 0 < A) (hb : 0 < b) (hn : 0 < n)
    {y0 y1 : Int} (hy : Years yearOf d y0 y1) {s : Int} {ss : List Int} (hs : a.scales = some (s :: ss)) : Processable x.dims y0 y1 n := by
  have hs' : s ∈ a.scales.getD [] := by rw [hs]; simp
  have hsplit : (a.index = "spi" ∨ a.index = "scaled") ∨ (a.index = "pnp" ∨ a.index = "scaled") := by
    simp only [List.mem_cons, List.not_mem_nil, or_false] at hi
    tauto
  rcases hsplit with hi | hi
  · obtain ⟨u, mm, _, k2, file, y, _, _, _, ⟨k3, k4⟩, k5⟩ := C66_spi E hE T cs ce wk lower yearOf cmp a w w' h hi hin hl hy s hs' .gamma (.inr rfl)
    have k5 := k5 0 hA 0 hb
    unfold onSeries at k5
    rw [hper] at k5
    obtain ⟨p, p1, k5⟩ := Res.bind_ok k5
    obtain ⟨r, p2, k5⟩ := Res.bind_ok k5
    refine daily_place p1 (C10_size E hE _ _ _ _ _ _ _ _ _ p2) k5 (first_place hA hb ?_) (first_place hA hb ?_) hn
    · rw [convert_length.1 k2]
      exact layout_data hl hin.wf
    · exact layout_data hl k4
  · obtain ⟨u, mm, _, k2, file, y, _, _, _, ⟨k3, k4⟩, k5⟩ := pnp_run E T cs ce wk lower yearOf cmp a w w' h hi hin hl hy s hs'
    obtain ⟨p, r, p1, _, p2, p3⟩ := k5 0 hA 0 hb
    rw [hper] at p1 p3
    refine daily_place p1 p2 p3 (first_place hA hb ?_) (first_place hA hb ?_) hn
    · rw [convert_length.1 k2]
      exact layout_data hl hin.wf
    · exact layout_data hl k4

/-- the same for SPEI with a PET file -/
theorem daily_run_spei [FloatLaws F] (hE : ExtNan E) (hper : a.periodicity = .daily) (h : processIndices (indexFunction E T cs ce) wk lower yearOf cmp a w = (.ok (), w'))
    (hi : a.index = "spei") {f v fe ve : String} {d de : NcFile F} {x xe : NcVar F} {A b n : Nat}
    (hin : Input w.files a.outputFileBase a.netcdfPrecip a.varNamePrecip f v d x) (hl : Layout x A b n) (hA : 0 < A) (hb : 0 < b) (hn : 0 < n)
    (hpet : Input w.files a.outputFileBase a.netcdfPet a.varNamePet fe ve de xe) (hle : Layout xe A b n) (hne : v ≠ ve) (hnone : List.lookup ve d = none ∨ List.lookup ve d = some xe)
    (hsame : SameCoords d de) {y0 y1 : Int} (hy : Years yearOf d y0 y1) {s : Int} {ss : List Int} (hs : a.scales = some (s :: ss)) : Processable x.dims y0 y1 n := by
  have hs' : s ∈ a.scales.getD [] := by rw [hs]; simp
  obtain ⟨u, mm, ue, pe, _, k2, _, _, file, y, _, _, _, ⟨k3, k4⟩, k5⟩ :=
    C66_spei_given E hE T cs ce wk lower yearOf cmp a w w' h (.inl hi) hin hl hpet hle hne hnone hsame hy s hs' .gamma (.inr rfl)
  have k5 := k5 0 hA 0 hb
  unfold onSeries₂ at k5
  rw [hper] at k5
  obtain ⟨p, p1, k5⟩ := Res.bind_ok k5
  obtain ⟨q, _, k5⟩ := Res.bind_ok k5
  obtain ⟨r, p2, k5⟩ := Res.bind_ok k5
  refine daily_place p1 ?_ k5 (first_place hA hb ?_) (first_place hA hb ?_) hn
  · cases hsp : spei E (Arr.of1d p) (Arr.of1d q) s .gamma .daily y0 cs ce none with
    | error e => dsimp only at p2; rw [hsp] at p2; cases p2
    | ok r' =>
      dsimp only at p2
      rw [hsp] at p2
      cases p2
      exact spei_size E hE _ _ _ _ _ _ _ _ _ _ hsp
  · rw [convert_length.1 k2]
    exact layout_data hl hin.wf
  · exact layout_data hl k4

/-! ## C74: daily values of divisions -/

/-- **C74 is false, for all records.** Daily values of divisions are not put into years of 366 days, but the results are taken from there; no run for SPI, PNP or all scaled indices
finishes, except for records that consist of a single leap year. -/
theorem C74_fails [FloatLaws F] (hE : ExtNan E) (hper : a.periodicity = .daily) (hi : a.index ∈ ["spi", "pnp", "scaled"]) {f v : String} {d : NcFile F} {x : NcVar F} {D n : Nat}
    (hin : Input w.files a.outputFileBase a.netcdfPrecip a.varNamePrecip f v d x) (hdims : x.dims = ["division", "time"]) (hshape : x.shape = [D, n]) (hD : 0 < D) (hn : 0 < n)
    {y0 y1 : Int} (hy : Years yearOf d y0 y1) {s : Int} {ss : List Int} (hs : a.scales = some (s :: ss)) (hno : ¬ (n = 366 ∧ Leap y0)) :
    processIndices (indexFunction E T cs ce) wk lower yearOf cmp a w ≠ (.ok (), w') := by
  intro h
  have := daily_run E T cs ce wk lower yearOf cmp a w w' hE hper h hi hin (.inr ⟨hdims, hshape, rfl⟩) hD Nat.one_pos hn hy hs
  unfold Processable at this
  rw [if_pos (by rw [hdims]; simp)] at this
  exact hno this

/-- **C74 is false, for all records**, SPEI with a PET file. -/
theorem C74_spei_fails [FloatLaws F] (hE : ExtNan E) (hper : a.periodicity = .daily) (hi : a.index = "spei") {f v fe ve : String} {d de : NcFile F} {x xe : NcVar F} {D n : Nat}
    (hin : Input w.files a.outputFileBase a.netcdfPrecip a.varNamePrecip f v d x) (hdims : x.dims = ["division", "time"]) (hshape : x.shape = [D, n]) (hD : 0 < D) (hn : 0 < n)
    (hpet : Input w.files a.outputFileBase a.netcdfPet a.varNamePet fe ve de xe) (hdims' : xe.dims = ["division", "time"]) (hshape' : xe.shape = [D, n]) (hne : v ≠ ve)
    (hnone : List.lookup ve d = none ∨ List.lookup ve d = some xe) (hsame : SameCoords d de)
    {y0 y1 : Int} (hy : Years yearOf d y0 y1) {s : Int} {ss : List Int} (hs : a.scales = some (s :: ss)) (hno : ¬ (n = 366 ∧ Leap y0)) :
    processIndices (indexFunction E T cs ce) wk lower yearOf cmp a w ≠ (.ok (), w') := by
  intro h
  have := daily_run_spei E T cs ce wk lower yearOf cmp a w w' hE hper h hi hin (.inr ⟨hdims, hshape, rfl⟩) hD Nat.one_pos hn hpet (.inr ⟨hdims', hshape', rfl⟩) hne hnone hsame hy hs
  unfold Processable at this
  rw [if_pos (by rw [hdims]; simp)] at this
  exact hno this

/-- C74 (`_partial`: records of a single leap year only): after a finished run the values of every division are the SPI of its daily values. -/
theorem C74_partial [FloatLaws F] (hE : ExtNan E) (hper : a.periodicity = .daily) (h : processIndices (indexFunction E T cs ce) wk lower yearOf cmp a w = (.ok (), w'))
    (hi : a.index = "spi" ∨ a.index = "scaled") {f v : String} {d : NcFile F} {x : NcVar F} {D : Nat}
    (hin : Input w.files a.outputFileBase a.netcdfPrecip a.varNamePrecip f v d x) (hdims : x.dims = ["division", "time"]) (hshape : x.shape = [D, 366])
    {y0 y1 : Int} (hy : Years yearOf d y0 y1) (hleap : Leap y0) (s : Int) (hs : s ∈ a.scales.getD []) (dist : Distribution) (hd : dist = .pearson ∨ dist = .gamma) :
    ∃ u mm, x.units = some u ∧ convertPrecip (lower u) x.data = .ok mm ∧
      Holds w'.files a.outputFileBase (.spi dist s.toNat) d x D 1 366 (fun i _ => spi E (Arr.of1d (seriesAt 1 366 i 0 mm)) s dist y0 cs ce .daily none) := by
  obtain ⟨u, mm, k1, k2, file, y, k3, k4, k5, k6, k7⟩ := C66_spi E hE T cs ce wk lower yearOf cmp a w w' h hi hin (A := D) (b := 1) (n := 366) (.inr ⟨hdims, hshape, rfl⟩) hy s hs dist hd
  refine ⟨u, mm, k1, k2, file, y, k3, k4, k5, k6, fun i hi' k hk => ?_⟩
  obtain rfl : k = 0 := by omega
  have k7 := k7 i hi' 0 hk
  unfold onSeries preparedFor at k7
  dsimp only at k7
  rw [if_pos (by rw [hdims]; simp), hper] at k7
  obtain ⟨p, p1, k7⟩ := Res.bind_ok k7
  cases p1
  obtain ⟨r, p2, k7⟩ := Res.bind_ok k7
  dsimp only
  rw [p2]
  have hlen : ∀ l : List F, l.length = D * 366 → (seriesAt 1 366 i 0 l).length = 366 := by
    intro l hl
    unfold seriesAt
    have : (i + 1) * 366 ≤ D * 366 := Nat.mul_le_mul hi' le_rfl
    simp
    omega
  have hr : r.length = 366 := by
    rw [C10_size E hE _ _ _ _ _ _ _ _ _ p2]
    refine hlen _ ?_
    rw [convert_length.1 k2, hin.wf, hshape]
    simp
  simp only [restored, if_true] at k7
  obtain ⟨g1, g2, g3⟩ := gregorian_days k7
  rw [hr] at g1 g2 g3
  congr 1
  apply List.ext_getElem?
  intro d
  by_cases hd' : d < 366
  · have := g3 0 d (by omega) (by simp [yearLen, hleap, hd'])
    simpa [slot, hleap, yearsLen] using this
  · rw [List.getElem?_eq_none (by omega), List.getElem?_eq_none (by rw [hlen _ (by rw [k6.2, hshape]; simp)]; omega)]

/-! ## C75: daily records that end within a year -/

/-- **C75 is false, for all records.** If the number of daily values is not that of whole Gregorian years from the first year to the last year of the time coordinate, no run for
SPI, PNP or all scaled indices on a grid finishes. -/
theorem C75_fails [FloatLaws F] (hE : ExtNan E) (hper : a.periodicity = .daily) (hi : a.index ∈ ["spi", "pnp", "scaled"]) {f v : String} {d : NcFile F} {x : NcVar F} {A b n : Nat}
    (hin : Input w.files a.outputFileBase a.netcdfPrecip a.varNamePrecip f v d x) (hdims : x.dims = ["lat", "lon", "time"]) (hshape : x.shape = [A, b, n]) (hA : 0 < A) (hb : 0 < b)
    (hn : 0 < n) {y0 y1 : Int} (hy : Years yearOf d y0 y1) {s : Int} {ss : List Int} (hs : a.scales = some (s :: ss)) (hpart : n ≠ yearsLen y0 (y1 - y0 + 1).toNat) :
    processIndices (indexFunction E T cs ce) wk lower yearOf cmp a w ≠ (.ok (), w') := by
  intro h
  have := daily_run E T cs ce wk lower yearOf cmp a w w' hE hper h hi hin (.inl ⟨hdims, hshape⟩) hA hb hn hy hs
  unfold Processable at this
  rw [if_neg (by rw [hdims]; simp)] at this
  exact hpart this

/-- **C75 is false, for all records**, SPEI with a PET file. -/
theorem C75_spei_fails [FloatLaws F] (hE : ExtNan E) (hper : a.periodicity = .daily) (hi : a.index = "spei") {f v fe ve : String} {d de : NcFile F} {x xe : NcVar F} {A b n : Nat}
    (hin : Input w.files a.outputFileBase a.netcdfPrecip a.varNamePrecip f v d x) (hdims : x.dims = ["lat", "lon", "time"]) (hshape : x.shape = [A, b, n]) (hA : 0 < A) (hb : 0 < b)
    (hn : 0 < n) (hpet : Input w.files a.outputFileBase a.netcdfPet a.varNamePet fe ve de xe) (hdims' : xe.dims = ["lat", "lon", "time"]) (hshape' : xe.shape = [A, b, n]) (hne : v ≠ ve)
    (hnone : List.lookup ve d = none ∨ List.lookup ve d = some xe) (hsame : SameCoords d de)
    {y0 y1 : Int} (hy : Years yearOf d y0 y1) {s : Int} {ss : List Int} (hs : a.scales = some (s :: ss)) (hpart : n ≠ yearsLen y0 (y1 - y0 + 1).toNat) :
    processIndices (indexFunction E T cs ce) wk lower yearOf cmp a w ≠ (.ok (), w') := by
  intro h
  have := daily_run_spei E T cs ce wk lower yearOf cmp a w w' hE hper h hi hin (.inl ⟨hdims, hshape⟩) hA hb hn hpet (.inl ⟨hdims', hshape'⟩) hne hnone hsame hy hs
  unfold Processable at this
  rw [if_neg (by rw [hdims]; simp)] at this
  exact hpart this

/-- C75 (`_partial`: whole years only). After a finished run for SPI on daily values of `T` whole years: at every place, with `p` the values of the place in years of 366 days (every day
in its slot, 29 February of ordinary years being the mean of the days around it) and `r` their SPI, the value written for a day is that of `r` in the slot of the day. -/
theorem C75_partial [FloatLaws F] (hE : ExtNan E) (hper : a.periodicity = .daily) (h : processIndices (indexFunction E T cs ce) wk lower yearOf cmp a w = (.ok (), w'))
    (hi : a.index = "spi" ∨ a.index = "scaled") {f v : String} {d : NcFile F} {x : NcVar F} {A b n Y : Nat}
    (hin : Input w.files a.outputFileBase a.netcdfPrecip a.varNamePrecip f v d x) (hdims : x.dims = ["lat", "lon", "time"]) (hshape : x.shape = [A, b, n])
    {y0 y1 : Int} (hy : Years yearOf d y0 y1) (hY : y1 = y0 + Y - 1) (hn : n = yearsLen y0 Y) (s : Int) (hs : s ∈ a.scales.getD []) (dist : Distribution) (hd : dist = .pearson ∨ dist = .gamma) :
    ∃ u mm, x.units = some u ∧ convertPrecip (lower u) x.data = .ok mm ∧
      ∃ file y, w'.files (fileName a.outputFileBase (Output.spi dist s.toNat).name) = some file ∧ ((Output.spi dist s.toNat).name, y) ∈ file ∧ y.dims = x.dims ∧ y.shape = x.shape ∧
        ∀ i < A, ∀ k < b, ∃ p r, SameDays y0 Y (seriesAt b n i k mm) p ∧
          (∀ j, j < Y → ¬ Leap (y0 + j) → ∃ e g, (seriesAt b n i k mm)[yearsLen y0 j + 58]? = some e ∧ (seriesAt b n i k mm)[yearsLen y0 j + 59]? = some g ∧
            p[366 * j + 59]? = some ((e + g) / lit 2)) ∧
          spi E (Arr.of1d p) s dist y0 cs ce .daily none = .ok r ∧ SameDays y0 Y (seriesAt b n i k y.data) r := by
  obtain ⟨u, mm, k1, k2, file, y, k3, k4, k5, k6, k7⟩ := C66_spi E hE T cs ce wk lower yearOf cmp a w w' h hi hin (A := A) (b := b) (n := n) (.inl ⟨hdims, hshape⟩) hy s hs dist hd
  refine ⟨u, mm, k1, k2, file, y, k3, k4, k5.1, k6.1, fun i hi' k hk => ?_⟩
  have k7 := k7 i hi' k hk
  unfold onSeries preparedFor at k7
  dsimp only at k7
  rw [if_neg (by rw [hdims]; simp), hper] at k7
  obtain ⟨p, p1, k7⟩ := Res.bind_ok k7
  obtain ⟨r, p2, k7⟩ := Res.bind_ok k7
  simp only [prepared, restored, if_true] at p1 k7
  rw [show (y1 - y0 + 1).toNat = Y by omega] at p1
  have hlen : (seriesAt b n i k mm).length = n := by
    refine seriesAt_len (it := .grid) (a := A) (.inl ⟨rfl, hshape⟩) ?_ hi' hk
    rw [convert_length.1 k2, hin.wf]
  obtain ⟨o, o1, o2, o3, o4⟩ := C02_layout _ y0 Y (hlen.trans hn)
  rw [p1] at o1
  cases o1
  have hr := C10_size E hE _ _ _ _ _ _ _ _ _ p2
  have hr : r.length = p.length := hr
  have := gregorian_days k7
  rw [hr, o2, Nat.mul_div_cancel_left _ (by omega)] at this
  exact ⟨p, r, ⟨hlen.trans hn, o2, o3⟩, o4, p2, this⟩

end

/-! ## Cases -/

/-- `n` days from 1 January 2000 on: two divisions, and a grid of one place -/
def daysOf (n : Nat) (var : NcVar Q) (coords : NcFile Q) : World Q :=
  ⟨fun f => if f = "p.nc" then some (("prcp", var) :: coords ++ [("time", ⟨["time"], [n], none, (List.range n).map (fun (i : ℕ) => .fin (i : ℚ))⟩)]) else none, fun _ => none, []⟩
def divisionDays (n : Nat) : World Q := daysOf n ⟨["division", "time"], [2, n], some "mm", (List.range (2 * n)).map (fun (i : ℕ) => .fin ((i % 7 : ℕ) : ℚ))⟩
  [("division", ⟨["division"], [2], none, [.fin 101, .fin 102]⟩), ("lat", ⟨["division"], [2], none, [.fin 40, .fin 41]⟩)]
def gridDays (n : Nat) : World Q := daysOf n ⟨["lat", "lon", "time"], [1, 1, n], some "mm", (List.range n).map (fun (i : ℕ) => .fin ((i % 7 : ℕ) : ℚ))⟩
  [("lat", ⟨["lat"], [1], none, [.fin 40]⟩), ("lon", ⟨["lon"], [1], none, [.fin 0]⟩)]
def daysYear : Q → Int
  | .fin t => if t < 366 then 2000 else 2001
  | _ => 0
def dailyArgs (index : String) (scales : List Int) : CliArgs := { demoArgs index scales with periodicity := .daily }

/-- runs that finish: one leap year -/
example : (processIndices (indexFunction toyExt toyTrig 2000 2000) 2 id daysYear demoCmp (dailyArgs "spi" [3]) (divisionDays 366)).1 = .ok () := by decide +kernel
example : (processIndices (indexFunction toyExt toyTrig 2000 2000) 2 id daysYear demoCmp (dailyArgs "spi" [3]) (gridDays 366)).1 = .ok () := by decide +kernel

/-- the hypotheses of `C74_fails` and `C75_fails` are met by records of 400 days (which pass the validation), and no run finishes -/
example : validateArgs demoCmp (divisionDays 400).files (dailyArgs "spi" [3]) = .ok .divisions ∧
    ∀ w', processIndices (indexFunction toyExt toyTrig 2000 2001) 2 id daysYear demoCmp (dailyArgs "spi" [3]) (divisionDays 400) ≠ (.ok (), w') := by
  refine ⟨by decide +kernel, fun w' => C74_fails toyExt toyTrig 2000 2001 2 id daysYear demoCmp (dailyArgs "spi" [3]) (divisionDays 400) w' toyExt_nan rfl (by decide)
    (D := 2) (n := 400) ⟨rfl, rfl, rfl, rfl, ?_, by decide, demo_notOutput _ (by decide)⟩ rfl rfl (by decide) (by decide) (y0 := 2000) (y1 := 2001) ⟨_, .fin 0, .fin 399, rfl, rfl, ?_, rfl, rfl⟩ rfl (by decide)⟩
  · simp
  · decide +kernel
example : validateArgs demoCmp (gridDays 400).files (dailyArgs "spi" [3]) = .ok .grid ∧
    ∀ w', processIndices (indexFunction toyExt toyTrig 2000 2001) 2 id daysYear demoCmp (dailyArgs "spi" [3]) (gridDays 400) ≠ (.ok (), w') := by
  refine ⟨by decide +kernel, fun w' => C75_fails toyExt toyTrig 2000 2001 2 id daysYear demoCmp (dailyArgs "spi" [3]) (gridDays 400) w' toyExt_nan rfl (by decide)
    (A := 1) (b := 1) (n := 400) ⟨rfl, rfl, rfl, rfl, ?_, by decide, demo_notOutput _ (by decide)⟩ rfl rfl (by decide) (by decide) (by decide) (y0 := 2000) (y1 := 2001) ⟨_, .fin 0, .fin 399, rfl, rfl, ?_, rfl, rfl⟩ rfl (by decide)⟩
  · simp
  · decide +kernel

/-! ## C76: daily temperatures -/

/-- C76 (`_partial`: only `--index pet` is protected): daily temperatures are refused, nothing is written. -/
theorem C76_partial (K : Int → Job → List F → List F → Res (List F)) (wk : Nat) (lower : String → String) (yearOf : F → Int) (cmp : CoordCmp F) (a : CliArgs) (w : World F)
    (hi : a.index = "pet") (hper : a.periodicity = .daily) : ∃ e, processIndices K wk lower yearOf cmp a w = (.error e, w) := by
  have hv : validateArgs cmp w.files a = .error .valueError := by
    unfold validateArgs
    rw [if_neg (by simp [hi])]
    unfold validatePetTemp
    cases a.netcdfTemp with
    | none => rfl
    | some f => simp only [hper]; rfl
  refine ⟨.valueError, ?_⟩
  unfold processIndices
  show SE.bind getFiles _ w = _
  unfold SE.bind getFiles
  dsimp only
  show SE.bind (SE.lift _) _ w = _
  unfold SE.bind SE.lift
  rw [hv]

/-- **C76 is false.** For SPEI and for all scaled indices the validation accepts daily temperatures whenever it accepts monthly ones; and after every finished run on daily temperatures the
PET of day number `k` (in years of 366 days) is Thornthwaite's equation for calendar month `k % 12` of year `y0 + k / 12`, of the record in which every day is taken for a
month. -/
theorem C76_fails :
    (∀ (F : Type) [FloatOps F] (cmp : CoordCmp F) (fs : Files F) (a : CliArgs), a.index ≠ "pet" →
      validateArgs cmp fs { a with periodicity := .daily } = validateArgs cmp fs { a with periodicity := .monthly }) ∧
    (∀ (E : Ext (Fl ℝ)) (T : Trig (Fl ℝ)) (_ : TrigReal T) (cs ce : Int) (wk : Nat) (lower : String → String) (yearOf : Fl ℝ → Int) (cmp : CoordCmp (Fl ℝ)) (a : CliArgs) (w w' : World (Fl ℝ))
      (_ : processIndices (indexFunction E T cs ce) wk lower yearOf cmp a w = (.ok (), w')) (_ : a.index = "spei" ∨ a.index = "scaled") (_ : a.periodicity = .daily) (_ : a.netcdfPet = none)
      {f v : String} {d : NcFile (Fl ℝ)} {x xl : NcVar (Fl ℝ)} {A b n Y : Nat} (_ : Input w.files a.outputFileBase a.netcdfTemp a.varNameTemp f v d x)
      (_ : x.dims = ["lat", "lon", "time"]) (_ : x.shape = [A, b, n]) (_ : List.lookup "lat" d = some xl) {y0 y1 : Int} (_ : Years yearOf d y0 y1) (_ : y1 = y0 + Y - 1) (_ : n = yearsLen y0 Y),
      ∃ u cel, x.units = some u ∧ convertTemp (lower u) x.data = .ok cel ∧
        ∃ file y, w'.files (fileName a.outputFileBase Output.pet.name) = some file ∧ (Output.pet.name, y) ∈ file ∧ y.dims = x.dims ∧ y.shape = x.shape ∧
          ∀ i < A, ∀ k < b, ∃ p r, SameDays y0 Y (seriesAt b n i k cel) p ∧ SameDays y0 Y (seriesAt b n i k y.data) r ∧
            ∀ (t : List (Option ℝ)) (φ : ℝ), p = t.map toFl → xl.data[i]? = some (.fin φ) → -90 < φ → φ < 90 → (∀ j, j < 12 → monthValues t j ≠ []) → (∃ c : ℝ, some c ∈ t ∧ 0 < c) →
              r = t.zipIdx.map (fun q => toFl (q.1.map (thornthwaite t (φ * (Real.pi / 180)) y0 q.2)))) := by
  constructor
  · intro F _ cmp fs a hi
    unfold validateArgs
    rw [if_pos hi, if_pos hi]
    rfl
  · intro E T hT cs ce wk lower yearOf cmp a w w' h hi hper hnp f v d x xl A b n Y hin hdims hshape hlat y0 y1 hy hY hn
    obtain ⟨u, cel, k1, k2, file, y, k3, k4, k5, k6, k7⟩ := C66_pet E T cs ce wk lower yearOf cmp a w w' h (by rcases hi with hi | hi <;> rw [hi] <;> decide) hnp hin (A := A) (b := b) (n := n)
      (.inl ⟨hdims, hshape⟩) hlat hy
    refine ⟨u, cel, k1, k2, file, y, k3, k4, k5.1, k6.1, fun i hi' k hk => ?_⟩
    have k7 := k7 i hi' k hk
    unfold onSeries preparedFor at k7
    dsimp only at k7
    rw [if_neg (by rw [hdims]; simp), hper] at k7
    obtain ⟨p, p1, k7⟩ := Res.bind_ok k7
    obtain ⟨r, p2, k7⟩ := Res.bind_ok k7
    simp only [prepared, restored, if_true] at p1 k7
    rw [show (y1 - y0 + 1).toNat = Y by omega] at p1
    have hlen : (seriesAt b n i k cel).length = n := by
      refine seriesAt_len (it := .grid) (a := A) (.inl ⟨rfl, hshape⟩) ?_ hi' hk
      rw [convert_length.2.1 k2, hin.wf]
    obtain ⟨o, o1, o2, o3, o4⟩ := C02_layout _ y0 Y (hlen.trans hn)
    rw [p1] at o1
    cases o1
    have hr := pet_size T _ _ _ _ p2
    have := gregorian_days k7
    rw [hr, o2, Nat.mul_div_cancel_left _ (by omega)] at this
    refine ⟨p, r, ⟨hlen.trans hn, o2, o3⟩, this, ?_⟩
    intro t φ ht hφ h1 h2 hmon hpos
    have := C30_formula hT (Arr.of1d p) _ t ht (reshapeTo2d_of1d p 12 (by omega)) φ h1 h2 y0 hmon hpos
    rw [hφ, this] at p2
    cases p2
    rfl

/-- daily precipitation and daily temperatures of the year 2000 at one place -/
def petDays : World Q :=
  let coords : NcFile Q := [("lat", ⟨["lat"], [1], none, [.fin 40]⟩), ("lon", ⟨["lon"], [1], none, [.fin 0]⟩), ("time", ⟨["time"], [366], none, (List.range 366).map (fun (i : ℕ) => .fin (i : ℚ))⟩)]
  let var := fun u => (⟨["lat", "lon", "time"], [1, 1, 366], some u, (List.range 366).map (fun (i : ℕ) => .fin ((i % 7 : ℕ) : ℚ))⟩ : NcVar Q)
  ⟨fun f => if f = "p.nc" then some (("prcp", var "mm") :: coords) else if f = "t.nc" then some (("tavg", var "c") :: coords) else none, fun _ => none, []⟩

/-- such a run finishes -/
example : (processIndices (indexFunction toyExt toyTrig 2000 2000) 1 id daysYear demoCmp (dailyArgs "spei" [3]) petDays).1 = .ok () := by decide +kernel

end CI.Props
