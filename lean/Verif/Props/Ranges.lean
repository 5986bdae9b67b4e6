import Verif.Model.Attributes
import Verif.Props.SpiBasic
import Verif.Props.CliCells
import Verif.Props.CliDaily
import Verif.Props.SpiToolRuns
import Verif.Props.Pnp
import Verif.Props.ExtendEto

/-!
# Property C108: written values lie in the declared valid range
-/

namespace CI.Props
open CI Spec

/-- a value is missing or in the range -/
def InRange {F : Type} [FloatOps F] (r : ℚ × ℚ) (v : F) : Prop := isNan v = true ∨ (fle (lit r.1) v = true ∧ fle v (lit r.2) = true)

section
variable {F : Type} [FloatOps F]

omit [FloatOps F] in
theorem mem_unconv (n : Nat) : ∀ (l : List F) (y : Int) (v : F), v ∈ unconv l y n → v ∈ l := by
  induction n with
  | zero => intro l y v h; cases h
  | succ n ih =>
    intro l y v h
    rcases List.mem_append.1 h with h | h
    · unfold unconvYear at h
      split at h
      · exact List.mem_of_mem_take h
      · rcases List.mem_append.1 h with h | h
        · exact List.mem_of_mem_take (List.mem_of_mem_take h)
        · exact List.mem_of_mem_take (List.mem_of_mem_drop h)
    · exact List.mem_of_mem_drop (ih _ _ v h)

theorem gregorian_mem {l g : List F} {y : Int} (h : transformToGregorian (Arr.of1d l) y = .ok g) : ∀ v ∈ g, v ∈ l := by
  obtain ⟨n, hn⟩ : ∃ n, l.length = n * 366 := ⟨l.length / 366, by have := (gregorian_length h).1; omega⟩
  have hd : l.length / 366 = n := by omega
  suffices g = unconv l y n by
    intro v hv
    rw [this] at hv
    exact mem_unconv n l y v hv
  unfold transformToGregorian at h
  rw [if_neg (by simp [Arr.of1d])] at h
  split at h
  · cases h
  have hd' : (Arr.of1d l).data.length / 366 = n := hd
  simp only [hd'] at h
  obtain ⟨last, h1, h⟩ := Res.bind_ok h
  obtain ⟨first, h2, h⟩ := Res.bind_ok h
  unfold mkDate at h1 h2
  split at h1
  · cases h1
    split at h2
    · cases h2
      rw [days_of_years, if_neg (by omega)] at h
      have := toGregLoop_full l n y [] 0 0 (by omega) rfl
      simp only [List.nil_append, List.drop_zero] at this
      simp only [Arr.of1d, Int.toNat_natCast] at h
      rw [this] at h
      cases h
      rfl
    · cases h2
  · cases h1

theorem restored_mem {per : Periodicity} {y : Int} {l g : List F} (h : restored per y l = .ok g) : ∀ v ∈ g, v ∈ l := by
  unfold restored at h
  split at h
  · exact gregorian_mem h
  · cases h; exact fun v hv => hv

/-- SPI is missing or in the range, also for an entirely missing series -/
theorem spi_range [FloatLaws F] {E : Ext F} {x : Arr F} {s : Int} {dist : Distribution} {ds cs ce : Int} {per : Periodicity} {fp : Option (FitDict F)} {out : List F}
    (h : spi E x s dist ds cs ce per fp = .ok out) : ∀ v ∈ out, InRange (-3.09, 3.09) v := by
  by_cases hn : ∃ v ∈ x.data, isNan v = false
  · exact C09_spi E x s dist ds cs ce per fp out hn h
  · intro v hv
    have hall : ∀ v ∈ x.data, isNan v = true := by
      intro u hu
      by_contra hc
      exact hn ⟨u, hu, by simpa using hc⟩
    obtain ⟨_, ⟨_, rfl⟩ | ⟨h1, _⟩⟩ := spi_inv E x s dist ds cs ce per fp out h
    · exact .inl (hall v hv)
    · rw [show allNan x.data = true from List.all_eq_true.2 hall] at h1
      cases h1

theorem spei_range [FloatLaws F] {E : Ext F} {x e : Arr F} {s : Int} {dist : Distribution} {per : Periodicity} {ds cs ce : Int} {fp : Option (FitDict F)} {out : Arr F}
    (h : spei E x e s dist per ds cs ce fp = .ok out) : ∀ v ∈ out.data, InRange (-3.09, 3.09) v := by
  by_cases hn : ∃ v ∈ x.data, isNan v = false
  · exact C09_spei E x e s dist per ds cs ce fp out hn h
  · intro v hv
    have hall : ∀ v ∈ x.data, isNan v = true := by
      intro u hu
      by_contra hc
      exact hn ⟨u, hu, by simpa using hc⟩
    rcases spei_inv E x e s dist per ds cs ce fp out h with ⟨_, rfl⟩ | ⟨h1, _⟩
    · exact .inl (hall v hv)
    · rw [show allNan x.data = true from List.all_eq_true.2 hall] at h1
      cases h1

omit [FloatOps F] in
/-- every value of an array belongs to the series of a place -/
theorem mem_seriesAt {A b n : Nat} {d : List F} (hd : d.length = A * (b * n)) {v : F} (hv : v ∈ d) : ∃ i < A, ∃ k < b, v ∈ seriesAt b n i k d := by
  obtain ⟨q, hq⟩ := List.mem_iff_getElem?.1 hv
  have hlt : q < A * (b * n) := by
    have := (List.getElem?_eq_some_iff.1 hq).1
    omega
  have hn : 0 < n := Nat.pos_of_ne_zero (by rintro rfl; simp at hlt)
  have hb : 0 < b := Nat.pos_of_ne_zero (by rintro rfl; simp at hlt)
  have hbn : 0 < b * n := Nat.mul_pos hb hn
  refine ⟨q / (b * n), Nat.div_lt_of_lt_mul (by rwa [Nat.mul_comm]), q / n % b, Nat.mod_lt _ hb, ?_⟩
  have e : (q / (b * n) * b + q / n % b) * n + q % n = q := by
    have h1 : q / (b * n) = q / n / b := by rw [Nat.mul_comm, Nat.div_div_eq_div_mul]
    have h2 : q / n / b * b + q / n % b = q / n := Nat.div_add_mod' _ _
    rw [h1, h2, Nat.div_add_mod']
  refine List.mem_iff_getElem?.2 ⟨q % n, ?_⟩
  unfold seriesAt
  rw [List.getElem?_take_of_lt (Nat.mod_lt _ hn), List.getElem?_drop, e, hq]

/-- a written variable with the given values at every place has all its values in a range, if the values at every place are -/
theorem holds_range {fs : Files F} {base : String} {o : Output} {d : NcFile F} {x : NcVar F} {A b n : Nat} {K : Nat → Nat → Res (List F)} {P : F → Prop}
    (hl : Layout x A b n) (h : Holds fs base o d x A b n K) (hK : ∀ i k l, K i k = .ok l → ∀ v ∈ l, P v) :
    ∃ file y, fs (fileName base o.name) = some file ∧ (o.name, y) ∈ file ∧ ∀ v ∈ y.data, P v := by
  obtain ⟨file, y, h1, h2, _, ⟨_, h4⟩, h5⟩ := h
  refine ⟨file, y, h1, h2, fun v hv => ?_⟩
  have hlen : y.data.length = A * (b * n) := by
    rw [h4]
    rcases hl with ⟨_, h⟩ | ⟨_, h, hb⟩
    · rw [h]; simp
    · rw [h, hb]; simp
  obtain ⟨i, hi, k, hk, hm⟩ := mem_seriesAt hlen hv
  exact hK i k _ (h5 i hi k hk) v hm

theorem onSeries_mem {dims : List String} {per : Periodicity} {y0 y1 : Int} {f : List F → Res (List F)} {l r : List F} {P : F → Prop}
    (h : onSeries dims per y0 y1 f l = .ok r) (hf : ∀ p q, f p = .ok q → ∀ v ∈ q, P v) : ∀ v ∈ r, P v := by
  unfold onSeries at h
  obtain ⟨p, _, h⟩ := Res.bind_ok h
  obtain ⟨q, h2, h⟩ := Res.bind_ok h
  exact fun v hv => hf p q h2 v (restored_mem h v hv)

theorem onSeries₂_mem {dims : List String} {per : Periodicity} {y0 y1 : Int} {f : List F → List F → Res (List F)} {l e r : List F} {P : F → Prop}
    (h : onSeries₂ dims per y0 y1 f l e = .ok r) (hf : ∀ p p' q, f p p' = .ok q → ∀ v ∈ q, P v) : ∀ v ∈ r, P v := by
  unfold onSeries₂ at h
  obtain ⟨p, _, h⟩ := Res.bind_ok h
  obtain ⟨p', _, h⟩ := Res.bind_ok h
  obtain ⟨q, h2, h⟩ := Res.bind_ok h
  exact fun v hv => hf p p' q h2 v (restored_mem h v hv)

/-- **C108, SPI.** Every value of the SPI variable that a finished run of the main tool has written is missing or lies in the valid range that the tool declares beside it. -/
theorem C108_spi [FloatLaws F] (E : Ext F) (hE : ExtNan E) (T : Trig F) (cs ce : Int) (wk : Nat) (lower : String → String) (yearOf : F → Int) (cmp : CoordCmp F) (a : CliArgs) (w w' : World F)
    (h : processIndices (indexFunction E T cs ce) wk lower yearOf cmp a w = (.ok (), w')) (hi : a.index = "spi" ∨ a.index = "scaled")
    {f v : String} {d : NcFile F} {x : NcVar F} {A b n : Nat} (hin : Input w.files a.outputFileBase a.netcdfPrecip a.varNamePrecip f v d x) (hl : Layout x A b n)
    {y0 y1 : Int} (hy : Years yearOf d y0 y1) (s : Int) (hs : s ∈ a.scales.getD []) (dist : Distribution) (hd : dist = .pearson ∨ dist = .gamma) :
    ∃ range file y, validRange "spi" = .ok range ∧ w'.files (fileName a.outputFileBase (Output.spi dist s.toNat).name) = some file ∧ ((Output.spi dist s.toNat).name, y) ∈ file ∧
      ∀ v ∈ y.data, InRange range v := by
  obtain ⟨u, mm, _, _, hh⟩ := C66_spi E hE T cs ce wk lower yearOf cmp a w w' h hi hin hl hy s hs dist hd
  obtain ⟨file, y, h1, h2, h3⟩ := holds_range (P := InRange (-3.09, 3.09)) hl hh (fun i k l hk => onSeries_mem hk (fun p q hq => spi_range hq))
  exact ⟨_, file, y, rfl, h1, h2, h3⟩

/-- **C108, SPEI** with a PET file. -/
theorem C108_spei_given [FloatLaws F] (E : Ext F) (hE : ExtNan E) (T : Trig F) (cs ce : Int) (wk : Nat) (lower : String → String) (yearOf : F → Int) (cmp : CoordCmp F) (a : CliArgs) (w w' : World F)
    (h : processIndices (indexFunction E T cs ce) wk lower yearOf cmp a w = (.ok (), w')) (hi : a.index = "spei" ∨ a.index = "scaled")
    {f v fe ve : String} {d de : NcFile F} {x xe : NcVar F} {A b n : Nat} (hin : Input w.files a.outputFileBase a.netcdfPrecip a.varNamePrecip f v d x) (hl : Layout x A b n)
    (hpet : Input w.files a.outputFileBase a.netcdfPet a.varNamePet fe ve de xe) (hle : Layout xe A b n) (hne : v ≠ ve) (hnone : List.lookup ve d = none ∨ List.lookup ve d = some xe)
    (hsame : SameCoords d de) {y0 y1 : Int} (hy : Years yearOf d y0 y1)
    (s : Int) (hs : s ∈ a.scales.getD []) (dist : Distribution) (hd : dist = .pearson ∨ dist = .gamma) :
    ∃ range file y, validRange "spei" = .ok range ∧ w'.files (fileName a.outputFileBase (Output.spei dist s.toNat).name) = some file ∧ ((Output.spei dist s.toNat).name, y) ∈ file ∧
      ∀ v ∈ y.data, InRange range v := by
  obtain ⟨u, mm, ue, pe, _, _, _, _, hh⟩ := C66_spei_given E hE T cs ce wk lower yearOf cmp a w w' h hi hin hl hpet hle hne hnone hsame hy s hs dist hd
  obtain ⟨file, y, h1, h2, h3⟩ := holds_range (P := InRange (-3.09, 3.09)) hl hh (fun i k l hk => onSeries₂_mem hk (fun p p' q hq => by
    cases hr : spei E (Arr.of1d p) (Arr.of1d p') s dist a.periodicity y0 cs ce none with
    | error e => rw [hr] at hq; cases hq
    | ok out => rw [hr] at hq; cases hq; exact spei_range hr))
  exact ⟨_, file, y, rfl, h1, h2, h3⟩

/-- **C108, SPEI** with PET computed from temperature. -/
theorem C108_spei_computed [FloatLaws F] (E : Ext F) (hE : ExtNan E) (T : Trig F) (cs ce : Int) (wk : Nat) (lower : String → String) (hlow : lower "millimeters" = "millimeters")
    (yearOf : F → Int) (cmp : CoordCmp F) (a : CliArgs) (w w' : World F)
    (h : processIndices (indexFunction E T cs ce) wk lower yearOf cmp a w = (.ok (), w')) (hi : a.index = "spei" ∨ a.index = "scaled") (hn : a.netcdfPet = none)
    {f v ft vt : String} {d dt : NcFile F} {x xt xl : NcVar F} {A b n : Nat} (hin : Input w.files a.outputFileBase a.netcdfPrecip a.varNamePrecip f v d x) (hl : Layout x A b n)
    (htemp : Input w.files a.outputFileBase a.netcdfTemp a.varNameTemp ft vt dt xt) (hlt : Layout xt A b n) (hlat : List.lookup "lat" dt = some xl)
    (hnone : List.lookup "pet_thornthwaite" d = none) (hnone' : List.lookup "pet_thornthwaite" dt = none) (hsame : SameCoords d dt)
    {y0 y1 : Int} (hy : Years yearOf d y0 y1) (hyt : Years yearOf dt y0 y1)
    (s : Int) (hs : s ∈ a.scales.getD []) (dist : Distribution) (hd : dist = .pearson ∨ dist = .gamma) :
    ∃ range file y, validRange "spei" = .ok range ∧ w'.files (fileName a.outputFileBase (Output.spei dist s.toNat).name) = some file ∧ ((Output.spei dist s.toNat).name, y) ∈ file ∧
      ∀ v ∈ y.data, InRange range v := by
  obtain ⟨u, mm, ut, cel, _, _, _, _, hh⟩ := C66_spei_computed E hE T cs ce wk lower hlow yearOf cmp a w w' h hi hn hin hl htemp hlt hlat hnone hnone' hsame hy hyt s hs dist hd
  obtain ⟨file, y, h1, h2, h3⟩ := holds_range (P := InRange (-3.09, 3.09)) hl hh (fun i k l hk => by
    obtain ⟨e, _, hk⟩ := Res.bind_ok hk
    exact onSeries₂_mem hk (fun p p' q hq => by
      cases hr : spei E (Arr.of1d p) (Arr.of1d p') s dist a.periodicity y0 cs ce none with
      | error e => rw [hr] at hq; cases hq
      | ok out => rw [hr] at hq; cases hq; exact spei_range hr))
  exact ⟨_, file, y, rfl, h1, h2, h3⟩

/-- **C108, the SPI tool**, monthly, parameters not loaded from a file. -/
theorem C108_tool_monthly [FloatLaws F] (E : Ext F) (hE : ExtNan E) (yearOf : F → Int) (lower : String → String) (cs ce : Int) (base : String) (wk : Nat) (a : SpiArgs) (w w' : World F)
    (hnew : w.shared = fun _ => none) (hload : a.loadParams = none) (hper : a.periodicity = .monthly)
    (h : spiMain E yearOf lower cs ce base wk a w = (.ok (), w')) {d : NcFile F} {x t lat lon : NcVar F} {A B N : Nat} (hin : SpiInput w.files a d x t lat lon A B N)
    {t0 : F} (ht0 : t.data.head? = some t0) {pre post : List Int} {s : Int} (hs : a.scales = some (pre ++ s :: post)) (hlast : s ∉ post)
    (dist : Distribution) (hd : dist = .gamma ∨ dist = .pearson) (hsave : a.saveParams ≠ some (fileName base (spiName dist s false))) :
    ∃ file y, w'.files (fileName base (spiName dist s false)) = some file ∧ List.lookup (spiName dist s false) file = some y ∧ ∀ v ∈ y.data, InRange spiValidRange v := by
  obtain ⟨u, mm, _, _, file, y, h1, _, _, _, h2, _, _, h3, h4⟩ := C68_monthly_partial E hE yearOf lower cs ce base wk a w w' hnew hload hper h hin ht0 hs hlast dist hd hsave
  refine ⟨file, y, h1, h2, fun v hv => ?_⟩
  obtain ⟨i, hi, k, hk, hm⟩ := mem_seriesAt h3 hv
  exact spi_range (h4 i hi k hk) v hm

/-- **C108, the SPI tool**, daily. -/
theorem C108_tool_daily [FloatLaws F] (E : Ext F) (hE : ExtNan E) (yearOf : F → Int) (lower : String → String) (cs ce : Int) (base : String) (wk : Nat) (a : SpiArgs) (w w' : World F)
    (hnew : w.shared = fun _ => none) (hload : a.loadParams = none) (hper : a.periodicity = .daily)
    (h : spiMain E yearOf lower cs ce base wk a w = (.ok (), w')) {d : NcFile F} {x t lat lon : NcVar F} {A B N : Nat} (hin : SpiInput w.files a d x t lat lon A B N)
    {t0 t1 : F} (ht0 : t.data.head? = some t0) (ht1 : t.data.getLast? = some t1) {pre post : List Int} {s : Int} (hs : a.scales = some (pre ++ s :: post)) (hlast : s ∉ post)
    (dist : Distribution) (hd : dist = .gamma ∨ dist = .pearson) (hsave : a.saveParams ≠ some (fileName base (spiName dist s true))) :
    ∃ file y, w'.files (fileName base (spiName dist s true)) = some file ∧ List.lookup (spiName dist s true) file = some y ∧ ∀ v ∈ y.data, InRange spiValidRange v := by
  obtain ⟨u, mm, _, _, file, y, h1, _, _, _, h2, _, _, h3, h4⟩ := C68_daily_partial E hE yearOf lower cs ce base wk a w w' hnew hload hper h hin ht0 ht1 hs hlast dist hd hsave
  refine ⟨file, y, h1, h2, fun v hv => ?_⟩
  obtain ⟨i, hi, k, hk, hm⟩ := mem_seriesAt h3 hv
  have h5 := h4 i hi k hk
  obtain ⟨p, _, h5⟩ := Res.bind_ok h5
  obtain ⟨q, h6, h5⟩ := Res.bind_ok h5
  exact spi_range h6 v (gregorian_mem h5 v hm)

/-- **C108, the SPI tool** with parameters loaded from a file, whatever the parameters. -/
theorem C108_tool_loaded [FloatLaws F] (E : Ext F) (hE : ExtNan E) (yearOf : F → Int) (lower : String → String) (cs ce : Int) (base : String) (wk : Nat) (a : SpiArgs) (w w' : World F)
    (hnew : w.shared = fun _ => none) {pf : String} (hload : a.loadParams = some pf) (h : spiMain E yearOf lower cs ce base wk a w = (.ok (), w'))
    {d : NcFile F} {x t lat lon : NcVar F} {A B N : Nat} (hin : SpiInput w.files a d x t lat lon A B N)
    {t0 t1 : F} (ht0 : t.data.head? = some t0) (ht1 : t.data.getLast? = some t1) {g : NcFile F} (hg : w.files pf = some g) {A' B' p : Nat}
    {pre post : List Int} {s : Int} (hs : a.scales = some (pre ++ s :: post)) (hlast : s ∉ post) (hpar : ParameterFile g (decide (a.periodicity = .daily)) (pre ++ s :: post) A' B' p)
    (dist : Distribution) (hd : dist = .gamma ∨ dist = .pearson) (hsave : a.saveParams = none) :
    ∃ file y, w'.files (fileName base (spiName dist s (decide (a.periodicity = .daily)))) = some file ∧
      List.lookup (spiName dist s (decide (a.periodicity = .daily))) file = some y ∧ ∀ v ∈ y.data, InRange spiValidRange v := by
  obtain ⟨_, u, mm, _, _, file, y, h1, _, _, _, h2, _, _, h3, h4⟩ := C72_position E hE yearOf lower cs ce base wk a w w' hnew hload h hin ht0 ht1 hg hs hlast hpar dist hd hsave
  refine ⟨file, y, h1, h2, fun v hv => ?_⟩
  obtain ⟨i, hi, k, hk, hm⟩ := mem_seriesAt h3 hv
  have h5 := h4 i hi k hk
  obtain ⟨p, _, h5⟩ := Res.bind_ok h5
  obtain ⟨q, h6, h5⟩ := Res.bind_ok h5
  exact spi_range h6 v (restored_mem h5 v hm)

end

/-- the finished run for all scaled indices of the small world is a case of the first theorem -/
example := C108_spi toyExt toyExt_nan toyTrig 2000 2000 2 id demoYear demoCmp (demoArgs "scaled" [1, 3]) demoWorld
  (processIndices (indexFunction toyExt toyTrig 2000 2000) 2 id demoYear demoCmp (demoArgs "scaled" [1, 3]) demoWorld).2
  (run_eq (by decide +kernel)) (.inr rfl) (f := "p.nc") (v := "prcp") (d := ("prcp", demoPrecip) :: demoCoords) (x := demoPrecip) (A := 1) (b := 2) (n := 12)
  ⟨rfl, rfl, rfl, rfl, rfl, by decide, demo_notOutput _ (by decide)⟩ (.inl ⟨rfl, rfl⟩) (y0 := 2000) (y1 := 2000) ⟨demoTime, .fin 0, .fin 11, rfl, rfl, rfl, rfl, rfl⟩ 3 (by decide)
  .gamma (.inr rfl)

/-- and the run of the SPI tool for scales 1 and 3 one of the theorem on that tool -/
example := C108_tool_monthly toyExt toyExt_nan rainYear id 2000 2001 "out" 2 (spiArgs [1, 3] (some "fit.nc") none) rainWorld rainAfter rfl rfl rfl rain_runs (rain_input _ _ _)
  (t0 := .fin 0) rfl (pre := [1]) (s := 3) (post := []) rfl (by simp) .pearson (.inr rfl) (by decide)

/-! ## PNP -/

section
variable {K : Type} [Field K] [LinearOrder K] [IsStrictOrderedRing K]

/-- a non-negative number or missing -/
def Amount (v : Fl K) : Prop := v = .nan ∨ ∃ a : K, 0 ≤ a ∧ v = .fin a

theorem fsum_amount (l : List (Fl K)) (h : ∀ v ∈ l, Amount v) : Amount (fsum l) := by
  show Amount (l.foldr Fl.add (.fin 0))
  induction l with
  | nil => exact Or.inr ⟨0, le_refl _, rfl⟩
  | cons a l ih =>
    rw [List.foldr_cons]
    rcases h a (by simp) with rfl | ⟨b, hb, rfl⟩
    · left; rfl
    · rcases ih (fun v hv => h v (List.mem_cons_of_mem _ hv)) with h' | ⟨c, hc, h'⟩
      · left; rw [h']; rfl
      · right; rw [h']; exact ⟨_, add_nonneg hb hc, rfl⟩

theorem sumToScale_amount (x s : List (Fl K)) (k : Int) (h : ∀ v ∈ x, Amount v) (hs : sumToScale x k = .ok s) : ∀ v ∈ s, Amount v := by
  unfold sumToScale at hs
  split at hs
  · cases hs; exact h
  · unfold convolveOnes at hs
    split at hs
    · cases hs
    · have key : ∀ r : List (Fl K), ((.ok r : Res (List (Fl K))) >>= fun slidingSums =>
          pure (List.replicate (k - 1).toNat nan ++ slidingSums)) = Except.ok s → (∀ v ∈ r, Amount v) →
          ∀ v ∈ s, Amount v := by
        intro r hr hall v hv
        simp only [bind, Except.bind, pure, Except.pure, Except.ok.injEq] at hr
        rw [← hr] at hv
        rcases List.mem_append.1 hv with hv | hv
        · left; exact (List.mem_replicate.1 hv).2
        · exact hall v hv
      simp only at hs
      split at hs
      · refine key _ hs ?_
        intro v hv
        obtain ⟨t, _, rfl⟩ := List.mem_map.1 hv
        apply fsum_amount
        intro w hw
        exact h w (List.mem_of_mem_drop (List.mem_of_mem_take hw))
      · refine key _ hs ?_
        intro v hv
        rw [(List.mem_replicate.1 hv).2]
        exact fsum_amount x h

/-- the mean of amounts: not above any of them times their number -/
theorem amounts_mean (l : List (Fl K)) (h : ∀ v ∈ l, Amount v) (m : K) (hm : nanmean l = .fin m) (a : K) (ha : Fl.fin a ∈ l) : a ≤ l.length * m := by
  obtain ⟨q, hq, -⟩ := filter_finOrNan l (fun v hv => (h v hv).imp id (fun ⟨a, _, e⟩ => ⟨a, e⟩)) id id rfl (fun _ => rfl)
  have hmean := nanmean_fin l q hq
  have hmem : a ∈ q := by
    have : Fl.fin a ∈ q.map Fl.fin := by rw [← hq]; exact List.mem_filter.2 ⟨ha, by simp⟩
    obtain ⟨b, hb, e⟩ := List.mem_map.1 this
    cases e
    exact hb
  have hq0 : q ≠ [] := List.ne_nil_of_mem hmem
  have hnn : ∀ b ∈ q, 0 ≤ b := by
    intro b hb
    have : Fl.fin b ∈ l := (List.mem_filter.1 (by rw [hq]; exact List.mem_map_of_mem hb : Fl.fin b ∈ l.filter (fun v => !isNan v))).1
    rcases h _ this with e | ⟨c, hc, e⟩
    · cases e
    · cases e; exact hc
  rw [if_neg hq0, hm, Fl.fin.injEq] at hmean
  have hl : (0 : K) < q.length := by
    have : 0 < q.length := List.length_pos_iff.2 hq0
    exact_mod_cast this
  have h1 : a ≤ q.sum := List.single_le_sum hnn a hmem
  have h2 : q.sum = q.length * m := by rw [hmean]; field_simp
  have h3 : q.length ≤ l.length := by
    have : (l.filter (fun v => !isNan v)).length = q.length := by rw [hq, List.length_map]
    rw [← this]
    exact List.length_filter_le _ _
  have h4 : 0 ≤ m := by rw [hmean]; exact div_nonneg (List.sum_nonneg hnn) hl.le
  calc a ≤ q.length * m := by rw [← h2]; exact h1
    _ ≤ l.length * m := mul_le_mul_of_nonneg_right (by exact_mod_cast h3) h4

/-- **C108, PNP** (`_partial`: of the values in the calibration years; the others have no upper bound, see `C108_pnp_fails`). For precipitation that is missing or not negative every
value is missing or not negative, and in the calibration years not above the number of calibration years; so with at most 1000 calibration years these values are in the declared range. -/
theorem C108_pnp_partial (x out : List (Fl K)) (k : Nat) (ds cs ce : Int) (per : Periodicity) (hper : per ≠ .other) (h1 : 1 ≤ k) (hx : x ≠ []) (hds : ds ≤ cs) (hce : cs ≤ ce)
    (hspan : (ce - cs + 1) * 12 ≤ x.length) (hamount : ∀ v ∈ x, Amount v) (hout : percentageOfNormal x (some k) ds cs ce per = .ok out) :
    (∀ v ∈ out, Amount v) ∧
    (∀ (i : ℕ) (v : Fl K), out[i]? = some v → (cs - ds) * pnpSteps per ≤ i → i < (ce - ds + 1) * pnpSteps per → v = .nan ∨ ∃ r : K, v = .fin r ∧ 0 ≤ r ∧ r ≤ ((ce - cs + 1 : ℤ) : K)) ∧
    (ce - cs + 1 ≤ 1000 → ∃ range, validRange "pnp" = .ok range ∧
      ∀ (i : ℕ) (v : Fl K), out[i]? = some v → (cs - ds) * pnpSteps per ≤ i → i < (ce - ds + 1) * pnpSteps per → InRange range v) := by
  obtain ⟨s', o', hs', ho', hl, hv⟩ := C28_ratio x k ds cs ce per hper h1 hx hds hce hspan
  rw [hout] at ho'
  cases ho'
  have hp := pnpSteps_pos per hper
  have hsum := sumToScale_amount x s' k hamount hs'
  have hval : ∀ (i : ℕ) (v : Fl K), out[i]? = some v → v = .nan ∨ ∃ a m r : K, s'[i]? = some (.fin a) ∧
      nanmean (calendarStepValues s' (pnpSteps per) (i % pnpSteps per) ds cs ce) = .fin m ∧ 0 < m ∧ 0 ≤ a ∧ v = .fin r ∧ r = a / m := by
    intro i v hi
    have hlt : i < s'.length := by
      have := (List.getElem?_eq_some_iff.1 hi).1
      omega
    have hsi := List.getElem?_eq_getElem hlt
    rw [hv i _ hsi] at hi
    simp only [Option.some.injEq] at hi
    have hcal : ∀ v ∈ calendarStepValues s' (pnpSteps per) (i % pnpSteps per) ds cs ce, FinOrNan v := by
      intro v hvm
      obtain ⟨y, _, hy⟩ := List.mem_filterMap.1 hvm
      exact (hsum v (List.mem_of_getElem? hy)).imp id (fun ⟨a, _, e⟩ => ⟨a, e⟩)
    obtain ⟨q, hq, -⟩ := filter_finOrNan _ hcal id id rfl (fun _ => rfl)
    have hmean := nanmean_fin _ q hq
    split at hmean
    · rw [hmean] at hi
      left
      rw [← hi]
      rfl
    · rw [hmean] at hi
      by_cases hpos : 0 < q.sum / q.length
      · rw [Fl.lit_def, Fl.flt_fin, if_pos (by simpa using hpos)] at hi
        rcases hsum _ (List.mem_of_getElem? hsi) with e | ⟨a, ha, e⟩
        · left; rw [← hi, e]; rfl
        · right
          refine ⟨a, q.sum / q.length, _, by rw [hsi, e], hmean, hpos, ha, ?_, rfl⟩
          rw [← hi, e, Fl.fin_div_of_ne _ _ hpos.ne']
      · left
        rw [Fl.lit_def, Fl.flt_fin, if_neg (by simpa using hpos)] at hi
        rw [← hi]
        rfl
  have hcalib : ∀ (i : ℕ) (v : Fl K), out[i]? = some v → (cs - ds) * pnpSteps per ≤ i → i < (ce - ds + 1) * pnpSteps per → v = .nan ∨ ∃ r : K, v = .fin r ∧ 0 ≤ r ∧ r ≤ ((ce - cs + 1 : ℤ) : K) := by
    intro i v hi hlo hhi
    rcases hval i v hi with h | ⟨a, m, r, hs, hm, hpos, ha, hvr, rfl⟩
    · exact .inl h
    · right
      refine ⟨_, hvr, div_nonneg ha hpos.le, ?_⟩
      rw [div_le_iff₀ hpos]
      have hmem : Fl.fin a ∈ calendarStepValues s' (pnpSteps per) (i % pnpSteps per) ds cs ce := by
        unfold calendarStepValues
        have hc : ((cs - ds).toNat : ℤ) = cs - ds := Int.toNat_of_nonneg (by omega)
        have hlo' : (cs - ds).toNat * pnpSteps per ≤ i := by
          have : (((cs - ds).toNat * pnpSteps per : ℕ) : ℤ) ≤ i := by push_cast; rw [hc]; exact hlo
          exact_mod_cast this
        have h2 : (cs - ds).toNat ≤ i / pnpSteps per := (Nat.le_div_iff_mul_le hp).2 hlo'
        have h3 : ((i / pnpSteps per : ℕ) : ℤ) < ce - ds + 1 := by
          have e : (ce - ds + 1) = ((ce - ds + 1).toNat : ℤ) := (Int.toNat_of_nonneg (by omega)).symm
          rw [e] at hhi ⊢
          have : i < (ce - ds + 1).toNat * pnpSteps per := by exact_mod_cast hhi
          exact_mod_cast (Nat.div_lt_iff_lt_mul hp).2 this
        refine List.mem_filterMap.2 ⟨i / pnpSteps per - (cs - ds).toNat, List.mem_range.2 (by omega), ?_⟩
        rw [show (cs - ds).toNat + (i / pnpSteps per - (cs - ds).toNat) = i / pnpSteps per by omega, Nat.div_add_mod', hs]
      have h5 := amounts_mean _ (fun v hvm => by
        obtain ⟨y, _, hy⟩ := List.mem_filterMap.1 hvm
        exact hsum v (List.mem_of_getElem? hy)) m hm a hmem
      refine h5.trans (mul_le_mul_of_nonneg_right ?_ hpos.le)
      have h6 : (calendarStepValues s' (pnpSteps per) (i % pnpSteps per) ds cs ce).length ≤ (ce - cs + 1).toNat := by
        unfold calendarStepValues
        exact (List.length_filterMap_le _ _).trans (by rw [List.length_range])
      have h7 : ((calendarStepValues s' (pnpSteps per) (i % pnpSteps per) ds cs ce).length : ℤ) ≤ ce - cs + 1 := by omega
      exact_mod_cast h7
  refine ⟨?_, hcalib, fun hc => ⟨_, rfl, fun i v hi hlo hhi => ?_⟩⟩
  · intro v hvm
    obtain ⟨i, hi⟩ := List.mem_iff_getElem?.1 hvm
    rcases hval i v hi with h | ⟨a, m, r, _, _, hpos, ha, hvr, rfl⟩
    · exact .inl h
    · exact .inr ⟨_, div_nonneg ha hpos.le, hvr⟩
  · rcases hcalib i v hi hlo hhi with rfl | ⟨r, rfl, h1, h2⟩
    · exact .inl rfl
    · right
      have h3 : r ≤ 1000 := h2.trans (by exact_mod_cast hc)
      rw [Fl.lit_def, Fl.lit_def, Fl.fle_fin, Fl.fle_fin, decide_eq_true_eq, decide_eq_true_eq]
      push_cast
      exact ⟨by linarith, h3⟩

end

/-- a record of two years: a year with 0.01 mm in every month and a year with 20 mm in every month; the first year is the calibration period -/
def dryWet : List Q := List.replicate 12 (.fin (1 / 100)) ++ List.replicate 12 (.fin 20)

def dryWetFile : NcFile Q := [("prcp", ⟨["lat", "lon", "time"], [1, 1, 24], some "mm", dryWet⟩), ("lat", ⟨["lat"], [1], none, [.fin 40]⟩), ("lon", ⟨["lon"], [1], none, [.fin 0]⟩),
  ("time", ⟨["time"], [24], none, (List.range 24).map (fun (i : ℕ) => .fin (i : ℚ))⟩)]

def dryWetWorld : World Q := ⟨fun f => if f = "p.nc" then some dryWetFile else none, fun _ => none, []⟩

def dryWetRun : Res Unit × World Q := processIndices (indexFunction toyExt toyTrig 2000 2000) 2 id rainYear demoCmp (demoArgs "pnp" [1]) dryWetWorld

/-- **C108 is false for PNP.** A finished run of the main tool whose output has the value 2000 in the second year. -/
theorem C108_pnp_fails : dryWetRun.1 = .ok () ∧ ∃ range file y, validRange "pnp" = .ok range ∧ dryWetRun.2.files "out_pnp_01.nc" = some file ∧ ("pnp_01", y) ∈ file ∧
    y.data[12]? = some (.fin 2000) ∧ ¬ InRange range (.fin 2000 : Q) := by
  refine ⟨by decide +kernel, _, (dryWetRun.2.files "out_pnp_01.nc").getD [], (List.lookup "pnp_01" ((dryWetRun.2.files "out_pnp_01.nc").getD [])).getD demoLat, rfl,
    by decide +kernel, by decide +kernel, by decide +kernel, ?_⟩
  unfold InRange
  decide +kernel

/-- the record meets the hypotheses of `C108_pnp_partial` -/
example : (Periodicity.monthly ≠ .other) ∧ dryWet ≠ [] ∧ ((2000 - 2000 + 1 : ℤ) * 12 ≤ dryWet.length) ∧ (∀ v ∈ dryWet, Amount v) ∧
    percentageOfNormal dryWet (some 1) 2000 2000 2000 .monthly = .ok (List.replicate 12 (.fin 1) ++ List.replicate 12 (.fin 2000)) := by
  refine ⟨by decide, by decide, by decide, ?_, by decide +kernel⟩
  intro v hv
  rcases List.mem_append.1 hv with h | h
  · exact .inr ⟨1 / 100, by norm_num, (List.mem_replicate.1 h).2⟩
  · exact .inr ⟨20, by norm_num, (List.mem_replicate.1 h).2⟩

/-! ## PET -/

section
open Fl
variable {T : Trig (Fl ℝ)}

/-- a year whose January has temperature `e` and whose other months are at the freezing point -/
def thaw (e : ℝ) : List (Option ℝ) := some e :: List.replicate 11 (some 0)

theorem monthValues_thaw (e : ℝ) (he : 0 ≤ e) (j : ℕ) (hj : j < 12) : monthValues (thaw e) j = if j = 0 then [e] else [0] := by
  unfold monthValues thaw
  interval_cases j <;> simp [List.range_succ, List.replicate, he]

theorem heat_thaw (e : ℝ) (he : 0 ≤ e) : heat (thaw e) = (e / 5) ^ (1.514 : ℝ) := by
  have hz : ((0 : ℝ) / 5) ^ (1.514 : ℝ) = 0 := by rw [zero_div, Real.zero_rpow (by norm_num)]
  unfold heat
  have : (List.range 12).map (fun j => (mean (monthValues (thaw e) j) / 5) ^ (1.514 : ℝ)) =
      (List.range 12).map (fun j => if j = 0 then (e / 5) ^ (1.514 : ℝ) else 0) := by
    refine List.map_congr_left (fun j hj => ?_)
    rw [monthValues_thaw e he j (List.mem_range.1 hj)]
    by_cases h : j = 0
    · simp [h, mean]
    · rw [if_neg h, if_neg h]
      simpa [mean] using hz
  rw [this]
  simp [List.range_succ]

/-- **C108 is false for PET**, and PET has no upper bound at all: at the equator, for every bound there is a year whose January is above freezing by at most five degrees, whose other
months are at the freezing point, and whose January has a potential evapotranspiration beyond the bound (the nearer to the freezing point, the larger). -/
theorem C108_pet_fails (hT : TrigReal T) (bound : ℝ) :
    ∃ (range : ℚ × ℚ) (e p : ℝ) (out : List (Fl ℝ)), validRange "pet" = .ok range ∧ 0 < e ∧ e ≤ 5 ∧
      pet T (Arr.of1d ((thaw e).map toFl)) (some (fin 0)) 2001 = .ok out ∧ out[0]? = some (fin p) ∧ bound < p ∧ ¬ InRange range (fin p) := by
  set M : ℝ := max bound 10000 with hM
  have hM1 : (1 : ℝ) ≤ M := le_trans (by norm_num) (le_max_right _ _)
  have hM0 : (0 : ℝ) < M := by linarith
  set B : ℝ := M ^ (2.5 : ℝ) with hB
  have hB1 : 1 ≤ B := Real.one_le_rpow hM1 (by norm_num)
  have hB0 : 0 < B := by linarith
  set u : ℝ := B ^ (-(1 / 0.514) : ℝ) with hu
  have hu0 : 0 < u := Real.rpow_pos_of_pos hB0 _
  have hu1 : u ≤ 1 := Real.rpow_le_one_of_one_le_of_nonpos hB1 (by norm_num)
  have he : (5 * u) / 5 = u := by ring
  have hI : heat (thaw (5 * u)) = u ^ (1.514 : ℝ) := by rw [heat_thaw _ (by positivity), he]
  have hI0 : 0 < u ^ (1.514 : ℝ) := Real.rpow_pos_of_pos hu0 _
  have hI1 : u ^ (1.514 : ℝ) ≤ 1 := Real.rpow_le_one hu0.le hu1 (by norm_num)
  have hratio : 10 * max (5 * u) 0 / heat (thaw (5 * u)) = 50 * B := by
    rw [hI, max_eq_left (by positivity)]
    have h1 : u ^ (1.514 : ℝ) = u * u ^ (0.514 : ℝ) := by
      rw [show (1.514 : ℝ) = 1 + 0.514 by norm_num, Real.rpow_add hu0, Real.rpow_one]
    have h2 : u ^ (0.514 : ℝ) = B⁻¹ := by
      rw [hu, ← Real.rpow_mul hB0.le, ← Real.rpow_neg_one]
      norm_num
    rw [h1, h2]
    field_simp
    norm_num
  have hexp : (0.4 : ℝ) ≤ expo (heat (thaw (5 * u))) := by
    rw [hI]
    unfold expo
    set i := u ^ (1.514 : ℝ)
    have h3 : 0 ≤ i ^ 3 := by positivity
    have h4 : i ^ 2 ≤ 1 := by nlinarith
    nlinarith
  have hpow : M ≤ (10 * max (5 * u) 0 / heat (thaw (5 * u))) ^ expo (heat (thaw (5 * u))) := by
    rw [hratio]
    calc M = B ^ (0.4 : ℝ) := by
          rw [hB, ← Real.rpow_mul hM0.le]
          norm_num
      _ ≤ (50 * B) ^ (0.4 : ℝ) := Real.rpow_le_rpow hB0.le (by linarith) (by norm_num)
      _ ≤ (50 * B) ^ expo (heat (thaw (5 * u))) := Real.rpow_le_rpow_of_exponent_le (by linarith) hexp
  have hdays : mdays (2001 + ((0 / 12 : ℕ) : ℤ)) (0 % 12) = 31 := by decide
  have hp : M < thornthwaite (thaw (5 * u)) (0 * (Real.pi / 180)) 2001 0 (5 * u) := by
    unfold thornthwaite
    rw [zero_mul, meanHours_equator _ _ (mdays_pos _ _), hdays]
    have : (0 : ℝ) < M := hM0
    push_cast
    nlinarith [hpow]
  have hr : ∃ r, reshapeTo2d (Arr.of1d ((thaw (5 * u)).map toFl)) 12 = .ok r := by
    unfold reshapeTo2d
    simp [Arr.of1d, thaw]
  obtain ⟨r, hr⟩ := hr
  refine ⟨_, 5 * u, _, _, rfl, by positivity, by linarith, C30_formula hT _ r (thaw (5 * u)) rfl hr 0 (by norm_num) (by norm_num) 2001 ?_ ⟨5 * u, by simp [thaw], by positivity⟩, rfl, ?_, ?_⟩
  · intro j hj
    rw [monthValues_thaw _ (by positivity) j hj]
    split <;> simp
  · exact lt_of_le_of_lt (le_max_left _ _) hp
  · rintro (h | ⟨_, h⟩)
    · cases h
    · rw [lit_real, Fl.fle_fin] at h
      have h1 : (10000 : ℝ) ≤ M := le_max_right _ _
      have h2 : ((10000 : ℚ) : ℝ) = 10000 := by norm_num
      simp only [decide_eq_true_eq, h2] at h
      linarith

end

end CI.Props
