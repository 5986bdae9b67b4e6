import Verif.Props.CliLiveDaily
import Verif.Props.PnpUnitRun64
import Verif.Lemmas.Lmoments64

/-!
# C147: percentage of normal of daily precipitation, from a file in any unit, in binary64 arithmetic

Three steps round: the conversion to millimetres, the mean that stands for 29 February in ordinary years, and the percentage of normal. The file is compared with the exact percentage of normal
of the amounts as they stand in the input file, with the exact mean for 29 February.
-/

namespace CI.Props

open CI FloatOps FloatLaws B64 Spec Spec.McKee

variable {σ : SumOrder}

/-! ## Lists that correspond -/

theorem forall₂_zipWith {α β : Type} {R S : α → β → Prop} {m : α → α → α} {m' : β → β → β} (hm : ∀ a b c d, R a c → R b d → S (m a b) (m' c d)) {l k : List α} {l' k' : List β}
    (h : List.Forall₂ R l l') : List.Forall₂ R k k' → List.Forall₂ S (List.zipWith m l k) (List.zipWith m' l' k') := by
  induction h generalizing k k' with
  | nil => intro _; exact .nil
  | cons h1 _ ih =>
    intro hk
    cases hk with
    | nil => exact .nil
    | cons g1 g2 => exact .cons (hm _ _ _ _ h1 g1) (ih g2)

theorem forall₂_days366 {α β : Type} {R S : α → β → Prop} (hRS : ∀ a b, R a b → S a b) {m : α → α → α} {m' : β → β → β} (hm : ∀ a b c d, R a c → R b d → S (m a b) (m' c d)) (n : ℕ) :
    ∀ (y : ℤ) {l : List α} {l' : List β}, List.Forall₂ R l l' → List.Forall₂ S (days366 m y n l) (days366 m' y n l') := by
  induction n with
  | zero => intro y l l' _; exact .nil
  | succ n ih =>
    intro y l l' h
    refine List.rel_append ?_ (ih (y + 1) (List.forall₂_drop _ h))
    have ht := List.forall₂_take (yearLen y) h
    unfold year366
    split
    · exact ht.imp hRS
    · refine List.rel_append (List.rel_append ((List.forall₂_take _ ht).imp hRS) ?_) ((List.forall₂_drop _ ht).imp hRS)
      exact forall₂_zipWith hm (List.forall₂_take _ (List.forall₂_drop _ ht)) (List.forall₂_take _ (List.forall₂_drop _ ht))

theorem forall₂_calendarDays {α β : Type} {R : α → β → Prop} (n : ℕ) : ∀ (y : ℤ) {l : List α} {l' : List β}, List.Forall₂ R l l' → List.Forall₂ R (calendarDays y n l) (calendarDays y n l') := by
  induction n with
  | zero => intro y l l' _; exact .nil
  | succ n ih =>
    intro y l l' h
    refine List.rel_append ?_ (ih (y + 1) (List.forall₂_drop _ h))
    have ht := List.forall₂_take 366 h
    unfold yearDays
    split
    · exact ht
    · exact List.rel_append (List.forall₂_take _ ht) (List.forall₂_drop _ ht)

/-! ## 29 February -/

theorem mean_near {c : ℕ} (hc : c ≤ 2 ^ 40) {lo hi : ℚ} (h1 : 1 / 10 ^ 100 ≤ lo) (h2 : hi ≤ 10 ^ 100) {x y : B64 σ} {x' y' : Fl ℚ} (h : Near c (2 * lo) hi x x') (h' : Near c (2 * lo) hi y y') :
    Near (c + 2) lo hi ((x + y) / CI.lit 2) ((x' + y') / CI.lit 2) := by
  rcases h with ⟨rfl, rfl⟩ | ⟨a, b, ha, rfl, hab, hl, hh⟩
  · left
    exact ⟨(congrArg (· / CI.lit 2) (FloatLaws.nan_add y)).trans (FloatLaws.nan_div _), (congrArg (· / CI.lit 2) (FloatLaws.nan_add y')).trans (FloatLaws.nan_div _)⟩
  rcases h' with ⟨rfl, rfl⟩ | ⟨a', b', ha', rfl, hab', hl', hh'⟩
  · left
    exact ⟨(congrArg (· / CI.lit 2) (FloatLaws.add_nan x)).trans (FloatLaws.nan_div _), (congrArg (· / CI.lit 2) (FloatLaws.add_nan (Fl.fin b : Fl ℚ))).trans (FloatLaws.nan_div _)⟩
  right
  have hb := hab.nonneg
  have hb' := hab'.nonneg
  have big : (2 : ℚ) * 10 ^ 100 ≤ 2 ^ (1000 : ℤ) := le_trans (mul_le_mul_of_nonneg_right (by norm_num) (by positivity)) ten_big
  have hsum : b + b' ≤ 2 ^ (1000 : ℤ) := by
    refine le_trans ?_ big
    rw [two_mul]
    exact add_le_add (hh.trans h2) (hh'.trans h2)
  obtain ⟨r, hr, hrc⟩ := add_close ha ha' hab hab' (by omega) hsum
  have l2 : ext (CI.lit 2 : B64 σ) = .fin 2 := natlit (k := 2) (by norm_num)
  have hlo : b + b' = 0 ∨ lo ≤ (b + b') / 2 := by
    rcases hl with h | h
    · rcases hl' with h' | h'
      · left; rw [h, h', add_zero]
      · right; linarith
    · right; linarith
  have hlo0 : (2 : ℚ) ^ (-1000 : ℤ) ≤ lo := by
    refine le_trans (le_trans small_lim ?_) h1
    exact one_div_le_one_div_of_le (by positivity) (le_trans (pow_le_pow_right₀ (by norm_num) (by norm_num)) (le_mul_of_one_le_left (by positivity) (by norm_num)))
  obtain ⟨s, hs, hsc⟩ := div_close (d := 0) hr l2 hrc (Close.refl (by norm_num : (0 : ℚ) ≤ 2)) (by norm_num) (by omega) (hlo.imp id hlo0.trans) (le_trans (half_le_self (add_nonneg hb hb')) hsum)
  refine ⟨s, (b + b') / 2, hs, ?_, hsc.mono (by omega), hlo.imp (fun h => by rw [h]; norm_num) id, ?_⟩
  · show (Fl.fin (b + b') : Fl ℚ) / Fl.fin 2 = _
    rw [Fl.fin_div_of_ne _ _ (by norm_num)]
  · rw [div_le_iff₀ (by norm_num), mul_two]
    exact add_le_add hh hh'

theorem mean_unit {k : ℚ} (hk : 0 < k) (a b : Fl ℚ) : (Fl.fin k * a + Fl.fin k * b) / CI.lit 2 = Fl.fin k * ((a + b) / CI.lit 2) := by
  rw [← mulc_add k hk]
  have hp : (Fl.fin k : Fl ℚ) * .pinf = .pinf := by
    show (Fl.infSign k : Fl ℚ) = _
    simp [Fl.infSign, hk, hk.ne']
  have hn : (Fl.fin k : Fl ℚ) * .ninf = .ninf := by
    show Fl.neg (Fl.infSign k : Fl ℚ) = _
    simp [Fl.infSign, hk, hk.ne', Fl.neg]
  have dp : (.pinf : Fl ℚ) / CI.lit 2 = .pinf := by decide
  have dn : (.ninf : Fl ℚ) / CI.lit 2 = .ninf := by decide
  cases a + b with
  | nan => rfl
  | ninf => rw [hn, dn, hn]
  | pinf => rw [hp, dp, hp]
  | fin q =>
    show (Fl.fin (k * q) : Fl ℚ) / Fl.fin 2 = Fl.fin k * (Fl.fin q / Fl.fin 2)
    rw [Fl.fin_div_of_ne _ _ (by norm_num), Fl.fin_div_of_ne _ _ (by norm_num)]
    show _ = Fl.fin (k * (q / 2))
    rw [mul_div_assoc]

theorem near_lower {l : List (B64 σ)} {l' : List (Fl ℚ)} {c : ℕ} {lo lo' hi : ℚ} (h : List.Forall₂ (Near c lo hi) l l') (hl : ∀ q, Fl.fin q ∈ l' → q = 0 ∨ lo' ≤ q) :
    List.Forall₂ (Near c lo' hi) l l' := by
  induction h with
  | nil => exact .nil
  | cons h1 _ ih =>
    refine .cons ?_ (ih fun q hq => hl q (List.mem_cons_of_mem _ hq))
    rcases h1 with h1 | ⟨a, b, ha, rfl, hc, _, hh⟩
    · exact .inl h1
    · exact .inr ⟨a, b, ha, rfl, hc, hl b List.mem_cons_self, hh⟩

/-- the converted amounts in years of 366 days -/
theorem place366_near (u : String) (k : ℚ) (hu : (u, k) ∈ precipUnits) (x : List (B64 σ))
    (hx : ∀ v ∈ x, v = .nan ∨ ∃ q, ext v = .fin q ∧ (q = 0 ∨ 2 / 10 ^ 100 ≤ q) ∧ q ≤ 10 ^ 98) (y : ℤ) (Y : ℕ) :
    0 < k ∧ ∃ mm, convertPrecip u x = .ok mm ∧ mm.length = x.length ∧
      List.Forall₂ (Near 4 (1 / 10 ^ 100) (10 ^ 100)) (place366 y Y mm) ((place366 y Y (x.map ext)).map (Fl.fin k * ·)) := by
  have hk1 : 1 ≤ k := by
    simp only [precipUnits, lengthUnits, List.mem_cons, Prod.mk.injEq, List.not_mem_nil, or_false] at hu
    rcases hu with ⟨_, rfl⟩ | ⟨_, rfl⟩ | ⟨_, rfl⟩ | ⟨_, rfl⟩ | ⟨_, rfl⟩ | ⟨_, rfl⟩ <;> norm_num
  have hx' : ∀ v ∈ x, v = .nan ∨ ∃ q, ext v = .fin q ∧ (q = 0 ∨ 1 / 10 ^ 100 ≤ q) ∧ q ≤ 10 ^ 98 := by
    intro v hv
    refine (hx v hv).imp id ?_
    rintro ⟨q, h1, h2, h3⟩
    exact ⟨q, h1, h2.imp id fun h => le_trans (by rw [div_le_div_iff_of_pos_right (by positivity)]; norm_num) h, h3⟩
  obtain ⟨hk, mm, hmm, hl, hn⟩ := convert_near u k hu x hx'
  refine ⟨hk, mm, hmm, hl, ?_⟩
  have hn' := near_lower (lo' := 2 * (1 / 10 ^ 100)) hn (by
    intro q hq
    rw [List.map_map, List.mem_map] at hq
    obtain ⟨v, hv, he⟩ := hq
    rcases hx v hv with rfl | ⟨p, h1, h2, _⟩
    · cases he
    · simp only [Function.comp_apply, h1] at he
      have : k * p = q := by cases he; rfl
      rw [← this]
      refine h2.imp (fun h => by rw [h, mul_zero]) fun h => ?_
      have hp : (0 : ℚ) ≤ p := le_trans (by positivity) h
      have := le_mul_of_one_le_left hp hk1
      have e : (2 : ℚ) * (1 / 10 ^ 100) = 2 / 10 ^ 100 := by ring
      rw [e]
      exact h.trans this)
  rw [place366, place366, ← days366_map (Fl.fin k * ·) (fun e g => (e + g) / CI.lit 2) (fun e g => (e + g) / CI.lit 2) (mean_unit hk)]
  refine forall₂_days366 (fun a b h => h.mono (by omega) ?_ le_rfl) (fun a b c d h h' => mean_near (by norm_num) le_rfl le_rfl h h') Y y hn'
  have : (0 : ℚ) ≤ 1 / 10 ^ 100 := by positivity
  linarith

/-- **C147.** For every accepted unit of precipitation, the percentage of normal of daily data that is computed in float64, after the conversion to millimetres and the filling of 29 February, differs
from the exact percentage of normal of the unconverted data by at most `3 (s + 4) + 2 C + 3` units of 2^-52, relative to it, and is missing exactly if that is; `s` is the number of days that are added
up, `C` the number of calibration years. -/
theorem C147_pnp (u : String) (k : ℚ) (hu : (u, k) ∈ precipUnits) (x : List (B64 σ)) (hx : ∀ v ∈ x, v = .nan ∨ ∃ q, ext v = .fin q ∧ (q = 0 ∨ 2 / 10 ^ 100 ≤ q) ∧ q ≤ 10 ^ 98)
    (y0 : ℤ) (Y : ℕ) (hY1 : 1 ≤ Y) (hl : x.length = yearsLen y0 Y) (s : ℕ) (h1 : 1 ≤ s) (hs : s ≤ 2 ^ 40) (cs ce : ℤ) (c1 : y0 ≤ cs) (c2 : cs ≤ ce) (c3 : ce < y0 + Y) (hY : ce - cs + 1 ≤ 2 ^ 40) :
    ∃ mm out exact, convertPrecip u x = .ok mm ∧ percentageOfNormal (place366 y0 Y mm) (some s) y0 cs ce .daily = .ok out ∧
      percentageOfNormal (place366 y0 Y (x.map ext)) (some s) y0 cs ce .daily = .ok exact ∧
      List.Forall₂ (Agree (3 * (s + 4) + 2 * (ce - cs + 1).toNat + 3)) (calendarDays y0 Y out) (calendarDays y0 Y exact) := by
  obtain ⟨hk, mm, hmm, hml, hn⟩ := place366_near u k hu x hx y0 Y
  have hlen : (place366 y0 Y mm).length = Y * 366 := days366_length mm y0 Y (hml.trans hl)
  obtain ⟨out, out', ho, ho', hlen', hv⟩ := pnp_nearC (by norm_num) hn s h1 hs (by
      intro h
      rw [h, List.length_nil] at hlen
      omega) .daily (by decide) y0 cs ce c1 c2 (by rw [hlen]; push_cast; omega) hY
  rw [C28_unit k hk] at ho'
  refine ⟨mm, out, out', hmm, ho, ho', forall₂_calendarDays Y y0 ?_⟩
  rw [List.forall₂_iff_get]
  exact ⟨hlen', fun i h h' => hv i _ _ (by simp) (by simp)⟩

/-! ## Runs -/

/-- the values `out` of the days of `Y` years from `y0` on are the exact percentage of normal of the amounts `raw` up to `3 (s + 4) + 2 C + 3` units 2^-52 (`C`: number of calibration years), missing where
that is; computed in years of 366 days, with the exact mean of 28 February and 1 March for the missing day; for amounts that are missing, zero, or between 2/10^100 and 10^98 -/
def FileRatioDaily64 (raw : List (B64 σ)) (s : ℕ) (y0 : ℤ) (Y : ℕ) (cs ce : ℤ) (out : List (B64 σ)) : Prop :=
  (∀ v ∈ raw, v = .nan ∨ ∃ q, ext v = .fin q ∧ (q = 0 ∨ 2 / 10 ^ 100 ≤ q) ∧ q ≤ 10 ^ 98) → s ≤ 2 ^ 40 → ce - cs + 1 ≤ 2 ^ 40 →
    ∃ exact : List (Fl ℚ), percentageOfNormal (days366 (fun a b => (a + b) / .fin 2) y0 Y (raw.map ext)) (some s) y0 cs ce .daily = .ok exact ∧
      List.Forall₂ (Agree (3 * (s + 4) + 2 * (ce - cs + 1).toNat + 3)) out (calendarDays y0 Y exact)

open Classical in
/-- **C147, runs.** The documented command line for the percentage of normal, for a file of daily precipitation of whole calendar years on a grid in any of the accepted units, in IEEE float64 arithmetic:
the tool ends without exception, writes one file per scale, changes no other file, and at every place the values are the percentage of normal of the amounts in the input file in the sense of
`FileRatioDaily64`, in which the unit does not occur. -/
theorem C147_run (E : Ext (B64 σ)) (hE : ExtNan E) (T : Trig (B64 σ)) (toInt : String → Option Int) (ht : ∀ n : Int, toInt (toString n) = some n) (cpus : Nat) (lower : String → String)
    (yearOf : B64 σ → Int) (cmp : CoordCmp (B64 σ)) (j : String → Bool) (c : MainCommand) (hc : Writable j c) (hi : c.args.index = "pnp") (cs ce : Int)
    (hcs : c.calibrationStart = some cs) (hce : c.calibrationEnd = some ce) (hcpu : 1 ≤ numberOfWorkers c.multiprocessing cpus) (w : World (B64 σ)) {f v : String} {d : NcFile (B64 σ)} {x : NcVar (B64 σ)}
    {A b n Y : Nat} {mm : List (B64 σ)} {y0 y1 : Int} (hM : DailyGrid lower yearOf c.args w f v d x A b n mm y0 y1 Y) (hfresh : w.shared "result_array" = none)
    (scales : List Nat) (hs : c.args.scales = some (scales.map Int.ofNat)) (hsc : ∀ s ∈ scales, 1 ≤ s ∧ s ≤ Y * 366) (c1 : y0 ≤ cs) (c2 : cs ≤ ce) (c3 : ce ≤ y1) :
    ∃ w', mainTool E T toInt cpus lower yearOf cmp (commandLine j c) w = (.ended (.ok ()), w') ∧
      w'.written = w.written ++ entries c.args.outputFileBase (pnpOutputs scales) ∧
      (∀ g, (∀ o ∈ pnpOutputs scales, g ≠ fileName c.args.outputFileBase o.name) → w'.files g = w.files g) ∧
      ∀ s ∈ scales, FileHolds w'.files (c.args.outputFileBase ++ "_" ++ ("pnp_" ++ twoDigits s) ++ ".nc") ("pnp_" ++ twoDigits s) d x A b n
          (fun i k out => FileRatioDaily64 (seriesAt b n i k x.data) s y0 Y cs ce out) := by
  have hdoc : documented c.args.index false scales = pnpOutputs scales := by rw [hi]; rfl
  have hy := hM.years
  have c3' : ce < y0 + Y := by omega
  have hmo : ∀ o, o ∈ pnpOutputs scales ↔ ∃ s ∈ scales, o = .pnp s := by
    intro o
    simp [pnpOutputs, eq_comm]
  have hlen : ∀ i < A, ∀ k < b, (seriesAt b n i k mm).length = yearsLen y0 Y := by
    intro i hi' k hk
    obtain ⟨u, hu, hcv⟩ := hM.ready.units
    obtain ⟨it, hl⟩ : ∃ it, IsLayout it x.shape A b n := by
      rcases hM.ready.layout with ⟨_, h⟩ | ⟨_, h, hb⟩
      · exact ⟨.grid, .inl ⟨rfl, h⟩⟩
      · exact ⟨.divisions, .inr ⟨rfl, h, hb⟩⟩
    rw [← hM.whole]
    exact seriesAt_len hl (by rw [convert_length.1 hcv]; exact hM.ready.input.wf) hi' hk
  have hall : ∀ o ∈ pnpOutputs scales, ComputableDaily E cs ce y0 Y mm A b n o := by
    intro o ho i hi' k hk
    obtain ⟨s, hs', rfl⟩ := (hmo o).1 ho
    exact (resultDaily_pnp E _ s y0 cs ce Y (hlen i hi' k hk)).2 ⟨c1, by push_cast; omega, .inr (hsc s hs')⟩
  rw [C106_given E T toInt cpus lower yearOf cmp (commandLine j c) w c (C105_main toInt ht j c hc) cs ce hcs hce]
  obtain ⟨res, w', h1, h2, h3, h4, h5⟩ := C122_run E hE T cs ce _ hcpu lower yearOf cmp c.args w (.inr hi) hM hfresh scales hs
  rw [hdoc] at h2 h3 h4 h5
  have htake : (pnpOutputs scales).takeWhile (fun o => decide (ComputableDaily E cs ce y0 Y mm A b n o)) = pnpOutputs scales := by
    rw [List.takeWhile_eq_self_iff]
    intro o ho
    exact decide_eq_true (hall o ho)
  rw [htake] at h3 h4 h5
  rw [h1]
  refine ⟨w', by rw [h2.2 hall], h3, h5, fun s hs' => ?_⟩
  obtain ⟨file, y, g1, g2, ⟨g3, g4⟩, ⟨g5, _⟩, g6⟩ := h4 (.pnp s) ((hmo _).2 ⟨s, hs', rfl⟩)
  have hn : (Output.pnp s).name = "pnp_" ++ twoDigits s := rfl
  rw [hn] at g1 g2
  refine ⟨file, y, g1, g2, g3, g5, g4, fun i hi' k hk => ?_⟩
  have hl := hlen i hi' k hk
  have hr := g6 i hi' k hk
  intro hx hk40 hY
  obtain ⟨u, _, hcv⟩ := hM.ready.units
  obtain ⟨kk, hkk⟩ := unit_known hcv
  have hcs' := convert_series hcv b n i k
  have hlx : (seriesAt b n i k x.data).length = yearsLen y0 Y := (convert_length.1 hcs').symm.trans hl
  obtain ⟨m1, o1, o2, p0, p1, p2, p3⟩ := C147_pnp (lower u) kk hkk (seriesAt b n i k x.data) hx y0 Y hy.2 hlx s (hsc s hs').1 hk40 cs ce c1 c2 c3' hY
  rw [hcs'] at p0
  cases p0
  refine ⟨o2, p2, ?_⟩
  unfold resultDaily at hr
  simp only [bind, Except.bind] at hr
  rw [p1] at hr
  simp only at hr
  split at hr
  · have he := Except.ok.inj hr
    beta_reduce
    rw [← he]
    exact p3
  · cases hr

/-! ## A run: the years 2000 to 2004, in inches, in every year the same amount on all days except 28 February -/

def fiveDaily64 : List (B64 leftToRight) :=
  let year (n : ℕ) (q : ℚ) : List (B64 leftToRight) := List.replicate 58 (CI.lit q) ++ [CI.lit 0.3] ++ List.replicate (n - 59) (CI.lit q)
  year 366 0 ++ year 365 0.1 ++ year 365 0.2 ++ year 365 0.4 ++ year 366 0.8

theorem fiveDaily64_length : fiveDaily64.length = 1827 := by
  simp only [fiveDaily64, List.length_append, List.length_replicate, List.length_cons, List.length_nil]

def exDayVar : NcVar (B64 leftToRight) := ⟨["lat", "lon", "time"], [1, 1, 1827], some "inches", fiveDaily64⟩

def exDayFile : NcFile (B64 leftToRight) := [("prcp", exDayVar), ("lat", ⟨["lat"], [1], none, [lit 45.5]⟩), ("lon", ⟨["lon"], [1], none, [lit 0]⟩), ("time", exTime 1827)]

def exDayWorld : World (B64 leftToRight) := ⟨fun g => if g = "p.nc" then some exDayFile else none, fun _ => none, []⟩

/-- days since 1 January 2000 (exact for the first and the last day) -/
def dayYear64 (v : B64 leftToRight) : Int :=
  match ext v with
  | .fin q => 2000 + ⌊q / 366⌋
  | _ => 0

theorem ex_day64 (index : String) : DailyGrid id dayYear64 (dailyArgs index [1]) exDayWorld "p.nc" "prcp" exDayFile exDayVar 1 1 1827 (fiveDaily64.map fun v => v * lit 25.4) 2000 2004 5 := by
  refine ⟨⟨⟨rfl, rfl, rfl, rfl, ?_, by decide, demo_notOutput _ (by decide)⟩, .inl ⟨rfl, rfl⟩, by decide, ?_, ?_, ⟨exTime 1827, lit ((0 : ℕ) : ℚ), lit ((1826 : ℕ) : ℚ), rfl, ?_, ?_, ?_, ?_⟩, ⟨"inches", rfl, ?_⟩⟩,
    rfl, by decide, rfl, by decide, by decide, by decide⟩
  · have h : exDayVar.data.length = 1827 := fiveDaily64_length
    simp [exDayVar] at h ⊢
    exact h
  · intro c hc
    rcases (show c = "lat" ∨ c = "lon" ∨ c = "time" by simpa [exDayVar] using hc) with rfl | rfl | rfl
    · exact ⟨_, rfl⟩
    · exact ⟨_, rfl⟩
    · exact ⟨_, rfl⟩
  · intro h
    exact absurd h (by simp [exDayVar])
  · simp [exTime, List.head?_range]
  · simp [exTime, List.getLast?_range]
  · decide +kernel
  · decide +kernel
  · unfold convertPrecip
    rw [if_neg (by decide), if_pos (by decide)]
    rfl

/-- C147 for this file -/
example (T : Trig (B64 leftToRight)) (cmp : CoordCmp (B64 leftToRight)) (toInt : String → Option Int) (ht : ∀ n : Int, toInt (toString n) = some n) :
    ∃ w' file y, mainTool nearIndex T toInt 1 id dayYear64 cmp (commandLine (fun _ => false) (dayCommand "pnp")) exDayWorld = (.ended (.ok ()), w') ∧
      w'.files "out_pnp_01.nc" = some file ∧ ("pnp_01", y) ∈ file ∧ FileRatioDaily64 fiveDaily64 1 2000 5 2000 2004 (seriesAt 1 1827 0 0 y.data) := by
  have hser : seriesAt 1 1827 0 0 exDayVar.data = fiveDaily64 := by
    show (fiveDaily64.drop 0).take 1827 = _
    rw [List.drop_zero, List.take_of_length_le fiveDaily64_length.le]
  obtain ⟨w', h1, _, _, h4⟩ := C147_run nearIndex nearIndex_nan T toInt ht 1 id dayYear64 cmp (fun _ => false) (dayCommand "pnp") (day_writable (by decide)) rfl
    2000 2004 rfl rfl (by decide) exDayWorld (ex_day64 "pnp") rfl [1] rfl (by decide) le_rfl (by norm_num) le_rfl
  obtain ⟨file, y, g1, g2, _, _, _, g6⟩ := h4 1 (by decide)
  have hn : "pnp_" ++ twoDigits 1 = "pnp_01" := by decide +kernel
  rw [hn] at g1 g2
  have := g6 0 (by decide) 0 (by decide)
  beta_reduce at this
  rw [hser] at this
  exact ⟨w', file, y, h1, g1, g2, this⟩

/-- its amounts are in the range, and the mean for 29 February 2001 is rounded: it is not the exact mean of the amounts of the days before and after -/
example : [(0 : ℚ), 0.1, 0.2, 0.3, 0.4, 0.8].all (fun a => match ext (lit a : B64 leftToRight) with
      | .fin q => (decide (q = 0) || decide (2 / 10 ^ 100 ≤ q)) && decide (q ≤ 10 ^ 98)
      | _ => false) = true ∧
    ext ((lit 0.3 + lit 0.1 : B64 leftToRight) / lit 2) ≠ (ext (lit 0.3 : B64 leftToRight) + ext (lit 0.1 : B64 leftToRight)) / .fin 2 := by
  decide +kernel

end CI.Props
