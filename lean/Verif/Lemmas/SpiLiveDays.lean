import Verif.Lemmas.SpiLivePrepare
import Verif.Lemmas.CliLiveDaily
import Verif.Props.Daily

/-!
# Lemmas about when a run of the SPI tool on daily values finishes
-/

namespace CI
open Spec CI.Props

variable {F : Type} [FloatOps F] [FloatLaws F]

/-- what daily values of whole years need -/
theorem days_values {yearOf : F → Int} {lower : String → String} {a : SpiArgs} {w : World F} {d : NcFile F} {x t lat lon : NcVar F} {A B N Y : Nat} {mm : List F} {y0 : Int}
    (h : SpiSource lower yearOf a w d x t lat lon A B N mm y0) (hy : WholeYears yearOf a t N y0 Y) :
    (∀ d', List.lookup "time" d' = some t → ∃ v, dailyValues yearOf a.periodicity d' { x with data := mm } = .ok v) ∧
    (∀ vals, SpiValues yearOf a.periodicity t A B N mm vals → vals.shape = [A, B, Y * 366] ∧ vals.data.length = A * (B * (Y * 366)) ∧
      ∀ i < A, ∀ k < B, seriesAt B (Y * 366) i k vals.data = days366 (fun e g => (e + g) / lit 2) y0 Y (seriesAt B N i k mm)) ∧
    SpiShape a.periodicity x t lat lon y0 = [A, B, Y * 366] ∧
    ∀ rdat : List F, rdat.length = A * (B * (Y * 366)) → ∃ v, spiOutValues a.periodicity y0 N ⟨[A, B, Y * 366], rdat⟩ = .ok v ∧ v.shape = [A, B, N] := by
  obtain ⟨un, hun, hmm⟩ := h.units
  obtain ⟨t0, ht0, e0⟩ := h.first
  obtain ⟨t1, ht1, e1⟩ := hy.last
  obtain ⟨pA, pB⟩ := h.places
  have hY : (yearOf t1 - yearOf t0 + 1).toNat = Y := by rw [e0, e1]; omega
  have hml : mm.length = A * (B * N) := by rw [convertPrecip_length hmm, h.input.grid.2.2]
  have hser : ∀ i < A, ∀ k < B, transformTo366day (Arr.of1d (seriesAt B N i k mm)) y0 Y = .ok (days366 (fun e g => (e + g) / lit 2) y0 Y (seriesAt B N i k mm)) := by
    intro i hi k hk
    refine to366_ok _ _ _ ?_
    rw [← hy.whole]
    exact seriesAt_length hml hi hk
  refine ⟨?_, ?_, ?_, ?_⟩
  · intro d' hd'
    obtain ⟨p, hal⟩ := alongLast_exists (f := fun s => transformTo366day (Arr.of1d s) y0 Y) (m := Y * 366) hml pA pB (fun i hi k hk => ⟨_, hser i hi k hk⟩)
    refine ⟨⟨[A, B, Y * 366], p⟩, ?_⟩
    have f1 : firstYear yearOf d' = .ok y0 := by
      unfold firstYear NcFile.get getIdx
      rw [hd']
      cases htd : t.data with
      | nil => rw [htd] at ht0; simp at ht0
      | cons q l =>
        rw [htd] at ht0
        cases ht0
        simp only [bind, Except.bind, htd, ← e0]
        rfl
    have f2 : lastYear yearOf d' = .ok (y0 + Y - 1) := by
      unfold lastYear NcFile.get
      rw [hd']
      simp only [bind, Except.bind, ht1, orElseRaise, ← e1]
      rfl
    unfold dailyValues
    rw [hy.daily]
    simp only [f1, f2, bind, Except.bind]
    rw [if_neg (by omega), show (y0 + Y - 1 - y0 + 1).toNat = Y by omega, h.input.grid.2.1]
    exact hal
  · intro vals hv
    rw [hy.daily] at hv
    simp only [SpiValues] at hv
    obtain ⟨t0', t1', q1, q2, q3, q4, q5, q6, q7, q8⟩ := hv
    rw [ht0] at q1
    rw [ht1] at q2
    cases q1
    cases q2
    rw [hY] at q6 q7 q8
    refine ⟨q6, q7, fun i hi k hk => ?_⟩
    have := q8 i hi k hk
    rw [e0, hser i hi k hk, Except.ok.injEq] at this
    exact this.symm
  · rw [hy.daily]
    have hl : gregorianLengthAs366day N y0 = Y * 366 := by
      have := C03_announced y0 Y 0 (by unfold yearLen; split <;> omega)
      rw [hy.whole]
      simpa [Nat.mul_comm] using this
    simp only [SpiShape, h.input.lat.2.2, h.input.lon.2.2, h.input.time.2.2, hl]
  · intro rdat hr
    rw [hy.daily]
    simp only [spiOutValues]
    obtain ⟨out, ho⟩ := alongLast_exists (f := fun s => (do
      let g ← transformToGregorian (Arr.of1d s) y0
      if g.length = N then pure g else .error .valueError : Res (List F))) (m := N) hr pA pB (fun i hi k hk => by
        have hl := seriesAt_length hr hi hk
        refine ⟨calendarDays y0 Y (seriesAt B (Y * 366) i k rdat), ?_⟩
        rw [greg_ok _ y0 Y hl hy.years hy.dates.1 hy.dates.2]
        simp only [bind, Except.bind]
        rw [if_pos ((calendarDays_length _ y0 Y hl).trans hy.whole.symm)]
        rfl)
    exact ⟨_, ho, rfl⟩

/-- a run on the days of whole years -/
theorem spiRun_days {E : Ext F} (hE : ExtNan E) {yearOf : F → Int} {lower : String → String} {cs ce : Int} {base : String} {wk : Nat} (hwk : 1 ≤ wk) {a : SpiArgs} {w : World F}
    {d : NcFile F} {x t lat lon : NcVar F} {A B N Y : Nat} {mm : List F} {y0 : Int} (h : SpiDays lower yearOf a w d x t lat lon A B N mm y0 Y)
    {scales : List Int} (hs : a.scales = some scales) (hpos : ∀ s ∈ scales, 0 ≤ s) :
    ∃ f d' w0 w1 res w', spiMain E yearOf lower cs ce base wk a w = (res, w') ∧ w0.files = w.files ∧ w0.written = w.written ∧
      List.lookup "time" d' = some t ∧ List.lookup "lat" d' = some lat ∧ List.lookup "lon" d' = some lon ∧
      PairsOutcome E (spiJob a .grid f cs ce base wk) "day" y0 d' A B (Y * 366) [A, B, Y * 366] (fun i k => days366 (fun e g => (e + g) / lit 2) y0 Y (seriesAt B N i k mm)) [] (toolPairs scales) w0
        (res = .ok ()) w1 ∧
      ((res = .ok () ∧ ∃ g, spiSave (spiJob a .grid f cs ce base wk) g w1 = (.ok (), w')) ∨ ((∃ e, res = .error e) ∧ w' = w1)) := by
  obtain ⟨m1, m2, m3, m4⟩ := days_values h.toSpiSource h.toWholeYears
  exact spiRun_live_gen hE hwk h.toSpiUsable hs hpos (by rw [h.daily]; rfl) m1 m2 m3 (by simp) m4 rfl

end CI
