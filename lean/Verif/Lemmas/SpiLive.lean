import Verif.Lemmas.SpiRun
import Verif.Lemmas.CliLive

/-!
# Lemmas about when a run of the SPI tool finishes
-/

namespace CI
open Spec CI.Props

variable {F : Type} [FloatOps F]

/-! ## One series -/

theorem cellOp_fit_exists (E : Ext F) (dist : Distribution) (s : List F) (scale ds cs ce : Int) (per : Periodicity) {fp : FitDict F}
    (h : fitVal E dist s scale ds cs ce per = .ok fp) : ∃ r, cellOp (fitOp E dist scale ds cs ce per) s = .ok (fp, r) := by
  unfold cellOp
  cases dist with
  | other => cases h
  | gamma =>
    obtain ⟨h', g1, ex, g2⟩ := fitGammaH_spec E [s] ⟨0, [s.length]⟩ (Arr.of1d s) (of1d_arr s) (by simp) (of1d_WF s) scale ds cs ce per
    simp only [fitVal] at h
    simp only [fitOp, g1, h]
    exact ⟨_, rfl⟩
  | pearson =>
    obtain ⟨h', g1, ex, g2⟩ := fitPearsonH_spec E [s] ⟨0, [s.length]⟩ (Arr.of1d s) (of1d_arr s) (of1d_WF s) scale ds cs ce per
    simp only [fitVal] at h
    simp only [fitOp, g1, h]
    exact ⟨_, rfl⟩

theorem cellOp_spi_exists [FloatLaws F] (E : Ext F) (dist : Distribution) (s : List F) (scale ds cs ce : Int) (per : Periodicity) (fp : FitDict F) {out : List F}
    (h : spi E (Arr.of1d s) scale dist ds cs ce per (some fp) = .ok out) : ∃ r, cellOp (spiOp E dist scale ds cs ce per fp) s = .ok (out, r) := by
  unfold cellOp
  obtain ⟨res, h', g1, g2, ex, g3⟩ := spiH_spec E [s] ⟨0, [s.length]⟩ (Arr.of1d s) (of1d_arr s) (by simp) (of1d_WF s) scale dist ds cs ce per (some fp)
  cases res with
  | error e => rw [h] at g2; cases g2
  | ok r' =>
    have : spiOp E dist scale ds cs ce per fp ⟨0, [s.length]⟩ [s] = (.ok (h'.arr r').data, h') := by unfold spiOp; rw [H_bind_ok g1]; rfl
    rw [this]
    rw [h] at g2
    cases g2
    exact ⟨_, rfl⟩

omit [FloatOps F] in
theorem assign_self {p : Nat} {s : List F} (h : s.length = p) : assignSeries p s = .ok s := by
  unfold assignSeries
  rw [if_pos h]

/-- fitted parameters can be stored -/
theorem fit_storable {E : Ext F} {s : List F} {scale ds cs ce : Int} {per : Periodicity} {dist : Distribution} {fp : FitDict F} (hf : fitVal E dist s scale ds cs ce per = .ok fp) :
    ∃ ps, fp.mapM (fun kv => assignSeries per.steps (kv.2.getD [])) = .ok ps := by
  refine mapM_exists (fun kv hkv => ⟨kv.2.getD [], assign_self ?_⟩)
  cases dist with
  | other => cases hf
  | gamma =>
    simp only [fitVal, fitGammaVal] at hf
    obtain ⟨x, h1, hf⟩ := Res.bind_ok hf
    obtain ⟨ab, h2, hf⟩ := Res.bind_ok hf
    cases hf
    obtain ⟨l1, l2, hper⟩ := gammaParameters_length h1 h2
    simp only [List.mem_cons, List.not_mem_nil, or_false] at hkv
    rcases hkv with rfl | rfl
    · exact l1
    · exact l2
  | pearson =>
    simp only [fitVal, fitPearsonVal] at hf
    obtain ⟨x, h1, hf⟩ := Res.bind_ok hf
    obtain ⟨qs, h2, hf⟩ := Res.bind_ok hf
    cases hf
    obtain ⟨l1, hper⟩ := pearsonParameters_length h1 h2
    simp only [pearsonDict, List.mem_cons, List.not_mem_nil, or_false] at hkv
    rcases hkv with rfl | rfl | rfl | rfl <;> simpa using l1

/-! ## Stages -/

theorem fitRow_exists {E : Ext F} {dist : Distribution} {scale ds cs ce : Int} {per : Periodicity} {cols n : Nat} {row : List F}
    (h : ∀ k < cols, ∃ fp, fitVal E dist ((row.drop (k * n)).take n) scale ds cs ce per = .ok fp) :
    ∃ o, fitRow (fitOp E dist scale ds cs ce per) cols n per.steps row = .ok o := by
  obtain ⟨cells, hc⟩ := mapM_exists (l := List.range cols) (f := fun j => (do
    let r ← cellOp (fitOp E dist scale ds cs ce per) ((row.drop (j * n)).take n)
    let ps ← r.1.mapM (fun kv => assignSeries per.steps (kv.2.getD []))
    pure (r.2, ps) : Res (List F × List (List F)))) (fun k hk => by
      obtain ⟨fp, hf⟩ := h k (List.mem_range.1 hk)
      obtain ⟨r, hr⟩ := cellOp_fit_exists E dist _ scale ds cs ce per hf
      obtain ⟨ps, hps⟩ := fit_storable hf
      refine ⟨(r, ps), ?_⟩
      simp only [hr, bind, Except.bind, hps]
      rfl)
  refine ⟨((cells.map Prod.fst).flatten, cells.map Prod.snd), ?_⟩
  unfold fitRow
  rw [hc]
  rfl

theorem spiRow_exists [FloatLaws F] {E : Ext F} {dist : Distribution} {scale ds cs ce : Int} {per : Periodicity} {cols n i : Nat} {row : List F} {names : List String} {fits : List (Arr F)}
    (h : ∀ k < cols, ∃ ps out, fits.mapM (fun x => fitAt x i k) = .ok ps ∧
      spi E (Arr.of1d ((row.drop (k * n)).take n)) scale dist ds cs ce per (some (names.zip (ps.map some))) = .ok out ∧ out.length = n) :
    ∃ o, spiRow (spiOp E dist scale ds cs ce per) names fits cols n (i, row) = .ok o := by
  obtain ⟨cells, hc⟩ := mapM_exists (l := List.range cols) (f := fun k => (do
    let ps ← fits.mapM (fun x => fitAt x i k)
    let r ← cellOp (spiOp E dist scale ds cs ce per (names.zip (ps.map some))) ((row.drop (k * n)).take n)
    let o ← assignSeries n r.1
    pure (r.2, o) : Res (List F × List F))) (fun k hk => by
      obtain ⟨ps, out, h1, h2, h3⟩ := h k (List.mem_range.1 hk)
      obtain ⟨r, hr⟩ := cellOp_spi_exists E dist _ scale ds cs ce per _ h2
      refine ⟨(r, out), ?_⟩
      simp only [h1, bind, Except.bind, hr, assign_self h3]
      rfl)
  refine ⟨((cells.map Prod.fst).flatten, (cells.map Prod.snd).flatten), ?_⟩
  unfold spiRow
  rw [hc]
  rfl

/-- the six fitting arrays of a scale are there, on `a` × `b` places -/
def SixArrays (u : String) (p a b : Nat) (scale : Int) (sh : Dict (Arr F)) : Prop := ∀ v ∈ fittingVariables, ∃ x, sh (spiFitName u scale v) = some x ∧ x.shape = [a, b, p]

theorem fitStage_exists {E : Ext F} {j : SpiJob} {u : String} {ds scale : Int} {dist : Distribution} {sh : Dict (Arr F)} (hit : j.inputType = .grid) (hw : 1 ≤ j.workers)
    {a b n : Nat} {dat : List F} (hv : sh j.var = some ⟨[a, b, n], dat⟩) (hdat : dat.length = a * (b * n)) (h6 : SixArrays u j.per.steps a b scale sh)
    (h : ∀ i < a, ∀ k < b, ∃ fp, fitVal E dist (seriesAt b n i k dat) scale ds j.calStart j.calEnd j.per = .ok fp) : ∃ sh', fitStage E j u ds scale dist sh = .ok sh' := by
  obtain ⟨six, e6⟩ := mapM_exists (l := fittingVariables) (f := fun v => sh.at (spiFitName u scale v)) (fun v hv => by
    obtain ⟨x, hx, _⟩ := h6 v hv
    exact ⟨x, dictAt_some hx⟩)
  have hsix : ∀ x ∈ six, x.shape = [a, b, j.per.steps] := by
    intro x hx
    obtain ⟨v, hv, h2⟩ := mapM_mem e6 x hx
    obtain ⟨y, hy, hs⟩ := h6 v hv
    rw [dictAt_some hy] at h2
    cases h2
    exact hs
  obtain ⟨fits, ef⟩ := mapM_exists (l := distVars dist) (f := fun v => sh.at (spiFitName u scale v)) (fun v hv => by
    obtain ⟨x, hx, _⟩ := h6 v (distVars_fitting hv)
    exact ⟨x, dictAt_some hx⟩)
  have hlen := mapM_len e6
  obtain ⟨first, rest, rfl⟩ : ∃ x l, six = x :: l := by
    cases six with
    | nil => simp [fittingVariables] at hlen
    | cons x l => exact ⟨x, l, rfl⟩
  have hfirst : first.shape = [a, b, j.per.steps] := hsix first (by simp)
  have hany : ((first :: rest).any fun x => x.shape != [a, b, j.per.steps]) = false := by
    rw [List.any_eq_false]
    intro x hx
    rw [hsix x hx]
    simp
  unfold fitStage
  rw [e6]
  simp only [bind, Except.bind, getIdx, List.getElem?_cons_zero, hany, Bool.false_eq_true, if_false, hfirst, List.head?_cons, orElseRaise, spiChunks_spec a j.workers hw,
    dictAt_some hv, ef, hit, and_self, if_true]
  obtain ⟨out, ho⟩ := applyChunks_exists (rows := rowsOf a dat) (g := fun rs => rs.mapM (fitRow (fitOp E dist scale ds j.calStart j.calEnd j.per) b n j.per.steps))
    (fun l hl => mapM_exists (fun r hr => by
      obtain ⟨i, hi, hri⟩ := List.mem_iff_getElem.1 (hl r hr)
      have hia : i < a := by simpa [rowsOf_length] using hi
      have hrow := rowsOf_get hdat i hia
      rw [List.getElem?_eq_getElem hi, hri] at hrow
      cases hrow
      refine fitRow_exists (fun k hk => ?_)
      rw [row_series b n i k hk]
      exact h i hia k hk)) (if a < j.workers then smallChunks a else regularChunks a j.workers)
    ((List.range a).map (fun i => (((rowsOf a dat)[i]?).getD [], (List.range b).map (fun k => fits.map (fun x => (x.data.drop ((i * b + k) * j.per.steps)).take j.per.steps)))))
  rw [ho]
  exact ⟨_, rfl⟩

theorem spiStage_exists [FloatLaws F] {E : Ext F} {j : SpiJob} {u : String} {ds scale : Int} {dist : Distribution} {sh : Dict (Arr F)} (hit : j.inputType = .grid) (hw : 1 ≤ j.workers)
    {a b n : Nat} {dat : List F} (hv : sh j.var = some ⟨[a, b, n], dat⟩) (hdat : dat.length = a * (b * n)) {res : Arr F} (hres : sh keyResult = some res) {n0 : Nat} (hn0 : res.shape.head? = some n0)
    (hlen : res.data.length = a * (b * n)) {fits : List (Arr F)} (hf : (distVars dist).mapM (fun v => sh.at (spiFitName u scale v)) = .ok fits)
    (h : ∀ i < a, ∀ k < b, ∃ ps out, fits.mapM (fun x => fitAt x i k) = .ok ps ∧
        spi E (Arr.of1d (seriesAt b n i k dat)) scale dist ds j.calStart j.calEnd j.per (some ((distVars dist).zip (ps.map some))) = .ok out ∧ out.length = n) :
    ∃ sh', spiStage E j u ds scale dist sh = .ok sh' := by
  unfold spiStage
  simp only [dictAt_some hres, bind, Except.bind, hn0, orElseRaise, spiChunks_spec n0 j.workers hw, dictAt_some hv, hf, hlen, hdat, ne_eq, not_true_eq_false, if_false, hit]
  obtain ⟨out, ho⟩ := applyChunks_exists (rows := (List.range a).zip (rowsOf a dat)) (g := fun rs => rs.mapM (spiRow (spiOp E dist scale ds j.calStart j.calEnd j.per) (distVars dist) fits b n))
    (fun l hl => mapM_exists (fun r hr => by
      obtain ⟨i, hi, hri⟩ := List.mem_iff_getElem.1 (hl r hr)
      have hia : i < a := by
        rw [List.length_zip, List.length_range, rowsOf_length, Nat.min_self] at hi
        exact hi
      have e := List.getElem?_eq_getElem hi
      rw [hri, List.getElem?_zip_eq_some, rowsOf_get hdat i hia] at e
      obtain ⟨e1, e2⟩ := e
      obtain ⟨r1, r2⟩ := r
      simp only [List.getElem?_range hia, Option.some.injEq] at e1 e2
      subst e1 e2
      refine spiRow_exists (fun k hk => ?_)
      rw [row_series b n i k hk]
      exact h i hia k hk)) (if n0 < j.workers then smallChunks n0 else regularChunks n0 j.workers)
    ((rowsOf a dat).zip (rowsOf a res.data))
  rw [ho]
  exact ⟨_, rfl⟩

/-! ## One scale and distribution -/

variable [FloatLaws F]

/-- what holds of the dictionary in the course of the loop, after the pairs `done` -/
structure Live (j : SpiJob) (u : String) (SS : List Int) (a b n : Nat) (shape : List Nat) (S : Nat → Nat → List F) (done : List (Int × Distribution)) (sh : Dict (Arr F)) : Prop where
  cells : CellsAre j.var a b n shape (fun i k => cellAfter (S i k) j.per done) sh
  res : ∃ res, sh keyResult = some res ∧ res.data.length = a * (b * n)
  six : ∀ s ∈ SS, SixArrays u j.per.steps a b s sh

/-- the parameters of a scale and distribution can be fitted and its SPI computed at every place -/
def PairFine (E : Ext F) (j : SpiJob) (ds : Int) (a b : Nat) (S : Nat → Nat → List F) (done : List (Int × Distribution)) (sd : Int × Distribution) : Prop :=
  ∀ i < a, ∀ k < b, (∃ fp, fitVal E sd.2 (cellAfter (S i k) j.per done) sd.1 ds j.calStart j.calEnd j.per = .ok fp) ∧
    ∃ out, spi E (Arr.of1d (cellAfter (S i k) j.per (done ++ [sd]))) sd.1 sd.2 ds j.calStart j.calEnd j.per none = .ok out

theorem spiCompute_exists {E : Ext F} (hE : ExtNan E) {j : SpiJob} (hload : j.load = none) (hit : j.inputType = .grid) (hw : 1 ≤ j.workers) {u : String} {ds : Int} {d : NcFile F}
    {sd : Int × Distribution} {sh : Dict (Arr F)} {SS : List Int} (hs : sd.1 ∈ SS)
    (hvar : ∀ s, ∀ v ∈ fittingVariables, j.var ≠ spiFitName u s v) (hres : j.var ≠ keyResult) (hfr : ∀ s, ∀ v ∈ fittingVariables, keyResult ≠ spiFitName u s v) {a b n : Nat}
    {shape : List Nat} {n0 : Nat} (hn0 : shape.head? = some n0) {S : Nat → Nat → List F} {done : List (Int × Distribution)} (hc : Live j u SS a b n shape S done sh)
    (hbuild : ∀ rdat : List F, rdat.length = a * (b * n) → ∃ new, buildSpiGrid j.per ds d (spiOutName sd.2 sd.1 u) ⟨shape, rdat⟩ = .ok new) (hfine : PairFine E j ds a b S done sd) :
    ∃ r, spiCompute E j u ds d sd.1 sd.2 sh = .ok r := by
  obtain ⟨scale, dist⟩ := sd
  obtain ⟨⟨⟨dat, c1, c2, c3⟩, res0, c4, c5⟩, ⟨res, c6, c7⟩, h6⟩ := hc
  rw [c4] at c6
  cases c6
  have hfit : ∀ i < a, ∀ k < b, ∃ fp, fitVal E dist (seriesAt b n i k dat) scale ds j.calStart j.calEnd j.per = .ok fp := by
    intro i hi k hk
    rw [c3 i hi k hk]
    exact (hfine i hi k hk).1
  obtain ⟨sh1, h1⟩ := fitStage_exists hit hw c1 c2 (h6 scale hs) hfit
  obtain ⟨_, p, dat1, ys, hsix, f1, f2, f3, f4, f5, f6⟩ := fitStage_ok (hvar scale) c1 c2 h1
  have hkr : sh1 keyResult = some res0 := by rw [f6 _ (Ne.symm hres) (fun v hv => hfr scale v (distVars_fitting hv)), c4]
  have hylen : ∀ q < (distVars dist).length, ∃ v y, (distVars dist)[q]? = some v ∧ ys[q]? = some y ∧ sh1 (spiFitName u scale v) = some ⟨[a, b, p], y⟩ ∧ y.length = a * (b * p) := by
    intro q hq
    obtain ⟨y, e1, e2, e3⟩ := f4 q _ (List.getElem?_eq_getElem hq)
    exact ⟨_, y, List.getElem?_eq_getElem hq, e1, e2, e3⟩
  obtain ⟨fits, hfits⟩ := mapM_exists (l := distVars dist) (f := fun v => sh1.at (spiFitName u scale v)) (fun v hv => by
    obtain ⟨q, hq⟩ := List.getElem?_of_mem hv
    obtain ⟨y, _, e2, _⟩ := f4 q v hq
    exact ⟨_, dictAt_some e2⟩)
  have hfe : fits = ys.map (fun y => (⟨[a, b, p], y⟩ : Arr F)) := by
    have hl := mapM_len hfits
    apply List.ext_getElem?
    intro q
    by_cases hq : q < (distVars dist).length
    · obtain ⟨v, y, e1, e2, e3, _⟩ := hylen q hq
      obtain ⟨x, hx, e4⟩ := mapM_get hfits q v e1
      have e4 := dictAt_ok e4
      rw [e3] at e4
      cases e4
      rw [hx, List.getElem?_map, e2]
      rfl
    · rw [List.getElem?_eq_none (by omega), List.getElem?_eq_none (by simp; omega)]
  have hat : ∀ i < a, ∀ k < b, fits.mapM (fun x => fitAt x i k) = .ok (ys.map (fun y => seriesAt b p i k y)) := by
    intro i hi k hk
    rw [hfe, mapM_eq_map (g := fun x => seriesAt b p i k x.data), List.map_map]
    · rfl
    · intro x hx
      obtain ⟨y, hy, rfl⟩ := List.mem_map.1 hx
      simp only [fitAt, hi, hk, and_self, if_true]
      rfl
  obtain ⟨sh2, h2⟩ := spiStage_exists (E := E) (ds := ds) (scale := scale) (dist := dist) hit hw f1 f2 hkr (by rw [c5]; exact hn0) c7 hfits (fun i hi k hk => by
    obtain ⟨k1, fp, k2, k3⟩ := f5 i hi k hk
    obtain ⟨_, hz⟩ := fit_stored k2 k3
    obtain ⟨q1, _⟩ := spi_fitted E hE _ scale ds j.calStart j.calEnd j.per dist fp k2 _ k1
    obtain ⟨_, out, ho⟩ := hfine i hi k hk
    have ho' : spi E (Arr.of1d (seriesAt b n i k dat1)) scale dist ds j.calStart j.calEnd j.per none = .ok out := by
      rw [k1, c3 i hi k hk, cellAfter_step]
      exact ho
    refine ⟨_, out, hat i hi k hk, ?_, ?_⟩
    · rw [hz, q1, ho']
    · rw [C10_size E hE _ _ _ _ _ _ _ _ _ ho']
      exact seriesAt_length f2 hi hk)
  obtain ⟨_, res', _, dat', rdat, g1, g1', g2, g3, g4, g5, g6, g7, g8⟩ := spiStage_ok hres f1 f2 h2
  rw [hkr] at g1
  cases g1
  rw [c5] at g5
  obtain ⟨new, hnew⟩ := hbuild rdat g6
  unfold spiCompute spiFit
  rw [hload]
  simp only [h1, bind, Except.bind, h2, dictAt_some g5, hnew]
  exact ⟨_, rfl⟩

/-- one scale and distribution: it finishes exactly if the parameters and the SPI of all places can be computed; otherwise nothing is changed -/
theorem spiPair_live {E : Ext F} (hE : ExtNan E) {j : SpiJob} (hload : j.load = none) (hit : j.inputType = .grid) (hw : 1 ≤ j.workers) {u : String} {ds : Int} {d : NcFile F}
    {sd : Int × Distribution} {w : World F} {SS : List Int} (hs : sd.1 ∈ SS)
    (hvar : ∀ s, ∀ v ∈ fittingVariables, j.var ≠ spiFitName u s v) (hres : j.var ≠ keyResult) (hfr : ∀ s, ∀ v ∈ fittingVariables, keyResult ≠ spiFitName u s v) {a b n : Nat}
    (ha : 0 < a) (hb : 0 < b)
    {shape : List Nat} {n0 : Nat} (hn0 : shape.head? = some n0) {S : Nat → Nat → List F} {done : List (Int × Distribution)} (hc : Live j u SS a b n shape S done w.shared)
    (hbuild : ∀ rdat : List F, rdat.length = a * (b * n) → ∃ new, buildSpiGrid j.per ds d (spiOutName sd.2 sd.1 u) ⟨shape, rdat⟩ = .ok new) :
    (PairFine E j ds a b S done sd → ∃ w', spiPair E j u ds d sd w = (.ok (), w') ∧ Live j u SS a b n shape S (done ++ [sd]) w'.shared ∧
      OutHolds E j u ds d a b n shape sd.1 sd.2 (fun i k => cellAfter (S i k) j.per (done ++ [sd])) w'.files ∧
      (∀ f, f ≠ spiOutFile j.base u sd.1 sd.2 → w'.files f = w.files f) ∧ w'.written = w.written ++ [(spiOutFile j.base u sd.1 sd.2, spiOutName sd.2 sd.1 u)]) ∧
    (¬ PairFine E j ds a b S done sd → ∃ e, spiPair E j u ds d sd w = (.error e, w)) := by
  constructor
  · intro hfine
    obtain ⟨⟨sh', name, new⟩, hr⟩ := spiCompute_exists hE hload hit hw hs hvar hres hfr hn0 hc hbuild hfine
    have hp : spiPair E j u ds d sd w = (.ok (), writeFile (j.base ++ "_" ++ name ++ ".nc") name new { w with shared := sh' }) := by
      unfold spiPair
      rw [hr]
    obtain ⟨dat, c1, c2, c3⟩ := hc.cells.1
    obtain ⟨_, hname, dat', res, rdat, g1, g2, g3, g3', g4, g5, g6, g7, g8, g9⟩ := spiCompute_ok hE hload (hvar sd.1) hres (hfr sd.1) c1 c2 hr
    obtain ⟨_, o1, o2, o3, o4, o5, _⟩ := spiPair_ok hE hload hvar hres hfr hc.cells hp
    subst hname
    refine ⟨_, hp, ⟨o1, ⟨_, g4, g5⟩, ?_⟩, o2, o4, rfl⟩
    intro s hs' v hv
    by_cases hk : ∃ v' ∈ distVars sd.2, spiFitName u s v = spiFitName u sd.1 v'
    · obtain ⟨v', hv', e⟩ := hk
      obtain ⟨y, e1, _⟩ := o3 ha hb v' hv'
      exact ⟨_, by rw [e]; exact e1, rfl⟩
    · obtain ⟨x, hx, hsx⟩ := hc.six s hs' v hv
      refine ⟨x, ?_, hsx⟩
      rw [o5 _ (fun h => hvar s v hv h.symm) (fun h => hfr s v hv h.symm) (fun v' hv' e => hk ⟨v', hv', e⟩)]
      exact hx
  · intro hnot
    cases hcomp : spiCompute E j u ds d sd.1 sd.2 w.shared with
    | error e =>
      refine ⟨e, ?_⟩
      unfold spiPair
      rw [hcomp]
    | ok r =>
      exfalso
      obtain ⟨sh', name, new⟩ := r
      have hp : spiPair E j u ds d sd w = (.ok (), writeFile (j.base ++ "_" ++ name ++ ".nc") name new { w with shared := sh' }) := by
        unfold spiPair
        rw [hcomp]
      obtain ⟨_, o1, ⟨rdat, new', _, _, _, o2⟩, o3, _⟩ := spiPair_ok hE hload hvar hres hfr hc.cells hp
      apply hnot
      intro i hi k hk
      refine ⟨?_, _, o2 i hi k hk⟩
      have hne : distVars sd.2 ≠ [] := by
        intro hemp
        obtain ⟨dat, c1, c2, c3⟩ := hc.cells.1
        unfold spiCompute spiFit at hcomp
        rw [hload] at hcomp
        obtain ⟨sh1, h1, _⟩ := Res.bind_ok hcomp
        obtain ⟨_, p, dat1, ys, _, _, _, _, _, f5, _⟩ := fitStage_ok (hvar sd.1) c1 c2 h1
        obtain ⟨_, fp, k2, _⟩ := f5 i hi k hk
        cases hd : sd.2 with
        | gamma => rw [hd] at hemp; cases hemp
        | pearson => rw [hd] at hemp; cases hemp
        | other => rw [hd] at k2; cases k2
      obtain ⟨v, hv⟩ := List.exists_mem_of_ne_nil _ hne
      obtain ⟨y, _, _, e3⟩ := o3 ha hb v hv
      obtain ⟨fp, h1, _⟩ := e3 i hi k hk
      exact ⟨fp, h1⟩

/-! ## The loop -/

/-- what becomes of the pairs `ps`, after `done`: those before the first that cannot be computed are written -/
def PairsOutcome (E : Ext F) (j : SpiJob) (u : String) (ds : Int) (d : NcFile F) (a b n : Nat) (shape : List Nat) (S : Nat → Nat → List F) (done ps : List (Int × Distribution)) (w : World F)
    (fin : Prop) (w' : World F) : Prop :=
  ∃ good rest, ps = good ++ rest ∧ (∀ pre sd post, good = pre ++ sd :: post → PairFine E j ds a b S (done ++ pre) sd) ∧
    (∀ sd post, rest = sd :: post → ¬ PairFine E j ds a b S (done ++ good) sd) ∧ (fin ↔ rest = []) ∧
    w'.written = w.written ++ good.map (fun sd => (spiOutFile j.base u sd.1 sd.2, spiOutName sd.2 sd.1 u)) ∧
    (∀ pre sd post, good = pre ++ sd :: post → sd ∉ post →
      OutHolds E j u ds d a b n shape sd.1 sd.2 (fun i k => cellAfter (S i k) j.per (done ++ pre ++ [sd])) w'.files) ∧
    ∀ f, (∀ sd ∈ good, f ≠ spiOutFile j.base u sd.1 sd.2) → w'.files f = w.files f

theorem PairsOutcome.nil {E : Ext F} {j : SpiJob} {u : String} {ds : Int} {d : NcFile F} {a b n : Nat} {shape : List Nat} {S : Nat → Nat → List F} {done : List (Int × Distribution)} {w : World F}
    {fin : Prop} (h : fin) : PairsOutcome E j u ds d a b n shape S done [] w fin w :=
  ⟨[], [], rfl, by simp, by simp, by simp [h], by simp, by simp, fun _ _ => rfl⟩

theorem PairsOutcome.stop {E : Ext F} {j : SpiJob} {u : String} {ds : Int} {d : NcFile F} {a b n : Nat} {shape : List Nat} {S : Nat → Nat → List F} {done ps : List (Int × Distribution)}
    {sd : Int × Distribution} {w : World F} {fin : Prop} (h : ¬ fin) (hn : ¬ PairFine E j ds a b S done sd) : PairsOutcome E j u ds d a b n shape S done (sd :: ps) w fin w := by
  refine ⟨[], sd :: ps, rfl, by simp, ?_, by simp [h], by simp, by simp, fun _ _ => rfl⟩
  intro sd' post e
  cases e
  simpa using hn

theorem PairsOutcome.step {E : Ext F} {j : SpiJob} {u : String} {ds : Int} {d : NcFile F} {a b n : Nat} {shape : List Nat} {S : Nat → Nat → List F} {done ps : List (Int × Distribution)}
    {sd : Int × Distribution} {w w1 w' : World F} {fin : Prop} (hd : ∀ p ∈ sd :: ps, p.2 = .gamma ∨ p.2 = .pearson) (hf : PairFine E j ds a b S done sd)
    (ho : OutHolds E j u ds d a b n shape sd.1 sd.2 (fun i k => cellAfter (S i k) j.per (done ++ [sd])) w1.files)
    (hfr : ∀ f, f ≠ spiOutFile j.base u sd.1 sd.2 → w1.files f = w.files f) (hw : w1.written = w.written ++ [(spiOutFile j.base u sd.1 sd.2, spiOutName sd.2 sd.1 u)])
    (h : PairsOutcome E j u ds d a b n shape S (done ++ [sd]) ps w1 fin w') : PairsOutcome E j u ds d a b n shape S done (sd :: ps) w fin w' := by
  obtain ⟨good, rest, e1, e2, e3, e4, e5, e6, e7⟩ := h
  refine ⟨sd :: good, rest, by simp [e1], ?_, ?_, e4, ?_, ?_, ?_⟩
  · intro pre sd' post h
    cases pre with
    | nil =>
      simp only [List.nil_append, List.cons.injEq] at h
      obtain ⟨rfl, _⟩ := h
      simpa using hf
    | cons p pre =>
      simp only [List.cons_append, List.cons.injEq] at h
      obtain ⟨rfl, h⟩ := h
      simpa using e2 pre sd' post h
  · intro sd' post h
    simpa using e3 sd' post h
  · rw [e5, hw]
    simp
  · intro pre sd' post h hn
    cases pre with
    | nil =>
      simp only [List.nil_append, List.cons.injEq] at h
      obtain ⟨rfl, rfl⟩ := h
      obtain ⟨rdat, new, k1, k2⟩ := ho
      refine ⟨rdat, new, ?_, by simpa using k2⟩
      rw [e7 _ ?_, k1]
      intro sd' hs e
      obtain ⟨x1, x2⟩ := outFile_inj (hd sd (by simp)) (hd sd' (by simp [e1, hs])) e
      have : sd = sd' := Prod.ext x1 x2
      subst this
      exact hn hs
    | cons p pre =>
      simp only [List.cons_append, List.cons.injEq] at h
      obtain ⟨rfl, h⟩ := h
      simpa using e6 pre sd' post h hn
  · intro f hf'
    rw [e7 f (fun sd' hs => hf' sd' (by simp [hs])), hfr f (hf' sd (by simp))]

omit [FloatLaws F] in
theorem dumpFits_exists {u : String} {scale : Int} {p a b : Nat} {sh : Dict (Arr F)} {g : NcFile F} (h : SixArrays u p a b scale sh)
    (hg : ∀ v ∈ fittingVariables, ∃ y, List.lookup (spiFitName u scale v) g = some y ∧ y.shape = [a, b, p]) : ∃ g', dumpFits u scale sh g = .ok g' := by
  have key : ∀ (l : List String) (g : NcFile F), (∀ v ∈ l, v ∈ fittingVariables) → (∀ v ∈ fittingVariables, ∃ y, List.lookup (spiFitName u scale v) g = some y ∧ y.shape = [a, b, p]) →
      ∃ g', l.foldlM (fun (g : NcFile F) v => (do
        let x ← sh.at (spiFitName u scale v)
        let old ← g.get (spiFitName u scale v)
        if x.shape = old.shape then pure (g.put (spiFitName u scale v) { old with data := x.data }) else .error .valueError : Res (NcFile F))) g = .ok g' := by
    intro l
    induction l with
    | nil => intro g _ _; exact ⟨g, rfl⟩
    | cons v l ih =>
      intro g hl hg
      obtain ⟨x, hx, hxs⟩ := h v (hl v (by simp))
      obtain ⟨y, hy, hys⟩ := hg v (hl v (by simp))
      have hget : g.get (spiFitName u scale v) = .ok y := by unfold NcFile.get; rw [hy]
      obtain ⟨g', hg'⟩ := ih (g.put (spiFitName u scale v) { y with data := x.data }) (fun w hw => hl w (by simp [hw])) (fun w hw => by
        by_cases e : spiFitName u scale w = spiFitName u scale v
        · rw [e, ncput_same]
          exact ⟨_, rfl, hys⟩
        · rw [ncput_other _ _ e]
          exact hg w hw)
      refine ⟨g', ?_⟩
      rw [List.foldlM_cons, dictAt_some hx]
      simp only [bind, Except.bind, hget, if_pos (hxs.trans hys.symm)]
      exact hg'
  exact key fittingVariables g (fun _ h => h) hg

theorem SE.bind_err {σ α β : Type} {x : SE σ α} {f : α → SE σ β} {s s' : σ} {e : PyErr} (h : x s = (.error e, s')) : (x >>= f) s = (.error e, s') := by
  show SE.bind x f s = _
  unfold SE.bind
  rw [h]

theorem spiScales_live {E : Ext F} (hE : ExtNan E) {j : SpiJob} (hload : j.load = none) (hit : j.inputType = .grid) (hw : 1 ≤ j.workers) {u : String} {ds : Int} {d : NcFile F} {SS : List Int}
    (hvar : ∀ s, ∀ v ∈ fittingVariables, j.var ≠ spiFitName u s v) (hres : j.var ≠ keyResult) (hfr : ∀ s, ∀ v ∈ fittingVariables, keyResult ≠ spiFitName u s v) {a b n : Nat}
    (ha : 0 < a) (hb : 0 < b) {shape : List Nat} {n0 : Nat} (hn0 : shape.head? = some n0) {S : Nat → Nat → List F}
    (hbuild : ∀ (sd : Int × Distribution) (rdat : List F), (sd.2 = .gamma ∨ sd.2 = .pearson) → rdat.length = a * (b * n) →
      ∃ new, buildSpiGrid j.per ds d (spiOutName sd.2 sd.1 u) ⟨shape, rdat⟩ = .ok new) (ss : List Int) :
    ∀ {done : List (Int × Distribution)} {g : NcFile F} {w : World F}, (∀ s ∈ ss, s ∈ SS) → Live j u SS a b n shape S done w.shared →
      (∀ s ∈ SS, ∀ v ∈ fittingVariables, ∃ y, List.lookup (spiFitName u s v) g = some y ∧ y.shape = [a, b, j.per.steps]) →
      ∃ r w', spiScales E j u ds d ss g w = (r, w') ∧ PairsOutcome E j u ds d a b n shape S done (toolPairs ss) w (∃ g', r = .ok g') w' := by
  induction ss with
  | nil =>
    intro done g w _ _ _
    exact ⟨.ok g, w, rfl, PairsOutcome.nil ⟨g, rfl⟩⟩
  | cons s ss ih =>
    intro done g w hss hlive hg
    have hsS : s ∈ SS := hss s (by simp)
    have hds : ∀ p ∈ toolPairs (s :: ss), p.2 = .gamma ∨ p.2 = .pearson := by
      intro p hp
      unfold toolPairs at hp
      obtain ⟨s', _, h⟩ := List.mem_flatMap.1 hp
      simp only [List.mem_cons, List.not_mem_nil, or_false] at h
      rcases h with rfl | rfl <;> simp
    have htp : toolPairs (s :: ss) = (s, .gamma) :: (s, .pearson) :: toolPairs ss := rfl
    rw [htp] at hds ⊢
    unfold spiScales
    obtain ⟨f1, n1⟩ := spiPair_live hE hload hit hw (sd := (s, .gamma)) (d := d) (ds := ds) (w := w) hsS hvar hres hfr ha hb hn0 hlive (fun r hr => hbuild (s, .gamma) r (.inl rfl) hr)
    by_cases h1 : PairFine E j ds a b S done (s, .gamma)
    swap
    · obtain ⟨e, he⟩ := n1 h1
      exact ⟨.error e, w, SE.bind_err he, PairsOutcome.stop (by simp) h1⟩
    obtain ⟨w1, p1, l1, o1, fr1, wr1⟩ := f1 h1
    rw [SE.bind_run _ _ _ _ _ p1]
    obtain ⟨f2, n2⟩ := spiPair_live hE hload hit hw (sd := (s, .pearson)) (d := d) (ds := ds) (w := w1) hsS hvar hres hfr ha hb hn0 l1 (fun r hr => hbuild (s, .pearson) r (.inr rfl) hr)
    by_cases h2 : PairFine E j ds a b S (done ++ [(s, .gamma)]) (s, .pearson)
    swap
    · obtain ⟨e, he⟩ := n2 h2
      exact ⟨.error e, w1, SE.bind_err he, PairsOutcome.step hds h1 o1 fr1 wr1 (PairsOutcome.stop (by simp) h2)⟩
    obtain ⟨w2, p2, l2, o2, fr2, wr2⟩ := f2 h2
    rw [SE.bind_run _ _ _ _ _ p2]
    obtain ⟨g1, hd1⟩ := dumpFits_exists (l2.six s hsS) (hg s hsS)
    have hd2 : (fun w => (dumpFits u s w.shared g, w) : SE (World F) (NcFile F)) w2 = (.ok g1, w2) := by show (dumpFits u s w2.shared g, w2) = _; rw [hd1]
    obtain ⟨du1, du2⟩ := dumpFits_ok hd1
    obtain ⟨r, w', hr, ho⟩ := ih (done := done ++ [(s, .gamma)] ++ [(s, .pearson)]) (g := g1) (w := w2) (fun s' hs' => hss s' (by simp [hs'])) l2 (by
      intro s' hs' v hv
      by_cases hk : ∃ v' ∈ fittingVariables, spiFitName u s' v = spiFitName u s v'
      · obtain ⟨v', hv', e⟩ := hk
        obtain ⟨x, old, _, e2, _, e4⟩ := du1 v' hv'
        obtain ⟨y, hy, hys⟩ := hg s hsS v' hv'
        rw [e2] at hy
        cases hy
        rw [e, e4]
        exact ⟨_, rfl, hys⟩
      · rw [du2 _ (fun v' hv' e => hk ⟨v', hv', e⟩)]
        exact hg s' hs' v hv)
    exact ⟨r, w', (SE.bind_run _ _ _ _ _ hd2).trans hr, PairsOutcome.step hds h1 o1 fr1 wr1 (PairsOutcome.step (fun p hp => hds p (by simp only [List.mem_cons] at hp ⊢; tauto)) h2 o2 fr2 wr2 ho)⟩

end CI
