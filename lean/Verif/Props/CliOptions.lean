import Verif.Model.Argparse
import Std.Data.String.ToInt
import Verif.Props.CliCells

/-!
# C105: the command line is read as it was given
-/

namespace CI.Props
open CI Spec

/-! ## Specification -/

/-- a text that can follow its option as an argument of its own: it does not begin with a dash, or is a dash alone, or is a negative integer -/
def Plain (s : String) : Prop := s.toList.head? ≠ some '-' ∨ s = "-" ∨ ∃ n : ℕ, s = "-" ++ toString n

/-- what the texts `l` given for an option mean -/
inductive Means (toInt : String → Option Int) : Opt → List String → ArgVal → Prop
  | text (o : Opt) (s : String) : o.kind = .one → o.type = .str → (o.choices = [] ∨ s ∈ o.choices) → Means toInt o [s] (.str s)
  | number (o : Opt) (s : String) (n : Int) : o.kind = .one → o.type = .int → toInt s = some n → Means toInt o [s] (.int n)
  | monthly (o : Opt) : o.kind = .one → o.type = .periodicity → Means toInt o ["monthly"] (.per .monthly)
  | daily (o : Opt) : o.kind = .one → o.type = .periodicity → Means toInt o ["daily"] (.per .daily)
  | numbers (o : Opt) (l : List String) (ns : List Int) : o.kind = .many → List.Forall₂ (fun s n => toInt s = some n) l ns → Means toInt o l (.ints ns)
  | flag (o : Opt) : o.kind = .flag → Means toInt o [] .flag

/-- an option with its values, written as separate arguments or, with one value, as `--option=value` -/
structure Setting where
  option : Opt
  values : List String
  joined : Bool

/-- the arguments of a setting -/
def Setting.written (g : Setting) : List String :=
  match g.joined, g.values with
  | true, [v] => [g.option.name ++ "=" ++ v]
  | _, vs => g.option.name :: vs

/-- the setting is a proper use of an option of the table, with the meaning `v` -/
structure Proper (toInt : String → Option Int) (opts : List Opt) (g : Setting) (v : ArgVal) : Prop where
  known : g.option ∈ opts
  means : Means toInt g.option g.values v
  one : g.joined = true → ∃ s, g.values = [s]
  plain : g.joined = false → ∀ s ∈ g.values, Plain s

/-! ## Proof -/

theorem toString_digits (n : ℕ) : (toString n).toList ≠ [] ∧ ∀ c ∈ (toString n).toList, c.isDigit = true := by
  have e : (toString n).toList = Nat.toDigits 10 n := by simp [toString, Nat.repr]
  rw [e]
  refine ⟨?_, fun c hc => Nat.isDigit_of_mem_toDigits (by norm_num) (by norm_num) hc⟩
  exact Nat.toDigits_ne_nil

theorem span_all {p : Char → Bool} (l : List Char) (h : ∀ c ∈ l, p c = true) : l.span p = (l, []) := by
  rw [List.span_eq_takeWhile_dropWhile]
  congr 1
  · induction l with
    | nil => rfl
    | cons a t ih => rw [List.takeWhile_cons, if_pos (h a (by simp)), ih (fun c hc => h c (by simp [hc]))]
  · induction l with
    | nil => rfl
    | cons a t ih => rw [List.dropWhile_cons, if_pos (h a (by simp)), ih (fun c hc => h c (by simp [hc]))]

theorem span_append {p : Char → Bool} (l : List Char) (c : Char) (r : List Char) (h : ∀ c ∈ l, p c = true) (hc : p c = false) :
    (l ++ c :: r).span p = (l, c :: r) := by
  rw [List.span_eq_takeWhile_dropWhile]
  congr 1
  · induction l with
    | nil => rw [List.nil_append, List.takeWhile_cons, hc]; rfl
    | cons a t ih => rw [List.cons_append, List.takeWhile_cons, if_pos (h a (by simp)), ih (fun c hc => h c (by simp [hc]))]
  · induction l with
    | nil => rw [List.nil_append, List.dropWhile_cons, hc]; rfl
    | cons a t ih => rw [List.cons_append, List.dropWhile_cons, if_pos (h a (by simp)), ih (fun c hc => h c (by simp [hc]))]

theorem take_all {p : Char → Bool} (l : List Char) (h : ∀ c ∈ l, p c = true) : l.takeWhile p = l := by
  have := span_all l h
  rw [List.span_eq_takeWhile_dropWhile] at this
  exact (Prod.mk.inj this).1

/-- what is needed of an option table: names are recognized, have no `=`, begin with two dashes or are `-h` -/
structure Table (opts : List Opt) : Prop where
  name : ∀ o ∈ opts, parseOptional opts o.name = .ok (.opt o none)
  shape : ∀ o ∈ opts, '=' ∉ o.name.toList ∧ o.name ≠ "--" ∧ o.name.toList ≠ ['-'] ∧ o.name.toList.head? = some '-' ∧
    (∀ c t, o.name.toList = '-' :: c :: t → c.isDigit = false)
  find : ∀ o ∈ opts, opts.find? (fun p => p.name = o.name) = some o
  nodup : opts.Nodup
  long : ∀ o ∈ opts, o.name = "-h" ∨ ['-', '-'] <+: o.name.toList

theorem table_main : Table mainOpts := ⟨by decide +kernel, by
  have : ∀ o ∈ mainOpts, '=' ∉ o.name.toList ∧ o.name ≠ "--" ∧ o.name.toList ≠ ['-'] ∧ o.name.toList.head? = some '-' ∧
      ((o.name.toList.drop 1).head?.all (fun c => !c.isDigit)) = true := by decide +kernel
  intro o ho
  obtain ⟨h1, h2, h3, h4, h5⟩ := this o ho
  refine ⟨h1, h2, h3, h4, ?_⟩
  intro c t e
  rw [e] at h5
  simpa using h5, by decide +kernel, by decide +kernel, by decide +kernel⟩

theorem table_spi : Table spiOpts := ⟨by decide +kernel, by
  have : ∀ o ∈ spiOpts, '=' ∉ o.name.toList ∧ o.name ≠ "--" ∧ o.name.toList ≠ ['-'] ∧ o.name.toList.head? = some '-' ∧
      ((o.name.toList.drop 1).head?.all (fun c => !c.isDigit)) = true := by decide +kernel
  intro o ho
  obtain ⟨h1, h2, h3, h4, h5⟩ := this o ho
  refine ⟨h1, h2, h3, h4, ?_⟩
  intro c t e
  rw [e] at h5
  simpa using h5, by decide +kernel, by decide +kernel, by decide +kernel⟩

theorem find_none {opts : List Opt} {s : String} (h : ∀ o ∈ opts, o.name ≠ s) : opts.find? (fun o => o.name = s) = none := by
  rw [List.find?_eq_none]
  intro o ho
  simpa using h o ho

theorem parse_joined {opts : List Opt} (ht : Table opts) {o : Opt} (ho : o ∈ opts) (v : String) :
    parseOptional opts (o.name ++ "=" ++ v) = .ok (.opt o (some v)) := by
  obtain ⟨h1, _, h3, h4, _⟩ := ht.shape o ho
  have hl : (o.name ++ "=" ++ v).toList = o.name.toList ++ '=' :: v.toList := by
    rw [String.toList_append, String.toList_append, List.append_assoc]; rfl
  obtain ⟨cs, hcs⟩ : ∃ cs, o.name.toList = '-' :: cs := by
    cases hn : o.name.toList with
    | nil => rw [hn] at h4; cases h4
    | cons c cs => rw [hn] at h4; cases h4; exact ⟨cs, rfl⟩
  have hsplit : splitEq ('-' :: (cs ++ '=' :: v.toList)) = some (o.name.toList, v.toList) := by
    unfold splitEq
    rw [show '-' :: (cs ++ '=' :: v.toList) = o.name.toList ++ '=' :: v.toList by rw [hcs]; rfl,
      span_append _ _ _ (fun c hc => by
        simp only [decide_not, Bool.not_eq_eq_eq_not, Bool.not_true, decide_eq_false_iff_not]
        rintro rfl
        exact h1 hc) (by simp)]
  unfold parseOptional
  rw [hl, hcs, List.cons_append]
  dsimp only
  rw [if_neg (by simp), find_none (fun p hp e => by
    have := (ht.shape p hp).1
    rw [e, hl] at this
    simp at this)]
  dsimp only
  rw [if_neg (by simp), hsplit, Option.bind_some]
  simp only [String.ofList_toList]
  rw [ht.find o ho]
  simp

theorem parse_plain {opts : List Opt} (ht : Table opts) {s : String} (hs : Plain s) : parseOptional opts s = .ok .value := by
  unfold parseOptional
  rcases hs with h | rfl | ⟨n, rfl⟩
  · cases hl : s.toList with
    | nil => rfl
    | cons c cs =>
      rw [hl] at h
      dsimp only
      rw [if_pos (by simpa using h)]
  · rw [show "-".toList = ['-'] from rfl]
    dsimp only
    rw [if_neg (by simp), find_none (fun o ho e => (ht.shape o ho).2.2.1 (by rw [e]; rfl))]
    rfl
  · obtain ⟨d1, d2⟩ := toString_digits n
    have hl : ("-" ++ toString n).toList = '-' :: (toString n).toList := by rw [String.toList_append]; rfl
    generalize (toString n).toList = ds at *
    obtain ⟨d, t, rfl⟩ := List.exists_cons_of_ne_nil d1
    have hd := d2 d (by simp)
    have hdash : d ≠ '-' := by rintro rfl; revert hd; decide
    rw [hl]
    dsimp only
    have hne : ∀ o ∈ opts, ∀ r, o.name.toList ≠ '-' :: d :: r := fun o ho r e => by
      have := (ht.shape o ho).2.2.2.2 d r e
      rw [hd] at this
      cases this
    rw [if_neg (by simp), find_none (fun o ho e => hne o ho t (by rw [e, hl]))]
    dsimp only
    rw [if_neg (by simp)]
    have hnoeq : splitEq ('-' :: d :: t) = none := by
      unfold splitEq
      rw [span_all]
      intro c hc
      rw [List.mem_cons] at hc
      rcases hc with rfl | hc
      · decide
      · have := d2 c hc
        simp only [decide_not, Bool.not_eq_eq_eq_not, Bool.not_true, decide_eq_false_iff_not]
        rintro rfl
        revert this
        decide
    rw [hnoeq, Option.bind_none]
    dsimp only
    have htup : optionTuples opts ('-' :: d :: t) = [] := by
      unfold optionTuples
      split
      · next h => cases h; exact absurd rfl hdash
      · rw [List.filterMap_eq_nil_iff]
        intro o ho
        show (if o.name.toList = ['-', d] then _ else _) = none
        rw [if_neg (hne o ho []), if_neg]
        intro hp
        obtain ⟨r, hr⟩ := List.isPrefixOf_iff_prefix.1 hp
        exact hne o ho (t ++ r) (by rw [← hr]; rfl)
    rw [htup]
    have hneg : isNegativeNumber ('-' :: d :: t) = true := by
      show (match (List.span Char.isDigit (d :: t)).2 with
        | [] => !(List.span Char.isDigit (d :: t)).1.isEmpty
        | '.' :: c => !c.isEmpty && c.all Char.isDigit
        | _ => false) = true
      rw [span_all _ d2]
      rfl
    simp only [hneg, if_true]

theorem plain_ne {s : String} (hs : Plain s) : s ≠ "--" := by
  rintro rfl
  rcases hs with h | h | ⟨n, h⟩
  · exact h rfl
  · revert h; decide
  · obtain ⟨d1, d2⟩ := toString_digits n
    have := congrArg String.toList h
    rw [String.toList_append] at this
    have e : (toString n).toList = ['-'] := by
      have h' : ['-', '-'] = '-' :: (toString n).toList := this
      simpa using h'.symm
    have := d2 '-' (by rw [e]; simp)
    revert this
    decide

/-- the tokens of arguments that are not `--` -/
theorem classify_of {opts : List Opt} {l : List String} {toks : List (String × Tok)}
    (h : List.Forall₂ (fun a p => p.1 = a ∧ a ≠ "--" ∧ parseOptional opts a = .ok p.2) l toks) : classify opts l = .ok toks := by
  induction h with
  | nil => rfl
  | cons h _ ih =>
    obtain ⟨rfl, h2, h3⟩ := h
    unfold classify
    rw [if_neg h2, h3, ih]
    rfl

/-- the tokens of a setting -/
def Setting.toks (g : Setting) : List (String × Tok) :=
  match g.joined, g.values with
  | true, [v] => [(g.option.name ++ "=" ++ v, .opt g.option (some v))]
  | _, vs => (g.option.name, .opt g.option none) :: vs.map (fun v => (v, .value))

theorem written_toks {toInt : String → Option Int} {opts : List Opt} (ht : Table opts) {g : Setting} {v : ArgVal} (hg : Proper toInt opts g v) :
    List.Forall₂ (fun a p => p.1 = a ∧ a ≠ "--" ∧ parseOptional opts a = .ok p.2) g.written g.toks := by
  have hsep : g.joined = false → List.Forall₂ (fun a (p : String × Tok) => p.1 = a ∧ a ≠ "--" ∧ parseOptional opts a = .ok p.2)
      (g.option.name :: g.values) ((g.option.name, .opt g.option none) :: g.values.map (fun v => (v, .value))) := by
    intro hj
    refine .cons ⟨rfl, (ht.shape _ hg.known).2.1, ht.name _ hg.known⟩ ?_
    have := hg.plain hj
    generalize g.values = vs at this
    induction vs with
    | nil => exact .nil
    | cons a t ih => exact .cons ⟨rfl, plain_ne (this a (by simp)), parse_plain ht (this a (by simp))⟩ (ih (fun s hs => this s (by simp [hs])))
  cases hj : g.joined with
  | false =>
    have : g.written = g.option.name :: g.values ∧ g.toks = (g.option.name, .opt g.option none) :: g.values.map (fun v => (v, .value)) := by
      unfold Setting.written Setting.toks
      rw [hj]
      exact ⟨rfl, rfl⟩
    rw [this.1, this.2]
    exact hsep hj
  | true =>
    obtain ⟨s, hs⟩ := hg.one hj
    have : g.written = [g.option.name ++ "=" ++ s] ∧ g.toks = [(g.option.name ++ "=" ++ s, .opt g.option (some s))] := by
      unfold Setting.written Setting.toks
      rw [hj, hs]
      exact ⟨rfl, rfl⟩
    rw [this.1, this.2]
    refine .cons ⟨rfl, ?_, parse_joined ht hg.known s⟩ .nil
    intro e
    have h1 : '=' ∈ (g.option.name ++ "=" ++ s).toList := by
      rw [String.toList_append, String.toList_append]
      have : '=' ∈ "=".toList := by decide
      simp [this]
    rw [e] at h1
    revert h1
    decide

theorem mapM_forall₂ {toInt : String → Option Int} {l : List String} {ns : List Int} (h : List.Forall₂ (fun s n => toInt s = some n) l ns) :
    l.mapM toInt = some ns := by
  induction h with
  | nil => rfl
  | cons h _ ih => rw [List.mapM_cons, h, ih]; rfl

theorem consume_values (toInt : String → Option Int) (o : Opt) (ns : Namespace) (ex : Bool) (rest : List (String × Tok)) : ∀ (vs acc : List String),
    consume toInt (vs.map (fun v => (v, Tok.value)) ++ rest) ns ex (.many o acc) = consume toInt rest ns ex (.many o (acc ++ vs)) := by
  intro vs
  induction vs with
  | nil => intro acc; simp
  | cons a t ih =>
    intro acc
    rw [List.map_cons, List.cons_append]
    show consume toInt (t.map (fun v => (v, Tok.value)) ++ rest) ns ex (.many o (acc ++ [a])) = _
    rw [ih, List.append_assoc]
    rfl

theorem consume_opt (toInt : String → Option Int) (s : String) (o : Opt) (e : Option String) (rest : List (String × Tok)) (ns ns0 : Namespace) (ex : Bool) (p : Pending)
    (h : flush toInt p ns = .ok ns0) :
    consume toInt ((s, .opt o e) :: rest) ns ex p = (start toInt o e ns0 >>= fun r => consume toInt rest r.1 ex r.2) := by
  show (flush toInt p ns >>= _) = _
  rw [h]
  rfl

theorem consume_setting {toInt : String → Option Int} {opts : List Opt} {g : Setting} {v : ArgVal} (hg : Proper toInt opts g v) (ns ns0 : Namespace) (ex : Bool) (p : Pending)
    (h : flush toInt p ns = .ok ns0) :
    ∃ ns' p', (∀ rest, consume toInt (g.toks ++ rest) ns ex p = consume toInt rest ns' ex p') ∧ flush toInt p' ns' = .ok ((g.option.name, v) :: ns0) := by
  have hone : ∀ s, g.values = [s] → g.option.kind = .one → convertValue toInt g.option s = .ok v →
      ∃ ns' p', (∀ rest, consume toInt (g.toks ++ rest) ns ex p = consume toInt rest ns' ex p') ∧ flush toInt p' ns' = .ok ((g.option.name, v) :: ns0) := by
    intro s hs hk hc
    refine ⟨(g.option.name, v) :: ns0, .none, ?_, rfl⟩
    intro rest
    cases hj : g.joined with
    | true =>
      have : g.toks = [(g.option.name ++ "=" ++ s, .opt g.option (some s))] := by unfold Setting.toks; rw [hj, hs]
      rw [this, List.singleton_append, consume_opt _ _ _ _ _ _ _ _ _ h]
      unfold start
      rw [hk]
      simp only [hc, bind, Except.bind, pure, Except.pure]
    | false =>
      have : g.toks = [(g.option.name, .opt g.option none), (s, .value)] := by unfold Setting.toks; rw [hj, hs]; rfl
      rw [this]
      show consume toInt ((g.option.name, .opt g.option none) :: (s, .value) :: rest) ns ex p = _
      rw [consume_opt _ _ _ _ _ _ _ _ _ h]
      unfold start
      rw [hk]
      show (convertValue toInt g.option s >>= _) = _
      rw [hc]
      rfl
  obtain ⟨known, means, one, plain⟩ := hg
  generalize hvs : g.values = vs at means
  generalize hop : g.option = o at means
  cases means with
  | text s k t c =>
    subst hop
    exact hone s hvs k (by unfold convertValue; rw [t]; dsimp only; rw [if_pos c])
  | number s n k t c =>
    subst hop
    exact hone s hvs k (by unfold convertValue; rw [t]; dsimp only; rw [c])
  | monthly k t =>
    subst hop
    exact hone _ hvs k (by unfold convertValue; rw [t]; rfl)
  | daily k t =>
    subst hop
    exact hone _ hvs k (by unfold convertValue; rw [t]; rfl)
  | numbers _ nn k hn =>
    subst hop
    have hm : convertMany toInt vs = .ok (.ints nn) := by unfold convertMany; rw [mapM_forall₂ hn]
    cases hj : g.joined with
    | true =>
      obtain ⟨s, hs⟩ := one hj
      refine ⟨(g.option.name, .ints nn) :: ns0, .none, ?_, rfl⟩
      intro rest
      have : g.toks = [(g.option.name ++ "=" ++ s, .opt g.option (some s))] := by unfold Setting.toks; rw [hj, hs]
      rw [this, List.singleton_append, consume_opt _ _ _ _ _ _ _ _ _ h]
      have hm' : convertMany toInt [s] = .ok (.ints nn) := by rw [← hm, ← hvs, hs]
      unfold start
      rw [k]
      simp only [hm', bind, Except.bind, pure, Except.pure]
    | false =>
      refine ⟨ns0, .many g.option vs, ?_, by unfold flush; dsimp only; rw [hm]; rfl⟩
      intro rest
      have : g.toks = (g.option.name, .opt g.option none) :: vs.map (fun v => (v, .value)) := by unfold Setting.toks; rw [hj, hvs]
      rw [this, List.cons_append, consume_opt _ _ _ _ _ _ _ _ _ h]
      unfold start
      rw [k]
      show consume toInt (vs.map (fun v => (v, Tok.value)) ++ rest) ns0 ex (.many g.option []) = _
      rw [consume_values]
      rfl
  | flag k =>
    subst hop
    have hj : g.joined = false := by
      cases hj : g.joined with
      | false => rfl
      | true => obtain ⟨s, hs⟩ := one hj; rw [hs] at hvs; cases hvs
    refine ⟨(g.option.name, .flag) :: ns0, .none, ?_, rfl⟩
    intro rest
    have : g.toks = [(g.option.name, .opt g.option none)] := by unfold Setting.toks; rw [hj, hvs]; rfl
    rw [this, List.singleton_append, consume_opt _ _ _ _ _ _ _ _ _ h]
    unfold start
    rw [k]
    rfl

theorem consume_settings {toInt : String → Option Int} {opts : List Opt} (val : Setting → ArgVal) : ∀ (gs : List Setting), (∀ g ∈ gs, Proper toInt opts g (val g)) →
    ∀ (ns ns0 : Namespace) (ex : Bool) (p : Pending), flush toInt p ns = .ok ns0 →
      consume toInt (gs.flatMap Setting.toks) ns ex p = .ok ((gs.reverse.map (fun g => (g.option.name, val g))) ++ ns0, ex) := by
  intro gs
  induction gs with
  | nil =>
    intro _ ns ns0 ex p h
    show (flush toInt p ns >>= _) = _
    rw [h]
    rfl
  | cons g gs ih =>
    intro hg ns ns0 ex p h
    obtain ⟨ns', p', h1, h2⟩ := consume_setting (hg g (by simp)) ns ns0 ex p h
    rw [List.flatMap_cons, h1, ih (fun g' hg' => hg g' (by simp [hg'])) ns' _ ex p' h2]
    simp

theorem lookup_settings (val : Setting → ArgVal) (n : String) : ∀ (gs : List Setting),
    List.lookup n (gs.map (fun g => (g.option.name, val g))) = (gs.find? (fun g => g.option.name = n)).map val := by
  intro gs
  induction gs with
  | nil => rfl
  | cons g gs ih =>
    rw [List.map_cons, List.find?_cons]
    by_cases h : g.option.name = n
    · subst h
      simp [List.lookup_cons]
    · have h' : (n == g.option.name) = false := by simpa using fun e : n = g.option.name => h e.symm
      rw [List.lookup_cons, h', ih]
      simp [h]

/-- **C105, reading.** For both tools: a command line that is a sequence of proper settings in any order, with every required option among them, is accepted, and every option has
the meaning of its last setting; options that are not mentioned have no value. -/
theorem C105_read (toInt : String → Option Int) (opts : List Opt) (ho : opts = mainOpts ∨ opts = spiOpts) (gs : List Setting) (val : Setting → ArgVal)
    (hg : ∀ g ∈ gs, Proper toInt opts g (val g)) (hreq : ∀ o ∈ opts, o.required = true → ∃ g ∈ gs, g.option.name = o.name) :
    ∃ ns, parseArgs toInt opts (gs.flatMap Setting.written) = .ok ns ∧
      ∀ n, List.lookup n ns = (gs.reverse.find? (fun g => g.option.name = n)).map val := by
  have ht : Table opts := by rcases ho with rfl | rfl; exacts [table_main, table_spi]
  refine ⟨gs.reverse.map (fun g => (g.option.name, val g)), ?_, fun n => lookup_settings val n _⟩
  have hc : classify opts (gs.flatMap Setting.written) = .ok (gs.flatMap Setting.toks) := by
    apply classify_of
    clear hreq
    induction gs with
    | nil => exact .nil
    | cons g gs ih =>
      rw [List.flatMap_cons, List.flatMap_cons]
      exact List.rel_append (written_toks ht (hg g (by simp))) (ih (fun g' hg' => hg g' (by simp [hg'])))
  unfold parseArgs
  rw [hc]
  simp only [bind, Except.bind]
  rw [consume_settings val gs hg [] [] false .none rfl, List.append_nil]
  dsimp only
  rw [if_pos]
  · rfl
  · rw [List.all_eq_true]
    intro o ho'
    cases hr : o.required with
    | false => rfl
    | true =>
      obtain ⟨g, hg', hn⟩ := hreq o ho' hr
      rw [lookup_settings, Option.isSome_map]
      simp only [Bool.not_true, Bool.false_or]
      rw [List.find?_isSome]
      exact ⟨g, by simpa using hg', by simpa using hn⟩

/-- with distinct names the setting of a name does not depend on the order -/
theorem find_perm {gs gs' : List Setting} (hp : gs.Perm gs') (hn : (gs.map (fun g => g.option.name)).Nodup) (n : String) :
    gs.reverse.find? (fun g => g.option.name = n) = gs'.reverse.find? (fun g => g.option.name = n) := by
  have key : ∀ {l l' : List Setting} {g : Setting}, l.Perm l' → (l.map (fun g => g.option.name)).Nodup → l.reverse.find? (fun g => g.option.name = n) = some g →
      l'.reverse.find? (fun g => g.option.name = n) = some g := by
    intro l l' g hp hn h
    have h1 : g ∈ l := by simpa using List.mem_of_find?_eq_some h
    have h2 : g.option.name = n := by simpa using List.find?_some h
    cases h' : l'.reverse.find? (fun g => g.option.name = n) with
    | none =>
      have := List.find?_eq_none.1 h' g (by simpa using hp.subset h1)
      exact absurd h2 (by simpa using this)
    | some g' =>
      have h3 : g' ∈ l := hp.symm.subset (by simpa using List.mem_of_find?_eq_some h')
      have h4 : g'.option.name = n := by simpa using List.find?_some h'
      rw [List.inj_on_of_nodup_map hn h3 h1 (h4.trans h2.symm)]
  cases h : gs.reverse.find? (fun g => g.option.name = n) with
  | some g => exact (key hp hn h).symm
  | none =>
    cases h' : gs'.reverse.find? (fun g => g.option.name = n) with
    | none => rfl
    | some g =>
      have := key hp.symm ((hp.map _).nodup_iff.1 hn) h'
      rw [h] at this
      cases this

/-- the arguments are determined by the values of the options -/
theorem readMain_lookup {toInt : String → Option Int} {argv argv' : List String} {ns ns' : Namespace} (h : parseArgs toInt mainOpts argv = .ok ns)
    (h' : parseArgs toInt mainOpts argv' = .ok ns') (he : ∀ n, List.lookup n ns = List.lookup n ns') : readMain toInt argv = readMain toInt argv' := by
  unfold readMain
  rw [h, h']
  simp only [bind, Except.bind, pure, Except.pure, Namespace.str, Namespace.int, Namespace.ints, Namespace.per, he]

/-- **C105, order.** The order of the settings on the command line does not matter (no option given twice). -/
theorem C105_order (toInt : String → Option Int) (gs gs' : List Setting) (val : Setting → ArgVal) (hp : gs.Perm gs')
    (hg : ∀ g ∈ gs, Proper toInt mainOpts g (val g)) (hreq : ∀ o ∈ mainOpts, o.required = true → ∃ g ∈ gs, g.option.name = o.name)
    (hn : (gs.map (fun g => g.option.name)).Nodup) :
    readMain toInt (gs.flatMap Setting.written) = readMain toInt (gs'.flatMap Setting.written) := by
  obtain ⟨ns, h1, h2⟩ := C105_read toInt mainOpts (.inl rfl) gs val hg hreq
  obtain ⟨ns', h3, h4⟩ := C105_read toInt mainOpts (.inl rfl) gs' val (fun g h => hg g (hp.symm.subset h)) (fun o ho hr => by
    obtain ⟨g, h, e⟩ := hreq o ho hr
    exact ⟨g, hp.subset h, e⟩)
  exact readMain_lookup h1 h3 (fun n => by rw [h2, h4, find_perm hp hn])

/-! ## The documented options of the main tool -/

/-- the text of a choice of workers -/
def mpText : MpOption → String
  | .single => "single"
  | .all => "all"
  | .allButOne => "all_but_one"

/-- the texts with which the arguments `c` are given, by option -/
def mainTexts (c : MainCommand) (n : String) : Option (List String) :=
  if n = "--index" then some [c.args.index]
  else if n = "--periodicity" then some [if c.args.periodicity = .daily then "daily" else "monthly"]
  else if n = "--scales" then c.args.scales.map (fun l => l.map toString)
  else if n = "--calibration_start_year" then c.calibrationStart.map (fun y => [toString y])
  else if n = "--calibration_end_year" then c.calibrationEnd.map (fun y => [toString y])
  else if n = "--netcdf_precip" then c.args.netcdfPrecip.map (fun s => [s])
  else if n = "--var_name_precip" then c.args.varNamePrecip.map (fun s => [s])
  else if n = "--netcdf_temp" then c.args.netcdfTemp.map (fun s => [s])
  else if n = "--var_name_temp" then c.args.varNameTemp.map (fun s => [s])
  else if n = "--netcdf_pet" then c.args.netcdfPet.map (fun s => [s])
  else if n = "--var_name_pet" then c.args.varNamePet.map (fun s => [s])
  else if n = "--netcdf_awc" then c.args.netcdfAwc.map (fun s => [s])
  else if n = "--var_name_awc" then c.args.varNameAwc.map (fun s => [s])
  else if n = "--output_file_base" then some [c.args.outputFileBase]
  else if n = "--multiprocessing" then some [mpText c.multiprocessing]
  else if n = "--chunksizes" then some [c.chunksizes]
  else none

/-- the command line that gives the arguments `c`; for the options `n` with `j n` in the form `--option=value` -/
def commandLine (j : String → Bool) (c : MainCommand) : List String :=
  mainOpts.flatMap (fun o => match mainTexts c o.name with | some vs => Setting.written ⟨o, vs, j o.name⟩ | none => [])

/-- the arguments can be written on a command line; texts that begin with a dash in the form `--option=value` -/
structure Writable (j : String → Bool) (c : MainCommand) : Prop where
  scales : j "--scales" = false
  index : c.args.index ∈ ["spi", "spei", "pnp", "scaled", "pet", "palmers", "all"]
  periodicity : c.args.periodicity ≠ .other
  chunksizes : c.chunksizes ∈ ["none", "input"]
  texts : ∀ p ∈ [("--netcdf_precip", c.args.netcdfPrecip), ("--var_name_precip", c.args.varNamePrecip), ("--netcdf_temp", c.args.netcdfTemp), ("--var_name_temp", c.args.varNameTemp),
    ("--netcdf_pet", c.args.netcdfPet), ("--var_name_pet", c.args.varNamePet), ("--netcdf_awc", c.args.netcdfAwc), ("--var_name_awc", c.args.varNameAwc),
    ("--output_file_base", some c.args.outputFileBase)], j p.1 = false → ∀ t, p.2 = some t → Plain t

/-- the meaning of the texts, by option -/
def mainVals (c : MainCommand) (n : String) : Option ArgVal :=
  if n = "--index" then some (.str c.args.index)
  else if n = "--periodicity" then some (.per c.args.periodicity)
  else if n = "--scales" then c.args.scales.map .ints
  else if n = "--calibration_start_year" then c.calibrationStart.map .int
  else if n = "--calibration_end_year" then c.calibrationEnd.map .int
  else if n = "--netcdf_precip" then c.args.netcdfPrecip.map .str
  else if n = "--var_name_precip" then c.args.varNamePrecip.map .str
  else if n = "--netcdf_temp" then c.args.netcdfTemp.map .str
  else if n = "--var_name_temp" then c.args.varNameTemp.map .str
  else if n = "--netcdf_pet" then c.args.netcdfPet.map .str
  else if n = "--var_name_pet" then c.args.varNamePet.map .str
  else if n = "--netcdf_awc" then c.args.netcdfAwc.map .str
  else if n = "--var_name_awc" then c.args.varNameAwc.map .str
  else if n = "--output_file_base" then some (.str c.args.outputFileBase)
  else if n = "--multiprocessing" then some (.str (mpText c.multiprocessing))
  else if n = "--chunksizes" then some (.str c.chunksizes)
  else none

theorem plain_int (n : Int) : Plain (toString n) := by
  cases n with
  | ofNat n =>
    left
    obtain ⟨d1, d2⟩ := toString_digits n
    show (toString n).toList.head? ≠ some '-'
    intro h
    have := d2 '-' (List.mem_of_mem_head? (by simpa using h))
    revert this
    decide
  | negSucc n => exact .inr (.inr ⟨n + 1, rfl⟩)

theorem forall₂_toString {toInt : String → Option Int} (ht : ∀ n : Int, toInt (toString n) = some n) (l : List Int) :
    List.Forall₂ (fun s n => toInt s = some n) (l.map toString) l := by
  induction l with
  | nil => exact .nil
  | cons a t ih => exact .cons (ht a) ih

/-- the texts mean the values -/
theorem main_proper {toInt : String → Option Int} (ht : ∀ n : Int, toInt (toString n) = some n) {j : String → Bool} {c : MainCommand} (hc : Writable j c) {o : Opt} (ho : o ∈ mainOpts)
    {vs : List String} (hv : mainTexts c o.name = some vs) : ∃ v, mainVals c o.name = some v ∧ Proper toInt mainOpts ⟨o, vs, j o.name⟩ v := by
  have htext : ∀ s, (j o.name = false → ∀ t, s = some t → Plain t) → o.kind = .one → o.type = .str → o.choices = [] → s.map (fun t => [t]) = some vs →
      ∃ v, s.map ArgVal.str = some v ∧ Proper toInt mainOpts ⟨o, vs, j o.name⟩ v := by
    intro s hs h1 h2 h3 h4
    cases s with
    | none => cases h4
    | some t =>
      cases h4
      exact ⟨.str t, rfl, ho, .text o t h1 h2 (.inl h3), fun _ => ⟨t, rfl⟩, fun hj t' ht' => (by rw [List.mem_singleton.1 ht']; exact hs hj _ rfl)⟩
  have hyear : ∀ y : Option Int, o.kind = .one → o.type = .int → y.map (fun t => [toString t]) = some vs →
      ∃ v, y.map ArgVal.int = some v ∧ Proper toInt mainOpts ⟨o, vs, j o.name⟩ v := by
    intro y h1 h2 h4
    cases y with
    | none => cases h4
    | some t =>
      cases h4
      exact ⟨.int t, rfl, ho, .number o _ t h1 h2 (ht t), fun _ => ⟨_, rfl⟩, fun _ t' ht' => (by rw [List.mem_singleton.1 ht']; exact plain_int t)⟩
  have hchoice : ∀ s, o.kind = .one → o.type = .str → s ∈ o.choices → Plain s → some [s] = some vs → ∃ v, some (ArgVal.str s) = some v ∧ Proper toInt mainOpts ⟨o, vs, j o.name⟩ v := by
    intro s h1 h2 h3 h5 h4
    cases h4
    exact ⟨.str s, rfl, ho, .text o s h1 h2 (.inr h3), fun _ => ⟨_, rfl⟩, fun _ t' ht' => (by rw [List.mem_singleton.1 ht']; exact h5)⟩
  have hpl : ∀ l : List String, (∀ s ∈ l, s.toList.head? ≠ some '-') → ∀ s ∈ l, Plain s := fun l h s hs => .inl (h s hs)
  have hcases := ho
  simp only [mainOpts, helpOpts, List.cons_append, List.nil_append, List.mem_cons, List.not_mem_nil, or_false] at hcases
  rcases hcases with rfl | rfl | rfl | rfl | rfl | rfl | rfl | rfl | rfl | rfl | rfl | rfl | rfl | rfl | rfl | rfl | rfl | rfl
  · cases hv
  · cases hv
  · exact hchoice _ rfl rfl hc.index (hpl ["spi", "spei", "pnp", "scaled", "pet", "palmers", "all"] (by decide) _ hc.index) hv
  · have hp := hc.periodicity
    have hv : some [if c.args.periodicity = .daily then "daily" else "monthly"] = some vs := hv
    cases hper : c.args.periodicity with
    | other => exact absurd hper hp
    | monthly =>
      rw [hper] at hv
      cases hv
      exact ⟨.per .monthly, by show some (ArgVal.per c.args.periodicity) = _; rw [hper], ho, .monthly _ rfl rfl, fun _ => ⟨_, rfl⟩, fun _ t ht => (by
        rw [List.mem_singleton.1 ht]; exact .inl (by decide))⟩
    | daily =>
      rw [hper] at hv
      cases hv
      exact ⟨.per .daily, by show some (ArgVal.per c.args.periodicity) = _; rw [hper], ho, .daily _ rfl rfl, fun _ => ⟨_, rfl⟩, fun _ t ht => (by
        rw [List.mem_singleton.1 ht]; exact .inl (by decide))⟩
  · have hv : c.args.scales.map (fun l => l.map toString) = some vs := hv
    show ∃ v, c.args.scales.map ArgVal.ints = some v ∧ _
    cases hs : c.args.scales with
    | none => rw [hs] at hv; cases hv
    | some l =>
      rw [hs] at hv
      cases hv
      refine ⟨.ints l, rfl, ho, .numbers _ _ l rfl (forall₂_toString ht l), fun h => absurd (hc.scales.symm.trans h) (by decide), fun _ t ht => ?_⟩
      obtain ⟨n, _, rfl⟩ := List.mem_map.1 ht
      exact plain_int n
  · exact hyear _ rfl rfl hv
  · exact hyear _ rfl rfl hv
  · exact htext _ (hc.texts ("--netcdf_precip", c.args.netcdfPrecip) (by simp)) rfl rfl rfl hv
  · exact htext _ (hc.texts ("--var_name_precip", c.args.varNamePrecip) (by simp)) rfl rfl rfl hv
  · exact htext _ (hc.texts ("--netcdf_temp", c.args.netcdfTemp) (by simp)) rfl rfl rfl hv
  · exact htext _ (hc.texts ("--var_name_temp", c.args.varNameTemp) (by simp)) rfl rfl rfl hv
  · exact htext _ (hc.texts ("--netcdf_pet", c.args.netcdfPet) (by simp)) rfl rfl rfl hv
  · exact htext _ (hc.texts ("--var_name_pet", c.args.varNamePet) (by simp)) rfl rfl rfl hv
  · exact htext _ (hc.texts ("--netcdf_awc", c.args.netcdfAwc) (by simp)) rfl rfl rfl hv
  · exact htext _ (hc.texts ("--var_name_awc", c.args.varNameAwc) (by simp)) rfl rfl rfl hv
  · exact htext (some c.args.outputFileBase) (hc.texts ("--output_file_base", some c.args.outputFileBase) (by simp)) rfl rfl rfl hv
  · cases hm : c.multiprocessing
    all_goals
      have hv : some [mpText c.multiprocessing] = some vs := hv
      show ∃ v, some (ArgVal.str (mpText c.multiprocessing)) = some v ∧ _
      rw [hm] at hv ⊢
      exact hchoice _ rfl rfl (by decide) (.inl (by decide)) hv
  · exact hchoice _ rfl rfl hc.chunksizes (hpl ["none", "input"] (by decide) _ hc.chunksizes) hv

/-- the settings of the command line that gives the arguments `c` -/
def mainSettings (j : String → Bool) (c : MainCommand) : List Setting := mainOpts.filterMap (fun o => (mainTexts c o.name).map (fun vs => ⟨o, vs, j o.name⟩))

theorem commandLine_settings (j : String → Bool) (c : MainCommand) : commandLine j c = (mainSettings j c).flatMap Setting.written := by
  unfold commandLine mainSettings
  generalize mainOpts = l
  induction l with
  | nil => rfl
  | cons o l ih =>
    rw [List.flatMap_cons, List.filterMap_cons, ih]
    cases mainTexts c o.name with
    | none => rfl
    | some vs => simp

/-- the value of an option that was given once -/
theorem find_main (j : String → Bool) (c : MainCommand) {o : Opt} (ho : o ∈ mainOpts) :
    (mainSettings j c).reverse.find? (fun g => g.option.name = o.name) = (mainTexts c o.name).map (fun vs => ⟨o, vs, j o.name⟩) := by
  have hnd : (mainOpts.map Opt.name).Nodup := by decide +kernel
  cases h : (mainSettings j c).reverse.find? (fun g => g.option.name = o.name) with
  | none =>
    cases hv : mainTexts c o.name with
    | none => rfl
    | some vs =>
      have := List.find?_eq_none.1 h ⟨o, vs, j o.name⟩ (by
        rw [List.mem_reverse]
        exact List.mem_filterMap.2 ⟨o, ho, by rw [hv]; rfl⟩)
      simp at this
  | some g =>
    have h1 : g ∈ mainSettings j c := by simpa using List.mem_of_find?_eq_some h
    have h2 : g.option.name = o.name := by simpa using List.find?_some h
    obtain ⟨o', ho', hg⟩ := List.mem_filterMap.1 h1
    cases hv : mainTexts c o'.name with
    | none => rw [hv] at hg; cases hg
    | some vs =>
      rw [hv] at hg
      cases hg
      have : o' = o := List.inj_on_of_nodup_map hnd ho' ho h2
      subst this
      rw [hv]
      rfl

/-- **C105, main tool.** The command line that gives some arguments in the documented way is read as these arguments: index, periodicity, scales, years, files, names and
number of workers, whatever they are (`int()` reads what `str()` writes). The values may be separate arguments or joined by `=`; texts that begin with a dash need the
latter (`C105_dash_fails`). -/
theorem C105_main (toInt : String → Option Int) (ht : ∀ n : Int, toInt (toString n) = some n) (j : String → Bool) (c : MainCommand) (hc : Writable j c) :
    readMain toInt (commandLine j c) = .ok c := by
  have hex : ∀ g ∈ mainSettings j c, Proper toInt mainOpts g ((mainVals c g.option.name).getD .flag) := by
    intro g hg
    obtain ⟨o, ho, hg⟩ := List.mem_filterMap.1 hg
    cases hv : mainTexts c o.name with
    | none => rw [hv] at hg; cases hg
    | some vs =>
      rw [hv] at hg
      cases hg
      obtain ⟨v, h1, h2⟩ := main_proper ht hc ho hv
      show Proper toInt mainOpts ⟨o, vs, j o.name⟩ ((mainVals c o.name).getD .flag)
      rw [h1]
      exact h2
  obtain ⟨ns, h1, h2⟩ := C105_read toInt mainOpts (.inl rfl) (mainSettings j c) (fun g => (mainVals c g.option.name).getD .flag) hex (by
    have hr : ∀ o ∈ mainOpts, o.required = true → o.name = "--index" ∨ o.name = "--periodicity" ∨ o.name = "--output_file_base" := by decide +kernel
    intro o ho hreq
    have : ∃ vs, mainTexts c o.name = some vs := by
      rcases hr o ho hreq with h | h | h <;> rw [h] <;> exact ⟨_, rfl⟩
    obtain ⟨vs, hvs⟩ := this
    exact ⟨⟨o, vs, j o.name⟩, List.mem_filterMap.2 ⟨o, ho, by rw [hvs]; rfl⟩, rfl⟩)
  have key : ∀ o ∈ mainOpts, List.lookup o.name ns = mainVals c o.name := by
    intro o ho
    rw [h2, find_main j c ho]
    cases hv : mainTexts c o.name with
    | some vs =>
      obtain ⟨v, e, _⟩ := main_proper ht hc ho hv
      simp [e]
    | none =>
      rw [Option.map_none, Option.map_none]
      have hcases := ho
      simp only [mainOpts, helpOpts, List.cons_append, List.nil_append, List.mem_cons, List.not_mem_nil, or_false] at hcases
      rcases hcases with rfl | rfl | rfl | rfl | rfl | rfl | rfl | rfl | rfl | rfl | rfl | rfl | rfl | rfl | rfl | rfl | rfl | rfl
      all_goals first
        | rfl
        | (exfalso; exact Option.some_ne_none _ hv)
        | (have hv' := Option.map_eq_none_iff.1 hv; symm; exact Option.map_eq_none_iff.2 hv')
  have hstr : ∀ n, (∃ o ∈ mainOpts, o.name = n) → List.lookup n ns = mainVals c n := by
    rintro n ⟨o, ho, rfl⟩
    exact key o ho
  have s1 : ∀ n (x : Option String), List.lookup n ns = x.map ArgVal.str → ns.str n = x := by
    intro n x h
    unfold Namespace.str
    rw [h]
    cases x <;> rfl
  have s2 : ∀ n (x : Option Int), List.lookup n ns = x.map ArgVal.int → ns.int n = x := by
    intro n x h
    unfold Namespace.int
    rw [h]
    cases x <;> rfl
  have s3 : ∀ n (x : Option (List Int)), List.lookup n ns = x.map ArgVal.ints → ns.ints n = x := by
    intro n x h
    unfold Namespace.ints
    rw [h]
    cases x <;> rfl
  have s4 : ns.per "--periodicity" = c.args.periodicity := by
    unfold Namespace.per
    rw [hstr "--periodicity" (by decide +kernel)]
    rfl
  have s5 : ∀ m, mpOf (mpText m) = m := by intro m; cases m <;> rfl
  rw [commandLine_settings]
  unfold readMain
  rw [h1]
  simp only [bind, Except.bind, pure, Except.pure]
  rw [s1 "--index" (some c.args.index) (hstr _ (by decide +kernel)), s1 "--netcdf_precip" _ (hstr _ (by decide +kernel)), s1 "--var_name_precip" _ (hstr _ (by decide +kernel)),
    s1 "--netcdf_temp" _ (hstr _ (by decide +kernel)), s1 "--var_name_temp" _ (hstr _ (by decide +kernel)), s1 "--netcdf_pet" _ (hstr _ (by decide +kernel)),
    s1 "--var_name_pet" _ (hstr _ (by decide +kernel)), s1 "--netcdf_awc" _ (hstr _ (by decide +kernel)), s1 "--var_name_awc" _ (hstr _ (by decide +kernel)),
    s1 "--output_file_base" (some c.args.outputFileBase) (hstr _ (by decide +kernel)), s1 "--multiprocessing" (some (mpText c.multiprocessing)) (hstr _ (by decide +kernel)),
    s1 "--chunksizes" (some c.chunksizes) (hstr _ (by decide +kernel)), s2 "--calibration_start_year" _ (hstr _ (by decide +kernel)),
    s2 "--calibration_end_year" _ (hstr _ (by decide +kernel)), s3 "--scales" _ (hstr _ (by decide +kernel)), s4]
  simp only [Option.getD_some, s5]

/-! ## The documented options of the SPI tool -/

/-- the texts with which the arguments `c` of the SPI tool are given, by option -/
def spiTexts (c : SpiCommand) (n : String) : Option (List String) :=
  if n = "--periodicity" then some [if c.args.periodicity = .daily then "daily" else "monthly"]
  else if n = "--scales" then c.args.scales.map (fun l => l.map toString)
  else if n = "--calibration_start_year" then c.calibrationStart.map (fun y => [toString y])
  else if n = "--calibration_end_year" then c.calibrationEnd.map (fun y => [toString y])
  else if n = "--netcdf_precip" then c.args.netcdfPrecip.map (fun s => [s])
  else if n = "--var_name_precip" then c.args.varNamePrecip.map (fun s => [s])
  else if n = "--output_file_base" then some [c.outputFileBase]
  else if n = "--multiprocessing" then some [mpText c.multiprocessing]
  else if n = "--load_params" then c.args.loadParams.map (fun s => [s])
  else if n = "--save_params" then c.args.saveParams.map (fun s => [s])
  else if n = "--overwrite" then (if c.args.overwrite then some [] else none)
  else none

/-- the command line that gives the arguments `c` of the SPI tool; for the options `n` with `j n` in the form `--option=value` -/
def spiCommandLine (j : String → Bool) (c : SpiCommand) : List String :=
  spiOpts.flatMap (fun o => match spiTexts c o.name with | some vs => Setting.written ⟨o, vs, j o.name⟩ | none => [])

/-- the arguments can be written on a command line; texts that begin with a dash in the form `--option=value` -/
structure SpiWritable (j : String → Bool) (c : SpiCommand) : Prop where
  scales : j "--scales" = false ∧ j "--overwrite" = false
  periodicity : c.args.periodicity ≠ .other
  texts : ∀ p ∈ [("--netcdf_precip", c.args.netcdfPrecip), ("--var_name_precip", c.args.varNamePrecip), ("--output_file_base", some c.outputFileBase), ("--load_params", c.args.loadParams),
    ("--save_params", c.args.saveParams)], j p.1 = false → ∀ t, p.2 = some t → Plain t

/-- the meaning of the texts, by option -/
def spiVals (c : SpiCommand) (n : String) : Option ArgVal :=
  if n = "--periodicity" then some (.per c.args.periodicity)
  else if n = "--scales" then c.args.scales.map .ints
  else if n = "--calibration_start_year" then c.calibrationStart.map .int
  else if n = "--calibration_end_year" then c.calibrationEnd.map .int
  else if n = "--netcdf_precip" then c.args.netcdfPrecip.map .str
  else if n = "--var_name_precip" then c.args.varNamePrecip.map .str
  else if n = "--output_file_base" then some (.str c.outputFileBase)
  else if n = "--multiprocessing" then some (.str (mpText c.multiprocessing))
  else if n = "--load_params" then c.args.loadParams.map .str
  else if n = "--save_params" then c.args.saveParams.map .str
  else if n = "--overwrite" then (if c.args.overwrite then some .flag else none)
  else none

/-- the texts mean the values -/
theorem spi_proper {toInt : String → Option Int} (ht : ∀ n : Int, toInt (toString n) = some n) {j : String → Bool} {c : SpiCommand} (hc : SpiWritable j c) {o : Opt} (ho : o ∈ spiOpts)
    {vs : List String} (hv : spiTexts c o.name = some vs) : ∃ v, spiVals c o.name = some v ∧ Proper toInt spiOpts ⟨o, vs, j o.name⟩ v := by
  have htext : ∀ s, (j o.name = false → ∀ t, s = some t → Plain t) → o.kind = .one → o.type = .str → o.choices = [] → s.map (fun t => [t]) = some vs →
      ∃ v, s.map ArgVal.str = some v ∧ Proper toInt spiOpts ⟨o, vs, j o.name⟩ v := by
    intro s hs h1 h2 h3 h4
    cases s with
    | none => cases h4
    | some t =>
      cases h4
      exact ⟨.str t, rfl, ho, .text o t h1 h2 (.inl h3), fun _ => ⟨t, rfl⟩, fun hj t' ht' => (by rw [List.mem_singleton.1 ht']; exact hs hj _ rfl)⟩
  have hyear : ∀ y : Option Int, o.kind = .one → o.type = .int → y.map (fun t => [toString t]) = some vs →
      ∃ v, y.map ArgVal.int = some v ∧ Proper toInt spiOpts ⟨o, vs, j o.name⟩ v := by
    intro y h1 h2 h4
    cases y with
    | none => cases h4
    | some t =>
      cases h4
      exact ⟨.int t, rfl, ho, .number o _ t h1 h2 (ht t), fun _ => ⟨_, rfl⟩, fun _ t' ht' => (by rw [List.mem_singleton.1 ht']; exact plain_int t)⟩
  have hchoice : ∀ s, o.kind = .one → o.type = .str → s ∈ o.choices → Plain s → some [s] = some vs → ∃ v, some (ArgVal.str s) = some v ∧ Proper toInt spiOpts ⟨o, vs, j o.name⟩ v := by
    intro s h1 h2 h3 h5 h4
    cases h4
    exact ⟨.str s, rfl, ho, .text o s h1 h2 (.inr h3), fun _ => ⟨_, rfl⟩, fun _ t' ht' => (by rw [List.mem_singleton.1 ht']; exact h5)⟩
  have hpl : ∀ l : List String, (∀ s ∈ l, s.toList.head? ≠ some '-') → ∀ s ∈ l, Plain s := fun l h s hs => .inl (h s hs)
  have hcases := ho
  simp only [spiOpts, helpOpts, List.cons_append, List.nil_append, List.mem_cons, List.not_mem_nil, or_false] at hcases
  rcases hcases with rfl | rfl | rfl | rfl | rfl | rfl | rfl | rfl | rfl | rfl | rfl | rfl | rfl
  · cases hv
  · cases hv
  · have hp := hc.periodicity
    have hv : some [if c.args.periodicity = .daily then "daily" else "monthly"] = some vs := hv
    cases hper : c.args.periodicity with
    | other => exact absurd hper hp
    | monthly =>
      rw [hper] at hv
      cases hv
      exact ⟨.per .monthly, by show some (ArgVal.per c.args.periodicity) = _; rw [hper], ho, .monthly _ rfl rfl, fun _ => ⟨_, rfl⟩, fun _ t ht => (by
        rw [List.mem_singleton.1 ht]; exact .inl (by decide))⟩
    | daily =>
      rw [hper] at hv
      cases hv
      exact ⟨.per .daily, by show some (ArgVal.per c.args.periodicity) = _; rw [hper], ho, .daily _ rfl rfl, fun _ => ⟨_, rfl⟩, fun _ t ht => (by
        rw [List.mem_singleton.1 ht]; exact .inl (by decide))⟩
  · have hv : c.args.scales.map (fun l => l.map toString) = some vs := hv
    show ∃ v, c.args.scales.map ArgVal.ints = some v ∧ _
    cases hs : c.args.scales with
    | none => rw [hs] at hv; cases hv
    | some l =>
      rw [hs] at hv
      cases hv
      refine ⟨.ints l, rfl, ho, .numbers _ _ l rfl (forall₂_toString ht l), fun h => absurd (hc.scales.1.symm.trans h) (by decide), fun _ t ht => ?_⟩
      obtain ⟨n, _, rfl⟩ := List.mem_map.1 ht
      exact plain_int n
  · exact hyear _ rfl rfl hv
  · exact hyear _ rfl rfl hv
  · exact htext _ (hc.texts ("--netcdf_precip", c.args.netcdfPrecip) (by simp)) rfl rfl rfl hv
  · exact htext _ (hc.texts ("--var_name_precip", c.args.varNamePrecip) (by simp)) rfl rfl rfl hv
  · exact htext (some c.outputFileBase) (hc.texts ("--output_file_base", some c.outputFileBase) (by simp)) rfl rfl rfl hv
  · cases hm : c.multiprocessing
    all_goals
      have hv : some [mpText c.multiprocessing] = some vs := hv
      show ∃ v, some (ArgVal.str (mpText c.multiprocessing)) = some v ∧ _
      rw [hm] at hv ⊢
      exact hchoice _ rfl rfl (by decide) (.inl (by decide)) hv
  · exact htext _ (hc.texts ("--load_params", c.args.loadParams) (by simp)) rfl rfl rfl hv
  · exact htext _ (hc.texts ("--save_params", c.args.saveParams) (by simp)) rfl rfl rfl hv
  · have hv : (if c.args.overwrite then some ([] : List String) else none) = some vs := hv
    show ∃ v, (if c.args.overwrite then some ArgVal.flag else none) = some v ∧ _
    cases ho' : c.args.overwrite with
    | false => rw [ho'] at hv; cases hv
    | true =>
      rw [ho'] at hv
      cases hv
      exact ⟨.flag, rfl, ho, .flag _ rfl, fun h => absurd (hc.scales.2.symm.trans h) (by decide), fun _ t ht => (by cases ht)⟩

/-- the settings of the command line that gives the arguments `c` -/
def spiSettings (j : String → Bool) (c : SpiCommand) : List Setting := spiOpts.filterMap (fun o => (spiTexts c o.name).map (fun vs => ⟨o, vs, j o.name⟩))

theorem spiCommandLine_settings (j : String → Bool) (c : SpiCommand) : spiCommandLine j c = (spiSettings j c).flatMap Setting.written := by
  unfold spiCommandLine spiSettings
  generalize spiOpts = l
  induction l with
  | nil => rfl
  | cons o l ih =>
    rw [List.flatMap_cons, List.filterMap_cons, ih]
    cases spiTexts c o.name with
    | none => rfl
    | some vs => simp

/-- the value of an option that was given once -/
theorem find_spi (j : String → Bool) (c : SpiCommand) {o : Opt} (ho : o ∈ spiOpts) :
    (spiSettings j c).reverse.find? (fun g => g.option.name = o.name) = (spiTexts c o.name).map (fun vs => ⟨o, vs, j o.name⟩) := by
  have hnd : (spiOpts.map Opt.name).Nodup := by decide +kernel
  cases h : (spiSettings j c).reverse.find? (fun g => g.option.name = o.name) with
  | none =>
    cases hv : spiTexts c o.name with
    | none => rfl
    | some vs =>
      have := List.find?_eq_none.1 h ⟨o, vs, j o.name⟩ (by
        rw [List.mem_reverse]
        exact List.mem_filterMap.2 ⟨o, ho, by rw [hv]; rfl⟩)
      simp at this
  | some g =>
    have h1 : g ∈ spiSettings j c := by simpa using List.mem_of_find?_eq_some h
    have h2 : g.option.name = o.name := by simpa using List.find?_some h
    obtain ⟨o', ho', hg⟩ := List.mem_filterMap.1 h1
    cases hv : spiTexts c o'.name with
    | none => rw [hv] at hg; cases hg
    | some vs =>
      rw [hv] at hg
      cases hg
      have : o' = o := List.inj_on_of_nodup_map hnd ho' ho h2
      subst this
      rw [hv]
      rfl

/-- **C105, SPI tool.** The command line that gives some arguments in the documented way is read as these arguments: periodicity, scales, years, files, names, flag and
number of workers, whatever they are (`int()` reads what `str()` writes). The values may be separate arguments or joined by `=`; texts that begin with a dash need the
latter (`C105_dash_fails`). -/
theorem C105_spi (toInt : String → Option Int) (ht : ∀ n : Int, toInt (toString n) = some n) (j : String → Bool) (c : SpiCommand) (hc : SpiWritable j c) :
    readSpi toInt (spiCommandLine j c) = .ok c := by
  have hex : ∀ g ∈ spiSettings j c, Proper toInt spiOpts g ((spiVals c g.option.name).getD .flag) := by
    intro g hg
    obtain ⟨o, ho, hg⟩ := List.mem_filterMap.1 hg
    cases hv : spiTexts c o.name with
    | none => rw [hv] at hg; cases hg
    | some vs =>
      rw [hv] at hg
      cases hg
      obtain ⟨v, h1, h2⟩ := spi_proper ht hc ho hv
      show Proper toInt spiOpts ⟨o, vs, j o.name⟩ ((spiVals c o.name).getD .flag)
      rw [h1]
      exact h2
  obtain ⟨ns, h1, h2⟩ := C105_read toInt spiOpts (.inr rfl) (spiSettings j c) (fun g => (spiVals c g.option.name).getD .flag) hex (by
    have hr : ∀ o ∈ spiOpts, o.required = true → o.name = "--periodicity" ∨ o.name = "--output_file_base" := by decide +kernel
    intro o ho hreq
    have : ∃ vs, spiTexts c o.name = some vs := by
      rcases hr o ho hreq with h | h <;> rw [h] <;> exact ⟨_, rfl⟩
    obtain ⟨vs, hvs⟩ := this
    exact ⟨⟨o, vs, j o.name⟩, List.mem_filterMap.2 ⟨o, ho, by rw [hvs]; rfl⟩, rfl⟩)
  have key : ∀ o ∈ spiOpts, List.lookup o.name ns = spiVals c o.name := by
    intro o ho
    rw [h2, find_spi j c ho]
    cases hv : spiTexts c o.name with
    | some vs =>
      obtain ⟨v, e, _⟩ := spi_proper ht hc ho hv
      simp [e]
    | none =>
      rw [Option.map_none, Option.map_none]
      have hcases := ho
      simp only [spiOpts, helpOpts, List.cons_append, List.nil_append, List.mem_cons, List.not_mem_nil, or_false] at hcases
      rcases hcases with rfl | rfl | rfl | rfl | rfl | rfl | rfl | rfl | rfl | rfl | rfl | rfl | rfl
      all_goals first
        | rfl
        | (exfalso; exact Option.some_ne_none _ hv)
        | (have hv' : (if c.args.overwrite then some ([] : List String) else none) = none := hv
           show none = (if c.args.overwrite then some ArgVal.flag else none)
           cases ho' : c.args.overwrite with
           | false => rfl
           | true => rw [ho'] at hv'; cases hv')
        | (have hv' := Option.map_eq_none_iff.1 hv; symm; exact Option.map_eq_none_iff.2 hv')
  have hstr : ∀ n, (∃ o ∈ spiOpts, o.name = n) → List.lookup n ns = spiVals c n := by
    rintro n ⟨o, ho, rfl⟩
    exact key o ho
  have s1 : ∀ n (x : Option String), List.lookup n ns = x.map ArgVal.str → ns.str n = x := by
    intro n x h
    unfold Namespace.str
    rw [h]
    cases x <;> rfl
  have s2 : ∀ n (x : Option Int), List.lookup n ns = x.map ArgVal.int → ns.int n = x := by
    intro n x h
    unfold Namespace.int
    rw [h]
    cases x <;> rfl
  have s3 : ∀ n (x : Option (List Int)), List.lookup n ns = x.map ArgVal.ints → ns.ints n = x := by
    intro n x h
    unfold Namespace.ints
    rw [h]
    cases x <;> rfl
  have s4 : ns.per "--periodicity" = c.args.periodicity := by
    unfold Namespace.per
    rw [hstr "--periodicity" (by decide +kernel)]
    rfl
  have s5 : ∀ m, mpOf (mpText m) = m := by intro m; cases m <;> rfl
  rw [spiCommandLine_settings]
  unfold readSpi
  rw [h1]
  simp only [bind, Except.bind, pure, Except.pure]
  have s6 : (List.lookup "--overwrite" ns).isSome = c.args.overwrite := by
    rw [hstr "--overwrite" (by decide +kernel)]
    show (if c.args.overwrite then some ArgVal.flag else none).isSome = c.args.overwrite
    cases c.args.overwrite <;> rfl
  rw [s1 "--netcdf_precip" _ (hstr _ (by decide +kernel)), s1 "--var_name_precip" _ (hstr _ (by decide +kernel)),
    s1 "--load_params" _ (hstr _ (by decide +kernel)), s1 "--save_params" _ (hstr _ (by decide +kernel)),
    s1 "--output_file_base" (some c.outputFileBase) (hstr _ (by decide +kernel)), s1 "--multiprocessing" (some (mpText c.multiprocessing)) (hstr _ (by decide +kernel)),
    s2 "--calibration_start_year" _ (hstr _ (by decide +kernel)),
    s2 "--calibration_end_year" _ (hstr _ (by decide +kernel)), s3 "--scales" _ (hstr _ (by decide +kernel)), s4, s6]
  simp only [Option.getD_some, s5]

/-! ## Arguments that are refused -/

theorem consume_ex {toInt : String → Option Int} : ∀ {toks : List (String × Tok)} {ns : Namespace} {p : Pending} {r : Namespace × Bool},
    consume toInt toks ns true p = .ok r → r.2 = true
  | [], ns, p, r, h => by
    unfold consume at h
    cases hf : flush toInt p ns with
    | error e => rw [hf] at h; cases h
    | ok ns' => rw [hf] at h; cases h; rfl
  | (s, .value) :: rest, ns, p, r, h => by
    unfold consume at h
    cases p with
    | none => exact consume_ex h
    | one o =>
      dsimp only at h
      cases hv : convertValue toInt o s with
      | error e => rw [hv] at h; cases h
      | ok v => rw [hv] at h; exact consume_ex h
    | many o vals => exact consume_ex h
  | (s, .opt o e) :: rest, ns, p, r, h => by
    unfold consume at h
    cases hf : flush toInt p ns with
    | error e => rw [hf] at h; cases h
    | ok ns' =>
      rw [hf] at h
      simp only [bind, Except.bind] at h
      cases hs : start toInt o e ns' with
      | error e => rw [hs] at h; cases h
      | ok q => rw [hs] at h; exact consume_ex h
  | (s, .short cs) :: rest, ns, p, r, h => by
    unfold consume at h
    cases hf : flush toInt p ns with
    | error e => rw [hf] at h; cases h
    | ok ns' =>
      rw [hf] at h
      simp only [bind, Except.bind] at h
      split at h <;> cases h
  | (s, .dashes) :: rest, ns, p, r, h => by
    unfold consume at h
    cases hf : flush toInt p ns with
    | error e => rw [hf] at h; cases h
    | ok ns' => rw [hf] at h; exact consume_ex h
  | (s, .unknown) :: rest, ns, p, r, h => by
    unfold consume at h
    cases hf : flush toInt p ns with
    | error e => rw [hf] at h; cases h
    | ok ns' => rw [hf] at h; exact consume_ex h

/-- an unknown option or `--` is reported -/
theorem consume_bad {toInt : String → Option Int} : ∀ {toks : List (String × Tok)} {ns : Namespace} {ex : Bool} {p : Pending} {r : Namespace × Bool},
    (∃ q ∈ toks, q.2 = .unknown ∨ q.2 = .dashes) → consume toInt toks ns ex p = .ok r → r.2 = true
  | [], _, _, _, _, hb, _ => by obtain ⟨q, hq, _⟩ := hb; cases hq
  | (s, .value) :: rest, ns, ex, p, r, hb, h => by
    have hb' : ∃ q ∈ rest, q.2 = .unknown ∨ q.2 = .dashes := by
      obtain ⟨q, hq, hq'⟩ := hb
      rcases List.mem_cons.1 hq with rfl | hq
      · rcases hq' with h | h <;> cases h
      · exact ⟨q, hq, hq'⟩
    unfold consume at h
    cases p with
    | none => exact consume_bad hb' h
    | one o =>
      dsimp only at h
      cases hv : convertValue toInt o s with
      | error e => rw [hv] at h; cases h
      | ok v => rw [hv] at h; exact consume_bad hb' h
    | many o vals => exact consume_bad hb' h
  | (s, .opt o e) :: rest, ns, ex, p, r, hb, h => by
    have hb' : ∃ q ∈ rest, q.2 = .unknown ∨ q.2 = .dashes := by
      obtain ⟨q, hq, hq'⟩ := hb
      rcases List.mem_cons.1 hq with rfl | hq
      · rcases hq' with h | h <;> cases h
      · exact ⟨q, hq, hq'⟩
    unfold consume at h
    cases hf : flush toInt p ns with
    | error e => rw [hf] at h; cases h
    | ok ns' =>
      rw [hf] at h
      simp only [bind, Except.bind] at h
      cases hs : start toInt o e ns' with
      | error e => rw [hs] at h; cases h
      | ok q => rw [hs] at h; exact consume_bad hb' h
  | (s, .short cs) :: rest, ns, ex, p, r, hb, h => by
    unfold consume at h
    cases hf : flush toInt p ns with
    | error e => rw [hf] at h; cases h
    | ok ns' =>
      rw [hf] at h
      simp only [bind, Except.bind] at h
      split at h <;> cases h
  | (s, .dashes) :: rest, ns, ex, p, r, hb, h => by
    unfold consume at h
    cases hf : flush toInt p ns with
    | error e => rw [hf] at h; cases h
    | ok ns' => rw [hf] at h; exact consume_ex h
  | (s, .unknown) :: rest, ns, ex, p, r, hb, h => by
    unfold consume at h
    cases hf : flush toInt p ns with
    | error e => rw [hf] at h; cases h
    | ok ns' => rw [hf] at h; exact consume_ex h

/-- what the arguments were taken for: in order, up to `--` -/
theorem classify_mem {opts : List Opt} : ∀ {argv : List String} {toks : List (String × Tok)}, classify opts argv = .ok toks → ∀ a ∈ argv,
    (∃ q ∈ toks, q.2 = .dashes) ∨ a ≠ "--" ∧ ∃ t, parseOptional opts a = .ok t ∧ (a, t) ∈ toks
  | [], _, _, a, ha => by cases ha
  | b :: rest, toks, h, a, ha => by
    unfold classify at h
    by_cases hb : b = "--"
    · rw [if_pos hb] at h
      cases h
      exact .inl ⟨_, List.mem_cons_self, rfl⟩
    · rw [if_neg hb] at h
      cases hp : parseOptional opts b with
      | error e => rw [hp] at h; cases h
      | ok t =>
        rw [hp] at h
        simp only [bind, Except.bind] at h
        cases hc : classify opts rest with
        | error e => rw [hc] at h; cases h
        | ok ts =>
          rw [hc] at h
          cases h
          rcases List.mem_cons.1 ha with rfl | ha
          · exact .inr ⟨hb, t, hp, List.mem_cons_self⟩
          · rcases classify_mem hc a ha with ⟨q, hq, hq'⟩ | ⟨h1, t', h2, h3⟩
            · exact .inl ⟨q, List.mem_cons_of_mem _ hq, hq'⟩
            · exact .inr ⟨h1, t', h2, List.mem_cons_of_mem _ h3⟩

/-- a single argument that is taken for an unknown option, or is refused, spoils the command line -/
theorem parseArgs_bad {toInt : String → Option Int} {opts : List Opt} {argv : List String} {a : String} (ha : a ∈ argv)
    (hb : a = "--" ∨ parseOptional opts a = .ok .unknown ∨ ∃ e, parseOptional opts a = .error e) : ∃ e, parseArgs toInt opts argv = .error e := by
  cases hr : parseArgs toInt opts argv with
  | error e => exact ⟨e, rfl⟩
  | ok ns =>
    exfalso
    unfold parseArgs at hr
    cases hc : classify opts argv with
    | error e => rw [hc] at hr; cases hr
    | ok toks =>
      rw [hc] at hr
      simp only [bind, Except.bind] at hr
      have hbad : ∃ q ∈ toks, q.2 = .unknown ∨ q.2 = .dashes := by
        rcases classify_mem hc a ha with ⟨q, h1, h2⟩ | ⟨h1, t, h2, h3⟩
        · exact ⟨q, h1, .inr h2⟩
        · rcases hb with h | h | ⟨e, h⟩
          · exact absurd h h1
          · rw [h] at h2
            cases h2
            exact ⟨_, h3, .inl rfl⟩
          · rw [h] at h2
            cases h2
      cases hk : consume toInt toks [] false .none with
      | error e => rw [hk] at hr; cases hr
      | ok r =>
        have := consume_bad hbad hk
        obtain ⟨ns', ex⟩ := r
        cases this
        rw [hk] at hr
        dsimp only at hr
        rw [if_pos rfl] at hr
        split at hr <;> cases hr

/-- the part of an argument before `=` -/
def beforeEq (a : String) : String := String.ofList (a.toList.takeWhile (· ≠ '='))

theorem split_fst {l : List Char} {q : List Char × List Char} (h : splitEq l = some q) : q.1 = l.takeWhile (· ≠ '=') := by
  unfold splitEq at h
  rw [List.span_eq_takeWhile_dropWhile] at h
  split at h
  · cases h
  · next e => cases h; exact (Prod.mk.inj e).1.symm

theorem split_none {l : List Char} (h : splitEq l = none) : l = l.takeWhile (· ≠ '=') := by
  unfold splitEq at h
  rw [List.span_eq_takeWhile_dropWhile] at h
  split at h
  · next e =>
    have h2 := (Prod.mk.inj e).2
    have := List.takeWhile_append_dropWhile (p := fun c => decide (c ≠ '=')) (l := l)
    rw [h2, List.append_nil] at this
    exact this.symm
  · cases h

/-- the recognition of an argument that begins with two dashes -/
theorem parse_long {opts : List Opt} {a : String} {t : List Char} (hl : a.toList = '-' :: '-' :: t) (hn : ∀ o ∈ opts, o.name ≠ beforeEq a) (hna : ∀ o ∈ opts, o.name ≠ a) :
    parseOptional opts a = match (opts.filter (fun o => (beforeEq a).toList.isPrefixOf o.name.toList)).map (fun o => Tok.opt o ((splitEq a.toList).map (fun q => String.ofList q.2))) with
      | [t] => .ok t
      | _ :: _ :: _ => .error .usage
      | [] => .ok (if ' ' ∈ a.toList then .value else .unknown) := by
  have hbe : (beforeEq a).toList = a.toList.takeWhile (· ≠ '=') := by unfold beforeEq; rw [String.toList_ofList]
  unfold parseOptional
  rw [hl]
  dsimp only
  rw [if_neg (by simp), find_none hna]
  dsimp only
  rw [if_neg (by simp)]
  have h1 : ((splitEq ('-' :: '-' :: t)).bind (fun p => (opts.find? (fun o => o.name = String.ofList p.1)).map (fun o => (o, p.2)))) = none := by
    cases hs : splitEq ('-' :: '-' :: t) with
    | none => rfl
    | some q =>
      rw [Option.bind_some, split_fst hs, ← hl]
      rw [find_none (s := String.ofList (a.toList.takeWhile (· ≠ '='))) hn]
      rfl
  rw [h1]
  dsimp only
  have h2 : optionTuples opts ('-' :: '-' :: t) =
      (opts.filter (fun o => (beforeEq a).toList.isPrefixOf o.name.toList)).map (fun o => Tok.opt o ((splitEq ('-' :: '-' :: t)).map (fun q => String.ofList q.2))) := by
    unfold optionTuples
    dsimp only
    rw [hbe, hl]
    cases hs : splitEq ('-' :: '-' :: t) with
    | none => dsimp only; rw [← split_none hs]; rfl
    | some q =>
      obtain ⟨q1, q2⟩ := q
      have := split_fst hs
      dsimp only at this ⊢
      rw [this]
      rfl
  have h3 : isNegativeNumber ('-' :: '-' :: t) = false := rfl
  rw [h2, h3]
  rfl

/-- **C105, unknown options.** An argument that begins with two dashes and whose text before `=` is not the beginning of the name of an option (and that has no space) is never
accepted, nor is the argument `--` itself: misspelt options are not ignored. -/
theorem C105_unknown (toInt : String → Option Int) (opts : List Opt) (argv : List String) (a : String) (ha : a ∈ argv) (hd : ['-', '-'] <+: a.toList) (hs : ' ' ∉ a.toList)
    (hn : a ≠ "--" → ∀ o ∈ opts, ¬ (beforeEq a).toList <+: o.name.toList) : ∃ e, parseArgs toInt opts argv = .error e := by
  by_cases h : a = "--"
  · exact parseArgs_bad ha (.inl h)
  · obtain ⟨t, ht⟩ := hd
    have hl : a.toList = '-' :: '-' :: t := ht.symm
    have hn := hn h
    refine parseArgs_bad ha (.inr (.inl ?_))
    rw [parse_long hl (fun o ho e => hn o ho (by rw [← e])) (fun o ho e => hn o ho (by
      unfold beforeEq
      rw [String.toList_ofList, e]
      exact List.takeWhile_prefix _))]
    have : opts.filter (fun o => (beforeEq a).toList.isPrefixOf o.name.toList) = [] := by
      rw [List.filter_eq_nil_iff]
      intro o ho hp
      exact hn o ho (List.isPrefixOf_iff_prefix.1 hp)
    rw [this]
    show Except.ok (if ' ' ∈ a.toList then Tok.value else Tok.unknown) = _
    rw [if_neg hs]

/-- **C105, ambiguous abbreviations.** A text that is the beginning of the names of two options and not itself a name is refused. -/
theorem C105_ambiguous (toInt : String → Option Int) (opts : List Opt) (ho : opts = mainOpts ∨ opts = spiOpts) (argv : List String) (a : String) (ha : a ∈ argv)
    (hd : ['-', '-'] <+: a.toList) (o1 o2 : Opt) (h1 : o1 ∈ opts) (h2 : o2 ∈ opts) (h12 : o1 ≠ o2) (hp1 : (beforeEq a).toList <+: o1.name.toList)
    (hp2 : (beforeEq a).toList <+: o2.name.toList) (hn : ∀ o ∈ opts, o.name ≠ beforeEq a) : ∃ e, parseArgs toInt opts argv = .error e := by
  have ht : Table opts := by rcases ho with rfl | rfl; exacts [table_main, table_spi]
  obtain ⟨t, htl⟩ := hd
  refine parseArgs_bad ha (.inr (.inr ⟨.usage, ?_⟩))
  rw [parse_long htl.symm hn (fun o ho' e => hn o ho' (by
    have := (ht.shape o ho').1
    rw [e] at this
    unfold beforeEq
    rw [take_all _ (by
      intro c hc
      simp only [decide_not, Bool.not_eq_eq_eq_not, Bool.not_true, decide_eq_false_iff_not]
      rintro rfl
      exact this hc), String.ofList_toList, e]))]
  have m1 : o1 ∈ opts.filter (fun o => (beforeEq a).toList.isPrefixOf o.name.toList) := List.mem_filter.2 ⟨h1, List.isPrefixOf_iff_prefix.2 hp1⟩
  have m2 : o2 ∈ opts.filter (fun o => (beforeEq a).toList.isPrefixOf o.name.toList) := List.mem_filter.2 ⟨h2, List.isPrefixOf_iff_prefix.2 hp2⟩
  generalize opts.filter (fun o => (beforeEq a).toList.isPrefixOf o.name.toList) = l at m1 m2
  match l with
  | [] => cases m1
  | [x] => exact absurd ((List.mem_singleton.1 m1).trans (List.mem_singleton.1 m2).symm) h12
  | _ :: _ :: _ => rfl

/-! ## Abbreviations -/

theorem parse_prefix {opts : List Opt} (ht : Table opts) {o : Opt} (ho : o ∈ opts) {p : String} (hd : ['-', '-'] <+: p.toList) (hp : p.toList <+: o.name.toList)
    (hu : ∀ o' ∈ opts, p.toList <+: o'.name.toList → o' = o) :
    parseOptional opts p = .ok (.opt o none) ∧ ∀ v, parseOptional opts (p ++ "=" ++ v) = .ok (.opt o (some v)) := by
  by_cases hpo : o.name = p
  · subst hpo
    exact ⟨ht.name o ho, fun v => parse_joined ht ho v⟩
  · obtain ⟨t, htl⟩ := hd
    have hne : ∀ o' ∈ opts, o'.name ≠ p := fun o' ho' e => hpo (by rw [← hu o' ho' (by rw [e]), e])
    have heq : '=' ∉ p.toList := fun h => (ht.shape o ho).1 (hp.subset h)
    have hall : ∀ c ∈ p.toList, decide (c ≠ '=') = true := by
      intro c hc
      simp only [decide_not, Bool.not_eq_eq_eq_not, Bool.not_true, decide_eq_false_iff_not]
      rintro rfl
      exact heq hc
    have hfil : opts.filter (fun o => p.toList.isPrefixOf o.name.toList) = [o] := by
      have : opts.filter (fun o => p.toList.isPrefixOf o.name.toList) = opts.filter (· == o) := by
        refine List.filter_congr (fun o' ho' => ?_)
        by_cases e : o' = o
        · subst e
          rw [List.isPrefixOf_iff_prefix.2 hp, beq_self_eq_true]
        · rw [beq_eq_false_iff_ne.2 e, Bool.eq_false_iff]
          exact fun h => e (hu o' ho' (List.isPrefixOf_iff_prefix.1 h))
      rw [this, List.filter_beq, List.count_eq_one_of_mem ht.nodup ho]
      rfl
    have hbe : beforeEq p = p := by
      unfold beforeEq
      rw [take_all _ hall, String.ofList_toList]
    have hl : ∀ v : String, (p ++ "=" ++ v).toList = p.toList ++ '=' :: v.toList := by
      intro v
      rw [String.toList_append, String.toList_append, List.append_assoc]; rfl
    have hbe' : ∀ v, beforeEq (p ++ "=" ++ v) = p := by
      intro v
      unfold beforeEq
      have := span_append (p := fun c => decide (c ≠ '=')) p.toList '=' v.toList hall (by decide)
      rw [List.span_eq_takeWhile_dropWhile] at this
      rw [hl, (Prod.mk.inj this).1, String.ofList_toList]
    constructor
    · have hsp : splitEq p.toList = none := by
        unfold splitEq
        rw [span_all _ hall]
      rw [parse_long htl.symm (by rw [hbe]; exact hne) hne, hbe, hfil, hsp]
      rfl
    · intro v
      have hsp : splitEq (p ++ "=" ++ v).toList = some (p.toList, v.toList) := by
        unfold splitEq
        rw [hl, span_append (p := fun c => decide (c ≠ '=')) p.toList '=' v.toList hall (by decide)]
      rw [parse_long (a := p ++ "=" ++ v) (t := t ++ '=' :: v.toList) (by rw [hl, ← htl]; rfl) (by rw [hbe']; exact hne) (fun o' ho' e => by
        have := (ht.shape o' ho').1
        rw [e, hl] at this
        simp at this), hbe', hfil, hsp]
      simp

/-- the same argument, or an option by a beginning of its name that belongs to no other option -/
inductive Abbrev (opts : List Opt) : String → String → Prop
  | same (a : String) : Abbrev opts a a
  | separate (o : Opt) (p : String) : o ∈ opts → ['-', '-'] <+: p.toList → p ≠ "--" → p.toList <+: o.name.toList → (∀ o' ∈ opts, p.toList <+: o'.name.toList → o' = o) →
      Abbrev opts p o.name
  | joined (o : Opt) (p v : String) : o ∈ opts → ['-', '-'] <+: p.toList → p.toList <+: o.name.toList → (∀ o' ∈ opts, p.toList <+: o'.name.toList → o' = o) →
      Abbrev opts (p ++ "=" ++ v) (o.name ++ "=" ++ v)

/-- tokens that are consumed alike -/
inductive Alike : List (String × Tok) → List (String × Tok) → Prop
  | nil : Alike [] []
  | cons (a b : String) (t : Tok) {l l' : List (String × Tok)} : (t = .value → a = b) → Alike l l' → Alike ((a, t) :: l) ((b, t) :: l')
  | dashes (a : String) (l l' : List String) : Alike ((a, .dashes) :: l.map (fun s => (s, .value))) ((a, .dashes) :: l'.map (fun s => (s, .value)))

theorem consume_rest (toInt : String → Option Int) (ns : Namespace) : ∀ l : List String, consume toInt (l.map (fun s => (s, .value))) ns true .none = .ok (ns, true)
  | [] => rfl
  | _ :: t => by
    rw [List.map_cons]
    unfold consume
    exact consume_rest toInt ns t

theorem consume_alike {toInt : String → Option Int} {l l' : List (String × Tok)} (h : Alike l l') : ∀ ns ex p, consume toInt l ns ex p = consume toInt l' ns ex p := by
  induction h with
  | nil => intros; rfl
  | dashes a l l' =>
    intro ns ex p
    unfold consume
    cases flush toInt p ns with
    | error e => rfl
    | ok ns' =>
      simp only [bind, Except.bind]
      rw [consume_rest, consume_rest]
  | cons a b t hab _ ih =>
    intro ns ex p
    cases t with
    | value =>
      rw [hab rfl]
      unfold consume
      cases p with
      | none => exact ih _ _ _
      | one o =>
        dsimp only
        cases convertValue toInt o b with
        | error e => rfl
        | ok v => exact ih _ _ _
      | many o vals => exact ih _ _ _
    | opt o e =>
      unfold consume
      simp only [ih]
    | short cs =>
      unfold consume
      rfl
    | dashes =>
      unfold consume
      simp only [ih]
    | unknown =>
      unfold consume
      simp only [ih]

/-- **C105, abbreviations.** A command line in which some options are given by a beginning of their name that belongs to no other option is read as the one with the full names. -/
theorem C105_abbrev (toInt : String → Option Int) (opts : List Opt) (ho : opts = mainOpts ∨ opts = spiOpts) (argv argv' : List String)
    (h : List.Forall₂ (Abbrev opts) argv argv') : parseArgs toInt opts argv = parseArgs toInt opts argv' := by
  have ht : Table opts := by rcases ho with rfl | rfl; exacts [table_main, table_spi]
  have key : (∃ e, classify opts argv = .error e ∧ classify opts argv' = .error e) ∨
      ∃ l l', classify opts argv = .ok l ∧ classify opts argv' = .ok l' ∧ Alike l l' := by
    induction h with
    | nil => exact .inr ⟨_, _, rfl, rfl, .nil⟩
    | @cons a b as bs hab hrest ih =>
      by_cases hd : a = "--" ∧ b = "--"
      · obtain ⟨rfl, rfl⟩ := hd
        exact .inr ⟨_, _, if_pos rfl, if_pos rfl, .dashes _ _ _⟩
      · have hp : a ≠ "--" ∧ b ≠ "--" ∧ (a = b ∨ ∃ o e, parseOptional opts a = .ok (.opt o e) ∧ parseOptional opts b = .ok (.opt o e)) := by
          cases hab with
          | same => exact ⟨fun e => hd ⟨e, e⟩, fun e => hd ⟨e, e⟩, .inl rfl⟩
          | separate o p ho' hdd hpd hpo hu =>
            exact ⟨hpd, (ht.shape o ho').2.1, .inr ⟨o, none, (parse_prefix ht ho' hdd hpo hu).1, ht.name o ho'⟩⟩
          | joined o p v ho' hdd hpo hu =>
            have hj : ∀ q : String, q ++ "=" ++ v ≠ "--" := by
              intro q e
              have := congrArg String.toList e
              rw [String.toList_append, String.toList_append] at this
              have hm : '=' ∈ "--".toList := by rw [← this]; simp
              revert hm
              decide
            exact ⟨hj p, hj o.name, .inr ⟨o, some v, (parse_prefix ht ho' hdd hpo hu).2 v, parse_joined ht ho' v⟩⟩
        obtain ⟨ha, hb, hp⟩ := hp
        unfold classify
        rw [if_neg ha, if_neg hb]
        rcases hp with rfl | ⟨o, e, h1, h2⟩
        · cases parseOptional opts a with
          | error e => exact .inl ⟨e, rfl, rfl⟩
          | ok t =>
            rcases ih with ⟨e, e1, e2⟩ | ⟨l, l', e1, e2, hl⟩
            · rw [e1, e2]; exact .inl ⟨e, rfl, rfl⟩
            · rw [e1, e2]; exact .inr ⟨_, _, rfl, rfl, .cons _ _ _ (fun _ => rfl) hl⟩
        · rw [h1, h2]
          rcases ih with ⟨e, e1, e2⟩ | ⟨l, l', e1, e2, hl⟩
          · rw [e1, e2]; exact .inl ⟨e, rfl, rfl⟩
          · rw [e1, e2]; exact .inr ⟨_, _, rfl, rfl, .cons _ _ _ (fun h => by cases h) hl⟩
  unfold parseArgs
  rcases key with ⟨e, e1, e2⟩ | ⟨l, l', e1, e2, hl⟩
  · rw [e1, e2]
  · rw [e1, e2]
    simp only [bind, Except.bind]
    rw [consume_alike hl]

/-! ## Values that begin with a dash -/

theorem consume_dash {toInt : String → Option Int} {n v : String} {o : Opt} {t : Tok} {rest : List (String × Tok)} (hk : o.kind = .one) (ht : t ≠ .value) :
    ∀ (l : List (String × Tok)) (ns : Namespace) (ex : Bool) (p : Pending), ∃ e, consume toInt (l ++ (n, .opt o none) :: (v, t) :: rest) ns ex p = .error e
  | [], ns, ex, p => by
    rw [List.nil_append]
    unfold consume
    cases flush toInt p ns with
    | error e => exact ⟨e, rfl⟩
    | ok ns' =>
      simp only [bind, Except.bind]
      rw [show start toInt o none ns' = .ok (ns', .one o) by unfold start; rw [hk]]
      dsimp only
      cases t with
      | value => exact absurd rfl ht
      | opt o' e => exact ⟨.usage, rfl⟩
      | short cs => exact ⟨.usage, rfl⟩
      | dashes => exact ⟨.usage, rfl⟩
      | unknown => exact ⟨.usage, rfl⟩
  | (s, .value) :: l, ns, ex, p => by
    rw [List.cons_append]
    unfold consume
    cases p with
    | none => exact consume_dash hk ht l _ _ _
    | one o' =>
      dsimp only
      cases convertValue toInt o' s with
      | error e => exact ⟨e, rfl⟩
      | ok v => exact consume_dash hk ht l _ _ _
    | many o' vals => exact consume_dash hk ht l _ _ _
  | (s, .opt o' e) :: l, ns, ex, p => by
    rw [List.cons_append]
    unfold consume
    cases flush toInt p ns with
    | error e => exact ⟨e, rfl⟩
    | ok ns' =>
      simp only [bind, Except.bind]
      cases start toInt o' e ns' with
      | error e => exact ⟨e, rfl⟩
      | ok q => exact consume_dash hk ht l _ _ _
  | (s, .short cs) :: l, ns, ex, p => by
    rw [List.cons_append]
    unfold consume
    cases flush toInt p ns with
    | error e => exact ⟨e, rfl⟩
    | ok ns' =>
      simp only [bind, Except.bind]
      split <;> exact ⟨_, rfl⟩
  | (s, .dashes) :: l, ns, ex, p => by
    rw [List.cons_append]
    unfold consume
    cases flush toInt p ns with
    | error e => exact ⟨e, rfl⟩
    | ok ns' => exact consume_dash hk ht l _ _ _
  | (s, .unknown) :: l, ns, ex, p => by
    rw [List.cons_append]
    unfold consume
    cases flush toInt p ns with
    | error e => exact ⟨e, rfl⟩
    | ok ns' => exact consume_dash hk ht l _ _ _

theorem classify_append {opts : List Opt} : ∀ {l : List String} {r : List String} {toks : List (String × Tok)}, "--" ∉ l → classify opts (l ++ r) = .ok toks →
    ∃ t1 t2, toks = t1 ++ t2 ∧ classify opts r = .ok t2
  | [], r, toks, _, h => ⟨[], toks, rfl, h⟩
  | a :: l, r, toks, hn, h => by
    rw [List.cons_append] at h
    unfold classify at h
    rw [if_neg (fun e => hn (by rw [e]; exact List.mem_cons_self))] at h
    cases hp : parseOptional opts a with
    | error e => rw [hp] at h; cases h
    | ok t =>
      rw [hp] at h
      simp only [bind, Except.bind] at h
      cases hc : classify opts (l ++ r) with
      | error e => rw [hc] at h; cases h
      | ok ts =>
        rw [hc] at h
        cases h
        obtain ⟨t1, t2, e1, e2⟩ := classify_append (fun hm => hn (List.mem_cons_of_mem _ hm)) hc
        exact ⟨(a, t) :: t1, t2, by rw [e1]; rfl, e2⟩

/-- **C105, values that begin with a dash** (for them the claim is false). As a separate argument after an option with one value a text that begins with a dash and a character that
is neither a digit nor a point, and that has no space, is never accepted as the value: the command line is refused, whatever else it contains. (The form `--option=value` is
read, `C105_read`.) -/
theorem C105_dash_fails (toInt : String → Option Int) (opts : List Opt) (ho : opts = mainOpts ∨ opts = spiOpts) (before after : List String) (o : Opt) (hoo : o ∈ opts)
    (hk : o.kind = .one) (v : String) (c : Char) (t : List Char) (hv : v.toList = '-' :: c :: t) (hc : c.isDigit = false) (hc' : c ≠ '.') (hsp : ' ' ∉ v.toList) :
    ∃ e, parseArgs toInt opts (before ++ o.name :: v :: after) = .error e := by
  have ht : Table opts := by rcases ho with rfl | rfl; exacts [table_main, table_spi]
  by_cases hd : "--" ∈ before
  · exact parseArgs_bad (List.mem_append_left _ hd) (.inl rfl)
  by_cases hvd : v = "--"
  · exact parseArgs_bad (a := v) (by simp) (.inl hvd)
  cases hp : parseOptional opts v with
  | error e => exact parseArgs_bad (a := v) (by simp) (.inr (.inr ⟨e, hp⟩))
  | ok tok =>
    have htok : tok ≠ .value := by
      rintro rfl
      unfold parseOptional at hp
      rw [hv] at hp
      dsimp only at hp
      rw [if_neg (by simp)] at hp
      split at hp
      · cases hp
      · rw [if_neg (by simp)] at hp
        split at hp
        · cases hp
        · have hneg : isNegativeNumber ('-' :: c :: t) = false := by
            show (match (List.span Char.isDigit (c :: t)).2 with
              | [] => !(List.span Char.isDigit (c :: t)).1.isEmpty
              | '.' :: c => !c.isEmpty && c.all Char.isDigit
              | _ => false) = false
            rw [List.span_eq_takeWhile_dropWhile, List.takeWhile_cons, List.dropWhile_cons, hc]
            show (match c :: t with
              | [] => !([] : List Char).isEmpty
              | '.' :: c => !c.isEmpty && c.all Char.isDigit
              | _ => false) = false
            split
            · next h => cases h
            · next h => cases h; exact absurd rfl hc'
            · rfl
          rw [hv] at hsp
          split at hp
          · next e =>
            cases hp
            have hm : Tok.value ∈ optionTuples opts ('-' :: c :: t) := by rw [e]; simp
            unfold optionTuples at hm
            split at hm
            · obtain ⟨_, _, h⟩ := List.mem_map.1 hm
              cases h
            · obtain ⟨o', _, h⟩ := List.mem_filterMap.1 hm
              split at h
              · cases h
              · split at h <;> cases h
          · cases hp
          · rw [hneg, if_neg (by simp), if_neg hsp] at hp
            cases hp
    unfold parseArgs
    cases hcl : classify opts (before ++ o.name :: v :: after) with
    | error e => exact ⟨e, rfl⟩
    | ok toks =>
      obtain ⟨t1, t2, rfl, h2⟩ := classify_append hd hcl
      unfold classify at h2
      rw [if_neg (ht.shape o hoo).2.1, ht.name o hoo] at h2
      simp only [bind, Except.bind] at h2
      unfold classify at h2
      rw [if_neg hvd, hp] at h2
      simp only [bind, Except.bind] at h2
      cases hr : classify opts after with
      | error e => rw [hr] at h2; cases h2
      | ok ts =>
        rw [hr] at h2
        cases h2
        obtain ⟨e, he⟩ := consume_dash (toInt := toInt) (n := o.name) (v := v) (rest := ts) hk htok t1 [] false .none
        exact ⟨e, by simp only [bind, Except.bind]; rw [he]⟩

/-! ## Nothing else is accepted -/

theorem convert_means {toInt : String → Option Int} {o : Opt} {s : String} {v : ArgVal} (hk : o.kind = .one) (h : convertValue toInt o s = .ok v) : Means toInt o [s] v := by
  unfold convertValue at h
  split at h
  · next ht =>
    split at h
    · next hc => cases h; exact .text o s hk ht hc
    · cases h
  · next ht =>
    split at h
    · next n hn => cases h; exact .number o s n hk ht hn
    · cases h
  · next ht =>
    unfold periodicityFromString at h
    by_cases h1 : s = "monthly"
    · rw [if_pos h1] at h
      cases h
      rw [h1]
      exact .monthly o hk ht
    · rw [if_neg h1] at h
      by_cases h2 : s = "daily"
      · rw [if_pos h2] at h
        cases h
        rw [h2]
        exact .daily o hk ht
      · rw [if_neg h2] at h
        cases h

theorem forall₂_mapM {toInt : String → Option Int} : ∀ {l : List String} {ns : List Int}, l.mapM toInt = some ns → List.Forall₂ (fun s n => toInt s = some n) l ns
  | [], ns, h => by
    rw [List.mapM_nil] at h
    cases h
    exact .nil
  | a :: t, ns, h => by
    rw [List.mapM_cons] at h
    cases ha : toInt a with
    | none => rw [ha] at h; cases h
    | some n =>
      rw [ha] at h
      cases hb : t.mapM toInt with
      | none => rw [hb] at h; cases h
      | some ns' =>
        rw [hb] at h
        cases h
        exact .cons ha (forall₂_mapM hb)

theorem convertMany_means {toInt : String → Option Int} {o : Opt} {l : List String} {v : ArgVal} (hk : o.kind = .many) (h : convertMany toInt l = .ok v) : Means toInt o l v := by
  unfold convertMany at h
  cases hl : l.mapM toInt with
  | none => rw [hl] at h; cases h
  | some ns => rw [hl] at h; cases h; exact .numbers o l ns hk (forall₂_mapM hl)

/-- tokens that spell others: the same kinds, the same values -/
def Spell (q r : String × Tok) : Prop := q.2 = r.2 ∧ (q.2 = .value → q.1 = r.1)

theorem spell_refl (l : List (String × Tok)) : List.Forall₂ Spell l l := List.forall₂_same.2 (fun _ _ => ⟨rfl, fun _ => rfl⟩)

/-- the settings behind tokens that were consumed -/
structure Parsed (toInt : String → Option Int) (toks : List (String × Tok)) (gs : List (Setting × ArgVal)) : Prop where
  spelt : List.Forall₂ Spell toks (gs.flatMap (fun g => g.1.toks))
  means : ∀ g ∈ gs, Means toInt g.1.option g.1.values g.2
  one : ∀ g ∈ gs, g.1.joined = true → ∃ s, g.1.values = [s]

/-- the namespace after settings -/
def noted (gs : List (Setting × ArgVal)) : Namespace := gs.reverse.map (fun g => (g.1.option.name, g.2))

theorem parsed_cons {toInt : String → Option Int} {toks rest : List (String × Tok)} {gs : List (Setting × ArgVal)} (g : Setting × ArgVal)
    (h1 : List.Forall₂ Spell toks g.1.toks) (h2 : Means toInt g.1.option g.1.values g.2) (h3 : g.1.joined = true → ∃ s, g.1.values = [s]) (h : Parsed toInt rest gs) :
    Parsed toInt (toks ++ rest) (g :: gs) := by
  refine ⟨by rw [List.flatMap_cons]; exact List.rel_append h1 h.spelt, ?_, ?_⟩
  · intro x hx
    rcases List.mem_cons.1 hx with rfl | hx
    exacts [h2, h.means x hx]
  · intro x hx
    rcases List.mem_cons.1 hx with rfl | hx
    exacts [h3, h.one x hx]

theorem noted_cons (g : Setting × ArgVal) (gs : List (Setting × ArgVal)) (ns : Namespace) : noted (g :: gs) ++ ns = noted gs ++ (g.1.option.name, g.2) :: ns := by
  unfold noted
  rw [List.reverse_cons, List.map_append, List.append_assoc]
  rfl

theorem consume_inv {toInt : String → Option Int} : ∀ (toks : List (String × Tok)) (ns ns' : Namespace),
    (∀ ex, consume toInt toks ns ex .none = .ok (ns', false) → ∃ gs, Parsed toInt toks gs ∧ ns' = noted gs ++ ns) ∧
    (∀ ex o, o.kind = .one → consume toInt toks ns ex (.one o) = .ok (ns', false) →
      ∃ s v rest gs, toks = (s, .value) :: rest ∧ Means toInt o [s] v ∧ Parsed toInt rest gs ∧ ns' = noted gs ++ (o.name, v) :: ns) ∧
    (∀ ex o vals, o.kind = .many → consume toInt toks ns ex (.many o vals) = .ok (ns', false) →
      ∃ vs v rest gs, toks = vs.map (fun s => (s, .value)) ++ rest ∧ Means toInt o (vals ++ vs) v ∧ Parsed toInt rest gs ∧ ns' = noted gs ++ (o.name, v) :: ns) := by
  intro toks
  induction toks with
  | nil =>
    intro ns ns'
    refine ⟨?_, ?_, ?_⟩
    · intro ex h
      cases h
      exact ⟨[], ⟨.nil, fun _ h => (by cases h), fun _ h => (by cases h)⟩, rfl⟩
    · intro ex o _ h
      cases h
    · intro ex o vals hk h
      unfold consume flush at h
      simp only [bind, Except.bind, pure, Except.pure] at h
      cases hv : convertMany toInt vals with
      | error e => rw [hv] at h; cases h
      | ok v =>
        rw [hv] at h
        cases h
        exact ⟨[], v, [], [], rfl, by rw [List.append_nil]; exact convertMany_means hk hv, ⟨.nil, fun _ h => (by cases h), fun _ h => (by cases h)⟩, rfl⟩
  | cons q rest ih =>
    obtain ⟨s, t⟩ := q
    have start_none : ∀ (o : Opt) (e : Option String) (ns ns' : Namespace) (ex : Bool) (t0 : Tok), t0 = .opt o e →
        (do let (ns, p) ← start toInt o e ns; consume toInt rest ns ex p) = Except.ok (ns', false) → ∃ gs, Parsed toInt ((s, t0) :: rest) gs ∧ ns' = noted gs ++ ns := by
      intro o e ns ns' ex t0 ht0 h
      subst ht0
      simp only [bind, Except.bind] at h
      cases hk : o.kind with
      | one =>
        cases e with
        | none =>
          rw [show start toInt o none ns = .ok (ns, .one o) by unfold start; rw [hk]] at h
          dsimp only at h
          obtain ⟨s', v, rest', gs, rfl, hm, hp, rfl⟩ := (ih _ _).2.1 _ _ hk h
          refine ⟨(⟨o, [s'], false⟩, v) :: gs, ?_, by rw [noted_cons]⟩
          exact parsed_cons (toks := [(s, .opt o none), (s', .value)]) (⟨o, [s'], false⟩, v)
            (.cons ⟨rfl, fun h => by cases h⟩ (.cons ⟨rfl, fun _ => rfl⟩ .nil)) hm (fun h => by cases h) hp
        | some v0 =>
          rw [show start toInt o (some v0) ns = (do let v ← convertValue toInt o v0; pure ((o.name, v) :: ns, .none)) by unfold start; rw [hk]] at h
          simp only [bind, Except.bind, pure, Except.pure] at h
          cases hv : convertValue toInt o v0 with
          | error e => rw [hv] at h; cases h
          | ok v =>
            rw [hv] at h
            obtain ⟨gs, hp, rfl⟩ := (ih _ _).1 _ h
            refine ⟨(⟨o, [v0], true⟩, v) :: gs, ?_, by rw [noted_cons]⟩
            exact parsed_cons (toks := [(s, .opt o (some v0))]) (⟨o, [v0], true⟩, v) (.cons ⟨rfl, fun h => by cases h⟩ .nil) (convert_means hk hv) (fun _ => ⟨_, rfl⟩) hp
      | many =>
        cases e with
        | none =>
          rw [show start toInt o none ns = .ok (ns, .many o []) by unfold start; rw [hk]] at h
          dsimp only at h
          obtain ⟨vs, v, rest', gs, rfl, hm, hp, rfl⟩ := (ih _ _).2.2 _ _ _ hk h
          refine ⟨(⟨o, vs, false⟩, v) :: gs, ?_, by rw [noted_cons]⟩
          exact parsed_cons (toks := (s, .opt o none) :: vs.map (fun s => (s, .value))) (⟨o, vs, false⟩, v)
            (.cons ⟨rfl, fun h => by cases h⟩ (spell_refl _)) (by simpa using hm) (fun h => by cases h) hp
        | some v0 =>
          rw [show start toInt o (some v0) ns = (do let v ← convertMany toInt [v0]; pure ((o.name, v) :: ns, .none)) by unfold start; rw [hk]] at h
          simp only [bind, Except.bind, pure, Except.pure] at h
          cases hv : convertMany toInt [v0] with
          | error e => rw [hv] at h; cases h
          | ok v =>
            rw [hv] at h
            obtain ⟨gs, hp, rfl⟩ := (ih _ _).1 _ h
            refine ⟨(⟨o, [v0], true⟩, v) :: gs, ?_, by rw [noted_cons]⟩
            exact parsed_cons (toks := [(s, .opt o (some v0))]) (⟨o, [v0], true⟩, v) (.cons ⟨rfl, fun h => by cases h⟩ .nil) (convertMany_means hk hv) (fun _ => ⟨_, rfl⟩) hp
      | flag =>
        cases e with
        | none =>
          rw [show start toInt o none ns = .ok ((o.name, .flag) :: ns, .none) by unfold start; rw [hk]] at h
          dsimp only at h
          obtain ⟨gs, hp, rfl⟩ := (ih _ _).1 _ h
          refine ⟨(⟨o, [], false⟩, .flag) :: gs, ?_, by rw [noted_cons]⟩
          exact parsed_cons (toks := [(s, .opt o none)]) (⟨o, [], false⟩, .flag) (.cons ⟨rfl, fun h => by cases h⟩ .nil) (.flag o hk) (fun h => by cases h) hp
        | some v0 =>
          rw [show start toInt o (some v0) ns = .error .usage by unfold start; rw [hk]] at h
          cases h
      | help =>
        cases e with
        | none =>
          rw [show start toInt o none ns = .error .help by unfold start; rw [hk]] at h
          cases h
        | some v0 =>
          rw [show start toInt o (some v0) ns = .error .usage by unfold start; rw [hk]] at h
          cases h
    intro ns ns'
    refine ⟨?_, ?_, ?_⟩
    · intro ex h
      unfold consume at h
      cases t with
      | value => have := consume_ex h; cases this
      | dashes => simp only [flush, bind, Except.bind] at h; have := consume_ex h; cases this
      | unknown => simp only [flush, bind, Except.bind] at h; have := consume_ex h; cases this
      | short cs => simp only [flush, bind, Except.bind] at h; split at h <;> cases h
      | opt o e => exact start_none o e ns ns' ex _ rfl h
    · intro ex o hk h
      unfold consume at h
      cases t with
      | value =>
        simp only [bind, Except.bind] at h
        cases hv : convertValue toInt o s with
        | error e => rw [hv] at h; cases h
        | ok v =>
          rw [hv] at h
          obtain ⟨gs, hp, rfl⟩ := (ih _ _).1 _ h
          exact ⟨s, v, rest, gs, rfl, convert_means hk hv, hp, rfl⟩
      | dashes => cases h
      | unknown => cases h
      | short cs => cases h
      | opt o e => cases h
    · intro ex o vals hk h
      unfold consume at h
      cases t with
      | value =>
        obtain ⟨vs, v, rest', gs, e, hm, hp, rfl⟩ := (ih _ _).2.2 _ _ _ hk h
        exact ⟨s :: vs, v, rest', gs, by rw [e]; rfl, by rw [List.append_assoc] at hm; exact hm, hp, rfl⟩
      | dashes =>
        simp only [bind, Except.bind] at h
        split at h
        · cases h
        · have := consume_ex h; cases this
      | unknown =>
        simp only [bind, Except.bind] at h
        split at h
        · cases h
        · have := consume_ex h; cases this
      | short cs =>
        simp only [bind, Except.bind] at h
        split at h
        · cases h
        · split at h <;> cases h
      | opt o' e =>
        simp only [bind, Except.bind, flush, pure, Except.pure] at h
        cases hv : convertMany toInt vals with
        | error e => rw [hv] at h; cases h
        | ok v =>
          rw [hv] at h
          obtain ⟨gs, hp, rfl⟩ := start_none o' e ((o.name, v) :: ns) ns' ex _ rfl h
          exact ⟨[], v, _, gs, rfl, by rw [List.append_nil]; exact convertMany_means hk hv, hp, rfl⟩

theorem parse_opt_inv {opts : List Opt} (ht : Table opts) {a : String} {o : Opt} {e : Option String} (hd : a ≠ "--") (h : parseOptional opts a = .ok (.opt o e)) :
    o ∈ opts ∧ Abbrev opts a (match e with | none => o.name | some v => o.name ++ "=" ++ v) := by
  cases hl : a.toList with
  | nil => unfold parseOptional at h; rw [hl] at h; cases h
  | cons c cs =>
    unfold parseOptional at h
    rw [hl] at h
    dsimp only at h
    by_cases hc : c = '-'
    swap
    · rw [if_pos hc] at h
      cases h
    subst hc
    rw [if_neg (by simp)] at h
    cases hf : opts.find? (fun o => o.name = a) with
    | some o' =>
      rw [hf] at h
      cases h
      have h1 := List.find?_some hf
      simp only [decide_eq_true_eq] at h1
      refine ⟨List.mem_of_find?_eq_some hf, ?_⟩
      dsimp only
      rw [h1]
      exact .same a
    | none =>
      rw [hf] at h
      dsimp only at h
      by_cases hcs : cs = []
      · rw [if_pos hcs] at h
        cases h
      rw [if_neg hcs] at h
      have rejoin : ∀ q, splitEq ('-' :: cs) = some q → a = String.ofList q.1 ++ "=" ++ String.ofList q.2 := by
        intro q hq
        have hd := List.takeWhile_append_dropWhile (p := fun c => decide (c ≠ '=')) (l := a.toList)
        unfold splitEq at hq
        rw [← hl, List.span_eq_takeWhile_dropWhile] at hq
        split at hq
        · cases hq
        · next x b e =>
          cases hq
          have e1 := (Prod.mk.inj e).1
          have e2 := (Prod.mk.inj e).2
          have hx : x = '=' := by
            have := List.head?_dropWhile_not (p := fun c => decide (c ≠ '=')) (l := a.toList)
            rw [e2] at this
            simpa using this
          rw [hx] at e2
          have : (String.ofList a.toList) = String.ofList (a.toList.takeWhile (fun c => decide (c ≠ '='))) ++ "=" ++ String.ofList b := by
            apply String.toList_injective
            rw [String.toList_append, String.toList_append]
            simp only [String.toList_ofList]
            conv_lhs => rw [← hd]
            rw [e2, List.append_assoc]
            rfl
          rw [String.ofList_toList] at this
          rw [this, ← e1]
      cases hb : (splitEq ('-' :: cs)).bind (fun p => (opts.find? (fun o => o.name = String.ofList p.1)).map (fun o => (o, p.2))) with
      | some r =>
        rw [hb] at h
        obtain ⟨o', e'⟩ := r
        cases h
        obtain ⟨q, hq, hq'⟩ := Option.bind_eq_some_iff.1 hb
        obtain ⟨o'', ho'', e''⟩ := Option.map_eq_some_iff.1 hq'
        cases e''
        have h1 := List.find?_some ho''
        simp only [decide_eq_true_eq] at h1
        refine ⟨List.mem_of_find?_eq_some ho'', ?_⟩
        dsimp only
        rw [h1, ← rejoin q hq]
        exact .same a
      | none =>
        rw [hb] at h
        dsimp only at h
        cases ht' : optionTuples opts ('-' :: cs) with
        | nil =>
          rw [ht'] at h
          dsimp only at h
          have h := Except.ok.inj h
          split at h
          · cases h
          · split at h <;> cases h
        | cons t ts =>
          cases ts with
          | cons _ _ => rw [ht'] at h; cases h
          | nil =>
            rw [ht'] at h
            cases h
            obtain ⟨d, t, rfl⟩ := List.exists_cons_of_ne_nil hcs
            by_cases hdd : d = '-'
            · subst hdd
              unfold optionTuples at ht'
              dsimp only at ht'
              have single : ∀ (p : String) (e' : Option String), (opts.filter (fun o => p.toList.isPrefixOf o.name.toList)).map (fun o => Tok.opt o e') = [Tok.opt o e] →
                  e' = e ∧ o ∈ opts ∧ p.toList <+: o.name.toList ∧ ∀ o' ∈ opts, p.toList <+: o'.name.toList → o' = o := by
                intro p e' hm
                obtain ⟨o1, e1, e2⟩ := List.map_eq_singleton_iff.1 hm
                cases e2
                have m : ∀ o', o' ∈ opts.filter (fun o => p.toList.isPrefixOf o.name.toList) ↔ o' = o := by
                  intro o'
                  rw [e1, List.mem_singleton]
                have m1 := List.mem_filter.1 ((m o).2 rfl)
                exact ⟨rfl, m1.1, List.isPrefixOf_iff_prefix.1 m1.2, fun o' ho' hp => (m o').1 (List.mem_filter.2 ⟨ho', List.isPrefixOf_iff_prefix.2 hp⟩)⟩
              cases hs : splitEq ('-' :: '-' :: t) with
              | none =>
                rw [hs] at ht'
                dsimp only at ht'
                obtain ⟨rfl, h1, h2, h3⟩ := single a none (by rw [hl]; exact ht')
                exact ⟨h1, .separate o a h1 ⟨t, by rw [hl]; rfl⟩ hd h2 h3⟩
              | some q =>
                rw [hs] at ht'
                obtain ⟨q1, q2⟩ := q
                dsimp only at ht'
                obtain ⟨rfl, h1, h2, h3⟩ := single (String.ofList q1) (some (String.ofList q2)) (by rw [String.toList_ofList]; exact ht')
                have hr := rejoin _ hs
                refine ⟨h1, ?_⟩
                dsimp only at hr ⊢
                rw [hr]
                have hq := split_fst hs
                dsimp only at hq
                refine .joined o _ _ h1 ?_ h2 h3
                rw [String.toList_ofList, hq, List.takeWhile_cons_of_pos (by decide), List.takeWhile_cons_of_pos (by decide)]
                exact ⟨_, rfl⟩
            · exfalso
              have hm : Tok.opt o e ∈ optionTuples opts ('-' :: d :: t) := by rw [ht']; simp
              unfold optionTuples at hm
              split at hm
              · next heq => cases heq; exact hdd rfl
              · obtain ⟨o', ho', h1⟩ := List.mem_filterMap.1 hm
                split at h1
                · cases h1
                · split at h1
                  · next hne hp =>
                    cases h1
                    have hp := List.isPrefixOf_iff_prefix.1 hp
                    rcases ht.long _ ho' with hh | ⟨r, hr⟩
                    · rw [hh] at hp
                      have hp' : '-' :: d :: t <+: ['-', 'h'] := hp
                      have hlen := hp'.length_le
                      have ht0 : t = [] := by
                        cases t with
                        | nil => rfl
                        | cons => simp at hlen
                      subst ht0
                      have : '-' :: [d] = ['-', 'h'] := hp'.eq_of_length rfl
                      refine List.find?_eq_none.1 hf _ ho' ?_
                      simp only [decide_eq_true_eq]
                      apply String.toList_injective
                      rw [hl, this, hh]
                      rfl
                    · rw [← hr] at hp
                      obtain ⟨z, hz⟩ := hp
                      cases hz
                      exact hdd rfl
                  · cases h1

theorem forall₂_comp {α β γ : Type} {R : α → β → Prop} {S : β → γ → Prop} {T : α → γ → Prop} {l1 : List α} {l2 : List β} {l3 : List γ} (h1 : List.Forall₂ R l1 l2)
    (h2 : List.Forall₂ S l2 l3) (h : ∀ a b c, R a b → S b c → T a c) : List.Forall₂ T l1 l3 := by
  induction h1 generalizing l3 with
  | nil => cases h2; exact .nil
  | cons h' _ ih => cases h2 with | cons h'' ht => exact .cons (h _ _ _ h' h'') (ih ht)

theorem forall₂_mem {α β : Type} {R : α → β → Prop} {l : List α} {l' : List β} (h : List.Forall₂ R l l') : ∀ b ∈ l', ∃ a ∈ l, R a b := by
  induction h with
  | nil => intro b hb; cases hb
  | cons h' _ ih =>
    intro b hb
    rcases List.mem_cons.1 hb with rfl | hb
    · exact ⟨_, List.mem_cons_self, h'⟩
    · obtain ⟨a, ha, hr⟩ := ih b hb
      exact ⟨a, List.mem_cons_of_mem _ ha, hr⟩

theorem forall₂_imp_mem {α β : Type} {R S : α → β → Prop} {l : List α} {l' : List β} (h : List.Forall₂ R l l') (hi : ∀ a, ∀ b ∈ l', R a b → S a b) : List.Forall₂ S l l' := by
  induction h with
  | nil => exact .nil
  | cons h' _ ih => exact .cons (hi _ _ List.mem_cons_self h') (ih (fun a b hb => hi a b (List.mem_cons_of_mem _ hb)))

theorem toks_sep (g : Setting) (h : ¬ (g.joined = true ∧ ∃ v, g.values = [v])) :
    g.toks = (g.option.name, .opt g.option none) :: g.values.map (fun v => (v, .value)) ∧ g.written = g.option.name :: g.values := by
  unfold Setting.toks Setting.written
  constructor
  · split
    · next h1 h2 => exact absurd ⟨h1, _, h2⟩ h
    · rfl
  · split
    · next h1 h2 => exact absurd ⟨h1, _, h2⟩ h
    · rfl

theorem toks_joined (g : Setting) (v : String) (h1 : g.joined = true) (h2 : g.values = [v]) :
    g.toks = [(g.option.name ++ "=" ++ v, .opt g.option (some v))] ∧ g.written = [g.option.name ++ "=" ++ v] := by
  unfold Setting.toks Setting.written
  rw [h1, h2]
  exact ⟨rfl, rfl⟩

theorem toks_fst (g : Setting) : g.toks.map Prod.fst = g.written := by
  by_cases h : g.joined = true ∧ ∃ v, g.values = [v]
  · obtain ⟨h1, v, h2⟩ := h
    rw [(toks_joined g v h1 h2).1, (toks_joined g v h1 h2).2]
    rfl
  · rw [(toks_sep g h).1, (toks_sep g h).2]
    simp [Function.comp_def]

theorem toks_head (g : Setting) : ∃ r e, r ∈ g.toks ∧ r.2 = .opt g.option e := by
  by_cases h : g.joined = true ∧ ∃ v, g.values = [v]
  · obtain ⟨h1, v, h2⟩ := h
    rw [(toks_joined g v h1 h2).1]
    exact ⟨_, _, List.mem_cons_self, rfl⟩
  · rw [(toks_sep g h).1]
    exact ⟨_, _, List.mem_cons_self, rfl⟩

theorem toks_cases (g : Setting) : ∀ q ∈ g.toks, q.2 = .value ∨ ∃ e : Option String, q.2 = .opt g.option e ∧ q.1 = (match e with | none => g.option.name | some v => g.option.name ++ "=" ++ v) := by
  intro q hq
  by_cases h : g.joined = true ∧ ∃ v, g.values = [v]
  · obtain ⟨h1, v, h2⟩ := h
    rw [(toks_joined g v h1 h2).1, List.mem_singleton] at hq
    subst hq
    exact .inr ⟨some v, rfl, rfl⟩
  · rw [(toks_sep g h).1] at hq
    rcases List.mem_cons.1 hq with rfl | hq
    · exact .inr ⟨none, rfl, rfl⟩
    · obtain ⟨v, _, rfl⟩ := List.mem_map.1 hq
      exact .inl rfl

/-- **C105, only settings.** A command line that is accepted consists of settings of options of the table (their names possibly abbreviated), each with values of its type, and
nothing else; every value in the result is that of the last setting of the option. -/
theorem C105_only (toInt : String → Option Int) (opts : List Opt) (ho : opts = mainOpts ∨ opts = spiOpts) (argv : List String) (ns : Namespace)
    (h : parseArgs toInt opts argv = .ok ns) :
    ∃ gs : List (Setting × ArgVal), (∀ g ∈ gs, g.1.option ∈ opts ∧ Means toInt g.1.option g.1.values g.2) ∧ List.Forall₂ (Abbrev opts) argv (gs.flatMap (fun g => g.1.written)) ∧
      (∀ o ∈ opts, o.required = true → ∃ g ∈ gs, g.1.option.name = o.name) ∧
      ∀ n, List.lookup n ns = (gs.reverse.find? (fun g => g.1.option.name = n)).map (fun g => g.2) := by
  have ht : Table opts := by rcases ho with rfl | rfl; exacts [table_main, table_spi]
  have hnd : "--" ∉ argv := by
    intro hm
    obtain ⟨e, he⟩ := parseArgs_bad (toInt := toInt) (opts := opts) hm (.inl rfl)
    rw [h] at he
    cases he
  unfold parseArgs at h
  cases hc : classify opts argv with
  | error e => rw [hc] at h; cases h
  | ok toks =>
    rw [hc] at h
    simp only [bind, Except.bind] at h
    cases hk : consume toInt toks [] false .none with
    | error e => rw [hk] at h; cases h
    | ok r =>
      obtain ⟨ns', ex⟩ := r
      rw [hk] at h
      dsimp only at h
      split at h
      swap
      · cases h
      next hreq =>
      cases ex with
      | true => cases h
      | false =>
        cases h
        obtain ⟨gs, hp, hns⟩ := (consume_inv toks [] ns).1 _ hk
        rw [List.append_nil] at hns
        have hlook : ∀ n, List.lookup n ns = (gs.reverse.find? (fun g => g.1.option.name = n)).map (fun g => g.2) := by
          intro n
          rw [hns]
          unfold noted
          generalize gs.reverse = l
          induction l with
          | nil => rfl
          | cons g l ih =>
            rw [List.map_cons, List.lookup_cons, List.find?_cons]
            by_cases hn : g.1.option.name = n
            · simp [hn]
            · have hb : (n == g.1.option.name) = false := beq_eq_false_iff_ne.2 (fun e => hn e.symm)
              simp only [hn, hb, decide_false]
              exact ih
        have hall : List.Forall₂ (fun a (q : String × Tok) => q.1 = a ∧ a ≠ "--" ∧ parseOptional opts a = .ok q.2) argv toks := by
          clear hk hp hns hlook hreq
          induction argv generalizing toks with
          | nil => cases hc; exact .nil
          | cons a t ih =>
            unfold classify at hc
            rw [if_neg (fun e => hnd (by rw [e]; exact List.mem_cons_self))] at hc
            cases hpo : parseOptional opts a with
            | error e => rw [hpo] at hc; cases hc
            | ok tk =>
              rw [hpo] at hc
              simp only [bind, Except.bind] at hc
              cases hc' : classify opts t with
              | error e => rw [hc'] at hc; cases hc
              | ok ts =>
                rw [hc'] at hc
                cases hc
                exact .cons ⟨rfl, fun e => hnd (by rw [e]; exact List.mem_cons_self), hpo⟩ (ih (fun hm => hnd (List.mem_cons_of_mem _ hm)) ts hc')
        have hcomp : List.Forall₂ (fun a (q : String × Tok) => a ≠ "--" ∧ parseOptional opts a = .ok q.2 ∧ (q.2 = .value → a = q.1)) argv (gs.flatMap (fun g => g.1.toks)) :=
          forall₂_comp hall hp.spelt (fun a q r h1 h2 => ⟨h1.2.1, by rw [h1.2.2, h2.1], fun e => by rw [← h1.1]; exact h2.2 (h2.1.trans e)⟩)
        have hfst : gs.flatMap (fun g => g.1.written) = (gs.flatMap (fun g => g.1.toks)).map Prod.fst := by
          rw [List.map_flatMap]
          refine List.flatMap_congr (fun g _ => ?_)
          exact (toks_fst g.1).symm
        refine ⟨gs, ?_, ?_, ?_, hlook⟩
        · intro g hg
          refine ⟨?_, hp.means g hg⟩
          obtain ⟨r, e, hr, hr'⟩ := toks_head g.1
          obtain ⟨a, ha, ha1, ha2, _⟩ := forall₂_mem hcomp r (List.mem_flatMap.2 ⟨g, hg, hr⟩)
          rw [hr'] at ha2
          exact (parse_opt_inv ht ha1 ha2).1
        · rw [hfst, List.forall₂_map_right_iff]
          refine forall₂_imp_mem hcomp (fun a q hq h1 => ?_)
          obtain ⟨g, hg, hqg⟩ := List.mem_flatMap.1 hq
          rcases toks_cases g.1 q hqg with h2 | ⟨e, h2, h3⟩
          · rw [h1.2.2 h2]
            exact .same _
          · rw [h2] at h1
            rw [h3]
            have := (parse_opt_inv ht h1.1 h1.2.1).2
            cases e <;> exact this
        · intro o ho' hr
          have := List.all_eq_true.1 hreq o ho'
          rw [hr, hlook] at this
          simp only [Bool.not_true, Bool.false_or, Option.isSome_map] at this
          obtain ⟨g, hg⟩ := Option.isSome_iff_exists.1 this
          exact ⟨g, by simpa using List.mem_of_find?_eq_some hg, by simpa using List.find?_some hg⟩

/-! ## Concrete cases -/

/-- Lean's own reading and writing of integers satisfies the hypothesis of `C105_main_partial` -/
example : ∀ n : Int, String.toInt? (toString n) = some n := fun n => Int.toInt?_repr n

/-- the arguments of the first documented command line (docs/index.rst:254-260) -/
def docsCommand : MainCommand where
  args := {
    index := "all", periodicity := .monthly, scales := some [3, 6], netcdfPrecip := some "/data/nclimdiv.nc", varNamePrecip := some "prcp",
    netcdfTemp := some "/data/nclimdiv.nc", varNameTemp := some "tavg", netcdfPet := none, varNamePet := none, netcdfAwc := some "/data/nclimdiv.nc", varNameAwc := some "awc",
    outputFileBase := "/data/nclimdiv" }
  calibrationStart := some 1951
  calibrationEnd := some 2010
  multiprocessing := .allButOne
  chunksizes := "none"

example : Writable (fun _ => false) docsCommand :=
  ⟨rfl, by decide, by decide, by decide, by
    intro s hs _ t ht
    left
    have : ∀ s ∈ [("--netcdf_precip", docsCommand.args.netcdfPrecip), ("--var_name_precip", docsCommand.args.varNamePrecip), ("--netcdf_temp", docsCommand.args.netcdfTemp),
      ("--var_name_temp", docsCommand.args.varNameTemp), ("--netcdf_pet", docsCommand.args.netcdfPet), ("--var_name_pet", docsCommand.args.varNamePet),
      ("--netcdf_awc", docsCommand.args.netcdfAwc), ("--var_name_awc", docsCommand.args.varNameAwc), ("--output_file_base", some docsCommand.args.outputFileBase)],
      s.2.all (fun t => t.toList.head? ≠ some '-') = true := by decide +kernel
    have h := this _ hs
    rw [ht] at h
    simpa using h⟩

/-- every text can be given in the form `--option=value` -/
example (c : MainCommand) (h1 : c.args.index ∈ ["spi", "spei", "pnp", "scaled", "pet", "palmers", "all"]) (h2 : c.args.periodicity ≠ .other) (h3 : c.chunksizes ∈ ["none", "input"]) :
    Writable (fun n => n != "--scales") c :=
  ⟨rfl, h1, h2, h3, by
    intro p hp hj
    exfalso
    simp only [List.mem_cons, List.not_mem_nil, or_false] at hp
    rcases hp with rfl | rfl | rfl | rfl | rfl | rfl | rfl | rfl | rfl <;> dsimp only at hj <;> revert hj <;> decide⟩

deriving instance DecidableEq for CliArgs
deriving instance DecidableEq for MainCommand

/-- the digits of a positive number -/
def readDigits (s : String) : Option Int :=
  if s.toList ≠ [] ∧ s.toList.all Char.isDigit then some (s.toList.foldl (fun n c => 10 * n + (c.toNat - 48)) 0) else none

/-- the first documented command line, as it stands in the documentation -/
example : readMain readDigits ["--index", "all", "--periodicity", "monthly", "--scales", "3", "6", "--netcdf_precip", "/data/nclimdiv.nc", "--netcdf_temp", "/data/nclimdiv.nc",
    "--netcdf_awc", "/data/nclimdiv.nc", "--output_file_base", "/data/nclimdiv", "--var_name_precip", "prcp", "--var_name_temp", "tavg", "--var_name_awc", "awc",
    "--calibration_start_year", "1951", "--calibration_end_year", "2010"] = .ok docsCommand := by
  decide +kernel

deriving instance DecidableEq for SpiArgs
deriving instance DecidableEq for SpiCommand

/-- the command line of the SPI tool in `__spi__.py`:1466-1472 -/
example : readSpi readDigits ["--scales", "1", "2", "3", "6", "9", "12", "24", "--netcdf_precip", "/data/nclimgrid_prcp.nc", "--output_file_base", "/home/data/test/nclimgrid",
    "--var_name_precip", "prcp", "--calibration_start_year", "1951", "--calibration_end_year", "2010", "--multiprocessing", "all", "--periodicity", "monthly"] =
      .ok ⟨⟨.monthly, some [1, 2, 3, 6, 9, 12, 24], some "/data/nclimgrid_prcp.nc", some "prcp", none, none, false⟩, "/home/data/test/nclimgrid", some 1951, some 2010, .all⟩ := by
  decide +kernel

/-- abbreviated and joined forms, a repeated option: the last one counts -/
example : (parseArgs readDigits mainOpts ["--ind", "spi", "--per=daily", "--out=-x y", "--scales", "1", "--scales", "30", "90"]).toOption.bind (·.lookup "--scales") =
    some (.ints [30, 90]) := by
  decide +kernel

/-- the option table of the documentation names an option `awc_var_name` (docs/index.rst:184): it does not exist -/
example (argv : List String) (h : "--awc_var_name" ∈ argv) : ∃ e, parseArgs readDigits mainOpts argv = .error e :=
  C105_unknown readDigits mainOpts argv _ h ⟨_, rfl⟩ (by decide) (fun _ => by decide +kernel)

/-- `--netcdf_p` may be the file of precipitation or of potential evapotranspiration -/
example (argv : List String) (h : "--netcdf_p=/data/x.nc" ∈ argv) : ∃ e, parseArgs readDigits mainOpts argv = .error e := by
  obtain ⟨o1, h1, n1⟩ : ∃ o ∈ mainOpts, o.name = "--netcdf_precip" := by decide +kernel
  obtain ⟨o2, h2, n2⟩ : ∃ o ∈ mainOpts, o.name = "--netcdf_pet" := by decide +kernel
  have hb : beforeEq "--netcdf_p=/data/x.nc" = "--netcdf_p" := by decide +kernel
  exact C105_ambiguous readDigits mainOpts (.inl rfl) argv _ h ⟨_, rfl⟩ o1 o2 h1 h2 (by rintro rfl; rw [n1] at n2; revert n2; decide) (by rw [hb, n1]; decide)
    (by rw [hb, n2]; decide) (by rw [hb]; decide +kernel)

/-- a base name of the output files that begins with a dash is refused as a separate argument and read after `=` -/
example : ∃ e, parseArgs readDigits mainOpts ["--index", "pet", "--periodicity", "monthly", "--output_file_base", "-out"] = .error e := by
  obtain ⟨o, h, n⟩ : ∃ o ∈ mainOpts, o.name = "--output_file_base" ∧ o.kind = .one := by decide +kernel
  have := C105_dash_fails readDigits mainOpts (.inl rfl) ["--index", "pet", "--periodicity", "monthly"] [] o h n.2 "-out" 'o' ['u', 't'] rfl (by decide) (by decide) (by decide)
  rwa [n.1] at this

example : (readMain readDigits ["--index", "pet", "--periodicity", "monthly", "--output_file_base=-out"]).toOption.map (·.args.outputFileBase) = some "-out" := by decide +kernel

end CI.Props
