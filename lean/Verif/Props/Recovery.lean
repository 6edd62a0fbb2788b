import Verif.Props.Position
import Verif.Proof.RecoverWhere
import Verif.Proof.Scan
import Verif.Spec.Recovery
/-!
# Theorems about texts with syntax errors (C69)

The runtime's error strategy goes on after an error.  Whatever token sets it
works with (every `Strategy`), parsing ends, with a bounded number of reports.
-/

namespace Verif
open PState

theorem atEnd_eof (ts : List Tok) : AtEnd (ts ++ [Tok.eof]) := ⟨Tok.eof, by simp, rfl⟩

theorem ended_eof {ts : List Tok} (h : ∀ t ∈ ts, t.ty ≠ .EOF) : Ended (ts ++ [Tok.eof]) := by
  intro m hm hla
  obtain ⟨k, hk⟩ := hm
  rcases List.append_eq_append_iff.1 hk with ⟨x, h1, h2⟩ | ⟨x, h1, h2⟩
  · cases x with
    | nil => rw [List.nil_append] at h2; rw [h2]; rfl
    | cons t x =>
      rw [h2] at hla
      exact absurd hla (h t (by rw [h1]; simp))
  · cases m with
    | nil => rfl
    | cons t m =>
      have := congrArg List.length h2
      simp only [List.length_append, List.length_cons, List.length_nil] at this
      exact List.length_eq_zero_iff.1 (by simp only [List.tail_cons]; omega)

/-- C69. Parsing ends, whatever the text and the strategy: the number of steps
is at most linear in the number of tokens. -/
theorem C69_ends (o : Strategy) (ts : List Tok) (hts : ∀ t ∈ ts, t.ty ≠ .EOF) (n : Nat)
    (hn : 80000 * (ts.length + 2) ≤ n) : ∃ ps, parseAll simRuntime o n ts = some ps := by
  have hw : ({ rest := ts ++ [Tok.eof] } : PState).weight ≤ 2000 * (ts.length + 1) + 956 := by
    have := free_le ([] : List (Fin 456))
    simp only [weight, here, List.length_append, List.length_cons, List.length_nil]
    split <;> omega
  obtain ⟨b, s', h, _⟩ := execR_halts sim_inRange sim_modest o _ 40 (goCode .source_unit) [] 0
    { rest := ts ++ [Tok.eof] } n rfl (ended_eof hts) (goCode_wf _) (goCode_good _)
    (Go.good.fits (goCode_good _) _) (by omega)
  exact ⟨_, by unfold parseAll; rw [h]; rfl⟩

/-- C69. The number of steps does not matter if they suffice. -/
theorem C69_steps (o : Strategy) (ts : List Tok) (n m : Nat) (ps : List Nat)
    (h : parseAll simRuntime o n ts = some ps) (hnm : n ≤ m) :
    parseAll simRuntime o m ts = some ps := by
  unfold parseAll at h ⊢
  rw [Option.map_eq_some_iff] at h ⊢
  obtain ⟨q, hq, h⟩ := h
  exact ⟨q, execR_mono _ _ _ _ _ _ hq _ hnm, h⟩

/-- C69. The parser reports at most one error per token, and one at the end. -/
theorem C69_count (o : Strategy) (ts : List Tok) (hts : ∀ t ∈ ts, t.ty ≠ .EOF) (n : Nat)
    (ps : List Nat) (h : parseAll simRuntime o n ts = some ps) : ps.length ≤ ts.length + 1 := by
  unfold parseAll at h
  rw [Option.map_eq_some_iff] at h
  obtain ⟨⟨b, s'⟩, hq, rfl⟩ := h
  rw [List.length_reverse]
  have hat := atEnd_eof ts
  have key := execR_last _ _ _ _ _ _ _ hq (ended_eof hts) (goCode_good _) source_endsEof rfl
  have pos : ∀ l : List Tok, AtEnd l → 1 ≤ l.length := fun l h => List.length_pos_iff.2 h.ne
  have hl : ({ rest := ts ++ [Tok.eof] } : PState).load = ts.length + 2 := by
    simp [load]
  rcases key with h | ⟨h1, h2, h3, h4⟩
  · have h := h.trans (leave_pays o s')
    have hp := pos _ (h.atEnd hat)
    have := h.load
    rw [hl] at this
    simp only
    unfold load at this
    omega
  · have hp := pos _ (h4 hat)
    have : s'.leave o = s' := by unfold leave; rw [h3]
    simp only [this]
    rw [hl] at h1
    unfold load at h1
    rw [h2] at h1
    simp only [Bool.false_eq_true, if_false] at h1
    omega

theorem parseAll_head {o : Strategy} {ts : List Tok} (hts : ∀ t ∈ ts, t.ty ≠ .EOF) {n : Nat}
    {ps : List Nat} (h : parseAll simRuntime o n ts = some ps) :
    (∀ m ks, execSource simRuntime m ts = .ok ks [] → ps = []) ∧
    (∀ m r, execSource simRuntime m ts = .err r → ∃ more, ps = r.length :: more) := by
  unfold parseAll at h
  rw [Option.map_eq_some_iff] at h
  obtain ⟨⟨b, s'⟩, hq, rfl⟩ := h
  have key := fun m => execR_first_last m _ _ _ _ _ _ _ hq source_endsEof (goCode_tight _)
    (goCode_good _) rfl rfl (ended_eof hts) (atEnd_eof ts)
  constructor
  · intro m ks he
    unfold execSource at he
    split at he
    · rename_i ks' r hx
      obtain ⟨h1, h2⟩ := (key m).1 _ _ hx
      have : s'.leave o = s' := by unfold leave; rw [h1]
      simp only [this]
      rw [h2]; rfl
    · rename_i hx; exact absurd he (hx ks [])
  · intro m r he
    unfold execSource at he
    split at he
    · cases he
    · have := leave_told (o := o) (c := b) ((key m).2 _ he)
      rcases this with ⟨l, hl⟩ | ⟨_, _, h3, _⟩
      · refine ⟨l.reverse, ?_⟩
        simp only
        rw [hl]
        simp
      · rw [leave_err] at h3; cases h3

/-- C69. There is a report if and only if the text is no sentence. -/
theorem C69_silent (o : Strategy) (ts : List Tok) (hts : ∀ t ∈ ts, t.ty ≠ .EOF) (n : Nat)
    (ps : List Nat) (h : parseAll simRuntime o n ts = some ps) : ps = [] ↔ Sentence ts := by
  have hx := exec_exact sim_inRange sim_right hts (Nat.le_refl (30 * (ts.length + 2)))
  obtain ⟨h1, h2⟩ := parseAll_head hts h
  constructor
  · intro he
    refine Classical.byContradiction fun hs => ?_
    obtain ⟨r, hr⟩ := hx.2 hs
    obtain ⟨more, hm⟩ := h2 _ _ hr
    rw [he] at hm; cases hm
  · rintro ⟨tree, hs⟩
    exact h1 _ _ (hx.1 tree hs)

/-- C69. All reports are about tokens of the text, or its end. -/
theorem C69_where (o : Strategy) (ts : List Tok) (n : Nat) (ps : List Nat)
    (h : parseAll simRuntime o n ts = some ps) : ∀ k ∈ ps, 1 ≤ k ∧ k ≤ ts.length + 1 := by
  unfold parseAll at h
  rw [Option.map_eq_some_iff] at h
  obtain ⟨⟨b, s'⟩, hq, rfl⟩ := h
  have := execR_inText sim_near (N := ts.length + 1) _ _ _ _ _ _ _ hq (goCode_wf _)
    ⟨atEnd_eof ts, by simp, fun k hk => (by cases hk), fun k hk => (by cases hk)⟩
  intro k hk
  exact (this.leave o).places k (by simpa using hk)

theorem parsePlaces_length {l : List (Tok × Bool)} {ps : List Nat}
    (h : ∀ k ∈ ps, 1 ≤ k ∧ k ≤ (visible l).length + 1) : (parsePlaces l ps).length = ps.length := by
  induction ps with
  | nil => rfl
  | cons k ps ih =>
    have hk := h k (by simp)
    have hlt : (place (1, 0) l).length - k < (place (1, 0) l).length := by
      rw [place_count]; omega
    unfold parsePlaces at ih ⊢
    rw [List.filterMap_cons]
    simp only [List.length_map, List.getElem?_map, List.getElem?_eq_getElem hlt, Option.map_some]
    simp only [List.length_cons]
    have := ih fun k hk => h k (by simp [hk])
    simp only [List.length_map, List.getElem?_map] at this
    rw [this]

theorem parsePlaces_mem {l : List (Tok × Bool)} {ps : List Nat} {q : Nat × Nat}
    (h : q ∈ parsePlaces l ps) : ∃ x, x <+: l.flatMap (·.1.text) ∧ q = placeAfter x := by
  unfold parsePlaces at h
  simp only [List.mem_filterMap] at h
  obtain ⟨k, _, hk⟩ := h
  have := List.mem_of_getElem? hk
  rw [List.mem_map] at this
  obtain ⟨r, hr, rfl⟩ := this
  exact place_mem l [] r hr

/-- C69. The first report is about the first token with which no text without
syntax errors goes on. -/
theorem C69_first (o : Strategy) (s : Str) (toks : List (Tok × Bool)) (ht : Tokenises s toks)
    (n : Nat) (ps : List Nat) (h : parseAll simRuntime o n (visible toks) = some ps)
    (x : Str) (good : List Tok) (bad : Tok) (hf : FirstError s x good bad) :
    (parsePlaces toks ps).head? = some (placeAfter x) := by
  have hr := reads_nil.2 ht
  have hne := tokenises_ne_eof ht
  have hns : ¬ Sentence (visible toks) := by
    obtain ⟨before, after, rest, hr', _, hb, ha⟩ := hf.place
    obtain ⟨rfl, rfl⟩ := reads_unique hr' hr
    rcases ha with ⟨m, rfl⟩ | ⟨rfl, _, rfl⟩
    · exact hf.ends s _ (visible m ++ [Tok.eof]) ht (by rw [← hb]; simp [visible])
    · exact hf.ends s _ [] ht (by rw [← hb]; simp)
  obtain ⟨x', good', bad', hf', hp⟩ := C68_position s toks ht hns
  obtain ⟨rfl, _, _⟩ := C68_unique _ _ _ _ _ _ _ hf hf'
  obtain ⟨r, he⟩ := (exec_exact sim_inRange sim_right hne
    (Nat.le_refl (30 * ((visible toks).length + 2)))).2 hns
  obtain ⟨more, rfl⟩ := (parseAll_head hne h).2 _ _ he
  have hk := C69_where o _ n _ h r.length (by simp)
  unfold firstPlaces at hp
  rw [tablePart_iff.2 hr] at hp
  simp only [show (toks.filter (fun p => !p.2)).map (·.1) = visible toks from rfl, he] at hp
  unfold parsePlaces
  rw [List.filterMap_cons]
  simp only [List.length_map, place_count]
  have hlt : (visible toks).length + 1 - r.length < ((place (1, 0) toks).map (·.2)).length := by
    rw [List.length_map, place_count]; omega
  rw [List.getElem?_eq_getElem hlt] at hp ⊢
  simp at hp
  simp [hp]

/-- What is assumed of the reports of the ANTLR runtime for a text with errors:
that they come from the lexer and the parser as they are modelled, with some
error strategy; the reports of the lexer come in between those of the parser
(it is called for the next token), perhaps not all of them. -/
def World.Recovers (w : World) : Prop :=
  ∀ s, syntaxTree s = none → ∃ skip o n ps lex,
    parseAll simRuntime o n (visible (scanAll skip s).1) = some ps ∧
    lex <+: (scanAll skip s).2 ∧
    Interleaves lex (parsePlaces (scanAll skip s).1 ps)
      (((w.report s).1 :: (w.report s).2).map fun r => (r.1, r.2.1))

theorem Interleaves.length {α : Type} {l m k : List α} (h : Interleaves l m k) :
    k.length = l.length + m.length := by
  induction h with
  | nil => rfl
  | left _ ih => simp only [List.length_cons, ih]; omega
  | right _ ih => simp only [List.length_cons, ih]; omega

theorem Interleaves.mem {α : Type} {l m k : List α} (h : Interleaves l m k) {a : α} (ha : a ∈ k) :
    a ∈ l ∨ a ∈ m := by
  induction h with
  | nil => cases ha
  | left _ ih => simp only [List.mem_cons] at ha ⊢; grind
  | right _ ih => simp only [List.mem_cons] at ha ⊢; grind

theorem Interleaves.nil_left {α : Type} {m k : List α} (h : Interleaves [] m k) : k = m := by
  generalize hl : ([] : List α) = l at h
  induction h with
  | nil => rfl
  | left _ _ => cases hl
  | right _ ih => rw [ih hl]

theorem Interleaves.appended {α : Type} (l m : List α) : Interleaves l m (l ++ m) := by
  induction l with
  | nil =>
    induction m with
    | nil => exact .nil
    | cons a m ih => exact .right ih
  | cons a l ih => exact .left ih

theorem scanAll_ne_eof (skip : Str → Nat × Bool) (s : Str) :
    ∀ t ∈ visible (scanAll skip s).1, t.ty ≠ .EOF := by
  intro t ht
  simp only [visible, List.mem_map, List.mem_filter] at ht
  obtain ⟨q, ⟨hq, _⟩, rfl⟩ := ht
  exact scan_ne_eof skip _ _ _ q hq

theorem visible_length (l : List (Tok × Bool)) : (visible l).length ≤ l.length := by
  unfold visible
  rw [List.length_map]
  exact List.length_filter_le _ _

theorem report_length {w : World} (hw : w.Recovers) {s : Str} (hs : syntaxTree s = none) :
    ((w.report s).1 :: (w.report s).2).length ≤ 2 * s.length + 1 := by
  obtain ⟨skip, o, n, ps, lex, hp, hl, hi⟩ := hw s hs
  have h1 := hi.length
  rw [List.length_map] at h1
  rw [h1, parsePlaces_length (C69_where o _ n _ hp)]
  have h2 := C69_count o _ (scanAll_ne_eof skip s) n ps hp
  have h3 := hl.length_le
  have h4 := scan_length skip s.length (1, 0) s
  have h5 := visible_length (scanAll skip s).1
  unfold scanAll at *
  omega

theorem errors_malformed {w : World} {s : Str} (hs : syntaxTree s = none) :
    ∃ e, (parse w s).errors =
      (((w.report s).1 :: (w.report s).2).map fun r => Entry.real (syntaxErr r)) ++ [e] := by
  unfold parse parseKF syntaxErrors
  rw [hs]
  simp only [Option.getD_none, List.nil_append]
  cases w.crash s with
  | none => exact ⟨.self, by simp [finish]⟩
  | some p => exact ⟨.real p.toErr, by simp [finish]⟩

/-- C69. The number of errors that `Parse` returns for a text is bounded by its
length. -/
theorem C69_errors_bounded (w : World) (hw : w.Recovers) (s : Str) :
    (parse w s).errors.length ≤ 2 * s.length + 2 := by
  cases hs : syntaxTree s with
  | none =>
    obtain ⟨e, he⟩ := errors_malformed (w := w) hs
    have := report_length hw hs
    rw [he, List.length_append, List.length_map]
    simp only [List.length_cons, List.length_nil] at this ⊢
    omega
  | some tree =>
    have : (parse w s).errors.length ≤ 1 := by
      unfold parse parseKF syntaxErrors
      rw [hs]
      simp only [Option.getD_none, List.nil_append, List.map_nil, ErrorList.isErr, List.isEmpty_nil,
        Bool.not_true, Bool.false_eq_true, if_false]
      split
      · simp [finish]
      · split <;> simp [finish]
    omega

theorem syntaxErr_names (r : Nat × Nat × Str) : NamesPlace (.real (syntaxErr r)) (r.1, r.2.1) := by
  refine ⟨_, r.2.2, rfl, ?_⟩
  unfold syntaxErr Sent.with Err.text Err.text Sent.text
  simp only [List.append_assoc]
  rfl

/-- C69. Each error that `Parse` returns for a text with syntax errors, but the
last one, names a place in the text. -/
theorem C69_located (w : World) (hw : w.Recovers) (s : Str) (hs : ¬ ∃ p, Writes s p)
    (e : Entry) (he : e ∈ (parse w s).errors.dropLast) :
    ∃ x, x <+: s ∧ NamesPlace e (placeAfter x) := by
  have hs := syntaxTree_none.2 hs
  obtain ⟨e', he'⟩ := errors_malformed (w := w) hs
  rw [he', List.dropLast_concat, List.mem_map] at he
  obtain ⟨r, hr, rfl⟩ := he
  obtain ⟨skip, o, n, ps, lex, hp, hl, hi⟩ := hw s hs
  have : ∃ x, x <+: s ∧ (r.1, r.2.1) = placeAfter x := by
    rcases hi.mem (List.mem_map_of_mem (f := fun r : Nat × Nat × Str => (r.1, r.2.1)) hr) with h | h
    · obtain ⟨y, hy, h⟩ := scan_places skip s.length [] s _ (hl.subset h)
      exact ⟨y, hy, h⟩
    · obtain ⟨x, hx, h⟩ := parsePlaces_mem h
      rw [scanAll, scan_text skip _ _ _ (Nat.le_refl _)] at hx
      exact ⟨x, hx, h⟩
  obtain ⟨x, hx, h⟩ := this
  exact ⟨x, hx, h ▸ syntaxErr_names r⟩

/-- C69. The first error that `Parse` returns for a text of tokens is about the
first token with which no text without syntax errors goes on. -/
theorem C69_message (w : World) (hw : w.Recovers) (s x : Str) (toks : List (Tok × Bool))
    (ht : Tokenises s toks) (good : List Tok) (bad : Tok) (hf : FirstError s x good bad) :
    ∃ e rest, (parse w s).errors = e :: rest ∧ NamesPlace e (placeAfter x) := by
  have hns : ¬ Sentence (visible toks) := by
    obtain ⟨before, after, rest, hr', _, hb, ha⟩ := hf.place
    obtain ⟨rfl, rfl⟩ := reads_unique hr' (reads_nil.2 ht)
    rcases ha with ⟨m, rfl⟩ | ⟨rfl, _, rfl⟩
    · exact hf.ends s _ (visible m ++ [Tok.eof]) ht (by rw [← hb]; simp [visible])
    · exact hf.ends s _ [] ht (by rw [← hb]; simp)
  have hs := syntaxTree_of ht hns
  obtain ⟨e', he'⟩ := errors_malformed (w := w) hs
  refine ⟨_, _, by rw [he']; rfl, ?_⟩
  obtain ⟨skip, o, n, ps, lex, hp, hl, hi⟩ := hw s hs
  have hscan : scanAll skip s = (toks, []) := scan_tokens skip ht _ _ (Nat.le_refl _)
  rw [hscan] at hp hl hi
  have : lex = [] := by simpa using hl
  subst this
  have h1 := hi.nil_left
  have h2 := C69_first o s toks ht n ps hp x good bad hf
  rw [← h1] at h2
  simp only [List.map_cons, List.head?_cons, Option.some.injEq] at h2
  exact h2 ▸ syntaxErr_names _

/-! ## Examples -/

namespace Sample

/-- A strategy that expects everything and stops nowhere. -/
def eager : Strategy where
  expects _ _ := true
  inserts _ := false
  stops _ _ := false
  state _ := 0

/-- For a text with errors there are reports. -/
theorem reports_exist (s : Str) (hs : syntaxTree s = none) : ∃ ps,
    parseAll simRuntime eager (80000 * ((visible (scanAll (fun _ => (0, false)) s).1).length + 2))
      (visible (scanAll (fun _ => (0, false)) s).1) = some ps ∧
    (scanAll (fun _ => (0, false)) s).2 ++ parsePlaces (scanAll (fun _ => (0, false)) s).1 ps ≠ [] := by
  obtain ⟨ps, hp⟩ := C69_ends eager (visible (scanAll (fun _ => (0, false)) s).1)
    (scanAll_ne_eof _ s) _ (Nat.le_refl _)
  refine ⟨ps, hp, fun he => ?_⟩
  rw [List.append_eq_nil_iff] at he
  have ht : Tokenises s (scanAll (fun _ => (0, false)) s).1 :=
    scan_only (fun _ => (0, false)) s.length (1, 0) s (Nat.le_refl _) he.1
  have h0 : ps = [] := by
    have := parsePlaces_length (C69_where _ _ _ _ hp)
    rw [he.2] at this
    exact List.length_eq_zero_iff.1 this.symm
  have hsent := (C69_silent _ _ (scanAll_ne_eof _ s) _ _ hp).1 h0
  obtain ⟨tree, hg⟩ := hsent
  have : syntaxTree s = some tree := by
    unfold syntaxTree
    rw [lexAll_of ht]
    exact (parseTokens_iff _ _).2 hg
  rw [hs] at this
  cases this

open Classical in
/-- The places that are reported. -/
noncomputable def reported (s : Str) : List (Nat × Nat) :=
  if h : syntaxTree s = none then
    (scanAll (fun _ => (0, false)) s).2 ++
      parsePlaces (scanAll (fun _ => (0, false)) s).1 (reports_exist s h).choose
  else []

/-- Reports at the given places, with empty messages. -/
def pack : List (Nat × Nat) → (Nat × Nat × Str) × List (Nat × Nat × Str)
  | [] => ((0, 0, []), [])
  | p :: l => ((p.1, p.2, []), l.map fun q => (q.1, q.2, []))

/-- A world with an error strategy. -/
noncomputable def recovering : World :=
  { Sample.world with report := fun s => pack (reported s) }

theorem recovering_recovers : recovering.Recovers := by
  intro s hs
  obtain ⟨h1, h2⟩ := (reports_exist s hs).choose_spec
  refine ⟨fun _ => (0, false), eager, _, _, _, h1, List.prefix_refl _, ?_⟩
  have hr : reported s ≠ [] := by
    unfold reported
    rw [dif_pos hs]
    exact h2
  have : (((recovering.report s).1 :: (recovering.report s).2).map fun r => (r.1, r.2.1)) =
      reported s := by
    show List.map _ ((pack (reported s)).1 :: (pack (reported s)).2) = _
    cases hl : reported s with
    | nil => exact absurd hl hr
    | cons p l => simp [pack, Function.comp_def]
  rw [this]
  unfold reported
  rw [dif_pos hs]
  exact Interleaves.appended _ _

/-- The second semicolon is the first error. -/
example : ∃ e rest, (parse recovering semi).errors = e :: rest ∧ NamesPlace e (2, 0) := by
  have h := C69_message recovering recovering_recovers semi _ _ semi_tokens _ _ semi_error
  rwa [show placeAfter "database d;\n".toList = (2, 0) by decide] at h

/-- A text of 13 characters. -/
example : (parse recovering semi).errors.length ≤ 28 :=
  C69_errors_bounded recovering recovering_recovers semi

example : (parse recovering bang).errors.length ≤ 28 :=
  C69_errors_bounded recovering recovering_recovers bang

/-- The second semicolon is reported, whatever the strategy. -/
example (o : Strategy) : ∃ ps more, parseAll simRuntime o 480000
    (visible (semiToks ++ [(⟨.SCOL, ";".toList⟩, false)])) = some ps ∧
    parsePlaces (semiToks ++ [(⟨.SCOL, ";".toList⟩, false)]) ps = (2, 0) :: more ∧
    ps.length ≤ 5 := by
  obtain ⟨ps, h⟩ := C69_ends o (visible (semiToks ++ [(⟨.SCOL, ";".toList⟩, false)]))
    (tokenises_ne_eof semi_tokens) 480000 (by decide)
  have h1 := C69_first o semi _ semi_tokens _ ps h _ _ _ semi_error
  rw [show placeAfter "database d;\n".toList = (2, 0) by decide] at h1
  have h2 := C69_count o _ (tokenises_ne_eof semi_tokens) _ ps h
  obtain ⟨q, more, hm⟩ : ∃ q more,
      parsePlaces (semiToks ++ [(⟨.SCOL, ";".toList⟩, false)]) ps = q :: more := by
    cases hq : parsePlaces (semiToks ++ [(⟨.SCOL, ";".toList⟩, false)]) ps with
    | nil => rw [hq] at h1; cases h1
    | cons q more => exact ⟨q, more, rfl⟩
  rw [hm] at h1
  cases h1
  exact ⟨ps, more, h, hm, h2⟩

end Sample

end Verif
