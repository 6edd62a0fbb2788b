import Verif.Proof.Meaning
import Verif.Props.SampleText
/-!
# C20–C24: results and errors of ParseKF
-/

namespace Verif

theorem finish_mode (m m' : Nat) (r l e t) : (finish m r l e t).result = (finish m' r l e t).result ∧
    (finish m r l e t).errors = (finish m' r l e t).errors := ⟨rfl, rfl⟩

theorem list_text_real (e : Err) (l : ErrorList) : ∃ t, ErrorList.text (.real e :: l) = some t ∧
    e.text <+: t := by
  cases l with
  | nil => exact ⟨_, rfl, List.prefix_rfl⟩
  | cons x l =>
    refine ⟨_, rfl, ?_⟩
    rw [List.append_assoc, List.append_assoc]
    exact List.prefix_append _ _

/-- Every outcome is one of these (any listener, any mode). -/
theorem outcome_cases (w : World) (s : Str) (l : Option ErrorList) (mode : Nat) :
    let o := parseKF w s l mode
    -- a syntax error, or a listener that was not empty
    (o.result = none ∧ (∃ more x, o.errors = l.getD [] ++ more ++ [x] ∧ l.getD [] ++ more ≠ [] ∧
      (∀ y ∈ more, ∃ r, y = .real (syntaxErr r)) ∧
      ((¬ ∃ p, Writes s p) → more ≠ []) ∧ ((∃ p, Writes s p) → more = []))) ∨
    -- a fault found by the visitor
    (∃ p e, l.getD [] = [] ∧ Writes s p ∧ p.fault = some e ∧ o.result = none ∧ o.errors = [.real e]) ∨
    -- a validation error
    (∃ p f, l.getD [] = [] ∧ Writes s p ∧ p.fault = none ∧ validate w.toEnv p.denote = some f ∧
      o.result = some p.denote ∧
      o.errors = [.real (match f with | .err e => e | .panic q => q.toErr)]) ∨
    -- success
    (∃ p, l.getD [] = [] ∧ Writes s p ∧ p.fault = none ∧ validate w.toEnv p.denote = none ∧
      o.result = some p.denote ∧ o.errors = []) := by
  intro o
  by_cases hw : ∃ p, Writes s p
  · obtain ⟨p, hp⟩ := hw
    have ho : o = _ := hp.parseKF w l mode
    cases hl : l.getD [] with
    | cons a b =>
      left
      rw [hl] at ho
      simp only [ErrorList.isErr, List.isEmpty_cons, Bool.not_false, if_true] at ho
      rw [ho]
      exact ⟨rfl, [], .self, by simp, by simp, by simp, fun h => absurd ⟨p, hp⟩ h, fun _ => rfl⟩
    | nil =>
      right
      rw [hl] at ho
      simp only [ErrorList.isErr, List.isEmpty_nil, Bool.not_true, Bool.false_eq_true,
        if_false] at ho
      cases hf : p.fault with
      | some e => rw [hf] at ho; left; exact ⟨p, e, rfl, hp, hf, by rw [ho]; rfl, by rw [ho]; rfl⟩
      | none =>
        right
        rw [hf] at ho
        simp only at ho
        cases hv : validate w.toEnv p.denote with
        | none =>
          rw [hv] at ho
          right
          exact ⟨p, rfl, hp, hf, hv, by rw [ho]; rfl, by rw [ho]; rfl⟩
        | some f =>
          left
          refine ⟨p, f, rfl, hp, hf, hv, ?_, ?_⟩ <;>
            (rw [ho, hv]; cases f <;> rfl)
  · left
    have ho : o = _ := parseKF_bad hw w l mode
    rw [ho]
    refine ⟨rfl, _, _, rfl, by simp, ?_, by simp, fun h => absurd h hw⟩
    intro y hy
    obtain ⟨r, _, rfl⟩ := List.mem_map.1 hy
    exact ⟨r, rfl⟩

/-- C20. Result discipline, for any listener and mode: without an error there
is a schema; without a schema there is an error. -/
theorem C20_result_or_error (w : World) (s : Str) (l : Option ErrorList) (mode : Nat) :
    ((parseKF w s l mode).err = none → ∃ sch, (parseKF w s l mode).result = some sch) ∧
    ((parseKF w s l mode).result = none → (parseKF w s l mode).err ≠ none) := by
  rcases outcome_cases w s l mode with ⟨h1, more, x, h2, _⟩ | ⟨p, e, _, _, _, h1, h2⟩ |
    ⟨p, f, _, _, _, _, h1, h2⟩ | ⟨p, _, _, _, _, h1, h2⟩ <;>
    simp [h1, h2, Outcome.err, ErrorList.isErr]

/-- C20. After a syntax error the result is nil. -/
theorem C20_syntax_error (w : World) (s : Str) (l : Option ErrorList) (mode : Nat)
    (h : ¬ ∃ toks, Tokenises s toks ∧ Sentence (visible toks)) :
    (parseKF w s l mode).result = none ∧ (parseKF w s l mode).err ≠ none := by
  rw [← writes_of_sentence] at h
  rw [parseKF_bad h]
  simp [Outcome.err, ErrorList.isErr]

/-- C20. After a visitor error (init, modifiers) the result is nil. -/
theorem C20_visitor_error (w : World) (s : Str) (mode : Nat) (p : Program) (e : Err)
    (hp : Writes s p) (hf : p.fault = some e) :
    (parseKF w s none mode).result = none ∧ (parseKF w s none mode).errors = [.real e] := by
  rw [hp.parseKF, hf]
  exact ⟨rfl, rfl⟩

/-- The error that a failure, or a panic with some value, is reported as. -/
def reportedAs : Fail → Err
  | .err e => e
  | .panic (.str m) => .other m
  | .panic (.err e) => e
  | .panic (.val v) => .other ("unknown panic : ".toList ++ v)

/-- C20. After a validation error, the result is the offending schema, together
with the error; also if an external parser panics. -/
theorem C20_validation_error (w : World) (s : Str) (mode : Nat) (p : Program) (f : Fail)
    (hp : Writes s p) (hf : p.fault = none) (hv : validate w.toEnv p.denote = some f) :
    (parseKF w s none mode).result = some p.denote ∧
    (parseKF w s none mode).errors = [.real (reportedAs f)] := by
  rw [hp.parseKF, hf, hv]
  cases f with
  | err e => exact ⟨rfl, rfl⟩
  | panic q => cases q <;> exact ⟨rfl, rfl⟩

/-- C20. With a fresh listener the returned error has a text (its `Error`
method returns), whatever went wrong. -/
theorem C20_error_has_text (w : World) (s : Str) (mode : Nat) (el : ErrorList)
    (h : (parseKF w s none mode).err = some el) : ∃ t, el.text = some t := by
  have hel : el = (parseKF w s none mode).errors := by
    unfold Outcome.err at h
    split at h
    · simpa using h.symm
    · cases h
  subst hel
  rcases outcome_cases w s none mode with ⟨h1, more, x, h2, h3, h4, _⟩ | ⟨p, e, _, _, _, h1, h2⟩ |
    ⟨p, f, _, _, _, _, h1, h2⟩ | ⟨p, _, _, _, _, h1, h2⟩
  · cases more with
    | nil => simp at h3
    | cons y more =>
      obtain ⟨r, rfl⟩ := h4 y (by simp)
      rw [h2]
      obtain ⟨t, ht, _⟩ := list_text_real (syntaxErr r) (more ++ [x])
      exact ⟨t, by simpa using ht⟩
  · rw [h2]; exact ⟨_, rfl⟩
  · rw [h2]; exact ⟨_, rfl⟩
  · rw [h2]; exact ⟨_, rfl⟩

/-- C21. On grammatical input the visitor either produces the schema or fails
with one of the four documented errors: no other panic happens. -/
theorem C21_no_crash (s : Str) (toks : List (Tok × Bool)) (tree : Tree) (ht : Tokenises s toks)
    (hg : Gen (.call .source_unit 0) (visible toks ++ [Tok.eof]) [tree]) :
    (∃ sch, visitSource tree = .ok sch) ∨
    ∃ e, visitSource tree = .error (.err e) ∧
      (e = .sent .multiInit ∨
        ∃ k ∈ [Sent.actionVisibilityAlreadySet, .actionMutabilityAlreadySet,
          .actionAuxiliaryAlreadySet], ∃ m, e = k.with m) := by
  obtain ⟨p, hp, rfl⟩ := (parseTokens_program _ ht.spelt tree).1 ((parseTokens_iff _ _).2 hg)
  have hw : Writes s p := ⟨toks, ht, hp⟩
  rw [hw.visit]
  cases hf : p.fault with
  | none => exact .inl ⟨_, rfl⟩
  | some e =>
    right
    refine ⟨e, rfl, ?_⟩
    unfold Program.fault at hf
    split at hf
    · cases hf; exact .inl rfl
    · right
      obtain ⟨a, _, ha⟩ := List.exists_of_findSome?_eq_some hf
      unfold modifierFault at ha
      split at ha
      · cases ha; exact ⟨_, by simp, _, rfl⟩
      · split at ha
        · cases ha; exact ⟨.actionMutabilityAlreadySet, by simp, _, rfl⟩
        · split at ha
          · cases ha; exact ⟨.actionAuxiliaryAlreadySet, by simp, _, rfl⟩
          · cases ha

/-- C22, what holds, for every listener whose first entry (if any) is a real
error: the returned error is nil iff nothing was recorded; it unwraps to the
first recorded error, its message begins with that error's message, and
`errors.Is` agrees with that error.  Missing: the number in the message, see
`C22_count_off_by_one`. -/
theorem C22_error_list_partial (w : World) (s : Str) (l : Option ErrorList) (mode : Nat)
    (hl : ∀ x, (l.getD []).head? = some x → ∃ e, x = .real e) :
    let o := parseKF w s l mode
    (o.err = none ↔ o.errors = []) ∧
    ∀ el, o.err = some el → ∃ first rest t, el = o.errors ∧ o.errors = .real first :: rest ∧
      el.unwrap = some (.real first) ∧ el.text = some t ∧ first.text <+: t ∧
      ∀ k, el.is k = first.is k := by
  intro o
  have hne : o.err = none ↔ o.errors = [] := by
    unfold Outcome.err ErrorList.isErr
    cases o.errors <;> simp
  refine ⟨hne, ?_⟩
  intro el hel
  have hel' : el = o.errors := by
    unfold Outcome.err at hel
    split at hel
    · simpa using hel.symm
    · cases hel
  have hfirst : ∃ first rest, o.errors = .real first :: rest := by
    rcases outcome_cases w s l mode with ⟨h1, more, x, h2, h3, h4, _⟩ |
      ⟨p, e, _, _, _, h1, h2⟩ | ⟨p, f, _, _, _, _, h1, h2⟩ | ⟨p, _, _, _, _, h1, h2⟩
    · cases hll : l.getD [] with
      | cons y ys =>
        obtain ⟨e, rfl⟩ := hl y (by rw [hll]; rfl)
        rw [hll] at h2
        exact ⟨e, _, by simpa using h2⟩
      | nil =>
        rw [hll] at h2 h3
        cases more with
        | nil => simp at h3
        | cons y more =>
          obtain ⟨r, rfl⟩ := h4 y (by simp)
          exact ⟨syntaxErr r, _, by simpa using h2⟩
    · exact ⟨e, _, h2⟩
    · exact ⟨_, _, h2⟩
    · rw [hne.2 h2] at hel; cases hel
  obtain ⟨first, rest, hfr⟩ := hfirst
  obtain ⟨t, ht, hpre⟩ := list_text_real first rest
  subst hel'
  refine ⟨first, rest, t, rfl, hfr, by rw [hfr]; rfl, by rw [hfr]; exact ht, hpre, ?_⟩
  intro k
  rw [hfr]
  rfl

/-- C22. Nothing is lost: what a listener holds stays, every syntax error that
is reported is recorded behind it, in order, with its line, column and message,
and then one more entry. -/
theorem C22_all_recorded (w : World) (s : Str) (l : Option ErrorList) (mode : Nat)
    (h : ¬ ∃ toks, Tokenises s toks ∧ Sentence (visible toks)) :
    ∃ (errs : List Err) (last : Entry), (parseKF w s l mode).errors = l.getD [] ++ errs.map Entry.real ++ [last] ∧
      errs.map (fun e => e.text) = ((w.report s).1 :: (w.report s).2).map (fun r =>
        "syntax error: line ".toList ++ (toString r.1).toList ++ ":".toList ++
          (toString r.2.1).toList ++ " ".toList ++ r.2.2) ∧
      (∀ e ∈ errs, e.is .invalidSyntax = true) := by
  rw [← writes_of_sentence] at h
  rw [parseKF_bad h]
  refine ⟨((w.report s).1 :: (w.report s).2).map syntaxErr,
    (match w.crash s with | some p => .real p.toErr | none => .self), ?_, ?_, ?_⟩
  · simp only [finish_errors, Option.toList_some, List.map_map]
    rfl
  · rw [List.map_map]
    apply List.map_congr_left
    intro r _
    show (syntaxErr r).text = _
    have hl : "syntax error: line ".toList = "syntax error: ".toList ++ "line ".toList := by decide
    rw [hl]
    unfold syntaxErr
    have hw : ∀ m, (Sent.invalidSyntax.with m).text = "syntax error: ".toList ++ m := fun m => rfl
    rw [hw]
    simp only [List.append_assoc]
  · intro e he
    obtain ⟨r, _, rfl⟩ := List.mem_map.1 he
    rfl

/-- C22. The text of an error list: of an empty one, of one with a single
error, and of one with `n` further entries. -/
theorem C22_list_text (e : Err) (x : Entry) (rest : ErrorList) :
    ErrorList.text [] = some "no errors".toList ∧
    ErrorList.text [.real e] = some e.text ∧
    ErrorList.text (.real e :: x :: rest) = some (e.text ++ " (with ".toList ++
      (toString (rest.length + 1)).toList ++ "+ errors)".toList) := ⟨rfl, rfl, rfl⟩

/-- C22 fails on the number: with `n` syntax errors (and no crash of the
runtime) the message says "with `n`+ errors" on top of the first, although
there are only `n - 1` further ones. -/
theorem C22_count_off_by_one (w : World) (s : Str) (mode : Nat)
    (h : ¬ ∃ toks, Tokenises s toks ∧ Sentence (visible toks)) (hc : w.crash s = none) :
    (parseKF w s none mode).errors.text =
      some ((syntaxErr (w.report s).1).text ++ " (with ".toList ++
        (toString (syntaxErrors w s).length).toList ++ "+ errors)".toList) := by
  rw [← writes_of_sentence] at h
  have hs : syntaxErrors w s = ((w.report s).1 :: (w.report s).2).map syntaxErr := by
    unfold syntaxErrors; rw [syntaxTree_none.2 h]
  rw [parseKF_bad h, hc, hs]
  cases h2 : (w.report s).2 <;> simp [ErrorList.text]

theorem not_sentence_of_lexAll {s : Str} (h : (lexAll s).bind parseTokens = none) :
    ¬ ∃ toks, Tokenises s toks ∧ Sentence (visible toks) := by
  rw [← writes_of_sentence]
  exact syntaxTree_none.1 h

/-- C22 is false: one syntax error is found, and the message speaks of another
one. -/
theorem C22_violated : ∃ w s, (syntaxErrors w s).length = 1 ∧ w.crash s = none ∧
    (parse w s).errors.text =
      some "syntax error: line 1:0 mismatched input (with 1+ errors)".toList := by
  refine ⟨Sample.world, "databse d;".toList, by decide +kernel, rfl, ?_⟩
  decide +kernel

/-- C23. With a listener that holds errors `ParseKF` fails, whatever the input:
the result is nil, recorded errors stay in place, more are added behind them,
and the returned error is still about the earliest one. -/
theorem C23_used_listener (w : World) (s : Str) (e : Err) (es : ErrorList) (mode : Nat) :
    let o := parseKF w s (some (.real e :: es)) mode
    o.result = none ∧ o.err = some o.errors ∧
    (∃ more, more ≠ [] ∧ o.errors = (.real e :: es) ++ more) ∧
    o.errors.unwrap = some (.real e) ∧ ∀ k, o.errors.is k = e.is k := by
  intro o
  have key : o.result = none ∧ ∃ more, more ≠ [] ∧ o.errors = (.real e :: es) ++ more := by
    rcases outcome_cases w s (some (.real e :: es)) mode with ⟨h1, more, x, h2, _⟩ |
      ⟨p, e, h0, _⟩ | ⟨p, f, h0, _⟩ | ⟨p, h0, _⟩
    · exact ⟨h1, more ++ [x], by simp, by rw [← List.append_assoc]; exact h2⟩
    all_goals simp at h0
  obtain ⟨hr, more, hm, he⟩ := key
  refine ⟨hr, ?_, ⟨more, hm, he⟩, ?_, ?_⟩
  · unfold Outcome.err
    rw [if_pos (by rw [he]; rfl)]
  · rw [he]; rfl
  · intro k; rw [he]; rfl

/-- Listener contents only grow, over any history of calls. -/
theorem history_grows (w : World) (heap : List ErrorList) (cs : List Call) (i : Nat)
    (l : ErrorList) (h : heap[i]? = some l) :
    ∃ more, (history w heap cs).1[i]? = some (l ++ more) := by
  induction cs generalizing heap l with
  | nil => exact ⟨[], by simp [history, h]⟩
  | cons c cs ih =>
    have hstep : ∃ more, (step w heap c).1[i]? = some (l ++ more) := by
      unfold step
      cases hc : c.listener with
      | none => exact ⟨[], by simpa using h⟩
      | some j =>
        simp only
        by_cases hij : j = i
        · subst hij
          have hlt : j < heap.length := by
            rcases Nat.lt_or_ge j heap.length with h' | h'
            · exact h'
            · rw [List.getElem?_eq_none h'] at h; cases h
          rw [List.getElem?_set_self hlt, h]
          simp only [Option.getD_some]
          rcases outcome_cases w c.input (some l) c.mode with ⟨h1, more, x, h2, _⟩ |
            ⟨p, e, h0, _, _, _, h2⟩ | ⟨p, f, h0, _, _, _, _, h2⟩ | ⟨p, h0, _, _, _, _, h2⟩
          · exact ⟨more ++ [x], by rw [h2]; simp⟩
          all_goals
            simp at h0
            subst h0
            exact ⟨_, by rw [List.nil_append]⟩
        · exact ⟨[], by rw [List.getElem?_set_ne hij]; simpa using h⟩
    obtain ⟨m₁, h₁⟩ := hstep
    obtain ⟨m₂, h₂⟩ := ih _ _ h₁
    exact ⟨m₁ ++ m₂, by simpa [history] using h₂⟩

/-- C23, over histories: once a listener holds an error, every later call with
it fails with that error, whatever calls were made in between. -/
theorem C23_history (w : World) (heap : List ErrorList) (cs : List Call) (i : Nat) (e : Err)
    (es : ErrorList) (h : heap[i]? = some (.real e :: es)) (s : Str) (mode : Nat) :
    let o := (step w (history w heap cs).1 ⟨s, some i, mode⟩).2
    o.result = none ∧ o.err = some o.errors ∧ o.errors.unwrap = some (.real e) ∧
    (.real e :: es) <+: o.errors := by
  intro o
  obtain ⟨more, hm⟩ := history_grows w heap cs i _ h
  have ho : o = parseKF w s (some (.real e :: (es ++ more))) mode := by
    show (step w (history w heap cs).1 ⟨s, some i, mode⟩).2 = _
    unfold step
    simp only [hm, Option.getD_some, List.cons_append]
  obtain ⟨h1, h2, ⟨m', _, h3⟩, h4, _⟩ := C23_used_listener w s e (es ++ more) mode
  rw [ho]
  refine ⟨h1, h2, h4, ?_⟩
  rw [h3]
  exact ⟨more ++ m', by simp⟩

/-- C24. Schema and errors do not depend on the mode. -/
theorem C24_mode (w : World) (s : Str) (l : Option ErrorList) (m m' : Nat) :
    (parseKF w s l m).result = (parseKF w s l m').result ∧
    (parseKF w s l m).errors = (parseKF w s l m').errors := by
  unfold parseKF
  simp only [traced_result]
  cases syntaxTree s with
  | none => cases w.crash s <;> simp only [finish_result, finish_errors, and_self]
  | some tree =>
    simp only
    split
    · simp only [finish_result, finish_errors, and_self]
    · cases visitSource tree with
      | error p => simp only [finish_result, finish_errors, and_self]
      | ok sch =>
        simp only
        cases validate w.toEnv sch with
        | none => simp only [finish_result, finish_errors, and_self]
        | some f => cases f <;> simp only [finish_result, finish_errors, and_self]

/-- C24. Unless the mode has the Trace bit (value 2) nothing is printed. -/
theorem C24_quiet (w : World) (s : Str) (l : Option ErrorList) (m : Nat)
    (h : m &&& 2 = 0) : (parseKF w s l m).printed = [] := by
  have hb : (m &&& modeTrace != 0) = false := by unfold modeTrace; rw [h]; rfl
  have hf : ∀ r l e, (finish m r l e []).printed = [] := by
    intro r l e; unfold finish; rw [hb]; rfl
  unfold parseKF
  simp only [hb, untraced]
  cases syntaxTree s with
  | none => cases w.crash s <;> exact hf _ _ _
  | some tree =>
    simp only
    split
    · exact hf _ _ _
    · cases (tVisitSource false tree).res with
      | error p => exact hf _ _ _
      | ok sch =>
        simp only
        cases validate w.toEnv sch with
        | none => exact hf _ _ _
        | some f => cases f <;> exact hf _ _ _

/-- C24. `Parse` is `ParseKF` without a listener in any mode that has not the
Trace bit; in particular it prints nothing. -/
theorem C24_parse (w : World) (s : Str) (m : Nat) (h : m &&& 2 = 0) :
    parse w s = parseKF w s none m ∧ (parse w s).printed = [] := by
  have hp : (parse w s).printed = [] := C24_quiet w s none 1 rfl
  refine ⟨?_, hp⟩
  have h₁ := C24_mode w s none 1 m
  have h₂ := C24_quiet w s none m h
  have e : ∀ o o' : Outcome, o.result = o'.result → o.errors = o'.errors → o.printed = o'.printed →
      o = o' := by
    rintro ⟨⟩ ⟨⟩ h h' h''; cases h; cases h'; cases h''; rfl
  exact e _ _ h₁.1 h₁.2 (hp.trans h₂.symm)

/-- C24. After any history of calls, a call with a nil listener gives the same
schema and errors as the first call of a fresh process in any other mode. -/
theorem C24_history (w : World) (heap : List ErrorList) (cs : List Call) (s : Str) (m m' : Nat) :
    let o := (step w (history w heap cs).1 ⟨s, none, m⟩).2
    o.result = (parseKF w s none m').result ∧ o.errors = (parseKF w s none m').errors ∧
    (step w (history w heap cs).1 ⟨s, none, m⟩).1 = (history w heap cs).1 :=
  ⟨(C24_mode w s none m m').1, (C24_mode w s none m m').2, rfl⟩

/-! The hypotheses can be met. -/

/-- A text with a syntax error (C20, C22). -/
example : ¬ ∃ toks, Tokenises "database d; table".toList toks ∧ Sentence (visible toks) :=
  not_sentence_of_lexAll (by decide +kernel)

/-- The same listener for three calls, an accepted text among them (C23). -/
example : (history Sample.world [[]] [⟨"database d;".toList, some 0, 1⟩,
      ⟨"databse d;".toList, some 0, 1⟩, ⟨"database d;".toList, some 0, 1⟩]).2.map
      (fun o => (o.result.isSome, o.errors.length)) = [(true, 0), (false, 2), (false, 3)] := by
  decide +kernel

/-- A validation panic (C20). -/
example : let o := parse Sample.world "database d; action a() public {boom();}".toList
    o.result.isSome = true ∧ o.errors = [.real (.other "boom".toList)] := by decide +kernel

end Verif
