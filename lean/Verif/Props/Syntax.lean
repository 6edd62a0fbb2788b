import Verif.Proof.Insert
import Verif.Proof.AtnParser
import Verif.Props.Samples
/-!
# C01, C02, C03, C05: the syntax stage

`parseKF w s l mode` is `ParseKF(s, l, mode)`; `.err = none` means that the
returned error is nil.
-/

namespace Verif

/-- C01. No error: the text is in the grammar. -/
theorem C01_no_error_in_grammar (w : World) (s : Str) (l : Option ErrorList) (mode : Nat)
    (h : (parseKF w s l mode).err = none) :
    ∃ toks, Tokenises s toks ∧ Sentence (visible toks) := by
  rw [← writes_of_sentence]
  refine Classical.byContradiction fun hn => ?_
  rw [parseKF_bad hn] at h
  simp [Outcome.err, ErrorList.isErr] at h

/-- C01. The grammar is the one in the serialized ATN of the generated parser:
decoding that table and reading off the right-hand side of every rule gives
the rules of `grammar`. -/
theorem C01_grammar_is_atn :
    ((Atn.decode 1 Atn.parserData).bind Atn.T.exprs).map (fun es =>
      es.length == Rule.all.length &&
      (es.zip Rule.all).all fun p => p.1.norm.same (grammar p.2).toEx) = some true :=
  Atn.parser_atn

/-- C02. On a sentence the listener receives no syntax error. -/
theorem C02_sentences_accepted (w : World) (s : Str) (toks : List (Tok × Bool))
    (ht : Tokenises s toks) (hs : Sentence (visible toks)) : syntaxErrors w s = [] :=
  syntaxErrors_nil.2 (writes_of_sentence.2 ⟨toks, ht, hs⟩)

/-- No error of the external statement parsers wraps `ErrInvalidSyntax`. -/
def World.NoSyntaxErrors (w : World) : Prop :=
  (∀ stmt e, w.actParse stmt = .error (.err e) → e.is .invalidSyntax = false) ∧
  (∀ stmt e, w.actParse stmt = .error (.panic (.err e)) → e.is .invalidSyntax = false) ∧
  (∀ stmt e, w.sqlCheck stmt = some (.err e) → e.is .invalidSyntax = false) ∧
  (∀ stmt e, w.sqlCheck stmt = some (.panic (.err e)) → e.is .invalidSyntax = false)

theorem sentwith_is {s : Sent} {m : Str} (h : s ≠ .invalidSyntax) :
    (s.with m).is .invalidSyntax = false := by
  cases s <;> simp [Sent.with, Err.is] at h ⊢ <;> decide

theorem fault_not_syntax {p : Program} {e : Err} (h : p.fault = some e) :
    e.is .invalidSyntax = false := by
  unfold Program.fault at h
  split at h
  · cases h; rfl
  · obtain ⟨a, _, ha⟩ := List.exists_of_findSome?_eq_some h
    unfold modifierFault at ha
    split at ha
    · cases ha; exact sentwith_is (by decide)
    · split at ha
      · cases ha; exact sentwith_is (by decide)
      · split at ha
        · cases ha; exact sentwith_is (by decide)
        · cases ha

theorem validate_not_syntax {w : World} (hw : w.NoSyntaxErrors) {s : Schema} {f : Fail}
    (h : validate w.toEnv s = some f) :
    (match f with | .err e => e | .panic p => p.toErr).is .invalidSyntax = false := by
  rcases validate_some w.toEnv s h with ⟨e, rfl, hd⟩ | ⟨p, l, stmt, _, rfl, hx⟩
  · cases hd with
    | unparsable _ hp => simp only [Err.is]; exact hw.1 _ _ hp
    | badSql _ _ hp => simp only [Err.is]; exact hw.2.2.1 _ _ hp
    | _ => exact sentwith_is (by decide)
  · cases p with
    | str s => rfl
    | val s => rfl
    | err e =>
      rcases hx with hx | ⟨_, hx⟩
      · exact hw.2.1 _ _ hx
      · exact hw.2.2.2 _ _ hx

/-- C02. … and the error that `ParseKF` returns, if any, is not a syntax
error. -/
theorem C02_no_syntax_error (w : World) (hw : w.NoSyntaxErrors) (s : Str) (mode : Nat)
    (toks : List (Tok × Bool)) (ht : Tokenises s toks) (hs : Sentence (visible toks)) :
    (parseKF w s none mode).errors.is .invalidSyntax = false := by
  obtain ⟨p, hp⟩ := writes_of_sentence.2 ⟨toks, ht, hs⟩
  rw [hp.parseKF]
  simp only [Option.getD_none, ErrorList.isErr, List.isEmpty_nil, Bool.not_true,
    Bool.false_eq_true, if_false]
  cases hf : p.fault with
  | some e => exact fault_not_syntax hf
  | none =>
    cases hv : validate w.toEnv p.denote with
    | none => rfl
    | some f =>
      have := validate_not_syntax hw hv
      cases f <;> exact this

/-- C02, the converse: every other text gives a syntax error, which comes first
if the listener was fresh. -/
theorem C02_others_rejected (w : World) (s : Str) (mode : Nat)
    (h : ¬ ∃ toks, Tokenises s toks ∧ Sentence (visible toks)) :
    (parseKF w s none mode).errors.is .invalidSyntax = true ∧
    (parseKF w s none mode).result = none := by
  rw [← writes_of_sentence] at h
  rw [parseKF_bad h]
  exact ⟨rfl, rfl⟩

/-- C03. The tokenisation is unique, and so is the parse tree (in which
argument expressions are flat): any two readings of a text give the same
tokens, tree and schema. -/
theorem C03_one_meaning (s : Str) (l₁ l₂ : List (Tok × Bool)) (t₁ t₂ : Tree)
    (hl₁ : Tokenises s l₁) (hl₂ : Tokenises s l₂)
    (ht₁ : Gen (.call .source_unit 0) (visible l₁ ++ [Tok.eof]) [t₁])
    (ht₂ : Gen (.call .source_unit 0) (visible l₂ ++ [Tok.eof]) [t₂]) :
    l₁ = l₂ ∧ t₁ = t₂ ∧ visitSource t₁ = visitSource t₂ := by
  have h : l₁ = l₂ := by
    have e₁ := (lexAllRaw_iff s l₁).2 hl₁
    rw [(lexAllRaw_iff s l₂).2 hl₂] at e₁
    simpa using e₁.symm
  subst h
  have := source_unique ht₁ ht₂
  simp at this
  exact ⟨rfl, this, by rw [this]⟩

/-- C03, in terms of programs: two programs written by the same text have the
same faults and, if they are free of faults, the same meaning. -/
theorem C03_one_program_meaning (s : Str) (p q : Program) (hp : Writes s p) (hq : Writes s q) :
    p.toks = q.toks ∧ p.fault = q.fault ∧ (p.fault = none → p.denote = q.denote) :=
  have h := hp.unique hq
  ⟨h.1, h.2.2⟩

/-- C05. Layout inserted at a token boundary of a syntactically correct text
changes nothing at all.  The boundary may not be directly after an SQL
statement (which would take the layout in) or a line comment (which would take
it in up to the end of the line), and a comment may not be put directly after
`/` (which together would start a line comment). -/
theorem C05_layout_insensitive (w : World) (s₁ sep s₂ : Str) (l₁ l₂ : List (Tok × Bool))
    (hsep : Layout sep) (ht : Tokenises (s₁ ++ s₂) (l₁ ++ l₂))
    (htext : l₁.flatMap (·.1.text) = s₁)
    (hlast : ∀ t h, l₁.getLast? = some (t, h) → t.ty ≠ .SQL_STMT ∧ t.ty ≠ .LINE_COMMENT ∧
      (sep.head? = some '/' → t.ty ≠ .DIV))
    (hs : Sentence (visible (l₁ ++ l₂))) (l : Option ErrorList) (mode : Nat) :
    parseKF w (s₁ ++ sep ++ s₂) l mode = parseKF w (s₁ ++ s₂) l mode := by
  obtain ⟨hv, hd⟩ := sentence_calm ht hs
  have hlex := lexAll_insert hsep ht htext (fun p hp => hlast p.1 p.2 hp)
    (fun p hp => hv p (by simp [hp]))
    (fun h => hd (h.trans (by simp [List.map_append]; exact (List.prefix_append _ _).isInfix)))
  obtain ⟨p, hp⟩ := writes_of_sentence.2 ⟨_, ht, hs⟩
  rw [hp.parseKF, ((writes_of_lexAll hlex).2 hp).parseKF]

/-- C05, for texts with syntax errors: they stay rejected.  Here the tokens
before the boundary must not contain a bare SQL verb or `/` directly followed
by `*`, the beginnings of an SQL statement and a comment. -/
theorem C05_rejected_stay_rejected (w : World) (s₁ sep s₂ : Str) (l₁ l₂ : List (Tok × Bool))
    (hsep : Layout sep) (ht : Tokenises (s₁ ++ s₂) (l₁ ++ l₂))
    (htext : l₁.flatMap (·.1.text) = s₁)
    (hlast : ∀ t h, l₁.getLast? = some (t, h) → t.ty ≠ .SQL_STMT ∧ t.ty ≠ .LINE_COMMENT ∧
      (sep.head? = some '/' → t.ty ≠ .DIV))
    (hverb : ∀ p ∈ l₁, p.1.ty ∉ [TT.SELECT_, .INSERT_, .UPDATE_, .DELETE_, .WITH_, .SQL_KEYWORDS])
    (hds : ¬ [TT.DIV, .STAR] <:+: l₁.map (·.1.ty))
    (hs : ¬ Sentence (visible (l₁ ++ l₂))) (l : Option ErrorList) (mode : Nat) :
    (parseKF w (s₁ ++ s₂) l mode).err ≠ none ∧ (parseKF w (s₁ ++ sep ++ s₂) l mode).err ≠ none ∧
    (parseKF w (s₁ ++ s₂) l mode).result = none ∧
    (parseKF w (s₁ ++ sep ++ s₂) l mode).result = none := by
  have hlex := lexAll_insert hsep ht htext (fun p hp => hlast p.1 p.2 hp) hverb hds
  have hn : ¬ ∃ p, Writes (s₁ ++ s₂) p := by
    rw [writes_of_sentence]
    rintro ⟨l', hl', hs'⟩
    have e₁ := (lexAllRaw_iff _ _).2 hl'
    rw [(lexAllRaw_iff _ _).2 ht] at e₁
    simp at e₁
    subst e₁
    exact hs hs'
  have hn' : ¬ ∃ p, Writes (s₁ ++ sep ++ s₂) p := by
    rintro ⟨p, hp⟩
    exact hn ⟨p, (writes_of_lexAll hlex).1 hp⟩
  rw [parseKF_bad hn, parseKF_bad hn']
  simp [Outcome.err, ErrorList.isErr]

/-- The hypotheses of `C05_layout_insensitive` can be met: a comment and a line
break before the name, after a blank that is already there. -/
example : ∃ l₁ l₂,
    Layout "/* a ** b */ // c\n\t".toList ∧
    Tokenises ("database ".toList ++ "d; init() {select 1;}".toList) (l₁ ++ l₂) ∧
    l₁.flatMap (·.1.text) = "database ".toList ∧
    (∀ t h, l₁.getLast? = some (t, h) → t.ty ≠ .SQL_STMT ∧ t.ty ≠ .LINE_COMMENT ∧
      ("/* a ** b */ // c\n\t".toList.head? = some '/' → t.ty ≠ .DIV)) ∧
    Sentence (visible (l₁ ++ l₂)) := by
  refine ⟨[(kw .DATABASE_, false), (⟨.WS, " ".toList⟩, true)],
    [(idTok "d".toList, false), (kw .SCOL, false), (⟨.WS, " ".toList⟩, true), (kw .INIT_, false),
     (kw .L_PAREN, false), (kw .R_PAREN, false), (⟨.WS, " ".toList⟩, true), (kw .L_BRACE, false),
     (⟨.SQL_STMT, "select 1".toList⟩, false), (kw .SCOL, false), (kw .R_BRACE, false)],
    ?_, ?_, by decide +kernel, ?_, ?_⟩
  · exact .block (body := " a ** b ".toList) (by decide +kernel)
      (.blank (by decide) (.line (body := " c".toList) (by decide) (by decide)
        (.blank (by decide) .nil)))
  · exact (lexAllRaw_iff _ _).1 (by decide +kernel)
  · intro t h ht
    cases ht
    exact ⟨by decide, by decide, fun _ => by decide⟩
  · exact ⟨_, Program.gen ⟨"d".toList, [], [.init ⟨.sql "select 1".toList, []⟩]⟩⟩

/-- The exclusions are needed: after `/` a block comment becomes a line
comment. -/
example : lexAll "/2".toList ≠ lexAll "//**/2".toList := by decide +kernel

end Verif
