import Verif.Props.Statements
/-!
# C54: what a statement can be

docs/syntax.md: "below is a list of ... that are not allowed in raw SQLite sql:
`CREATE` statement, `DROP` statement".
-/

namespace Verif

/-- C54. Every statement of an accepted schema is of one of three forms: an SQL
statement that starts with one of the five verbs and has its only semicolon at
the end; a call that starts with a name which is not reserved, followed by `(`
or `.`; or a call that starts with a variable, followed by `,` or `=`. -/
theorem C54_statement_forms (w : World) (s : Str) (sch : Schema) (h : Accepts w s sch)
    (a : Action) (ha : a ∈ sch.actions.elems) (st : Str) (hst : st ∈ a.statements.elems) :
    (∃ verb b mid, st = verb ++ b :: mid ++ [';'] ∧
      lower verb ∈ ["select", "insert", "update", "delete", "with"].map String.toList ∧
      b ∈ blanks ∧ mid ≠ [] ∧ ';' ∉ mid ∧ '}' ∉ mid) ∨
    (∃ name c rest, st = name ++ c :: rest ∧ IsName name ∧ ¬ Reserved name ∧ (c = '(' ∨ c = '.')) ∨
    (∃ name c rest, st = '$' :: name ++ c :: rest ∧ IsName name ∧ (c = ',' ∨ c = '=')) := by
  by_cases hsql : SqlStart st
  · obtain ⟨_, verb, b, mid, h1, h2, h3⟩ := C25_sql_verbatim w s sch h a ha st hst hsql
    exact .inl ⟨verb, b, mid, h1, h2, h3⟩
  · right
    obtain ⟨p, hp, hf, rfl⟩ := h.exists_program
    obtain ⟨x, A, B, rfl, hab, _⟩ := stmt_at ha hst
    have hlex : ∀ t ∈ x.toks, Lexeme t false := fun t ht =>
      hp.lexemes t (by rw [hab]; simp [ht])
    cases x with
    | sql x =>
      refine absurd ?_ hsql
      obtain ⟨k, c, u, hu, hk, hc, _⟩ := sqlStmt_split
        ((hlex ⟨.SQL_STMT, x⟩ (by simp [Stmt.toks])).form.2.2.2.2.2.2.2 rfl)
      exact ⟨k, c, u ++ [';'], by
        simp only at hu
        simp [Stmt.denote, Stmt.toks, glued, hu, show (kw .SCOL).text = [';'] from rfl], sqlKw_iff.1 hk, hc⟩
    | call rs ext m args =>
      cases rs with
      | some rs =>
        right
        obtain ⟨n, hn, hname⟩ := lexeme_var (hlex (varTok rs.head) (by simp [Stmt.toks, NE.toks]))
        obtain ⟨hd, tl⟩ := rs
        simp only at hn
        subst hn
        cases tl with
        | nil =>
          exact ⟨n, '=', _, by
            simp [Stmt.denote, Stmt.toks, glued, NE.toks, varTok, show (kw .ASSIGN).text = ['='] from rfl]
            rfl, hname, .inr rfl⟩
        | cons y ys =>
          exact ⟨n, ',', _, by
            simp [Stmt.denote, Stmt.toks, glued, NE.toks, varTok, show (kw .COMMA).text = [','] from rfl]
            rfl, hname, .inl rfl⟩
      | none =>
        left
        cases ext with
        | some e =>
          obtain ⟨h1, h2⟩ := lexeme_ident.1 (hlex (idTok e) (by simp [Stmt.toks]))
          exact ⟨e, '.', _, by
            simp [Stmt.denote, Stmt.toks, glued, idTok, show (kw .PERIOD).text = ['.'] from rfl]
            rfl, h1, h2, .inr rfl⟩
        | none =>
          obtain ⟨h1, h2⟩ := lexeme_ident.1 (hlex (idTok m) (by simp [Stmt.toks]))
          exact ⟨m, '(', _, by
            simp [Stmt.denote, Stmt.toks, glued, idTok, show (kw .L_PAREN).text = ['('] from rfl]
            rfl, h1, h2, .inl rfl⟩

/-- Words end where the next character is not a word character. -/
theorem first_word {n n' : Str} {c c' : Char} {z z' : Str} (hn : IsName n) (hn' : IsName n')
    (hc : ¬ IsWordChar c) (hc' : ¬ IsWordChar c') (h : n ++ c :: z = n' ++ c' :: z') :
    n = n' ∧ c = c' := by
  have wordy : ∀ {n}, IsName n → ∀ d ∈ n, isWord d = true := fun hn =>
    (isName_iff.1 hn).wordy (by decide +kernel)
  have hcw : ∀ {c}, ¬ IsWordChar c → isWord c = false := by
    intro c hc
    rw [← isWord_iff] at hc; simpa using hc
  have p1 := word_split (wordy hn) (wordy hn') (hcw hc') h
  have p2 := word_split (wordy hn') (wordy hn) (hcw hc) h.symm
  have := p1.eq_of_length (Nat.le_antisymm p1.length_le p2.length_le)
  subst this
  have := List.append_cancel_left h
  simp at this
  exact ⟨rfl, this.1⟩

/-- C54. If a statement of an accepted schema starts with a word, and what
follows the word is neither `(` nor `.`, the word is one of the five verbs: no
`CREATE`, `DROP`, `PRAGMA`, `ATTACH`, ... statement is ever accepted, whatever
the external SQL parser says. -/
theorem C54_no_other_sql (w : World) (s : Str) (sch : Schema) (h : Accepts w s sch)
    (a : Action) (ha : a ∈ sch.actions.elems) (st : Str) (hst : st ∈ a.statements.elems)
    (word : Str) (c : Char) (rest : Str) (he : st = word ++ c :: rest) (hw : IsName word)
    (hc : ¬ IsWordChar c) (h1 : c ≠ '(') (h2 : c ≠ '.') :
    lower word ∈ ["select", "insert", "update", "delete", "with"].map String.toList := by
  rcases C54_statement_forms w s sch h a ha st hst with
    ⟨verb, b, mid, hv, hl, hb, _⟩ | ⟨n, d, r, hv, hn, _, hd⟩ | ⟨n, d, r, hv, hn, hd⟩
  · have hvn : IsName verb := by
      have hk := sqlKw_iff.2 hl
      have hwd := hk.wordy sqlKw_wordy
      cases verb with
      | nil => exact (sqlKw_ne hk).elim
      | cons x xs =>
        refine ⟨?_, fun d hd => (isWord_iff).1 (hwd d (by simp [hd]))⟩
        have hx : ∀ v ∈ ["select", "insert", "update", "delete", "with"].map String.toList,
            ∀ c, v.head? = some c → 'a' ≤ c ∧ c ≤ 'z' := by decide
        have := hx _ hl (lowerChar x) rfl
        unfold lowerChar at this
        split at this
        · next hu => exact .inl hu
        · exact .inr this
    have hbw : ¬ IsWordChar b := by
      rw [← isWord_iff, blank_not_word hb]; simp
    have := first_word hw hvn hc hbw (by rw [← he, hv, List.append_assoc]; rfl)
    rw [this.1]; exact hl
  · have hdw : ¬ IsWordChar d := by
      rcases hd with rfl | rfl <;> decide
    have := first_word hw hn hc hdw (by rw [← he, hv])
    rcases hd with rfl | rfl
    · exact absurd this.2 h1
    · exact absurd this.2 h2
  · exfalso
    cases word with
    | nil => exact hw
    | cons x xs =>
      rw [he] at hv
      simp at hv
      rw [hv.1] at hw
      exact absurd hw.1 (by decide)

/-- The statements of the sample are of all three forms. -/
example : ∃ a ∈ Sample.prog.denote.actions.elems, "select 1;".toList ∈ a.statements.elems := by
  decide +kernel

/-- A text with a `CREATE` statement is rejected by the syntax stage. -/
example : syntaxTree "database d; action a() public { create table t (x int); }".toList = none := by
  decide +kernel

end Verif
