import Verif.Proof.VisitorEval
/-!
# Programs read from text have clean statements
-/

namespace Verif

theorem letter_not_space {c : Char} (h : inCls false [(65, 90), (97, 122)] c = true) :
    isSpace c = false := by
  simp only [inCls, List.any_cons, List.any_nil, Bool.or_false, bne_iff_ne] at h
  have h' : (65 ≤ c.toNat ∧ c.toNat ≤ 90) ∨ (97 ≤ c.toNat ∧ c.toNat ≤ 122) := by
    simp at h; omega
  simp only [isSpace, isSpace.inRanges]
  simp
  omega

theorem ident_head {x : Str} (h : Lang Lx.ident x) : ∃ c y, x = c :: y ∧ isSpace c = false := by
  obtain ⟨c, y, rfl, hc, _⟩ := ident_iff.1 h
  exact ⟨c, y, rfl, letter_not_space hc⟩

theorem sql_head {x : Str} (h : Lang Lx.sqlStmt x) : ∃ c y, x = c :: y ∧ isSpace c = false := by
  obtain ⟨k, c, z, rfl, hk, _⟩ := sqlStmt_split h
  cases k with
  | nil => exact absurd hk sqlKw_ne
  | cons d k => exact ⟨d, _, rfl, letter_not_space (verbInitials_letter d (sqlKw_start hk))⟩

/-- The first token of a statement. -/
theorem stmt_first (s : Stmt) : ∃ t r, s.toks = t :: r ∧
    (t.ty = .SQL_STMT ∨ t.ty = .PARAM_OR_VAR ∨ t.ty = .IDENTIFIER) := by
  cases s with
  | sql t => exact ⟨_, _, rfl, .inl rfl⟩
  | call rs ext m args =>
    cases rs with
    | some rs => exact ⟨_, _, rfl, .inr (.inl rfl)⟩
    | none =>
      cases ext with
      | some e => exact ⟨_, _, rfl, .inr (.inr rfl)⟩
      | none => exact ⟨_, _, rfl, .inr (.inr rfl)⟩

theorem stmt_clean (s : Stmt) (h : ∀ t ∈ s.toks, Lexeme t false) : s.Clean := by
  obtain ⟨t, r, hs, ht⟩ := stmt_first s
  have hl := IsNext.form (h t (by rw [hs]; simp))
  have : ∃ c y, t.text = c :: y ∧ isSpace c = false := by
    rcases ht with ht | ht | ht
    · exact sql_head (hl.2.2.2.2.2.2.2 ht)
    · obtain ⟨y, hy, _⟩ := hl.2.2.2.1 ht
      exact ⟨'$', y, hy, by decide⟩
    · exact ident_head (hl.2.1 ht)
  obtain ⟨c, y, hc, hsp⟩ := this
  intro d hd
  simp [Stmt.denote, glued, hs, hc] at hd
  subst hd
  exact hsp

theorem mem_actions {p : Program} {a : ActionDecl} (h : a ∈ p.actions) : .action a ∈ p.decls := by
  simp only [Program.actions, List.mem_filterMap] at h
  obtain ⟨d, hd, he⟩ := h
  cases d <;> simp at he
  subst he; exact hd

theorem mem_tables {p : Program} {a : TableDecl} (h : a ∈ p.tables) : .table a ∈ p.decls := by
  simp only [Program.tables, List.mem_filterMap] at h
  obtain ⟨d, hd, he⟩ := h
  cases d <;> simp at he
  subst he; exact hd

theorem mem_inits {p : Program} {b : NE Stmt} (h : b ∈ p.inits) : .init b ∈ p.decls := by
  simp only [Program.inits, List.mem_filterMap] at h
  obtain ⟨d, hd, he⟩ := h
  cases d <;> simp at he
  subst he; exact hd

theorem decl_toks_sub {p : Program} {d : Decl} (h : d ∈ p.decls) : d.toks ⊆ p.toks := by
  intro t ht
  simp only [Program.toks, List.mem_append, List.mem_flatMap]
  exact .inr ⟨d, h, ht⟩

theorem body_toks_sub {b : NE Stmt} {s : Stmt} (h : s ∈ b.list) : s.toks ⊆ bodyToks b := by
  intro t ht
  simp only [bodyToks, List.mem_append, List.mem_flatMap]
  exact .inl (.inr ⟨s, h, ht⟩)

theorem action_stmt_sub {p : Program} {a : ActionDecl} (h : a ∈ p.actions) {s : Stmt}
    (hs : s ∈ a.body.list) : s.toks ⊆ p.toks := by
  intro t ht
  refine decl_toks_sub (mem_actions h) ?_
  simp only [Decl.toks, ActionDecl.toks, List.mem_append]
  exact .inr (body_toks_sub hs ht)

theorem init_stmt_sub {p : Program} {b : NE Stmt} (h : b ∈ p.inits) {s : Stmt}
    (hs : s ∈ b.list) : s.toks ⊆ p.toks := by
  intro t ht
  refine decl_toks_sub (mem_inits h) ?_
  simp only [Decl.toks, List.mem_append]
  exact .inr (body_toks_sub hs ht)

theorem program_clean (p : Program) (h : ∀ t ∈ p.toks, Lexeme t false) : p.Clean :=
  ⟨fun _ ha s hs => stmt_clean s fun t ht => h t (action_stmt_sub ha hs ht),
   fun _ hb s hs => stmt_clean s fun t ht => h t (init_stmt_sub hb hs ht)⟩

/-- The front end on a text: lexer, parser and visitor together. -/
theorem frontend {s : Str} {ts : List Tok} (hl : lexAll s = some ts) {tree : Tree}
    (hp : parseTokens ts = some tree) :
    ∃ p : Program, ts = p.toks ∧ tree = p.tree ∧
      visitSource tree = match p.fault with
        | none => .ok p.denote
        | some e => .error (.err e) := by
  obtain ⟨p, rfl, rfl⟩ := (parseTokens_program ts (lexAll_spelt hl) tree).1 hp
  exact ⟨p, rfl, rfl, visit_program p (program_clean p (lexAll_lexemes hl))⟩

end Verif
