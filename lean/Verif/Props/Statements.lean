import Verif.Proof.Glue
import Verif.Proof.Insert
import Verif.Props.SampleText
/-!
# C25–C27: statements
-/

namespace Verif

/-- The text starts like an SQL statement: a verb, in any case, and a blank. -/
def SqlStart (x : Str) : Prop :=
  ∃ verb b rest, x = verb ++ b :: rest ∧ lower verb ∈ verbs.map (·.1) ∧ b ∈ blanks

/-! ## Where statements come from -/

theorem stmt_toks_last (x : Stmt) : ∃ ts, x.toks = ts ++ [kw .SCOL] := by
  cases x with
  | sql t => exact ⟨[⟨.SQL_STMT, t⟩], rfl⟩
  | call rs ext m args =>
    simp only [Stmt.toks]
    generalize (_ ++ CommaList.toks Expr.toks args : List Tok) = z
    exact ⟨z ++ [kw .R_PAREN], by simp⟩

theorem body_at {b : NE Stmt} {x : Stmt} (hx : x ∈ b.list) :
    ∃ A B, bodyToks b = A ++ x.toks ++ B ∧
      (A.getLast? = some (kw .L_BRACE) ∨ A.getLast? = some (kw .SCOL)) := by
  obtain ⟨l1, l2, hl⟩ := List.append_of_mem hx
  refine ⟨[kw .L_BRACE] ++ l1.flatMap Stmt.toks, l2.flatMap Stmt.toks ++ [kw .R_BRACE], ?_, ?_⟩
  · simp [bodyToks, hl]
  · rcases List.eq_nil_or_concat l1 with rfl | ⟨l, y, rfl⟩
    · exact .inl rfl
    · obtain ⟨ts, hts⟩ := stmt_toks_last y
      right
      rw [List.concat_eq_append, List.flatMap_append]
      simp only [List.flatMap_cons, List.flatMap_nil, List.append_nil, hts, ← List.append_assoc]
      rw [List.getLast?_concat]

theorem stmt_at {p : Program} {a : Action} (ha : a ∈ p.denote.actions.elems) {st : Str}
    (hst : st ∈ a.statements.elems) :
    ∃ (x : Stmt) (A B : List Tok), st = x.denote ∧ p.toks = A ++ x.toks ++ B ∧
      (A.getLast? = some (kw .L_BRACE) ∨ A.getLast? = some (kw .SCOL)) := by
  have key : ∃ b : NE Stmt, st ∈ b.list.map Stmt.denote ∧
      ∃ A B, p.toks = A ++ bodyToks b ++ B := by
    rw [p.denote_actions] at ha
    rcases List.mem_append.1 ha with ha | ha
    · obtain ⟨d, hd, rfl⟩ := List.mem_map.1 ha
      refine ⟨d.body, hst, ?_⟩
      have hm : Decl.action d ∈ p.decls := by
        simp only [Program.actions, List.mem_filterMap] at hd
        obtain ⟨e, he, heq⟩ := hd
        cases e <;> simp at heq
        subst heq; exact he
      obtain ⟨l1, l2, hl⟩ := List.append_of_mem hm
      refine ⟨[kw .DATABASE_, idTok p.name, kw .SCOL] ++ p.exts.flatMap ExtDecl.toks ++
        l1.flatMap Decl.toks ++ (d.annotations.flatMap Annot.toks ++ [kw .ACTION_, idTok d.name, kw .L_PAREN] ++
        d.params.toks (fun s => [varTok s]) ++ [kw .R_PAREN] ++ d.modifiers.map Modifier.tok),
        l2.flatMap Decl.toks, ?_⟩
      simp [Program.toks, hl, Decl.toks, ActionDecl.toks]
    · obtain ⟨b, hb, rfl⟩ := List.mem_map.1 ha
      refine ⟨b, hst, ?_⟩
      have hm : Decl.init b ∈ p.decls := by
        simp only [Program.inits, List.mem_filterMap] at hb
        obtain ⟨e, he, heq⟩ := hb
        cases e <;> simp at heq
        subst heq; exact he
      obtain ⟨l1, l2, hl⟩ := List.append_of_mem hm
      refine ⟨[kw .DATABASE_, idTok p.name, kw .SCOL] ++ p.exts.flatMap ExtDecl.toks ++
        l1.flatMap Decl.toks ++ [kw .INIT_, kw .L_PAREN, kw .R_PAREN], l2.flatMap Decl.toks, ?_⟩
      simp [Program.toks, hl, Decl.toks]
  obtain ⟨b, hb, A, B, hab⟩ := key
  obtain ⟨x, hx, rfl⟩ := List.mem_map.1 hb
  obtain ⟨C, D, hcd, hlast⟩ := body_at hx
  refine ⟨x, A ++ C, D ++ B, rfl, by rw [hab, hcd]; simp, ?_⟩
  have hne : C ≠ [] := by rintro rfl; simp at hlast
  rw [List.getLast?_append]
  rcases hlast with h | h <;> simp [h]

/-- Cutting the tokens where the visible ones are cut. -/
theorem visible_cut {l : List (Tok × Bool)} {A B : List Tok} (h : visible l = A ++ B) :
    ∃ l₁ l₂, l = l₁ ++ l₂ ∧ visible l₁ = A ∧ visible l₂ = B := by
  induction l generalizing A with
  | nil =>
    simp [visible] at h
    exact ⟨[], [], rfl, by simp [visible, h.1], by simp [visible, h.2]⟩
  | cons p l ih =>
    obtain ⟨t, b⟩ := p
    cases b with
    | true =>
      obtain ⟨l₁, l₂, rfl, h1, h2⟩ := ih (A := A) (by simpa [visible] using h)
      exact ⟨(t, true) :: l₁, l₂, rfl, by simpa [visible] using h1, h2⟩
    | false =>
      cases A with
      | nil => exact ⟨[], (t, false) :: l, rfl, rfl, by simpa using h⟩
      | cons a A =>
        simp only [visible, List.filter_cons, Bool.not_false, if_true, List.map_cons,
          List.cons_append, List.cons.injEq] at h
        obtain ⟨rfl, h⟩ := h
        obtain ⟨l₁, l₂, rfl, h1, h2⟩ := ih (A := A) h
        exact ⟨(t, false) :: l₁, l₂, rfl, by simp [visible] at h1 ⊢; exact h1, h2⟩

theorem Tokenises.append_inv {s : Str} {l₁ l₂ : List (Tok × Bool)} (h : Tokenises s (l₁ ++ l₂)) :
    Tokenises (l₂.flatMap (·.1.text)) l₂ := by
  induction l₁ generalizing s with
  | nil => rw [List.nil_append] at h; rw [h.text]; exact h
  | cons p l₁ ih =>
    obtain ⟨rest, _, hr⟩ := h.cons_inv
    exact ih hr

theorem brace_start : ∀ r ∈ lexRules, r.re.deriv '}' ≠ .none → r.ty = .R_BRACE ∧ r.hidden = false := by
  decide +kernel

/-- After an SQL statement followed by a semicolon token there is a semicolon
character. -/
theorem sql_then_scol {x : Str} {l : List (Tok × Bool)} {ts : List Tok}
    (h : Tokenises (((⟨.SQL_STMT, x⟩, false) :: l).flatMap (·.1.text)) ((⟨.SQL_STMT, x⟩, false) :: l))
    (hv : visible l = kw .SCOL :: ts) : ∃ rest, l.flatMap (·.1.text) = ';' :: rest := by
  obtain ⟨rest, hn, hr⟩ := h.cons_inv
  have hx := hn.form.2.2.2.2.2.2.2 rfl
  rw [hr.text]
  cases rest with
  | nil =>
    exfalso
    generalize hz : ([] : Str) = z at hr
    cases hr with
    | nil => simp [visible] at hv
    | cons hn' _ => exact hn'.2.1 (by have := hn'.1; rw [← hz] at this; simp at this; exact this.1)
  | cons d rest =>
    by_cases h1 : d = ';'
    · exact ⟨rest, by rw [h1]⟩
    by_cases h2 : d = '}'
    · exfalso
      subst h2
      cases hr with
      | @cons _ _ t hid l' hn' hr' =>
        obtain ⟨r, hrm, hty, hhid, hcl⟩ := hn'.rule
        obtain ⟨c, z, hz⟩ := List.exists_cons_of_ne_nil hn'.2.1
        have : c = '}' := by
          have := hn'.1; rw [hz] at this; simp at this; exact this.1.symm
        subst this
        have hb := brace_start r hrm (Lang.starts (by have := hcl.2.1; rwa [hz] at this))
        rw [hhid] at hb
        obtain ⟨hb1, rfl⟩ := hb
        simp [visible] at hv
        have := congrArg Tok.ty hv.1
        rw [← hty, hb1] at this
        cases this
    · exfalso
      have := hn.maximal sqlRule_mem rfl (y := x ++ [d]) (by rw [hn.1]; exact ⟨rest, by simp⟩)
        (sqlStmt_extend hx h1 h2)
      simp at this
      omega

theorem call_not_sql {rs : Option (NE Str)} {ext : Option Str} {m : Str} {args : CommaList (Expr false)}
    (hl : ∀ t ∈ (Stmt.call rs ext m args).toks, Lexeme t false) :
    ¬ SqlStart (Stmt.call rs ext m args).denote := by
  rintro ⟨verb, b, rest, he, hv, hb⟩
  have hvl := sqlKw_iff.2 hv
  have hname : ∀ (n : Str) (c : Char) (z : Str), idTok n ∈ (Stmt.call rs ext m args).toks →
      ¬ IsWordChar c → verb ++ b :: rest = n ++ c :: z → False := by
    intro n c z hn hc heq
    obtain ⟨h1, h2⟩ := lexeme_ident.1 (hl _ hn)
    have hkw := hvl.wordy sqlKw_wordy
    have hnw := (isName_iff.1 h1).wordy (by decide +kernel)
    have hcw : isWord c = false := by
      rw [← isWord_iff] at hc; simpa using hc
    have p1 := word_split hkw hnw hcw heq
    have p2 := word_split hnw hkw (blank_not_word hb) heq.symm
    have heq : verb = n := p1.eq_of_length (Nat.le_antisymm p1.length_le p2.length_le)
    subst heq
    exact h2 (.inr hv)
  cases rs with
  | some rs =>
    have hmem : varTok rs.head ∈ (Stmt.call (some rs) ext m args).toks := by
      simp [Stmt.toks, NE.toks]
    obtain ⟨y, hy, _⟩ := lexeme_var (hl _ hmem)
    cases verb with
    | nil => exact sqlKw_ne hvl
    | cons c verb =>
      have hc : c = '$' := by
        have := he
        simp only [Stmt.denote, Stmt.toks, NE.toks, glued, List.append_assoc, List.cons_append,
          List.flatMap_append, List.nil_append, List.flatMap_cons, varTok, hy] at this
        simp at this
        exact this.1.symm
      have := hvl.wordy sqlKw_wordy c (by simp)
      rw [hc] at this
      exact absurd this (by decide)
  | none =>
    cases ext with
    | some e =>
      refine hname e '.' (glued ([idTok m, kw .L_PAREN] ++ args.toks Expr.toks ++
        [kw .R_PAREN, kw .SCOL])) (by simp [Stmt.toks]) (by decide) (he.symm.trans ?_)
      simp [Stmt.denote, Stmt.toks, glued, idTok, show (kw .PERIOD).text = ['.'] from rfl]
    | none =>
      refine hname m '(' (glued (args.toks Expr.toks ++ [kw .R_PAREN, kw .SCOL]))
        (by simp [Stmt.toks]) (by decide) (he.symm.trans ?_)
      simp [Stmt.denote, Stmt.toks, glued, idTok, show (kw .L_PAREN).text = ['('] from rfl]

/-! ## C25 -/

/-- C25. Each SQL statement of an accepted schema is, character for character,
a contiguous piece of the source: a verb, in any case, a blank, then characters
other than `;` and `}`, and its only semicolon at the end. -/
theorem C25_sql_verbatim (w : World) (s : Str) (sch : Schema) (h : Accepts w s sch)
    (a : Action) (ha : a ∈ sch.actions.elems) (st : Str) (hst : st ∈ a.statements.elems)
    (hsql : SqlStart st) :
    st <:+: s ∧ ∃ verb b mid, st = verb ++ b :: mid ++ [';'] ∧ lower verb ∈ verbs.map (·.1) ∧
      b ∈ blanks ∧ mid ≠ [] ∧ ';' ∉ mid ∧ '}' ∉ mid := by
  obtain ⟨p, hp, hf, rfl⟩ := h.exists_program
  obtain ⟨x, A, B, rfl, hab, _⟩ := stmt_at ha hst
  have hlex : ∀ t ∈ x.toks, Lexeme t false := fun t ht =>
    hp.lexemes t (by rw [hab]; simp [ht])
  obtain ⟨l, hl, hv⟩ := hp
  cases x with
  | call rs ext m args => exact absurd hsql (call_not_sql hlex)
  | sql x =>
    have hd : (Stmt.sql x).denote = x ++ [';'] := by
      simp [Stmt.denote, Stmt.toks, glued]; rfl
    rw [hd]
    constructor
    · rw [hab, Stmt.toks, List.append_assoc] at hv
      obtain ⟨l₁, l₂, rfl, h1, h2⟩ := visible_cut hv
      obtain ⟨l₃, l₄, rfl, h3, h4⟩ := visible_cut (A := [⟨.SQL_STMT, x⟩]) (B := kw .SCOL :: B) h2
      -- the hidden tokens before the statement
      obtain ⟨l₅, l₆, rfl, h5, h6⟩ : ∃ l₅ l₆, l₃ = l₅ ++ (⟨.SQL_STMT, x⟩, false) :: l₆ ∧
          visible l₅ = [] ∧ visible l₆ = [] := by
        clear hv hl h1 h2 h4
        induction l₃ with
        | nil => simp [visible] at h3
        | cons q l₃ ih =>
          obtain ⟨t, b⟩ := q
          cases b with
          | true =>
            obtain ⟨a, c, rfl, e1, e2⟩ := ih (by simpa [visible] using h3)
            exact ⟨(t, true) :: a, c, rfl, by simpa [visible] using e1, e2⟩
          | false =>
            simp only [visible, List.filter_cons, Bool.not_false, if_true, List.map_cons,
              List.cons.injEq] at h3
            obtain ⟨rfl, h3⟩ := h3
            exact ⟨[], l₃, rfl, rfl, h3⟩
      have ht : Tokenises s ((l₁ ++ l₅) ++ ((⟨.SQL_STMT, x⟩, false) :: (l₆ ++ l₄))) := by
        simpa using hl
      have ht2 := ht.append_inv
      obtain ⟨rest, hrest⟩ := sql_then_scol ht2 (by rw [visible_append, h6, h4]; rfl)
      refine ⟨(l₁ ++ l₅).flatMap (·.1.text), rest, ?_⟩
      have h := ht.text
      rw [List.flatMap_append (xs := l₁ ++ l₅), List.flatMap_cons, hrest] at h
      rw [← h]
      simp
    · have hx : Lang Lx.sqlStmt x := (hlex ⟨.SQL_STMT, x⟩ (by simp [Stmt.toks])).form.2.2.2.2.2.2.2 rfl
      obtain ⟨k, c, u, hu, hk, hc, hne, h1, h2⟩ := sqlStmt_split hx
      exact ⟨k, c, u, by simp [hu], sqlKw_iff.1 hk, hc, hne, fun hm => h1 (by simp [hu, hm]),
        fun hm => h2 (by simp [hu, hm])⟩

/-! ## C26 -/

theorem callRules_scol : ∀ r ∈ callRules,
    (grammar r).okPairs ruleInfo callRules callTypes.contains (fun a _ => a != .SCOL) = true := by
  decide +kernel

theorem chain_init {R : TT → TT → Bool} {ts : List Tok} {u : Tok} (h : Chain R (ts ++ [u])) :
    ∀ t ∈ ts, ∃ b, R t.ty b = true := by
  induction ts with
  | nil => simp
  | cons t ts ih =>
    intro x hx
    rcases List.mem_cons.1 hx with rfl | hx
    · cases ts with
      | nil => exact ⟨_, h.1 u rfl⟩
      | cons v ts => exact ⟨_, h.1 v rfl⟩
    · exact ih h.2 x hx

theorem call_one_scol {rs : Option (NE Str)} {ext : Option Str} {m : Str}
    {args : CommaList (Expr false)} {ts : List Tok}
    (h : (Stmt.call rs ext m args).toks = ts ++ [kw .SCOL]) : ∀ t ∈ ts, t.ty ≠ .SCOL := by
  have hd := gen_described callRules_scol ((rep_call_stmt (n := 0)).bwd (rs, ext, m, args)) (by decide)
  have hc : Chain _ (Stmt.call rs ext m args).toks := hd.pairs
  rw [h] at hc
  intro t ht
  obtain ⟨b, hb⟩ := chain_init hc t ht
  simpa using hb

theorem call_no_blank : ∀ r ∈ lexRules, r.ty ∈ callTypes → r.ty ≠ .STRING_LITERAL →
    ∀ c ∈ blanks, r.re.canContain c = false := by decide +kernel

/-- C26. Every other statement of an accepted schema is a call: its text is
the texts of the source tokens from the one after `{` or `;` to the next `;`,
with white space and comments removed; outside string literals no blank is
left. -/
theorem C26_call_tokens (w : World) (s : Str) (sch : Schema) (h : Accepts w s sch)
    (a : Action) (ha : a ∈ sch.actions.elems) (st : Str) (hst : st ∈ a.statements.elems)
    (hcall : ¬ SqlStart st) :
    ∃ before seg after ts, Tokenises s (before ++ seg ++ after) ∧
      (∃ t, (visible before).getLast? = some t ∧ (t.ty = .L_BRACE ∨ t.ty = .SCOL)) ∧
      visible seg = ts ++ [⟨.SCOL, [';']⟩] ∧ (∀ t ∈ ts, t.ty ≠ .SCOL) ∧
      st = (ts.flatMap (·.text)) ++ [';'] ∧
      ∀ t ∈ ts, t.ty ≠ .STRING_LITERAL → ∀ c ∈ t.text, c ∉ blanks := by
  obtain ⟨p, hp, hf, rfl⟩ := h.exists_program
  obtain ⟨x, A, B, rfl, hab, hlast⟩ := stmt_at ha hst
  have hlex : ∀ t ∈ x.toks, Lexeme t false := fun t ht =>
    hp.lexemes t (by rw [hab]; simp [ht])
  obtain ⟨l, hl, hv⟩ := hp
  cases x with
  | sql x =>
    refine absurd ?_ hcall
    obtain ⟨k, c, u, hu, hk, hc, _⟩ := sqlStmt_split
      ((hlex ⟨.SQL_STMT, x⟩ (by simp [Stmt.toks])).form.2.2.2.2.2.2.2 rfl)
    exact ⟨k, c, u ++ [';'], by
      simp only at hu
      simp [Stmt.denote, Stmt.toks, glued, hu, show (kw .SCOL).text = [';'] from rfl], sqlKw_iff.1 hk, hc⟩
  | call rs ext m args =>
    obtain ⟨ts, hts⟩ := stmt_toks_last (.call rs ext m args)
    rw [hab] at hv
    obtain ⟨l₁, l₂, rfl, h1, h2⟩ := visible_cut hv
    obtain ⟨l₃, l₄, rfl, h3, h4⟩ := visible_cut h1
    refine ⟨l₃, l₄, l₂, ts, hl, ?_, by rw [h4, hts]; rfl, call_one_scol hts, ?_, ?_⟩
    · rw [h3]
      rcases hlast with h | h
      · exact ⟨_, h, .inl rfl⟩
      · exact ⟨_, h, .inr rfl⟩
    · simp [Stmt.denote, hts, glued]; rfl
    · intro t ht hns c hc hb
      have hm : t ∈ (Stmt.call rs ext m args).toks := by rw [hts]; simp [ht]
      obtain ⟨r, hr, hty, _, hcl⟩ := (hlex t hm).rule
      have hct : t.ty ∈ callTypes := by
        simpa using (call_described rs ext m args).each t hm
      have := call_no_blank r hr (by rw [hty]; exact hct) (by rw [hty]; exact hns) c hb
      rw [hcl.2.1.canContain hc] at this
      cases this

/-! ## C27 -/

/-- Tokens read back from the glued text are all there is. -/
theorem lexAll_glued {ts : List Tok} (h : lexAll (glued ts) = some ts) :
    Tokenises (glued ts) (ts.map fun t => (t, false)) := by
  obtain ⟨l, hl, hv⟩ := (lexAll_iff _ _).1 h
  have key : ∀ l : List (Tok × Bool), (∀ p ∈ l, p.1.text ≠ []) →
      (l.flatMap (·.1.text)).length ≤ ((visible l).flatMap (·.text)).length →
      l = (visible l).map fun t => (t, false) := by
    intro l
    have le : ∀ l : List (Tok × Bool), ((visible l).flatMap (·.text)).length ≤
        (l.flatMap (·.1.text)).length := by
      intro l
      induction l with
      | nil => simp [visible]
      | cons p l ih =>
        obtain ⟨t, b⟩ := p
        cases b <;> simp [visible] at ih ⊢ <;> omega
    induction l with
    | nil => intro _ _; rfl
    | cons p l ih =>
      intro hne hle
      obtain ⟨t, b⟩ := p
      cases b with
      | true =>
        exfalso
        have h1 := le l
        have h2 : t.text.length ≠ 0 := by simpa using hne (t, true) (by simp)
        simp [visible] at hle h1
        omega
      | false =>
        have := ih (fun p hp => hne p (by simp [hp])) (by
          simp [visible] at hle ⊢; omega)
        conv => lhs; rw [this]
        simp [visible]
  have hne : ∀ p ∈ l, p.1.text ≠ [] := fun p hp => (hl.lexemes p hp).2.1
  have := key l hne (by rw [hl.text, hv]; exact Nat.le_refl _)
  rw [hv] at this
  rwa [this] at hl

/-- C27, as far as it holds. A stored SQL statement always reads back as
written.  A stored call statement reads back as written exactly if no two of
its adjacent tokens run together, that is, a name, a variable or one of `not`,
`and`, `or` is never followed directly by another word or a number. -/
theorem C27_reads_back_partial (s : Str) (p : Program) (hp : Writes s p) (x : Stmt)
    (A B : List Tok) (hx : p.toks = A ++ x.toks ++ B) :
    lexAll x.denote = some x.toks ↔ ∀ t u, [t, u] <:+: x.toks → ¬ Touch t u := by
  have hlex : ∀ t ∈ x.toks, Lexeme t false := fun t ht =>
    hp.lexemes t (by rw [hx]; simp [ht])
  cases x with
  | sql x =>
    have h1 : Tokenises (x ++ [';']) [(⟨.SQL_STMT, x⟩, false), (kw .SCOL, false)] := by
      have hl := hlex ⟨.SQL_STMT, x⟩ (by simp [Stmt.toks])
      obtain ⟨k, c, u, hu, hk, hc, _⟩ := sqlStmt_split (hl.form.2.2.2.2.2.2.2 rfl)
      simp only at hu
      refine .cons (IsNext.stop (t := ⟨.SQL_STMT, x⟩) hl ?_)
        (.cons (t := kw .SCOL) (rest := []) ?_ .nil)
      · intro r hr d z hd z' hlang
        simp at hd
        obtain ⟨rfl, rfl⟩ := hd
        rcases rules_verb r hr with h | h | h
        · rw [(rules_by_ty r hr).2.1 h] at hlang
          exact absurd (hlang.canContain (c := ';') (by simp)) (by decide +kernel)
        · have := hlang.wordy h c (by simp [hu])
          rw [blank_not_word hc] at this
          cases this
        · cases k with
          | nil => exact sqlKw_ne hk
          | cons e k =>
            simp only [hu, List.cons_append] at hlang
            exact Lang.starts hlang (h e (sqlKw_start hk))
      · have := hlex (kw .SCOL) (by simp [Stmt.toks])
        exact this
    constructor
    · rintro _ t u ⟨a, b, hab⟩ ⟨_, _, d, hd, hw⟩
      have hu : u = kw .SCOL := by
        have hlen := congrArg List.length hab
        simp [Stmt.toks] at hlen
        have ha : a = [] := by
          cases a with
          | nil => rfl
          | cons _ _ => simp at hlen; omega
        subst ha
        simp [Stmt.toks] at hab
        exact hab.2.1
      subst hu
      have : d = ';' := by
        have : some ';' = some d := hd
        simp at this; exact this.symm
      subst this
      exact absurd hw (by decide)
    · intro _
      have := lexAll_of h1
      simpa [Stmt.denote, Stmt.toks, glued, visible, kw, TT.fixed] using this
  | call rs ext m args =>
    have hd := call_described rs ext m args
    rw [← glued_iff hlex (fun t ht => by simpa using hd.each t ht) hd.pairs]
    constructor
    · exact lexAll_glued
    · intro h
      have := lexAll_of h
      rw [Stmt.denote, this]
      congr 1
      simp only [visible, List.filter_map, List.map_map]
      rw [List.filter_eq_self.2 (by simp)]
      simp [Function.comp_def]

/-- A text with the argument `not lower($a)`. -/
def Sample.gluedText : Str := "database d; action f($a) private { f(not lower($a)); }".toList

/-- What it says. -/
def Sample.gluedProg : Program where
  name := "d".toList
  exts := []
  decls := [.action ⟨[], "f".toList, ⟨some "$a".toList, []⟩, [.priv],
    ⟨.call none none "f".toList ⟨some (.not (.fn "lower".toList (.one (.var "$a".toList)))), []⟩, []⟩⟩]

/-- A statement parser that takes every statement for a call of `f`. -/
def Sample.gluedWorld : World where
  actParse := fun _ => .ok (.actionCall "f".toList [.other ["$a".toList]])
  sqlCheck := fun _ => none
  report := fun _ => ((1, 0, "mismatched input".toList), [])
  crash := fun _ => none

theorem Sample.glued_writes : Writes Sample.gluedText Sample.gluedProg :=
  writes_lit _ rfl (by decide +kernel)

theorem Sample.glued_accepts : Accepts Sample.gluedWorld Sample.gluedText Sample.gluedProg.denote := by
  have h1 : Sample.gluedProg.fault = none := by decide +kernel
  have h2 : validate Sample.gluedWorld.toEnv Sample.gluedProg.denote = none := by decide +kernel
  rw [Accepts, parse, Sample.glued_writes.parseKF, h1, h2]
  simp [Outcome.err, ErrorList.isErr]

/-- C27 does not hold: `f(not lower($a));` is stored as `f(notlower($a));`,
which reads as a call of a function `notlower`. -/
theorem C27_violated : ∃ w s sch p st toks, Accepts w s sch ∧ Writes s p ∧
    (∃ a ∈ sch.actions.elems, st ∈ a.statements.elems) ∧
    (∃ A B x, p.toks = A ++ toks ++ B ∧ toks = Stmt.toks x ∧ st = x.denote) ∧
    ∃ other, lexAll st = some other ∧ other ≠ toks ∧ idTok "notlower".toList ∈ other := by
  refine ⟨_, _, _, _, "f(notlower($a));".toList, _, Sample.glued_accepts, Sample.glued_writes,
    ?_, ⟨Sample.gluedProg.toks.take 10, [kw .R_BRACE], .call none none "f".toList
      ⟨some (.not (.fn "lower".toList (.one (.var "$a".toList)))), []⟩, by decide +kernel, rfl,
      by decide +kernel⟩, ?_⟩
  · exact ⟨⟨"f".toList, none, some ["$a".toList], false, C.mutUpdate, none,
      some ["f(notlower($a));".toList]⟩, by decide +kernel, by decide +kernel⟩
  · refine ⟨[idTok "f".toList, kw .L_PAREN, idTok "notlower".toList, kw .L_PAREN,
      varTok "$a".toList, kw .R_PAREN, kw .R_PAREN, kw .SCOL], ?_, ?_, ?_⟩
    · decide +kernel
    · decide +kernel
    · decide +kernel

/-! The hypotheses can be met. -/

/-- The sample schema has an SQL statement (C25) and two calls (C26, C27). -/
example : SqlStart "select 1;".toList ∧ ¬ SqlStart "$r=e.m($x,@caller);".toList ∧
    Sample.prog.denote.actions.elems.map (·.statements.elems) =
      [["select 1;".toList], ["$r=e.m($x,@caller);".toList, "hello($r);".toList],
        ["select 1;".toList]] := by
  refine ⟨⟨"select".toList, ' ', "1;".toList, by decide, by decide, by decide⟩, ?_, by decide +kernel⟩
  rintro ⟨verb, b, rest, he, hv, hb⟩
  have : b ∈ "$r=e.m($x,@caller);".toList := by rw [he]; simp
  exact (by decide +kernel : ∀ b ∈ "$r=e.m($x,@caller);".toList, b ∉ blanks) b this hb

end Verif
