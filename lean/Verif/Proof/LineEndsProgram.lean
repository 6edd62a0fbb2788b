import Verif.Proof.LineEnds
import Verif.Proof.Meaning
/-!
# Line ends: programs and schemas
-/

namespace Verif

set_option Elab.async false

/-! ## Programs -/

def Stmt.crlf : Stmt → Stmt
  | .sql text => .sql (Verif.crlf text)
  | s => s

def bodyCrlf (b : NE Stmt) : NE Stmt := ⟨b.head.crlf, b.tail.map Stmt.crlf⟩

def Decl.crlf : Decl → Decl
  | .table t => .table t
  | .action a => .action { a with body := bodyCrlf a.body }
  | .init b => .init (bodyCrlf b)

def Program.crlf (p : Program) : Program := { p with decls := p.decls.map Decl.crlf }

/-- Only statements have line feeds. -/
def Calm (ts : List Tok) : Prop := ∀ t ∈ ts, t.ty ≠ .SQL_STMT → '\n' ∉ t.text

theorem calm_left {a b : List Tok} (h : Calm (a ++ b)) : Calm a := fun t ht => h t (by simp [ht])

theorem calm_right {a b : List Tok} (h : Calm (a ++ b)) : Calm b := fun t ht => h t (by simp [ht])

theorem calm_map {ts : List Tok} (h : Calm ts) (hs : ∀ t ∈ ts, t.ty ≠ .SQL_STMT) :
    ts.map Tok.crlf = ts := by
  have : ∀ t ∈ ts, Tok.crlf t = t := by
    intro t ht
    rw [Tok.crlf, crlf_same (h t ht (hs t ht))]
  exact (List.map_congr_left this).trans (List.map_id' _)

theorem plain_sql {ty : TT} (h : ty ∉ [TT.SCOL, .R_BRACE, .SQL_STMT]) : ty ≠ .SQL_STMT := by
  rintro rfl
  exact h (by decide)

theorem ext_sql {e : ExtDecl} {t : Tok} (h : t ∈ e.toks) : t.ty ≠ .SQL_STMT := by
  unfold ExtDecl.toks at h
  simp only [List.mem_append, List.mem_cons, List.not_mem_nil, or_false] at h
  rcases h with ((rfl | rfl) | h) | rfl | rfl | rfl
  · decide
  · simp [idTok]
  · cases hc : e.config with
    | none => rw [hc] at h; simp at h
    | some c =>
      rw [hc] at h
      simp only [List.mem_append, List.mem_cons, List.not_mem_nil, or_false] at h
      rcases h with (rfl | h) | rfl
      · decide
      · rcases ne_toks h with rfl | ⟨y, _, h⟩
        · decide
        · exact plain_sql (pair_plain (by simp) h)
      · decide
  · decide
  · simp [idTok]
  · decide

theorem table_sql {d : TableDecl} {t : Tok} (h : t ∈ d.toks) : t.ty ≠ .SQL_STMT := by
  simp only [TableDecl.toks, List.mem_append, List.mem_cons, List.not_mem_nil, or_false,
    List.mem_flatMap] at h
  rcases h with ((((rfl | rfl | rfl) | h) | ⟨i, _, rfl | h⟩) | h) | rfl
  · decide
  · simp [idTok]
  · decide
  · rcases ne_toks h with rfl | ⟨y, _, h⟩
    · decide
    · exact plain_sql (col_plain h)
  · decide
  · exact plain_sql (item_plain h)
  · cases ht : d.trailingComma <;> rw [ht] at h
    · simp at h
    · simp at h; subst h; decide
  · decide

theorem call_sql {rs ext m args} {t : Tok} (h : t ∈ (Stmt.call rs ext m args).toks) :
    t.ty ≠ .SQL_STMT := by
  simp only [Stmt.toks, List.mem_append, List.mem_cons, List.not_mem_nil, or_false] at h
  rcases h with (((h | h) | rfl | rfl) | h) | rfl | rfl
  · cases rs with
    | none => simp at h
    | some rs =>
      simp only [List.mem_append, List.mem_cons, List.not_mem_nil, or_false] at h
      rcases h with h | rfl
      · rcases ne_toks h with rfl | ⟨y, _, h⟩
        · decide
        · simp at h; subst h; simp [varTok]
      · decide
  · cases ext with
    | none => simp at h
    | some e =>
      simp only [List.mem_cons, List.not_mem_nil, or_false] at h
      rcases h with rfl | rfl
      · simp [idTok]
      · decide
  · simp [idTok]
  · decide
  · rcases commaList_toks h with rfl | ⟨e, h⟩
    · decide
    · exact plain_sql (expr_plain h)
  · decide
  · decide

theorem stmt_crlf {s : Stmt} (h : Calm s.toks) : s.crlf.toks = s.toks.map Tok.crlf := by
  cases s with
  | sql text => simp [Stmt.crlf, Stmt.toks, Tok.crlf]; rfl
  | call rs ext m args => exact (calm_map h fun t ht => call_sql ht).symm

theorem flatMap_crlf {α : Type} {f g : α → List Tok} {l : List α} (h : Calm (l.flatMap f))
    (hf : ∀ a ∈ l, Calm (f a) → g a = (f a).map Tok.crlf) :
    l.flatMap g = (l.flatMap f).map Tok.crlf := by
  induction l with
  | nil => rfl
  | cons a l ih =>
    simp only [List.flatMap_cons, List.map_append] at h ⊢
    rw [hf a (by simp) (calm_left h), ih (calm_right h) fun b hb => hf b (by simp [hb])]

theorem bodyCrlf_list (b : NE Stmt) : (bodyCrlf b).list = b.list.map Stmt.crlf := rfl

theorem body_crlf {b : NE Stmt} (h : Calm (bodyToks b)) :
    bodyToks (bodyCrlf b) = (bodyToks b).map Tok.crlf := by
  unfold bodyToks at h ⊢
  rw [bodyCrlf_list, List.flatMap_map, List.map_append, List.map_append,
    flatMap_crlf (calm_right (calm_left h)) (fun s _ hs => stmt_crlf hs)]
  rfl

theorem decl_crlf {d : Decl} (h : Calm d.toks) : d.crlf.toks = d.toks.map Tok.crlf := by
  cases d with
  | table t => exact (calm_map h fun u hu => table_sql hu).symm
  | init b =>
    simp only [Decl.crlf, Decl.toks, List.map_append] at h ⊢
    rw [body_crlf (calm_right h)]
    rfl
  | action a =>
    simp only [Decl.crlf, Decl.toks, ActionDecl.toks] at h ⊢
    rw [List.map_append, body_crlf (calm_right h), calm_map (calm_left h)]
    intro t ht
    simp only [List.mem_append, List.mem_cons, List.not_mem_nil, or_false, List.mem_flatMap,
      List.mem_map] at ht
    rcases ht with (((⟨n, _, h⟩ | rfl | rfl | rfl) | h) | rfl) | ⟨m, _, rfl⟩
    · simp only [Annot.toks, List.mem_append, List.mem_cons, List.not_mem_nil, or_false] at h
      rcases h with ((rfl | rfl) | h) | rfl
      · simp
      · decide
      · rcases ne_toks h with rfl | ⟨y, _, h⟩
        · decide
        · exact plain_sql (pair_plain (by simp) h)
      · decide
    · decide
    · simp [idTok]
    · decide
    · rcases commaList_toks h with rfl | ⟨y, h⟩
      · decide
      · simp at h; subst h; simp [varTok]
    · decide
    · cases m <;> decide

theorem Program.crlf_toks {p : Program} (h : Calm p.toks) : p.crlf.toks = p.toks.map Tok.crlf := by
  unfold Program.toks at h ⊢
  rw [List.map_append, List.map_append]
  have he : p.crlf.exts.flatMap ExtDecl.toks = (p.exts.flatMap ExtDecl.toks).map Tok.crlf :=
    flatMap_crlf (calm_right (calm_left h)) fun e _ hc => (calm_map hc fun t ht => ext_sql ht).symm
  have hd : p.crlf.decls.flatMap Decl.toks = (p.decls.flatMap Decl.toks).map Tok.crlf := by
    simp only [Program.crlf, List.flatMap_map]
    exact flatMap_crlf (calm_right h) fun d _ hc => decl_crlf hc
  rw [he, hd]
  have hn := calm_map (calm_left (calm_left h)) (by
    intro t ht
    simp only [List.mem_cons, List.not_mem_nil, or_false] at ht
    rcases ht with rfl | rfl | rfl
    · decide
    · simp [idTok]
    · decide)
  rw [hn]
  rfl

/-! ## Meaning -/

theorem glued_crlf (ts : List Tok) : glued (ts.map Tok.crlf) = crlf (glued ts) := by
  induction ts with
  | nil => rfl
  | cons t ts ih =>
    simp only [glued, List.map_cons, List.flatMap_cons] at ih ⊢
    rw [ih, crlf_append]
    rfl

theorem stmt_denote_crlf {s : Stmt} (h : Calm s.toks) : s.crlf.denote = crlf s.denote := by
  rw [Stmt.denote, stmt_crlf h, glued_crlf]
  rfl

theorem body_denote_crlf {b : NE Stmt} (h : Calm (bodyToks b)) :
    (bodyCrlf b).list.map Stmt.denote = (b.list.map Stmt.denote).map crlf := by
  rw [bodyCrlf_list, List.map_map, List.map_map]
  apply List.map_congr_left
  intro s hs
  refine stmt_denote_crlf fun t ht => h t ?_
  simp only [bodyToks, List.mem_append, List.mem_flatMap]
  exact .inl (.inr ⟨s, hs, ht⟩)

theorem filterMap_crlf {α β : Type} (f : Decl → Option α) (g : Decl → Option α) (k : α → β) (k' : α → β)
    (l : List Decl) (h : ∀ d ∈ l, (f d.crlf).map k = (g d).map k') :
    ((l.map Decl.crlf).filterMap f).map k = (l.filterMap g).map k' := by
  induction l with
  | nil => rfl
  | cons d l ih =>
    have hd := h d (by simp)
    have := ih fun d hd => h d (by simp [hd])
    simp only [List.map_cons, List.filterMap_cons]
    cases e1 : f d.crlf <;> cases e2 : g d <;> rw [e1, e2] at hd <;> simp at hd
    · simpa using this
    · simpa [hd] using this

theorem calm_decl {p : Program} (h : Calm p.toks) {d : Decl} (hd : d ∈ p.decls) : Calm d.toks := by
  intro t ht
  refine h t ?_
  simp only [Program.toks, List.mem_append, List.mem_flatMap]
  exact .inr ⟨d, hd, ht⟩

theorem Program.crlf_denote {p : Program} (h : Calm p.toks) : p.crlf.denote = p.denote.crlf := by
  have ht : p.crlf.tables.map TableDecl.denote = p.tables.map TableDecl.denote :=
    filterMap_crlf _ _ _ _ p.decls fun d _ => by cases d <;> rfl
  have ha : p.crlf.actions.map ActionDecl.denote = p.actions.map (Action.crlf ∘ ActionDecl.denote) := by
    refine filterMap_crlf _ _ _ _ p.decls fun d hd => ?_
    have hc := calm_decl h hd
    cases d with
    | table t => rfl
    | init b => rfl
    | action a =>
      simp only [Decl.crlf, Option.map_some, Function.comp]
      rw [ActionDecl.denote, ActionDecl.denote, Action.crlf]
      simp only [Option.map_some]
      rw [body_denote_crlf (calm_right hc)]
  have hi : p.crlf.inits.map initAction = p.inits.map (Action.crlf ∘ initAction) := by
    refine filterMap_crlf _ _ _ _ p.decls fun d hd => ?_
    have hc := calm_decl h hd
    cases d with
    | table t => rfl
    | action a => rfl
    | init b =>
      simp only [Decl.crlf, Option.map_some, Function.comp]
      rw [initAction, initAction, Action.crlf]
      simp only [Option.map_some]
      rw [body_denote_crlf (calm_right hc)]
  rw [Program.denote, Program.denote, Schema.crlf]
  simp only
  rw [ht, ha, hi]
  have : (listed (p.actions.map ActionDecl.denote ++ p.inits.map initAction)).map (·.map Action.crlf) =
      listed (p.actions.map (Action.crlf ∘ ActionDecl.denote) ++ p.inits.map (Action.crlf ∘ initAction)) := by
    rw [listed, listed]
    simp only [← List.map_map, ← List.map_append]
    cases p.actions.map ActionDecl.denote ++ p.inits.map initAction <;> rfl
  rw [this]
  rfl

theorem Program.crlf_fault (p : Program) : p.crlf.fault = p.fault := by
  have hi : p.crlf.inits.length = p.inits.length := by
    have := filterMap_crlf (β := Unit) (fun | .init b => some b | _ => none)
      (fun | .init b => some b | _ => none) (fun _ => ()) (fun _ => ()) p.decls fun d _ => by
        cases d <;> rfl
    have := congrArg List.length this
    rw [List.length_map, List.length_map] at this
    exact this
  have ha : p.crlf.actions.map ActionDecl.modifiers = p.actions.map ActionDecl.modifiers :=
    filterMap_crlf _ _ _ _ p.decls fun d _ => by cases d <;> rfl
  have hx : ∀ l : List ActionDecl, l.findSome? (fun a => modifierFault a.modifiers) =
      (l.map ActionDecl.modifiers).findSome? modifierFault := by
    intro l; rw [List.findSome?_map]; rfl
  unfold Program.fault
  rw [hi, hx, hx, ha]

/-! ## Validity -/

theorem crlf_elems (s : Schema) : s.crlf.actions.elems = s.actions.elems.map Action.crlf := by
  unfold Schema.crlf
  cases s.actions <;> rfl

theorem crlf_actionNames (s : Schema) : s.crlf.actionNames = s.actionNames := by
  simp [Schema.actionNames, crlf_elems, Action.crlf]

theorem crlf_statements (a : Action) : a.crlf.statements.elems = a.statements.elems.map crlf := by
  unfold Action.crlf
  cases a.statements <;> rfl

theorem valid_crlf {env : Env} {s : Schema} (he : env.LineEnds) (h : ValidSchema env s) :
    ValidSchema env s.crlf := by
  have hact : ∀ {a b}, a ∈ s.actions.elems → ∀ {m : Str} {z}, a.statements.elems = b ++ m :: z →
      ∃ r, env.actParse m = .ok r := by
    intro a b ha m z hs
    have := h.stmts a ha b m z hs
    unfold ValidStmt at this
    cases e : env.actParse m with
    | error x => rw [e] at this; exact absurd this id
    | ok r => exact ⟨r, rfl⟩
  refine ⟨h.exts, h.tables, ?_, h.table, ?_, ?_, ?_⟩
  · rw [crlf_actionNames]; exact h.actions
  · intro a ha
    rw [crlf_elems] at ha
    obtain ⟨b, hb, rfl⟩ := List.mem_map.1 ha
    exact h.params b hb
  · intro t ht f hf
    obtain ⟨h1, h2, h3⟩ := h.fks t ht f hf
    exact ⟨h1, h2, h3⟩
  · intro a ha before stmt after hs
    rw [crlf_elems] at ha
    obtain ⟨b, hb, rfl⟩ := List.mem_map.1 ha
    rw [crlf_statements] at hs
    obtain ⟨x, y, hxy, hx, hy⟩ := List.map_eq_append_iff.1 hs
    obtain ⟨m, z, rfl, rfl, hz⟩ := List.map_eq_cons_iff.1 hy
    subst hx
    have hd : definedBefore env b.crlf (x.map crlf) = definedBefore env b x := by
      unfold definedBefore
      congr 1
      rw [List.flatMap_map]
      have : ∀ u ∈ x, defines env (crlf u) = defines env u := by
        intro u hu
        obtain ⟨x1, x2, rfl⟩ := List.append_of_mem hu
        obtain ⟨r, hr⟩ := hact hb (m := u) (z := x2 ++ m :: z) (b := x1) (by rw [hxy]; simp)
        unfold defines
        rw [hr, (he u).1 r hr]
      rw [List.flatMap_def, List.flatMap_def, List.map_congr_left this]
    rw [hd]
    have hv := h.stmts b hb x m z hxy
    obtain ⟨r, hr⟩ := hact hb hxy
    unfold ValidStmt at hv ⊢
    rw [hr] at hv
    rw [(he m).1 r hr]
    cases r with
    | unknown => trivial
    | dml => exact (he m).2 hv
    | actionCall n args => simp only at hv ⊢; rw [crlf_actionNames]; exact hv
    | extCall e args rs => exact hv

/-! ## Files -/

theorem accepts_crlf {w : World} (he : w.toEnv.LineEnds) {s : Str} {S : Schema} (h : Accepts w s S)
    (hn : ¬ ['\\', '\n'] <:+: s) : Accepts w (crlf s) S.crlf := by
  obtain ⟨p, ⟨l, hl, hv⟩, hf, rfl, hok⟩ := accepts_iff.1 h
  have hs : Sentence (visible l) := (sentence_iff hl).2 ⟨p, hv⟩
  obtain ⟨c1, c2⟩ := sentence_calm hl hs
  have hstr : ∀ q ∈ l, q.1.ty = .STRING_LITERAL → '\n' ∉ q.1.text := by
    intro q hq hty hm
    have hx := (hl.lexemes q hq).form.2.2.2.2.2.2.1 hty
    apply hn
    refine (string_nl hx hm).trans ?_
    rw [← hl.text]
    obtain ⟨a, b, rfl⟩ := List.append_of_mem hq
    exact ⟨a.flatMap (·.1.text), b.flatMap (·.1.text), by simp⟩
  obtain ⟨k, hk, hkv⟩ := crlf_tokens hl c1 c2 hstr
  have hcalm : Calm p.toks := by
    intro t ht hty
    rw [← hv] at ht
    have hm := visible_mem ht
    exact (hl.lexemes _ hm).no_nl hty (hstr _ hm) rfl
  refine accepts_iff.2 ⟨p.crlf, ⟨k, hk, ?_⟩, ?_, ?_, ?_⟩
  · rw [hkv, hv, Program.crlf_toks hcalm]
  · rw [Program.crlf_fault]; exact hf
  · exact Program.crlf_denote hcalm
  · exact valid_crlf he hok

end Verif
