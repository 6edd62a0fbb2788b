import Verif.Proof.Edit
import Verif.Proof.ParseKF
import Verif.Proof.Meaning
import Verif.Props.SampleText
import Verif.Spec.Canonical
import Verif.Spec.SqlScope
import Verif.Props.Validation
/-!
# C62: SQL statements are not checked against the schema; C63: block variables
-/

namespace Verif

/-- Statement texts of an accepted program keep the rules. -/
theorem stmts_valid {env : Env} {p : Program} (h : ValidSchema env p.denote) {st : Stmt}
    (hs : st ∈ p.stmts) : ∃ d, ValidStmt env p.denote d st.denote := by
  simp only [Program.stmts, List.mem_flatMap] at hs
  obtain ⟨d, hd, hs⟩ := hs
  cases d with
  | table t => cases hs
  | action a =>
    obtain ⟨l, r, hlr⟩ := List.append_of_mem hs
    refine ⟨_, h.stmts a.denote ?_ (l.map Stmt.denote) st.denote (r.map Stmt.denote) ?_⟩
    · rw [p.denote_actions]
      exact List.mem_append.2 (.inl (List.mem_map.2 ⟨a, by
        simp only [Program.actions, List.mem_filterMap]; exact ⟨_, hd, rfl⟩, rfl⟩))
    · simp [ActionDecl.denote, Slice.elems, hlr]
  | init b =>
    obtain ⟨l, r, hlr⟩ := List.append_of_mem hs
    refine ⟨_, h.stmts (initAction b) ?_ (l.map Stmt.denote) st.denote (r.map Stmt.denote) ?_⟩
    · rw [p.denote_actions]
      exact List.mem_append.2 (.inr (List.mem_map.2 ⟨b, by
        simp only [Program.inits, List.mem_filterMap]; exact ⟨_, hd, rfl⟩, rfl⟩))
    · simp [initAction, Slice.elems, hlr]

/-- Splitting where an element was inserted. -/
theorem split_inserted {α : Type} {l r b e : List α} {x y : α} (h : l ++ x :: r = b ++ y :: e) :
    (b = l ∧ y = x ∧ e = r) ∨ (∃ m, l = b ++ y :: m ∧ e = m ++ x :: r) ∨
      (∃ m, b = l ++ x :: m ∧ r = m ++ y :: e) := by
  rcases List.append_eq_append_iff.1 h with ⟨m, h1, h2⟩ | ⟨m, h1, h2⟩
  · cases m with
    | nil => simp at h1 h2; exact .inl ⟨h1, h2.1.symm, h2.2.symm⟩
    | cons z zs =>
      simp only [List.cons_append, List.cons.injEq] at h2
      exact .inr (.inr ⟨zs, by rw [h1, h2.1], h2.2⟩)
  · cases m with
    | nil => simp at h1 h2; exact .inl ⟨h1.symm, h2.1, h2.2⟩
    | cons z zs =>
      simp only [List.cons_append, List.cons.injEq] at h2
      exact .inr (.inl ⟨zs, by rw [h1, h2.1], h2.2⟩)

/-- An SQL statement more does not matter to the other statements. -/
theorem actionFits_more {env : Env} {s : Schema} {a a' : Action} {l r : List Str} {x : Str}
    (hi : a'.inputs = a.inputs) (h1 : a.statements.elems = l ++ r) (h2 : a'.statements.elems = l ++ x :: r)
    (hx : env.actParse x = .ok .dml) (hok : env.sqlCheck x = none) (h : ActionFits env s a) :
    ActionFits env s a' := by
  refine ⟨by rw [hi]; exact h.1, fun before stmt after hs => ?_⟩
  rw [h2] at hs
  have hd : defines env x = [] := by simp [defines, hx]
  rcases split_inserted hs with ⟨_, rfl, _⟩ | ⟨m, rfl, rfl⟩ | ⟨m, rfl, rfl⟩
  · simp [ValidStmt, hx, hok]
  · have := h.2 before stmt (m ++ r) (by rw [h1]; simp)
    unfold definedBefore at this ⊢
    rw [hi]; exact this
  · have := h.2 (l ++ m) stmt after (by rw [h1]; simp)
    unfold definedBefore at this ⊢
    rw [hi]
    simpa [List.flatMap_append, List.flatMap_cons, hd] using this

/-- What a schema with one SQL statement more has in common with the old one. -/
theorem AddedStmt.same {env : Env} {p q : Program} {x : Str} (h : AddedStmt p q (.sql x))
    (hx : env.actParse (x ++ [';']) = .ok .dml) (hok : env.sqlCheck (x ++ [';']) = none) :
    q.tables = p.tables ∧ q.inits.length = p.inits.length ∧
    (∀ a' ∈ q.actions, ∃ a ∈ p.actions, a'.modifiers = a.modifiers) ∧
    q.denote.actionNames = p.denote.actionNames ∧
    (∀ s, (∀ a ∈ p.denote.actions.elems, ActionFits env s a) → ∀ a ∈ q.denote.actions.elems, ActionFits env s a) := by
  have hden : (Stmt.sql x).denote = x ++ [';'] := by
    simp [Stmt.denote, Stmt.toks, glued, kw, TT.fixed]
  obtain ⟨l, d, d', e, hd, hd', hm⟩ := h.decls
  cases hm with
  | @action a a' _ ha hb =>
    obtain ⟨bl, br, hb1, hb2⟩ := hb
    have ht : q.tables = p.tables := by
      unfold Program.tables; rw [hd, hd']; simp [List.filterMap_append]
    have hin : q.inits = p.inits := by
      unfold Program.inits; rw [hd, hd']; simp [List.filterMap_append]
    have hpa : p.actions = (⟨[], [], l⟩ : Program).actions ++ a :: (⟨[], [], e⟩ : Program).actions := by
      unfold Program.actions; rw [hd]; simp [List.filterMap_append]
    have hqa : q.actions = (⟨[], [], l⟩ : Program).actions ++ a' :: (⟨[], [], e⟩ : Program).actions := by
      unfold Program.actions; rw [hd']; simp [List.filterMap_append]
    have hname : a'.name = a.name := by rw [ha]
    have hmod : a'.modifiers = a.modifiers := by rw [ha]
    have hpar : a'.params = a.params := by rw [ha]
    refine ⟨ht, by rw [hin], ?_, ?_, ?_⟩
    · intro b hb
      rw [hqa, List.mem_append, List.mem_cons] at hb
      rw [hpa]
      rcases hb with hb | rfl | hb
      · exact ⟨b, by simp [hb], rfl⟩
      · exact ⟨a, by simp, hmod⟩
      · exact ⟨b, by simp [hb], rfl⟩
    · simp only [Schema.actionNames, Program.denote_actions, hpa, hqa, hin, List.map_append, List.map_cons]
      simp [ActionDecl.denote, hname]
    · intro s hall b hb
      rw [q.denote_actions, hqa, hin] at hb
      rw [p.denote_actions, hpa] at hall
      simp only [List.map_append, List.map_cons, List.mem_append, List.mem_cons] at hb hall
      rcases hb with (hb | rfl | hb) | hb
      · exact hall b (.inl (.inl hb))
      · refine actionFits_more (l := bl.map Stmt.denote) (r := br.map Stmt.denote) (x := x ++ [';'])
          ?_ ?_ ?_ hx hok (hall a.denote (.inl (.inr (.inl rfl))))
        · show listed a'.params.list = listed a.params.list
          rw [hpar]
        · show a.body.list.map Stmt.denote = _
          rw [hb1, List.map_append]
        · show a'.body.list.map Stmt.denote = _
          rw [hb2, List.map_append, List.map_cons, hden]
      · exact hall b (.inl (.inr (.inr hb)))
      · exact hall b (.inr hb)
  | @init b b' _ hb =>
    obtain ⟨bl, br, hb1, hb2⟩ := hb
    have ht : q.tables = p.tables := by
      unfold Program.tables; rw [hd, hd']; simp [List.filterMap_append]
    have hac : q.actions = p.actions := by
      unfold Program.actions; rw [hd, hd']; simp [List.filterMap_append]
    have hpa : p.inits = (⟨[], [], l⟩ : Program).inits ++ b :: (⟨[], [], e⟩ : Program).inits := by
      unfold Program.inits; rw [hd]; simp [List.filterMap_append]
    have hqa : q.inits = (⟨[], [], l⟩ : Program).inits ++ b' :: (⟨[], [], e⟩ : Program).inits := by
      unfold Program.inits; rw [hd']; simp [List.filterMap_append]
    refine ⟨ht, by rw [hpa, hqa]; simp, fun a ha => ⟨a, by rw [← hac]; exact ha, rfl⟩, ?_, ?_⟩
    · simp only [Schema.actionNames, Program.denote_actions, hpa, hqa, hac, List.map_append, List.map_cons]
      simp [initAction]
    · intro s hall c hc
      rw [q.denote_actions, hqa, hac] at hc
      rw [p.denote_actions, hpa] at hall
      simp only [List.map_append, List.map_cons, List.mem_append, List.mem_cons] at hc hall
      rcases hc with hc | (hc | rfl | hc)
      · exact hall c (.inl hc)
      · exact hall c (.inr (.inl hc))
      · refine actionFits_more (a := initAction b) (l := bl.map Stmt.denote) (r := br.map Stmt.denote) (x := x ++ [';'])
          rfl ?_ ?_ hx hok (hall (initAction b) (.inr (.inr (.inl rfl))))
        · show b.list.map Stmt.denote = _
          rw [hb1, List.map_append]
        · show b'.list.map Stmt.denote = _
          rw [hb2, List.map_append, List.map_cons, hden]
      · exact hall c (.inr (.inr (.inr hc)))

/-- C62, what holds: an SQL statement is judged by itself, in the same way
everywhere.  If it is part of one accepted text, it can be added to any action of
any other accepted text, whatever tables, columns and parameters there are. -/
theorem C62_context_free_partial (w : World) (s t u : Str) (p q r : Program) (x : Str)
    (hs : Writes s p) (ht : Writes t q)
    (hx : w.toEnv.actParse (x ++ [';']) = .ok .dml)
    (hr : Accepts w u r.denote) (hxr : Stmt.sql x ∈ r.stmts)
    (hp : Accepts w s p.denote) (hq : AddedStmt p q (.sql x)) : Accepts w t q.denote := by
  have hden : (Stmt.sql x).denote = x ++ [';'] := by
    simp [Stmt.denote, Stmt.toks, glued, kw, TT.fixed]
  obtain ⟨r', hr', _, her, hvr⟩ := accepts_iff.1 hr
  have hok : w.toEnv.sqlCheck (x ++ [';']) = none := by
    obtain ⟨d, hd⟩ := stmts_valid hvr hxr
    rw [hden] at hd
    simpa [ValidStmt, hx] using hd
  obtain ⟨p', hp', hf, _, hv⟩ := accepts_iff.1 hp
  have hf : p.fault = none := (hs.unique hp').2.2.1.trans hf
  obtain ⟨h1, h2, h3, h4, h5⟩ := hq.same hx hok
  refine accepts_iff.2 ⟨q, ht, ?_, rfl, ?_⟩
  · rw [fault_none_iff] at hf ⊢
    refine ⟨by omega, fun a ha => ?_⟩
    obtain ⟨b, hb, e⟩ := h3 a ha
    rw [e]; exact hf.2 b hb
  · rw [valid_iff] at hv ⊢
    obtain ⟨v1, v2, v3, v4, v5⟩ := hv
    have e1 : q.denote.extNames = p.denote.extNames := by
      simp only [Schema.extNames, Program.denote_exts, hq.exts]
    have e2 : q.denote.tables = p.denote.tables := by simp only [Program.denote, h1]
    have e3 : q.denote.tableNames = p.denote.tableNames := by simp only [Schema.tableNames, e2]
    have gr : ∀ a, ActionFits w.toEnv p.denote a → ActionFits w.toEnv q.denote a := by
      intro a ha
      refine ⟨ha.1, fun b st e hb => ?_⟩
      have := ha.2 b st e hb
      unfold ValidStmt at this ⊢
      rw [e1, h4]
      exact this
    refine ⟨by rw [e1]; exact v1, by rw [e3]; exact v2, by rw [h4]; exact v3, fun t ht => ?_,
      h5 _ fun a ha => gr a (v5 a ha)⟩
    have := v4 t (by rw [← e2]; exact ht)
    refine ⟨this.1, fun f hf => ?_⟩
    have hf := this.2 f hf
    exact ⟨hf.child, by rw [e2]; exact hf.parent, hf.events⟩

namespace Sample

/-- An SQL statement on a table, with a parameter. -/
def readsTable : Str := "select $y from items".toList

def scopeProg (table : Str) (params : CommaList Str) : Program where
  name := "d".toList
  exts := []
  decls := [.table ⟨table, ⟨⟨"x".toList, .int, []⟩, []⟩, [], false⟩,
    .action ⟨[], "a".toList, params, [.pub], ⟨.sql readsTable, []⟩⟩]

theorem scope_good : Writes "database d; table items { x int } action a($y) public { select $y from items; }".toList
    (scopeProg "items".toList ⟨some "$y".toList, []⟩) := writes_lit _ rfl (by decide +kernel)

theorem scope_bad : Writes "database d; table t { x int } action a() public { select $y from items; }".toList
    (scopeProg "t".toList ⟨none, []⟩) := writes_lit _ rfl (by decide +kernel)

end Sample

/-- C62 is false: if a text with an SQL statement is accepted, so is the text
with that statement but without the table and the parameter that the statement
uses. -/
theorem C62_violated (w : World) (hx : w.toEnv.actParse "select $y from items;".toList = .ok .dml)
    (h : ∃ sch, Accepts w
      "database d; table items { x int } action a($y) public { select $y from items; }".toList sch) :
    ∃ sch t a, Accepts w "database d; table t { x int } action a() public { select $y from items; }".toList sch ∧
      sch.tables.elems = [t] ∧ t.name = "t".toList ∧ sch.actions.elems = [a] ∧ a.inputs = none ∧
      a.statements.elems = ["select $y from items;".toList] := by
  obtain ⟨sch, h⟩ := h
  obtain ⟨p, hp, hf, rfl, hv⟩ := accepts_iff.1 h
  have e := (Sample.scope_good.unique hp).2.2.2 (by decide +kernel)
  rw [← e] at hv
  have hok : w.toEnv.sqlCheck "select $y from items;".toList = none := by
    obtain ⟨d, hd⟩ := stmts_valid hv (st := .sql Sample.readsTable) (by simp [Program.stmts, Sample.scopeProg, NE.list])
    rw [show (Stmt.sql Sample.readsTable).denote = "select $y from items;".toList from by decide +kernel] at hd
    unfold ValidStmt at hd
    rw [hx] at hd
    exact hd
  refine ⟨_, _, _, accepts_iff.2 ⟨_, Sample.scope_bad, by decide +kernel, rfl, (validate_none _ _).1 ?_⟩,
    rfl, rfl, rfl, rfl, by decide +kernel⟩
  have key : validate w.toEnv (Sample.scopeProg "t".toList ⟨none, []⟩).denote =
      checkBodies w.toEnv ⟨[("t".toList, ["x".toList])], [("a".toList, [])], [], "a".toList⟩
        [⟨"a".toList, none, none, true, "update".toList, none, some ["select $y from items;".toList]⟩] := rfl
  rw [key]
  simp only [checkBodies, checkStmts, checkStmt, Slice.elems, Option.getD_some, hx, hok]

/-- Parsers that take everything for SQL and find nothing wrong. -/
def Sample.lenient : World :=
  { Sample.world with actParse := fun _ => .ok .dml, sqlCheck := fun _ => none }

/-- The hypotheses of `C62_violated` can be met. -/
example : ∃ sch, Accepts Sample.lenient
    "database d; table items { x int } action a($y) public { select $y from items; }".toList sch :=
  ⟨_, accepts_iff.2 ⟨_, Sample.scope_good, by decide +kernel, rfl, (validate_none _ _).1 (by decide +kernel)⟩⟩

/-! ## C63 -/

/-- C63 is false: `@block_height`, which docs/syntax.md lists next to `@caller`,
is refused as the argument of a call, by the name of the missing variable. -/
theorem C63_violated (w : World) (hx : w.toEnv.actParse "a(@block_height);".toList =
    .ok (.actionCall "a".toList [.bind "@block_height".toList "@block_height".toList])) :
    (parse w "database d; action a($x) public { a(@block_height); }".toList).err =
      some [.real (Sent.variableNotFound.with "@block_height".toList)] := by
  have h1 : Writes "database d; action a($x) public { a(@block_height); }".toList
      ⟨"d".toList, [], [.action ⟨[], "a".toList, ⟨some "$x".toList, []⟩, [.pub],
        ⟨.call none none "a".toList ⟨some (.block "@block_height".toList), []⟩, []⟩⟩]⟩ :=
    writes_lit _ rfl (by decide +kernel)
  unfold parse
  rw [h1.parseKF]
  have key : validate w.toEnv (Program.denote ⟨"d".toList, [], [.action ⟨[], "a".toList,
        ⟨some "$x".toList, []⟩, [.pub],
        ⟨.call none none "a".toList ⟨some (.block "@block_height".toList), []⟩, []⟩⟩]⟩) =
      checkBodies w.toEnv ⟨[], [("a".toList, ["$x".toList])], [], "a".toList⟩
        [⟨"a".toList, none, some ["$x".toList], true, "update".toList, none,
          some ["a(@block_height);".toList]⟩] := rfl
  rw [key]
  simp only [checkBodies, checkStmts, checkStmt, Slice.elems, Option.getD_some, hx]
  rfl

/-- C63, what holds: of the variables that start with `@`, exactly `@caller` may
be an argument by itself: no other one is part of an accepted schema, and no
complaint about a variable is about `@caller`. -/
theorem C63_caller_partial (env : Env) (s : Schema) :
    (validate env s = none → ∀ a ∈ s.actions.elems, ∀ stmt ∈ a.statements.elems, ∀ args,
      ((∃ m, env.actParse stmt = .ok (.actionCall m args)) ∨
        ∃ e rs, env.actParse stmt = .ok (.extCall e args rs)) →
      ∀ v printed, .bind v printed ∈ args → v.head? = some '@' → v = "@caller".toList) ∧
    (∀ printed, validate env s = some (.err (Sent.variableNotFound.with printed)) →
      (∃ a ∈ s.actions.elems, ∃ stmt ∈ a.statements.elems, ∃ args v,
        ((∃ m, env.actParse stmt = .ok (.actionCall m args)) ∨
          ∃ e rs, env.actParse stmt = .ok (.extCall e args rs)) ∧
        .bind v printed ∈ args ∧ v ≠ "@caller".toList) ∨
      ∃ a ∈ s.actions.elems, ∃ stmt ∈ a.statements.elems, ∃ e,
        env.actParse stmt = .error (.err e) ∨ env.sqlCheck stmt = some (.err e)) := by
  refine ⟨fun h a ha stmt hst args hp v printed hv => ?_, fun printed h => ?_⟩
  · obtain ⟨b, c, hbc⟩ := List.append_of_mem hst
    exact (C17_variables_defined_partial env s h a ha b stmt c hbc args hp v printed hv).2
  · have hd := C19_truthful env s _ h
    generalize he : Sent.variableNotFound.with printed = e at hd
    cases hd with
    | «variable» hs hp hv hno =>
      obtain ⟨a, ha, b, c, hst, rfl⟩ := hs
      cases he
      refine .inl ⟨a, ha, _, by rw [hst]; simp, _, _, hp, hv, ?_⟩
      rintro rfl
      exact hno ⟨fun h => absurd h (by decide), fun _ => rfl⟩
    | unparsable hs hp =>
      obtain ⟨a, ha, b, c, hst, rfl⟩ := hs
      exact .inr ⟨a, ha, _, by rw [hst]; simp, _, .inl hp⟩
    | badSql hs _ hp =>
      obtain ⟨a, ha, b, c, hst, rfl⟩ := hs
      exact .inr ⟨a, ha, _, by rw [hst]; simp, _, .inr hp⟩
    | _ => cases he

/-- The sample schema calls with `@caller`. -/
example : validate Sample.env Sample.schema = none ∧
    ∃ a ∈ Sample.schema.actions.elems, ∃ stmt ∈ a.statements.elems, ∃ e args rs,
      Sample.env.actParse stmt = .ok (.extCall e args rs) ∧
      .bind "@caller".toList "@caller".toList ∈ args := by
  refine ⟨by decide +kernel, _, List.mem_cons_of_mem _ (List.mem_cons_self ..),
    "$r=e.m($x,@caller);".toList, List.mem_cons_self .., _, _, _, rfl, by decide +kernel⟩

end Verif
