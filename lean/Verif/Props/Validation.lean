import Verif.Proof.Validator
import Verif.Proof.Reuse
import Verif.Props.Samples
/-!
# C10–C19, C46: validation

`validate env s` is `s.Accept(NewCtxValidator())`: `none` when it returns nil.
-/

namespace Verif

/-- C10. Top-level names are unique in accepted schemas. -/
theorem C10_top_level_names_unique (env : Env) (s : Schema) (h : validate env s = none) :
    s.extNames.Nodup ∧ s.tableNames.Nodup ∧ s.actionNames.Nodup :=
  have v := (validate_none env s).1 h
  ⟨v.exts, v.tables, v.actions⟩

/-- C11. Names inside a table are unique in accepted schemas. -/
theorem C11_table_names_unique (env : Env) (s : Schema) (h : validate env s = none) :
    ∀ t ∈ s.tables.elems, (t.columnNames ++ t.indexNames).Nodup ∧
      ∀ c ∈ t.columns.elems, (c.attributes.elems.map (·.type)).Nodup := by
  intro t ht
  have v := ((validate_none env s).1 h).table t ht
  exact ⟨v.distinct, fun c hc => (v.columns c hc).distinct⟩

/-- C12. Parameters, foreign-key events and receivers are unique. -/
theorem C12_params_events_receivers_unique (env : Env) (s : Schema) (h : validate env s = none) :
    (∀ a ∈ s.actions.elems, a.inputs.elems.Nodup) ∧
    (∀ t ∈ s.tables.elems, ∀ f ∈ t.foreignKeys.elems, (f.actions.elems.map (·.on)).Nodup) ∧
    (∀ a ∈ s.actions.elems, ∀ stmt ∈ a.statements.elems, ∀ e args rs,
      env.actParse stmt = .ok (.extCall e args rs) → rs.Nodup) := by
  have v := (validate_none env s).1 h
  refine ⟨v.params, fun t ht f hf => (v.fks t ht f hf).events, ?_⟩
  intro a ha stmt hs e args rs hp
  obtain ⟨b, d, hd⟩ := List.append_of_mem hs
  have := v.stmts a ha b stmt d hd
  rw [ValidStmt, hp] at this
  exact this.2.2

/-- C13 is false: this schema has an index on something that is not a column
and is accepted, whatever the statement parsers do. -/
theorem C13_violated (env : Env) :
    validate env Sample.selfIndex = none ∧
    ∃ t ∈ Sample.selfIndex.tables.elems, ∃ i ∈ t.indexes.elems, ∃ c ∈ i.columns.elems,
      c ∉ t.columnNames := by
  refine ⟨?_, ?_⟩
  · have : ∀ env', validate env' Sample.selfIndex = validate Sample.env Sample.selfIndex :=
      fun _ => rfl
    rw [this]
    decide +kernel
  · decide +kernel

/-- C13, what holds: a column named by an index is a column of the table, or
the name of this index or an earlier one of the same table.  Missing: the last
two cases should be impossible, but the validator keeps columns and indexes in
one map. -/
theorem C13_index_columns_partial (env : Env) (s : Schema) (h : validate env s = none) :
    ∀ t ∈ s.tables.elems, ∀ before i after, t.indexes.elems = before ++ i :: after →
      ∀ c ∈ i.columns.elems, c ∈ t.columnNames ∨ c ∈ before.map (·.name) ∨ c = i.name :=
  fun t ht => (((validate_none env s).1 h).table t ht).indexes

/-- C14 is false in the same way. -/
theorem C14_violated (env : Env) :
    validate env Sample.fkOnIndex = none ∧
    ∃ t ∈ Sample.fkOnIndex.tables.elems, ∃ f ∈ t.foreignKeys.elems,
      (∃ c ∈ f.childKeys.elems, c ∉ t.columnNames) ∧
      ∃ p ∈ Sample.fkOnIndex.tables.elems, p.name = f.parentTable ∧
        ∃ c ∈ f.parentKeys.elems, c ∉ p.columnNames := by
  refine ⟨?_, ?_⟩
  · have : ∀ env', validate env' Sample.fkOnIndex = validate Sample.env Sample.fkOnIndex :=
      fun _ => rfl
    rw [this]
    decide +kernel
  · decide +kernel

/-- C14, what holds: the parent table is declared (once), and child and parent
keys are columns or indexes of the respective tables.  Missing: keys may be
names of indexes. -/
theorem C14_foreign_keys_partial (env : Env) (s : Schema) (h : validate env s = none) :
    ∀ t ∈ s.tables.elems, ∀ f ∈ t.foreignKeys.elems,
      (∀ c ∈ f.childKeys.elems, c ∈ t.columnNames ++ t.indexNames) ∧
      ∃ p ∈ s.tables.elems, p.name = f.parentTable ∧
        (∀ q ∈ s.tables.elems, q.name = f.parentTable → q = p) ∧
        ∀ c ∈ f.parentKeys.elems, c ∈ p.columnNames ++ p.indexNames := by
  intro t ht f hf
  have hv := (validate_none env s).1 h
  have v := hv.fks t ht f hf
  obtain ⟨p, hp, hn, hk⟩ := v.parent
  refine ⟨v.child, p, hp, hn, ?_, hk⟩
  intro q hq hqn
  exact nodup_map_inj (f := fun t : Table => t.name) hv.tables hq hp (hqn.trans hn.symm)

/-- C15. Length and range attributes fit the column type. -/
theorem C15_attributes_fit (env : Env) (s : Schema) (h : validate env s = none) :
    ∀ t ∈ s.tables.elems, ∀ c ∈ t.columns.elems, ∀ a ∈ c.attributes.elems,
      (c.type = "int".toList → a.type ≠ "min_length".toList ∧ a.type ≠ "max_length".toList) ∧
      (c.type = "text".toList → a.type ≠ "min".toList ∧ a.type ≠ "max".toList) := by
  intro t ht c hc a ha
  have := ((((validate_none env s).1 h).table t ht).columns c hc).fits a ha
  unfold Misfit at this
  constructor
  · intro hi
    exact ⟨fun e => this (.inl ⟨hi, .inl e⟩), fun e => this (.inl ⟨hi, .inr e⟩)⟩
  · intro hi
    exact ⟨fun e => this (.inr ⟨hi, .inl e⟩), fun e => this (.inr ⟨hi, .inr e⟩)⟩

/-- C16. Calls in action bodies resolve: every statement parses, action calls
name declared actions and extension calls declared extensions. -/
theorem C16_calls_resolve (env : Env) (s : Schema) (h : validate env s = none) :
    ∀ a ∈ s.actions.elems, ∀ stmt ∈ a.statements.elems,
      (∃ p, env.actParse stmt = .ok p) ∧
      (∀ m args, env.actParse stmt = .ok (.actionCall m args) →
        ∃ b ∈ s.actions.elems, b.name = m) ∧
      (∀ e args rs, env.actParse stmt = .ok (.extCall e args rs) →
        ∃ x ∈ s.extensions.elems, (if x.alias = [] then x.name else x.alias) = e) ∧
      (env.actParse stmt = .ok .dml → env.sqlCheck stmt = none) := by
  intro a ha stmt hs
  obtain ⟨b, d, hd⟩ := List.append_of_mem hs
  have v := ((validate_none env s).1 h).stmts a ha b stmt d hd
  unfold ValidStmt at v
  refine ⟨?_, ?_, ?_, ?_⟩
  · cases hp : env.actParse stmt with
    | error f => rw [hp] at v; exact v.elim
    | ok p => exact ⟨p, rfl⟩
  · intro m args hp
    rw [hp] at v
    exact List.mem_map.1 v.1
  · intro e args rs hp
    rw [hp] at v
    exact List.mem_map.1 v.1
  · intro hp
    rw [hp] at v
    exact v

/-- C17 is false: this action uses a variable that is defined nowhere. -/
theorem C17_violated : ∃ env s, validate env s = none ∧
    ∃ a ∈ s.actions.elems, ∃ stmt ∈ a.statements.elems, ∃ m args,
      env.actParse stmt = .ok (.actionCall m args) ∧
      ∃ arg ∈ args, ∃ v ∈ arg.vars, v.head? = some '$' ∧ v ∉ a.inputs.elems ∧
        ∀ stmt' ∈ a.statements.elems, v ∉ defines env stmt' :=
  ⟨Sample.env, Sample.nestedVar, by decide +kernel,
    ⟨"hello".toList, none, some ["$x".toList], true, C.mutView, none,
      some ["hello(lower($zz));".toList]⟩, by decide +kernel,
    "hello(lower($zz));".toList, by decide +kernel, "hello".toList, [.other ["$zz".toList]],
    rfl, .other ["$zz".toList], by decide +kernel, "$zz".toList,
    by decide +kernel, by decide +kernel, by decide +kernel, by decide +kernel⟩

/-- C17, what holds: a variable that is by itself an argument of a call is a
parameter of the action or a receiver of an earlier extension call of the same
body, and an @variable is `@caller`.  Missing: variables inside larger
argument expressions are not checked. -/
theorem C17_variables_defined_partial (env : Env) (s : Schema) (h : validate env s = none) :
    ∀ a ∈ s.actions.elems, ∀ before stmt after, a.statements.elems = before ++ stmt :: after →
      ∀ args, ((∃ m, env.actParse stmt = .ok (.actionCall m args)) ∨
          ∃ e rs, env.actParse stmt = .ok (.extCall e args rs)) →
      ∀ v printed, .bind v printed ∈ args →
        (v.head? = some '$' → v ∈ a.inputs.elems ∨
          ∃ earlier ∈ before, ∃ e args' rs,
            env.actParse earlier = .ok (.extCall e args' rs) ∧ v ∈ rs) ∧
        (v.head? = some '@' → v = "@caller".toList) := by
  intro a ha before stmt after hst args hp v printed hv
  have w := ((validate_none env s).1 h).stmts a ha before stmt after hst
  unfold ValidStmt at w
  have hok : VarOk (definedBefore env a before) v := by
    rcases hp with ⟨m, hp⟩ | ⟨e, rs, hp⟩
    · rw [hp] at w
      exact w.2 _ hv v (by simp [Arg.topVars])
    · rw [hp] at w
      exact w.2.1 _ hv v (by simp [Arg.topVars])
  refine ⟨fun hd => ?_, hok.2⟩
  have hm := hok.1 hd
  simp only [definedBefore, List.mem_append, List.mem_flatMap] at hm
  rcases hm with hm | ⟨st, hs, hr⟩
  · exact .inl hm
  · refine .inr ⟨st, hs, ?_⟩
    unfold defines at hr
    split at hr
    · next e args' rs hp' => exact ⟨e, args', rs, hp', hr⟩
    · simp at hr

/-- C18. Valid schemas are never rejected. -/
theorem C18_valid_accepted (env : Env) (s : Schema) (h : ValidSchema env s) :
    validate env s = none := (validate_none env s).2 h

/-- C18, with the converse: exactly the valid schemas are accepted. -/
theorem C18_accepted_iff_valid (env : Env) (s : Schema) :
    validate env s = none ↔ ValidSchema env s := validate_none env s

/-- C19. Validation errors are truthful: the error describes a defect that the
schema has. -/
theorem C19_truthful (env : Env) (s : Schema) (e : Err) (h : validate env s = some (.err e)) :
    Defect env s e := by
  rcases validate_some env s h with ⟨e', he, hd⟩ | ⟨p, l, stmt, _, hp, _⟩
  · cases he; exact hd
  · cases hp

/-- C19: validation panics only if one of the external parsers panics on a
statement of the schema. -/
theorem C19_panics (env : Env) (s : Schema) (p : Panic) (h : validate env s = some (.panic p)) :
    ∃ a ∈ s.actions.elems, ∃ stmt ∈ a.statements.elems,
      env.actParse stmt = .error (.panic p) ∨ env.sqlCheck stmt = some (.panic p) := by
  rcases validate_some env s h with ⟨e', he, hd⟩ | ⟨p', l, stmt, ⟨a, ha, b, d, hst, _⟩, hp, hx⟩
  · cases he
  · cases hp
    refine ⟨a, ha, stmt, by rw [hst]; simp, ?_⟩
    rcases hx with hx | hx
    · exact .inl hx
    · exact .inr hx.2

/-- C46. A validator that has validated the schema before, at any point of its
history and with whatever result, fails with a duplicate of the schema's first
declaration. -/
theorem C46_validator_single_use (env : Env) (c : Ctx) (history : List Schema) (s : Schema)
    (h : s ∈ history) :
    let r := (visitSchema env (validateMany env c history) s).2
    (∀ e es, s.extensions.elems = e :: es →
      r = some (.err (Sent.duplicateExtension.with (if e.alias = [] then e.name else e.alias)))) ∧
    (s.extensions.elems = [] → ∀ t ts, s.tables.elems = t :: ts →
      r = some (.err (Sent.duplicateTable.with t.name))) ∧
    (s.extensions.elems = [] → s.tables.elems = [] → ∀ a as, s.actions.elems = a :: as →
      r = some (.err (Sent.duplicateAction.with a.name))) := by
  have hk := validateMany_knows env c history s h
  have := fun e => visitSchema_again env _ s hk (e := e)
  refine ⟨?_, ?_, ?_⟩
  · intro e es he
    exact this _ (by simp [firstDuplicate, he, Extension.known])
  · intro he t ts ht
    exact this _ (by simp [firstDuplicate, he, ht])
  · intro he ht a as ha
    exact this _ (by simp [firstDuplicate, he, ht, ha])

/-! The hypotheses can be met. -/

/-- A schema with everything in it is accepted (C10–C18). -/
example : validate Sample.env Sample.schema = none := by decide +kernel

/-- … so it is valid (C18). -/
example : ValidSchema Sample.env Sample.schema :=
  (C18_accepted_iff_valid _ _).1 (by decide +kernel)

/-- A table declared twice (C19). -/
example : validate Sample.env { Sample.schema with tables := some [Sample.users, Sample.posts, Sample.users] }
    = some (.err (Sent.duplicateTable.with "users".toList)) := by decide +kernel

/-- A dangling foreign key (C19). -/
example : validate Sample.env { Sample.schema with tables := some [Sample.posts] }
    = some (.err (Sent.tableNotFound.with "users".toList)) := by decide +kernel

/-- A statement on which the external parser panics (C19). -/
example : validate Sample.env { Sample.schema with
      actions := some [⟨"hello".toList, none, none, true, C.mutView, none, some ["boom();".toList]⟩] }
    = some (.panic (.str "boom".toList)) := by decide +kernel

/-- The second validation of an accepted schema (C46). -/
example : (visitSchema Sample.env (visitSchema Sample.env Ctx.new Sample.schema).1 Sample.schema).2
    = some (.err (Sent.duplicateExtension.with "e".toList)) := by decide +kernel

end Verif
