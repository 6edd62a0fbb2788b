import Verif.Model.Validator
/-!
# Static rules

Which schemas are valid, and what counts as a defect, in terms of the schema
value alone.  Nothing here refers to the validator's state.
-/

namespace Verif

/-- Column names of a table. -/
def Table.columnNames (t : Table) : List Str := t.columns.elems.map (·.name)

/-- Index names of a table. -/
def Table.indexNames (t : Table) : List Str := t.indexes.elems.map (·.name)

/-- Names extensions are known by: the alias, or the name if there is none. -/
def Schema.extNames (s : Schema) : List Str :=
  s.extensions.elems.map fun e => if e.alias = [] then e.name else e.alias

def Schema.tableNames (s : Schema) : List Str := s.tables.elems.map (·.name)

def Schema.actionNames (s : Schema) : List Str := s.actions.elems.map (·.name)

/-- The attribute may not be used with a column of the type: lengths on
integers, ranges on texts. -/
def Misfit (ty attr : Str) : Prop :=
  (ty = "int".toList ∧ (attr = "min_length".toList ∨ attr = "max_length".toList)) ∨
  (ty = "text".toList ∧ (attr = "min".toList ∨ attr = "max".toList))

/-- No attribute is repeated or misfits the type. -/
structure ValidColumn (c : Column) : Prop where
  distinct : (c.attributes.elems.map (·.type)).Nodup
  fits : ∀ a ∈ c.attributes.elems, ¬ Misfit c.type a.type

/-- The rules for a table by itself.  As implemented, a "column" of an index
may also be the name of this index or of an earlier one. -/
structure ValidTable (t : Table) : Prop where
  distinct : (t.columnNames ++ t.indexNames).Nodup
  columns : ∀ c ∈ t.columns.elems, ValidColumn c
  indexes : ∀ before i after, t.indexes.elems = before ++ i :: after → ∀ c ∈ i.columns.elems,
    c ∈ t.columnNames ∨ c ∈ before.map (·.name) ∨ c = i.name

/-- The rules for a foreign key of table `t`.  As implemented, keys may also
be index names. -/
structure ValidFK (s : Schema) (t : Table) (f : ForeignKey) : Prop where
  child : ∀ c ∈ f.childKeys.elems, c ∈ t.columnNames ++ t.indexNames
  parent : ∃ p ∈ s.tables.elems, p.name = f.parentTable ∧
    ∀ c ∈ f.parentKeys.elems, c ∈ p.columnNames ++ p.indexNames
  events : (f.actions.elems.map (·.on)).Nodup

/-- Variables an argument refers to at its top level: as implemented, only a
bind parameter by itself is looked at. -/
def Arg.topVars : Arg → List Str
  | .bind p _ => [p]
  | .other _ => []

/-- All variables in an argument. -/
def Arg.vars : Arg → List Str
  | .bind p _ => [p]
  | .other vs => vs

/-- `$` variables must be defined and the only `@` variable is `@caller`. -/
def VarOk (defined : List Str) (v : Str) : Prop :=
  (v.head? = some '$' → v ∈ defined) ∧ (v.head? = some '@' → v = "@caller".toList)

/-- The variables a statement defines: the receivers of an extension call. -/
def defines (env : Env) (stmt : Str) : List Str :=
  match env.actParse stmt with
  | .ok (.extCall _ _ rs) => rs
  | _ => []

/-- Variables defined in the body of an action before a statement. -/
def definedBefore (env : Env) (a : Action) (before : List Str) : List Str :=
  a.inputs.elems ++ before.flatMap (defines env)

/-- A statement is all right in a place where the given variables are
defined. -/
def ValidStmt (env : Env) (s : Schema) (defined : List Str) (stmt : Str) : Prop :=
  match env.actParse stmt with
  | .error _ => False
  | .ok .unknown => True
  | .ok .dml => env.sqlCheck stmt = none
  | .ok (.actionCall m args) =>
      m ∈ s.actionNames ∧ ∀ a ∈ args, ∀ v ∈ a.topVars, VarOk defined v
  | .ok (.extCall e args rs) =>
      e ∈ s.extNames ∧ (∀ a ∈ args, ∀ v ∈ a.topVars, VarOk defined v) ∧ rs.Nodup

/-- The static rules for a schema. -/
structure ValidSchema (env : Env) (s : Schema) : Prop where
  exts : s.extNames.Nodup
  tables : s.tableNames.Nodup
  actions : s.actionNames.Nodup
  table : ∀ t ∈ s.tables.elems, ValidTable t
  params : ∀ a ∈ s.actions.elems, a.inputs.elems.Nodup
  fks : ∀ t ∈ s.tables.elems, ∀ f ∈ t.foreignKeys.elems, ValidFK s t f
  stmts : ∀ a ∈ s.actions.elems, ∀ before stmt after, a.statements.elems = before ++ stmt :: after →
    ValidStmt env s (definedBefore env a before) stmt

/-- `x` occurs at least twice. -/
def Twice (x : Str) (l : List Str) : Prop := 2 ≤ l.count x

/-- The statement stands in an action of the schema, where the variables are
defined. -/
def StmtAt (env : Env) (s : Schema) (defined : List Str) (stmt : Str) : Prop :=
  ∃ a ∈ s.actions.elems, ∃ before after, a.statements.elems = before ++ stmt :: after ∧
    defined = definedBefore env a before

/-- `Defect env s e`: the schema has the defect that the error `e` describes. -/
inductive Defect (env : Env) (s : Schema) : Err → Prop where
  | extension {n : Str} : Twice n s.extNames → Defect env s (Sent.duplicateExtension.with n)
  | table {n : Str} : Twice n s.tableNames → Defect env s (Sent.duplicateTable.with n)
  | action {n : Str} : Twice n s.actionNames → Defect env s (Sent.duplicateAction.with n)
  | column {t : Table} {n : Str} : t ∈ s.tables.elems → Twice n t.columnNames →
      Defect env s (Sent.duplicateColumn.with n)
  | index {t : Table} {n : Str} : t ∈ s.tables.elems → n ∈ t.indexNames →
      Twice n (t.columnNames ++ t.indexNames) → Defect env s (Sent.duplicateIndex.with n)
  | attribute {t : Table} {c : Column} {a : Str} : t ∈ s.tables.elems → c ∈ t.columns.elems →
      Twice a (c.attributes.elems.map (·.type)) → Defect env s (Sent.duplicateAttribute.with a)
  | misfit {t : Table} {c : Column} {a : Attribute} : t ∈ s.tables.elems →
      c ∈ t.columns.elems → a ∈ c.attributes.elems → Misfit c.type a.type →
      Defect env s (Sent.attributeNotAllow.with (c.type ++ "(".toList ++ a.type ++ ")".toList))
  | indexColumn {t : Table} {i : Index} {c : Str} : t ∈ s.tables.elems → i ∈ t.indexes.elems →
      c ∈ i.columns.elems → c ∉ t.columnNames →
      Defect env s (Sent.columnNotFound.with
        ("index(".toList ++ t.name ++ "/".toList ++ c ++ ")".toList))
  | param {a : Action} {n : Str} : a ∈ s.actions.elems → Twice n a.inputs.elems →
      Defect env s (Sent.duplicateParam.with n)
  | childKey {t : Table} {f : ForeignKey} {c : Str} : t ∈ s.tables.elems →
      f ∈ t.foreignKeys.elems → c ∈ f.childKeys.elems → c ∉ t.columnNames →
      Defect env s (Sent.columnNotFound.with
        ("fk(".toList ++ t.name ++ "/".toList ++ c ++ ")".toList))
  | parentTable {t : Table} {f : ForeignKey} : t ∈ s.tables.elems → f ∈ t.foreignKeys.elems →
      f.parentTable ∉ s.tableNames → Defect env s (Sent.tableNotFound.with f.parentTable)
  | parentKey {t p : Table} {f : ForeignKey} {c : Str} : t ∈ s.tables.elems →
      f ∈ t.foreignKeys.elems → p ∈ s.tables.elems → p.name = f.parentTable →
      c ∈ f.parentKeys.elems → c ∉ p.columnNames →
      Defect env s (Sent.columnNotFound.with
        ("ref(".toList ++ p.name ++ "->".toList ++ c ++ ")".toList))
  | event {t : Table} {f : ForeignKey} {e : Str} : t ∈ s.tables.elems →
      f ∈ t.foreignKeys.elems → Twice e (f.actions.elems.map (·.on)) →
      Defect env s (Sent.dupFKAction.with e)
  | unparsable {d : List Str} {stmt : Str} {e : Err} : StmtAt env s d stmt →
      env.actParse stmt = .error (.err e) → Defect env s (.wrap e stmt)
  | badSql {d : List Str} {stmt : Str} {e : Err} : StmtAt env s d stmt →
      env.actParse stmt = .ok .dml → env.sqlCheck stmt = some (.err e) →
      Defect env s (.wrap e stmt)
  | noAction {d : List Str} {stmt m : Str} {args : List Arg} : StmtAt env s d stmt →
      env.actParse stmt = .ok (.actionCall m args) → m ∉ s.actionNames →
      Defect env s (Sent.actionNotFound.with m)
  | noExtension {d : List Str} {stmt e : Str} {args : List Arg} {rs : List Str} :
      StmtAt env s d stmt → env.actParse stmt = .ok (.extCall e args rs) → e ∉ s.extNames →
      Defect env s (Sent.extensionNotFound.with e)
  | variable {d : List Str} {stmt : Str} {args : List Arg} {v printed : Str} :
      StmtAt env s d stmt →
      ((∃ m, env.actParse stmt = .ok (.actionCall m args)) ∨
        (∃ e rs, env.actParse stmt = .ok (.extCall e args rs))) →
      .bind v printed ∈ args → ¬ VarOk d v → Defect env s (Sent.variableNotFound.with printed)
  | receiver {d : List Str} {stmt e : Str} {args : List Arg} {rs : List Str} {r : Str} :
      StmtAt env s d stmt → env.actParse stmt = .ok (.extCall e args rs) → Twice r rs →
      Defect env s (Sent.duplicateVariable.with r)

end Verif
