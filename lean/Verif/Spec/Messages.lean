import Verif.Spec.Validity
import Verif.Spec.Program
/-!
# The texts of error messages

What the message of an error says, as text, and what is then the case.  The
texts are those of schema/errors.go:5-34 and of the `fmt.Errorf` calls in
schema/validator.go and kfparser/visitor.go.
-/

namespace Verif

/-- `Told env s m`: the message `m` is a true statement about the schema. -/
inductive Told (env : Env) (s : Schema) : Str → Prop where
  | extension {n : Str} : Twice n s.extNames → Told env s ("duplicate extension: ".toList ++ n)
  | table {n : Str} : Twice n s.tableNames → Told env s ("duplicate table: ".toList ++ n)
  | action {n : Str} : Twice n s.actionNames → Told env s ("duplicate action: ".toList ++ n)
  | column {t : Table} {n : Str} : t ∈ s.tables.elems → Twice n t.columnNames →
      Told env s ("duplicate column: ".toList ++ n)
  | index {t : Table} {n : Str} : t ∈ s.tables.elems → n ∈ t.indexNames →
      Twice n (t.columnNames ++ t.indexNames) → Told env s ("duplicate index: ".toList ++ n)
  | attribute {t : Table} {c : Column} {a : Str} : t ∈ s.tables.elems → c ∈ t.columns.elems →
      Twice a (c.attributes.elems.map (·.type)) → Told env s ("duplicate attribute: ".toList ++ a)
  | misfit {t : Table} {c : Column} {a : Attribute} : t ∈ s.tables.elems →
      c ∈ t.columns.elems → a ∈ c.attributes.elems → Misfit c.type a.type →
      Told env s ("attribute not allowed: ".toList ++ c.type ++ "(".toList ++ a.type ++ ")".toList)
  | indexColumn {t : Table} {i : Index} {c : Str} : t ∈ s.tables.elems → i ∈ t.indexes.elems →
      c ∈ i.columns.elems → c ∉ t.columnNames →
      Told env s ("column not found: index(".toList ++ t.name ++ "/".toList ++ c ++ ")".toList)
  | param {a : Action} {n : Str} : a ∈ s.actions.elems → Twice n a.inputs.elems →
      Told env s ("duplicate param: ".toList ++ n)
  | childKey {t : Table} {f : ForeignKey} {c : Str} : t ∈ s.tables.elems →
      f ∈ t.foreignKeys.elems → c ∈ f.childKeys.elems → c ∉ t.columnNames →
      Told env s ("column not found: fk(".toList ++ t.name ++ "/".toList ++ c ++ ")".toList)
  | parentTable {t : Table} {f : ForeignKey} : t ∈ s.tables.elems → f ∈ t.foreignKeys.elems →
      f.parentTable ∉ s.tableNames → Told env s ("table not found: ".toList ++ f.parentTable)
  | parentKey {t p : Table} {f : ForeignKey} {c : Str} : t ∈ s.tables.elems →
      f ∈ t.foreignKeys.elems → p ∈ s.tables.elems → p.name = f.parentTable →
      c ∈ f.parentKeys.elems → c ∉ p.columnNames →
      Told env s ("column not found: ref(".toList ++ p.name ++ "->".toList ++ c ++ ")".toList)
  | event {t : Table} {f : ForeignKey} {e : Str} : t ∈ s.tables.elems →
      f ∈ t.foreignKeys.elems → Twice e (f.actions.elems.map (·.on)) →
      Told env s ("duplicate foreign key action: ".toList ++ e)
  | noAction {d : List Str} {stmt m : Str} {args : List Arg} : StmtAt env s d stmt →
      env.actParse stmt = .ok (.actionCall m args) → m ∉ s.actionNames →
      Told env s ("action not found: ".toList ++ m)
  | noExtension {d : List Str} {stmt e : Str} {args : List Arg} {rs : List Str} :
      StmtAt env s d stmt → env.actParse stmt = .ok (.extCall e args rs) → e ∉ s.extNames →
      Told env s ("extension not found: ".toList ++ e)
  | variable {d : List Str} {stmt : Str} {args : List Arg} {v printed : Str} :
      StmtAt env s d stmt →
      ((∃ m, env.actParse stmt = .ok (.actionCall m args)) ∨
        (∃ e rs, env.actParse stmt = .ok (.extCall e args rs))) →
      .bind v printed ∈ args → ¬ VarOk d v → Told env s ("variable not found: ".toList ++ printed)
  | receiver {d : List Str} {stmt e : Str} {args : List Arg} {rs : List Str} {r : Str} :
      StmtAt env s d stmt → env.actParse stmt = .ok (.extCall e args rs) → Twice r rs →
      Told env s ("duplicate variable: ".toList ++ r)
  /-- An external parser refused a statement: its own message and the statement. -/
  | refused {d : List Str} {stmt : Str} {e : Err} : StmtAt env s d stmt →
      (env.actParse stmt = .error (.err e) ∨
        (env.actParse stmt = .ok .dml ∧ env.sqlCheck stmt = some (.err e))) →
      Told env s (e.text ++ ": ".toList ++ stmt)

/-- `Complaint p m`: the message `m` is a true statement about the declarations
of a source file. -/
inductive Complaint (p : Program) : Str → Prop where
  | inits : 2 ≤ p.inits.length → Complaint p "more than one init".toList
  | visibility {a : ActionDecl} {v : Modifier} : a ∈ p.actions →
      (v = .pub ∨ v = .priv) → v ∈ a.modifiers →
      2 ≤ a.modifiers.count .pub + a.modifiers.count .priv →
      Complaint p ("action visibility already specified: ".toList ++
        (if v = .pub then "public".toList else "private".toList))
  | view {a : ActionDecl} : a ∈ p.actions → 2 ≤ a.modifiers.count .view →
      Complaint p "action mutability already specified: view".toList
  | owner {a : ActionDecl} : a ∈ p.actions → 2 ≤ a.modifiers.count .owner →
      Complaint p "action auxiliary already specified: owner".toList

/-- The message of a panic value, as `ParseKF` reports it. -/
def panicText : Panic → Str
  | .str m => m
  | .err e => e.text
  | .val v => "unknown panic : ".toList ++ v

/-- `PanicAt env s p`: an external parser panics with `p` on a statement of the
schema. -/
def PanicAt (env : Env) (s : Schema) (p : Panic) : Prop :=
  ∃ d stmt, StmtAt env s d stmt ∧ (env.actParse stmt = .error (.panic p) ∨
    (env.actParse stmt = .ok .dml ∧ env.sqlCheck stmt = some (.panic p)))

/-- The mistake in the declarations of a source file that a sentinel error
stands for. -/
def KindOf (p : Program) : Sent → Prop
  | .multiInit => 2 ≤ p.inits.length
  | .actionVisibilityAlreadySet =>
      ∃ a ∈ p.actions, 2 ≤ a.modifiers.count .pub + a.modifiers.count .priv
  | .actionMutabilityAlreadySet => ∃ a ∈ p.actions, 2 ≤ a.modifiers.count .view
  | .actionAuxiliaryAlreadySet => ∃ a ∈ p.actions, 2 ≤ a.modifiers.count .owner
  | _ => False

/-- The mistake in a schema that a sentinel error stands for. -/
def KindIn (env : Env) (s : Schema) : Sent → Prop
  | .duplicateExtension => ∃ n, Twice n s.extNames
  | .duplicateTable => ∃ n, Twice n s.tableNames
  | .duplicateAction => ∃ n, Twice n s.actionNames
  | .duplicateColumn => ∃ t ∈ s.tables.elems, ∃ n, Twice n t.columnNames
  | .duplicateIndex => ∃ t ∈ s.tables.elems, ∃ n ∈ t.indexNames, Twice n (t.columnNames ++ t.indexNames)
  | .duplicateAttribute =>
      ∃ t ∈ s.tables.elems, ∃ c ∈ t.columns.elems, ∃ a, Twice a (c.attributes.elems.map (·.type))
  | .attributeNotAllow =>
      ∃ t ∈ s.tables.elems, ∃ c ∈ t.columns.elems, ∃ a ∈ c.attributes.elems, Misfit c.type a.type
  | .duplicateParam => ∃ a ∈ s.actions.elems, ∃ n, Twice n a.inputs.elems
  | .dupFKAction =>
      ∃ t ∈ s.tables.elems, ∃ f ∈ t.foreignKeys.elems, ∃ e, Twice e (f.actions.elems.map (·.on))
  | .tableNotFound => ∃ t ∈ s.tables.elems, ∃ f ∈ t.foreignKeys.elems, f.parentTable ∉ s.tableNames
  | .columnNotFound =>
      (∃ t ∈ s.tables.elems, ∃ i ∈ t.indexes.elems, ∃ c ∈ i.columns.elems, c ∉ t.columnNames) ∨
      (∃ t ∈ s.tables.elems, ∃ f ∈ t.foreignKeys.elems, ∃ c ∈ f.childKeys.elems, c ∉ t.columnNames) ∨
      (∃ t ∈ s.tables.elems, ∃ f ∈ t.foreignKeys.elems, ∃ p ∈ s.tables.elems, p.name = f.parentTable ∧
        ∃ c ∈ f.parentKeys.elems, c ∉ p.columnNames)
  | .actionNotFound => ∃ d stmt, StmtAt env s d stmt ∧ ∃ m args,
      env.actParse stmt = .ok (.actionCall m args) ∧ m ∉ s.actionNames
  | .extensionNotFound => ∃ d stmt, StmtAt env s d stmt ∧ ∃ e args rs,
      env.actParse stmt = .ok (.extCall e args rs) ∧ e ∉ s.extNames
  | .variableNotFound => ∃ d stmt, StmtAt env s d stmt ∧ ∃ args,
      ((∃ m, env.actParse stmt = .ok (.actionCall m args)) ∨
        (∃ e rs, env.actParse stmt = .ok (.extCall e args rs))) ∧
      ∃ v printed, .bind v printed ∈ args ∧ ¬ VarOk d v
  | .duplicateVariable => ∃ d stmt, StmtAt env s d stmt ∧ ∃ e args rs,
      env.actParse stmt = .ok (.extCall e args rs) ∧ ∃ r, Twice r rs
  | _ => False

end Verif
