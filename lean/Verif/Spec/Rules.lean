import Verif.Spec.Validity
/-!
# The rules, in the order in which a schema is read

A schema is read from the extensions over the tables (each with its columns,
their attributes, and its indexes) to the headers of the actions, then the
foreign keys of all tables, then the statements of all actions.  Every thing
that is read has rules; each rule has the complaint that is made if it is
broken.  Nothing here refers to the validator's functions.
-/

namespace Verif

/-- A condition, and what is reported if it does not hold. -/
structure Check where
  holds : Prop
  complaint : Fail

/-- The elements of a list, each with those before it. -/
def splits {α : Type} : List α → List α → List (List α × α)
  | _, [] => []
  | before, x :: xs => (before, x) :: splits (before ++ [x]) xs

/-- The elements of a list, each with those before it. -/
def eachAfter {α : Type} (l : List α) : List (List α × α) := splits [] l

/-- No element occurs a second time. -/
def distinct (k : Sent) (l : List Str) : List Check :=
  (eachAfter l).map fun (before, x) => ⟨x ∉ before, .err (k.with x)⟩

/-- Attributes of a column. -/
def Column.rules (c : Column) : List Check :=
  (eachAfter c.attributes.elems).flatMap fun (before, a) =>
    [⟨a.type ∉ before.map (·.type), .err (Sent.duplicateAttribute.with a.type)⟩,
     ⟨¬ Misfit c.type a.type,
      .err (Sent.attributeNotAllow.with (c.type ++ "(".toList ++ a.type ++ ")".toList))⟩]

/-- Columns, then indexes. -/
def Table.rules (t : Table) : List Check :=
  ((eachAfter t.columns.elems).flatMap fun (before, c) =>
    ⟨c.name ∉ before.map (·.name), .err (Sent.duplicateColumn.with c.name)⟩ :: c.rules) ++
  ((eachAfter t.indexes.elems).flatMap fun (before, i) =>
    ⟨i.name ∉ t.columnNames ++ before.map (·.name), .err (Sent.duplicateIndex.with i.name)⟩ ::
    i.columns.elems.map fun c =>
      ⟨c ∈ t.columnNames ++ before.map (·.name) ++ [i.name],
       .err (Sent.columnNotFound.with ("index(".toList ++ t.name ++ "/".toList ++ c ++ ")".toList))⟩)

/-- A foreign key of table `t`. -/
def ForeignKey.rules (s : Schema) (t : Table) (f : ForeignKey) : List Check :=
  (f.childKeys.elems.map fun c =>
    ⟨c ∈ t.columnNames ++ t.indexNames,
     .err (Sent.columnNotFound.with ("fk(".toList ++ t.name ++ "/".toList ++ c ++ ")".toList))⟩) ++
  ⟨f.parentTable ∈ s.tableNames, .err (Sent.tableNotFound.with f.parentTable)⟩ ::
  (f.parentKeys.elems.map fun c =>
    ⟨∃ p ∈ s.tables.elems, p.name = f.parentTable ∧ c ∈ p.columnNames ++ p.indexNames,
     .err (Sent.columnNotFound.with
      ("ref(".toList ++ f.parentTable ++ "->".toList ++ c ++ ")".toList))⟩) ++
  distinct .dupFKAction (f.actions.elems.map (·.on))

/-- The arguments of a call. -/
def argRules (defined : List Str) (args : List Arg) : List Check :=
  args.flatMap fun
    | .bind v printed => [⟨VarOk defined v, .err (Sent.variableNotFound.with printed)⟩]
    | .other _ => []

/-- A statement, where the given variables are defined. -/
def stmtRules (env : Env) (s : Schema) (defined : List Str) (stmt : Str) : List Check :=
  match env.actParse stmt with
  | .error (.err e) => [⟨False, .err (.wrap e stmt)⟩]
  | .error (.panic p) => [⟨False, .panic p⟩]
  | .ok .unknown => []
  | .ok .dml =>
      match env.sqlCheck stmt with
      | some (.err e) => [⟨False, .err (.wrap e stmt)⟩]
      | some (.panic p) => [⟨False, .panic p⟩]
      | none => []
  | .ok (.actionCall m args) =>
      ⟨m ∈ s.actionNames, .err (Sent.actionNotFound.with m)⟩ :: argRules defined args
  | .ok (.extCall e args rs) =>
      ⟨e ∈ s.extNames, .err (Sent.extensionNotFound.with e)⟩ :: argRules defined args ++
      distinct .duplicateVariable rs

/-- All rules for a schema, in reading order. -/
def Schema.rules (env : Env) (s : Schema) : List Check :=
  distinct .duplicateExtension s.extNames ++
  ((eachAfter s.tables.elems).flatMap fun (before, t) =>
    ⟨t.name ∉ before.map (·.name), .err (Sent.duplicateTable.with t.name)⟩ :: t.rules) ++
  ((eachAfter s.actions.elems).flatMap fun (before, a) =>
    ⟨a.name ∉ before.map (·.name), .err (Sent.duplicateAction.with a.name)⟩ ::
    distinct .duplicateParam a.inputs.elems) ++
  (s.tables.elems.flatMap fun t => t.foreignKeys.elems.flatMap (·.rules s t)) ++
  (s.actions.elems.flatMap fun a => (eachAfter a.statements.elems).flatMap fun (before, stmt) =>
    stmtRules env s (definedBefore env a before) stmt)

/-- `f` is the complaint about the first rule that is broken. -/
def FirstBroken (rules : List Check) (f : Fail) : Prop :=
  ∃ before r after, rules = before ++ r :: after ∧ (∀ b ∈ before, b.holds) ∧ ¬ r.holds ∧
    f = r.complaint

end Verif
