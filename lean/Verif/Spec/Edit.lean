import Verif.Spec.Program
import Verif.Spec.Validity
/-!
# One declaration more

When a declaration may stand in a schema, given the rest of it.
-/

namespace Verif

/-- The rules for a table as part of a schema, but for its name. -/
def TableFits (s : Schema) (t : Table) : Prop :=
  ValidTable t ∧ ∀ f ∈ t.foreignKeys.elems, ValidFK s t f

/-- The rules for an action as part of a schema, but for its name. -/
def ActionFits (env : Env) (s : Schema) (a : Action) : Prop :=
  a.inputs.elems.Nodup ∧ ∀ before stmt after, a.statements.elems = before ++ stmt :: after →
    ValidStmt env s (definedBefore env a before) stmt

/-- `q` is `p` with `d` added somewhere among the tables and actions. -/
structure Added (p q : Program) (d : Decl) : Prop where
  name : q.name = p.name
  exts : q.exts = p.exts
  decls : ∃ b a, p.decls = b ++ a ∧ q.decls = b ++ d :: a

/-- `q` is `p` with the extension `e` added. -/
structure AddedExt (p q : Program) (e : ExtDecl) : Prop where
  name : q.name = p.name
  decls : q.decls = p.decls
  exts : ∃ b a, p.exts = b ++ a ∧ q.exts = b ++ e :: a

/-- Declaration `d`, which is new, may be added to `p`, giving `q`: its name is
new, and it keeps the rules by itself. -/
def MayAdd (env : Env) (p q : Program) : Decl → Prop
  | .table t => t.name ∉ p.denote.tableNames ∧ TableFits q.denote t.denote
  | .action a => a.name ∉ p.denote.actionNames ∧ modifierFault a.modifiers = none ∧
      ActionFits env q.denote a.denote
  | .init b => p.inits = [] ∧ "init".toList ∉ p.denote.actionNames ∧
      ActionFits env q.denote (initAction b)

/-- Nothing in `p` refers to declaration `d`. -/
def Unused (env : Env) (p : Program) : Decl → Prop
  | .table t => ∀ u ∈ p.tables, ∀ f ∈ u.fks, f.table ≠ t.name
  | .action a => ∀ b ∈ p.denote.actions.elems, ∀ stmt ∈ b.statements.elems, ∀ args,
      env.actParse stmt ≠ .ok (.actionCall a.name args)
  | .init _ => ∀ b ∈ p.denote.actions.elems, ∀ stmt ∈ b.statements.elems, ∀ args,
      env.actParse stmt ≠ .ok (.actionCall "init".toList args)

/-- No statement of an action of `p` calls the extension that is known as `n`. -/
def UnusedExt (env : Env) (p : Program) (n : Str) : Prop :=
  ∀ a ∈ p.denote.actions.elems, ∀ stmt ∈ a.statements.elems, ∀ args rs,
    env.actParse stmt ≠ .ok (.extCall n args rs)

end Verif
