import Verif.Spec.Program
/-!
# The same declarations in another order

Two programs that differ only in the order in which independent things are
written down.
-/

namespace Verif

/-- The lists have the same length and their elements can be paired up, in any
order, such that each pair is related. -/
def Matched {α β : Type} (R : α → β → Prop) (l : List α) (l' : List β) : Prop :=
  ∃ z : List (α × β), (z.map (·.1)).Perm l ∧ (z.map (·.2)).Perm l' ∧ ∀ x ∈ z, R x.1 x.2

/-- The same column: its constraints in any order. -/
structure ColDecl.Same (c c' : ColDecl) : Prop where
  name : c.name = c'.name
  type : c.type = c'.type
  constraints : c.constraints.Perm c'.constraints

/-- The same foreign key: its actions in any order (and any spelling). -/
structure FkDecl.Same (f f' : FkDecl) : Prop where
  child : f.child = f'.child
  table : f.table = f'.table
  parent : f.parent = f'.parent
  acts : (f.acts.map FkAct.denote).Perm (f'.acts.map FkAct.denote)

/-- The same table: its columns, its indexes and its foreign keys in any order. -/
structure TableDecl.Same (t t' : TableDecl) : Prop where
  name : t.name = t'.name
  columns : Matched ColDecl.Same t.columns.list t'.columns.list
  indexes : t.indexes.Perm t'.indexes
  fks : Matched FkDecl.Same t.fks t'.fks

/-- The same extension: its configuration in any order. -/
structure ExtDecl.Same (e e' : ExtDecl) : Prop where
  name : e.name = e'.name
  alias : e.alias = e'.alias
  config : (e.config.toList.flatMap NE.list).Perm (e'.config.toList.flatMap NE.list)

/-- The same action: its annotations, its parameters and its modifiers in any
order, and the same statements in the same order. -/
structure ActionDecl.Same (a a' : ActionDecl) : Prop where
  name : a.name = a'.name
  annotations : a.annotations.Perm a'.annotations
  params : a.params.list.Perm a'.params.list
  modifiers : a.modifiers.Perm a'.modifiers
  body : a.body = a'.body

/-- The same declarations: tables and actions in any order. -/
inductive Decl.Same : Decl → Decl → Prop where
  | table {t t' : TableDecl} : t.Same t' → Decl.Same (.table t) (.table t')
  | action {a a' : ActionDecl} : a.Same a' → Decl.Same (.action a) (.action a')
  | init {b : NE Stmt} : Decl.Same (.init b) (.init b)

/-- The same program, in another order. -/
structure Program.Same (p q : Program) : Prop where
  name : p.name = q.name
  exts : Matched ExtDecl.Same p.exts q.exts
  decls : Matched Decl.Same p.decls q.decls

/-- No index of a table of the program lists the name of an index of that table
among its columns. -/
def Program.IndexesOnColumns (p : Program) : Prop :=
  ∀ t ∈ p.tables, ∀ i ∈ t.indexes, ∀ c ∈ i.columns.list, c ∉ t.indexes.map (·.name)

end Verif
