import Verif.Spec.Program
import Verif.Spec.Validity
/-!
# Values of literals, and declarations that make sense
-/

namespace Verif

/-! ## Programs without the values of their literals -/

/-- The literal is replaced by `0`. -/
def Pair.blank (p : Pair) : Pair := { p with value := .num ['0'] }

def NE.map {α β : Type} (f : α → β) (x : NE α) : NE β := ⟨f x.head, x.tail.map f⟩

/-- An extension without its name and its configuration; only the alias stays. -/
def ExtDecl.blank (e : ExtDecl) : ExtDecl := ⟨['x'], none, e.alias⟩

/-- The literals are replaced by `0`. -/
def Constraint.blank : Constraint → Constraint
  | .default _ => .default (.num ['0'])
  | .min _ => .min ['0']
  | .max _ => .max ['0']
  | .minLen _ => .minLen ['0']
  | .maxLen _ => .maxLen ['0']
  | c => c

def ColDecl.blank (c : ColDecl) : ColDecl := { c with constraints := c.constraints.map Constraint.blank }

def TableDecl.blank (t : TableDecl) : TableDecl := { t with columns := t.columns.map ColDecl.blank }

/-- An action without its annotations. -/
def ActionDecl.blank (a : ActionDecl) : ActionDecl := { a with annotations := [] }

def Decl.blank : Decl → Decl
  | .table t => .table t.blank
  | .action a => .action a.blank
  | .init b => .init b

/-- The program without: the name of the database, names and configuration of
extensions, the values of all attributes, annotations. -/
def Program.blank (p : Program) : Program := ⟨['x'], p.exts.map ExtDecl.blank, p.decls.map Decl.blank⟩

/-! ## Declarations that make sense -/

/-- The number that digits denote. -/
def numVal (s : Str) : Nat := s.foldl (fun n c => 10 * n + (c.toNat - '0'.toNat)) 0

/-- Number of primary keys declared in a table: columns with the attribute and
primary indexes. -/
def Table.primaryKeys (t : Table) : Nat :=
  (t.columns.elems.filter fun c => (c.attributes.elems.map (·.type)).contains "primary_key".toList).length +
  (t.indexes.elems.filter fun i => i.type == "primary".toList).length

/-- What one would expect of the declarations in a schema, beyond the static
rules that the validator has. -/
structure Sensible (s : Schema) : Prop where
  /-- A table has at most one primary key. -/
  primary : ∀ t ∈ s.tables.elems, t.primaryKeys ≤ 1
  /-- The default of an integer column is a number, that of a text is quoted. -/
  defaults : ∀ t ∈ s.tables.elems, ∀ c ∈ t.columns.elems, ∀ v,
    ⟨"default".toList, some v⟩ ∈ c.attributes.elems →
      (c.type = "int".toList → v.head? ≠ some '\'') ∧ (c.type = "text".toList → v.head? = some '\'')
  /-- The least value of a column is not greater than the greatest one. -/
  range : ∀ t ∈ s.tables.elems, ∀ c ∈ t.columns.elems, ∀ v w,
    ⟨"min".toList, some v⟩ ∈ c.attributes.elems → ⟨"max".toList, some w⟩ ∈ c.attributes.elems →
      numVal v ≤ numVal w
  /-- The same for lengths. -/
  lengths : ∀ t ∈ s.tables.elems, ∀ c ∈ t.columns.elems, ∀ v w,
    ⟨"min_length".toList, some v⟩ ∈ c.attributes.elems →
    ⟨"max_length".toList, some w⟩ ∈ c.attributes.elems → numVal v ≤ numVal w
  /-- An index lists a column only once. -/
  index : ∀ t ∈ s.tables.elems, ∀ i ∈ t.indexes.elems, i.columns.elems.Nodup
  /-- A foreign key pairs up columns. -/
  keys : ∀ t ∈ s.tables.elems, ∀ f ∈ t.foreignKeys.elems,
    f.childKeys.elems.length = f.parentKeys.elems.length

end Verif
