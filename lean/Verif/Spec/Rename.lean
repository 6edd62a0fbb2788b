import Verif.Spec.Program
import Verif.Spec.Values
/-!
# Choosing other names for tables, columns and indexes
-/

namespace Verif

/-- New names for tables, and for the columns and indexes of each table (which
share one name space); `column t` is for the table that was called `t`. Different
names stay different. -/
structure Renaming where
  table : Str → Str
  column : Str → Str → Str
  table_inj : ∀ a b, table a = table b → a = b
  column_inj : ∀ t a b, column t a = column t b → a = b

/-! ## In a schema -/

def Slice.map {α β : Type} (f : α → β) (s : Slice α) : Slice β := Option.map (List.map f) s

def Index.rename (f : Str → Str) (i : Index) : Index := ⟨f i.name, i.columns.map f, i.type⟩

def ForeignKey.rename (r : Renaming) (f : Str → Str) (k : ForeignKey) : ForeignKey :=
  ⟨k.childKeys.map f, k.parentKeys.map (r.column k.parentTable), r.table k.parentTable, k.actions⟩

def Table.rename (r : Renaming) (t : Table) : Table :=
  ⟨r.table t.name, t.columns.map (fun c => { c with name := r.column t.name c.name }),
    t.indexes.map (Index.rename (r.column t.name)), t.foreignKeys.map (ForeignKey.rename r (r.column t.name))⟩

/-- Actions, with their statements, and extensions stay as they are. -/
def Schema.rename (r : Renaming) (s : Schema) : Schema := { s with tables := s.tables.map (Table.rename r) }

/-! ## In a source text -/

def IdxDecl.rename (f : Str → Str) (i : IdxDecl) : IdxDecl := ⟨f i.name, i.kind, i.columns.map f⟩

def FkDecl.rename (r : Renaming) (f : Str → Str) (k : FkDecl) : FkDecl :=
  { k with child := k.child.map f, table := r.table k.table, parent := k.parent.map (r.column k.table) }

def TableItem.rename (r : Renaming) (f : Str → Str) : TableItem → TableItem
  | .index i => .index (i.rename f)
  | .fk k => .fk (k.rename r f)

def TableDecl.rename (r : Renaming) (t : TableDecl) : TableDecl :=
  ⟨r.table t.name, t.columns.map (fun c => { c with name := r.column t.name c.name }),
    t.items.map (TableItem.rename r (r.column t.name)), t.trailingComma⟩

def Decl.rename (r : Renaming) : Decl → Decl
  | .table t => .table (t.rename r)
  | d => d

def Program.rename (r : Renaming) (p : Program) : Program := { p with decls := p.decls.map (Decl.rename r) }

end Verif
