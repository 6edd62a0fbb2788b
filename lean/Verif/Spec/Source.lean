import Verif.Spec.Lexical
import Verif.Spec.Program
import Verif.Model.ParseKF
/-!
# Texts and programs
-/

namespace Verif

/-- `s` is a way to write the program `p`: it splits into tokens by the
maximal-munch rule, and those that are not white space or comments are the
tokens of `p`. -/
def Writes (s : Str) (p : Program) : Prop := ∃ l, Tokenises s l ∧ visible l = p.toks

/-- `Parse(s)` returns the schema and no error. -/
def Accepts (w : World) (s : Str) (sch : Schema) : Prop :=
  (parse w s).err = none ∧ (parse w s).result = some sch

/-! Spelling choices that carry no meaning. -/

/-- Written with `do`. -/
def FkAct.plain (a : FkAct) : FkAct := { a with withDo := true }

/-- Written with `foreign_key`, `references` and `do`. -/
def FkDecl.plain (f : FkDecl) : FkDecl :=
  { f with short := false, shortRef := false, acts := f.acts.map FkAct.plain }

def TableItem.plain : TableItem → TableItem
  | .index i => .index i
  | .fk f => .fk f.plain

/-- Written without a trailing comma. -/
def TableDecl.plain (t : TableDecl) : TableDecl :=
  { t with items := t.items.map TableItem.plain, trailingComma := false }

def Decl.plain : Decl → Decl
  | .table t => .table t.plain
  | d => d

/-- The program without its spelling variants. -/
def Program.plain (p : Program) : Program := { p with decls := p.decls.map Decl.plain }

end Verif
