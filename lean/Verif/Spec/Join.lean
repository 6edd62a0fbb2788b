import Verif.Spec.Program
import Verif.Spec.Lexical
import Verif.Spec.Validity
/-!
# Two files in one
-/

namespace Verif

/-- The program with the extensions and declarations of `p` and those of `q`,
under the name of `p`. -/
def Program.join (p q : Program) : Program := ⟨p.name, p.exts ++ q.exts, p.decls ++ q.decls⟩

/-- `h` is the part of the text `h ++ t` that consists of the first line
`database name;`, with layout. -/
def Header (h t name : Str) : Prop :=
  ∃ lh lt, Tokenises (h ++ t) (lh ++ lt) ∧ lh.flatMap (·.1.text) = h ∧
    visible lh = Program.toks ⟨name, [], []⟩

/-- The last line of the text has no `//`. -/
def NoOpenComment (s : Str) : Prop := ∀ x c, s = x ++ "//".toList ++ c → '\n' ∈ c

/-- No name is declared in both schemas, for each kind of names. -/
structure Apart (s t : Schema) : Prop where
  exts : ∀ n ∈ s.extNames, n ∉ t.extNames
  tables : ∀ n ∈ s.tableNames, n ∉ t.tableNames
  actions : ∀ n ∈ s.actionNames, n ∉ t.actionNames

end Verif
