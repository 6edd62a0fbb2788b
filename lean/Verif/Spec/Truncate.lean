import Verif.Spec.Source
/-!
# Texts that break off
-/

namespace Verif

/-- The program with its first `n` declarations only; extensions come first. -/
def Program.take (p : Program) (n : Nat) : Program :=
  { p with exts := p.exts.take n, decls := p.decls.take (n - p.exts.length) }

/-- The number of declarations. -/
def Program.count (p : Program) : Nat := p.exts.length + p.decls.length

/-- The actions that are not the `init` block. -/
def Schema.ordinary (sch : Schema) : List Action := sch.actions.elems.filter (·.name ≠ "init".toList)

end Verif
