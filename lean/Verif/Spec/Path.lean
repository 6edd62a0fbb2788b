import Verif.Model.Token
/-!
# Where names lead

Directories as an arbitrary graph: `step n e` is where the name `e` leads from
`n` (also for `..`, so that symbolic links are covered).
-/

namespace Verif

structure Dirs where
  Node : Type
  root : Node
  step : Node → Str → Node

/-- One element of a path. -/
def Dirs.elem (D : Dirs) (n : D.Node) (e : Str) : D.Node :=
  if e = [] ∨ e = ['.'] then n else D.step n e

/-- The path `s` from `n`; `e` is the part of the first element that has been
read. -/
def Dirs.walk (D : Dirs) (n : D.Node) (e : Str) : Str → D.Node
  | [] => D.elem n e
  | c :: s => if c = '/' then D.walk (D.elem n e) [] s else D.walk n (e ++ [c]) s

/-- Where a path leads, from the directory `cwd`. -/
def Dirs.resolve (D : Dirs) (cwd : D.Node) (p : Str) : D.Node :=
  D.walk (if p.head? = some '/' then D.root else cwd) [] p

/-- No symbolic links: `..` leads back. -/
structure Dirs.Plain (D : Dirs) : Prop where
  back : ∀ n e, e ≠ ['.', '.'] → D.step (D.step n e) ['.', '.'] = n
  top : D.step D.root ['.', '.'] = D.root

/-- `..` is not an element of the path. -/
def NoDotDot (p : Str) : Prop :=
  ∀ a b, p = a ++ ['.', '.'] ++ b → (a = [] ∨ ∃ a', a = a' ++ ['/']) → (b = [] ∨ ∃ b', b = '/' :: b') →
    False

/-- The last element of a path: what is before it, the element, and trailing
slashes. -/
structure LastElem (p base : Str) : Prop where
  no_slash : '/' ∉ base
  nonempty : base ≠ []
  at_end : ∃ a n, p = a ++ base ++ List.replicate n '/' ∧ (a = [] ∨ ∃ a', a = a' ++ ['/'])

/-- `stem` is `base` without the last dot and what follows it. -/
def StemOf (base stem : Str) : Prop :=
  (∃ e, '.' ∉ e ∧ base = stem ++ '.' :: e) ∨ ('.' ∉ base ∧ stem = base)

end Verif
