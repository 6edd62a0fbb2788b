import Verif.Spec.Position
/-!
# All syntax errors of a text
-/

namespace Verif

/-- The third list contains the elements of the first two, each in its order. -/
inductive Interleaves {α : Type} : List α → List α → List α → Prop where
  | nil : Interleaves [] [] []
  | left {a : α} {l m k : List α} : Interleaves l m k → Interleaves (a :: l) m (a :: k)
  | right {a : α} {l m k : List α} : Interleaves l m k → Interleaves l (a :: m) (a :: k)

/-- The entry of an error list is a syntax error about the given place:
`syntax error: line L:C ` and a message. -/
def NamesPlace (e : Entry) (p : Nat × Nat) : Prop :=
  ∃ err msg, e = .real err ∧
    err.text = "syntax error: line ".toList ++ (toString p.1).toList ++ ":".toList ++
      (toString p.2).toList ++ " ".toList ++ msg

end Verif
