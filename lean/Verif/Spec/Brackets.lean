import Verif.Spec.Lexical
/-!
# Brackets
-/

namespace Verif

/-- The four kinds of bracket. -/
def TT.isBracket : TT → Bool
  | .L_PAREN | .R_PAREN | .L_BRACE | .R_BRACE => true
  | _ => false

/-- Every bracket has its partner, and pairs do not overlap. -/
inductive Nested : List TT → Prop where
  | nil : Nested []
  | other {t : TT} {l : List TT} : t.isBracket = false → Nested l → Nested (t :: l)
  | paren {a b : List TT} : Nested a → Nested b → Nested (TT.L_PAREN :: a ++ TT.R_PAREN :: b)
  | brace {a b : List TT} : Nested a → Nested b → Nested (TT.L_BRACE :: a ++ TT.R_BRACE :: b)

/-- The types of the tokens of a text, without layout. -/
def typesOf (l : List (Tok × Bool)) : List TT := (visible l).map (·.ty)

/-- The bracket tokens. -/
def bracketText : List (Str × TT) :=
  [("(".toList, .L_PAREN), (")".toList, .R_PAREN), ("{".toList, .L_BRACE), ("}".toList, .R_BRACE)]

end Verif
