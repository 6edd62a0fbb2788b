import Verif.Spec.Position
/-!
# Tokens that can follow
-/

namespace Verif

/-- After the tokens `good`, a token of type `t` is right: some text without
syntax errors starts with `good` and such a token (`EOF`: it ends after
`good`). -/
def MayFollow (good : List Tok) (t : TT) : Prop :=
  (t = .EOF ∧ Sentence good) ∨ ∃ tok : Tok, tok.ty = t ∧ Begins (good ++ [tok])

/-- The text `x`, by itself, is one token of type `t`. -/
def IsWord (t : TT) (x : Str) : Prop := Tokenises x [(⟨t, x⟩, false)]

end Verif
