import Verif.Spec.Lexical
import Verif.Spec.Derivation
import Verif.Model.ParseKF
/-!
# The place of a syntax error

Stated in terms of texts, their tokens and the grammar alone.
-/

namespace Verif

/-- The line of what comes after the text `x`, counted from 1. -/
def lineAfter (x : Str) : Nat := 1 + x.count '\n'

/-- The column of what comes after the text `x`, counted from 0: the number of
characters since the last line feed. -/
def columnAfter (x : Str) : Nat := (x.reverse.takeWhile (· != '\n')).length

/-- The text `s` is split into the tokens `l` as far as possible; no token
starts at `rest`. -/
inductive Reads : Str → List (Tok × Bool) → Str → Prop where
  | stop {s : Str} : (∀ t h rest, ¬ IsNext s t h rest) → Reads s [] s
  | cons {s s' rest : Str} {t : Tok} {h : Bool} {l : List (Tok × Bool)} :
      IsNext s t h s' → Reads s' l rest → Reads s ((t, h) :: l) rest

/-- Some text without syntax errors starts with these tokens. -/
def Begins (good : List Tok) : Prop :=
  ∃ s l more, Tokenises s l ∧ Sentence (visible l) ∧ visible l = good ++ more

/-- The first syntax error of the text `s` comes after `x`, at the token `bad`
(or the end of the text, `Tok.eof`), with the tokens `good` before it: some
text without syntax errors starts with the tokens `good`, but none goes on
with `bad`. -/
structure FirstError (s x : Str) (good : List Tok) (bad : Tok) : Prop where
  place : ∃ before after rest, Reads s (before ++ after) rest ∧
    x = before.flatMap (·.1.text) ∧ visible before = good ∧
    ((∃ more, after = (bad, false) :: more) ∨ after = [] ∧ rest = [] ∧ bad = Tok.eof)
  starts : Begins good
  ends : ∀ s' l more, Tokenises s' l → visible l ++ [Tok.eof] = good ++ bad :: more →
    ¬ Sentence (visible l)

/-- Line and column of what comes after `x`. -/
def placeAfter (x : Str) : Nat × Nat := (lineAfter x, columnAfter x)

end Verif
