import Verif.Model.Token
/-!
# Regular expressions

The right-hand sides of lexer rules.  ANTLR executes them with an NFA
simulation (`antlr.LexerATNSimulator`, runtime code that is not in the
repository); the model executes them with derivatives.
-/

namespace Verif

/-- Regular expressions over characters.  A character class is a list of
inclusive ranges of code points, negated or not; this is what the ATN's
`ATOM`, `RANGE`, `SET`, `NOT_SET` and `WILDCARD` transitions denote. -/
inductive RE where
  | none
  | eps
  | cls (neg : Bool) (rs : List (Nat × Nat))
  | seq (a b : RE)
  | alt (a b : RE)
  | star (a : RE)
  deriving DecidableEq, Repr, Inhabited

/-- Membership of a character in a class. -/
def inCls (neg : Bool) (rs : List (Nat × Nat)) (c : Char) : Bool :=
  rs.any (fun r => r.1 ≤ c.toNat && c.toNat ≤ r.2) != neg

/-- Does the expression match the empty text? -/
def RE.nullable : RE → Bool
  | .none => false
  | .eps => true
  | .cls _ _ => false
  | .seq a b => a.nullable && b.nullable
  | .alt a b => a.nullable || b.nullable
  | .star _ => true

/-- Sequence, simplified (only to keep derivatives small). -/
def RE.mkSeq : RE → RE → RE
  | .none, _ => .none
  | .eps, b => b
  | a, b => .seq a b

/-- Alternative, simplified. -/
def RE.mkAlt : RE → RE → RE
  | .none, b => b
  | a, .none => a
  | a, b => .alt a b

/-- Brzozowski derivative: what is left to match after the character `c`. -/
def RE.deriv (c : Char) : RE → RE
  | .none => .none
  | .eps => .none
  | .cls neg rs => if inCls neg rs c then .eps else .none
  | .seq a b =>
      if a.nullable then .mkAlt (.mkSeq (a.deriv c) b) (b.deriv c)
      else .mkSeq (a.deriv c) b
  | .alt a b => .mkAlt (a.deriv c) (b.deriv c)
  | .star a => .mkSeq (a.deriv c) (.star a)

/-- Length of the longest prefix of the text that matches. -/
def RE.longest : RE → Str → Option Nat
  | r, [] => if r.nullable then some 0 else Option.none
  | r, c :: s =>
      if r = .none then Option.none
      else match (r.deriv c).longest s with
        | some n => some (n + 1)
        | Option.none => if r.nullable then some 0 else Option.none

/-- Length of the shortest prefix of the text that matches. -/
def RE.shortest : RE → Str → Option Nat
  | r, [] => if r.nullable then some 0 else Option.none
  | r, c :: s =>
      if r.nullable then some 0
      else if r = .none then Option.none
      else match (r.deriv c).shortest s with
        | some n => some (n + 1)
        | Option.none => Option.none

end Verif
