import Verif.Model.Lexer
/-!
# What the lexer is supposed to do

The language of a regular expression, and the maximal-munch rule, stated
without reference to any matching algorithm.
-/

namespace Verif

/-- `c` belongs to the class: inside one of the ranges, or outside all of them
if the class is negated. -/
def InClass (neg : Bool) (rs : List (Nat × Nat)) (c : Char) : Prop :=
  (∃ r ∈ rs, r.1 ≤ c.toNat ∧ c.toNat ≤ r.2) ↔ neg = false

/-- The language of a regular expression. -/
inductive Lang : RE → Str → Prop where
  | eps : Lang .eps []
  | cls {neg : Bool} {rs : List (Nat × Nat)} {c : Char} : InClass neg rs c →
      Lang (.cls neg rs) [c]
  | seq {a b : RE} {x y : Str} : Lang a x → Lang b y → Lang (.seq a b) (x ++ y)
  | altL {a b : RE} {x : Str} : Lang a x → Lang (.alt a b) x
  | altR {a b : RE} {x : Str} : Lang b x → Lang (.alt a b) x
  | starNil {a : RE} : Lang (.star a) []
  | starCons {a : RE} {x y : Str} : Lang a x → Lang (.star a) y → Lang (.star a) (x ++ y)

/-- `x` is the prefix of `s` that the rule claims: the longest prefix it
matches, or the shortest one if the rule is non-greedy. -/
def Claims (r : LexRule) (x s : Str) : Prop :=
  x <+: s ∧ Lang r.re x ∧
  ∀ y, y <+: s → Lang r.re y → if r.lazy then x.length ≤ y.length else y.length ≤ x.length

/-- The next token of `s`: among all rules the longest claim wins, and among
equally long ones the rule that comes first. -/
def IsNext (s : Str) (t : Tok) (hidden : Bool) (rest : Str) : Prop :=
  s = t.text ++ rest ∧ t.text ≠ [] ∧
  ∃ before r after, lexRules = before ++ r :: after ∧ r.ty = t.ty ∧ r.hidden = hidden ∧
    Claims r t.text s ∧
    (∀ r' ∈ before, ∀ y, Claims r' y s → y.length < t.text.length) ∧
    (∀ r' ∈ after, ∀ y, Claims r' y s → y.length ≤ t.text.length)

/-- A tokenisation of a whole text. -/
inductive Tokenises : Str → List (Tok × Bool) → Prop where
  | nil : Tokenises [] []
  | cons {s rest : Str} {t : Tok} {h : Bool} {l : List (Tok × Bool)} :
      IsNext s t h rest → Tokenises rest l → Tokenises s ((t, h) :: l)

/-- The tokens that are not white space or comments. -/
def visible (l : List (Tok × Bool)) : List Tok := (l.filter (fun p => !p.2)).map (·.1)

/-- Blanks: space, tab, line feed, carriage return. -/
def blanks : List Char := [' ', '\t', '\n', '\r']

/-- A sequence of blanks, closed block comments, and line comments ended by a
newline. -/
inductive Layout : Str → Prop where
  | nil : Layout []
  | blank {c : Char} {s : Str} : c ∈ blanks → Layout s → Layout (c :: s)
  | block {body s : Str} : ¬ ['*', '/'] <:+: body ++ ['*'] → Layout s →
      Layout (['/', '*'] ++ body ++ ['*', '/'] ++ s)
  | line {body s : Str} : '\n' ∉ body → '\r' ∉ body → Layout s →
      Layout (['/', '/'] ++ body ++ '\n' :: s)

end Verif
