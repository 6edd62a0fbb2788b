import Verif.Model.LexRules
/-!
# The lexer

`antlr.BaseLexer.NextToken` and `LexerATNSimulator.Match` (runtime code, used
through kfparser/parser.go:25-30): at each position the longest match over all
rules wins, the earliest rule among equals; a rule with a non-greedy loop
stops at its first accepting prefix.
-/

namespace Verif

/-- The prefix of `s` that one rule claims. -/
def LexRule.cand (r : LexRule) (s : Str) : Option Nat :=
  if r.lazy then r.re.shortest s else r.re.longest s

/-- The better of two candidates; the earlier rule wins a tie. -/
def better (a : Option (Nat × LexRule)) (b : Option (Nat × LexRule)) :
    Option (Nat × LexRule) :=
  match a, b with
  | none, b => b
  | a, none => a
  | some x, some y => if x.1 < y.1 then some y else some x

/-- The winning rule and the length of its match. -/
def bestMatch : List LexRule → Str → Option (Nat × LexRule)
  | [], _ => none
  | r :: rs, s => better ((r.cand s).map (·, r)) (bestMatch rs s)

/-- One token of the text, hidden ones included: token, hidden?, rest.  An
empty match would loop for ever in the runtime; no rule has one, and the model
treats it as an error. -/
def lexOne (s : Str) : Option (Tok × Bool × Str) :=
  match bestMatch lexRules s with
  | some (n + 1, r) => some (⟨r.ty, s.take (n + 1)⟩, r.hidden, s.drop (n + 1))
  | _ => none

/-- All tokens, with the hidden flag.  `none` when some position starts no
token: the runtime then calls the error listener (`SyntaxError`,
utils/error_listener.go:58-64) and skips a character, and `ParseKF` fails.
The first argument bounds the number of tokens. -/
def lexRaw : Nat → Str → Option (List (Tok × Bool))
  | _, [] => some []
  | 0, _ :: _ => none
  | n + 1, s =>
      match lexOne s with
      | none => none
      | some (t, h, rest) => (lexRaw n rest).map ((t, h) :: ·)

/-- All tokens of a text. -/
def lexAllRaw (s : Str) : Option (List (Tok × Bool)) := lexRaw s.length s

/-- The tokens the parser sees: channel 0 only
(`NewCommonTokenStream(lexer, TokenDefaultChannel)`, kfparser/parser.go:30). -/
def lexAll (s : Str) : Option (List Tok) :=
  (lexAllRaw s).map fun l => (l.filter (fun p => !p.2)).map (·.1)

end Verif
