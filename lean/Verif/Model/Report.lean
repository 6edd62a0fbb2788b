import Verif.Model.Predict
/-!
# Where the first syntax error is reported

Line and column of the first report (utils/error_listener.go:58, called by the
lexer, and by `ReportError` of ANTLR's `DefaultErrorStrategy`): those of the
place where no token can be read, or those of the offending token.
-/

namespace Verif

/-- `LexerATNSimulator.Consume` of the ANTLR runtime: line and column after one
more character. -/
def advance (p : Nat × Nat) (c : Char) : Nat × Nat :=
  if c = '\n' then (p.1 + 1, 0) else (p.1, p.2 + 1)

/-- The tokens that are not hidden with the line and the column where they
start (`TokenStartLine`, `TokenStartColumn`), and the end-of-file token
(`EmitEOF`), if the given position is reached. -/
def place : Nat × Nat → List (Tok × Bool) → List (Tok × (Nat × Nat))
  | p, [] => [(Tok.eof, p)]
  | p, (t, hidden) :: l =>
      if hidden then place (t.text.foldl advance p) l
      else (t, p) :: place (t.text.foldl advance p) l

/-- All tokens as far as the tables give them, and the rest of the text. -/
def tablePart : Nat → Str → List (Tok × Bool) × Str
  | 0, s => ([], s)
  | n + 1, s =>
      match tableOne s with
      | none => ([], s)
      | some (t, h, s') => ((t, h) :: (tablePart n s').1, (tablePart n s').2)

/-- Line and column of the first error that `p.Source_unit()`
(kfparser/parser.go:64) reports: lines count from 1 and columns from 0.

If there is text left where no token starts, the lexer reports an error
there as soon as the parser asks for the next token.  The parser reports its
error first if it comes to it before.  If the error is about the last token,
both happen at the same time: depending on the kind of error the parser asks
for the token after the offending one first (`SingleTokenDeletion`), so both
places are possible.  The list is empty if no error is reported. -/
noncomputable def firstPlaces (s : Str) : List (Nat × Nat) :=
  let (l, rest) := tablePart s.length s
  let ts := (l.filter (fun p => !p.2)).map (·.1)
  let places := (place (1, 0) l).map (·.2)
  match execSource simRuntime (30 * (ts.length + 2)) ts with
  | .err r =>
      (places[ts.length + 1 - r.length]?).toList ++
        if rest ≠ [] ∧ r.length = 2 then (places[ts.length]?).toList else []
  | _ => if rest = [] then [] else (places[ts.length]?).toList

end Verif
