import Verif.Spec.Program
import Verif.Model.Validator
/-!
# Line ends

A file with the line ends of Unix, converted to those of Windows.
-/

namespace Verif

/-- Every line feed becomes a carriage return and a line feed. -/
def crlf (s : Str) : Str := s.flatMap fun c => if c = '\n' then ['\r', '\n'] else [c]

/-- The same conversion in the statements of an action. -/
def Action.crlf (a : Action) : Action := { a with statements := a.statements.map (·.map Verif.crlf) }

/-- The same conversion in the statements of a schema; all else is kept. -/
def Schema.crlf (s : Schema) : Schema := { s with actions := s.actions.map (·.map Action.crlf) }

/-- What the SQL parsers accept they also accept with the other line ends, as
the same kind of statement. -/
def Env.LineEnds (env : Env) : Prop :=
  ∀ x, (∀ r, env.actParse x = .ok r → env.actParse (crlf x) = .ok r) ∧
    (env.sqlCheck x = none → env.sqlCheck (crlf x) = none)

end Verif
