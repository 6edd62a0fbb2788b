import Verif.Model.Report
/-!
# The parser after a syntax error

The run of the generated rule functions (`goCode`), now with what happens after
an error: ANTLR's `DefaultErrorStrategy` (module github.com/antlr4-go/antlr/v4
v4.13.0, default_error_strategy, not part of the repository) and the blocks
after `errorExit:` in kfgrammar/kuneiform_parser.go, e.g. 8771-8778.

The token sets that the strategy computes from the tables are left open: they
are the answers of a `Strategy`, and every theorem is about all of them.
-/

namespace Verif

/-- The answers of the error strategy that are left open, one for each time it
is asked. -/
structure Strategy where
  /-- `GetExpectedTokens` -/
  expects : Nat → TT → Bool
  /-- `SingleTokenInsertion`: may the current token follow the missing one? -/
  inserts : Nat → Bool
  /-- the set of tokens at which `consumeUntil` stops -/
  stops : Nat → TT → Bool
  /-- `recognizer.GetState()` in `Recover`: the number of an ATN state -/
  state : Nat → Fin 456

/-- The parser and its error strategy.  A token is named by the number of
tokens from there to the end. -/
structure PState where
  /-- The tokens ahead, up to the end-of-file token. -/
  rest : List Tok
  /-- `HasError`: the offending token of the exception. -/
  err : Option Nat := none
  /-- `InErrorRecoveryMode` -/
  mode : Bool := false
  /-- `lastErrorIndex` -/
  last : Option Nat := none
  /-- `lastErrorStates` -/
  seen : List (Fin 456) := []
  /-- The tokens of the reports so far, the latest first. -/
  places : List Nat := []
  /-- How often the strategy has been asked. -/
  clock : Nat := 0

namespace PState

/-- The current token. -/
def here (s : PState) : Nat := s.rest.length

/-- `Parser.Consume`: the end-of-file token is never consumed. -/
def eat (s : PState) : PState :=
  if la s.rest = .EOF then s else { s with rest := s.rest.tail }

/-- `ReportError`, `ReportUnwantedToken`, `ReportMissingToken`: nothing while
recovering; else `beginErrorCondition` and a call of the listeners
(utils/error_listener.go:58). -/
def report (s : PState) (at_ : Nat) : PState :=
  if s.mode then s else { s with mode := true, places := at_ :: s.places }

/-- `ReportMatch`, `endErrorCondition`. -/
def matched (s : PState) : PState := { s with mode := false, last := none, seen := [] }

/-- `SetError` of an exception about the current token. -/
def setErr (s : PState) : PState := { s with err := some s.here }

/-- Asks the strategy. -/
def tick (s : PState) : PState := { s with clock := s.clock + 1 }

/-- The tokens that are left after `consumeUntil`: never past the end of file. -/
def dropTo (stop : TT → Bool) : List Tok → List Tok
  | [] => []
  | t :: ts => if t.ty == .EOF || stop t.ty then t :: ts else dropTo stop ts

/-- `consumeUntil`. -/
def consumeUntil (o : Strategy) (s : PState) : PState :=
  { s.tick with rest := dropTo (o.stops s.clock) s.rest }

/-- `SingleTokenDeletion`: if the token after the current one is expected, the
current one is reported and dropped.  (The current token itself is never
expected here: the caller has just found that it is not.) -/
def delete (o : Strategy) (s : PState) : Option PState :=
  if o.expects s.clock (la s.rest.tail) && !o.expects s.clock (la s.rest) then
    some (s.tick.report s.here).eat.matched
  else none

/-- `RecoverInline`. -/
def recoverInline (o : Strategy) (s : PState) : PState :=
  match s.delete o with
  | some s' => s'.eat
  | none =>
    if o.inserts s.clock then s.tick.report s.here else s.tick.setErr

/-- `Recover`: at the place of the last error, in a state where there was an
error already, one token is dropped; then `consumeUntil` some set. -/
def recover (o : Strategy) (s : PState) : PState :=
  let st := o.state s.clock
  let s₁ := if s.last == some s.here && s.seen.contains st then s.eat else s
  let s₂ := { s₁ with last := some s₁.here, seen := if s₁.seen.contains st then s₁.seen else st :: s₁.seen }
  s₂.tick.consumeUntil o

open Classical in
/-- `Sync`: nothing while recovering, or if the next token fits.  At the start
of a block or loop one token may be dropped, else an exception is set; after a
loop iteration the token is reported and skipped. -/
noncomputable def sync (o : Strategy) (st : Nat) (s : PState) : PState :=
  if s.mode ∨ SyncOk st (la s.rest) then s
  else if (parserAtn.st st).ty = 9 ∨ (parserAtn.st st).ty = 11 then
    (s.report s.here).consumeUntil o
  else
    match s.delete o with
    | some s' => s'
    | none => s.tick.setErr

/-- The block after `errorExit:`: the exception is reported, and `Recover`
called. -/
def leave (o : Strategy) (s : PState) : PState :=
  match s.err with
  | none => s
  | some k => { (s.report k).recover o with err := none }

end PState

/-- Runs a statement, like `exec`, through all errors.  The result tells
whether control goes to `errorExit`; `none` if the steps do not suffice. -/
noncomputable def execR (rt : Runtime) (o : Strategy) :
    Nat → List Nat → Nat → Go → PState → Option (Bool × PState)
  | 0, _, _, _, _ => none
  | _ + 1, _, _, .skip, s => some (false, s)
  | _ + 1, _, _, .fail, s => some (true, s.setErr)
  | n + 1, ctx, p, .seq a b, s =>
      match execR rt o n ctx p a s with
      | some (false, s) => execR rt o n ctx p b s
      | r => r
  | _ + 1, _, _, .tok x, s =>
      -- Match, then `if p.HasError() { goto errorExit }`
      let s := if la s.rest = x then s.matched.eat else s.recoverInline o
      some (s.err.isSome, s)
  | _ + 1, _, _, .set c, s =>
      -- no test of HasError here
      some (false, if c.ok (la s.rest) then s.matched.eat else s.recoverInline o)
  | n + 1, ctx, _, .call st r k, s =>
      match execR rt o n (st :: ctx) k (goCode r) s with
      | some (_, s) => some (false, s.leave o)
      | none => none
  | _ + 1, _, p, .pred k, s => if p ≤ k then some (false, s) else some (true, s.setErr)
  | _ + 1, _, _, .sync st, s =>
      let s := s.sync o st
      some (s.err.isSome, s)
  | n + 1, ctx, p, .ifLA c a b, s =>
      if c.ok (la s.rest) then execR rt o n ctx p a s else execR rt o n ctx p b s
  | n + 1, ctx, p, .whileLA c a, s =>
      if c.ok (la s.rest) then
        match execR rt o n ctx p a s with
        | some (false, s) => execR rt o n ctx p (.whileLA c a) s
        | r => r
      else some (false, s)
  | n + 1, ctx, p, .whileAP d a, s =>
      match rt.predict d p ctx s.rest with
      | 0 => some (true, { s with err := some (s.rest.drop (rt.dead d p ctx s.rest)).length })
      | i + 1 =>
        if s.err.isSome then some (true, s) else
        if i = 1 then some (false, s) else
        if i = 0 then
          match execR rt o n ctx p a s with
          | some (false, s) => execR rt o n ctx p (.whileAP d a) s
          | r => r
        else execR rt o n ctx p (.whileAP d a) s
  | n + 1, ctx, p, .switchAP d x, s =>
      match rt.predict d p ctx s.rest with
      | 0 => some (true, { s with err := some (s.rest.drop (rt.dead d p ctx s.rest)).length })
      | i + 1 => match x.arms.lookup (i + 1) with
        | some a => execR rt o n ctx p a s
        | none => some (false, s)
  | _ + 1, _, _, .case _ _ _ _, s => some (false, s)

/-- `p.Source_unit()` (kfparser/parser.go:64) on the tokens of a text: the
tokens that are reported, in order, each named by the number of tokens from
there to the end (end of file included).  `none` if the steps do not
suffice. -/
noncomputable def parseAll (rt : Runtime) (o : Strategy) (n : Nat) (ts : List Tok) :
    Option (List Nat) :=
  (execR rt o n [] 0 (goCode .source_unit) { rest := ts ++ [Tok.eof] }).map fun r =>
    (r.2.leave o).places.reverse

/-- All tokens of a text, errors or not, and the places of the errors
(`Lexer.NextToken`, `safeMatch`, `Recover` of the ANTLR runtime).  Where no
token starts, an error is reported, and one or more characters are dropped:
those that the simulation has passed and the one where it fails (how many is
left open, `skip`).  In v4.13.0 such a place also yields a token of type 0;
this is left open, too.  Such a token is modelled as a visible one of type WS:
like type 0 this type occurs nowhere in the parser and its tables.  The second
argument is the line and the column reached. -/
def scan (skip : Str → Nat × Bool) : Nat → Nat × Nat → Str →
    List (Tok × Bool) × List (Nat × Nat)
  | 0, _, _ => ([], [])
  | _ + 1, _, [] => ([], [])
  | n + 1, p, c :: s =>
      match tableOne (c :: s) with
      | some (t, h, s') =>
          let r := scan skip n (t.text.foldl advance p) s'
          ((t, h) :: r.1, r.2)
      | none =>
          let k := skip (c :: s)
          let r := scan skip n ((c :: s.take k.1).foldl advance p) (s.drop k.1)
          ((⟨.WS, c :: s.take k.1⟩, !k.2) :: r.1, p :: r.2)

/-- All tokens of a text. -/
def scanAll (skip : Str → Nat × Bool) (s : Str) : List (Tok × Bool) × List (Nat × Nat) :=
  scan skip s.length (1, 0) s

/-- The lines and columns of the parser's reports. -/
noncomputable def parsePlaces (l : List (Tok × Bool)) (ps : List Nat) : List (Nat × Nat) :=
  let places := (place (1, 0) l).map (·.2)
  ps.filterMap fun k => places[places.length - k]?

end Verif
