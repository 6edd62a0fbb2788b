import Verif.Model.Lexer
import Verif.Model.Trace
import Verif.Model.Validator
/-!
# ParseKF

kfparser/parser.go and utils/error_listener.go.
-/

namespace Verif

/-- What the model does not fix: the external parsers, and the messages of the
antlr runtime.  A text that is not tokenised completely or is not accepted by
the parser makes the runtime call `SyntaxError` at least once
(`report`: line, column, message), and it might crash on top of that
(`crash`), for instance while it recovers from the error. -/
structure World extends Env where
  /-- the first report and the further ones -/
  report : Str → (Nat × Nat × Str) × List (Nat × Nat × Str)
  crash : Str → Option Panic

/-- An element of an `ErrorList`: an error value, or the list itself
(kfparser/parser.go:51 adds `errorListener.Err()`, which is a pointer to the
list, to that same list). -/
inductive Entry where
  | real (e : Err)
  | self
  deriving DecidableEq, Repr, Inhabited

/-- utils/error_listener.go:12 `ErrorList` (a pointer to it is the error). -/
abbrev ErrorList := List Entry

/-- utils/error_listener.go:34-39 `Err() != nil` -/
def ErrorList.isErr (l : ErrorList) : Bool := !l.isEmpty

/-- utils/error_listener.go:43-48 `Unwrap` -/
def ErrorList.unwrap (l : ErrorList) : Option Entry := l.head?

/-- utils/error_listener.go:18-28 `Error`.  `none`: the call does not return
(a list whose first element is the list itself). -/
def ErrorList.text : ErrorList → Option Str
  | [] => some "no errors".toList
  | [.real e] => some e.text
  | .real e :: rest =>
      some (e.text ++ " (with ".toList ++ (toString rest.length).toList ++ "+ errors)".toList)
  | .self :: _ => none

/-- `errors.Is(err, s)` for the error `err` that the list is: follows
`Unwrap`. -/
def ErrorList.is (s : Sent) (l : ErrorList) : Bool :=
  match l.unwrap with
  | some (.real e) => e.is s
  | _ => false

/-- utils/error_listener.go:58-64 `SyntaxError`:
`fmt.Errorf("%w: %s", ErrInvalidSyntax, "line l:c msg")`. -/
def syntaxErr (r : Nat × Nat × Str) : Err :=
  Sent.invalidSyntax.with
    ("line ".toList ++ (toString r.1).toList ++ ":".toList ++ (toString r.2.1).toList ++
      " ".toList ++ r.2.2)

/-- The parse tree, if the text has no lexical or syntax error
(kfparser/parser.go:25-36 and 64). -/
def syntaxTree (input : Str) : Option Tree := (lexAll input).bind parseTokens

/-- The errors the listener receives while the tree is built. -/
def syntaxErrors (w : World) (input : Str) : List Err :=
  match syntaxTree input with
  | some _ => []
  | none => ((w.report input).1 :: (w.report input).2).map syntaxErr

/-- kfparser/parser.go:38-49: the error made from a recovered panic value. -/
def Panic.toErr : Panic → Err
  | .str s => .other s
  | .err e => e
  | .val printed => .other ("unknown panic : ".toList ++ printed)

/-- kfparser/visitor.go:15-20: the mode bits. -/
def modeDefault : Nat := 1
def modeTrace : Nat := 2

/-- What a call of `ParseKF` leaves: the result (nil or a schema), the error
list (the returned error is this list if it is not empty, and nil otherwise),
and what was printed (one element per call of `Printf` or `Println`, without
the final line break). -/
structure Outcome where
  result : Option Schema
  errors : ErrorList
  printed : List Str
  deriving DecidableEq, Repr

/-- The error that is returned. -/
def Outcome.err (o : Outcome) : Option ErrorList := if o.errors.isErr then some o.errors else none

/-- The deferred function, kfparser/parser.go:38-60, for a call that ends with
the given result and error (or panic turned into an error), after `trace` was
printed. -/
def finish (mode : Nat) (result : Option Schema) (l : ErrorList) (err : Option Entry)
    (trace : List Str) : Outcome :=
  let l := l ++ err.toList
  { result := result
    errors := l
    printed := trace ++
      if mode &&& modeTrace != 0 then
        ["E  ".toList ++ (if l.isErr then l.text.getD [] else "<nil>".toList)]
      else [] }

/-- kfparser/parser.go:19-81 `ParseKF`.  `listener` is nil (`none`) or the
content of the caller's error listener. -/
def parseKF (w : World) (input : Str) (listener : Option ErrorList) (mode : Nat) : Outcome :=
  let l₀ := listener.getD []
  -- 64: p.Source_unit()
  let l₁ := l₀ ++ (syntaxErrors w input).map .real
  match syntaxTree input with
  | none =>
      match w.crash input with
      | some p => finish mode none l₁ (some (.real p.toErr)) []
      | none => finish mode none l₁ (some .self) []
  | some tree =>
      -- 65-67
      if l₁.isErr then finish mode none l₁ (some .self) []
      else
        -- 62: NewKuneiformVisitor(mode), kfparser/visitor.go:29-34
        let v := tVisitSource (mode &&& modeTrace != 0) tree
        let tr := v.out
        -- 69-72 (the type assertion succeeds: VisitSource_unit returns a *schema.Schema)
        match v.res with
        | .error p => finish mode none l₁ (some (.real p.toErr)) tr
        | .ok s =>
          -- 74-80
          match validate w.toEnv s with
          | some (.err e) => finish mode (some s) l₁ (some (.real e)) tr
          | some (.panic p) => finish mode (some s) l₁ (some (.real p.toErr)) tr
          | none => finish mode (some s) l₁ none tr

/-- kfparser/parser.go:15-17 `Parse`. -/
def parse (w : World) (input : Str) : Outcome := parseKF w input none modeDefault

/-! A client that makes several calls, possibly with listeners that it keeps. -/

/-- A call of `ParseKF`: the listener is nil or one of the client's. -/
structure Call where
  input : Str
  listener : Option Nat
  mode : Nat

/-- One call, given the contents of the client's listeners: their contents
afterwards (kfparser/parser.go:20-22 takes a new one for nil) and the
outcome.  A listener the client does not have counts as an empty one. -/
def step (w : World) (heap : List ErrorList) (c : Call) : List ErrorList × Outcome :=
  match c.listener with
  | none => (heap, parseKF w c.input none c.mode)
  | some i =>
      let o := parseKF w c.input (some (heap[i]?.getD [])) c.mode
      (heap.set i o.errors, o)

/-- A sequence of calls. -/
def history (w : World) : List ErrorList → List Call → List ErrorList × List Outcome
  | heap, [] => (heap, [])
  | heap, c :: cs =>
      let (heap₁, o) := step w heap c
      let (heap₂, os) := history w heap₁ cs
      (heap₂, o :: os)

end Verif
