import Verif.Model.ParseKF
/-!
# Several calls at the same time

`ParseKF` as a sequence of atomic steps on the memory that calls can share:
error listeners (utils/error_listener.go:50-52) and the standard output.
Everything else a call touches is its own (lexer, parser, visitor and
validator are made in kfparser/parser.go:24-34, 62 and 74) or is only read
(the tables of schema/types.go and schema/validator.go:12-16, and the grammar,
whose caches in the antlr runtime are guarded by it).

An `append` to a listener and a line of output are single steps.  In Go
unsynchronised appends to one listener are a data race; the model says what
happens at best, and claims about listeners that are not shared do not depend
on it.
-/

namespace Verif

/-- A listener: one of the client's, or the one made in kfparser/parser.go:21
for a call with a nil listener. -/
inductive Cell where
  | own (thread : Nat)
  | client (k : Nat)
  deriving DecidableEq, Repr

/-- How far a call has come. -/
inductive PC where
  /-- inside `p.Source_unit()`, kfparser/parser.go:64, with the reports that are
  still to come -/
  | reading (todo : List Err)
  /-- lines 69-80, with the lines that are still to be printed, and how it will
  end -/
  | visiting (todo : List Str) (res : Option Schema) (err : Option Entry)
  /-- at the start of the deferred function, line 38 -/
  | leaving (res : Option Schema) (err : Option Entry)
  /-- line 54, `err = errorListener.Err()` -/
  | asking (res : Option Schema)
  /-- line 57 -/
  | closing (res : Option Schema) (failed : Bool)
  /-- returned: the result, and whether the error is nil or a pointer to the
  listener's list -/
  | done (res : Option Schema) (failed : Bool)
  deriving DecidableEq, Repr

/-- One step of a call, given the content of its listener: the new state, the
new content, and what is printed. -/
def tick (w : World) (input : Str) (mode : Nat) (l : ErrorList) : PC → PC × ErrorList × List Str
  | .reading (e :: es) => (.reading es, l ++ [.real e], [])
  | .reading [] =>
      match syntaxTree input with
      | none =>
          match w.crash input with
          | some p => (.leaving none (some (.real p.toErr)), l, [])
          | none => (.leaving none (some .self), l, [])
      | some tree =>
          if l.isErr then (.leaving none (some .self), l, [])
          else
            let v := tVisitSource (mode &&& modeTrace != 0) tree
            match v.res with
            | .error p => (.visiting v.out none (some (.real p.toErr)), l, [])
            | .ok s =>
              match validate w.toEnv s with
              | some (.err e) => (.visiting v.out (some s) (some (.real e)), l, [])
              | some (.panic p) => (.visiting v.out (some s) (some (.real p.toErr)), l, [])
              | none => (.visiting v.out (some s) none, l, [])
  | .visiting (x :: xs) r e => (.visiting xs r e, l, [x])
  | .visiting [] r e => (.leaving r e, l, [])
  | .leaving r e => (.asking r, l ++ e.toList, [])
  | .asking r => (.closing r l.isErr, l, [])
  | .closing r b =>
      (.done r b, l,
        if mode &&& modeTrace != 0 then
          ["E  ".toList ++ (if b then l.text.getD [] else "<nil>".toList)]
        else [])
  | .done r b => (.done r b, l, [])

/-- The listeners, the calls, and the output so far with the call that wrote
each line. -/
structure Sys where
  heap : Cell → ErrorList
  pcs : Nat → PC
  out : List (Nat × Str)

/-- The listener of call number `i`: kfparser/parser.go:20-22. -/
def Call.cell (c : Call) (i : Nat) : Cell :=
  match c.listener with
  | none => .own i
  | some k => .client k

/-- All calls are about to start; the client's listeners may hold errors. -/
def Sys.start (w : World) (calls : Nat → Call) (clients : Nat → ErrorList) : Sys where
  heap
    | .own _ => []
    | .client k => clients k
  pcs i := .reading (syntaxErrors w (calls i).input)
  out := []

/-- Call number `i` makes a step. -/
def Sys.step (w : World) (calls : Nat → Call) (s : Sys) (i : Nat) : Sys :=
  let c := calls i
  let r := tick w c.input c.mode (s.heap (c.cell i)) (s.pcs i)
  { heap := fun a => if a = c.cell i then r.2.1 else s.heap a
    pcs := fun j => if j = i then r.1 else s.pcs j
    out := s.out ++ r.2.2.map fun x => (i, x) }

/-- A schedule: which call makes a step, again and again. -/
def Sys.run (w : World) (calls : Nat → Call) (s : Sys) (sched : List Nat) : Sys :=
  sched.foldl (Sys.step w calls) s

/-- What call `i` has printed. -/
def Sys.printedBy (s : Sys) (i : Nat) : List Str :=
  (s.out.filter fun x => x.1 = i).map (·.2)

end Verif
