import Verif.Model.AtnData
/-!
# Decoding serialized ATNs

A reader for the ATN format, version 4 (`antlr.ATNDeserializer`, called from
kfgrammar/kuneiform_lexer.go:363-364 and kuneiform_parser.go:275-276), and a
decompiler that turns the state graph of one rule back into an expression.
The graph of a rule built by the ANTLR tool is structured: blocks, loops and
plain chains; the decompiler follows exactly that structure and yields `none`
on any other graph.
-/

namespace Verif.Atn

/-- A state: type, rule index, extra argument (end state of a block start,
loop-back state of a loop end). -/
structure St where
  ty : Nat
  rule : Nat
  arg : Nat
  deriving Repr, Inhabited

/-- A transition. -/
structure Edge where
  src : Nat
  trg : Nat
  ty : Nat
  a1 : Nat
  a2 : Nat
  a3 : Nat
  deriving Repr, Inhabited

/-- A decoded ATN. -/
structure T where
  states : List St
  nonGreedy : List Nat
  precRules : List Nat
  /-- Start state of each rule, and for a lexer the token type of each rule. -/
  rules : List (Nat × Nat)
  modes : List Nat
  sets : List (List (Nat × Nat))
  edges : List Edge
  decisions : List Nat
  /-- Lexer actions: type and two arguments. -/
  actions : List (Nat × Nat × Nat)
  deriving Repr, Inhabited

/-- Reads `n` items. -/
def many {α : Type} (f : List Nat → Option (α × List Nat)) :
    Nat → List Nat → Option (List α × List Nat)
  | 0, d => some ([], d)
  | n + 1, d => match f d with
    | none => none
    | some (x, d) => match many f n d with
      | none => none
      | some (xs, d) => some (x :: xs, d)

/-- Reads a count and then that many items. -/
def counted {α : Type} (f : List Nat → Option (α × List Nat)) :
    List Nat → Option (List α × List Nat)
  | [] => none
  | n :: d => many f n d

/-- Reads one number. -/
def one : List Nat → Option (Nat × List Nat)
  | [] => none
  | n :: d => some (n, d)

/-- Reads a state: block starts (3, 4, 5) and loop ends (12) have an extra
argument. -/
def state : List Nat → Option (St × List Nat)
  | t :: r :: d =>
      if t == 3 || t == 4 || t == 5 || t == 12 then
        match d with
        | a :: d => some (⟨t, r, a⟩, d)
        | [] => none
      else some (⟨t, r, 0⟩, d)
  | _ => none

/-- Reads a range. -/
def range : List Nat → Option ((Nat × Nat) × List Nat)
  | a :: b :: d => some ((a, b), d)
  | _ => none

/-- Reads a set: number of ranges, "contains EOF" (must be 0 here), ranges. -/
def set : List Nat → Option (List (Nat × Nat) × List Nat)
  | n :: 0 :: d => many range n d
  | _ => none

/-- Reads a transition. -/
def edge : List Nat → Option (Edge × List Nat)
  | a :: b :: c :: x :: y :: z :: d => some (⟨a, b, c, x, y, z⟩, d)
  | _ => none

/-- Reads a lexer action. -/
def action : List Nat → Option ((Nat × Nat × Nat) × List Nat)
  | a :: b :: c :: d => some ((a, b, c), d)
  | _ => none

/-- Reads a rule: a start state, for a lexer (`g = 0`) also a token type. -/
def ruleEntry (g : Nat) : List Nat → Option ((Nat × Nat) × List Nat)
  | s :: d => if g == 0 then match d with
      | t :: d => some ((s, t), d)
      | [] => none
    else some ((s, 0), d)
  | [] => none

/-- `ATNDeserializer.Deserialize`: version, grammar type (0 lexer, 1 parser),
highest token type, states, rules, modes, sets, transitions, decisions and
lexer actions. -/
def decode (gtype : Nat) (data : List Nat) : Option T := do
  match data with
  | 4 :: g :: 84 :: d =>
    if g != gtype then none
    let (states, d) ← counted state d
    let (nonGreedy, d) ← counted one d
    let (precRules, d) ← counted one d
    let (rules, d) ← counted (ruleEntry g) d
    let (modes, d) ← counted one d
    let (sets, d) ← counted set d
    let (edges, d) ← counted edge d
    let (decisions, d) ← counted one d
    let (actions, d) ← if g == 0 then counted action d else some ([], d)
    match d with
    | [] => some { states, nonGreedy, precRules, rules, modes, sets, edges, decisions, actions }
    | _ => none
  | _ => none

/-- Expressions over symbols (code points or token types).  `EOF` is the
symbol 0 of a parser ATN. -/
inductive Ex where
  | eps
  | sym (neg : Bool) (rs : List (Nat × Nat))
  | call (rule prec : Nat)
  | pred (k : Nat)
  | act (i : Nat)
  | seq (a b : Ex)
  | alt (a b : Ex)
  /-- Loop; the flag is "non-greedy". -/
  | star (lazy : Bool) (a : Ex)
  deriving DecidableEq, Repr, Inhabited

/-- Sequence without superfluous empty parts. -/
def sq : Ex → Ex → Ex
  | .eps, b => b
  | a, .eps => a
  | a, b => .seq a b

/-- Transitions leaving a state, in order (their order is their priority). -/
def T.out (t : T) (s : Nat) : List Edge := t.edges.filter (fun e => e.src == s)

/-- A state, with an impossible default. -/
def T.st (t : T) (s : Nat) : St := t.states.getD s ⟨0, 0, 0⟩

/-- The label of one non-empty transition (types 2 RANGE, 3 RULE, 5 ATOM,
6 ACTION, 7 SET, 8 NOT_SET, 9 WILDCARD, 10 PRECEDENCE). -/
def T.label (t : T) (e : Edge) : Option Ex :=
  match e.ty with
  | 1 => some .eps
  | 2 => if e.a3 == 0 then some (.sym false [(e.a1, e.a2)]) else none
  | 3 => some (.call e.a2 e.a3)
  | 5 => some (if e.a3 == 0 then .sym false [(e.a1, e.a1)] else .sym false [(0, 0)])
  | 6 => some (.act e.a2)
  | 7 => (t.sets[e.a1]?).map (.sym false)
  | 8 => (t.sets[e.a1]?).map (.sym true)
  | 9 => some (.sym true [])
  | 10 => some (.pred e.a1)
  | _ => none

/-- Right-nested alternatives. -/
def altOf : List Ex → Option Ex
  | [] => none
  | [a] => some a
  | a :: as => (altOf as).map (.alt a)

/-- Decompiles the graph from state `s` to state `stop` (or to a rule stop
state, type 7). -/
def T.walk (t : T) : Nat → Nat → Nat → Option Ex
  | 0, _, _ => none
  | n + 1, stop, s =>
    if s == stop then some .eps else
    let st := t.st s
    if st.ty == 7 then some .eps
    else if st.ty == 3 then do
      -- block: one alternative per transition, all ending in `st.arg`
      let alts ← (t.out s).mapM (fun e => if e.ty == 1 then t.walk n st.arg e.trg else none)
      let body ← altOf alts
      match t.out st.arg with
      | [e] => if e.ty == 1 then (t.walk n stop e.trg).map (sq body) else none
      | _ => none
    else if st.ty == 4 then do
      -- plus loop: block, then a loop-back state (11) choosing between
      -- the block again and the loop end (12)
      let alts ← (t.out s).mapM (fun e => if e.ty == 1 then t.walk n st.arg e.trg else none)
      let body ← altOf alts
      match t.out st.arg with
      | [e] =>
        match (t.st e.trg).ty, t.out e.trg with
        | 11, [e1, e2] =>
          if e1.trg == s && (t.st e2.trg).ty == 12 && !t.nonGreedy.contains e.trg &&
              !t.nonGreedy.contains s then
            match t.out e2.trg with
            | [e3] => (t.walk n stop e3.trg).map (fun r => sq (.seq body (.star false body)) r)
            | _ => none
          else none
        | _, _ => none
      | _ => none
    else if st.ty == 10 then do
      -- star loop: the entry chooses between the block (5) and the loop end
      -- (12), the other way round if the loop is non-greedy; the block ends
      -- in a loop-back state (9) leading here again
      let lazy := t.nonGreedy.contains s
      match t.out s with
      | [x, y] =>
        let (e1, e2) := if lazy then (y, x) else (x, y)
        let bs := t.st e1.trg
        if bs.ty == 5 && (t.st e2.trg).ty == 12 then
          match t.out bs.arg, t.out e2.trg with
          | [b], [e3] =>
            match (t.st b.trg).ty, t.out b.trg with
            | 9, [back] =>
              if back.trg == s then do
                let alts ← (t.out e1.trg).mapM
                  (fun e => if e.ty == 1 then t.walk n bs.arg e.trg else none)
                let body ← altOf alts
                (t.walk n stop e3.trg).map (sq (.star lazy body))
              else none
            | _, _ => none
          | _, _ => none
        else none
      | _ => none
    else
      -- rule start, basic state, block end or loop end: a single transition
      match t.out s with
      | [e] => do
        let l ← t.label e
        (t.walk n stop e.trg).map (sq l)
      | _ => none

/-- The expression of every rule. -/
def T.exprs (t : T) : Option (List Ex) :=
  t.rules.mapM (fun r => t.walk t.states.length 1000000 r.1)

end Verif.Atn
