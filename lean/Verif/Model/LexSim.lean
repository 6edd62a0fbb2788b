import Verif.Model.Atn
import Verif.Model.Token
/-!
# Running the lexer tables

`antlr.LexerATNSimulator` (module github.com/antlr4-go/antlr/v4 v4.13.0,
lexer_atn_simulator.go; not part of the repository) run on the tables in
kfgrammar/kuneiform_lexer.go:91-362, as `antlr.BaseLexer.NextToken` does when
kfparser/parser.go:28-30 asks for tokens.

Simplifications: the DFA cache is left out (a cached edge leads to the state
that was computed before for the same configurations and character); contexts
are stacks (in an ordered configuration set they are never merged).
-/

namespace Verif

/-- The lexer ATN, as deserialized from kfgrammar/kuneiform_lexer.go:91-364. -/
@[irreducible] def lexerAtn : Atn.T := (Atn.decode 0 Atn.lexerData).getD default

namespace Atn

/-- A configuration (`antlr.ATNConfig`): ATN state, number of the token rule
(from 1), states to return to (`PredictionContext`, innermost first), actions
to execute (`LexerActionExecutor`), `passedThroughNonGreedyDecision`. -/
structure Config where
  state : Nat
  alt : Nat
  stack : List Nat
  acts : List Nat
  lazy : Bool
  deriving DecidableEq, Repr, Inhabited

/-- Transitions that consume nothing: EPSILON (1), RULE (3), PREDICATE (4),
ACTION (6), PRECEDENCE (10). -/
def Edge.isEps (e : Edge) : Bool := e.ty == 1 || e.ty == 3 || e.ty == 4 || e.ty == 6 || e.ty == 10

/-- `Transition.Matches` for a character: RANGE (2), ATOM (5; third argument 1
for `EOF`), SET (7), NOT_SET (8), WILDCARD (9). -/
def T.matchesChar (a : T) (e : Edge) (c : Char) : Bool :=
  let inSet := ((a.sets[e.a1]?).getD []).any fun r => decide (r.1 ≤ c.toNat) && decide (c.toNat ≤ r.2)
  match e.ty with
  | 2 => decide (e.a1 ≤ c.toNat) && decide (c.toNat ≤ e.a2)
  | 5 => e.a3 == 0 && c.toNat == e.a1
  | 7 => inSet
  | 8 => !inSet
  | 9 => true
  | _ => false

/-- `ATNState.GetEpsilonOnlyTransitions`. -/
def T.epsOnly (a : T) (s : Nat) : Bool := !(a.out s).isEmpty && (a.out s).all Edge.isEps

/-- A configuration for another state (`NewLexerATNConfig…`,
`checkNonGreedyDecision`). -/
def Config.move (a : T) (k : Config) (s : Nat) : Config :=
  { k with state := s, lazy := k.lazy || a.nonGreedy.contains s }

/-- `ATNConfigSet.Add` of an ordered set. -/
def addConfig (acc : List Config) (k : Config) : List Config := if k ∈ acc then acc else acc ++ [k]

/-- `getEpsilonTarget`.  PREDICATE and PRECEDENCE transitions do not occur in
the table.  Actions count only outside of called rules. -/
def Config.epsTarget (a : T) (k : Config) (e : Edge) : Option Config :=
  match e.ty with
  | 1 => some (k.move a e.trg)
  | 3 => some { k.move a e.a1 with stack := e.trg :: k.stack }
  | 6 => some { k.move a e.trg with acts := if k.stack.isEmpty then k.acts ++ [e.a2] else k.acts }
  | _ => none

/-- `closure`: adds the configurations that are reached without consuming
anything; `hit` is `currentAltReachedAcceptState`, and is returned.  The first
argument bounds the recursion (`none`: too deep). -/
def T.closure (a : T) : Nat → Config → Bool × List Config → Option (Bool × List Config)
  | 0, _, _ => none
  | n + 1, k, (hit, acc) =>
    if (a.st k.state).ty == 7 then
      match k.stack with
      | [] => some (true, addConfig acc k)
      | f :: stk => a.closure n { k.move a f with stack := stk } (hit, acc)
    else
      let acc := if !a.epsOnly k.state && (!hit || !k.lazy) then addConfig acc k else acc
      (a.out k.state).foldlM (fun σ e =>
        match k.epsTarget a e with
        | none => some σ
        | some k' => a.closure n k' σ) (hit, acc)

/-- Bound on the recursion of `closure`. -/
def depth : Nat := 1000

/-- The inner loop of `getReachableConfigSet`, over the transitions of one
configuration; the state is `SkipAlt` and the set so far. -/
def T.reachOne (a : T) (c : Char) (k : Config) (σ : Nat × List Config) : Option (Nat × List Config) :=
  let hit := k.alt == σ.1
  if hit && k.lazy then some σ
  else (a.out k.state).foldlM (fun σ e =>
    if a.matchesChar e c then
      (a.closure depth (k.move a e.trg) (hit, σ.2)).map fun r => (if r.1 then k.alt else σ.1, r.2)
    else some σ) σ

/-- `getReachableConfigSet`. -/
def T.reach (a : T) (ks : List Config) (c : Char) : Option (List Config) :=
  (ks.foldlM (fun σ k => a.reachOne c k σ) (0, [])).map (·.2)

/-- `computeStartState` for mode 0. -/
def T.start (a : T) : Option (List Config) :=
  (a.out (a.modes.getD 0 0)).zipIdx.foldlM (fun acc p =>
    (a.closure depth ⟨p.1.trg, p.2 + 1, [], [], false⟩ (false, acc)).map (·.2)) []

/-- `addDFAState`: the first configuration in a rule stop state, if any,
decides the token type; its actions will be executed. -/
def T.accepting (a : T) (ks : List Config) : Option (Nat × List Nat) :=
  (ks.find? fun k => (a.st k.state).ty == 7).map fun k =>
    ((a.rules.getD (a.st k.state).rule default).2, k.acts)

/-- `captureSimState` into `prevAccept`, if the state is accepting. -/
def T.capture (a : T) (ks : List Config) (n : Nat) (prev : Option (Nat × Nat × List Nat)) :
    Option (Nat × Nat × List Nat) :=
  match a.accepting ks with
  | some r => some (n, r)
  | none => prev

/-- `execATN`: the last accepting state is remembered (`prevAccept`: length,
token type, actions); stops at the end of the text or if no configuration is
left. -/
def T.exec (a : T) : List Config → Nat → Option (Nat × Nat × List Nat) → Str →
    Option (Option (Nat × Nat × List Nat))
  | _, _, prev, [] => some prev
  | ks, n, prev, c :: s =>
    match a.reach ks c with
    | none => none
    | some [] => some prev
    | some ks => a.exec ks (n + 1) (a.capture ks (n + 1) prev) s

/-- `Match`: length, token type and actions; inner `none`: no viable
alternative. -/
def T.matchToken (a : T) (s : Str) : Option (Option (Nat × Nat × List Nat)) :=
  match a.start with
  | none => none
  | some ks => a.exec ks 0 (a.capture ks 0 none) s

/-- The channel after executing the actions: CHANNEL is type 0.  (The table
has no other actions.) -/
def T.channel (a : T) (acts : List Nat) : Nat :=
  acts.foldl (fun ch i => match a.actions[i]? with
    | some (0, x, _) => x
    | _ => ch) 0

/-- One token: token, hidden?, rest.  `none`: the runtime reports an error to
the listener (see `lexRaw` in Model/Lexer). -/
def T.one (a : T) (s : Str) : Option (Tok × Bool × Str) :=
  match a.matchToken s with
  | some (some (n + 1, ty, acts)) =>
      (TT.all[ty]?).map fun ty => (⟨ty, s.take (n + 1)⟩, a.channel acts != 0, s.drop (n + 1))
  | _ => none

/-- All tokens, as `lexRaw` in Model/Lexer. -/
def T.tokens (a : T) : Nat → Str → Option (List (Tok × Bool))
  | _, [] => some []
  | 0, _ :: _ => none
  | n + 1, c :: s =>
      match a.one (c :: s) with
      | none => none
      | some (t, h, rest) => (a.tokens n rest).map ((t, h) :: ·)

end Atn

/-- One token by the tables. -/
def tableOne (s : Str) : Option (Tok × Bool × Str) := lexerAtn.one s

/-- All tokens by the tables. -/
def tableRaw (s : Str) : Option (List (Tok × Bool)) := lexerAtn.tokens s.length s

end Verif
