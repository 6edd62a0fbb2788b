import Verif.Model.Atn
import Verif.Model.GoCode
import Verif.Model.Parser
/-!
# Running the generated parser on the ANTLR runtime

The generated rule functions (`goCode`) call three services of the ANTLR
runtime (module github.com/antlr4-go/antlr/v4 v4.13.0, not part of the
repository): `Match`/`Consume` on the token stream, `Sync` of the default error
strategy, and `AdaptivePredict`.  The first two are modelled here;
`AdaptivePredict` is a parameter, on which `Verif/Spec/Predict.lean` states
what is assumed.  The run is followed up to the first error, after which
`ParseKF` returns no schema anyway (kfparser/parser.go:65-67).
-/

namespace Verif

/-- The parser ATN, as deserialized from kfgrammar/kuneiform_parser.go:80-274. -/
def parserAtn : Atn.T := (Atn.decode 1 Atn.parserData).getD default

namespace Atn

/-- Transitions without a symbol: EPSILON (1) and ACTION (6). -/
def Edge.silent (e : Edge) : Bool := e.ty == 1 || e.ty == 6

/-- Does a transition consume this token?  RANGE (2), ATOM (5; third argument
1 for `EOF`), SET (7). -/
def T.eats (a : T) (e : Edge) (t : TT) : Bool :=
  match e.ty with
  | 2 => t != .EOF && decide (e.a1 ≤ t.code) && decide (t.code ≤ e.a2)
  | 5 => if e.a3 == 0 then t != .EOF && t.code == e.a1 else t == .EOF
  | 7 => t != .EOF &&
      ((a.sets[e.a1]?).getD []).any fun r => decide (r.1 ≤ t.code) && decide (t.code ≤ r.2)
  | _ => false

/-- The transition out of a state that calls a rule (type 3: `trg` is the
state to go on with afterwards, `a1` the start state of the rule). -/
def T.ruleEdge (a : T) (s : Nat) : Option Edge := (a.out s).find? fun e => e.ty == 3

/-- Where the parser goes on after the rule called from state `s`. -/
def T.follow (a : T) (s : Nat) : Nat := ((a.ruleEdge s).map (·.trg)).getD 0

/-- `a.Looks s stack x`: from state `s`, inside the calls `stack`, the next
token to be consumed may be `x`; `x = none` if the end of the rule is reached
outside all these calls without consuming anything (`antlr.ATN.NextTokens`,
`LL1Analyzer.Look` without a context). -/
inductive T.Looks (a : T) : Nat → List Nat → Option TT → Prop where
  | stop {s : Nat} : (a.st s).ty = 7 → T.Looks a s [] none
  | ret {s i : Nat} {stack : List Nat} {x : Option TT} : (a.st s).ty = 7 →
      T.Looks a (a.follow i) stack x → T.Looks a s (i :: stack) x
  | silent {s : Nat} {e : Edge} {stack : List Nat} {x : Option TT} : e ∈ a.out s →
      (e.silent = true ∨ e.ty = 10) → T.Looks a e.trg stack x → T.Looks a s stack x
  | call {s : Nat} {e : Edge} {stack : List Nat} {x : Option TT} : a.ruleEdge s = some e →
      T.Looks a e.a1 (s :: stack) x → T.Looks a s stack x
  | token {s : Nat} {e : Edge} {stack : List Nat} {t : TT} : e ∈ a.out s →
      a.eats e t = true → T.Looks a s stack (some t)

end Atn

/-- `LA(1)`: the type of the next token; after the last one it stays `EOF`. -/
def la (ts : List Tok) : TT :=
  match ts with
  | [] => .EOF
  | t :: _ => t.ty

/-- `DefaultErrorStrategy.Sync` reports nothing: the next token can follow
state `st`, or the rule can end there, or the state is none of the block
starts (3, 4, 5), loop entries (10) and loop ends (9, 11) that are checked. -/
def SyncOk (st : Nat) (t : TT) : Prop :=
  parserAtn.Looks st [] none ∨ parserAtn.Looks st [] (some t) ∨
    (parserAtn.st st).ty ∉ [3, 4, 5, 9, 10, 11]

/-- The prediction service: `AdaptivePredict(parser, tokens, d, ctx)` in a
rule invoked with precedence `p` and from the states `ctx` (the chain of
`invokingState`s, innermost first), with the given tokens ahead.  0 is
`ATNInvalidAltNumber`, after which an error is set; `dead` is the number of
tokens before the one that this error is about (`offendingToken`). -/
structure Runtime where
  predict : (d p : Nat) → (ctx : List Nat) → (ts : List Tok) → Nat
  dead : (d p : Nat) → (ctx : List Nat) → (ts : List Tok) → Nat

/-- Results of running a piece of code. -/
inductive Res where
  /-- No error so far: the children built and the remaining tokens. -/
  | ok (kids : List Tree) (rest : List Tok)
  /-- An error was reported, about the first of these tokens. -/
  | err (rest : List Tok)
  /-- The run did not end within the number of steps. -/
  | stuck
  deriving Repr, Inhabited

/-- What comes after a result without errors, in sequence. -/
def Res.andThen (a : Res) (f : List Tok → Res) : Res :=
  match a with
  | .ok k₁ ts => match f ts with
    | .ok k₂ ts => .ok (k₁ ++ k₂) ts
    | .err ts => .err ts
    | .stuck => .stuck
  | .err ts => .err ts
  | .stuck => .stuck

/-- The numbered branches of a `switch`. -/
def Go.arms : Go → List (Nat × Go)
  | .case _ i a b => (i, a) :: b.arms
  | _ => []

open Classical in
/-- Runs a statement in a rule function invoked with precedence `p` from the
states `ctx`.  The first argument bounds the depth of the recursion. -/
noncomputable def exec (rt : Runtime) : Nat → List Nat → Nat → Go → List Tok → Res
  | 0, _, _, _, _ => .stuck
  | _ + 1, _, _, .skip, ts => .ok [] ts
  | _ + 1, _, _, .fail, ts => .err ts
  | n + 1, ctx, p, .seq a b, ts =>
      (exec rt n ctx p a ts).andThen fun ts => exec rt n ctx p b ts
  | _ + 1, _, _, .tok x, ts =>
      match ts with
      | [] => .err []
      | t :: ts => if t.ty = x then .ok [.leaf t] ts else .err (t :: ts)
  | _ + 1, _, _, .set c, ts =>
      match ts with
      | [] => .err []
      | t :: ts => if c.ok t.ty then .ok [.leaf t] ts else .err (t :: ts)
  | n + 1, ctx, _, .call st r k, ts =>
      match exec rt n (st :: ctx) k (goCode r) ts with
      | .ok ks ts => .ok [mkNode r ks] ts
      | .err ts => .err ts
      | .stuck => .stuck
  | _ + 1, _, p, .pred k, ts => if p ≤ k then .ok [] ts else .err ts
  | _ + 1, _, _, .sync st, ts => if SyncOk st (la ts) then .ok [] ts else .err ts
  | n + 1, ctx, p, .ifLA c a b, ts =>
      if c.ok (la ts) then exec rt n ctx p a ts else exec rt n ctx p b ts
  | n + 1, ctx, p, .whileLA c a, ts =>
      if c.ok (la ts) then
        (exec rt n ctx p a ts).andThen fun ts => exec rt n ctx p (.whileLA c a) ts
      else .ok [] ts
  | n + 1, ctx, p, .whileAP d a, ts =>
      match rt.predict d p ctx ts with
      | 0 => .err (ts.drop (rt.dead d p ctx ts))
      | 1 => (exec rt n ctx p a ts).andThen fun ts => exec rt n ctx p (.whileAP d a) ts
      | 2 => .ok [] ts
      | _ + 3 => exec rt n ctx p (.whileAP d a) ts
  | n + 1, ctx, p, .switchAP d x, ts =>
      match rt.predict d p ctx ts with
      | 0 => .err (ts.drop (rt.dead d p ctx ts))
      | i + 1 => match x.arms.lookup (i + 1) with
        | some a => exec rt n ctx p a ts
        | none => .ok [] ts
  | _ + 1, _, _, .case _ _ _ _, ts => .ok [] ts

/-- `p.Source_unit()` (kfparser/parser.go:64) on the tokens of a text, followed
by end of file, with the given number of steps. -/
noncomputable def execSource (rt : Runtime) (n : Nat) (ts : List Tok) : Res :=
  match exec rt n [] 0 (goCode .source_unit) (ts ++ [Tok.eof]) with
  | .ok ks _ => .ok [mkNode .source_unit ks] []
  | r => r

end Verif
