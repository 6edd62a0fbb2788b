import Verif.Model.GoParser
import Verif.Model.LexSim
/-!
# Prediction by the tables

`antlr.ParserATNSimulator.AdaptivePredict` (module
github.com/antlr4-go/antlr/v4 v4.13.0, parser_atn_simulator.go; not part of the
repository) run on the parser ATN in kfgrammar/kuneiform_parser.go:80-276, as
the generated rule functions call it (kuneiform_parser.go:2167, 2211, 2575,
2600, 7726, 8547, 8563, 8765).

Modelled is the first stage (prediction without the calling context).
Simplifications: the DFA cache is left out (a cached edge leads to the state
that was computed before for the same configurations and token).  Where the
runtime would do something that is not modelled, the result is `none`: merging
two different contexts of equal configurations, dropping the entry of a loop in
a left-recursive rule inside a call (`canDropLoopEntryEdgeInLeftRecursiveRule`),
and the second stage, with the full context.
-/

namespace Verif
namespace Atn

/-- A configuration (`antlr.ATNConfig`): ATN state, alternative (from 1),
states to return to (`PredictionContext`, innermost first; the empty one stands
for any caller), precedence predicate to be tested (`SemanticContext`; several
are reduced to the lowest), `reachesIntoOuterContext`,
`precedenceFilterSuppressed`. -/
structure PConfig where
  state : Nat
  alt : Nat
  stack : List Nat
  sem : Option Nat
  dips : Nat
  supp : Bool
  deriving DecidableEq, Repr, Inhabited

/-- Equality of configurations (`ATNConfig.PEquals`). -/
def PConfig.same (k l : PConfig) : Bool :=
  k.state == l.state && k.alt == l.alt && k.stack == l.stack && k.sem == l.sem && k.supp == l.supp

/-- `ATNConfigSet.Add`: a configuration with the same state, alternative and
predicate is merged with the new one. -/
def addP : List PConfig → PConfig → Option (List PConfig)
  | [], k => some [k]
  | l :: ls, k =>
    if l.state == k.state && l.alt == k.alt && l.sem == k.sem then
      if l.stack == k.stack then
        some ({ l with dips := max l.dips k.dips, supp := l.supp || k.supp } :: ls)
      else none
    else (addP ls k).map (l :: ·)

/-- `RuleStartState.isPrecedenceRule`: the table lists the start states of
left-recursive rules. -/
def T.leftRec (a : T) (r : Nat) : Bool := a.precRules.contains (a.rules.getD r default).1

/-- The transitions of a state after deserialization: a rule stop state (7) has
a transition to the state after every call of its rule; its fifth component
here is 1 if the rule is left-recursive and called with precedence 0
(`outermostPrecedenceReturn`).  Calls of a rule are in the order of the states
they are made from, as in the table. -/
def T.links (a : T) (s : Nat) : List Edge :=
  if (a.st s).ty == 7 then
    (a.edges.filter fun e => e.ty == 3 && e.a2 == (a.st s).rule).map fun e =>
      ⟨s, e.trg, 1, 0, if a.leftRec e.a2 && e.a3 == 0 then 1 else 0, 0⟩
  else a.out s

/-- `Transition.getIsEpsilon`: EPSILON (1), RULE (3), PREDICATE (4), ACTION (6),
PRECEDENCE (10). -/
def Edge.eps (e : Edge) : Bool := e.ty == 1 || e.ty == 3 || e.ty == 4 || e.ty == 6 || e.ty == 10

/-- `ATNState.GetEpsilonOnlyTransitions`. -/
def T.epsLinks (a : T) (s : Nat) : Bool := !(a.links s).isEmpty && (a.links s).all Edge.eps

/-- `getEpsilonTarget`, in the first stage: `collect` is `collectPredicates`,
`depth0` is `inContext`, `atEof` is `treatEofAsEpsilon`. -/
def PConfig.target (a : T) (k : PConfig) (collect depth0 atEof : Bool) (e : Edge) : Option PConfig :=
  match e.ty with
  | 1 => some { k with state := e.trg }
  | 3 => some { k with state := e.a1, stack := e.trg :: k.stack }
  | 6 => some { k with state := e.trg }
  | 10 =>
    if collect && depth0 then
      some { k with state := e.trg, sem := some (match k.sem with | none => e.a1 | some j => min j e.a1) }
    else some { k with state := e.trg }
  | _ => if atEof && a.eats e .EOF then some { k with state := e.trg } else none

/-- A decision of a left-recursive rule (`StarLoopEntryState.
precedenceRuleDecision`): a loop entry (10) of such a rule whose last
transition leads to the loop end (12) and from there to the end of the rule. -/
def T.precDecision (a : T) (s : Nat) : Bool :=
  (a.st s).ty == 10 && a.leftRec (a.st s).rule &&
  match (a.out s).getLast? with
  | some e => (a.st e.trg).ty == 12 &&
      match a.out e.trg with
      | [f] => f.eps && (a.st f.trg).ty == 7
      | _ => false
  | none => false

/-- What `closure` works on: the configurations found and `closureBusy`. -/
abbrev Found := List PConfig × List PConfig

/-- `closureCheckingStopState` and `closureWork`.  `prec` is the rule of the
decision if that is a decision of a left-recursive rule.  The first argument
bounds the recursion (`none`: too deep). -/
def T.closeP (a : T) (prec : Option Nat) (atEof : Bool) :
    Nat → PConfig → Bool → Int → Found → Option Found
  | 0, _, _, _, _ => none
  | n + 1, k, collect, depth, (acc, busy) =>
    let stop := (a.st k.state).ty == 7
    match stop, k.stack with
    | true, f :: stk =>
        a.closeP prec atEof n ⟨f, k.alt, stk, k.sem, k.dips, false⟩ collect (depth - 1) (acc, busy)
    | _, _ =>
      if a.precDecision k.state && !k.stack.isEmpty then none
      else
        (if a.epsLinks k.state then some acc else addP acc k).bind fun acc =>
        (a.links k.state).foldlM (fun (σ : Found) e =>
          let collect := collect && e.ty != 6
          match k.target a collect (depth == 0) atEof e with
          | none => some σ
          | some c =>
            if stop then
              let c := { c with
                supp := c.supp || (prec == some (a.st k.state).rule && e.a2 == 1)
                dips := c.dips + 1 }
              if σ.2.any c.same then some σ
              else a.closeP prec atEof n c collect (depth - 1) (σ.1, c :: σ.2)
            else if !e.eps then
              if σ.2.any c.same then some σ
              else a.closeP prec atEof n c collect depth (σ.1, c :: σ.2)
            else
              let depth := if e.ty == 3 && decide (0 ≤ depth) then depth + 1 else depth
              a.closeP prec atEof n c collect depth σ) (acc, busy)

/-- Bound on the recursion of `closeP`. -/
def depthP : Nat := 1000

/-- The rule of a decision state of a left-recursive rule. -/
def T.precOf (a : T) (d : Nat) : Option Nat :=
  let s := a.decisions.getD d 0
  if a.precDecision s then some (a.st s).rule else none

/-- `computeStartState`, without context. -/
def T.startP (a : T) (d : Nat) : Option (List PConfig) :=
  (a.out (a.decisions.getD d 0)).zipIdx.foldlM (fun acc x =>
    (a.closeP (a.precOf d) false depthP ⟨x.1.trg, x.2 + 1, [], none, 0, false⟩ true 0 (acc, [])).map
      (·.1)) []

/-- A configuration of alternative 1, with its predicate tested
(`evalPrecedence`; `none`: the predicate fails, or another alternative). -/
def PConfig.keep (p : Nat) (k : PConfig) : Option PConfig :=
  if k.alt != 1 then none
  else match k.sem with
    | none => some k
    | some j => if p ≤ j then some { k with sem := none } else none

/-- `applyPrecedenceFilter`, in a rule invoked with precedence `p`. -/
def filterP (p : Nat) (ks : List PConfig) : Option (List PConfig) :=
  let first := ks.filterMap (PConfig.keep p)
  let others := ks.filter fun k => k.alt != 1 &&
    (k.supp || !((first.reverse.find? fun l => l.state == k.state).any fun l => l.stack == k.stack))
  (first ++ others).foldlM addP []

/-- The start state of `AdaptivePredict`. -/
def T.initial (a : T) (d p : Nat) : Option (List PConfig) :=
  (a.startP d).bind fun ks => if (a.precOf d).isSome then filterP p ks else some ks

/-- `getUniqueAlt`; 0 if there is none. -/
def uniqueAlt (ks : List PConfig) : Nat :=
  match ks with
  | [] => 0
  | k :: ks => if ks.all fun l => l.alt == k.alt then k.alt else 0

/-- `computeReachSet`, in the first stage. -/
def T.reachP (a : T) (prec : Option Nat) (ks : List PConfig) (t : TT) : Option (List PConfig) :=
  let live := ks.filter fun k => !((a.st k.state).ty == 7)
  let skipped := if t == .EOF then ks.filter fun k => (a.st k.state).ty == 7 else []
  (live.foldlM (fun acc k => (a.links k.state).foldlM (fun acc e =>
    if a.eats e t then addP acc { k with state := e.trg } else some acc) acc) []).bind fun mid =>
  (if skipped.isEmpty && t != .EOF && (mid.length == 1 || uniqueAlt mid != 0) then some mid
   else (mid.foldlM (fun (σ : Found) k => a.closeP prec (t == .EOF) depthP k false 0 σ) ([], [])).map
     (·.1)).bind fun reach =>
  let reach := if t == .EOF then reach.filter fun k => (a.st k.state).ty == 7 else reach
  skipped.foldlM addP reach

/-- The alternatives of the configurations with this state and context. -/
def altsAt (ks : List PConfig) (k : PConfig) : List Nat :=
  (ks.filter fun l => l.state == k.state && l.stack == k.stack).map (·.alt)

/-- `hasSLLConflictTerminatingPrediction`. -/
def T.conflict (a : T) (ks : List PConfig) : Bool :=
  ks.all (fun k => (a.st k.state).ty == 7) ||
  (ks.any (fun k => (altsAt ks k).any (· != k.alt)) &&
   !ks.any fun k => ks.all fun l => !(l.state == k.state) || l.alt == k.alt)

/-- The predicate of a configuration holds in a rule invoked with precedence
`p` (`PrecedencePredicate.evaluate`). -/
def PConfig.holds (p : Nat) (k : PConfig) : Bool :=
  match k.sem with
  | none => true
  | some j => decide (p ≤ j)

/-- `GetAltThatFinishedDecisionEntryRule`; 0 if there is none. -/
def T.finished (a : T) (ks : List PConfig) : Nat :=
  (((ks.filter fun k => decide (0 < k.dips) || ((a.st k.state).ty == 7 && k.stack.isEmpty)).map
    (·.alt)).min?).getD 0

/-- The answer when no configuration is left
(`getSynValidOrSemInvalidAltThatFinishedDecisionEntryRule`); 0 is an error. -/
def T.giveUp (a : T) (p : Nat) (ks : List PConfig) : Nat :=
  let i := a.finished (ks.filter (PConfig.holds p))
  if i != 0 then i else a.finished (ks.filter fun k => !k.holds p)

/-- `execATN` from a set of configurations, with the tokens ahead: the answer,
and how many tokens have been passed (for an error: the number of tokens before
the one it is about).  At an accepting state predicates are tested; if they
fail the answer is 0.  The first argument bounds the number of tokens read, `k`
counts them. -/
def T.predictFrom (a : T) (prec : Option Nat) (p : Nat) :
    Nat → Nat → List PConfig → List Tok → Option (Nat × Nat)
  | 0, _, _, _ => none
  | n + 1, k, ks, ts =>
    match a.reachP prec ks (la ts) with
    | none => none
    | some [] => some (a.giveUp p ks, k)
    | some reach =>
      let i := uniqueAlt reach
      if i != 0 then some (if reach.any (PConfig.holds p) then (i, k) else (0, 0))
      else if a.conflict reach then none
      else a.predictFrom prec p n (k + 1) reach (if la ts = .EOF then ts else ts.tail)

/-- `AdaptivePredict` for decision `d` in a rule invoked with precedence `p`,
with the tokens ahead. -/
def T.adaptivePredict (a : T) (d p : Nat) (ts : List Tok) : Option (Nat × Nat) :=
  (a.initial d p).bind fun ks => a.predictFrom (a.precOf d) p (ts.length + depthP) 0 ks ts

end Atn

/-- The runtime with the modelled prediction service. -/
def simRuntime : Runtime where
  predict d p _ ts := ((parserAtn.adaptivePredict d p ts).getD (0, 0)).1
  dead d p _ ts := ((parserAtn.adaptivePredict d p ts).getD (0, 0)).2

/-- The syntax stage as it is shipped (kfparser/parser.go:28-64): the lexer
tables, then the generated rule functions with prediction on the parser tables;
`none` if there is a syntax error. -/
noncomputable def tableTree (input : Str) : Option Tree :=
  match tableRaw input with
  | none => none
  | some l =>
    let ts := (l.filter (fun p => !p.2)).map (·.1)
    match execSource simRuntime (30 * (ts.length + 2)) ts with
    | .ok [tree] _ => some tree
    | _ => none

end Verif
