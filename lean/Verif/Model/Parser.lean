import Verif.Model.Grammar
/-!
# The parser

The generated recursive-descent parser (kfgrammar/kuneiform_parser.go), as an
interpreter of the annotated grammar, and the parse trees it builds
(`antlr.ParserRuleContext`).
-/

namespace Verif

/-- Parse trees: terminal nodes and rule contexts with their children. -/
inductive Tree where
  | leaf (t : Tok)
  | node (r : Rule) (kids : List Tree)
  deriving Repr, Inhabited

mutual
/-- The tokens under a node, in order. -/
def Tree.leaves : Tree → List Tok
  | .leaf t => [t]
  | .node _ ks => Tree.leavesL ks
/-- The tokens under a list of nodes. -/
def Tree.leavesL : List Tree → List Tok
  | [] => []
  | k :: ks => k.leaves ++ Tree.leavesL ks
end

/-- `GetText`: the concatenated text of all tokens under the node. -/
def Tree.text (t : Tree) : Str := t.leaves.flatMap (·.text)

/-- The context node of a finished rule.  Simplification: the children of
`fn_arg_expr` are flattened to their tokens, because no code looks at the
inner structure of an argument expression (kfparser/visitor.go takes the text
of the whole statement). -/
def mkNode (r : Rule) (kids : List Tree) : Tree :=
  if r = .fn_arg_expr then .node r ((Tree.leavesL kids).map .leaf) else .node r kids

/-- Do the next tokens pass the lookahead sets? -/
def laOk : List (List TT) → List Tok → Bool
  | [], _ => true
  | _ :: _, [] => false
  | s :: ss, t :: ts => s.contains t.ty && laOk ss ts

/-- One lookahead test in a rule invoked with precedence `p`
(`Precpred`: `precedence >= p`). -/
def Look.ok (p : Nat) (l : Look) (ts : List Tok) : Bool :=
  (match l.prec with
   | none => true
   | some k => p ≤ k) && laOk l.la ts

/-- A decision. -/
def Guard.ok (p : Nat) (g : Guard) (ts : List Tok) : Bool := g.any (fun l => l.ok p ts)

/-- Runs a right-hand side in a rule invoked with precedence `p`: the children
built and the remaining tokens; `none` is a syntax error (`Match` failed, no
viable alternative, failed predicate).  ANTLR would go on after an error to
report more of them, but `ParseKF` gives up (kfparser/parser.go:65-67).  The
first argument bounds the depth of the recursion. -/
def run : Nat → Nat → G → List Tok → Option (List Tree × List Tok)
  | 0, _, _, _ => none
  | _ + 1, _, .eps, ts => some ([], ts)
  | _ + 1, _, .tok s, ts =>
      match ts with
      | [] => none
      | t :: ts => if s.contains t.ty then some ([.leaf t], ts) else none
  | n + 1, _, .call r k, ts =>
      match run n k (grammar r) ts with
      | none => none
      | some (ks, ts) => some ([mkNode r ks], ts)
  | _ + 1, p, .pred k, ts => if p ≤ k then some ([], ts) else none
  | n + 1, p, .seq a b, ts =>
      match run n p a ts with
      | none => none
      | some (k₁, ts) =>
        match run n p b ts with
        | none => none
        | some (k₂, ts) => some (k₁ ++ k₂, ts)
  | n + 1, p, .alt g a b, ts => if g.ok p ts then run n p a ts else run n p b ts
  | n + 1, p, .star g a, ts =>
      if g.ok p ts then
        match run n p a ts with
        | none => none
        | some (k₁, ts) =>
          match run n p (.star g a) ts with
          | none => none
          | some (k₂, ts) => some (k₁ ++ k₂, ts)
      else some ([], ts)

/-- Enough steps for a token list of the given length (proved in
`Verif/Proof/Complete.lean`). -/
def fuelFor (n : Nat) : Nat := 100 * (n + 2)

/-- `p.Source_unit()` on the token stream (kfparser/parser.go:64): the tokens
of the text followed by end of file. -/
def parseTokens (ts : List Tok) : Option Tree :=
  match run (fuelFor (ts.length + 1)) 0 (.call .source_unit 0) (ts ++ [Tok.eof]) with
  | some ([t], []) => some t
  | _ => none

end Verif
