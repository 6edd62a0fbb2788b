import Verif.Model.Contexts
import Verif.Spec.Derivation
/-!
# What the methods of parse tree nodes are expected to return

By the name of the method alone: `X()` the child of kind X, `X(i)` the one
with number `i`, `AllX()` all of them in order.
-/

namespace Verif

/-- Kinds of children: contexts of a rule, terminals of a token type. -/
inductive Kind where
  | rule (r : Rule)
  | token (ty : TT)
  deriving DecidableEq, Repr

/-- The name of the kind in Go. -/
def Kind.goName : Kind → Str
  | .rule r => r.goName
  | .token ty => ty.goName

/-- Is the node of this kind? -/
def Kind.has : Kind → Tree → Bool
  | .rule r, .node r' _ => r == r'
  | .token ty, .leaf t => t.ty == ty
  | _, _ => false

/-- The kind of a node. -/
def Tree.kind : Tree → Kind
  | .node r _ => .rule r
  | .leaf t => .token t.ty

/-- The children of a kind, in order. -/
def Kind.among (x : Kind) (ks : List Tree) : List Tree := ks.filter x.has

/-- `Expects ks name indexed k v`: the method `name`, called on a node with
children `ks`, is expected to return `v`; with the argument `k` if `indexed`. -/
inductive Expects (ks : List Tree) : Str → Bool → Int → GetVal → Prop where
  | single (x : Kind) (k : Int) : Expects ks x.goName false k (.node (x.among ks).head?)
  | item (x : Kind) (i : Nat) : Expects ks x.goName true i (.node (x.among ks)[i]?)
  | outside (x : Kind) (k : Int) : k < 0 → Expects ks x.goName true k (.node none)
  | every (x : Kind) (k : Int) : Expects ks ("All".toList ++ x.goName) false k (.nodes ((x.among ks).map some))

/-- The part of the rule `fn_arg_expr` before its loop over operators. -/
def operand : G := match grammar .fn_arg_expr with
  | .seq a _ => a
  | _ => .eps

/-- The body of the loop. -/
def operator : G := match grammar .fn_arg_expr with
  | .seq _ (.star _ b) => b
  | _ => .eps

/-- The children of the nodes that `fn_arg_expr` builds: every round of the loop
pushes a new context with the one built so far as its first child
(`PushNewRecursionContext`, kuneiform_parser.go:8566-8758). -/
inductive ExprNode : List Tree → Prop where
  | operand {ts : List Tok} {ks : List Tree} : Gen operand ts ks → ExprNode ks
  | binary {l ks : List Tree} {ts : List Tok} : ExprNode l → Gen operator ts ks →
      ExprNode (.node .fn_arg_expr l :: ks)

/-- Values of result types; nil belongs to all of them, but not inside slices. -/
inductive HasType : GetVal → GetRet → Prop where
  | noContext (r : Rule) : HasType (.node none) (.ctx r)
  | context (r : Rule) (ks : List Tree) : HasType (.node (some (.node r ks))) (.ctx r)
  | contexts (r : Rule) (l : List (List Tree)) : HasType (.nodes (l.map fun ks => some (.node r ks))) (.ctxs r)
  | noTerminal : HasType (.node none) .term
  | terminal (t : Tok) : HasType (.node (some (.leaf t))) .term
  | terminals (l : List Tok) : HasType (.nodes (l.map fun t => some (.leaf t))) .terms

/-- The value shows exactly these nodes. -/
def GetVal.Shows (v : GetVal) (ts : List Tree) : Prop :=
  v = .nodes (ts.map some) ∨ ∃ t, ts = [t] ∧ v = .node (some t)

end Verif
