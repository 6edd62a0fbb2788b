import Verif.Model.Atn
import Verif.Model.Grammar
/-!
# The grammar is the one of the serialized ATN
-/

namespace Verif

/-- A right-hand side without its lookahead tests, in terms of token and rule
numbers. -/
def G.toEx : G → Atn.Ex
  | .eps => .eps
  | .tok s => .sym false (s.map fun t => (t.code, t.code))
  | .call r k => .call r.code k
  | .pred k => .pred k
  | .seq a b => .seq a.toEx b.toEx
  | .alt _ a b => .alt a.toEx b.toEx
  | .star _ a => .star false a.toEx

namespace Atn

/-- A set of symbols as single symbols; actions are dropped (the only one is
the empty action -1 that ANTLR puts in front of the first alternative of a
left-recursive rule). -/
def Ex.norm : Ex → Ex
  | .sym neg rs => .sym neg (rs.flatMap fun r =>
      (List.range (r.2 + 1 - r.1)).map fun i => (r.1 + i, r.1 + i))
  | .seq (.act _) b => b.norm
  | .seq a b => .seq a.norm b.norm
  | .alt a b => .alt a.norm b.norm
  | .star l a => .star l a.norm
  | e => e

/-- Equality of expressions in which the symbols of a set may be listed in
any order. -/
def Ex.same : Ex → Ex → Bool
  | .eps, .eps => true
  | .sym n₁ a, .sym n₂ b => n₁ == n₂ && a.all b.contains && b.all a.contains
  | .call r k, .call r' k' => r == r' && k == k'
  | .pred k, .pred k' => k == k'
  | .seq a b, .seq c d => a.same c && b.same d
  | .alt a b, .alt c d => a.same c && b.same d
  | .star l a, .star l' b => l == l' && a.same b
  | _, _ => false

/-- Decoding the array in kfgrammar/kuneiform_parser.go gives the grammar. -/
theorem parser_atn :
    ((decode 1 parserData).bind T.exprs).map (fun es =>
      es.length == Rule.all.length &&
      (es.zip Rule.all).all fun p => p.1.norm.same (grammar p.2).toEx) = some true := by
  decide +kernel

/-- Rule and token numbers identify rules and tokens. -/
theorem codes : TT.all.map TT.code = List.range 85 ∧ Rule.all.map Rule.code = List.range 51 := by
  decide

end Atn

/-- The token types selected by a Go bit test
`(1 << (_la - base)) & mask != 0`. -/
def bits (base mask : Nat) : List TT :=
  TT.all.filter fun t => t != .EOF && decide (base ≤ t.code) && decide (t.code < base + 64) &&
    mask.testBit (t.code - base)

/-- The sets written as bit masks in kuneiform_parser.go are the ones used in
the grammar's decisions (lines 760, 2417, 2707, 3425, 3608, 4438, 6561, 7981,
8429, 8599, 8649, 8674, 8699). -/
theorem masks :
    bits 34 4398046511111 = [.TABLE_, .ACTION_, .INIT_, .BLOCK_VAR_OR_ANNOTATION] ∧
    bits 0 4486007441326080 = constraintFirst ∧
    bits 0 15393162788864 = [.INT_, .TEXT_, .BLOB_] ∧
    bits 0 7318349394477056 = [.PRIMARY_, .UNIQUE_, .INDEX_] ∧
    bits 60 31 = [.ACTION_DO_NO_ACTION_, .ACTION_DO_CASCADE_, .ACTION_DO_SET_NULL_,
        .ACTION_DO_SET_DEFAULT_, .ACTION_DO_RESTRICT_] ∧
    bits 0 2061584302080 = [.PUBLIC_, .PRIVATE_, .VIEW_, .OWNER_] ∧
    bits 73 133 = [.IDENTIFIER, .PARAM_OR_VAR, .SQL_STMT] ∧
    bits 0 286728 ++ bits 70 489 = exprFirst ∧
    bits 0 286720 = [.PLUS, .MINUS, .TILDE] ∧
    bits 0 229376 = [.STAR, .DIV, .MOD] ∧
    bits 0 15728640 = [.LT2, .GT2, .AMP, .PIPE] ∧
    bits 0 503316480 = [.LT, .LT_EQ, .GT, .GT_EQ] ∧
    bits 0 1627394048 = [.ASSIGN, .EQ, .SQL_NOT_EQ1, .SQL_NOT_EQ2] := by
  decide +kernel

end Verif
