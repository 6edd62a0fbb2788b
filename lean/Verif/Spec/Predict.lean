import Verif.Model.GoParser
/-!
# What is assumed of `AdaptivePredict`

`AdaptivePredict` (ANTLR's ALL(*) prediction) is not part of the repository.
Its contract is stated in terms of the ATN that the generated code hands to it
and of the arguments of the call, not in terms of the generated code or of the
grammar.
-/

namespace Verif

/-- `a.Path lead s stack ts`: starting in state `s`, inside the rule calls
`stack` (the states they were made from, innermost first), the ATN can consume
exactly the tokens `ts` and come to the end of the outermost rule.  If `lead`
is `some p`, precedence predicates met before the first token or rule call
must hold in a rule invoked with precedence `p`; all others count as true. -/
inductive Atn.T.Path (a : Atn.T) : Option Nat → Nat → List Nat → List Tok → Prop where
  | stop {lead : Option Nat} {s : Nat} : (a.st s).ty = 7 → Path a lead s [] []
  | ret {lead : Option Nat} {s i : Nat} {stack : List Nat} {ts : List Tok} :
      (a.st s).ty = 7 → Path a none (a.follow i) stack ts → Path a lead s (i :: stack) ts
  | silent {lead : Option Nat} {s : Nat} {e : Atn.Edge} {stack : List Nat} {ts : List Tok} :
      e ∈ a.out s → e.silent = true → Path a lead e.trg stack ts → Path a lead s stack ts
  | pred {lead : Option Nat} {s : Nat} {e : Atn.Edge} {stack : List Nat} {ts : List Tok} :
      e ∈ a.out s → e.ty = 10 → (∀ p, lead = some p → p ≤ e.a1) →
      Path a lead e.trg stack ts → Path a lead s stack ts
  | call {lead : Option Nat} {s : Nat} {e : Atn.Edge} {stack : List Nat} {ts : List Tok} :
      a.ruleEdge s = some e → Path a none e.a1 (s :: stack) ts → Path a lead s stack ts
  | token {lead : Option Nat} {s : Nat} {e : Atn.Edge} {stack : List Nat} {t : Tok}
      {ts : List Tok} : e ∈ a.out s → a.eats e t.ty = true →
      Path a none e.trg stack ts → Path a lead s stack (t :: ts)

/-- The alternatives of decision `d`: the transitions of its state. -/
def Atn.T.choices (a : Atn.T) (d : Nat) : List Atn.Edge := a.out (a.decisions.getD d 0)

/-- Alternative `i` (from 1) of decision `d` can consume the remaining
tokens. -/
def Viable (d p : Nat) (ctx : List Nat) (ts : List Tok) (i : Nat) : Prop :=
  ∃ e, 0 < i ∧ (parserAtn.choices d)[i - 1]? = some e ∧
    parserAtn.Path (some p) e.trg ctx ts

/-- `a.Chain r ctx`: rule number `r` can be running after rule calls from the
states `ctx` (innermost first), beginning with rule 0 (`source_unit`). -/
inductive Atn.T.Chain (a : Atn.T) : Nat → List Nat → Prop where
  | start : Chain a 0 []
  | call {i : Nat} {e : Atn.Edge} {ctx : List Nat} :
      a.ruleEdge i = some e → Chain a (a.st i).rule ctx → Chain a e.a2 (i :: ctx)

/-- The rule that decision `d` belongs to. -/
def Atn.T.ruleOf (a : Atn.T) (d : Nat) : Nat := (a.st (a.decisions.getD d 0)).rule

/-- The decisions for which the generated code calls `AdaptivePredict`
(kfgrammar/kuneiform_parser.go:2167 and 2211, 2575 and 2600, 7726, 8563, 8547
and 8765). -/
def asked : List Nat := [7, 10, 24, 30, 31]

/-- The binary operators of call arguments: alternative of decision 30 and
precedence (kfgrammar/kuneiform_parser.go:8563-8750). -/
def opLevel (t : TT) : Option (Nat × Nat) :=
  match t with
  | .PIPE2 => some (1, 10)
  | .STAR | .DIV | .MOD => some (2, 9)
  | .PLUS | .MINUS => some (3, 8)
  | .LT2 | .GT2 | .AMP | .PIPE => some (4, 7)
  | .LT | .LT_EQ | .GT | .GT_EQ => some (5, 6)
  | .ASSIGN | .EQ | .SQL_NOT_EQ1 | .SQL_NOT_EQ2 => some (6, 5)
  | .AND_ => some (7, 3)
  | .OR_ => some (8, 2)
  | _ => none

/-- The choice for decision `d` in a rule invoked with precedence `p`, when the
next two tokens are `t` and `u`; 0 stands for an error.

* 7, after the columns of a table: 1 for a comma and an index or foreign key,
  2 for the end of the table, with or without a last comma;
* 10, after a column: 1 for a comma and another column, 2 otherwise;
* 24, the name of a function to call: 1 for a method of an extension
  (`name.method`), 2 for a plain name;
* 30, the operator of an argument: its level, if that binds tightly enough;
* 31, after an operand: 1 if such an operator follows, 2 otherwise. -/
def byTwo (d p : Nat) (t u : TT) : Nat :=
  match d with
  | 7 =>
    match t with
    | .R_BRACE => 2
    | .COMMA =>
      match u with
      | .INDEX_NAME | .FOREIGN_KEY_ | .FOREIGN_KEY_ABBR_ => 1
      | .R_BRACE => 2
      | _ => 0
    | _ => 0
  | 10 => if t = .COMMA ∧ u = .IDENTIFIER then 1 else 2
  | 24 => if t = .IDENTIFIER then (if u = .PERIOD then 1 else 2) else 0
  | 30 =>
    match opLevel t with
    | some (i, k) => if p ≤ k then i else 0
    | none => 0
  | _ =>
    match opLevel t with
    | some (_, k) => if p ≤ k then 1 else 2
    | none => 2

/-- How many tokens decision `d` passes before it is decided: with the first
token, or with the second one. -/
def passed (d : Nat) (t : TT) : Nat :=
  match d with
  | 7 => if t = .COMMA then 1 else 0
  | 10 => if t = .COMMA then 1 else 0
  | 24 => if t = .IDENTIFIER then 1 else 0
  | _ => 0

/-- The answers are numbers of alternatives (or 0). -/
def Runtime.InRange (rt : Runtime) : Prop :=
  ∀ d ∈ asked, ∀ p ctx ts, rt.predict d p ctx ts ≤ (parserAtn.choices d).length

/-- A contract that is much weaker than what ALL(*) prediction promises: if an
alternative can consume the remaining tokens, and no alternative before it can
consume any tokens that start with the same two, from whatever states the rule
was called, then the answer is that alternative.  (Otherwise the answer can be
anything.) -/
def Runtime.TwoTokens (rt : Runtime) : Prop :=
  rt.InRange ∧ ∀ d ∈ asked, ∀ p ctx ts i, Viable d p ctx ts i →
    (∀ j, j < i → ∀ ctx' ts', (ts'.take 2).map (·.ty) = (ts.take 2).map (·.ty) →
      ¬ Viable d p ctx' ts' j) →
    rt.predict d p ctx ts = i

/-- The contract of ALL(*) prediction: if some alternative can consume the
remaining tokens, the answer is the first such alternative.  (If there is
none, the answer can be anything.) -/
def Runtime.AllStar (rt : Runtime) : Prop :=
  rt.InRange ∧ ∀ d ∈ asked, ∀ p ctx ts i, Viable d p ctx ts i →
    (∀ j, Viable d p ctx ts j → i ≤ j) → rt.predict d p ctx ts = i

/-- The weak contract is part of the strong one. -/
theorem Runtime.AllStar.twoTokens {rt : Runtime} (h : rt.AllStar) : rt.TwoTokens := by
  refine ⟨h.1, fun d hd p ctx ts i hv hl => h.2 d hd p ctx ts i hv fun j hj => ?_⟩
  exact Nat.le_of_not_lt fun hlt => hl j hlt ctx ts rfl hj

end Verif
