import Verif.Proof.ContextSpec
import Verif.Proof.DispatchVisit
import Verif.Proof.Trace
import Verif.Proof.ParseKF
import Verif.Props.SampleText
/-!
# C72: the methods of parse tree nodes, and `Visit`
-/

namespace Verif

/-- A method name has one meaning. -/
theorem C72_names {ks : List Tree} {name : Str} {indexed : Bool} {k : Int} {v v' : GetVal}
    (h : Expects ks name indexed k v) (h' : Expects ks name indexed k v') : v = v' := expects_unique h h'

/-- C72, getters. Every method of every context type that looks up children
returns, for any children and any argument (also negative or too large ones),
what its name says, a value of its result type, and never panics. -/
theorem C72_getters (r : Rule) (g : Getter) (hg : g ∈ getters r) (ks : List Tree) (k : Int) :
    ∃ v, callGetter g.sig.name k (.node r ks) = .ok v ∧
      Expects ks g.sig.name g.sig.indexed k v ∧ HasType v g.sig.ret := by
  rw [call_own hg]
  exact getter_run (getters_fit r (rule_mem r) g hg) ks k

/-- C72, completeness. In the trees of the parser no child is out of reach: the
children of any kind that a node has are exactly what one of its methods
returns.  (For argument expressions see `C72_expressions`.) -/
theorem C72_nothing_hidden (r : Rule) (hr : r ≠ .fn_arg_expr) (p : Nat) (ts : List Tok) (ks : List Tree)
    (h : Gen (.call r p) ts [.node r ks]) (c : Tree) (hc : c ∈ ks) :
    ∃ g ∈ getters r, ∃ v, callGetter g.sig.name 0 (.node r ks) = .ok v ∧ v.Shows (c.kind.among ks) := by
  generalize hl : [Tree.node r ks] = l at h
  cases h with
  | @call _ _ _ ks' h =>
    unfold mkNode at hl
    rw [if_neg hr] at hl
    injection hl with hl _
    injection hl with _ hl
    subst hl
    exact shows_all (shown_table r (rule_mem r) hr) (most_bound h) hc

/-- C72, completeness, for argument expressions, whose nodes `ExprNode`
describes. -/
theorem C72_expressions (ks : List Tree) (h : ExprNode ks) (c : Tree) (hc : c ∈ ks) :
    ∃ g ∈ getters .fn_arg_expr, ∃ v, callGetter g.sig.name 0 (.node .fn_arg_expr ks) = .ok v ∧
      v.Shows (c.kind.among ks) := expr_shown h hc

/-- C72, types. A node satisfies the Go interface of a rule exactly if it is a
node of that rule, so that type tests on nodes never confuse rules, even those
with the same children; and the context type, the rule index, the interface
marker, the `Visit` method that `Accept` calls and the parameter of that method
in the visitor interface and in the base visitor belong to the same rule. -/
theorem C72_types (r : Rule) :
    (∀ t : Tree, t.implements r = true ↔ ∃ ks, t = .node r ks) ∧
    newContext r = (r, r) ∧ ruleFunction r = (r, r) ∧ markerOf r = r ∧ acceptTarget r = r ∧
    visitorParam r = r ∧ baseParam r = r := by
  refine ⟨fun t => ?_, newContext_eq r, ?_, ?_, ?_, ?_, ?_⟩
  · rw [implements_eq]
    cases t with
    | leaf t => simp [Tree.isRule]
    | node r' ks =>
      constructor
      · intro h
        exact ⟨ks, by rw [show r = r' by simpa [Tree.isRule] using h]⟩
      · rintro ⟨ls, h⟩
        injection h with h _
        subst h
        exact beq_self_eq_true _
  all_goals cases r <;> rfl

/-- C72, `Visit`. On the tree of any text of the language `KFVisitor.Visit`,
which finds its methods at run time and asserts the types of what they return,
prints the trace of the text if asked to, and returns its schema, or the error
of the rule that it breaks.  No type assertion fails, no nil is used, and no
more than five calls of `Visit` are inside each other. -/
theorem C72_visit (s : Str) (p : Program) (hp : Writes s p) (trace : Bool) (n : Nat) :
    ∃ tree, syntaxTree s = some tree ∧
      visitNode trace (n + 5) (some tree) =
        ⟨if trace then p.visits else [],
         match p.fault with
         | none => .ok (.schema p.denote)
         | some e => .error (.err e)⟩ := by
  refine ⟨p.tree, hp.tree, ?_⟩
  have h := source_eq trace n
    ([.node .database_directive [kl .DATABASE_, nameTree .database_name p.name], kl .SCOL] ++
     p.exts.map ExtDecl.tree ++ p.decls.map Decl.tree ++ [kl .EOF])
  rw [show visitNode trace (n + 5) (some p.tree) = _ from h]
  show (tVisitSource trace p.tree >>= fun s => pure (Val.schema s)) = _
  have h2 : (tVisitSource trace p.tree).2 = _ := (traced_result trace p.tree).trans hp.visit
  have h1 : (tVisitSource trace p.tree).1 = if trace then p.visits else [] := by
    cases trace with
    | false => exact untraced p.tree
    | true => exact traced_program p (program_clean p hp.lexemes)
  cases hx : tVisitSource trace p.tree with
  | mk w x =>
    rw [hx] at h1 h2
    simp only at h1 h2
    subst h1 h2
    cases p.fault with
    | none => exact congrArg (fun l => (⟨l, _⟩ : TM Val)) (List.append_nil _)
    | some e => rfl

/-- C72, dispatch. The same for any tree with the root of a file, also one
that no text has (the tree that error recovery leaves, for example): what
`Visit` prints and returns does not depend on its being found at run time. -/
theorem C72_dispatch (ks : List Tree) (trace : Bool) (n : Nat) :
    visitNode trace (n + 5) (some (.node .source_unit ks)) =
      Val.schema <$> tVisitSource trace (.node .source_unit ks) := source_eq trace n ks

/-! ## Cases -/

/-- The methods are there: 213 of them. -/
example : (Rule.all.map fun r => (getters r).length).sum = 213 := by decide +kernel

/-- A table declaration with three children; its methods. -/
def Sample.kids : List Tree :=
  [.leaf ⟨.COMMA, ",".toList⟩, .node .column_def [.leaf ⟨.IDENTIFIER, "a".toList⟩], .leaf ⟨.COMMA, ",".toList⟩,
   .node .column_def [.leaf ⟨.IDENTIFIER, "b".toList⟩]]

example : Expects Sample.kids "Column_def".toList true 1
    (.node (some (.node .column_def [.leaf ⟨.IDENTIFIER, "b".toList⟩]))) := .item (.rule .column_def) 1
example : Expects Sample.kids "Column_def".toList true (-1) (.node none) := .outside (.rule .column_def) _ (by decide)
example : Expects Sample.kids "AllCOMMA".toList false 0
    (.nodes [some (.leaf ⟨.COMMA, ",".toList⟩), some (.leaf ⟨.COMMA, ",".toList⟩)]) := .every (.token .COMMA) 0
example : ∃ g ∈ getters .column_def_list, g.sig.name = "AllColumn_def".toList ∧ g.sig.indexed = false :=
  ⟨_, .head _, rfl, rfl⟩

/-- A node that the parser builds. -/
example : Gen (.call .ext_config_list 0) [⟨.IDENTIFIER, "a".toList⟩, ⟨.COL, ":".toList⟩, ⟨.STRING_LITERAL, "'x'".toList⟩]
    [.node .ext_config_list [.node .ext_config [.node .ext_config_name [.leaf ⟨.IDENTIFIER, "a".toList⟩],
      .leaf ⟨.COL, ":".toList⟩, .node .ext_config_value [.node .literal_value [.leaf ⟨.STRING_LITERAL, "'x'".toList⟩]]]]] := by
  have h1 : Gen (.call .ext_config_name 0) [⟨.IDENTIFIER, "a".toList⟩]
      [.node .ext_config_name [.leaf ⟨.IDENTIFIER, "a".toList⟩]] :=
    Gen.call (r := .ext_config_name) (Gen.tok (s := [.IDENTIFIER]) (by decide))
  have h2 : Gen (.call .literal_value 0) [⟨.STRING_LITERAL, "'x'".toList⟩]
      [.node .literal_value [.leaf ⟨.STRING_LITERAL, "'x'".toList⟩]] :=
    Gen.call (r := .literal_value) (Gen.tok (s := [.UNSIGNED_NUMBER_LITERAL, .STRING_LITERAL]) (by decide))
  have h3 := Gen.call (r := .ext_config_value) (k := 0) h2
  have h4 : Gen (.tok [.COL]) [⟨.COL, ":".toList⟩] [.leaf ⟨.COL, ":".toList⟩] := Gen.tok (by decide)
  exact Gen.call (r := .ext_config_list) (.seq (Gen.call (r := .ext_config) (.seq h1 (.seq h4 h3))) .starNil)

/-- `$a + $b`, with the two operands as contexts. -/
example : ∃ a b, ExprNode [.node .fn_arg_expr [a], .leaf ⟨.PLUS, "+".toList⟩, .node .fn_arg_expr [b]] := by
  have hv (x : String) : Gen operand [⟨.PARAM_OR_VAR, x.toList⟩]
      [.node .variable [.leaf ⟨.PARAM_OR_VAR, x.toList⟩]] :=
    .altR (.altL (Gen.call (r := .variable) (Gen.tok (s := [.PARAM_OR_VAR]) (List.mem_singleton.2 rfl))))
  have he : Gen (.call .fn_arg_expr 9) [⟨.PARAM_OR_VAR, "$b".toList⟩]
      [.node .fn_arg_expr [.leaf ⟨.PARAM_OR_VAR, "$b".toList⟩]] :=
    Gen.call (r := .fn_arg_expr) (.seq (hv "$b") .starNil)
  exact ⟨_, _, .binary (.operand (hv "$a"))
    (show Gen (opAlts opTable) _ _ from
      .altR (.altR (.altL (.seq .pred (.seq (Gen.tok (s := [.PLUS, .MINUS]) (t := ⟨.PLUS, "+".toList⟩) (by decide)) he)))))⟩

/-- A text of the language. -/
example : ∃ tree, syntaxTree Sample.text = some tree ∧
    visitNode false 5 (some tree) = ⟨[], .ok (.schema Sample.prog.denote)⟩ := by
  obtain ⟨tree, h, hv⟩ := C72_visit Sample.text Sample.prog Sample.writes false 0
  exact ⟨tree, h, hv⟩

end Verif
