import Verif.Spec.Trace
import Verif.Props.Outcome
import Verif.Props.Samples
/-!
# C51: what trace mode prints
-/

namespace Verif

/-- What is printed about the error at the end. -/
theorem finish_printed {mode : Nat} (h : mode &&& 2 ≠ 0) (r : Option Schema) (l : ErrorList)
    (e : Option Entry) (tr : List Str) :
    (finish mode r l e tr).printed = tr ++ ["E  ".toList ++
      (match (finish mode r l e tr).err with
        | none => "<nil>".toList
        | some el => el.text.getD [])] := by
  have hb : (mode &&& modeTrace != 0) = true := by unfold modeTrace; simp [h]
  unfold finish
  rw [hb]
  simp only [Outcome.err]
  by_cases he : (l ++ e.toList).isErr = true
  · simp only [he, if_true]
  · simp only [if_neg he, if_true]

/-- C51. In trace mode (bit 2 of the mode), reading a text of the language with
a fresh listener prints the declarations as `Program.visits` lists them, and
then the error that is returned, or `<nil>`.  Nothing else is printed for other
texts or with a listener that already holds an error: only the error. -/
theorem C51_trace (w : World) (s : Str) (l : Option ErrorList) (mode : Nat) (h : mode &&& 2 ≠ 0) :
    let o := parseKF w s l mode
    let last := "E  ".toList ++
      (match o.err with
        | none => "<nil>".toList
        | some el => el.text.getD [])
    (∀ p, Writes s p → l.getD [] = [] → o.printed = p.visits ++ [last]) ∧
    ((¬ ∃ p, Writes s p) ∨ l.getD [] ≠ [] → o.printed = [last]) := by
  have hb : (mode &&& modeTrace != 0) = true := by unfold modeTrace; simp [h]
  refine ⟨?_, ?_⟩
  · intro p hp hl
    have ht : p.traceIn mode = p.visits := by unfold Program.traceIn; rw [hb]; rfl
    rw [hp.parseKF, hl]
    simp only [ErrorList.isErr, List.isEmpty_nil, Bool.not_true, Bool.false_eq_true, if_false, ht]
    cases p.fault with
    | some e => exact finish_printed h _ _ _ _
    | none =>
      cases validate w.toEnv p.denote with
      | none => exact finish_printed h _ _ _ _
      | some f => cases f <;> exact finish_printed h _ _ _ _
  · intro hc
    by_cases hw : ∃ p, Writes s p
    · obtain ⟨p, hp⟩ := hw
      have hl : l.getD [] ≠ [] := by
        rcases hc with hc | hc
        · exact absurd ⟨p, hp⟩ hc
        · exact hc
      have he : (l.getD []).isErr = true := by
        cases hq : l.getD [] with
        | nil => exact absurd hq hl
        | cons => rfl
      rw [hp.parseKF, if_pos he]
      exact finish_printed h _ _ _ _
    · rw [parseKF_bad hw]
      exact finish_printed h _ _ _ _

/-- A trace. -/
example : (parseKF Sample.world
      "database d; table t { x int notnull, #i index(x) } action a($p) public { hello($p); }".toList
      none 2).printed =
    ["visit tree: *kfgrammar.Source_unitContext, databased;tablet{xintnotnull,#iindex(x)}actiona($p)public{hello($p);}<EOF>".toList,
     "visit tree: *kfgrammar.Table_declContext, tablet{xintnotnull,#iindex(x)}".toList,
     "visit tree: *kfgrammar.Column_def_listContext, xintnotnull".toList,
     "visit tree: *kfgrammar.Column_defContext, xintnotnull".toList,
     "visit tree: *kfgrammar.Column_constraintContext, notnull".toList,
     "visit tree: *kfgrammar.Index_defContext, #iindex(x)".toList,
     "visit tree: *kfgrammar.Column_name_listContext, x".toList,
     "visit tree: *kfgrammar.Action_declContext, actiona($p)public{hello($p);}".toList,
     "visit tree: *kfgrammar.Param_listContext, $p".toList,
     "visit tree: *kfgrammar.Action_attr_listContext, public".toList,
     "visit tree: *kfgrammar.Action_stmt_listContext, hello($p);".toList,
     "visit tree: *kfgrammar.Action_stmtContext, hello($p);".toList,
     "E  cannot parse: hello($p);".toList] := by
  decide +kernel

/-- A complaint ends the trace; a text that is not in the language has none. -/
example :
    (parseKF Sample.world "database d; action a() view view { hello(); }".toList none 3).printed =
      ["visit tree: *kfgrammar.Source_unitContext, databased;actiona()viewview{hello();}<EOF>".toList,
       "visit tree: *kfgrammar.Action_declContext, actiona()viewview{hello();}".toList,
       "visit tree: *kfgrammar.Action_attr_listContext, viewview".toList,
       "E  action mutability already specified: view".toList] ∧
    (parseKF Sample.world "databse d;".toList none 3).printed =
      ["E  syntax error: line 1:0 mismatched input (with 1+ errors)".toList] := by
  decide +kernel

end Verif
