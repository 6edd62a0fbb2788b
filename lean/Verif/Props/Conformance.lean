import Verif.Model.ParseKF
import Verif.Model.Annotation
/-!
# The project's own test cases

The inputs and expected results of kfparser/parser_test.go and
utils/annotation_test.go, run in the model.  These are tests of the model, not
theorems about it: they check that the model and the code agree on the cases
for which the project states what the code does.  Generated from the test
files by script; the parsers of kwil-db are a table with the calls that occur
in these texts (they accept everything else as SQL).
-/

set_option maxRecDepth 100000

namespace Verif.Conformance

/-- The calls in the test cases. -/
def calls : List (Str × Parsed) :=
  [("$v=ext1.call(2,'3',$a,@caller,-2,1+-2,(1*2)+3,1<=2,1and$a,lower(@caller),upper(@caller));".toList, .extCall "ext1".toList [.other [], .other [], .bind "$a".toList "$a".toList, .bind "@caller".toList "@caller".toList, .other [], .other [], .other [], .other [], .other ["$a".toList], .other ["@caller".toList], .other ["@caller".toList]] ["$v".toList]),
   ("$v=ext1.call(@caller);".toList, .extCall "ext1".toList [.bind "@caller".toList "@caller".toList] ["$v".toList]),
   ("$v=ext1.call(@caller,'a','b');".toList, .extCall "ext1".toList [.bind "@caller".toList "@caller".toList, .other [], .other []] ["$v".toList]),
   ("$var1,$var1=erc.balanceOf($param);".toList, .extCall "erc".toList [.bind "$param".toList "$param".toList] ["$var1".toList, "$var1".toList]),
   ("$var1,$var1=token.balanceOf($param);".toList, .extCall "token".toList [.bind "$param".toList "$param".toList] ["$var1".toList, "$var1".toList]),
   ("$var1=token.balanceOf($nondefined);".toList, .extCall "token".toList [.bind "$nondefined".toList "$nondefined".toList] ["$var1".toList]),
   ("$var1=token.balanceOf(@nondefined);".toList, .extCall "token".toList [.bind "@nondefined".toList "@nondefined".toList] ["$var1".toList]),
   ("act1($nondefined);".toList, .actionCall "act1".toList [.bind "$nondefined".toList "$nondefined".toList]),
   ("act1();".toList, .actionCall "act1".toList []),
   ("act1(1);".toList, .actionCall "act1".toList [.other []]),
   ("act1(@caller,'a','b');".toList, .actionCall "act1".toList [.bind "@caller".toList "@caller".toList, .other [], .other []]),
   ("act1(@nondefined);".toList, .actionCall "act1".toList [.bind "@nondefined".toList "@nondefined".toList])]

def world : World where
  actParse := fun s => .ok ((calls.lookup s).getD .dml)
  sqlCheck := fun _ => none
  report := fun _ => ((1, 0, "mismatched input".toList), [])
  crash := fun _ => none

/-- Accepted, with this result. -/
def Gives (s : String) (want : Schema) : Prop :=
  parse world s.toList = ⟨some want, [], []⟩

instance (s : String) (want : Schema) : Decidable (Gives s want) := by unfold Gives; infer_instance

/-- Rejected, with an error for which `errors.Is` finds the sentinel. -/
def Fails (s : String) (k : Sent) : Prop :=
  (parse world s.toList).err.map (·.is k) = some true

instance (s : String) (k : Sent) : Decidable (Fails s k) := by unfold Fails; infer_instance

/-! To evaluate these, the kernel should not decode the literals. -/

theorem gives_of {s : String} {want : Schema} (l : List Char) (h : s = String.ofList l)
    (hl : parse world l = ⟨some want, [], []⟩) : Gives s want := by
  subst h; unfold Gives; rw [String.toList_ofList]; exact hl

theorem fails_of {s : String} {k : Sent} (l : List Char) (h : s = String.ofList l)
    (hl : (parse world l).err.map (·.is k) = some true) : Fails s k := by
  subst h; unfold Fails; rw [String.toList_ofList]; exact hl

end Verif.Conformance
