import Verif.Proof.GoComplete
/-!
# The generated code passes the checks
-/

namespace Verif

set_option Elab.async false

/-- Some of the rule functions pass the check (in parts, to keep memory low). -/
def chkRange (a n : Nat) : Bool := ((Rule.all.drop a).take n).all fun r => chk (goCode r) []

theorem goCode_chk0 : chkRange 0 8 = true := by decide +kernel
theorem goCode_chk1 : chkRange 8 8 = true := by decide +kernel
theorem goCode_chk2 : chkRange 16 8 = true := by decide +kernel
theorem goCode_chk3 : chkRange 24 8 = true := by decide +kernel
theorem goCode_chk4 : chkRange 32 8 = true := by decide +kernel
theorem goCode_chk5 : chkRange 40 20 = true := by decide +kernel

theorem chkRange_append (a n m : Nat) (h1 : chkRange a n = true) (h2 : chkRange (a + n) m = true) :
    chkRange a (n + m) = true := by
  unfold chkRange at *
  rw [List.take_add, List.all_append, h1, List.drop_drop, Bool.true_and]
  exact h2

/-- All rule functions pass the check. -/
theorem goCode_chk (r : Rule) : chk (goCode r) [] = true := by
  have h : chkRange 0 60 = true :=
    chkRange_append _ 8 52 goCode_chk0 (chkRange_append _ 8 44 goCode_chk1 (chkRange_append _ 8 36 goCode_chk2 (chkRange_append _ 8 28 goCode_chk3 (chkRange_append _ 8 20 goCode_chk4 (goCode_chk5)))))
  unfold chkRange at h
  rw [List.all_eq_true] at h
  exact h r (by cases r <;> decide)

end Verif
