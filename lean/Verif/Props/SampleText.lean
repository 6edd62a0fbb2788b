import Verif.Proof.ParseKF
import Verif.Props.Samples
/-!
# The sample text is accepted
-/

namespace Verif.Sample

set_option maxRecDepth 10000 in
theorem writes : Writes text prog := writes_lit _ rfl (by decide +kernel)

theorem prog_fault : prog.fault = none := by decide +kernel

theorem prog_valid : validate world.toEnv prog.denote = none := by decide +kernel

/-- `ParseKF` accepts the sample text. -/
theorem accepted (mode : Nat) : (parseKF world text none mode).err = none ∧
    (parseKF world text none mode).result = some prog.denote := by
  rw [writes.parseKF, prog_fault, prog_valid]
  simp [Outcome.err, ErrorList.isErr]

theorem accepts : Accepts world text prog.denote := accepted _

end Verif.Sample
