import Verif.Model.Cli
/-!
# Several runs of the command
-/

namespace Verif

/-- Runs of the program (main.go:7-9), one after the other, each on the files
that the one before has left: the files at the end, and the exit codes.  A
build script that calls the command for each source file does this. -/
def runSeq (w : World) (short : Bool) (os : OS) : Files → List (List Str) → Files × List (Option Nat)
  | fs, [] => (fs, [])
  | fs, argv :: more =>
    let r := runMain w short os fs argv
    let q := runSeq w short os r.files more
    (q.1, r.exit :: q.2)

end Verif
