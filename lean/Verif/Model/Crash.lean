import Verif.Model.Cli
/-!
# Moments of a run of the command

The contents of the files at every moment of a run: between the system calls,
and during the write, which may have put any part of the data into the file
when the process is killed.  (Written data counts as being in the file: what
the system does when it loses power is not modelled.)  The last moment is the
state that `runMain` leaves (`mainMoments_last`, Verif/Props/Crash.lean).
-/

namespace Verif

/-- The file after the first `k` bytes have been written at its start. -/
def OS.writeSome (os : OS) (fs : Files) (p : Str) (d : List UInt8) (k : Nat) : Files :=
  fun i => if i = os.file p then some (d.take k ++ ((fs i).getD []).drop k) else fs i

/-- cmd/root.go:104-122 `writeToFile`: before and after `OpenFile`, and while
`Write` puts bytes into the file; `Close` changes nothing. -/
def writeMoments (os : OS) (fs : Files) (data : List UInt8) (p : Str) : List Files :=
  match os.openFile fs p with
  | .error _ => [fs]
  | .ok fs₁ => fs :: (List.range ((os.write p data).1 + 1)).map fun k => os.writeSome fs₁ p data k

/-- cmd/root.go:37-86: all files are as before until `writeToFile` is called.
(`MkdirAll` makes directories, not files.) -/
def runMoments (w : World) (short : Bool) (os : OS) (fs : Files)
    (showVersion trace : Bool) (outputDir : Str) (args : List Str) : List Files :=
  if showVersion then [fs]
  else match args with
    | [arg] =>
      match os.mkdirErr outputDir with
      | some _ => [fs]
      | none =>
        match os.readFile fs arg with
        | .error _ => [fs]
        | .ok data =>
          let o := parseKFBytes w data none (if trace then modeTrace else modeDefault)
          match o.err with
          | some _ => [fs]
          | none => writeMoments os fs (toJSONBytes short o.result) (outputPath outputDir arg)
    | _ => [fs]

/-- main.go:7-9, cmd/root.go:91-102 (see `runMain`). -/
def mainMoments (w : World) (short : Bool) (os : OS) (fs : Files) (argv : List Str) : List Files :=
  match readFlags argv with
  | .error _ => [fs]
  | .ok f =>
    if f.help then [fs]
    else runMoments w short os fs f.version false f.output f.args

end Verif
