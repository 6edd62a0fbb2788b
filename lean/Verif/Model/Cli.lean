import Verif.Model.Path
import Verif.Model.Json
import Verif.Model.Utf8
/-!
# The command

cmd/root.go and main.go, with the part of cobra 1.7.0 and pflag 1.0.5 that
reads the command line.
-/

namespace Verif

/-! ## The command line -/

/-- The values the flags of the command line are given (cmd/root.go:98-102 and
cobra's own `help`), and the other arguments. -/
structure Flags where
  trace : Bool := false
  version : Bool := false
  output : Str := "./build".toList
  help : Bool := false
  args : List Str := []
  deriving DecidableEq, Repr

/-- What reading the command line gives. -/
inductive FlagResult where
  | error (msg : Str)
  | ok (f : Flags)
  deriving DecidableEq, Repr

/-- `strconv.ParseBool` -/
def parseBool (v : Str) : Option Bool :=
  if v ∈ ["1", "t", "T", "TRUE", "true", "True"].map String.toList then some true
  else if v ∈ ["0", "f", "F", "FALSE", "false", "False"].map String.toList then some false
  else none

/-- The flags. -/
inductive FlagName where
  | trace | version | output | help
  deriving DecidableEq, Repr

/-- By name: cmd/root.go:99-101; `help` is defined by cobra. -/
def FlagName.long : Str → Option FlagName := fun n =>
  if n = "trace".toList then some .trace
  else if n = "version".toList then some .version
  else if n = "output".toList then some .output
  else if n = "help".toList then some .help
  else none

/-- By shorthand. -/
def FlagName.short (c : Char) : Option FlagName :=
  if c = 't' then some .trace
  else if c = 'v' then some .version
  else if c = 'o' then some .output
  else if c = 'h' then some .help
  else none

/-- Boolean flags need no value (pflag's `NoOptDefVal`). -/
def FlagName.isBool : FlagName → Bool
  | .output => false
  | _ => true

/-- pflag `FlagSet.Set` -/
def setFlag (f : Flags) (n : FlagName) (v : Str) : Option Flags :=
  match n with
  | .output => some { f with output := v }
  | .trace => (parseBool v).map fun b => { f with trace := b }
  | .version => (parseBool v).map fun b => { f with version := b }
  | .help => (parseBool v).map fun b => { f with help := b }

def badFlag (s : Str) : FlagResult := .error ("invalid argument for flag: ".toList ++ s)

/-- pflag `parseSingleShortArg`, repeated over the shorthands of one argument.
`rest` are the arguments after this one. -/
def shortFlags (f : Flags) : Str → List Str → Except Str (Flags × List Str)
  | [], rest => .ok (f, rest)
  | c :: s, rest =>
    if "test.".toList.isPrefixOf (c :: s) then .ok (f, rest)
    else match FlagName.short c with
      | none => .error ("unknown shorthand flag: ".toList ++ [c])
      | some n =>
        let set (v : Str) (k : Flags → Except Str (Flags × List Str)) :=
          match setFlag f n v with
          | some f' => k f'
          | none => .error ("invalid argument ".toList ++ v)
        match s with
        | '=' :: d :: v => set (d :: v) fun f' => .ok (f', rest)
        | _ =>
          if n.isBool then set "true".toList fun f' => shortFlags f' s rest
          else match s, rest with
            | _ :: _, _ => set s fun f' => .ok (f', rest)
            | [], v :: rest' => set v fun f' => .ok (f', rest')
            | [], [] => .error ("flag needs an argument: ".toList ++ [c])

/-- pflag `parseLongArg`, for `--` followed by `name`. -/
def longFlag (f : Flags) (name : Str) (rest : List Str) : Except Str (Flags × List Str) :=
  if name.head? = some '-' ∨ name.head? = some '=' then
    .error ("bad flag syntax: --".toList ++ name)
  else
    let key := name.takeWhile (· ≠ '=')
    match FlagName.long key with
    | none => .error ("unknown flag: --".toList ++ key)
    | some n =>
      let set (v : Str) (rest : List Str) : Except Str (Flags × List Str) :=
        match setFlag f n v with
        | some f' => .ok (f', rest)
        | none => .error ("invalid argument ".toList ++ v)
      match name.drop key.length with
      | _ :: v => set v rest
      | [] =>
        if n.isBool then set "true".toList rest
        else match rest with
          | v :: rest' => set v rest'
          | [] => .error ("flag needs an argument: --".toList ++ name)

/-- pflag `parseArgs`: at most `fuel` arguments are read (all of them: each
step removes one). -/
def parseArgs : Nat → Flags → List Str → FlagResult
  | 0, f, _ => .ok f
  | _, f, [] => .ok f
  | fuel + 1, f, s :: rest =>
    match s with
    | '-' :: '-' :: [] => .ok { f with args := f.args ++ rest }
    | '-' :: '-' :: name =>
        match longFlag f name rest with
        | .ok (f', rest') => parseArgs fuel f' rest'
        | .error m => .error m
    | '-' :: c :: s' =>
        match shortFlags f (c :: s') rest with
        | .ok (f', rest') => parseArgs fuel f' rest'
        | .error m => .error m
    | _ => parseArgs fuel { f with args := f.args ++ [s] } rest

/-- Reading of the command line (without the program name).  Simplifications:
the texts of the messages; the command `__complete` that cobra adds if it is
the first argument. -/
def readFlags (argv : List Str) : FlagResult := parseArgs argv.length {} argv

/-! ## The operating system -/

/-- What the operating system might do; the functions of `os` report errors by
their text.  `file` says which file a name stands for: different names may
stand for one file. -/
structure OS where
  file : Str → Nat
  mkdirErr : Str → Option Str
  readErr : Str → Option Str
  openErr : Str → Option Str
  /-- the number of bytes written, and the error -/
  write : Str → List UInt8 → Nat × Option Str
  closeErr : Str → Option Str
  /-- `os.File.Write`: at most all bytes are written, and all of them if there
  is no error -/
  write_le : ∀ p d, (write p d).1 ≤ d.length
  write_ok : ∀ p d, (write p d).2 = none → (write p d).1 = d.length

/-- Contents of the files that exist. -/
abbrev Files := Nat → Option (List UInt8)

/-- `os.ReadFile` -/
def OS.readFile (os : OS) (fs : Files) (p : Str) : Except Str (List UInt8) :=
  match os.readErr p with
  | some e => .error e
  | none =>
    match fs (os.file p) with
    | some d => .ok d
    | none => .error ("open ".toList ++ p ++ ": no such file or directory".toList)

/-- `os.OpenFile(p, os.O_CREATE|os.O_WRONLY, 0644)`: creates an empty file if
there is none, and keeps the content of one that exists (there is no
`O_TRUNC`). -/
def OS.openFile (os : OS) (fs : Files) (p : Str) : Except Str Files :=
  match os.openErr p with
  | some e => .error e
  | none => .ok fun i => if i = os.file p then some ((fs i).getD []) else fs i

/-- `f.Write(data)` at the start of the file: the first bytes are replaced. -/
def OS.writeFile (os : OS) (fs : Files) (p : Str) (d : List UInt8) : Files × Option Str :=
  let n := (os.write p d).1
  (fun i => if i = os.file p then some (d.take n ++ ((fs i).getD []).drop n) else fs i,
    (os.write p d).2)

/-! ## Run -/

/-- cmd/root.go:14-23 -/
def CodeOk : Nat := 0
def CodeFail : Nat := 1
def CodeNoInputFile : Nat := 2
def CodeErrMakeOutputDir : Nat := 3
def CodeErrReadFile : Nat := 4
def CodeErrParseFile : Nat := 5
def CodeErrSerialize : Nat := 6
def CodeErrWriteFile : Nat := 7

/-- What a run leaves: the exit code (`none`: the process does not exit by
itself, which would happen if an error text did not exist), the lines printed
by `cmd.Println` and `log.Fatal` (without the time stamp), those printed while
parsing, the directories that were asked for, the files, and the mode that was
passed to `ParseKF`. -/
structure Ran where
  exit : Option Nat
  out : List Str
  parsePrinted : List Str := []
  mkdirs : List Str := []
  files : Files
  mode : Option Nat := none

/-- How `writeToFile` ends. -/
inductive Wrote where
  | ret (err : Option Str)
  /-- `log.Fatal`, which exits with code 1 -/
  | fatal (err : Str)

/-- cmd/root.go:104-122 `writeToFile`.  The deferred function assigns the
result of `Close` to the named result, so that an error of `Write` is lost. -/
def writeToFile (os : OS) (fs : Files) (data : List UInt8) (p : Str) : Files × Wrote :=
  match os.openFile fs p with
  | .error e => (fs, .ret (some e))
  | .ok fs₁ =>
    let (fs₂, _) := os.writeFile fs₁ p data
    match os.closeErr p with
    | some e => (fs₂, .fatal e)
    | none => (fs₂, .ret none)

/-- The name of the output file: cmd/root.go:54-55 and 78. -/
def outputPath (outputDir arg : Str) : Str :=
  let base := pathBase arg
  let fileName := base.take (base.length - (pathExt base).length)
  pathJoin outputDir (fileName ++ ".json".toList)

/-- `db.ToJSON()` (schema/schema.go:151-153): `null` for a nil pointer. -/
def toJSONBytes (short : Bool) (s : Option Schema) : List UInt8 :=
  encode (match s with
    | some s => s.toJSON short
    | none => "null".toList)

/-- cmd/root.go:37-86, the `Run` function; `trace` is the package variable. -/
def runCmd (w : World) (short : Bool) (os : OS) (fs : Files)
    (showVersion trace : Bool) (outputDir : Str) (args : List Str) : Ran :=
  if showVersion then { exit := some CodeOk, out := ["unknown-version".toList], files := fs }
  else match args with
    | [arg] =>
      match os.mkdirErr outputDir with
      | some e => { exit := some CodeErrMakeOutputDir, out := [e], files := fs, mkdirs := [outputDir] }
      | none =>
        match os.readFile fs arg with
        | .error e =>
            { exit := some CodeErrReadFile, out := [e], files := fs, mkdirs := [outputDir] }
        | .ok data =>
          let mode := if trace then modeTrace else modeDefault
          let o := parseKFBytes w data none mode
          match o.err with
          | some l =>
              { exit := l.text.map fun _ => CodeErrParseFile, out := l.text.toList, files := fs,
                mkdirs := [outputDir], parsePrinted := o.printed, mode := some mode }
          | none =>
            -- ToJSON has no error: marshalIndent in Model/Json.lean
            let out := outputPath outputDir arg
            let (fs', r) := writeToFile os fs (toJSONBytes short o.result) out
            let ran : Ran := { exit := some CodeOk, out := [], files := fs', mkdirs := [outputDir],
                               parsePrinted := o.printed, mode := some mode }
            match r with
            | .fatal e => { ran with exit := some CodeFail, out := [e] }
            | .ret (some e) => { ran with exit := some CodeErrWriteFile, out := [e] }
            | .ret none =>
                { ran with out := ["Successfully parsed ".toList ++ arg ++ " to ".toList ++ out] }
    | _ =>
      { exit := some CodeNoInputFile, out := ["Please provide a file to parse".toList], files := fs }

/-- main.go:7-9, cmd/root.go:91-102.  The flags `version` and `output` are
bound to the variables `showVersion` and `outputDir`; `trace` is defined with
`BoolP`, which is not bound to the variable `trace`, so that this variable
keeps its zero value. -/
def runMain (w : World) (short : Bool) (os : OS) (fs : Files) (argv : List Str) : Ran :=
  match readFlags argv with
  | .error m => { exit := some CodeFail, out := ["Error: ".toList ++ m], files := fs }
  | .ok f =>
    if f.help then { exit := some CodeOk, out := ["usage".toList], files := fs }
    else runCmd w short os fs f.version false f.output f.args

end Verif
