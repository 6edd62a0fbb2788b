import Verif.Model.Token
/-!
# Command lines

How a command line is written: a sequence of items, and possibly `--` and
further arguments that are not read as options.
-/

namespace Verif

/-- The options without a mandatory value. -/
inductive Switch where
  | trace | version | help
  deriving DecidableEq, Repr

def Switch.name : Switch → Str
  | .trace => "trace".toList
  | .version => "version".toList
  | .help => "help".toList

def Switch.letter : Switch → Char
  | .trace => 't'
  | .version => 'v'
  | .help => 'h'

/-- Words for truth values. -/
def BoolWord (v : Str) (b : Bool) : Prop :=
  v ∈ (if b then ["1", "t", "T", "TRUE", "true", "True"]
    else ["0", "f", "F", "FALSE", "false", "False"]).map String.toList

/-- The end of a group of option letters. -/
inductive GroupEnd where
  /-- no more than the letters: `-tv` -/
  | plain
  /-- a switch with a value: `-vt=false` -/
  | value (o : Switch) (v : Str) (b : Bool)
  /-- the output directory in the next word: `-to dir` -/
  | outNext (dir : Str)
  /-- in the same word: `-todir` -/
  | outJoined (dir : Str)
  /-- after an equals sign: `-to=dir` -/
  | outEq (dir : Str)
  /-- `-test.anything`, which is ignored -/
  | ignored (s : Str)

/-- What it adds to the word. -/
def GroupEnd.text : GroupEnd → Str
  | .plain => []
  | .value o v _ => o.letter :: '=' :: v
  | .outNext _ => "o".toList
  | .outJoined d => 'o' :: d
  | .outEq d => 'o' :: '=' :: d
  | .ignored s => "test.".toList ++ s

/-- The words after it that belong to it. -/
def GroupEnd.next : GroupEnd → List Str
  | .outNext d => [d]
  | _ => []

def GroupEnd.Ok : GroupEnd → Prop
  | .value _ v b => BoolWord v b
  | .outJoined d => d ≠ [] ∧ ¬ ∃ c s, d = '=' :: c :: s
  | .outEq d => d ≠ []
  | _ => True

/-- An item of a command line. -/
inductive Item where
  /-- an argument that is not an option -/
  | arg (s : Str)
  /-- `--trace` -/
  | long (o : Switch)
  /-- `--trace=false` -/
  | longValue (o : Switch) (v : Str) (b : Bool)
  /-- `--output dir` -/
  | outNext (dir : Str)
  /-- `--output=dir` -/
  | outEq (dir : Str)
  /-- a group of letters -/
  | group (os : List Switch) (e : GroupEnd)

def Item.words : Item → List Str
  | .arg s => [s]
  | .long o => ["--".toList ++ o.name]
  | .longValue o v _ => ["--".toList ++ o.name ++ "=".toList ++ v]
  | .outNext d => ["--output".toList, d]
  | .outEq d => ["--output=".toList ++ d]
  | .group os e => ("-".toList ++ os.map Switch.letter ++ e.text) :: e.next

def Item.Ok : Item → Prop
  | .arg s => s = "-".toList ∨ s.head? ≠ some '-'
  | .longValue _ v b => BoolWord v b
  | .group os e => e.Ok ∧ os.map Switch.letter ++ e.text ≠ []
  | _ => True

/-- What a command line says. -/
structure Request where
  trace : Bool
  version : Bool
  help : Bool
  output : Str
  args : List Str
  deriving DecidableEq, Repr

/-- Without any item. -/
def Request.start : Request := ⟨false, false, false, "./build".toList, []⟩

def Request.switch (r : Request) (o : Switch) (b : Bool) : Request :=
  match o with
  | .trace => { r with trace := b }
  | .version => { r with version := b }
  | .help => { r with help := b }

def GroupEnd.apply (r : Request) : GroupEnd → Request
  | .value o _ b => r.switch o b
  | .outNext d => { r with output := d }
  | .outJoined d => { r with output := d }
  | .outEq d => { r with output := d }
  | _ => r

/-- A later item replaces an earlier one; arguments are collected. -/
def Item.apply (r : Request) : Item → Request
  | .arg s => { r with args := r.args ++ [s] }
  | .long o => r.switch o true
  | .longValue o _ b => r.switch o b
  | .outNext d => { r with output := d }
  | .outEq d => { r with output := d }
  | .group os e => e.apply (os.foldl (fun r o => r.switch o true) r)

def tailWords : Option (List Str) → List Str
  | none => []
  | some t => "--".toList :: t

/-- `argv` is written with the items, and after `--` the arguments `tail`. -/
def WrittenAs (argv : List Str) (items : List Item) (tail : Option (List Str)) : Prop :=
  (∀ i ∈ items, i.Ok) ∧
  argv = items.flatMap Item.words ++ tailWords tail

/-- What the items say. -/
def requestOf (items : List Item) (tail : Option (List Str)) : Request :=
  let r := items.foldl Item.apply Request.start
  { r with args := r.args ++ tail.getD [] }

end Verif
