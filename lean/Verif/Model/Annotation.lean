import Verif.Model.Token
/-!
# ParseAnnotation

utils/annotation.go, with the part of Go's `regexp` it uses.
-/

namespace Verif

/-- The Perl-style expressions that utils/annotation.go:10 is made of.
Repetition is of single characters only. -/
inductive PRE where
  /-- One character of a class. -/
  | cls (p : Char → Bool)
  /-- `x*` (greedy) or `x*?`. -/
  | star (greedy : Bool) (p : Char → Bool)
  | seq (a b : PRE)
  | alt (a b : PRE)
  /-- A submatch. -/
  | cap (a : PRE)

/-- What can be left of the text after a repetition, preferred ones first. -/
def repeats (greedy : Bool) (p : Char → Bool) : Str → List Str
  | [] => [[]]
  | c :: s =>
    if p c then
      if greedy then repeats greedy p s ++ [c :: s] else (c :: s) :: repeats greedy p s
    else [c :: s]

/-- All ways to match a prefix of the text, in the order in which a
backtracking search tries them (Go: "leftmost-first", "the one that a
backtracking engine would have found first"): the submatches and what is left
of the text. -/
def PRE.run : PRE → Str → List (List Str × Str)
  | .cls _, [] => []
  | .cls p, c :: s => if p c then [([], s)] else []
  | .star g p, s => (repeats g p s).map fun r => ([], r)
  | .seq a b, s =>
      (a.run s).flatMap fun x => (b.run x.2).map fun y => (x.1 ++ y.1, y.2)
  | .alt a b, s => a.run s ++ b.run s
  | .cap a, s => (a.run s).map fun x => (s.take (s.length - x.2.length) :: x.1, x.2)

/-- The leftmost match: its submatches and the text after it. -/
def PRE.find (r : PRE) : Str → Option (List Str × Str)
  | [] => (r.run []).head?
  | c :: s => (r.run (c :: s)).head? <|> r.find s

/-- `FindAllStringSubmatch(s, -1)`: successive matches that do not overlap, for
an expression that does not match the empty text.  The first argument bounds
the number of matches. -/
def PRE.findAll (r : PRE) : Nat → Str → List (List Str)
  | 0, _ => []
  | n + 1, s =>
    match r.find s with
    | none => []
    | some (caps, rest) => caps :: r.findAll n rest

/-- `[a-zA-Z0-9_]` -/
def annWord (c : Char) : Bool :=
  (97 ≤ c.toNat && c.toNat ≤ 122) || (65 ≤ c.toNat && c.toNat ≤ 90) ||
  (48 ≤ c.toNat && c.toNat ≤ 57) || c = '_'
/-- `\s` in Go: `[\t\n\f\r ]` -/
def annSpace (c : Char) : Bool :=
  c = '\t' || c = '\n' || c.toNat = 12 || c = '\r' || c = ' '
/-- `\d` -/
def annDigit (c : Char) : Bool := 48 ≤ c.toNat && c.toNat ≤ 57
/-- `.` -/
def annDot (c : Char) : Bool := c != '\n'

/-- `x+` -/
def PRE.plus (p : Char → Bool) : PRE := .seq (.cls p) (.star true p)

/-- A character. -/
def PRE.ch (c : Char) : PRE := .cls (· = c)

/-- utils/annotation.go:10: ``([a-zA-Z0-9_]+)\s*=\s*(\d+|\'.*?\')`` -/
def annotationRegex : PRE :=
  .seq (.cap (.plus annWord)) (.seq (.star true annSpace) (.seq (.ch '=')
    (.seq (.star true annSpace)
      (.cap (.alt (.plus annDigit) (.seq (.ch '\'') (.seq (.star false annDot) (.ch '\''))))))))

/-- utils/annotation.go:17-20 -/
structure AnnotationAttribute where
  name : Str
  value : Str
  deriving DecidableEq, Repr

/-- utils/annotation.go:24-27 -/
structure Annotation where
  target : Str
  attributes : List AnnotationAttribute
  deriving DecidableEq, Repr

/-- What a call returns. -/
inductive AnnResult where
  | ok (a : Annotation)
  | error (msg : Str)
  /-- Index out of range. -/
  | panic
  deriving DecidableEq, Repr

/-- `len` of a string, in bytes. -/
def byteLen (s : Str) : Nat := (s.map Char.utf8Size).sum

/-- `strings.SplitN(s, "(", 2)` -/
def splitParen (s : Str) : List Str :=
  match s.dropWhile (· != '(') with
  | [] => [s]
  | _ :: r => [s.takeWhile (· != '('), r]

/-- utils/annotation.go:52-55: `match[1]`, `match[2]`. -/
def annAttr (m : List Str) : Option AnnotationAttribute :=
  match m[0]?, m[1]? with
  | some n, some v => some ⟨n, v⟩
  | _, _ => none

/-- utils/annotation.go:35-62.  The submatches of the model leave out the
whole match (`match[0]`), so `match[1]` is the first of them. -/
def parseAnnotation (input : Str) : AnnResult :=
  if byteLen input < 3 || !input.contains '(' || input.getLast? != some ')' then
    .error ("invalid annotation: ".toList ++ input)
  else
    match splitParen input with
    | [target, rest] =>
      -- `[:len-1]` of an empty string panics
      if rest.isEmpty then .panic
      else
        let attrs := rest.dropLast
        match (annotationRegex.findAll (attrs.length + 1) attrs).mapM annAttr with
        | none => .panic
        | some l => .ok ⟨target, l⟩
    | _ => .panic

end Verif
