import Verif.Model.Token
/-!
# File names

The functions of Go's `path/filepath` (Unix) that cmd/root.go uses; they are
not in the repository.  They look only at `/` and `.`, so that working on
characters instead of bytes makes no difference for names that are UTF-8.
-/

namespace Verif

/-- `filepath.Base` -/
def pathBase (p : Str) : Str :=
  if p = [] then ['.']
  else
    -- strip trailing slashes, then everything up to the last slash
    let b := ((p.reverse.dropWhile (· = '/')).takeWhile (· ≠ '/')).reverse
    if b = [] then ['/'] else b

/-- `filepath.Ext`: from the last dot in the last element. -/
def pathExt (p : Str) : Str :=
  let t := p.reverse.takeWhile (fun c => c ≠ '.' && c ≠ '/')
  match p.reverse.drop t.length with
  | '.' :: _ => '.' :: t.reverse
  | _ => []

/-- The pieces between slashes. -/
def splitSlash : Str → List Str
  | [] => [[]]
  | c :: s =>
    if c = '/' then [] :: splitSlash s
    else match splitSlash s with
      | [] => [[c]]
      | e :: es => (c :: e) :: es

/-- One element in `filepath.Clean`; `st` holds the elements written so far,
last first.  An element `..` removes the last one written unless that is `..`
itself. -/
def cleanStep (rooted : Bool) (st : List Str) (e : Str) : List Str :=
  if e = [] ∨ e = ['.'] then st
  else if e = ['.', '.'] then
    match st with
    | [] => if rooted then [] else [e]
    | x :: r => if x = ['.', '.'] then e :: st else r
  else e :: st

/-- `strings.Join(l, "/")` -/
def joinSlash : List Str → Str
  | [] => []
  | [e] => e
  | e :: es => e ++ '/' :: joinSlash es

/-- `filepath.Clean` -/
def pathClean (p : Str) : Str :=
  if p = [] then ['.']
  else
    let rooted := p.head? = some '/'
    let out := ((splitSlash p).foldl (cleanStep rooted) []).reverse
    if rooted then '/' :: joinSlash out
    else if out = [] then ['.'] else joinSlash out

/-- `filepath.Join` of two names. -/
def pathJoin (a b : Str) : Str :=
  if a ≠ [] then pathClean (joinSlash [a, b])
  else if b ≠ [] then pathClean b
  else []

end Verif
