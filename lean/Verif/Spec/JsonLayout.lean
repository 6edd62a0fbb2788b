import Verif.Spec.Json
/-!
# How JSON is laid out

As lines of text, two blanks of indentation for each level.
-/

namespace Verif

/-- Characters that have a two-letter form in strings, and that letter. -/
def shortForms (short : Bool) : List (Char × Char) :=
  [('"', '"'), ('\\', '\\'), ('\n', 'n'), ('\r', 'r'), ('\t', 't')] ++
    if short then [(Char.ofNat 8, 'b'), (Char.ofNat 12, 'f')] else []

/-- Characters that are written by their number: the other control characters,
the three that matter in HTML, and the two line separators. -/
def byNumber (c : Char) : Bool :=
  c.toNat < 32 || c ∈ ['<', '>', '&', Char.ofNat 0x2028, Char.ofNat 0x2029]

/-- A number as four hexadecimal digits, in lower case. -/
def fourDigits (n : Nat) : Str :=
  let ds := Nat.toDigits 16 n
  List.replicate (4 - ds.length) '0' ++ ds

/-- A character in a string. -/
def charText (short : Bool) (c : Char) : Str :=
  match (shortForms short).lookup c with
  | some l => ['\\', l]
  | none => if byNumber c then "\\u".toList ++ fourDigits c.toNat else [c]

/-- A string. -/
def stringText (short : Bool) (s : Str) : Str :=
  "\"".toList ++ (s.map (charText short)).flatten ++ "\"".toList

/-- One level of indentation. -/
def indented (l : Str) : Str := "  ".toList ++ l

/-- A comma after the last line. -/
def withComma : List Str → List Str
  | [] => []
  | [l] => [l ++ ",".toList]
  | l :: ls => l :: withComma ls

/-- Items on lines of their own, with commas between them. -/
def itemLines : List (List Str) → List Str
  | [] => []
  | [i] => i.map indented
  | i :: is => (withComma i).map indented ++ itemLines is

/-- Words before the first line. -/
def labelled (label : Str) : List Str → List Str
  | [] => []
  | l :: ls => (label ++ l) :: ls

mutual
/-- The lines of a value. -/
def J.lines (short : Bool) : J → List Str
  | .null => ["null".toList]
  | .bool b => [if b then "true".toList else "false".toList]
  | .num t => [t]
  | .str s => [stringText short s]
  | .arr l =>
    if l.isEmpty then ["[]".toList]
    else ["[".toList] ++ itemLines (J.linesOfItems short l) ++ ["]".toList]
  | .obj fs =>
    if fs.isEmpty then ["{}".toList]
    else ["{".toList] ++ itemLines (J.linesOfMembers short fs) ++ ["}".toList]
def J.linesOfItems (short : Bool) : List J → List (List Str)
  | [] => []
  | x :: xs => x.lines short :: J.linesOfItems short xs
def J.linesOfMembers (short : Bool) : List (Str × J) → List (List Str)
  | [] => []
  | (k, x) :: xs => labelled (stringText short k ++ ": ".toList) (x.lines short) ::
      J.linesOfMembers short xs
end

/-- The text of lines: line breaks between them, none at the end. -/
def textOfLines (ls : List Str) : Str := List.intercalate "\n".toList ls

end Verif
