import Verif.Model.Schema
/-!
# JSON output

schema/schema.go:140-189 (`ToJSON`, `astMarshal`) and what it uses of
`encoding/json`: `MarshalIndent(v, "", "  ")` is `Marshal`, which writes
compact JSON with HTML escaping, followed by `Indent`, which inserts newlines
and blanks into the compact text.
-/

namespace Verif

/-- JSON values; object members in the order they are written. -/
inductive J where
  | null
  | bool (b : Bool)
  | num (text : Str)
  | str (s : Str)
  | arr (l : List J)
  | obj (fs : List (Str × J))
  deriving Repr, Inhabited

/-! ## Encoding of schema values

The struct tags of schema/schema.go:5-108: a field with `omitempty` is left
out if the slice has no elements, the string is empty or the interface is nil;
a nil slice in another field is `null`. -/

/-- A slice without `omitempty`. -/
def Slice.toJ {α : Type} (f : α → J) : Slice α → J
  | none => .null
  | some l => .arr (l.map f)

/-- A slice with `omitempty`. -/
def Slice.member {α : Type} (key : String) (f : α → J) (s : Slice α) : List (Str × J) :=
  if s.elems.isEmpty then [] else [(key.toList, s.toJ f)]

/-- A string member. -/
def strMember (key : String) (s : Str) : Str × J := (key.toList, .str s)

/-- schema/schema.go:13-16 -/
def ExtConfig.toJ (c : ExtConfig) : J :=
  .obj [strMember "argument" c.argument, strMember "value" c.value]

/-- schema/schema.go:18-22 -/
def Extension.toJ (e : Extension) : J :=
  .obj [strMember "name" e.name, ("config".toList, e.config.toJ ExtConfig.toJ),
    strMember "alias" e.alias]

/-- schema/schema.go:37-40 -/
def Attribute.toJ (a : Attribute) : J :=
  .obj (strMember "type" a.type ::
    match a.value with
    | none => []
    | some v => [strMember "value" v])

/-- schema/schema.go:31-35 -/
def Column.toJ (c : Column) : J :=
  .obj ([strMember "name" c.name, strMember "type" c.type] ++
    c.attributes.member "attributes" Attribute.toJ)

/-- schema/schema.go:42-46 -/
def Index.toJ (i : Index) : J :=
  .obj ([strMember "name" i.name, ("columns".toList, i.columns.toJ .str)] ++
    if i.type.isEmpty then [] else [strMember "type" i.type])

/-- schema/schema.go:71-77 -/
def FKAction.toJ (a : FKAction) : J := .obj [strMember "on" a.on, strMember "do" a.doo]

/-- schema/schema.go:48-67 -/
def ForeignKey.toJ (f : ForeignKey) : J :=
  .obj [("child_keys".toList, f.childKeys.toJ .str), ("parent_keys".toList, f.parentKeys.toJ .str),
    strMember "parent_table" f.parentTable, ("actions".toList, f.actions.toJ FKAction.toJ)]

/-- schema/schema.go:24-29 -/
def Table.toJ (t : Table) : J :=
  .obj (strMember "name" t.name :: t.columns.member "columns" Column.toJ ++
    t.indexes.member "indexes" Index.toJ ++ t.foreignKeys.member "foreign_keys" ForeignKey.toJ)

/-- schema/schema.go:80-108 -/
def Action.toJ (a : Action) : J :=
  .obj (strMember "name" a.name :: a.annotations.member "annotations" .str ++
    [("inputs".toList, a.inputs.toJ .str), ("public".toList, .bool a.pub),
      strMember "mutability" a.mutability, ("auxiliaries".toList, a.auxiliaries.toJ .str)] ++
    a.statements.member "statements" .str)

/-- schema/schema.go:5-11 -/
def Schema.toJ (s : Schema) : J :=
  .obj ([strMember "owner" s.owner, strMember "name" s.name] ++
    s.tables.member "tables" Table.toJ ++ s.actions.member "actions" Action.toJ ++
    s.extensions.member "extensions" Extension.toJ)

/-! ## `Marshal` -/

/-- `const hex = "0123456789abcdef"` -/
def hexDigit (n : Nat) : Char := "0123456789abcdef".toList.getD n '0'

/-- Four hexadecimal digits. -/
def hex4 (n : Nat) : Str :=
  [hexDigit (n / 4096 % 16), hexDigit (n / 256 % 16), hexDigit (n / 16 % 16), hexDigit (n % 16)]

/-- encoding/json `appendString` with HTML escaping, on the runes of the
string.  Go 1.22 and later have short forms for backspace and form feed
(`short`).  A byte that is not UTF-8 would be written `\ufffd`; the strings of
the model have none. -/
def escChar (short : Bool) (c : Char) : Str :=
  if c = '"' then ['\\', '"']
  else if c = '\\' then ['\\', '\\']
  else if c = '\n' then ['\\', 'n']
  else if c = '\r' then ['\\', 'r']
  else if c = '\t' then ['\\', 't']
  else if short && c.toNat = 8 then ['\\', 'b']
  else if short && c.toNat = 12 then ['\\', 'f']
  else if c.toNat < 32 || c = '<' || c = '>' || c = '&' || c.toNat = 0x2028 || c.toNat = 0x2029 then
    ['\\', 'u'] ++ hex4 c.toNat
  else [c]

/-- A JSON string. -/
def quote (short : Bool) (s : Str) : Str := '"' :: (s.flatMap (escChar short) ++ ['"'])

mutual
/-- Compact JSON. -/
def J.compact (short : Bool) : J → Str
  | .null => "null".toList
  | .bool true => "true".toList
  | .bool false => "false".toList
  | .num t => t
  | .str s => quote short s
  | .arr [] => ['[', ']']
  | .arr (x :: xs) => '[' :: (x.compact short ++ J.compactRest short xs ++ [']'])
  | .obj [] => ['{', '}']
  | .obj ((k, x) :: xs) =>
      '{' :: (quote short k ++ ':' :: x.compact short ++ J.compactMembers short xs ++ ['}'])
/-- Further elements. -/
def J.compactRest (short : Bool) : List J → Str
  | [] => []
  | x :: xs => ',' :: (x.compact short ++ J.compactRest short xs)
/-- Further members. -/
def J.compactMembers (short : Bool) : List (Str × J) → Str
  | [] => []
  | (k, x) :: xs => ',' :: (quote short k ++ ':' :: x.compact short ++ J.compactMembers short xs)
end

/-! ## `Indent` -/

/-- The state of encoding/json `appendIndent` with prefix `""` and indent two
blanks: inside a string, after a backslash there, `needIndent`, `depth`. -/
structure Ind where
  inStr : Bool := false
  esc : Bool := false
  need : Bool := false
  depth : Nat := 0

/-- `appendNewline` -/
def newline (depth : Nat) : Str := '\n' :: List.replicate (2 * depth) ' '

/-- One byte of the compact text. -/
def Ind.step (st : Ind) (c : Char) : Ind × Str :=
  if st.inStr then
    if st.esc then ({ st with esc := false }, [c])
    else if c = '\\' then ({ st with esc := true }, [c])
    else if c = '"' then ({ st with inStr := false }, [c])
    else (st, [c])
  else if c = ' ' || c = '\t' || c = '\n' || c = '\r' then (st, [])
  else
    -- the delayed newline after an opening bracket
    let early := st.need && c != '}' && c != ']'
    let pre := if early then newline (st.depth + 1) else []
    let st := if early then { st with need := false, depth := st.depth + 1 } else st
    if c = '{' || c = '[' then ({ st with need := true }, pre ++ [c])
    else if c = ',' then (st, pre ++ c :: newline st.depth)
    else if c = ':' then (st, pre ++ [c, ' '])
    else if c = '}' || c = ']' then
      if st.need then ({ st with need := false }, pre ++ [c])
      else ({ st with depth := st.depth - 1 }, pre ++ newline (st.depth - 1) ++ [c])
    else if c = '"' then ({ st with inStr := true }, pre ++ [c])
    else (st, pre ++ [c])

/-- The whole text. -/
def Ind.run (st : Ind) : Str → Str
  | [] => []
  | c :: s => (st.step c).2 ++ (st.step c).1.run s

/-- schema/schema.go:183-189 `astMarshal`, which is `json.MarshalIndent(v, "", "  ")`:
never an error, since the encoded values are strings, booleans, slices and
structs. -/
def marshalIndent (short : Bool) (j : J) : Str := ({} : Ind).run (j.compact short)

/-- schema/schema.go:151-153 -/
def Schema.toJSON (short : Bool) (s : Schema) : Str := marshalIndent short s.toJ
/-- schema/schema.go:155-157 -/
def Extension.toJSON (short : Bool) (s : Extension) : Str := marshalIndent short s.toJ
/-- schema/schema.go:159-161 -/
def Table.toJSON (short : Bool) (s : Table) : Str := marshalIndent short s.toJ
/-- schema/schema.go:163-165 -/
def Column.toJSON (short : Bool) (s : Column) : Str := marshalIndent short s.toJ
/-- schema/schema.go:167-169 -/
def Attribute.toJSON (short : Bool) (s : Attribute) : Str := marshalIndent short s.toJ
/-- schema/schema.go:171-173 -/
def Index.toJSON (short : Bool) (s : Index) : Str := marshalIndent short s.toJ
/-- schema/schema.go:175-177 -/
def ForeignKey.toJSON (short : Bool) (s : ForeignKey) : Str := marshalIndent short s.toJ
/-- schema/schema.go:179-181 -/
def Action.toJSON (short : Bool) (s : Action) : Str := marshalIndent short s.toJ

end Verif
