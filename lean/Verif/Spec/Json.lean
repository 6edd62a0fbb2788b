import Verif.Model.Json
/-!
# Reading JSON

A JSON reader (RFC 8259), and the reading of schemas from JSON values, written
without reference to the encoder.
-/

namespace Verif

/-- White space of RFC 8259. -/
def isJsonWs (c : Char) : Bool := c = ' ' || c = '\t' || c = '\n' || c = '\r'

def skipWs (s : Str) : Str := s.dropWhile isJsonWs

/-- Value of a hexadecimal digit. -/
def hexVal (c : Char) : Option Nat :=
  if 48 ≤ c.toNat ∧ c.toNat ≤ 57 then some (c.toNat - 48)
  else if 97 ≤ c.toNat ∧ c.toNat ≤ 102 then some (c.toNat - 87)
  else if 65 ≤ c.toNat ∧ c.toNat ≤ 70 then some (c.toNat - 55)
  else none

/-- Value of four hexadecimal digits. -/
def hexVal4 (a b c d : Char) : Option Nat :=
  match hexVal a, hexVal b, hexVal c, hexVal d with
  | some a, some b, some c, some d => some (a * 4096 + b * 256 + c * 16 + d)
  | _, _, _, _ => none

/-- The character a short escape stands for. -/
def shortEscape (c : Char) : Option Char :=
  if c = '"' then some '"'
  else if c = '\\' then some '\\'
  else if c = '/' then some '/'
  else if c = 'b' then some (Char.ofNat 8)
  else if c = 'f' then some (Char.ofNat 12)
  else if c = 'n' then some '\n'
  else if c = 'r' then some '\r'
  else if c = 't' then some '\t'
  else none

/-- The rest of a string after the opening quote: content and what follows
the closing quote.  Control characters must be escaped.  Escaped surrogates
stand for a character only in pairs. -/
def readString : Str → Option (Str × Str)
  | [] => none
  | '"' :: r => some ([], r)
  | '\\' :: 'u' :: a :: b :: c :: d :: r =>
      match hexVal4 a b c d with
      | none => none
      | some n =>
        if 0xD800 ≤ n ∧ n < 0xDC00 then
          match r with
          | '\\' :: 'u' :: e :: f :: g :: h :: r' =>
              match hexVal4 e f g h with
              | none => none
              | some m =>
                if 0xDC00 ≤ m ∧ m < 0xE000 then
                  (readString r').map fun p =>
                    (Char.ofNat (0x10000 + (n - 0xD800) * 0x400 + (m - 0xDC00)) :: p.1, p.2)
                else none
          | _ => none
        else if 0xDC00 ≤ n ∧ n < 0xE000 then none
        else (readString r).map fun p => (Char.ofNat n :: p.1, p.2)
  | '\\' :: e :: r =>
      match shortEscape e with
      | none => none
      | some c => (readString r).map fun p => (c :: p.1, p.2)
  | c :: r =>
      if c.toNat < 32 ∨ c = '\\' then none else (readString r).map fun p => (c :: p.1, p.2)

/-- Decimal digits. -/
def isJsonDigit (c : Char) : Bool := 48 ≤ c.toNat && c.toNat ≤ 57

/-- Optional exponent, up to the end. -/
def validExp : Str → Bool
  | [] => true
  | c :: s =>
      (c = 'e' || c = 'E') &&
      (let ds := match s with
        | '+' :: r => r
        | '-' :: r => r
        | r => r
       !ds.isEmpty && ds.all isJsonDigit)

/-- Optional fraction, then optional exponent. -/
def validFrac : Str → Bool
  | '.' :: s => !(s.takeWhile isJsonDigit).isEmpty && validExp (s.dropWhile isJsonDigit)
  | s => validExp s

/-- The numbers of RFC 8259. -/
def validNumber (s : Str) : Bool :=
  let s := match s with
    | '-' :: r => r
    | r => r
  match s with
  | '0' :: r => validFrac r
  | c :: r => isJsonDigit c && validFrac (r.dropWhile isJsonDigit)
  | [] => false

/-- Characters of numbers. -/
def isNumChar (c : Char) : Bool :=
  (48 ≤ c.toNat && c.toNat ≤ 57) || c = '-' || c = '+' || c = '.' || c = 'e' || c = 'E'

mutual
/-- A value at the start of the text, and what follows it.  The first argument
bounds the number of nested calls. -/
def readValue : Nat → Str → Option (J × Str)
  | 0, _ => none
  | n + 1, s =>
    match skipWs s with
    | '"' :: r => (readString r).map fun p => (.str p.1, p.2)
    | '[' :: r =>
        match skipWs r with
        | ']' :: r' => some (.arr [], r')
        | _ => (readElems n r).map fun p => (.arr p.1, p.2)
    | '{' :: r =>
        match skipWs r with
        | '}' :: r' => some (.obj [], r')
        | _ => (readMembers n r).map fun p => (.obj p.1, p.2)
    | 'n' :: 'u' :: 'l' :: 'l' :: r => some (.null, r)
    | 't' :: 'r' :: 'u' :: 'e' :: r => some (.bool true, r)
    | 'f' :: 'a' :: 'l' :: 's' :: 'e' :: r => some (.bool false, r)
    | c :: r =>
        if isNumChar c && validNumber (c :: r.takeWhile isNumChar) then
          some (.num (c :: r.takeWhile isNumChar), r.dropWhile isNumChar)
        else none
    | [] => none
/-- Elements up to the closing bracket. -/
def readElems : Nat → Str → Option (List J × Str)
  | 0, _ => none
  | n + 1, s =>
    match readValue n s with
    | none => none
    | some (x, r) =>
      match skipWs r with
      | ',' :: r' => (readElems n r').map fun p => (x :: p.1, p.2)
      | ']' :: r' => some ([x], r')
      | _ => none
/-- Members up to the closing brace. -/
def readMembers : Nat → Str → Option (List (Str × J) × Str)
  | 0, _ => none
  | n + 1, s =>
    match skipWs s with
    | '"' :: r =>
      match readString r with
      | none => none
      | some (k, r₁) =>
        match skipWs r₁ with
        | ':' :: r₂ =>
          match readValue n r₂ with
          | none => none
          | some (x, r₃) =>
            match skipWs r₃ with
            | ',' :: r₄ => (readMembers n r₄).map fun p => ((k, x) :: p.1, p.2)
            | '}' :: r₄ => some ([(k, x)], r₄)
            | _ => none
        | _ => none
    | _ => none
end

/-- A whole text. -/
def readJson (s : Str) : Option J :=
  match readValue (s.length + 1) s with
  | some (j, r) => if skipWs r = [] then some j else none
  | none => none

/-! ## Schemas from JSON values -/

/-- A member of an object. -/
def J.get (key : String) : J → Option J
  | .obj fs => fs.lookup key.toList
  | _ => none

/-- A string member; missing counts as empty. -/
def J.getStr (key : String) (j : J) : Option Str :=
  match j.get key with
  | none => some []
  | some (.str s) => some s
  | _ => none

/-- A Boolean member; missing counts as false. -/
def J.getBool (key : String) (j : J) : Option Bool :=
  match j.get key with
  | none => some false
  | some (.bool b) => some b
  | _ => none

/-- All or nothing. -/
def sequence {α β : Type} (f : α → Option β) : List α → Option (List β)
  | [] => some []
  | x :: xs =>
    match f x, sequence f xs with
    | some y, some ys => some (y :: ys)
    | _, _ => none

/-- A list member; missing or `null` counts as the nil slice. -/
def J.getSlice {α : Type} (key : String) (f : J → Option α) (j : J) : Option (Slice α) :=
  match j.get key with
  | none => some none
  | some .null => some none
  | some (.arr l) => (sequence f l).map some
  | _ => none

/-- A string. -/
def J.asStr : J → Option Str
  | .str s => some s
  | _ => none

def readExtConfig (j : J) : Option ExtConfig := do
  some ⟨← j.getStr "argument", ← j.getStr "value"⟩

def readExtension (j : J) : Option Extension := do
  some ⟨← j.getStr "name", ← j.getSlice "config" readExtConfig, ← j.getStr "alias"⟩

/-- The value of an attribute is missing or a string. -/
def readAttribute (j : J) : Option Attribute := do
  let t ← j.getStr "type"
  match j.get "value" with
  | none => some ⟨t, none⟩
  | some (.str v) => some ⟨t, some v⟩
  | _ => none

def readColumn (j : J) : Option Column := do
  some ⟨← j.getStr "name", ← j.getStr "type", ← j.getSlice "attributes" readAttribute⟩

def readIndex (j : J) : Option Index := do
  some ⟨← j.getStr "name", ← j.getSlice "columns" J.asStr, ← j.getStr "type"⟩

def readFKAction (j : J) : Option FKAction := do
  some ⟨← j.getStr "on", ← j.getStr "do"⟩

def readForeignKey (j : J) : Option ForeignKey := do
  some ⟨← j.getSlice "child_keys" J.asStr, ← j.getSlice "parent_keys" J.asStr,
    ← j.getStr "parent_table", ← j.getSlice "actions" readFKAction⟩

def readTable (j : J) : Option Table := do
  some ⟨← j.getStr "name", ← j.getSlice "columns" readColumn, ← j.getSlice "indexes" readIndex,
    ← j.getSlice "foreign_keys" readForeignKey⟩

def readAction (j : J) : Option Action := do
  some ⟨← j.getStr "name", ← j.getSlice "annotations" J.asStr, ← j.getSlice "inputs" J.asStr,
    ← j.getBool "public", ← j.getStr "mutability", ← j.getSlice "auxiliaries" J.asStr,
    ← j.getSlice "statements" J.asStr⟩

def readSchema (j : J) : Option Schema := do
  some ⟨← j.getStr "owner", ← j.getStr "name", ← j.getSlice "tables" readTable,
    ← j.getSlice "actions" readAction, ← j.getSlice "extensions" readExtension⟩

/-! ## Shape -/

/-- The keys of an object, in order. -/
def J.keys : J → List Str
  | .obj fs => fs.map (·.1)
  | _ => []

/-- The elements of a list member; none if there is no such member. -/
def J.items (key : String) (j : J) : List J :=
  match j.get key with
  | some (.arr l) => l
  | _ => []

/-- The member is there and is `null`. -/
def J.isNull (key : String) (j : J) : Bool :=
  match j.get key with
  | some .null => true
  | _ => false

/-- A key that is there only if the list is not empty. -/
def ifAny {α : Type} (l : List α) (key : String) : List Str := if l.isEmpty then [] else [key.toList]

mutual
/-- The value has no `[]` anywhere. -/
def J.noEmptyList : J → Prop
  | .arr l => l ≠ [] ∧ J.noEmptyLists l
  | .obj fs => J.noEmptyMembers fs
  | _ => True
def J.noEmptyLists : List J → Prop
  | [] => True
  | x :: xs => x.noEmptyList ∧ J.noEmptyLists xs
def J.noEmptyMembers : List (Str × J) → Prop
  | [] => True
  | (_, x) :: xs => x.noEmptyList ∧ J.noEmptyMembers xs
end

/-! ## Empty and missing lists -/

/-- An empty list counts as missing. -/
def Slice.noEmpty {α : Type} (s : Slice α) : Slice α := if s.elems.isEmpty then none else s

def Column.norm (c : Column) : Column := { c with attributes := c.attributes.noEmpty }

def Table.norm (t : Table) : Table :=
  { t with
    columns := Slice.noEmpty (t.columns.map (·.map Column.norm))
    indexes := t.indexes.noEmpty
    foreignKeys := t.foreignKeys.noEmpty }

def Action.norm (a : Action) : Action :=
  { a with annotations := a.annotations.noEmpty, statements := a.statements.noEmpty }

/-- The schema with every list that JSON leaves out when it is empty (tables,
actions, extensions, columns, indexes, foreign keys, attributes, annotations,
statements) counted as missing when empty.  For schemas that `ParseKF` returns
this changes nothing. -/
def Schema.norm (s : Schema) : Schema :=
  { s with
    tables := Slice.noEmpty (s.tables.map (·.map Table.norm))
    actions := Slice.noEmpty (s.actions.map (·.map Action.norm))
    extensions := s.extensions.noEmpty }

end Verif
