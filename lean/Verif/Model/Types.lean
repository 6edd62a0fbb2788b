import Verif.Model.Schema
/-!
# Type-name lookups

schema/types.go:24-106.
-/

namespace Verif

/-- What the code uses of the Unicode tables of Go: `unicode.ToLower`.  On
ASCII it maps `A`–`Z` to `a`–`z` and nothing else; outside ASCII only U+0130
(to `i`) and U+212A (to `k`) are mapped into ASCII. -/
structure UniLower where
  f : Char → Char
  upper : ∀ c : Char, 65 ≤ c.toNat → c.toNat ≤ 90 → (f c).toNat = c.toNat + 32
  ascii : ∀ c : Char, c.toNat < 128 → ¬ (65 ≤ c.toNat ∧ c.toNat ≤ 90) → f c = c
  dottedI : ∀ c : Char, c.toNat = 0x130 → f c = 'i'
  kelvin : ∀ c : Char, c.toNat = 0x212A → f c = 'k'
  others : ∀ c : Char, 128 ≤ c.toNat → c.toNat ≠ 0x130 → c.toNat ≠ 0x212A → 128 ≤ (f c).toNat

/-- `strings.ToLower`, on the runes of the string.  An invalid byte counts as
U+FFFD (`strings.Map` replaces it so). -/
def UniLower.lower (u : UniLower) (s : Str) : Str := s.map u.f

/-- schema/types.go:33-38 -/
def columnTypes : List (Str × Str) :=
  [("null".toList, C.colNull), ("text".toList, C.colText), ("int".toList, C.colInt),
   ("blob".toList, C.colBlob)]

/-- schema/types.go:68-77 -/
def attributeTypes : List (Str × Str) :=
  [("primary".toList, C.attrPrimaryKey), ("unique".toList, C.attrUnique),
   ("notnull".toList, C.attrNotNull), ("default".toList, C.attrDefault), ("min".toList, C.attrMin),
   ("max".toList, C.attrMax), ("minlen".toList, C.attrMinLength), ("maxlen".toList, C.attrMaxLength)]

/-- schema/types.go:93-97 -/
def indexTypes : List (Str × Str) :=
  [("index".toList, C.idxBtree), ("unique".toList, C.idxUniqueBtree), ("primary".toList, C.idxPrimary)]

/-- The value or the text of the error. -/
abbrev Lookup := Except Str Str

/-- schema/types.go:24-31 -/
def getColumnType (u : UniLower) (col : Str) : Lookup :=
  match columnTypes.lookup (u.lower col) with
  | none => .error ("invalid column type: ".toList ++ col)
  | some t => .ok t

/-- schema/types.go:58-65 -/
def getAttributeType (u : UniLower) (attr : Str) : Lookup :=
  match attributeTypes.lookup (u.lower attr) with
  | none => .error ("invalid attribute type: ".toList ++ attr)
  | some t => .ok t

/-- schema/types.go:99-106 -/
def getIndexType (u : UniLower) (idxType : Str) : Lookup :=
  match indexTypes.lookup (u.lower idxType) with
  | none => .error ("invalid index type: ".toList ++ idxType)
  | some t => .ok t

end Verif
