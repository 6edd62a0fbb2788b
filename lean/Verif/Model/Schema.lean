import Verif.Model.Token
/-!
# Schema values

schema/schema.go:5-108.  Field names follow the Go fields.
-/

namespace Verif

/-- A Go slice: `none` is the nil slice.  Only the JSON encoder distinguishes
nil from empty. -/
abbrev Slice (α : Type) := Option (List α)

/-- The elements of a slice (`range` over a nil slice does nothing). -/
def Slice.elems {α : Type} (s : Slice α) : List α := s.getD []

/-- `make([]T, n)` filled in a loop, guarded by `n != 0`; otherwise nil. -/
def Slice.ofNonempty {α : Type} : List α → Slice α
  | [] => none
  | l => some l

/-- schema/schema.go:13-16 -/
structure ExtConfig where
  argument : Str
  value : Str
  deriving DecidableEq, Repr, Inhabited

/-- schema/schema.go:18-22 -/
structure Extension where
  name : Str
  config : Slice ExtConfig
  alias : Str
  deriving DecidableEq, Repr, Inhabited

/-- schema/schema.go:37-40.  `Value any` is nil or, in every value the code
builds, a string. -/
structure Attribute where
  type : Str
  value : Option Str
  deriving DecidableEq, Repr, Inhabited

/-- schema/schema.go:31-35 -/
structure Column where
  name : Str
  type : Str
  attributes : Slice Attribute
  deriving DecidableEq, Repr, Inhabited

/-- schema/schema.go:42-46 -/
structure Index where
  name : Str
  columns : Slice Str
  type : Str
  deriving DecidableEq, Repr, Inhabited

/-- schema/schema.go:71-77 -/
structure FKAction where
  on : Str
  doo : Str
  deriving DecidableEq, Repr, Inhabited

/-- schema/schema.go:48-67 -/
structure ForeignKey where
  childKeys : Slice Str
  parentKeys : Slice Str
  parentTable : Str
  actions : Slice FKAction
  deriving DecidableEq, Repr, Inhabited

/-- schema/schema.go:24-29 -/
structure Table where
  name : Str
  columns : Slice Column
  indexes : Slice Index
  foreignKeys : Slice ForeignKey
  deriving DecidableEq, Repr, Inhabited

/-- schema/schema.go:80-108 -/
structure Action where
  name : Str
  annotations : Slice Str
  inputs : Slice Str
  pub : Bool
  mutability : Str
  auxiliaries : Slice Str
  statements : Slice Str
  deriving DecidableEq, Repr, Inhabited

/-- schema/schema.go:5-11 -/
structure Schema where
  owner : Str
  name : Str
  tables : Slice Table
  actions : Slice Action
  extensions : Slice Extension
  deriving DecidableEq, Repr, Inhabited

/-! Constants, schema/types.go. -/

namespace C
/-- schema/types.go:8 -/
def init : Str := "init".toList
/-- schema/types.go:14-17 -/
def colNull : Str := "null".toList
def colText : Str := "text".toList
def colInt : Str := "int".toList
def colBlob : Str := "blob".toList
/-- schema/types.go:44-51 -/
def attrPrimaryKey : Str := "primary_key".toList
def attrUnique : Str := "unique".toList
def attrNotNull : Str := "not_null".toList
def attrDefault : Str := "default".toList
def attrMin : Str := "min".toList
def attrMax : Str := "max".toList
def attrMinLength : Str := "min_length".toList
def attrMaxLength : Str := "max_length".toList
/-- schema/types.go:83-85 -/
def idxBtree : Str := "btree".toList
def idxUniqueBtree : Str := "unique_btree".toList
def idxPrimary : Str := "primary".toList
/-- schema/types.go:114-116 -/
def onUpdate : Str := "UPDATE".toList
def onDelete : Str := "DELETE".toList
/-- schema/types.go:124-136 -/
def doNoAction : Str := "NO ACTION".toList
def doRestrict : Str := "RESTRICT".toList
def doSetNull : Str := "SET NULL".toList
def doSetDefault : Str := "SET DEFAULT".toList
def doCascade : Str := "CASCADE".toList
/-- schema/types.go:147-148 -/
def visPublic : Str := "public".toList
def visPrivate : Str := "private".toList
/-- schema/types.go:159-160 -/
def mutUpdate : Str := "update".toList
def mutView : Str := "view".toList
/-- schema/types.go:172 -/
def auxOwner : Str := "owner".toList
end C

end Verif
