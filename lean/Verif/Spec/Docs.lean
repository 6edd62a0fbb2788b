import Verif.Spec.Canonical
import Verif.Spec.Validity
import Verif.Spec.Source
/-!
# The documented syntax

docs/syntax.md, lines 1-63, as it stands: a database name, tables, actions with
SQL.  A "column" of a table is a column or an index, in any order.  (Extensions,
foreign keys, modifiers and calls are not documented there.)
-/

namespace Verif.Doc

/-- Lines 44-47. -/
inductive ColType where
  | int | text

/-- Lines 49-57; values are texts of literals. -/
inductive Attr where
  | primary | notnull
  | max (n : Str) | min (n : Str) | maxlen (n : Str) | minlen (n : Str)
  | default (v : Lit)

/-- Lines 59-63. -/
inductive IndexType where
  | unique | index | primary

/-- Lines 34-42: a column, or an index (its name without `#`). -/
inductive Item where
  | column (name : Str) (type : ColType) (attrs : List Attr)
  | index (name : Str) (type : IndexType) (first : Str) (more : List Str)

structure Table where
  name : Str
  first : Item
  more : List Item

/-- Parameter names are kept with `$`; SQL statements without `;`. -/
structure Action where
  name : Str
  params : List Str
  sql : Str
  more : List Str

structure File where
  name : Str
  tables : List Doc.Table
  actions : List Doc.Action

/-! ## How it is written -/

/-- `x, y, z` -/
def commas : List (List Tok) → List Tok
  | [] => []
  | x :: xs => x ++ xs.flatMap fun y => kw .COMMA :: y

def ColType.tok : ColType → Tok
  | .int => kw .INT_
  | .text => kw .TEXT_

/-- `name(value)` -/
def valued (t : TT) (v : Tok) : List Tok := [kw t, kw .L_PAREN, v, kw .R_PAREN]

def Attr.toks : Attr → List Tok
  | .primary => [kw .PRIMARY_]
  | .notnull => [kw .NOT_NULL_]
  | .max n => valued .MAX_ (numTok n)
  | .min n => valued .MIN_ (numTok n)
  | .maxlen n => valued .MAX_LEN_ (numTok n)
  | .minlen n => valued .MIN_LEN_ (numTok n)
  | .default v => valued .DEFAULT_ v.tok

def IndexType.tok : IndexType → Tok
  | .unique => kw .UNIQUE_
  | .index => kw .INDEX_
  | .primary => kw .PRIMARY_

def Item.toks : Item → List Tok
  | .column n t as => [idTok n, t.tok] ++ as.flatMap Attr.toks
  | .index n t c cs => [⟨.INDEX_NAME, '#' :: n⟩, t.tok, kw .L_PAREN] ++
      commas ((c :: cs).map fun x => [idTok x]) ++ [kw .R_PAREN]

def Table.toks (t : Doc.Table) : List Tok :=
  [kw .TABLE_, idTok t.name, kw .L_BRACE] ++ commas ((t.first :: t.more).map Item.toks) ++ [kw .R_BRACE]

def Action.toks (a : Doc.Action) : List Tok :=
  [kw .ACTION_, idTok a.name, kw .L_PAREN] ++ commas (a.params.map fun x => [varTok x]) ++
  [kw .R_PAREN, kw .L_BRACE] ++ (a.sql :: a.more).flatMap (fun q => [⟨.SQL_STMT, q⟩, kw .SCOL]) ++
  [kw .R_BRACE]

/-- Lines 3-11. -/
def File.toks (f : File) : List Tok :=
  [kw .DATABASE_, idTok f.name, kw .SCOL] ++ f.tables.flatMap Table.toks ++ f.actions.flatMap Action.toks

/-- The text reads so, whatever is between the tokens. -/
def File.WrittenBy (f : File) (s : Str) : Prop := ∃ l, Tokenises s l ∧ visible l = f.toks

/-! ## What it means -/

def ColType.name : ColType → Str
  | .int => "int".toList
  | .text => "text".toList

def Attr.denote : Attr → Attribute
  | .primary => ⟨"primary_key".toList, none⟩
  | .notnull => ⟨"not_null".toList, none⟩
  | .max n => ⟨"max".toList, some n⟩
  | .min n => ⟨"min".toList, some n⟩
  | .maxlen n => ⟨"max_length".toList, some n⟩
  | .minlen n => ⟨"min_length".toList, some n⟩
  | .default v => ⟨"default".toList, some v.text⟩

def IndexType.name : IndexType → Str
  | .unique => "unique_btree".toList
  | .index => "btree".toList
  | .primary => "primary".toList

def Item.column? : Item → Option Column
  | .column n t as => some ⟨n, t.name, listed (as.map Attr.denote)⟩
  | .index .. => none

def Item.index? : Item → Option Index
  | .column .. => none
  | .index n t c cs => some ⟨n, some (c :: cs), t.name⟩

def Table.denote (t : Doc.Table) : Verif.Table :=
  ⟨t.name, listed ((t.first :: t.more).filterMap Item.column?), listed ((t.first :: t.more).filterMap Item.index?), none⟩

def Action.denote (a : Doc.Action) : Verif.Action :=
  { name := a.name, annotations := none, inputs := listed a.params, pub := false,
    mutability := "update".toList, auxiliaries := none,
    statements := some ((a.sql :: a.more).map (· ++ [';'])) }

def File.denote (f : File) : Schema :=
  { owner := [], name := f.name, tables := listed (f.tables.map Table.denote),
    actions := listed (f.actions.map Action.denote), extensions := none }

/-- Columns before indexes, and at least one column. -/
def Table.ColumnsFirst (t : Doc.Table) : Prop :=
  ∃ columns indexes, t.first :: t.more = columns ++ indexes ∧ columns ≠ [] ∧
    (∀ x ∈ columns, x.column? ≠ none) ∧ ∀ x ∈ indexes, x.index? ≠ none

end Verif.Doc
