import Verif.Spec.Words
import Verif.Spec.Program
import Verif.Spec.Lexical
/-!
# Writing programs

What the texts of tokens look like, a plain way to write a program, and which
schemas are the meaning of a program – in terms of the schema alone.
-/

namespace Verif

/-! ## Texts of tokens -/

/-- Identifiers. -/
def IsIdent (s : Str) : Prop := IsName s ∧ ¬ Reserved s

/-- Variables: `$` and a name. -/
def IsVar (s : Str) : Prop := ∃ n, s = '$' :: n ∧ IsName n

/-- Numbers: one or more digits. -/
def IsNumber (s : Str) : Prop := s ≠ [] ∧ ∀ c ∈ s, '0' ≤ c ∧ c ≤ '9'

/-- What may be between the quotes of a string literal. -/
inductive QuotedBody : Str → Prop where
  | nil : QuotedBody []
  | plain {c : Char} {s : Str} : c ≠ '\n' → c ≠ '\r' → c ≠ '\'' → c ≠ '\\' → QuotedBody s →
      QuotedBody (c :: s)
  | escape {c : Char} {s : Str} : QuotedBody s → QuotedBody ('\\' :: c :: s)

/-- String literals. -/
def IsQuoted (s : Str) : Prop := ∃ b, s = '\'' :: (b ++ ['\'']) ∧ QuotedBody b

/-- Literals. -/
def IsLiteral (s : Str) : Prop := IsNumber s ∨ IsQuoted s

/-- SQL statements, without the semicolon: a verb in any mixture of cases, a
blank, and at least one more character; no `;` and no `}`. -/
def IsSql (s : Str) : Prop :=
  ∃ v c z, s = v ++ c :: z ∧ lower v ∈ verbs.map (·.1) ∧ c ∈ blanks ∧ z ≠ [] ∧ ';' ∉ z ∧ '}' ∉ z

/-- The text fits the type of the token. -/
def WellSpelt (t : Tok) : Prop :=
  match t.ty with
  | .IDENTIFIER => IsIdent t.text
  | .INDEX_NAME => ∃ n, t.text = '#' :: n ∧ IsName n
  | .PARAM_OR_VAR => IsVar t.text
  | .BLOCK_VAR_OR_ANNOTATION => ∃ n, t.text = '@' :: n ∧ IsName n
  | .UNSIGNED_NUMBER_LITERAL => IsNumber t.text
  | .STRING_LITERAL => IsQuoted t.text
  | .SQL_STMT => IsSql t.text
  | .EOF => False
  | ty => ty.fixed = some t.text

/-- The text of tokens with one blank after each, except after an SQL
statement, where it would become a part of it. -/
def spaced (ts : List Tok) : Str :=
  ts.flatMap fun t => t.text ++ if t.ty = .SQL_STMT then [] else [' ']

/-- The plain way to write a program. -/
def Program.text (p : Program) : Str := spaced p.toks

/-! ## Schemas that can be written -/

/-- Nil, or not empty with elements as given. -/
def SliceOf {α : Type} (P : α → Prop) (s : Slice α) : Prop :=
  s = none ∨ ∃ l, s = some l ∧ l ≠ [] ∧ ∀ x ∈ l, P x

/-- Not empty, with elements as given. -/
def FullOf {α : Type} (P : α → Prop) (s : Slice α) : Prop :=
  ∃ l, s = some l ∧ l ≠ [] ∧ ∀ x ∈ l, P x

def ExprConfig (c : ExtConfig) : Prop := IsIdent c.argument ∧ IsLiteral c.value

structure ExprExt (e : Extension) : Prop where
  name : IsIdent e.name
  config : SliceOf ExprConfig e.config
  alias : IsIdent e.alias

/-- The attributes a column can have: three without a value, `default` with a
literal, four with a number. -/
def ExprAttr (a : Attribute) : Prop :=
  (a.type ∈ ["primary_key".toList, "not_null".toList, "unique".toList] ∧ a.value = none) ∨
  (a.type = "default".toList ∧ ∃ v, a.value = some v ∧ IsLiteral v) ∨
  (a.type ∈ ["min".toList, "max".toList, "min_length".toList, "max_length".toList] ∧
    ∃ v, a.value = some v ∧ IsNumber v)

structure ExprColumn (c : Column) : Prop where
  name : IsIdent c.name
  type : c.type ∈ ["int".toList, "text".toList, "blob".toList]
  attributes : SliceOf ExprAttr c.attributes

/-- The name of an index may be a reserved word. -/
structure ExprIndex (i : Index) : Prop where
  name : IsName i.name
  columns : FullOf IsIdent i.columns
  type : i.type ∈ ["primary".toList, "unique_btree".toList, "btree".toList]

def ExprFkAct (a : FKAction) : Prop :=
  a.on ∈ ["UPDATE".toList, "DELETE".toList] ∧
  a.doo ∈ ["NO ACTION".toList, "CASCADE".toList, "SET NULL".toList, "SET DEFAULT".toList,
    "RESTRICT".toList]

structure ExprFk (f : ForeignKey) : Prop where
  child : FullOf IsIdent f.childKeys
  parent : FullOf IsIdent f.parentKeys
  table : IsIdent f.parentTable
  actions : SliceOf ExprFkAct f.actions

structure ExprTable (t : Table) : Prop where
  name : IsIdent t.name
  columns : FullOf ExprColumn t.columns
  indexes : SliceOf ExprIndex t.indexes
  fks : SliceOf ExprFk t.foreignKeys

/-- `name=literal` -/
def ExprAnnotAttr (s : Str) : Prop :=
  ∃ n v, s = n ++ '=' :: v ∧ IsIdent n ∧ IsLiteral v

/-- `x,y,z` -/
def commaText (x : Str) (xs : List Str) : Str := x ++ xs.flatMap fun y => ',' :: y

/-- `target(name=literal,name=literal)` -/
def ExprAnnot (s : Str) : Prop :=
  ∃ target x xs, s = target ++ '(' :: (commaText x xs ++ [')']) ∧ IsName target ∧
    ∀ y ∈ x :: xs, ExprAnnotAttr y

/-- A call statement: the tokens of a call, with the texts that they may have,
without anything between them. -/
def ExprCall (s : Str) : Prop :=
  ∃ rs ext m args, s = glued (Stmt.call rs ext m args).toks ∧
    ∀ t ∈ (Stmt.call rs ext m args).toks, WellSpelt t

/-- A statement: SQL and a semicolon, or a call. -/
def ExprStmt (s : Str) : Prop := (∃ q, s = q ++ [';'] ∧ IsSql q) ∨ ExprCall s

structure ExprAction (a : Action) : Prop where
  name : IsIdent a.name
  annotations : SliceOf ExprAnnot a.annotations
  inputs : SliceOf IsVar a.inputs
  mutability : a.mutability ∈ ["view".toList, "update".toList]
  auxiliaries : a.auxiliaries = none ∨ a.auxiliaries = some ["owner".toList]
  statements : FullOf ExprStmt a.statements

/-- The action that stands for an `init` block. -/
structure ExprInit (a : Action) : Prop where
  name : a.name = "init".toList
  annotations : a.annotations = none
  inputs : a.inputs = none
  pub : a.pub = false
  mutability : a.mutability = "update".toList
  auxiliaries : a.auxiliaries = none
  statements : FullOf ExprStmt a.statements

/-- The lexical rules for a schema. -/
structure Expressible (s : Schema) : Prop where
  owner : s.owner = []
  name : IsIdent s.name
  tables : SliceOf ExprTable s.tables
  extensions : SliceOf ExprExt s.extensions
  actions : s.actions = none ∨ ∃ as is, s.actions = some (as ++ is) ∧ as ++ is ≠ [] ∧
    (∀ a ∈ as, ExprAction a) ∧ is.length ≤ 1 ∧ ∀ a ∈ is, ExprInit a

end Verif
