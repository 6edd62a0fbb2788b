import Verif.Model.Schema
import Verif.Model.Errors
/-!
# Programs

What a Kuneiform source file says, written as an abstract syntax tree that
keeps every spelling choice the language offers; the tokens it is written
with; and what it means.  Nothing here refers to the parser or the visitor.
-/

namespace Verif

/-! ## Abstract syntax -/

/-- One or more. -/
structure NE (α : Type) where
  head : α
  tail : List α
  deriving DecidableEq, Repr

/-- All elements. -/
def NE.list {α : Type} (x : NE α) : List α := x.head :: x.tail

/-- Literals, with their source text. -/
inductive Lit where
  | num (s : Str)
  | str (s : Str)
  deriving DecidableEq, Repr

/-- Source text of a literal. -/
def Lit.text : Lit → Str
  | .num s => s
  | .str s => s

/-- A name and a literal (`name: value` or `name = value`). -/
structure Pair where
  name : Str
  value : Lit
  deriving DecidableEq, Repr

/-- `use name { config } as alias;` -/
structure ExtDecl where
  name : Str
  config : Option (NE Pair)
  alias : Str
  deriving DecidableEq, Repr

/-- Column types. -/
inductive ColTy where
  | int | text | blob
  deriving DecidableEq, Repr

/-- Column constraints. -/
inductive Constraint where
  | primary | notNull | unique
  | default (l : Lit)
  | min (n : Str) | max (n : Str) | minLen (n : Str) | maxLen (n : Str)
  deriving DecidableEq, Repr

structure ColDecl where
  name : Str
  type : ColTy
  constraints : List Constraint
  deriving DecidableEq, Repr

inductive IdxKind where
  | primary | unique | index
  deriving DecidableEq, Repr

/-- `#name kind(columns)`; the name is kept without `#`. -/
structure IdxDecl where
  name : Str
  kind : IdxKind
  columns : NE Str
  deriving DecidableEq, Repr

inductive FkOn where
  | update | delete
  deriving DecidableEq, Repr

inductive FkDo where
  | noAction | cascade | setNull | setDefault | restrict
  deriving DecidableEq, Repr

/-- `on_update do cascade`; `withDo` says whether `do` is written. -/
structure FkAct where
  on : FkOn
  withDo : Bool
  act : FkDo
  deriving DecidableEq, Repr

/-- `foreign_key(child) references table(parent) actions`; the flags say
whether the short forms `fk` and `ref` are written. -/
structure FkDecl where
  short : Bool
  child : NE Str
  shortRef : Bool
  table : Str
  parent : NE Str
  acts : List FkAct
  deriving DecidableEq, Repr

inductive TableItem where
  | index (i : IdxDecl)
  | fk (f : FkDecl)
  deriving DecidableEq, Repr

/-- `table name { columns, items }`, possibly with a trailing comma. -/
structure TableDecl where
  name : Str
  columns : NE ColDecl
  items : List TableItem
  trailingComma : Bool
  deriving DecidableEq, Repr

inductive Modifier where
  | pub | priv | view | owner
  deriving DecidableEq, Repr

/-- `@target(name = value, ...)`; the target is kept without `@`. -/
structure Annot where
  target : Str
  attrs : NE Pair
  deriving DecidableEq, Repr

inductive UnOp where
  | plus | minus | tilde
  deriving DecidableEq, Repr

inductive BinOp where
  | concat | star | div | mod | plus | minus | shl | shr | amp | pipe
  | lt | le | gt | ge | assign | eq | ne1 | ne2 | and | or
  deriving DecidableEq, Repr

/-- Argument expressions (`Expr false`) and non-empty argument lists
(`Expr true`).  The nesting of binary operators is not significant. -/
inductive Expr : Bool → Type where
  | lit (l : Lit) : Expr false
  | var (name : Str) : Expr false
  | block (name : Str) : Expr false
  | paren (e : Expr false) : Expr false
  | un (o : UnOp) (e : Expr false) : Expr false
  | not (e : Expr false) : Expr false
  | fn0 (name : Str) : Expr false
  | fnStar (name : Str) : Expr false
  | fn (name : Str) (args : Expr true) : Expr false
  | bin (l : Expr false) (o : BinOp) (r : Expr false) : Expr false
  | one (e : Expr false) : Expr true
  | more (e : Expr false) (es : Expr true) : Expr true

/-- A comma list as the language has it for parameters and arguments: the
first element may be missing even if a comma follows. -/
structure CommaList (α : Type) where
  first : Option α
  rest : List α

/-- The elements that are written. -/
def CommaList.list {α : Type} (x : CommaList α) : List α := x.first.toList ++ x.rest

/-- Statements.  An SQL statement is its text without the semicolon; variable
names are kept with their `$`. -/
inductive Stmt where
  | sql (text : Str)
  | call (receivers : Option (NE Str)) (ext : Option Str) (method : Str)
      (args : CommaList (Expr false))

/-- `annotations action name(params) modifiers { body }` -/
structure ActionDecl where
  annotations : List Annot
  name : Str
  params : CommaList Str
  modifiers : List Modifier
  body : NE Stmt

inductive Decl where
  | table (t : TableDecl)
  | action (a : ActionDecl)
  | init (body : NE Stmt)

/-- A source file. -/
structure Program where
  name : Str
  exts : List ExtDecl
  decls : List Decl

/-! ## Tokens -/

/-- The text of a token type that has only one spelling. -/
def TT.fixed : TT → Option Str
  | .COL => some ":".toList
  | .SCOL => some ";".toList
  | .L_PAREN => some "(".toList
  | .L_BRACE => some "{".toList
  | .R_PAREN => some ")".toList
  | .R_BRACE => some "}".toList
  | .COMMA => some ",".toList
  | .PERIOD => some ".".toList
  | .ASSIGN => some "=".toList
  | .PLUS => some "+".toList
  | .MINUS => some "-".toList
  | .STAR => some "*".toList
  | .DIV => some "/".toList
  | .MOD => some "%".toList
  | .TILDE => some "~".toList
  | .PIPE2 => some "||".toList
  | .LT2 => some "<<".toList
  | .GT2 => some ">>".toList
  | .AMP => some "&".toList
  | .PIPE => some "|".toList
  | .EQ => some "==".toList
  | .LT => some "<".toList
  | .LT_EQ => some "<=".toList
  | .GT => some ">".toList
  | .GT_EQ => some ">=".toList
  | .SQL_NOT_EQ1 => some "!=".toList
  | .SQL_NOT_EQ2 => some "<>".toList
  | .DATABASE_ => some "database".toList
  | .USE_ => some "use".toList
  | .AS_ => some "as".toList
  | .TABLE_ => some "table".toList
  | .ACTION_ => some "action".toList
  | .INIT_ => some "init".toList
  | .PUBLIC_ => some "public".toList
  | .PRIVATE_ => some "private".toList
  | .VIEW_ => some "view".toList
  | .OWNER_ => some "owner".toList
  | .INT_ => some "int".toList
  | .TEXT_ => some "text".toList
  | .BLOB_ => some "blob".toList
  | .MIN_ => some "min".toList
  | .MAX_ => some "max".toList
  | .MIN_LEN_ => some "minlen".toList
  | .MAX_LEN_ => some "maxlen".toList
  | .NOT_NULL_ => some "notnull".toList
  | .PRIMARY_ => some "primary".toList
  | .DEFAULT_ => some "default".toList
  | .UNIQUE_ => some "unique".toList
  | .INDEX_ => some "index".toList
  | .FOREIGN_KEY_ => some "foreign_key".toList
  | .FOREIGN_KEY_ABBR_ => some "fk".toList
  | .REFERENCES_ => some "references".toList
  | .REFERENCES_ABBR_ => some "ref".toList
  | .ACTION_ON_UPDATE_ => some "on_update".toList
  | .ACTION_ON_DELETE_ => some "on_delete".toList
  | .ACTION_DO_ => some "do".toList
  | .ACTION_DO_NO_ACTION_ => some "no_action".toList
  | .ACTION_DO_CASCADE_ => some "cascade".toList
  | .ACTION_DO_SET_NULL_ => some "set_null".toList
  | .ACTION_DO_SET_DEFAULT_ => some "set_default".toList
  | .ACTION_DO_RESTRICT_ => some "restrict".toList
  | .NOT_ => some "not".toList
  | .AND_ => some "and".toList
  | .OR_ => some "or".toList
  | .EOF => some "<EOF>".toList
  | _ => none

/-- The token of a fixed type. -/
def kw (ty : TT) : Tok := ⟨ty, ty.fixed.getD []⟩
def idTok (s : Str) : Tok := ⟨.IDENTIFIER, s⟩
def varTok (s : Str) : Tok := ⟨.PARAM_OR_VAR, s⟩
def numTok (s : Str) : Tok := ⟨.UNSIGNED_NUMBER_LITERAL, s⟩

def Lit.tok : Lit → Tok
  | .num s => numTok s
  | .str s => ⟨.STRING_LITERAL, s⟩

/-- `x, y, z` -/
def NE.toks {α : Type} (f : α → List Tok) (x : NE α) : List Tok :=
  f x.head ++ x.tail.flatMap (fun y => kw .COMMA :: f y)

/-- `x, y, z` where the first may be missing -/
def CommaList.toks {α : Type} (f : α → List Tok) (x : CommaList α) : List Tok :=
  x.first.toList.flatMap f ++ x.rest.flatMap (fun y => kw .COMMA :: f y)

/-- `name: value` or `name = value` -/
def Pair.toks (sep : TT) (p : Pair) : List Tok := [idTok p.name, kw sep, p.value.tok]

def ExtDecl.toks (e : ExtDecl) : List Tok :=
  [kw .USE_, idTok e.name] ++
  (match e.config with
    | none => []
    | some c => [kw .L_BRACE] ++ c.toks (Pair.toks .COL) ++ [kw .R_BRACE]) ++
  [kw .AS_, idTok e.alias, kw .SCOL]

def ColTy.tok : ColTy → Tok
  | .int => kw .INT_
  | .text => kw .TEXT_
  | .blob => kw .BLOB_

def Constraint.toks : Constraint → List Tok
  | .primary => [kw .PRIMARY_]
  | .notNull => [kw .NOT_NULL_]
  | .unique => [kw .UNIQUE_]
  | .default l => [kw .DEFAULT_, kw .L_PAREN, l.tok, kw .R_PAREN]
  | .min n => [kw .MIN_, kw .L_PAREN, numTok n, kw .R_PAREN]
  | .max n => [kw .MAX_, kw .L_PAREN, numTok n, kw .R_PAREN]
  | .minLen n => [kw .MIN_LEN_, kw .L_PAREN, numTok n, kw .R_PAREN]
  | .maxLen n => [kw .MAX_LEN_, kw .L_PAREN, numTok n, kw .R_PAREN]

def ColDecl.toks (c : ColDecl) : List Tok :=
  [idTok c.name, c.type.tok] ++ c.constraints.flatMap Constraint.toks

def IdxKind.tok : IdxKind → Tok
  | .primary => kw .PRIMARY_
  | .unique => kw .UNIQUE_
  | .index => kw .INDEX_

/-- `(a, b, c)` -/
def parenNames (x : NE Str) : List Tok :=
  [kw .L_PAREN] ++ x.toks (fun s => [idTok s]) ++ [kw .R_PAREN]

def IdxDecl.toks (i : IdxDecl) : List Tok :=
  [⟨.INDEX_NAME, '#' :: i.name⟩, i.kind.tok] ++ parenNames i.columns

def FkOn.tok : FkOn → Tok
  | .update => kw .ACTION_ON_UPDATE_
  | .delete => kw .ACTION_ON_DELETE_

def FkDo.tok : FkDo → Tok
  | .noAction => kw .ACTION_DO_NO_ACTION_
  | .cascade => kw .ACTION_DO_CASCADE_
  | .setNull => kw .ACTION_DO_SET_NULL_
  | .setDefault => kw .ACTION_DO_SET_DEFAULT_
  | .restrict => kw .ACTION_DO_RESTRICT_

def FkAct.toks (a : FkAct) : List Tok :=
  [a.on.tok] ++ (if a.withDo then [kw .ACTION_DO_] else []) ++ [a.act.tok]

def FkDecl.toks (f : FkDecl) : List Tok :=
  [kw (if f.short then .FOREIGN_KEY_ABBR_ else .FOREIGN_KEY_)] ++ parenNames f.child ++
  [kw (if f.shortRef then .REFERENCES_ABBR_ else .REFERENCES_), idTok f.table] ++
  parenNames f.parent ++ f.acts.flatMap FkAct.toks

def TableItem.toks : TableItem → List Tok
  | .index i => i.toks
  | .fk f => f.toks

def TableDecl.toks (t : TableDecl) : List Tok :=
  [kw .TABLE_, idTok t.name, kw .L_BRACE] ++ t.columns.toks ColDecl.toks ++
  t.items.flatMap (fun i => kw .COMMA :: i.toks) ++
  (if t.trailingComma then [kw .COMMA] else []) ++ [kw .R_BRACE]

def Modifier.tok : Modifier → Tok
  | .pub => kw .PUBLIC_
  | .priv => kw .PRIVATE_
  | .view => kw .VIEW_
  | .owner => kw .OWNER_

def Annot.toks (a : Annot) : List Tok :=
  [⟨.BLOCK_VAR_OR_ANNOTATION, '@' :: a.target⟩, kw .L_PAREN] ++
  a.attrs.toks (Pair.toks .ASSIGN) ++ [kw .R_PAREN]

def UnOp.tok : UnOp → Tok
  | .plus => kw .PLUS
  | .minus => kw .MINUS
  | .tilde => kw .TILDE

def BinOp.tok : BinOp → Tok
  | .concat => kw .PIPE2
  | .star => kw .STAR
  | .div => kw .DIV
  | .mod => kw .MOD
  | .plus => kw .PLUS
  | .minus => kw .MINUS
  | .shl => kw .LT2
  | .shr => kw .GT2
  | .amp => kw .AMP
  | .pipe => kw .PIPE
  | .lt => kw .LT
  | .le => kw .LT_EQ
  | .gt => kw .GT
  | .ge => kw .GT_EQ
  | .assign => kw .ASSIGN
  | .eq => kw .EQ
  | .ne1 => kw .SQL_NOT_EQ1
  | .ne2 => kw .SQL_NOT_EQ2
  | .and => kw .AND_
  | .or => kw .OR_

def Expr.toks : {b : Bool} → Expr b → List Tok
  | _, .lit l => [l.tok]
  | _, .var s => [varTok s]
  | _, .block s => [⟨.BLOCK_VAR_OR_ANNOTATION, s⟩]
  | _, .paren e => [kw .L_PAREN] ++ e.toks ++ [kw .R_PAREN]
  | _, .un o e => o.tok :: e.toks
  | _, .not e => kw .NOT_ :: e.toks
  | _, .fn0 n => [idTok n, kw .L_PAREN, kw .R_PAREN]
  | _, .fnStar n => [idTok n, kw .L_PAREN, kw .STAR, kw .R_PAREN]
  | _, .fn n as => [idTok n, kw .L_PAREN] ++ as.toks ++ [kw .R_PAREN]
  | _, .bin l o r => l.toks ++ [o.tok] ++ r.toks
  | _, .one e => e.toks
  | _, .more e es => e.toks ++ [kw .COMMA] ++ es.toks

def Stmt.toks : Stmt → List Tok
  | .sql text => [⟨.SQL_STMT, text⟩, kw .SCOL]
  | .call rs ext m args =>
      (match rs with
        | none => []
        | some rs => rs.toks (fun s => [varTok s]) ++ [kw .ASSIGN]) ++
      (match ext with
        | none => []
        | some e => [idTok e, kw .PERIOD]) ++
      [idTok m, kw .L_PAREN] ++ args.toks Expr.toks ++ [kw .R_PAREN, kw .SCOL]

/-- The statements between the braces. -/
def bodyToks (b : NE Stmt) : List Tok := [kw .L_BRACE] ++ b.list.flatMap Stmt.toks ++ [kw .R_BRACE]

def ActionDecl.toks (a : ActionDecl) : List Tok :=
  a.annotations.flatMap Annot.toks ++ [kw .ACTION_, idTok a.name, kw .L_PAREN] ++
  a.params.toks (fun s => [varTok s]) ++ [kw .R_PAREN] ++ a.modifiers.map Modifier.tok ++
  bodyToks a.body

def Decl.toks : Decl → List Tok
  | .table t => t.toks
  | .action a => a.toks
  | .init b => [kw .INIT_, kw .L_PAREN, kw .R_PAREN] ++ bodyToks b

/-- The tokens of a source file. -/
def Program.toks (p : Program) : List Tok :=
  [kw .DATABASE_, idTok p.name, kw .SCOL] ++ p.exts.flatMap ExtDecl.toks ++
  p.decls.flatMap Decl.toks

/-! ## Meaning -/

/-- The text of tokens written without anything between them. -/
def glued (ts : List Tok) : Str := ts.flatMap (·.text)

/-- A list is missing (nil) if nothing is declared. -/
def listed {α : Type} (l : List α) : Slice α := if l.isEmpty then none else some l

def Pair.config (p : Pair) : ExtConfig := ⟨p.name, p.value.text⟩

def ExtDecl.denote (e : ExtDecl) : Extension :=
  ⟨e.name, e.config.map (fun c => c.list.map Pair.config), e.alias⟩

def ColTy.denote : ColTy → Str
  | .int => "int".toList
  | .text => "text".toList
  | .blob => "blob".toList

def Constraint.denote : Constraint → Attribute
  | .primary => ⟨"primary_key".toList, none⟩
  | .notNull => ⟨"not_null".toList, none⟩
  | .unique => ⟨"unique".toList, none⟩
  | .default l => ⟨"default".toList, some l.text⟩
  | .min n => ⟨"min".toList, some n⟩
  | .max n => ⟨"max".toList, some n⟩
  | .minLen n => ⟨"min_length".toList, some n⟩
  | .maxLen n => ⟨"max_length".toList, some n⟩

def ColDecl.denote (c : ColDecl) : Column :=
  ⟨c.name, c.type.denote, listed (c.constraints.map Constraint.denote)⟩

def IdxKind.denote : IdxKind → Str
  | .primary => "primary".toList
  | .unique => "unique_btree".toList
  | .index => "btree".toList

def IdxDecl.denote (i : IdxDecl) : Index := ⟨i.name, some i.columns.list, i.kind.denote⟩

def FkOn.denote : FkOn → Str
  | .update => "UPDATE".toList
  | .delete => "DELETE".toList

def FkDo.denote : FkDo → Str
  | .noAction => "NO ACTION".toList
  | .cascade => "CASCADE".toList
  | .setNull => "SET NULL".toList
  | .setDefault => "SET DEFAULT".toList
  | .restrict => "RESTRICT".toList

def FkAct.denote (a : FkAct) : FKAction := ⟨a.on.denote, a.act.denote⟩

def FkDecl.denote (f : FkDecl) : ForeignKey :=
  ⟨some f.child.list, some f.parent.list, f.table, listed (f.acts.map FkAct.denote)⟩

/-- The indexes among the items. -/
def TableDecl.indexes (t : TableDecl) : List IdxDecl :=
  t.items.filterMap fun | .index i => some i | .fk _ => none

/-- The foreign keys among the items. -/
def TableDecl.fks (t : TableDecl) : List FkDecl :=
  t.items.filterMap fun | .fk f => some f | .index _ => none

def TableDecl.denote (t : TableDecl) : Table :=
  ⟨t.name, some (t.columns.list.map ColDecl.denote), listed (t.indexes.map IdxDecl.denote),
    listed (t.fks.map FkDecl.denote)⟩

/-- An annotation is recorded as its source text without blanks and `@`. -/
def Annot.denote (a : Annot) : Str :=
  a.target ++ "(".toList ++ glued (a.attrs.toks (Pair.toks .ASSIGN)) ++ ")".toList

/-- A statement is recorded as its tokens without anything between them. -/
def Stmt.denote (s : Stmt) : Str := glued s.toks

def ActionDecl.denote (a : ActionDecl) : Action :=
  { name := a.name
    annotations := listed (a.annotations.map Annot.denote)
    inputs := listed a.params.list
    pub := a.modifiers.contains .pub
    mutability := if a.modifiers.contains .view then "view".toList else "update".toList
    auxiliaries := if a.modifiers.contains .owner then some ["owner".toList] else none
    statements := some (a.body.list.map Stmt.denote) }

/-- The action of an `init` block. -/
def initAction (b : NE Stmt) : Action :=
  { name := "init".toList, annotations := none, inputs := none, pub := false,
    mutability := "update".toList, auxiliaries := none,
    statements := some (b.list.map Stmt.denote) }

def Program.tables (p : Program) : List TableDecl :=
  p.decls.filterMap fun | .table t => some t | _ => none

def Program.actions (p : Program) : List ActionDecl :=
  p.decls.filterMap fun | .action a => some a | _ => none

def Program.inits (p : Program) : List (NE Stmt) :=
  p.decls.filterMap fun | .init b => some b | _ => none

/-- The schema a source file stands for. -/
def Program.denote (p : Program) : Schema :=
  { owner := []
    name := p.name
    tables := listed (p.tables.map TableDecl.denote)
    actions := listed (p.actions.map ActionDecl.denote ++ p.inits.map initAction)
    extensions := listed (p.exts.map ExtDecl.denote) }

/-! ## Faults found while reading declarations -/

/-- Visibility modifiers. -/
def Modifier.isVis : Modifier → Bool
  | .pub => true
  | .priv => true
  | _ => false

/-- The complaint about the modifiers of an action, if any: more than one
visibility; `view` repeated; `owner` repeated. -/
def modifierFault (ms : List Modifier) : Option Err :=
  match ms.filter Modifier.isVis with
  | v :: _ :: _ => some (Sent.actionVisibilityAlreadySet.with v.tok.text)
  | _ =>
    if 2 ≤ ms.count .view then some (Sent.actionMutabilityAlreadySet.with "view".toList)
    else if 2 ≤ ms.count .owner then some (Sent.actionAuxiliaryAlreadySet.with "owner".toList)
    else none

/-- The first complaint about a source file: several `init` blocks, else the
first action with a modifier fault. -/
def Program.fault (p : Program) : Option Err :=
  if 2 ≤ p.inits.length then some (.sent .multiInit)
  else p.actions.findSome? fun a => modifierFault a.modifiers

end Verif
