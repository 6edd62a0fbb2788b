import Verif.Model.Schema
import Verif.Model.Errors
/-!
# The validator

schema/validator.go.  The parsers of kwil-db (`actparser.Parse`,
`sqlparser.ParseSql`, `ToSQL`) are not part of this repository; they are a
parameter `Env` with arbitrary behaviour, including panics.

Go maps are modelled by lists of keys (with values where the value is a map),
in insertion order.  `declCtx` maps are only used as sets of keys.
-/

namespace Verif

/-- An argument of a call as the validator distinguishes it (`checkArgRef`,
schema/validator.go:212-235): a bind parameter with its name and what `%s`
prints for it, or any other expression, with the variables inside it (which
the validator does not look at). -/
inductive Arg where
  | bind (param printed : Str)
  | other (vars : List Str)
  deriving DecidableEq, Repr, Inhabited

/-- Result of `actparser.Parse` without error. -/
inductive Parsed where
  | dml
  | actionCall (method : Str) (args : List Arg)
  | extCall (ext : Str) (args : List Arg) (receivers : List Str)
  /-- any other dynamic type: no case of the switch applies -/
  | unknown
  deriving DecidableEq, Repr, Inhabited

/-- How a call can fail: by returning an error, or by panicking. -/
inductive Fail where
  | err (e : Err)
  | panic (p : Panic)
  deriving DecidableEq, Repr, Inhabited

/-- The external parsers. -/
structure Env where
  /-- `actparser.Parse(statement)` -/
  actParse : Str → Except Fail Parsed
  /-- `sqlparser.ParseSql(statement, 1, nil, false)` followed by `ToSQL()`:
  the first failure of the two -/
  sqlCheck : Str → Option Fail

/-- schema/validator.go:37-42 `ContextValidator`. -/
structure Ctx where
  tables : List (Str × List Str)
  actions : List (Str × List Str)
  exts : List Str
  current : Str
  deriving DecidableEq, Repr, Inhabited

/-- schema/validator.go:44-51 `NewCtxValidator`. -/
def Ctx.new : Ctx := ⟨[], [], [], "current".toList⟩

/-- Lookup in a map of maps; a missing key gives a nil map, which is empty. -/
def lookupD (m : List (Str × List Str)) (k : Str) : List Str := (m.lookup k).getD []

/-- Is the key present? -/
def hasKey (m : List (Str × List Str)) (k : Str) : Bool := (m.lookup k).isSome

/-- The name an extension is known by, schema/validator.go:56-59. -/
def Extension.known (e : Extension) : Str := if e.alias = [] then e.name else e.alias

/-- schema/validator.go:55-64 -/
def visitExts : List Str → List Extension → List Str × Option Err
  | m, [] => (m, none)
  | m, e :: es =>
      if m.contains e.known then (m, some (Sent.duplicateExtension.with e.known))
      else visitExts (m ++ [e.known]) es

/-- `col.Type.String() + "(" + attr.Type.String() + ")"` -/
def notAllowedMsg (ty attr : Str) : Str := ty ++ "(".toList ++ attr ++ ")".toList

/-- schema/validator.go:146-164 `VisitColumn`, with the attribute types seen. -/
def checkAttrs (ty : Str) : List Str → List Attribute → Option Err
  | _, [] => none
  | seen, a :: as =>
      if seen.contains a.type then some (Sent.duplicateAttribute.with a.type)
      else if ty = C.colInt ∧ (a.type = C.attrMinLength ∨ a.type = C.attrMaxLength) then
        some (Sent.attributeNotAllow.with (notAllowedMsg ty a.type))
      else if ty = C.colText ∧ (a.type = C.attrMin ∨ a.type = C.attrMax) then
        some (Sent.attributeNotAllow.with (notAllowedMsg ty a.type))
      else checkAttrs ty (seen ++ [a.type]) as

/-- schema/validator.go:119-129, with the names declared so far. -/
def visitCols : List Str → List Column → List Str × Option Err
  | m, [] => (m, none)
  | m, c :: cs =>
      if m.contains c.name then (m, some (Sent.duplicateColumn.with c.name))
      else
        match checkAttrs c.type [] c.attributes.elems with
        | some e => (m ++ [c.name], some e)
        | none => visitCols (m ++ [c.name]) cs

/-- schema/validator.go:170-177 `VisitIndex`. -/
def checkIndexCols (cur : Str) (m : List Str) : List Str → Option Err
  | [] => none
  | col :: cols =>
      if m.contains col then checkIndexCols cur m cols
      else some (Sent.columnNotFound.with
        ("index(".toList ++ cur ++ "/".toList ++ col ++ ")".toList))

/-- schema/validator.go:131-141, with the names declared so far. -/
def visitIdxs (cur : Str) : List Str → List Index → List Str × Option Err
  | m, [] => (m, none)
  | m, i :: is =>
      if m.contains i.name then (m, some (Sent.duplicateIndex.with i.name))
      else
        match checkIndexCols cur (m ++ [i.name]) i.columns.elems with
        | some e => (m ++ [i.name], some e)
        | none => visitIdxs cur (m ++ [i.name]) is

/-- schema/validator.go:116-144 `VisitTable`.  Simplification: the entry of
the table is added when the table is finished, not updated name by name. -/
def visitTableV (c : Ctx) (t : Table) : Ctx × Option Err :=
  match visitCols [] t.columns.elems with
  | (m, some e) => ({ c with tables := c.tables ++ [(c.current, m)] }, some e)
  | (m, none) =>
      match visitIdxs c.current m t.indexes.elems with
      | (m, e) => ({ c with tables := c.tables ++ [(c.current, m)] }, e)

/-- schema/validator.go:66-74 -/
def visitTables : Ctx → List Table → Ctx × Option Err
  | c, [] => (c, none)
  | c, t :: ts =>
      if hasKey c.tables t.name then (c, some (Sent.duplicateTable.with t.name))
      else
        match visitTableV { c with current := t.name } t with
        | (c, some e) => (c, some e)
        | (c, none) => visitTables c ts

/-- schema/validator.go:311-316, with the parameters seen so far. -/
def visitParams : List Str → List Str → List Str × Option Err
  | m, [] => (m, none)
  | m, i :: is =>
      if m.contains i then (m, some (Sent.duplicateParam.with i))
      else visitParams (m ++ [i]) is

/-- schema/validator.go:300-319 `VisitAction`. -/
def visitActionV (c : Ctx) (a : Action) : Ctx × Option Err :=
  match visitParams [] a.inputs.elems with
  | (m, e) => ({ c with actions := c.actions ++ [(c.current, m)] }, e)

/-- schema/validator.go:76-84 -/
def visitActionDecls : Ctx → List Action → Ctx × Option Err
  | c, [] => (c, none)
  | c, a :: as =>
      if hasKey c.actions a.name then (c, some (Sent.duplicateAction.with a.name))
      else
        match visitActionV { c with current := a.name } a with
        | (c, some e) => (c, some e)
        | (c, none) => visitActionDecls c as

/-- schema/validator.go:91-95 -/
def checkChildKeys (c : Ctx) (t : Str) : List Str → Option Err
  | [] => none
  | col :: cols =>
      if (lookupD c.tables t).contains col then checkChildKeys c t cols
      else some (Sent.columnNotFound.with
        ("fk(".toList ++ t ++ "/".toList ++ col ++ ")".toList))

/-- schema/validator.go:184-188 -/
def checkParentKeys (c : Ctx) (t : Str) : List Str → Option Err
  | [] => none
  | col :: cols =>
      if (lookupD c.tables t).contains col then checkParentKeys c t cols
      else some (Sent.columnNotFound.with
        ("ref(".toList ++ t ++ "->".toList ++ col ++ ")".toList))

/-- schema/validator.go:190-196 -/
def checkFKActions : List Str → List FKAction → Option Err
  | _, [] => none
  | seen, a :: as =>
      if seen.contains a.on then some (Sent.dupFKAction.with a.on)
      else checkFKActions (seen ++ [a.on]) as

/-- schema/validator.go:179-199 `VisitForeignKey`. -/
def checkForeignKey (c : Ctx) (fk : ForeignKey) : Option Err :=
  if hasKey c.tables fk.parentTable then
    match checkParentKeys c fk.parentTable fk.parentKeys.elems with
    | some e => some e
    | none => checkFKActions [] fk.actions.elems
  else some (Sent.tableNotFound.with fk.parentTable)

/-- schema/validator.go:89-101 -/
def checkFKs (c : Ctx) (t : Str) : List ForeignKey → Option Err
  | [] => none
  | fk :: fks =>
      match checkChildKeys c t fk.childKeys.elems with
      | some e => some e
      | none =>
        match checkForeignKey c fk with
        | some e => some e
        | none => checkFKs c t fks

/-- schema/validator.go:86-102 -/
def checkAllFKs (c : Ctx) : List Table → Option Err
  | [] => none
  | t :: ts =>
      match checkFKs c t.name t.foreignKeys.elems with
      | some e => some e
      | none => checkAllFKs c ts

/-- schema/validator.go:212-235 `checkArgRef`. -/
def checkArg (params «local» : List Str) : Arg → Option Err
  | .other _ => none
  | .bind p printed =>
      if p.head? = some '$' ∧ ¬ p ∈ params ∧ ¬ p ∈ «local» then
        some (Sent.variableNotFound.with printed)
      else if p.head? = some '@' ∧ p ≠ "@caller".toList then
        some (Sent.variableNotFound.with printed)
      else none

/-- The loops over `s.Args`. -/
def checkArgs (params «local» : List Str) : List Arg → Option Err
  | [] => none
  | a :: as =>
      match checkArg params «local» a with
      | some e => some e
      | none => checkArgs params «local» as

/-- schema/validator.go:283-291: the receivers of one line; `line` are those
already seen on it.  Returns the extended local variables. -/
def addReceivers : List Str → List Str → List Str → Except Err (List Str)
  | _, «local», [] => .ok «local»
  | line, «local», r :: rs =>
      if line.contains r then .error (Sent.duplicateVariable.with r)
      else addReceivers (line ++ [r]) («local» ++ [r]) rs

/-- One statement, schema/validator.go:247-293: the new local variables. -/
def checkStmt (env : Env) (c : Ctx) (action : Str) («local» : List Str) (stmt : Str) :
    Except Fail (List Str) :=
  match env.actParse stmt with
  | .error (.err e) => .error (.err (.wrap e stmt))
  | .error (.panic p) => .error (.panic p)
  | .ok .unknown => .ok «local»
  | .ok .dml =>
      match env.sqlCheck stmt with
      | some (.err e) => .error (.err (.wrap e stmt))
      | some (.panic p) => .error (.panic p)
      | none => .ok «local»
  | .ok (.actionCall m args) =>
      if hasKey c.actions m then
        match checkArgs (lookupD c.actions action) «local» args with
        | some e => .error (.err e)
        | none => .ok «local»
      else .error (.err (Sent.actionNotFound.with m))
  | .ok (.extCall e args rs) =>
      if c.exts.contains e then
        match checkArgs (lookupD c.actions action) «local» args with
        | some e => .error (.err e)
        | none =>
          match addReceivers [] «local» rs with
          | .error e => .error (.err e)
          | .ok l => .ok l
      else .error (.err (Sent.extensionNotFound.with e))

/-- schema/validator.go:246-295 -/
def checkStmts (env : Env) (c : Ctx) (action : Str) : List Str → List Str → Option Fail
  | _, [] => none
  | «local», s :: ss =>
      match checkStmt env c action «local» s with
      | .error f => some f
      | .ok l => checkStmts env c action l ss

/-- schema/validator.go:237-298 `visitActions`. -/
def checkBodies (env : Env) (c : Ctx) : List Action → Option Fail
  | [] => none
  | a :: as =>
      match checkStmts env c a.name a.inputs.elems a.statements.elems with
      | some f => some f
      | none => checkBodies env c as

/-- schema/validator.go:54-109 `VisitSchema`: the validator afterwards, and
the failure if any. -/
def visitSchema (env : Env) (c : Ctx) (s : Schema) : Ctx × Option Fail :=
  match visitExts c.exts s.extensions.elems with
  | (x, some e) => ({ c with exts := x }, some (.err e))
  | (x, none) =>
    match visitTables { c with exts := x } s.tables.elems with
    | (c, some e) => (c, some (.err e))
    | (c, none) =>
      match visitActionDecls c s.actions.elems with
      | (c, some e) => (c, some (.err e))
      | (c, none) =>
        match checkAllFKs c s.tables.elems with
        | some e => (c, some (.err e))
        | none => (c, checkBodies env c s.actions.elems)

/-- kfparser/parser.go:74-75 with schema/schema.go:119-121: validation with a
new validator. -/
def validate (env : Env) (s : Schema) : Option Fail := (visitSchema env Ctx.new s).2

end Verif
