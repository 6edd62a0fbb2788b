import Verif.Model.Parser
import Verif.Model.Schema
import Verif.Model.Errors
/-!
# The visitor

kfparser/visitor.go: from parse tree to schema.  Panics are values of
`Except Panic`.  Tracing output (`fmt.Printf` when `v.trace`) is added in
`Verif/Model/Trace.lean`.
-/

namespace Verif

/-- Children of a context (`GetChildren`). -/
def Tree.kids : Tree → List Tree
  | .leaf _ => []
  | .node _ ks => ks

/-- Is it a context of the rule? -/
def Tree.isRule (r : Rule) : Tree → Bool
  | .node r' _ => r == r'
  | .leaf _ => false

/-- Is it a terminal of the token type? -/
def Tree.isTok (ty : TT) : Tree → Bool
  | .leaf t => t.ty == ty
  | .node _ _ => false

/-- `ctx.AllX()`: children that are contexts of rule X (generated getters,
for example kuneiform_parser.go:560-580). -/
def Tree.all (r : Rule) (t : Tree) : List Tree := t.kids.filter (·.isRule r)

/-- `ctx.X()`, the first child of rule X, or `ctx.X(i)`; `none` is nil. -/
def Tree.get (r : Rule) (i : Nat) (t : Tree) : Option Tree := (t.all r)[i]?

/-- `ctx.TOKEN_() != nil`. -/
def Tree.has (ty : TT) (t : Tree) : Bool := t.kids.any (·.isTok ty)

/-- Using a context that may be nil. -/
def need {α : Type} : Option α → Except Panic α
  | some a => .ok a
  | none => .error .nilDeref

/-- `ctx.X().GetText()`. -/
def Tree.getText (r : Rule) (i : Nat) (t : Tree) : Except Panic Str := do
  return (← need (t.get r i)).text

/-- `s[1:]`.  Simplification: Go slices bytes; the first character is `#` or
`@` in every tree of the parser, one byte. -/
def dropFirst : Str → Except Panic Str
  | [] => .error .outOfRange
  | _ :: cs => .ok cs

/-- `unicode.IsSpace`. -/
def isSpace (c : Char) : Bool :=
  inRanges c.toNat
where
  inRanges (n : Nat) : Bool :=
    (9 ≤ n && n ≤ 13) || n == 32 || n == 0x85 || n == 0xA0 || n == 0x1680 ||
    (0x2000 ≤ n && n ≤ 0x200a) || n == 0x2028 || n == 0x2029 || n == 0x202f || n == 0x205f ||
    n == 0x3000

/-- `strings.TrimSpace`. -/
def trimSpace (s : Str) : Str :=
  ((s.dropWhile isSpace).reverse.dropWhile isSpace).reverse

/-- kfparser/visitor.go:140-153 `VisitExt_config_list` -/
def visitExtConfigList (t : Tree) : Except Panic (List ExtConfig) :=
  (t.all .ext_config).mapM fun c => do
    return ⟨← c.getText .ext_config_name 0, ← c.getText .ext_config_value 0⟩

/-- kfparser/visitor.go:127-138 `VisitExtension_directive` -/
def visitExtension (t : Tree) : Except Panic Extension := do
  let name ← t.getText .extension_name 0
  let config ← match t.get .ext_config_list 0 with
    | none => pure none
    | some l => do pure (some (← visitExtConfigList l))
  let alias ← t.getText .extension_name 1
  return ⟨name, config, alias⟩

/-- kfparser/visitor.go:227-255 `VisitColumn_constraint` -/
def visitConstraint (t : Tree) : Except Panic Attribute :=
  if t.has .PRIMARY_ then .ok ⟨C.attrPrimaryKey, none⟩
  else if t.has .NOT_NULL_ then .ok ⟨C.attrNotNull, none⟩
  else if t.has .UNIQUE_ then .ok ⟨C.attrUnique, none⟩
  else if t.has .DEFAULT_ then do return ⟨C.attrDefault, some (← t.getText .literal_value 0)⟩
  else if t.has .MIN_ then do return ⟨C.attrMin, some (← t.getText .number_value 0)⟩
  else if t.has .MAX_ then do return ⟨C.attrMax, some (← t.getText .number_value 0)⟩
  else if t.has .MIN_LEN_ then do return ⟨C.attrMinLength, some (← t.getText .number_value 0)⟩
  else if t.has .MAX_LEN_ then do return ⟨C.attrMaxLength, some (← t.getText .number_value 0)⟩
  else .ok ⟨[], none⟩

/-- kfparser/visitor.go:199-224 `VisitColumn_def` -/
def visitColumn (t : Tree) : Except Panic Column := do
  let name ← t.getText .column_name 0
  let ct ← need (t.get .column_type 0)
  let type ←
    if ct.has .INT_ then pure C.colInt
    else if ct.has .TEXT_ then pure C.colText
    else if ct.has .BLOB_ then pure C.colBlob
    else .error (.err (Sent.notSupportColumnType.with ct.text))
  let attrs ← (t.all .column_constraint).mapM visitConstraint
  return ⟨name, type, Slice.ofNonempty attrs⟩

/-- kfparser/visitor.go:186-196 `VisitColumn_def_list` -/
def visitColumns (t : Tree) : Except Panic (List Column) := (t.all .column_def).mapM visitColumn

/-- kfparser/visitor.go:277-286 `VisitColumn_name_list` -/
def visitColumnNames (t : Tree) : List Str := (t.all .column_name).map (·.text)

/-- kfparser/visitor.go:258-274 `VisitIndex_def` -/
def visitIndex (t : Tree) : Except Panic Index := do
  let name ← dropFirst (← t.getText .index_name 0)
  let type :=
    if t.has .UNIQUE_ then C.idxUniqueBtree
    else if t.has .INDEX_ then C.idxBtree
    else if t.has .PRIMARY_ then C.idxPrimary
    else []
  let cols := visitColumnNames (← need (t.get .column_name_list 0))
  return ⟨name, some cols, type⟩

/-- kfparser/visitor.go:306-330 `VisitForeign_key_action` -/
def visitFKAction (t : Tree) : FKAction :=
  { on :=
      if t.has .ACTION_ON_UPDATE_ then C.onUpdate
      else if t.has .ACTION_ON_DELETE_ then C.onDelete
      else []
    doo :=
      if t.has .ACTION_DO_NO_ACTION_ then C.doNoAction
      else if t.has .ACTION_DO_SET_NULL_ then C.doSetNull
      else if t.has .ACTION_DO_SET_DEFAULT_ then C.doSetDefault
      else if t.has .ACTION_DO_CASCADE_ then C.doCascade
      else if t.has .ACTION_DO_RESTRICT_ then C.doRestrict
      else [] }

/-- kfparser/visitor.go:288-304 `VisitForeign_key_def` -/
def visitForeignKey (t : Tree) : Except Panic ForeignKey := do
  let child := visitColumnNames (← need (t.get .column_name_list 0))
  let table ← t.getText .table_name 0
  let parent := visitColumnNames (← need (t.get .column_name_list 1))
  let acts := (t.all .foreign_key_action).map visitFKAction
  return ⟨some child, some parent, table, Slice.ofNonempty acts⟩

/-- kfparser/visitor.go:156-183 `VisitTable_decl` -/
def visitTable (t : Tree) : Except Panic Table := do
  let name ← t.getText .table_name 0
  let cols ← visitColumns (← need (t.get .column_def_list 0))
  let idx ← (t.all .index_def).mapM visitIndex
  let fks ← (t.all .foreign_key_def).mapM visitForeignKey
  return ⟨name, some cols, Slice.ofNonempty idx, Slice.ofNonempty fks⟩

/-- The loop over the auxiliaries, kfparser/visitor.go:372-382, with the set
of texts seen so far. -/
def visitAuxs : List Str → List Str → Except Panic (List Str)
  | _, [] => .ok []
  | seen, a :: as =>
      if seen.contains a then .error (.err (Sent.actionAuxiliaryAlreadySet.with a))
      else do
        let rest ← visitAuxs (a :: seen) as
        return (if a = C.auxOwner then C.auxOwner else []) :: rest

/-- kfparser/visitor.go:338-386 `VisitAction_attr_list`: public, mutability,
auxiliaries.  (The generated getter returns a non-nil context, so the `ctx ==
nil` case does not arise.) -/
def visitActionAttrs (t : Tree) : Except Panic (Bool × Str × Slice Str) := do
  let pub ← match (t.all .action_visibility).map (·.text) with
    | [] => pure false
    | [v] => pure (v == C.visPublic)
    | v :: _ => .error (.err (Sent.actionVisibilityAlreadySet.with v))
  let mutab ← match (t.all .action_mutability).map (·.text) with
    | [] => pure C.mutUpdate
    | [m] => pure (if m = C.mutView then C.mutView else C.mutUpdate)
    | m :: _ => .error (.err (Sent.actionMutabilityAlreadySet.with m))
  let auxs ← visitAuxs [] ((t.all .action_auxiliary).map (·.text))
  return (pub, mutab, Slice.ofNonempty auxs)

/-- kfparser/visitor.go:442-445 `VisitAction_stmt` -/
def visitStmt (t : Tree) : Str := trimSpace t.text

/-- kfparser/visitor.go:429-439 `VisitAction_stmt_list` -/
def visitStmts (t : Tree) : List Str := (t.all .action_stmt).map visitStmt

/-- kfparser/visitor.go:458-462 `VisitAnnotation_decl` -/
def visitAnnotation (t : Tree) : Except Panic Str := dropFirst t.text

/-- kfparser/visitor.go:389-414 `VisitAction_decl`, with `VisitParam_list`
(417-426) inlined. -/
def visitAction (t : Tree) : Except Panic Action := do
  let name ← t.getText .action_name 0
  let anns ← (t.all .annotation_decl).mapM visitAnnotation
  let params := (← need (t.get .param_list 0)).all .parameter |>.map (·.text)
  let attrs ← visitActionAttrs (← need (t.get .action_attr_list 0))
  let stmts := visitStmts (← need (t.get .action_stmt_list 0))
  return { name := name, annotations := Slice.ofNonempty anns, inputs := Slice.ofNonempty params,
           pub := attrs.1, mutability := attrs.2.1, auxiliaries := attrs.2.2,
           statements := some stmts }

/-- kfparser/visitor.go:448-454 `VisitInit_decl` -/
def visitInit (t : Tree) : Except Panic Action := do
  let stmts := visitStmts (← need (t.get .action_stmt_list 0))
  return { name := C.init, annotations := none, inputs := none, pub := false,
           mutability := C.mutUpdate, auxiliaries := none, statements := some stmts }

/-- kfparser/visitor.go:78-125 `VisitSource_unit` -/
def visitSource (t : Tree) : Except Panic Schema := do
  let name ← (← need (t.get .database_directive 0)).getText .database_name 0
  let exts ← (t.all .extension_directive).mapM visitExtension
  let tables ← (t.all .table_decl).mapM visitTable
  let inits := t.all .init_decl
  if inits.length > 1 then .error (.err (.sent .multiInit))
  else
    let actions ← (t.all .action_decl).mapM visitAction
    let last ← match inits with
      | [] => pure []
      | i :: _ => do pure [← visitInit i]
    return { owner := [], name := name, tables := Slice.ofNonempty tables,
             actions := Slice.ofNonempty (actions ++ last),
             extensions := Slice.ofNonempty exts }

end Verif
