import Verif.Model.Visitor
/-!
# The visitor in trace mode

kfparser/visitor.go:39-44: in trace mode every `Visit` prints the dynamic type
and the text of the context it is called on, before the context is visited.
The functions below are those of `Verif/Model/Visitor.lean` with this output;
`traced_result` (Verif/Proof/Trace.lean) says that they return the same.
(`VisitChildren`, kfparser/visitor.go:50-66, is never called: every rule whose
context is visited has its own method.)
-/

namespace Verif

/-- A computation that prints and may panic: what was printed (one element per
call of `fmt.Printf`, without the final line break), and the result. -/
structure TM (α : Type) where
  out : List Str
  res : Except Panic α

/-- Sequencing: after a panic nothing more is printed. -/
def TM.bind {α β : Type} (x : TM α) (f : α → TM β) : TM β :=
  match x.2 with
  | .ok a => ⟨x.1 ++ (f a).1, (f a).2⟩
  | .error p => ⟨x.1, .error p⟩

instance : Monad TM where
  pure a := ⟨[], .ok a⟩
  bind := TM.bind

/-- A step that prints nothing. -/
def silent {α : Type} (x : Except Panic α) : TM α := ⟨[], x⟩

/-- A loop that visits the elements of a list in turn. -/
def tMap {α β : Type} (f : α → TM β) : List α → TM (List β)
  | [] => pure []
  | x :: xs => do
      let y ← f x
      let ys ← tMap f xs
      return y :: ys

/-- The names of the context types (kfgrammar/kuneiform_parser.go, `type
...Context struct`). -/
def Rule.goType : Rule → Str
  | .source_unit => "Source_unitContext".toList
  | .database_directive => "Database_directiveContext".toList
  | .extension_directive => "Extension_directiveContext".toList
  | .ext_config_list => "Ext_config_listContext".toList
  | .ext_config => "Ext_configContext".toList
  | .annotation_decl => "Annotation_declContext".toList
  | .annotation_attr_list => "Annotation_attr_listContext".toList
  | .annotation_attr => "Annotation_attrContext".toList
  | .table_decl => "Table_declContext".toList
  | .column_def => "Column_defContext".toList
  | .column_def_list => "Column_def_listContext".toList
  | .column_type => "Column_typeContext".toList
  | .column_constraint => "Column_constraintContext".toList
  | .literal_value => "Literal_valueContext".toList
  | .number_value => "Number_valueContext".toList
  | .index_def => "Index_defContext".toList
  | .foreign_key_action => "Foreign_key_actionContext".toList
  | .foreign_key_def => "Foreign_key_defContext".toList
  | .action_visibility => "Action_visibilityContext".toList
  | .action_mutability => "Action_mutabilityContext".toList
  | .action_auxiliary => "Action_auxiliaryContext".toList
  | .action_attr_list => "Action_attr_listContext".toList
  | .action_decl => "Action_declContext".toList
  | .param_list => "Param_listContext".toList
  | .parameter => "ParameterContext".toList
  | .database_name => "Database_nameContext".toList
  | .extension_name => "Extension_nameContext".toList
  | .ext_config_name => "Ext_config_nameContext".toList
  | .table_name => "Table_nameContext".toList
  | .action_name => "Action_nameContext".toList
  | .column_name => "Column_nameContext".toList
  | .column_name_list => "Column_name_listContext".toList
  | .index_name => "Index_nameContext".toList
  | .annotation_target_name => "Annotation_target_nameContext".toList
  | .annotation_attr_name => "Annotation_attr_nameContext".toList
  | .annotation_attr_value => "Annotation_attr_valueContext".toList
  | .ext_config_value => "Ext_config_valueContext".toList
  | .init_decl => "Init_declContext".toList
  | .action_stmt_list => "Action_stmt_listContext".toList
  | .action_stmt => "Action_stmtContext".toList
  | .sql_stmt => "Sql_stmtContext".toList
  | .call_stmt => "Call_stmtContext".toList
  | .call_receivers => "Call_receiversContext".toList
  | .call_body => "Call_bodyContext".toList
  | .variable => "VariableContext".toList
  | .block_var => "Block_varContext".toList
  | .extension_call_name => "Extension_call_nameContext".toList
  | .fn_name => "Fn_nameContext".toList
  | .sfn_name => "Sfn_nameContext".toList
  | .fn_arg_list => "Fn_arg_listContext".toList
  | .fn_arg_expr => "Fn_arg_exprContext".toList

/-- What `reflect.TypeOf` prints: kfparser/visitor.go:41. -/
def Tree.goType : Tree → Str
  | .node r _ => "*kfgrammar.".toList ++ r.goType
  | .leaf _ => "*antlr.TerminalNodeImpl".toList

/-- kfparser/visitor.go:41: the line printed for a context. -/
def visitLine (t : Tree) : Str :=
  "visit tree: ".toList ++ t.goType ++ ", ".toList ++ t.text

/-- kfparser/visitor.go:39-44 `Visit`: print, then visit. -/
def tVisit {α : Type} (trace : Bool) (t : Tree) (k : TM α) : TM α := do
  (if trace then ⟨[visitLine t], .ok ()⟩ else ⟨[], .ok ()⟩ : TM Unit)
  k

/-- kfparser/visitor.go:131-133: the configuration of an extension. -/
def tExtConfig (b : Bool) : Option Tree → TM (Slice ExtConfig)
  | none => pure none
  | some l => do return some (← tVisit b l (silent (visitExtConfigList l)))

/-- kfparser/visitor.go:127-138 `VisitExtension_directive` -/
def tExtension (b : Bool) (t : Tree) : TM Extension := do
  let name ← silent (t.getText .extension_name 0)
  let config ← tExtConfig b (t.get .ext_config_list 0)
  let alias ← silent (t.getText .extension_name 1)
  return ⟨name, config, alias⟩

/-- kfparser/visitor.go:199-224 `VisitColumn_def` -/
def tColumn (b : Bool) (t : Tree) : TM Column := do
  let name ← silent (t.getText .column_name 0)
  let ct ← silent (need (t.get .column_type 0))
  let type ← silent (
    if ct.has .INT_ then pure C.colInt
    else if ct.has .TEXT_ then pure C.colText
    else if ct.has .BLOB_ then pure C.colBlob
    else .error (.err (Sent.notSupportColumnType.with ct.text)))
  let attrs ← tMap (fun c => tVisit b c (silent (visitConstraint c))) (t.all .column_constraint)
  return ⟨name, type, Slice.ofNonempty attrs⟩

/-- kfparser/visitor.go:186-196 `VisitColumn_def_list` -/
def tColumns (b : Bool) (t : Tree) : TM (List Column) :=
  tMap (fun c => tVisit b c (tColumn b c)) (t.all .column_def)

/-- kfparser/visitor.go:258-274 `VisitIndex_def` -/
def tIndex (b : Bool) (t : Tree) : TM Index := do
  let name ← silent (do dropFirst (← t.getText .index_name 0))
  let type :=
    if t.has .UNIQUE_ then C.idxUniqueBtree
    else if t.has .INDEX_ then C.idxBtree
    else if t.has .PRIMARY_ then C.idxPrimary
    else []
  let l ← silent (need (t.get .column_name_list 0))
  let cols ← tVisit b l (pure (visitColumnNames l))
  return ⟨name, some cols, type⟩

/-- kfparser/visitor.go:288-304 `VisitForeign_key_def` -/
def tForeignKey (b : Bool) (t : Tree) : TM ForeignKey := do
  let l ← silent (need (t.get .column_name_list 0))
  let child ← tVisit b l (pure (visitColumnNames l))
  let table ← silent (t.getText .table_name 0)
  let l' ← silent (need (t.get .column_name_list 1))
  let parent ← tVisit b l' (pure (visitColumnNames l'))
  let acts ← tMap (fun a => tVisit b a (pure (visitFKAction a))) (t.all .foreign_key_action)
  return ⟨some child, some parent, table, Slice.ofNonempty acts⟩

/-- kfparser/visitor.go:156-183 `VisitTable_decl` -/
def tTable (b : Bool) (t : Tree) : TM Table := do
  let name ← silent (t.getText .table_name 0)
  let l ← silent (need (t.get .column_def_list 0))
  let cols ← tVisit b l (tColumns b l)
  let idx ← tMap (fun i => tVisit b i (tIndex b i)) (t.all .index_def)
  let fks ← tMap (fun f => tVisit b f (tForeignKey b f)) (t.all .foreign_key_def)
  return ⟨name, some cols, Slice.ofNonempty idx, Slice.ofNonempty fks⟩

/-- kfparser/visitor.go:429-439 `VisitAction_stmt_list` -/
def tStmts (b : Bool) (t : Tree) : TM (List Str) :=
  tMap (fun s => tVisit b s (pure (visitStmt s))) (t.all .action_stmt)

/-- kfparser/visitor.go:402-404 and 417-426 `VisitParam_list`: the parameter
list is visited only if it has a parameter. -/
def tParams (b : Bool) (pl : Tree) : TM (List Str) :=
  if (pl.all .parameter).length != 0 then
    tVisit b pl (pure ((pl.all .parameter).map (·.text)))
  else pure []

/-- kfparser/visitor.go:389-414 `VisitAction_decl` -/
def tAction (b : Bool) (t : Tree) : TM Action := do
  let name ← silent (t.getText .action_name 0)
  let anns ← tMap (fun a => tVisit b a (silent (visitAnnotation a))) (t.all .annotation_decl)
  let pl ← silent (need (t.get .param_list 0))
  let params ← tParams b pl
  let al ← silent (need (t.get .action_attr_list 0))
  let attrs ← tVisit b al (silent (visitActionAttrs al))
  let sl ← silent (need (t.get .action_stmt_list 0))
  let stmts ← tVisit b sl (tStmts b sl)
  return { name := name, annotations := Slice.ofNonempty anns, inputs := Slice.ofNonempty params,
           pub := attrs.1, mutability := attrs.2.1, auxiliaries := attrs.2.2,
           statements := some stmts }

/-- kfparser/visitor.go:448-454 `VisitInit_decl` -/
def tInit (b : Bool) (t : Tree) : TM Action := do
  let sl ← silent (need (t.get .action_stmt_list 0))
  let stmts ← tVisit b sl (tStmts b sl)
  return { name := C.init, annotations := none, inputs := none, pub := false,
           mutability := C.mutUpdate, auxiliaries := none, statements := some stmts }

/-- kfparser/visitor.go:111-122: the `init` block, if any. -/
def tLast (b : Bool) : List Tree → TM (List Action)
  | [] => pure []
  | i :: _ => do return [← tVisit b i (tInit b i)]

/-- kfparser/visitor.go:78-125 `VisitSource_unit` -/
def tSource (b : Bool) (t : Tree) : TM Schema := do
  let name ← silent (do (← need (t.get .database_directive 0)).getText .database_name 0)
  let exts ← tMap (fun e => tVisit b e (tExtension b e)) (t.all .extension_directive)
  let tables ← tMap (fun x => tVisit b x (tTable b x)) (t.all .table_decl)
  let inits := t.all .init_decl
  if inits.length > 1 then silent (.error (.err (.sent .multiInit)))
  else
    let actions ← tMap (fun a => tVisit b a (tAction b a)) (t.all .action_decl)
    let last ← tLast b inits
    return { owner := [], name := name, tables := Slice.ofNonempty tables,
             actions := Slice.ofNonempty (actions ++ last),
             extensions := Slice.ofNonempty exts }

/-- kfparser/parser.go:69: `visitor.Visit(parseTree)`. -/
def tVisitSource (b : Bool) (t : Tree) : TM Schema := tVisit b t (tSource b t)

end Verif
