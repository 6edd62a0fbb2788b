import Verif.Model.ContextData
import Verif.Model.Trace
/-!
# Parse trees as Go sees them: getters, type assertions and dynamic dispatch

The getters of the generated contexts run on the tables of
`Verif/Model/ContextData.lean`; `KFVisitor` (kfparser/visitor.go) written with
`v.Visit(...)`, `Accept` and type assertions, as in the source.
`Verif/Model/Trace.lean` and `Verif/Model/Visitor.lean` have the same visitor
with direct calls.
-/

namespace Verif

/-- The dynamic types of nodes: a context type of the generated parser, or
`*antlr.TerminalNodeImpl`. -/
inductive NodeType where
  | ctx (r : Rule)
  | terminal
  deriving DecidableEq, Repr

/-- Nodes of rule X are made by `NewXContext`. -/
def Tree.nodeType : Tree → NodeType
  | .node r _ => .ctx (newContext r).1
  | .leaf _ => .terminal

/-- Method sets.  A terminal has none of the methods of contexts. -/
def methodSet : NodeType → List Method
  | .ctx r => .embedded :: .getParser :: .marker (markerOf r) ::
      ((labelsOf r).map .label ++ (getters r).map fun g => .getter g.sig)
  | .terminal => []

/-- `_, ok := t.(IXContext)`: the type of `t` has all methods of the interface. -/
def Tree.implements (t : Tree) (i : Rule) : Bool :=
  (ifaceMethods i).all (methodSet t.nodeType).contains

/-- A type assertion fails.  Simplification: the message. -/
def Panic.badType : Panic := .err (.other "interface conversion".toList)

/-- `t.(IXContext)` -/
def assertTo (i : Rule) (t : Tree) : Except Panic Tree :=
  if t.implements i then .ok t else .error .badType

/-- `ctx.(antlr.RuleContext)` -/
def assertContext (t : Tree) : Except Panic Tree :=
  if (methodSet t.nodeType).contains .embedded then .ok t else .error .badType

/-- What getters return: a node or nil, or a slice of such. -/
inductive GetVal where
  | node (t : Option Tree)
  | nodes (ts : List (Option Tree))
  deriving Repr

/-! ## The bodies of getters -/

/-- kuneiform_parser.go:511-516: the loop up to `break`; the value of `t`. -/
def firstLoop (i : Rule) : List Tree → Except Panic (Option Tree)
  | [] => .ok none
  | c :: cs => if c.implements i then do return some (← assertContext c) else firstLoop i cs

/-- kuneiform_parser.go:518-522: `if t == nil { return nil }; return t.(I)` -/
def asserted (i : Rule) : Option Tree → Except Panic (Option Tree)
  | none => .ok none
  | some t => do return some (← assertTo i t)

/-- kuneiform_parser.go:535-540: the value of `len`. -/
def countLoop (i : Rule) : List Tree → Nat → Nat
  | [], n => n
  | c :: cs, n => countLoop i cs (if c.implements i then n + 1 else n)

/-- kuneiform_parser.go:543-549: `tst` after the loop. -/
def fillLoop (i item : Rule) : List Tree → Nat → List (Option Tree) → Except Panic (List (Option Tree))
  | [], _, tst => .ok tst
  | c :: cs, n, tst =>
      if c.implements i then do
        let t ← assertTo item c
        if n < tst.length then fillLoop i item cs (n + 1) (tst.set n (some t)) else .error .outOfRange
      else fillLoop i item cs n tst

/-- kuneiform_parser.go:557-565: the loop with the counter `j`. -/
def nthLoop (i : Rule) (k : Int) : List Tree → Int → Except Panic (Option Tree)
  | [], _ => .ok none
  | c :: cs, j =>
      if c.implements i then
        if j = k then do return some (← assertContext c) else nthLoop i k cs (j + 1)
      else nthLoop i k cs j

/-- The runtime's `BaseParserRuleContext.GetToken`. -/
def getToken (ty : TT) : List Tree → Int → Option Tree
  | [], _ => none
  | .leaf t :: cs, i =>
      if t.ty = ty then if i = 0 then some (.leaf t) else getToken ty cs (i - 1)
      else getToken ty cs i
  | .node _ _ :: cs, i => getToken ty cs i

/-- The runtime's `BaseParserRuleContext.GetTokens`. -/
def getTokens (ty : TT) : List Tree → List (Option Tree)
  | [] => []
  | .leaf t :: cs => if t.ty = ty then some (.leaf t) :: getTokens ty cs else getTokens ty cs
  | .node _ _ :: cs => getTokens ty cs

/-- A getter, called on a context with these children. -/
def GetBody.run : GetBody → List Tree → Int → Except Panic GetVal
  | .first i r, ks, _ => do return .node (← asserted r (← firstLoop i ks))
  | .all c i x, ks, _ => do
      return .nodes (← fillLoop i x ks 0 (List.replicate (countLoop c ks 0) none))
  | .nth i r, ks, k => do return .node (← asserted r (← nthLoop i k ks 0))
  | .token ty, ks, _ => .ok (.node (getToken ty ks 0))
  | .tokenNth ty, ks, k => .ok (.node (getToken ty ks k))
  | .tokens ty, ks, _ => .ok (.nodes (getTokens ty ks))

/-- A call that does not compile. -/
def Panic.noMethod : Panic := .str "does not compile".toList

/-- `t.name(k)`; `t.name()` if the getter has no parameter. -/
def callGetter (name : Str) (k : Int) : Tree → Except Panic GetVal
  | .leaf _ => .error .noMethod
  | .node r ks =>
      match (getters (newContext r).1).find? (·.sig.name == name) with
      | some g => g.body.run ks k
      | none => .error .noMethod

/-- `t.name(k)` where the result is a context or a terminal. -/
def getNode (name : String) (k : Int) (t : Tree) : Except Panic (Option Tree) := do
  match ← callGetter name.toList k t with
  | .node x => return x
  | .nodes _ => .error .noMethod

/-- `t.name()` where the result is a slice. -/
def getNodes (name : String) (t : Tree) : Except Panic (List (Option Tree)) := do
  match ← callGetter name.toList 0 t with
  | .nodes x => return x
  | .node _ => .error .noMethod

/-- `t.name() != nil` -/
def isSet (name : String) (t : Tree) : Except Panic Bool := do return (← getNode name 0 t).isSome

/-- `x.GetText()`, where `x` may be nil. -/
def textOf (x : Option Tree) : Except Panic Str := do return (← need x).text

/-! ## The visitor -/

/-- What the visit methods return (`interface{}`), by dynamic type.  `actionAttrs`
is the struct of kfparser/visitor.go:332-336. -/
inductive Val where
  | nil
  | schema (x : Schema)
  | extension (x : Extension)
  | configs (x : List ExtConfig)
  | table (x : Table)
  | columns (x : List Column)
  | column (x : Column)
  | attribute (x : Attribute)
  | index (x : Index)
  | strings (x : List Str)
  | foreignKey (x : ForeignKey)
  | fkAction (x : FKAction)
  | actionAttrs (x : Bool × Str × Slice Str)
  | action (x : Action)
  | string (x : Str)

/-- `x.(T)` for a result `x` of `Visit`: `f` gives the value if the type is `T`. -/
def cast {α : Type} (f : Val → Option α) (x : TM Val) : TM α := do
  match f (← x) with
  | some a => return a
  | none => silent (.error .badType)

def Val.extension? : Val → Option Extension | .extension x => some x | _ => none
def Val.configs? : Val → Option (List ExtConfig) | .configs x => some x | _ => none
def Val.table? : Val → Option Table | .table x => some x | _ => none
def Val.columns? : Val → Option (List Column) | .columns x => some x | _ => none
def Val.column? : Val → Option Column | .column x => some x | _ => none
def Val.attribute? : Val → Option Attribute | .attribute x => some x | _ => none
def Val.index? : Val → Option Index | .index x => some x | _ => none
def Val.strings? : Val → Option (List Str) | .strings x => some x | _ => none
def Val.foreignKey? : Val → Option ForeignKey | .foreignKey x => some x | _ => none
def Val.fkAction? : Val → Option FKAction | .fkAction x => some x | _ => none
def Val.actionAttrs? : Val → Option (Bool × Str × Slice Str) | .actionAttrs x => some x | _ => none
def Val.action? : Val → Option Action | .action x => some x | _ => none
def Val.string? : Val → Option Str | .string x => some x | _ => none

/-- `v.Visit`. -/
abbrev Visit := Option Tree → TM Val

/-- `for i, x := range xs { s[i] = f(x) }` with `s = make([]T, len(xs))`: the
value of `s`. -/
abbrev forEach {α : Type} (xs : List (Option Tree)) (f : Option Tree → TM α) : TM (List α) := tMap f xs

/-- `if len(xs) != 0 { s = make([]T, len(xs)); for i, x := range xs { s[i] = f(x) } }`:
the value of `s`, which is nil at first. -/
def makeEach {α : Type} (xs : List (Option Tree)) (f : Option Tree → TM α) : TM (Slice α) :=
  if xs.length != 0 then some <$> forEach xs f else pure none

/-- kfparser/visitor.go:131-133: the configuration. -/
def kfConfig (visit : Visit) (ctx : Tree) : TM (Slice ExtConfig) := do
  let c ← silent (getNode "Ext_config_list" 0 ctx)
  if c.isSome then do return some (← cast Val.configs? (visit c)) else return none

/-- kfparser/visitor.go:127-138 -/
def kfExtension (visit : Visit) (ctx : Tree) : TM Val := do
  let name ← silent (do textOf (← getNode "Extension_name" 0 ctx))
  let config ← kfConfig visit ctx
  let alias ← silent (do textOf (← getNode "Extension_name" 1 ctx))
  return .extension ⟨name, config, alias⟩

/-- kfparser/visitor.go:140-153 -/
def kfConfigs (ctx : Tree) : TM Val := do
  let all ← silent (getNodes "AllExt_config" ctx)
  return .configs (← forEach all fun config => silent do
    let c ← need config
    return ⟨← textOf (← getNode "Ext_config_name" 0 c), ← textOf (← getNode "Ext_config_value" 0 c)⟩)

/-- kfparser/visitor.go:156-183 -/
def kfTable (visit : Visit) (ctx : Tree) : TM Val := do
  let name ← silent (do textOf (← getNode "Table_name" 0 ctx))
  let l ← silent (getNode "Column_def_list" 0 ctx)
  let columns ← cast Val.columns? (visit l)
  let idx ← silent (getNodes "AllIndex_def" ctx)
  let indexes ← makeEach idx (fun x => cast Val.index? (visit x))
  let fks ← silent (getNodes "AllForeign_key_def" ctx)
  let foreignKeys ←
    makeEach fks (fun x => cast Val.foreignKey? (visit x))
  return .table ⟨name, some columns, indexes, foreignKeys⟩

/-- kfparser/visitor.go:186-196 -/
def kfColumns (visit : Visit) (ctx : Tree) : TM Val := do
  let all ← silent (getNodes "AllColumn_def" ctx)
  return .columns (← forEach all fun x => cast Val.column? (visit x))

/-- kfparser/visitor.go:203-212: the type. -/
def kfColumnType (ctx : Tree) : Except Panic Str := do
  if ← isSet "INT_" (← need (← getNode "Column_type" 0 ctx)) then return C.colInt
  else if ← isSet "TEXT_" (← need (← getNode "Column_type" 0 ctx)) then return C.colText
  else if ← isSet "BLOB_" (← need (← getNode "Column_type" 0 ctx)) then return C.colBlob
  else .error (.err (Sent.notSupportColumnType.with (← textOf (← getNode "Column_type" 0 ctx))))

/-- kfparser/visitor.go:199-224 -/
def kfColumn (visit : Visit) (ctx : Tree) : TM Val := do
  let name ← silent (do textOf (← getNode "Column_name" 0 ctx))
  let type ← silent (kfColumnType ctx)
  let all ← silent (getNodes "AllColumn_constraint" ctx)
  let attributes ←
    makeEach all (fun x => cast Val.attribute? (visit x))
  return .column ⟨name, type, attributes⟩

/-- kfparser/visitor.go:227-255 -/
def kfConstraint (ctx : Tree) : TM Val := silent do
  if ← isSet "PRIMARY_" ctx then return .attribute ⟨C.attrPrimaryKey, none⟩
  else if ← isSet "NOT_NULL_" ctx then return .attribute ⟨C.attrNotNull, none⟩
  else if ← isSet "UNIQUE_" ctx then return .attribute ⟨C.attrUnique, none⟩
  else if ← isSet "DEFAULT_" ctx then
    return .attribute ⟨C.attrDefault, some (← textOf (← getNode "Literal_value" 0 ctx))⟩
  else if ← isSet "MIN_" ctx then
    return .attribute ⟨C.attrMin, some (← textOf (← getNode "Number_value" 0 ctx))⟩
  else if ← isSet "MAX_" ctx then
    return .attribute ⟨C.attrMax, some (← textOf (← getNode "Number_value" 0 ctx))⟩
  else if ← isSet "MIN_LEN_" ctx then
    return .attribute ⟨C.attrMinLength, some (← textOf (← getNode "Number_value" 0 ctx))⟩
  else if ← isSet "MAX_LEN_" ctx then
    return .attribute ⟨C.attrMaxLength, some (← textOf (← getNode "Number_value" 0 ctx))⟩
  else return .attribute ⟨[], none⟩

/-- kfparser/visitor.go:262-269: the type. -/
def kfIndexType (ctx : Tree) : Except Panic Str := do
  if ← isSet "UNIQUE_" ctx then return C.idxUniqueBtree
  else if ← isSet "INDEX_" ctx then return C.idxBtree
  else if ← isSet "PRIMARY_" ctx then return C.idxPrimary
  else return []

/-- kfparser/visitor.go:258-274 -/
def kfIndex (visit : Visit) (ctx : Tree) : TM Val := do
  let name ← silent (do dropFirst (← textOf (← getNode "Index_name" 0 ctx)))
  let type ← silent (kfIndexType ctx)
  let l ← silent (getNode "Column_name_list" 0 ctx)
  let columns ← cast Val.strings? (visit l)
  return .index ⟨name, some columns, type⟩

/-- kfparser/visitor.go:277-286 -/
def kfColumnNames (ctx : Tree) : TM Val := do
  let all ← silent (getNodes "AllColumn_name" ctx)
  return .strings (← forEach all fun x => silent (textOf x))

/-- kfparser/visitor.go:288-304 -/
def kfForeignKey (visit : Visit) (ctx : Tree) : TM Val := do
  let l ← silent (getNode "Column_name_list" 0 ctx)
  let childKeys ← cast Val.strings? (visit l)
  let parentTable ← silent (do textOf (← getNode "Table_name" 0 ctx))
  let l' ← silent (getNode "Column_name_list" 1 ctx)
  let parentKeys ← cast Val.strings? (visit l')
  let all ← silent (getNodes "AllForeign_key_action" ctx)
  let actions ←
    makeEach all (fun x => cast Val.fkAction? (visit x))
  return .foreignKey ⟨some childKeys, some parentKeys, parentTable, actions⟩

/-- kfparser/visitor.go:306-330 -/
def kfFkAction (ctx : Tree) : TM Val := silent do
  let on ←
    if ← isSet "ACTION_ON_UPDATE_" ctx then pure C.onUpdate
    else if ← isSet "ACTION_ON_DELETE_" ctx then pure C.onDelete
    else pure []
  let doo ←
    if ← isSet "ACTION_DO_NO_ACTION_" ctx then pure C.doNoAction
    else if ← isSet "ACTION_DO_SET_NULL_" ctx then pure C.doSetNull
    else if ← isSet "ACTION_DO_SET_DEFAULT_" ctx then pure C.doSetDefault
    else if ← isSet "ACTION_DO_CASCADE_" ctx then pure C.doCascade
    else if ← isSet "ACTION_DO_RESTRICT_" ctx then pure C.doRestrict
    else pure []
  return .fkAction ⟨on, doo⟩

/-- kfparser/visitor.go:370-383: the loop over the auxiliaries. -/
def kfAuxs (seen : List Str) : List (Option Tree) → Except Panic (List Str)
  | [] => .ok []
  | x :: xs => do
      let a ← textOf x
      if seen.contains a then .error (.err (Sent.actionAuxiliaryAlreadySet.with a))
      else do
        let rest ← kfAuxs (a :: seen) xs
        return (if a = C.auxOwner then C.auxOwner else []) :: rest

/-- kfparser/visitor.go:349-357: the visibility. -/
def kfPublic (vs : List (Option Tree)) : Except Panic Bool :=
  if vs.length = 1 then do return (← textOf (← need vs[0]?)) == C.visPublic
  else if vs.length ≥ 2 then do .error (.err (Sent.actionVisibilityAlreadySet.with (← textOf (← need vs[0]?))))
  else return false

/-- kfparser/visitor.go:359-367: the mutability. -/
def kfMutability (ms : List (Option Tree)) : Except Panic Str :=
  if ms.length = 1 then do return if (← textOf (← need ms[0]?)) = C.mutView then C.mutView else C.mutUpdate
  else if ms.length ≥ 2 then do .error (.err (Sent.actionMutabilityAlreadySet.with (← textOf (← need ms[0]?))))
  else return C.mutUpdate

/-- kfparser/visitor.go:369-383: the auxiliaries. -/
def kfAuxiliaries (as : List (Option Tree)) : Except Panic (Slice Str) :=
  if as.length != 0 then do return some (← kfAuxs [] as) else return none

/-- kfparser/visitor.go:338-386 (`ctx` is never nil: `Accept` is called on it) -/
def kfActionAttrs (ctx : Tree) : TM Val := silent do
  let pub ← kfPublic (← getNodes "AllAction_visibility" ctx)
  let mutability ← kfMutability (← getNodes "AllAction_mutability" ctx)
  let auxs ← kfAuxiliaries (← getNodes "AllAction_auxiliary" ctx)
  return .actionAttrs (pub, mutability, auxs)

/-- kfparser/visitor.go:402-404: the parameters. -/
def kfInputs (visit : Visit) (ctx : Tree) : TM (Slice Str) := do
  let params ← silent (do getNodes "AllParameter" (← need (← getNode "Param_list" 0 ctx)))
  if params.length != 0 then do
    let l ← silent (getNode "Param_list" 0 ctx)
    return some (← cast Val.strings? (visit l))
  else return none

/-- kfparser/visitor.go:389-414 -/
def kfAction (visit : Visit) (ctx : Tree) : TM Val := do
  let name ← silent (do textOf (← getNode "Action_name" 0 ctx))
  let anns ← silent (getNodes "AllAnnotation_decl" ctx)
  let annotations ←
    makeEach anns (fun x => cast Val.string? (visit x))
  let inputs ← kfInputs visit ctx
  let al ← silent (getNode "Action_attr_list" 0 ctx)
  let attrs ← cast Val.actionAttrs? (visit al)
  let sl ← silent (getNode "Action_stmt_list" 0 ctx)
  let statements ← cast Val.strings? (visit sl)
  return .action { name := name, annotations := annotations, inputs := inputs, pub := attrs.1,
                   mutability := attrs.2.1, auxiliaries := attrs.2.2, statements := some statements }

/-- kfparser/visitor.go:417-426 -/
def kfParams (ctx : Tree) : TM Val := do
  let all ← silent (getNodes "AllParameter" ctx)
  return .strings (← forEach all fun x => silent (textOf x))

/-- kfparser/visitor.go:429-439 -/
def kfStmts (visit : Visit) (ctx : Tree) : TM Val := do
  let all ← silent (getNodes "AllAction_stmt" ctx)
  return .strings (← forEach all fun x => cast Val.string? (visit x))

/-- kfparser/visitor.go:442-445 -/
def kfStmt (ctx : Tree) : TM Val := pure (.string (trimSpace ctx.text))

/-- kfparser/visitor.go:448-454 -/
def kfInit (visit : Visit) (ctx : Tree) : TM Val := do
  let sl ← silent (getNode "Action_stmt_list" 0 ctx)
  let statements ← cast Val.strings? (visit sl)
  return .action { name := C.init, annotations := none, inputs := none, pub := false,
                   mutability := C.mutUpdate, auxiliaries := none, statements := some statements }

/-- kfparser/visitor.go:458-462 -/
def kfAnnotation (ctx : Tree) : TM Val := silent (do return .string (← dropFirst ctx.text))

/-- kfparser/visitor.go:104-122: the actions, and the `init` block at the end. -/
def kfActions (visit : Visit) (ctx : Tree) (inits : List (Option Tree)) : TM (Slice Action) := do
  let as ← silent (getNodes "AllAction_decl" ctx)
  if as.length != 0 then do
    let l ← forEach as fun x => cast Val.action? (visit x)
    if inits.length = 1 then do
      let i ← silent (getNode "Init_decl" 0 ctx)
      return some (l ++ [← cast Val.action? (visit i)])
    else return some l
  else if inits.length = 1 then do
    let i ← silent (getNode "Init_decl" 0 ctx)
    return some [← cast Val.action? (visit i)]
  else return none

/-- kfparser/visitor.go:78-125 -/
def kfSource (visit : Visit) (ctx : Tree) : TM Val := do
  let name ← silent (do
    textOf (← getNode "Database_name" 0 (← need (← getNode "Database_directive" 0 ctx))))
  let exts ← silent (getNodes "AllExtension_directive" ctx)
  let extensions ←
    makeEach exts (fun x => cast Val.extension? (visit x))
  let ts ← silent (getNodes "AllTable_decl" ctx)
  let tables ←
    makeEach ts (fun x => cast Val.table? (visit x))
  let inits ← silent (getNodes "AllInit_decl" ctx)
  if inits.length > 1 then silent (.error (.err (.sent .multiInit)))
  else
    let actions ← kfActions visit ctx inits
    return .schema { owner := [], name := name, tables := tables, actions := actions,
                     extensions := extensions }

/-- The methods `VisitX` that `KFVisitor` has itself. -/
def kfMethod (visit : Visit) : Rule → Option (Tree → TM Val)
  | .source_unit => some (kfSource visit)
  | .extension_directive => some (kfExtension visit)
  | .ext_config_list => some kfConfigs
  | .table_decl => some (kfTable visit)
  | .column_def_list => some (kfColumns visit)
  | .column_def => some (kfColumn visit)
  | .column_constraint => some kfConstraint
  | .index_def => some (kfIndex visit)
  | .column_name_list => some kfColumnNames
  | .foreign_key_def => some (kfForeignKey visit)
  | .foreign_key_action => some kfFkAction
  | .action_attr_list => some kfActionAttrs
  | .action_decl => some (kfAction visit)
  | .param_list => some kfParams
  | .action_stmt_list => some (kfStmts visit)
  | .action_stmt => some kfStmt
  | .init_decl => some (kfInit visit)
  | .annotation_decl => some kfAnnotation
  | _ => none

/-- `tree.Accept(v)`: the context calls the method for its rule; if `KFVisitor`
does not have it, the embedded `BaseKuneiformParserVisitor` does, and returns
the nil of the runtime's `VisitChildren`.  The `VisitTerminal` of the runtime
returns nil. -/
def acceptNode (visit : Visit) (t : Tree) : TM Val :=
  match t.nodeType with
  | .terminal => pure .nil
  | .ctx r =>
    match kfMethod visit (acceptTarget r) with
    | some m => m t
    | none => pure .nil

/-- kfparser/visitor.go:40-45 `Visit`, with `n` calls of `Visit` inside each
other at most.  For a nil tree both `GetText` and `Accept` panic. -/
def visitNode (trace : Bool) : Nat → Visit
  | 0, _ => silent (.error (.str "stack overflow".toList))
  | _, none => silent (.error .nilDeref)
  | n + 1, some t => tVisit trace t (acceptNode (visitNode trace n) t)

end Verif
