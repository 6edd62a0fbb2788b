import Verif.Proof.Dispatch
/-!
# The methods of the visitor
-/

namespace Verif

/-- What `Visit` of a node comes to. -/
theorem visitNode_some (b : Bool) (n : Nat) (r : Rule) (ks : List Tree) (m : Tree → TM Val)
    (h : kfMethod (visitNode b n) r = some m) (ha : acceptTarget r = r) :
    visitNode b (n + 1) (some (.node r ks)) = tVisit b (.node r ks) (m (.node r ks)) := by
  rw [visitNode, acceptNode, Tree.nodeType, newContext_eq]
  simp only [ha, h]

theorem visitNode_none (b : Bool) (n : Nat) : visitNode b n none = silent (.error
    (if n = 0 then .str "stack overflow".toList else .nilDeref)) := by
  cases n <;> rfl

/-- Visiting the result of a getter. -/
theorem visit_need {α : Type} (b : Bool) (n : Nat) (f : Val → Option α) (x : Option Tree) (k : Tree → TM α)
    (h : ∀ t, x = some t → cast f (visitNode b (n + 1) (some t)) = tVisit b t (k t)) :
    cast f (visitNode b (n + 1) x) = (silent (need x) >>= fun t => tVisit b t (k t)) := by
  cases x with
  | none => rfl
  | some t => rw [h t rfl]; rfl

/-- Visiting all children of a rule. -/
theorem visit_all {α : Type} (b : Bool) (n : Nat) (f : Val → Option α) (l : List Tree) (k : Tree → TM α)
    (h : ∀ t ∈ l, cast f (visitNode b n (some t)) = tVisit b t (k t)) :
    tMap (fun x => cast f (visitNode b n x)) (l.map some) = tMap (fun t => tVisit b t (k t)) l := by
  rw [tMap_map]
  exact tMap_congr h

theorem textOf_get (t : Tree) (r : Rule) (i : Nat) : textOf (t.get r i) = t.getText r i := rfl

/-! ### Methods without further visits -/

theorem names_eq (b : Bool) (n : Nat) (ks : List Tree) :
    cast Val.strings? (visitNode b (n + 1) (some (.node .column_name_list ks))) =
      tVisit b (.node .column_name_list ks) (pure (visitColumnNames (.node .column_name_list ks))) := by
  rw [visitNode_some b n _ ks kfColumnNames rfl rfl]
  rw [← cast_eq Val.strings? Val.strings (fun _ => rfl)]
  congr 2
  rw [kfColumnNames, get_column_name_list_AllColumn_name]
  simp only [silent_ok, tm_bind_pure, forEach, tMap_map, visitColumnNames]
  have : ∀ l : List Tree, tMap (fun x => silent (textOf (some x))) l = pure (l.map (·.text)) := by
    intro l
    induction l with
    | nil => rfl
    | cons x l ih => rw [tMap, ih]; rfl
  rw [this]
  rfl

theorem silent_bind {α β : Type} (x : Except Panic α) (f : α → Except Panic β) :
    silent (x >>= f) = (silent x >>= fun a => silent (f a)) := by
  cases x <;> rfl

theorem texts_eq (l : List Tree) :
    tMap (fun x => silent (textOf (some x))) l = (pure (l.map (·.text)) : TM (List Str)) := by
  induction l with
  | nil => rfl
  | cons x l ih => rw [tMap, ih]; rfl

theorem params_eq (b : Bool) (n : Nat) (ks : List Tree) :
    cast Val.strings? (visitNode b (n + 1) (some (.node .param_list ks))) =
      tVisit b (.node .param_list ks) (pure (((Tree.node .param_list ks).all .parameter).map (·.text))) := by
  rw [visitNode_some b n _ ks kfParams rfl rfl]
  rw [← cast_eq Val.strings? Val.strings (fun _ => rfl)]
  congr 2
  rw [kfParams, get_param_list_AllParameter]
  simp only [silent_ok, tm_bind_pure, forEach, tMap_map, texts_eq]

theorem configs_eq (b : Bool) (n : Nat) (ks : List Tree) :
    cast Val.configs? (visitNode b (n + 1) (some (.node .ext_config_list ks))) =
      tVisit b (.node .ext_config_list ks) (silent (visitExtConfigList (.node .ext_config_list ks))) := by
  rw [visitNode_some b n _ ks kfConfigs rfl rfl]
  rw [← cast_eq Val.configs? Val.configs (fun _ => rfl)]
  congr 2
  rw [kfConfigs, get_ext_config_list_AllExt_config]
  simp only [silent_ok, tm_bind_pure, forEach, tMap_map, visitExtConfigList]
  congr 1
  have : ∀ l : List Tree, (∀ x ∈ l, ∃ ks, x = .node .ext_config ks) →
      tMap (fun x => silent (do
        let c ← need (some x)
        return (⟨← textOf (← getNode "Ext_config_name" 0 c), ← textOf (← getNode "Ext_config_value" 0 c)⟩ :
          ExtConfig))) l =
      silent (l.mapM fun c => do
        return (⟨← c.getText .ext_config_name 0, ← c.getText .ext_config_value 0⟩ : ExtConfig)) := by
    intro l
    induction l with
    | nil => intro _; rfl
    | cons x l ih =>
      intro h
      obtain ⟨ks, rfl⟩ := h x (.head _)
      rw [tMap, ih fun y hy => h y (.tail _ hy), List.mapM_cons, silent_bind]
      simp only [need, get_ext_config_Ext_config_name, get_ext_config_Ext_config_value, textOf_get, silent_bind, silent_ok,
        tm_bind_pure]
      rfl
  exact this _ fun x hx => mem_all_node hx

theorem constraint_eq (b : Bool) (n : Nat) (ks : List Tree) :
    cast Val.attribute? (visitNode b (n + 1) (some (.node .column_constraint ks))) =
      tVisit b (.node .column_constraint ks) (silent (visitConstraint (.node .column_constraint ks))) := by
  rw [visitNode_some b n _ ks kfConstraint rfl rfl]
  rw [← cast_eq Val.attribute? Val.attribute (fun _ => rfl)]
  congr 2
  rw [kfConstraint, visitConstraint]
  simp only [get_column_constraint_PRIMARY_, get_column_constraint_NOT_NULL_, get_column_constraint_UNIQUE_,
    get_column_constraint_DEFAULT_, get_column_constraint_MIN_, get_column_constraint_MAX_,
    get_column_constraint_MIN_LEN_, get_column_constraint_MAX_LEN_, get_column_constraint_Literal_value,
    get_column_constraint_Number_value, ok_bind, textOf_get]
  generalize Tree.node .column_constraint ks = t
  by_cases h1 : t.has .PRIMARY_ = true
  · simp only [h1, if_true]; rfl
  by_cases h2 : t.has .NOT_NULL_ = true
  · simp only [h1, h2, if_true]; rfl
  by_cases h3 : t.has .UNIQUE_ = true
  · simp only [h1, h2, h3, if_true]; rfl
  by_cases h4 : t.has .DEFAULT_ = true
  · simp only [h1, h2, h3, h4, if_true]; cases t.getText .literal_value 0 <;> rfl
  by_cases h5 : t.has .MIN_ = true
  · simp only [h1, h2, h3, h4, h5, if_true]; cases t.getText .number_value 0 <;> rfl
  by_cases h6 : t.has .MAX_ = true
  · simp only [h1, h2, h3, h4, h5, h6, if_true]; cases t.getText .number_value 0 <;> rfl
  by_cases h7 : t.has .MIN_LEN_ = true
  · simp only [h1, h2, h3, h4, h5, h6, h7, if_true]; cases t.getText .number_value 0 <;> rfl
  by_cases h8 : t.has .MAX_LEN_ = true
  · simp only [h1, h2, h3, h4, h5, h6, h7, h8, if_true]; cases t.getText .number_value 0 <;> rfl
  simp only [h1, h2, h3, h4, h5, h6, h7, h8]; rfl

theorem fkAction_eq (b : Bool) (n : Nat) (ks : List Tree) :
    cast Val.fkAction? (visitNode b (n + 1) (some (.node .foreign_key_action ks))) =
      tVisit b (.node .foreign_key_action ks) (pure (visitFKAction (.node .foreign_key_action ks))) := by
  rw [visitNode_some b n _ ks kfFkAction rfl rfl]
  rw [← cast_eq Val.fkAction? Val.fkAction (fun _ => rfl)]
  congr 2
  rw [kfFkAction, visitFKAction]
  simp only [get_foreign_key_action_ACTION_ON_UPDATE_, get_foreign_key_action_ACTION_ON_DELETE_,
    get_foreign_key_action_ACTION_DO_NO_ACTION_, get_foreign_key_action_ACTION_DO_SET_NULL_,
    get_foreign_key_action_ACTION_DO_SET_DEFAULT_, get_foreign_key_action_ACTION_DO_CASCADE_,
    get_foreign_key_action_ACTION_DO_RESTRICT_, ok_bind, tm_bind_pure]
  generalize Tree.node .foreign_key_action ks = t
  generalize t.has .ACTION_ON_UPDATE_ = a1
  generalize t.has .ACTION_ON_DELETE_ = a2
  generalize t.has .ACTION_DO_NO_ACTION_ = a3
  generalize t.has .ACTION_DO_SET_NULL_ = a4
  generalize t.has .ACTION_DO_SET_DEFAULT_ = a5
  generalize t.has .ACTION_DO_CASCADE_ = a6
  generalize t.has .ACTION_DO_RESTRICT_ = a7
  cases a1 <;> cases a2 <;> cases a3 <;> (try rfl) <;> cases a4 <;> (try rfl) <;> cases a5 <;> (try rfl) <;>
    cases a6 <;> (try rfl) <;> cases a7 <;> rfl

theorem stmt_eq (b : Bool) (n : Nat) (ks : List Tree) :
    cast Val.string? (visitNode b (n + 1) (some (.node .action_stmt ks))) =
      tVisit b (.node .action_stmt ks) (pure (visitStmt (.node .action_stmt ks))) := by
  rw [visitNode_some b n _ ks kfStmt rfl rfl, ← cast_eq Val.string? Val.string (fun _ => rfl)]
  rfl

theorem annotation_eq (b : Bool) (n : Nat) (ks : List Tree) :
    cast Val.string? (visitNode b (n + 1) (some (.node .annotation_decl ks))) =
      tVisit b (.node .annotation_decl ks) (silent (visitAnnotation (.node .annotation_decl ks))) := by
  rw [visitNode_some b n _ ks kfAnnotation rfl rfl, ← cast_eq Val.string? Val.string (fun _ => rfl)]
  rw [kfAnnotation, visitAnnotation, silent_bind]
  rfl

theorem auxs_eq (seen : List Str) (l : List Tree) :
    kfAuxs seen (l.map some) = visitAuxs seen (l.map (·.text)) := by
  induction l generalizing seen with
  | nil => rfl
  | cons x l ih =>
    simp only [List.map_cons, kfAuxs, visitAuxs, textOf, need, ok_bind, ih]
    rfl

theorem public_eq (vs : List Tree) : kfPublic (vs.map some) = match vs.map (·.text) with
    | [] => .ok false
    | [v] => .ok (v == C.visPublic)
    | v :: _ => .error (.err (Sent.actionVisibilityAlreadySet.with v)) := by
  rcases vs with _ | ⟨v, _ | ⟨v', vs⟩⟩
  · rfl
  · rfl
  · show kfPublic (some v :: some v' :: vs.map some) = _
    rw [kfPublic, if_neg (by simp), if_pos (by simp)]
    rfl

theorem mutability_eq (vs : List Tree) : kfMutability (vs.map some) = match vs.map (·.text) with
    | [] => .ok C.mutUpdate
    | [m] => .ok (if m = C.mutView then C.mutView else C.mutUpdate)
    | m :: _ => .error (.err (Sent.actionMutabilityAlreadySet.with m)) := by
  rcases vs with _ | ⟨v, _ | ⟨v', vs⟩⟩
  · rfl
  · rfl
  · show kfMutability (some v :: some v' :: vs.map some) = _
    rw [kfMutability, if_neg (by simp), if_pos (by simp)]
    rfl

theorem auxiliaries_eq (as : List Tree) : kfAuxiliaries (as.map some) =
    (visitAuxs [] (as.map (·.text)) >>= fun r => (.ok (Slice.ofNonempty r) : Except Panic (Slice Str))) := by
  rw [kfAuxiliaries, auxs_eq]
  cases as with
  | nil => rfl
  | cons a as =>
    rw [if_pos (by simp)]
    simp only [List.map_cons, visitAuxs]
    have hs : ([] : List Str).contains a.text = false := rfl
    rw [hs]
    cases visitAuxs [a.text] (as.map (·.text)) <;> rfl

theorem attrs_eq (b : Bool) (n : Nat) (ks : List Tree) :
    cast Val.actionAttrs? (visitNode b (n + 1) (some (.node .action_attr_list ks))) =
      tVisit b (.node .action_attr_list ks) (silent (visitActionAttrs (.node .action_attr_list ks))) := by
  rw [visitNode_some b n _ ks kfActionAttrs rfl rfl, ← cast_eq Val.actionAttrs? Val.actionAttrs (fun _ => rfl)]
  congr 2
  rw [kfActionAttrs, visitActionAttrs]
  simp only [get_action_attr_list_AllAction_visibility, get_action_attr_list_AllAction_mutability,
    get_action_attr_list_AllAction_auxiliary, ok_bind, public_eq, mutability_eq, auxiliaries_eq]
  generalize ((Tree.node .action_attr_list ks).all .action_visibility).map (·.text) = vs
  generalize ((Tree.node .action_attr_list ks).all .action_mutability).map (·.text) = ms
  generalize visitAuxs [] (((Tree.node .action_attr_list ks).all .action_auxiliary).map (·.text)) = as
  rcases vs with _ | ⟨v, _ | ⟨v', vs⟩⟩
  · rcases ms with _ | ⟨m, _ | ⟨m', ms⟩⟩
    · cases as <;> rfl
    · cases as <;> rfl
    · rfl
  · rcases ms with _ | ⟨m, _ | ⟨m', ms⟩⟩
    · cases as <;> rfl
    · cases as <;> rfl
    · rfl
  · rfl

/-! ### Methods that visit children -/

theorem stmts_eq (b : Bool) (n : Nat) (ks : List Tree) :
    cast Val.strings? (visitNode b (n + 2) (some (.node .action_stmt_list ks))) =
      tVisit b (.node .action_stmt_list ks) (tStmts b (.node .action_stmt_list ks)) := by
  rw [visitNode_some b _ _ ks (kfStmts (visitNode b (n + 1))) rfl rfl,
    ← cast_eq Val.strings? Val.strings (fun _ => rfl)]
  congr 2
  rw [kfStmts, tStmts, get_action_stmt_list_AllAction_stmt]
  simp only [silent_ok, tm_bind_pure]
  congr 1
  refine visit_all b _ _ _ _ fun t ht => ?_
  obtain ⟨l, rfl⟩ := mem_all_node ht
  exact stmt_eq b n l

/-- Visiting all children of a rule, if there are any. -/
theorem visit_any {α : Type} (b : Bool) (n : Nat) (f : Val → Option α) (l : List Tree) (k : Tree → TM α)
    (h : ∀ t ∈ l, cast f (visitNode b n (some t)) = tVisit b t (k t)) :
    makeEach (l.map some) (fun x => cast f (visitNode b n x)) =
      (tMap (fun t => tVisit b t (k t)) l >>= fun r => (pure (Slice.ofNonempty r) : TM (Slice α))) := by
  rw [← visit_all b n f l k h]
  exact made _ _ ((l.map some).length != 0) (by simp)

theorem config_eq (b : Bool) (n : Nat) (ks : List Tree) :
    kfConfig (visitNode b (n + 1)) (.node .extension_directive ks) =
      tExtConfig b ((Tree.node .extension_directive ks).get .ext_config_list 0) := by
  rw [kfConfig, get_extension_directive_Ext_config_list]
  simp only [silent_ok, tm_bind_pure]
  cases h : (Tree.node .extension_directive ks).get .ext_config_list 0 with
  | none => rfl
  | some l =>
    obtain ⟨ls, rfl⟩ := get_node h
    simp only [Option.isSome_some, if_true, configs_eq, tExtConfig]

theorem extension_eq (b : Bool) (n : Nat) (ks : List Tree) :
    cast Val.extension? (visitNode b (n + 2) (some (.node .extension_directive ks))) =
      tVisit b (.node .extension_directive ks) (tExtension b (.node .extension_directive ks)) := by
  rw [visitNode_some b _ _ ks (kfExtension (visitNode b (n + 1))) rfl rfl,
    ← cast_eq Val.extension? Val.extension (fun _ => rfl)]
  congr 2
  rw [kfExtension, tExtension]
  simp only [get_extension_directive_Extension_name_0, get_extension_directive_Extension_name_1, config_eq,
    ok_bind, tm_bind_pure, textOf_get, tm_assoc]

theorem columnType_eq (ks : List Tree) : kfColumnType (.node .column_def ks) =
    (need ((Tree.node .column_def ks).get .column_type 0) >>= fun ct =>
      if ct.has .INT_ then pure C.colInt
      else if ct.has .TEXT_ then pure C.colText
      else if ct.has .BLOB_ then pure C.colBlob
      else .error (.err (Sent.notSupportColumnType.with ct.text))) := by
  rw [kfColumnType]
  simp only [get_column_def_Column_type, ok_bind]
  cases h : (Tree.node .column_def ks).get .column_type 0 with
  | none => rfl
  | some l =>
    obtain ⟨ls, rfl⟩ := get_node h
    simp only [need, ok_bind, get_column_type_INT_, get_column_type_TEXT_, get_column_type_BLOB_]
    rfl

theorem column_eq (b : Bool) (n : Nat) (ks : List Tree) :
    cast Val.column? (visitNode b (n + 2) (some (.node .column_def ks))) =
      tVisit b (.node .column_def ks) (tColumn b (.node .column_def ks)) := by
  rw [visitNode_some b _ _ ks (kfColumn (visitNode b (n + 1))) rfl rfl,
    ← cast_eq Val.column? Val.column (fun _ => rfl)]
  congr 2
  rw [kfColumn, tColumn]
  have hc := visit_any b (n + 1) Val.attribute? ((Tree.node .column_def ks).all .column_constraint)
    (fun c => silent (visitConstraint c)) fun t ht => by
      obtain ⟨l, rfl⟩ := mem_all_node ht
      exact constraint_eq b n l
  simp only [get_column_def_Column_name, get_column_def_AllColumn_constraint, columnType_eq,
    silent_ok, silent_bind, ok_bind, tm_bind_pure, textOf_get, tm_assoc, hc]

theorem columns_eq (b : Bool) (n : Nat) (ks : List Tree) :
    cast Val.columns? (visitNode b (n + 3) (some (.node .column_def_list ks))) =
      tVisit b (.node .column_def_list ks) (tColumns b (.node .column_def_list ks)) := by
  rw [visitNode_some b _ _ ks (kfColumns (visitNode b (n + 2))) rfl rfl,
    ← cast_eq Val.columns? Val.columns (fun _ => rfl)]
  congr 2
  rw [kfColumns, tColumns, get_column_def_list_AllColumn_def]
  simp only [silent_ok, tm_bind_pure]
  congr 1
  refine visit_all b _ _ _ _ fun t ht => ?_
  obtain ⟨l, rfl⟩ := mem_all_node ht
  exact column_eq b n l

/-- Visiting the column names of an index or a foreign key. -/
theorem nameList_eq (b : Bool) (n : Nat) (t : Tree) (i : Nat) :
    cast Val.strings? (visitNode b (n + 1) (t.get .column_name_list i)) =
      (silent (need (t.get .column_name_list i)) >>= fun l => tVisit b l (pure (visitColumnNames l))) :=
  visit_need b n Val.strings? _ (fun l => pure (visitColumnNames l)) (fun t ht => by
    obtain ⟨l, rfl⟩ := get_node ht
    exact names_eq b n l)

theorem indexType_eq (ks : List Tree) : kfIndexType (.node .index_def ks) = .ok
    (if (Tree.node .index_def ks).has .UNIQUE_ then C.idxUniqueBtree
    else if (Tree.node .index_def ks).has .INDEX_ then C.idxBtree
    else if (Tree.node .index_def ks).has .PRIMARY_ then C.idxPrimary
    else []) := by
  rw [kfIndexType]
  simp only [get_index_def_UNIQUE_, get_index_def_INDEX_, get_index_def_PRIMARY_, ok_bind]
  generalize (Tree.node .index_def ks).has .UNIQUE_ = a1
  generalize (Tree.node .index_def ks).has .INDEX_ = a2
  generalize (Tree.node .index_def ks).has .PRIMARY_ = a3
  cases a1 <;> cases a2 <;> cases a3 <;> rfl

theorem index_eq (b : Bool) (n : Nat) (ks : List Tree) :
    cast Val.index? (visitNode b (n + 2) (some (.node .index_def ks))) =
      tVisit b (.node .index_def ks) (tIndex b (.node .index_def ks)) := by
  rw [visitNode_some b _ _ ks (kfIndex (visitNode b (n + 1))) rfl rfl,
    ← cast_eq Val.index? Val.index (fun _ => rfl)]
  congr 2
  rw [kfIndex, tIndex]
  simp only [get_index_def_Index_name, indexType_eq, get_index_def_Column_name_list, nameList_eq,
    silent_ok, ok_bind, tm_bind_pure, textOf_get, tm_assoc]

theorem foreignKey_eq (b : Bool) (n : Nat) (ks : List Tree) :
    cast Val.foreignKey? (visitNode b (n + 2) (some (.node .foreign_key_def ks))) =
      tVisit b (.node .foreign_key_def ks) (tForeignKey b (.node .foreign_key_def ks)) := by
  rw [visitNode_some b _ _ ks (kfForeignKey (visitNode b (n + 1))) rfl rfl,
    ← cast_eq Val.foreignKey? Val.foreignKey (fun _ => rfl)]
  congr 2
  rw [kfForeignKey, tForeignKey]
  have hc := visit_any b (n + 1) Val.fkAction? ((Tree.node .foreign_key_def ks).all .foreign_key_action)
    (fun c => pure (visitFKAction c)) fun t ht => by
      obtain ⟨l, rfl⟩ := mem_all_node ht
      exact fkAction_eq b n l
  simp only [get_foreign_key_def_Column_name_list_0, get_foreign_key_def_Column_name_list_1,
    get_foreign_key_def_Table_name, get_foreign_key_def_AllForeign_key_action, silent_ok, ok_bind, tm_bind_pure,
    textOf_get, tm_assoc, nameList_eq, hc]

theorem table_eq (b : Bool) (n : Nat) (ks : List Tree) :
    cast Val.table? (visitNode b (n + 4) (some (.node .table_decl ks))) =
      tVisit b (.node .table_decl ks) (tTable b (.node .table_decl ks)) := by
  rw [visitNode_some b _ _ ks (kfTable (visitNode b (n + 3))) rfl rfl,
    ← cast_eq Val.table? Val.table (fun _ => rfl)]
  congr 2
  rw [kfTable, tTable]
  have hv := visit_need b (n + 2) Val.columns? ((Tree.node .table_decl ks).get .column_def_list 0)
    (fun l => tColumns b l) (fun t ht => by
      obtain ⟨l, rfl⟩ := get_node ht
      exact columns_eq b n l)
  have hc := visit_any b (n + 3) Val.index? ((Tree.node .table_decl ks).all .index_def)
    (fun c => tIndex b c) fun t ht => by
      obtain ⟨l, rfl⟩ := mem_all_node ht
      exact index_eq b (n + 1) l
  have hd := visit_any b (n + 3) Val.foreignKey? ((Tree.node .table_decl ks).all .foreign_key_def)
    (fun c => tForeignKey b c) fun t ht => by
      obtain ⟨l, rfl⟩ := mem_all_node ht
      exact foreignKey_eq b (n + 1) l
  simp only [get_table_decl_Table_name, get_table_decl_Column_def_list, get_table_decl_AllIndex_def,
    get_table_decl_AllForeign_key_def, silent_ok, ok_bind, tm_bind_pure, textOf_get, tm_assoc, hc, hd, hv]

theorem stmtList_eq (b : Bool) (n : Nat) (t : Tree) :
    cast Val.strings? (visitNode b (n + 2) (t.get .action_stmt_list 0)) =
      (silent (need (t.get .action_stmt_list 0)) >>= fun l => tVisit b l (tStmts b l)) :=
  visit_need b (n + 1) Val.strings? _ (fun l => tStmts b l) (fun t ht => by
    obtain ⟨l, rfl⟩ := get_node ht
    exact stmts_eq b n l)

theorem init_eq (b : Bool) (n : Nat) (ks : List Tree) :
    cast Val.action? (visitNode b (n + 3) (some (.node .init_decl ks))) =
      tVisit b (.node .init_decl ks) (tInit b (.node .init_decl ks)) := by
  rw [visitNode_some b _ _ ks (kfInit (visitNode b (n + 2))) rfl rfl,
    ← cast_eq Val.action? Val.action (fun _ => rfl)]
  congr 2
  rw [kfInit, tInit]
  simp only [get_init_decl_Action_stmt_list, stmtList_eq, silent_ok, tm_bind_pure, tm_assoc]

theorem inputs_eq (b : Bool) (n : Nat) (ks : List Tree) :
    kfInputs (visitNode b (n + 1)) (.node .action_decl ks) =
      (silent (need ((Tree.node .action_decl ks).get .param_list 0)) >>= fun pl => tParams b pl >>= fun ps =>
        (pure (Slice.ofNonempty ps) : TM (Slice Str))) := by
  rw [kfInputs]
  simp only [get_action_decl_Param_list, ok_bind]
  cases h : (Tree.node .action_decl ks).get .param_list 0 with
  | none => rfl
  | some l =>
    obtain ⟨ls, rfl⟩ := get_node h
    simp only [need, ok_bind, get_param_list_AllParameter, silent_ok, tm_bind_pure, params_eq, tParams,
      List.length_map]
    generalize (Tree.node .param_list ls).all .parameter = ps
    cases ps with
    | nil => rfl
    | cons p ps =>
      rw [if_pos (by simp), if_pos (by simp)]
      simp only [tVisit_bind, tm_bind_pure]
      rfl

theorem action_eq (b : Bool) (n : Nat) (ks : List Tree) :
    cast Val.action? (visitNode b (n + 3) (some (.node .action_decl ks))) =
      tVisit b (.node .action_decl ks) (tAction b (.node .action_decl ks)) := by
  rw [visitNode_some b _ _ ks (kfAction (visitNode b (n + 2))) rfl rfl,
    ← cast_eq Val.action? Val.action (fun _ => rfl)]
  congr 2
  rw [kfAction, tAction]
  have hv := visit_need b (n + 1) Val.actionAttrs? ((Tree.node .action_decl ks).get .action_attr_list 0)
    (fun l => silent (visitActionAttrs l)) (fun t ht => by
      obtain ⟨l, rfl⟩ := get_node ht
      exact attrs_eq b (n + 1) l)
  have hc := visit_any b (n + 2) Val.string? ((Tree.node .action_decl ks).all .annotation_decl)
    (fun c => silent (visitAnnotation c)) fun t ht => by
      obtain ⟨l, rfl⟩ := mem_all_node ht
      exact annotation_eq b (n + 1) l
  simp only [get_action_decl_Action_name, get_action_decl_AllAnnotation_decl, inputs_eq,
    get_action_decl_Action_attr_list, get_action_decl_Action_stmt_list, stmtList_eq, silent_ok, ok_bind,
    tm_bind_pure, textOf_get, tm_assoc, hc, hv]

theorem actions_eq (b : Bool) (n : Nat) (ks : List Tree)
    (h1 : ¬ ((Tree.node .source_unit ks).all .init_decl).length > 1) :
    kfActions (visitNode b (n + 3)) (.node .source_unit ks) (((Tree.node .source_unit ks).all .init_decl).map some) =
      (tMap (fun a => tVisit b a (tAction b a)) ((Tree.node .source_unit ks).all .action_decl) >>= fun as =>
        tLast b ((Tree.node .source_unit ks).all .init_decl) >>= fun l =>
          (pure (Slice.ofNonempty (as ++ l)) : TM (Slice Action))) := by
  have hc := visit_all b (n + 3) Val.action? ((Tree.node .source_unit ks).all .action_decl)
    (fun c => tAction b c) fun t ht => by
      obtain ⟨l, rfl⟩ := mem_all_node ht
      exact action_eq b n l
  rw [kfActions]
  simp only [get_source_unit_AllAction_decl, get_source_unit_Init_decl_0, silent_ok, tm_bind_pure, forEach, hc,
    List.length_map]
  have hi : ∀ i, (Tree.node .source_unit ks).all .init_decl = [i] →
      cast Val.action? (visitNode b (n + 3) ((Tree.node .source_unit ks).get .init_decl 0)) =
        tVisit b i (tInit b i) := by
    intro i h
    have hg : (Tree.node .source_unit ks).get .init_decl 0 = some i := by rw [Tree.get, h]; rfl
    obtain ⟨l, rfl⟩ := get_node hg
    rw [hg]
    exact init_eq b n l
  generalize hA : (Tree.node .source_unit ks).all .action_decl = as
  generalize hI : (Tree.node .source_unit ks).all .init_decl = is at *
  rcases is with _ | ⟨i, _ | ⟨j, is⟩⟩
  · cases as with
    | nil => rfl
    | cons a as =>
      rw [if_pos (by simp)]
      simp only [List.length_nil, Nat.zero_ne_one, if_false, tMap, tm_assoc, tm_bind_pure, tLast, List.append_nil]
      rfl
  · rw [hi i rfl]
    cases as with
    | nil =>
      rw [if_neg (by simp), if_pos (by simp)]
      simp only [tMap, tm_assoc, tm_bind_pure, tLast, List.nil_append, Slice.ofNonempty]
    | cons a as =>
      rw [if_pos (by simp)]
      simp only [List.length_cons, List.length_nil, Nat.zero_add, if_true, tMap, tm_assoc, tm_bind_pure, tLast,
        List.cons_append, Slice.ofNonempty]
  · exact absurd (by simp) h1

/-- `Visit` of a parse tree prints and returns what the visitor with direct
calls does. -/
theorem source_eq (b : Bool) (n : Nat) (ks : List Tree) :
    visitNode b (n + 5) (some (.node .source_unit ks)) =
      (tVisitSource b (.node .source_unit ks) >>= fun s => pure (Val.schema s)) := by
  rw [visitNode_some b _ _ ks (kfSource (visitNode b (n + 4))) rfl rfl, tVisitSource, tVisit_bind]
  congr 1
  rw [kfSource, tSource]
  have hc := visit_any b (n + 4) Val.extension? ((Tree.node .source_unit ks).all .extension_directive)
    (fun c => tExtension b c) fun t ht => by
      obtain ⟨l, rfl⟩ := mem_all_node ht
      exact extension_eq b (n + 2) l
  have hd := visit_any b (n + 4) Val.table? ((Tree.node .source_unit ks).all .table_decl)
    (fun c => tTable b c) fun t ht => by
      obtain ⟨l, rfl⟩ := mem_all_node ht
      exact table_eq b n l
  have hn : (do
      let x ← getNode "Database_directive" 0 (Tree.node .source_unit ks)
      let y ← need x
      let z ← getNode "Database_name" 0 y
      textOf z) = (do
      let y ← need ((Tree.node .source_unit ks).get .database_directive 0)
      y.getText .database_name 0) := by
    rw [get_source_unit_Database_directive, ok_bind]
    cases h : (Tree.node .source_unit ks).get .database_directive 0 with
    | none => rfl
    | some l =>
      obtain ⟨ls, rfl⟩ := get_node h
      simp only [need, ok_bind, get_database_directive_Database_name, textOf_get]
  simp only [hn, get_source_unit_AllExtension_directive, get_source_unit_AllTable_decl,
    get_source_unit_AllInit_decl, silent_ok, tm_bind_pure, tm_assoc, hc, hd, List.length_map]
  congr 1; funext name
  congr 1; funext exts
  congr 1; funext tables
  by_cases h1 : ((Tree.node .source_unit ks).all .init_decl).length > 1
  · rw [if_pos h1, if_pos h1]; rfl
  · rw [if_neg h1, if_neg h1, actions_eq b (n + 1) ks h1]
    simp only [tm_assoc, tm_bind_pure]

end Verif
