import Verif.Proof.Contexts
import Verif.Proof.Trace
/-!
# The visitor with dynamic dispatch

It prints and returns what the visitor with direct calls does.
-/

namespace Verif

set_option Elab.async false

/-! ## The getters that the visitor uses -/

theorem callGetter_eq {r : Rule} {n : Str} {b : GetBody}
    (h : ((getters r).find? (·.sig.name == n)).map (·.body) = some b) (ks : List Tree) (k : Int) :
    callGetter n k (.node r ks) = b.run ks k := by
  rw [callGetter, newContext_eq]
  cases hf : (getters r).find? (·.sig.name == n) with
  | none => rw [hf] at h; cases h
  | some g => rw [hf] at h; simp only [Option.map_some, Option.some.injEq] at h; simp only [h]

theorem getNode_first {r x : Rule} {n : String}
    (h : ((getters r).find? (·.sig.name == n.toList)).map (·.body) = some (.first x x)) (ks : List Tree) :
    getNode n 0 (.node r ks) = .ok ((Tree.node r ks).get x 0) := by
  rw [getNode, callGetter_eq h, run_first, Tree.get, Tree.all, ← List.head?_eq_getElem?]
  rfl

theorem getNode_nth {r x : Rule} {n : String}
    (h : ((getters r).find? (·.sig.name == n.toList)).map (·.body) = some (.nth x x)) (ks : List Tree)
    (k : Nat) : getNode n k (.node r ks) = .ok ((Tree.node r ks).get x k) := by
  rw [getNode, callGetter_eq h, run_nth, if_pos (by omega)]
  rfl

theorem getNodes_all {r x : Rule} {n : String}
    (h : ((getters r).find? (·.sig.name == n.toList)).map (·.body) = some (.all x x x)) (ks : List Tree) :
    getNodes n (.node r ks) = .ok (((Tree.node r ks).all x).map some) := by
  rw [getNodes, callGetter_eq h, run_all]
  rfl

theorem isSet_token {r : Rule} {ty : TT} {n : String}
    (h : ((getters r).find? (·.sig.name == n.toList)).map (·.body) = some (.token ty)) (ks : List Tree) :
    isSet n (.node r ks) = .ok ((Tree.node r ks).has ty) := by
  rw [isSet, getNode, callGetter_eq h, GetBody.run, getToken_eq]
  have : ((ks.filter (fun x : Tree => x.isTok ty))[0]?).isSome = ks.any (·.isTok ty) := by
    rw [← List.head?_eq_getElem?]
    clear h
    induction ks with
    | nil => rfl
    | cons c cs ih =>
      by_cases hc : c.isTok ty = true
      · rw [List.filter_cons_of_pos hc]; simp [hc]
      · rw [List.filter_cons_of_neg hc, ih]; simp [hc]
  show Except.ok ((ks.filter (fun x : Tree => x.isTok ty))[0]?).isSome = _
  rw [this]
  rfl

theorem get_source_unit_Database_directive (ks : List Tree) : getNode "Database_directive" 0 (.node .source_unit ks) =
    .ok ((Tree.node .source_unit ks).get .database_directive 0) := getNode_first (by decide +kernel) ks

theorem get_source_unit_AllExtension_directive (ks : List Tree) : getNodes "AllExtension_directive" (.node .source_unit ks) =
    .ok (((Tree.node .source_unit ks).all .extension_directive).map some) := getNodes_all (by decide +kernel) ks

theorem get_source_unit_AllTable_decl (ks : List Tree) : getNodes "AllTable_decl" (.node .source_unit ks) =
    .ok (((Tree.node .source_unit ks).all .table_decl).map some) := getNodes_all (by decide +kernel) ks

theorem get_source_unit_AllInit_decl (ks : List Tree) : getNodes "AllInit_decl" (.node .source_unit ks) =
    .ok (((Tree.node .source_unit ks).all .init_decl).map some) := getNodes_all (by decide +kernel) ks

theorem get_source_unit_AllAction_decl (ks : List Tree) : getNodes "AllAction_decl" (.node .source_unit ks) =
    .ok (((Tree.node .source_unit ks).all .action_decl).map some) := getNodes_all (by decide +kernel) ks

theorem get_source_unit_Init_decl_0 (ks : List Tree) : getNode "Init_decl" 0 (.node .source_unit ks) =
    .ok ((Tree.node .source_unit ks).get .init_decl 0) := getNode_nth (by decide +kernel) ks 0

theorem get_database_directive_Database_name (ks : List Tree) : getNode "Database_name" 0 (.node .database_directive ks) =
    .ok ((Tree.node .database_directive ks).get .database_name 0) := getNode_first (by decide +kernel) ks

theorem get_extension_directive_Extension_name_0 (ks : List Tree) : getNode "Extension_name" 0 (.node .extension_directive ks) =
    .ok ((Tree.node .extension_directive ks).get .extension_name 0) := getNode_nth (by decide +kernel) ks 0

theorem get_extension_directive_Extension_name_1 (ks : List Tree) : getNode "Extension_name" 1 (.node .extension_directive ks) =
    .ok ((Tree.node .extension_directive ks).get .extension_name 1) := getNode_nth (by decide +kernel) ks 1

theorem get_extension_directive_Ext_config_list (ks : List Tree) : getNode "Ext_config_list" 0 (.node .extension_directive ks) =
    .ok ((Tree.node .extension_directive ks).get .ext_config_list 0) := getNode_first (by decide +kernel) ks

theorem get_ext_config_list_AllExt_config (ks : List Tree) : getNodes "AllExt_config" (.node .ext_config_list ks) =
    .ok (((Tree.node .ext_config_list ks).all .ext_config).map some) := getNodes_all (by decide +kernel) ks

theorem get_ext_config_Ext_config_name (ks : List Tree) : getNode "Ext_config_name" 0 (.node .ext_config ks) =
    .ok ((Tree.node .ext_config ks).get .ext_config_name 0) := getNode_first (by decide +kernel) ks

theorem get_ext_config_Ext_config_value (ks : List Tree) : getNode "Ext_config_value" 0 (.node .ext_config ks) =
    .ok ((Tree.node .ext_config ks).get .ext_config_value 0) := getNode_first (by decide +kernel) ks

theorem get_table_decl_Table_name (ks : List Tree) : getNode "Table_name" 0 (.node .table_decl ks) =
    .ok ((Tree.node .table_decl ks).get .table_name 0) := getNode_first (by decide +kernel) ks

theorem get_table_decl_Column_def_list (ks : List Tree) : getNode "Column_def_list" 0 (.node .table_decl ks) =
    .ok ((Tree.node .table_decl ks).get .column_def_list 0) := getNode_first (by decide +kernel) ks

theorem get_table_decl_AllIndex_def (ks : List Tree) : getNodes "AllIndex_def" (.node .table_decl ks) =
    .ok (((Tree.node .table_decl ks).all .index_def).map some) := getNodes_all (by decide +kernel) ks

theorem get_table_decl_AllForeign_key_def (ks : List Tree) : getNodes "AllForeign_key_def" (.node .table_decl ks) =
    .ok (((Tree.node .table_decl ks).all .foreign_key_def).map some) := getNodes_all (by decide +kernel) ks

theorem get_column_def_list_AllColumn_def (ks : List Tree) : getNodes "AllColumn_def" (.node .column_def_list ks) =
    .ok (((Tree.node .column_def_list ks).all .column_def).map some) := getNodes_all (by decide +kernel) ks

theorem get_column_def_Column_name (ks : List Tree) : getNode "Column_name" 0 (.node .column_def ks) =
    .ok ((Tree.node .column_def ks).get .column_name 0) := getNode_first (by decide +kernel) ks

theorem get_column_def_Column_type (ks : List Tree) : getNode "Column_type" 0 (.node .column_def ks) =
    .ok ((Tree.node .column_def ks).get .column_type 0) := getNode_first (by decide +kernel) ks

theorem get_column_def_AllColumn_constraint (ks : List Tree) : getNodes "AllColumn_constraint" (.node .column_def ks) =
    .ok (((Tree.node .column_def ks).all .column_constraint).map some) := getNodes_all (by decide +kernel) ks

theorem get_column_type_INT_ (ks : List Tree) : isSet "INT_" (.node .column_type ks) =
    .ok ((Tree.node .column_type ks).has .INT_) := isSet_token (by decide +kernel) ks

theorem get_column_type_TEXT_ (ks : List Tree) : isSet "TEXT_" (.node .column_type ks) =
    .ok ((Tree.node .column_type ks).has .TEXT_) := isSet_token (by decide +kernel) ks

theorem get_column_type_BLOB_ (ks : List Tree) : isSet "BLOB_" (.node .column_type ks) =
    .ok ((Tree.node .column_type ks).has .BLOB_) := isSet_token (by decide +kernel) ks

theorem get_column_constraint_PRIMARY_ (ks : List Tree) : isSet "PRIMARY_" (.node .column_constraint ks) =
    .ok ((Tree.node .column_constraint ks).has .PRIMARY_) := isSet_token (by decide +kernel) ks

theorem get_column_constraint_NOT_NULL_ (ks : List Tree) : isSet "NOT_NULL_" (.node .column_constraint ks) =
    .ok ((Tree.node .column_constraint ks).has .NOT_NULL_) := isSet_token (by decide +kernel) ks

theorem get_column_constraint_UNIQUE_ (ks : List Tree) : isSet "UNIQUE_" (.node .column_constraint ks) =
    .ok ((Tree.node .column_constraint ks).has .UNIQUE_) := isSet_token (by decide +kernel) ks

theorem get_column_constraint_DEFAULT_ (ks : List Tree) : isSet "DEFAULT_" (.node .column_constraint ks) =
    .ok ((Tree.node .column_constraint ks).has .DEFAULT_) := isSet_token (by decide +kernel) ks

theorem get_column_constraint_MIN_ (ks : List Tree) : isSet "MIN_" (.node .column_constraint ks) =
    .ok ((Tree.node .column_constraint ks).has .MIN_) := isSet_token (by decide +kernel) ks

theorem get_column_constraint_MAX_ (ks : List Tree) : isSet "MAX_" (.node .column_constraint ks) =
    .ok ((Tree.node .column_constraint ks).has .MAX_) := isSet_token (by decide +kernel) ks

theorem get_column_constraint_MIN_LEN_ (ks : List Tree) : isSet "MIN_LEN_" (.node .column_constraint ks) =
    .ok ((Tree.node .column_constraint ks).has .MIN_LEN_) := isSet_token (by decide +kernel) ks

theorem get_column_constraint_MAX_LEN_ (ks : List Tree) : isSet "MAX_LEN_" (.node .column_constraint ks) =
    .ok ((Tree.node .column_constraint ks).has .MAX_LEN_) := isSet_token (by decide +kernel) ks

theorem get_column_constraint_Literal_value (ks : List Tree) : getNode "Literal_value" 0 (.node .column_constraint ks) =
    .ok ((Tree.node .column_constraint ks).get .literal_value 0) := getNode_first (by decide +kernel) ks

theorem get_column_constraint_Number_value (ks : List Tree) : getNode "Number_value" 0 (.node .column_constraint ks) =
    .ok ((Tree.node .column_constraint ks).get .number_value 0) := getNode_first (by decide +kernel) ks

theorem get_index_def_Index_name (ks : List Tree) : getNode "Index_name" 0 (.node .index_def ks) =
    .ok ((Tree.node .index_def ks).get .index_name 0) := getNode_first (by decide +kernel) ks

theorem get_index_def_UNIQUE_ (ks : List Tree) : isSet "UNIQUE_" (.node .index_def ks) =
    .ok ((Tree.node .index_def ks).has .UNIQUE_) := isSet_token (by decide +kernel) ks

theorem get_index_def_INDEX_ (ks : List Tree) : isSet "INDEX_" (.node .index_def ks) =
    .ok ((Tree.node .index_def ks).has .INDEX_) := isSet_token (by decide +kernel) ks

theorem get_index_def_PRIMARY_ (ks : List Tree) : isSet "PRIMARY_" (.node .index_def ks) =
    .ok ((Tree.node .index_def ks).has .PRIMARY_) := isSet_token (by decide +kernel) ks

theorem get_index_def_Column_name_list (ks : List Tree) : getNode "Column_name_list" 0 (.node .index_def ks) =
    .ok ((Tree.node .index_def ks).get .column_name_list 0) := getNode_first (by decide +kernel) ks

theorem get_column_name_list_AllColumn_name (ks : List Tree) : getNodes "AllColumn_name" (.node .column_name_list ks) =
    .ok (((Tree.node .column_name_list ks).all .column_name).map some) := getNodes_all (by decide +kernel) ks

theorem get_foreign_key_def_Column_name_list_0 (ks : List Tree) : getNode "Column_name_list" 0 (.node .foreign_key_def ks) =
    .ok ((Tree.node .foreign_key_def ks).get .column_name_list 0) := getNode_nth (by decide +kernel) ks 0

theorem get_foreign_key_def_Column_name_list_1 (ks : List Tree) : getNode "Column_name_list" 1 (.node .foreign_key_def ks) =
    .ok ((Tree.node .foreign_key_def ks).get .column_name_list 1) := getNode_nth (by decide +kernel) ks 1

theorem get_foreign_key_def_Table_name (ks : List Tree) : getNode "Table_name" 0 (.node .foreign_key_def ks) =
    .ok ((Tree.node .foreign_key_def ks).get .table_name 0) := getNode_first (by decide +kernel) ks

theorem get_foreign_key_def_AllForeign_key_action (ks : List Tree) : getNodes "AllForeign_key_action" (.node .foreign_key_def ks) =
    .ok (((Tree.node .foreign_key_def ks).all .foreign_key_action).map some) := getNodes_all (by decide +kernel) ks

theorem get_foreign_key_action_ACTION_ON_UPDATE_ (ks : List Tree) : isSet "ACTION_ON_UPDATE_" (.node .foreign_key_action ks) =
    .ok ((Tree.node .foreign_key_action ks).has .ACTION_ON_UPDATE_) := isSet_token (by decide +kernel) ks

theorem get_foreign_key_action_ACTION_ON_DELETE_ (ks : List Tree) : isSet "ACTION_ON_DELETE_" (.node .foreign_key_action ks) =
    .ok ((Tree.node .foreign_key_action ks).has .ACTION_ON_DELETE_) := isSet_token (by decide +kernel) ks

theorem get_foreign_key_action_ACTION_DO_NO_ACTION_ (ks : List Tree) : isSet "ACTION_DO_NO_ACTION_" (.node .foreign_key_action ks) =
    .ok ((Tree.node .foreign_key_action ks).has .ACTION_DO_NO_ACTION_) := isSet_token (by decide +kernel) ks

theorem get_foreign_key_action_ACTION_DO_SET_NULL_ (ks : List Tree) : isSet "ACTION_DO_SET_NULL_" (.node .foreign_key_action ks) =
    .ok ((Tree.node .foreign_key_action ks).has .ACTION_DO_SET_NULL_) := isSet_token (by decide +kernel) ks

theorem get_foreign_key_action_ACTION_DO_SET_DEFAULT_ (ks : List Tree) : isSet "ACTION_DO_SET_DEFAULT_" (.node .foreign_key_action ks) =
    .ok ((Tree.node .foreign_key_action ks).has .ACTION_DO_SET_DEFAULT_) := isSet_token (by decide +kernel) ks

theorem get_foreign_key_action_ACTION_DO_CASCADE_ (ks : List Tree) : isSet "ACTION_DO_CASCADE_" (.node .foreign_key_action ks) =
    .ok ((Tree.node .foreign_key_action ks).has .ACTION_DO_CASCADE_) := isSet_token (by decide +kernel) ks

theorem get_foreign_key_action_ACTION_DO_RESTRICT_ (ks : List Tree) : isSet "ACTION_DO_RESTRICT_" (.node .foreign_key_action ks) =
    .ok ((Tree.node .foreign_key_action ks).has .ACTION_DO_RESTRICT_) := isSet_token (by decide +kernel) ks

theorem get_action_attr_list_AllAction_visibility (ks : List Tree) : getNodes "AllAction_visibility" (.node .action_attr_list ks) =
    .ok (((Tree.node .action_attr_list ks).all .action_visibility).map some) := getNodes_all (by decide +kernel) ks

theorem get_action_attr_list_AllAction_mutability (ks : List Tree) : getNodes "AllAction_mutability" (.node .action_attr_list ks) =
    .ok (((Tree.node .action_attr_list ks).all .action_mutability).map some) := getNodes_all (by decide +kernel) ks

theorem get_action_attr_list_AllAction_auxiliary (ks : List Tree) : getNodes "AllAction_auxiliary" (.node .action_attr_list ks) =
    .ok (((Tree.node .action_attr_list ks).all .action_auxiliary).map some) := getNodes_all (by decide +kernel) ks

theorem get_action_decl_Action_name (ks : List Tree) : getNode "Action_name" 0 (.node .action_decl ks) =
    .ok ((Tree.node .action_decl ks).get .action_name 0) := getNode_first (by decide +kernel) ks

theorem get_action_decl_AllAnnotation_decl (ks : List Tree) : getNodes "AllAnnotation_decl" (.node .action_decl ks) =
    .ok (((Tree.node .action_decl ks).all .annotation_decl).map some) := getNodes_all (by decide +kernel) ks

theorem get_action_decl_Param_list (ks : List Tree) : getNode "Param_list" 0 (.node .action_decl ks) =
    .ok ((Tree.node .action_decl ks).get .param_list 0) := getNode_first (by decide +kernel) ks

theorem get_action_decl_Action_attr_list (ks : List Tree) : getNode "Action_attr_list" 0 (.node .action_decl ks) =
    .ok ((Tree.node .action_decl ks).get .action_attr_list 0) := getNode_first (by decide +kernel) ks

theorem get_action_decl_Action_stmt_list (ks : List Tree) : getNode "Action_stmt_list" 0 (.node .action_decl ks) =
    .ok ((Tree.node .action_decl ks).get .action_stmt_list 0) := getNode_first (by decide +kernel) ks

theorem get_param_list_AllParameter (ks : List Tree) : getNodes "AllParameter" (.node .param_list ks) =
    .ok (((Tree.node .param_list ks).all .parameter).map some) := getNodes_all (by decide +kernel) ks

theorem get_action_stmt_list_AllAction_stmt (ks : List Tree) : getNodes "AllAction_stmt" (.node .action_stmt_list ks) =
    .ok (((Tree.node .action_stmt_list ks).all .action_stmt).map some) := getNodes_all (by decide +kernel) ks

theorem get_init_decl_Action_stmt_list (ks : List Tree) : getNode "Action_stmt_list" 0 (.node .init_decl ks) =
    .ok ((Tree.node .init_decl ks).get .action_stmt_list 0) := getNode_first (by decide +kernel) ks

/-! ## Sequences of steps -/

@[simp] theorem tm_bind_pure {α β : Type} (a : α) (f : α → TM β) : ((pure a : TM α) >>= f) = f a := by
  show TM.bind ⟨[], .ok a⟩ f = f a
  simp [TM.bind]

@[simp] theorem tm_pure_bind {α : Type} (x : TM α) : (x >>= fun a => (pure a : TM α)) = x := by
  obtain ⟨w, r⟩ := x
  show TM.bind ⟨w, r⟩ pure = _
  cases r with
  | error e => rfl
  | ok a => show TM.mk (w ++ []) (.ok a) = _; rw [List.append_nil]

theorem tm_assoc {α β γ : Type} (x : TM α) (f : α → TM β) (g : β → TM γ) :
    ((x >>= f) >>= g) = (x >>= fun a => f a >>= g) := by
  obtain ⟨w, r⟩ := x
  show TM.bind (TM.bind ⟨w, r⟩ f) g = TM.bind ⟨w, r⟩ fun a => TM.bind (f a) g
  cases r with
  | error e => rfl
  | ok a =>
    simp only [TM.bind]
    cases (f a).2 with
    | error e => rfl
    | ok b => simp

@[simp] theorem silent_ok {α : Type} (a : α) : silent (.ok a : Except Panic α) = (pure a : TM α) := rfl

@[simp] theorem silent_error {α β : Type} (e : Panic) (f : α → TM β) :
    (silent (.error e : Except Panic α) >>= f) = silent (.error e) := rfl

theorem tm_map {α β : Type} (f : α → β) (x : TM α) : (f <$> x) = (x >>= fun a => (pure (f a) : TM β)) := rfl

theorem tVisit_bind {α β : Type} (b : Bool) (t : Tree) (x : TM α) (f : α → TM β) :
    (tVisit b t x >>= f) = tVisit b t (x >>= f) := by
  unfold tVisit
  rw [tm_assoc]

theorem cast_eq {α : Type} (f : Val → Option α) (c : α → Val) (h : ∀ a, f (c a) = some a) (x : TM α) (b : Bool)
    (t : Tree) : cast f (tVisit b t (x >>= fun a => pure (c a))) = tVisit b t x := by
  unfold cast
  rw [tVisit_bind, tm_assoc]
  simp only [tm_bind_pure, h, tm_pure_bind]

theorem tMap_map {α β γ : Type} (g : α → β) (f : β → TM γ) (l : List α) :
    tMap f (l.map g) = tMap (fun x => f (g x)) l := by
  induction l with
  | nil => rfl
  | cons x l ih => simp only [List.map_cons, tMap, ih]

theorem tMap_congr {α β : Type} {f g : α → TM β} {l : List α} (h : ∀ x ∈ l, f x = g x) :
    tMap f l = tMap g l := by
  induction l with
  | nil => rfl
  | cons x l ih =>
    simp only [tMap, h x (.head _), ih fun y hy => h y (.tail _ hy)]

/-- A slice is made only if there is something to put into it. -/
theorem made {α β : Type} (f : α → TM β) (l : List α) (c : Bool) (hc : c = true ↔ l ≠ []) :
    (if c = true then some <$> tMap f l else pure none) =
      (tMap f l >>= fun r => (pure (Slice.ofNonempty r) : TM (Slice β))) := by
  cases l with
  | nil =>
    have : ¬ c = true := fun h => hc.1 h rfl
    rw [if_neg this]; rfl
  | cons x l =>
    rw [if_pos (hc.2 (by simp)), tm_map, tMap, tm_assoc, tm_assoc]
    congr 1; funext y
    rw [tm_assoc, tm_assoc]
    congr 1

theorem mem_all_node {r : Rule} {t x : Tree} (h : x ∈ t.all r) : ∃ ks, x = .node r ks := by
  have := (List.mem_filter.1 h).2
  cases x with
  | leaf _ => cases this
  | node r' ks => exact ⟨ks, by simp [Tree.isRule] at this; rw [this]⟩

theorem get_node {r : Rule} {t x : Tree} {i : Nat} (h : t.get r i = some x) : ∃ ks, x = .node r ks :=
  mem_all_node (List.mem_of_getElem? h)

end Verif
