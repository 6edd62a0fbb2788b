import Verif.Model.Trace
import Verif.Spec.Trace
import Verif.Proof.VisitorEval
/-!
# The visitor in trace mode

It returns what the visitor returns otherwise (`traced_result`), and prints
`Program.visits` (`traced_program`).
-/

namespace Verif

theorem tm_bind_2 {α β : Type} (x : TM α) (f : α → TM β) :
    (x >>= f).2 = (x.2 >>= fun a => (f a).2) := by
  obtain ⟨w, r⟩ := x
  cases r <;> rfl

@[simp] theorem tm_pure_2 {α : Type} (a : α) : (pure a : TM α).2 = .ok a := rfl
@[simp] theorem silent_2 {α : Type} (x : Except Panic α) : (silent x).2 = x := rfl

@[simp] theorem tVisit_2 {α : Type} (b : Bool) (t : Tree) (k : TM α) : (tVisit b t k).2 = k.2 := by
  unfold tVisit
  cases b <;> rfl

theorem tMap_2 {α β : Type} (f : α → TM β) (l : List α) :
    (tMap f l).2 = l.mapM fun x => (f x).2 := by
  induction l with
  | nil => rfl
  | cons x l ih =>
    rw [List.mapM_cons, tMap, tm_bind_2]
    congr 1; funext y
    rw [tm_bind_2, ih]
    rfl

theorem mapM_pure {α β : Type} (f : α → β) (l : List α) :
    (l.mapM fun x => (Except.ok (f x) : Except Panic β)) = .ok (l.map f) := by
  induction l with
  | nil => rfl
  | cons x l ih => rw [List.mapM_cons, ih]; rfl

theorem tExtension_2 (b : Bool) (t : Tree) : (tExtension b t).2 = visitExtension t := by
  unfold tExtension visitExtension
  simp only [tm_bind_2, silent_2]
  congr 1; funext n
  cases t.get .ext_config_list 0 <;> simp [tm_bind_2, tExtConfig] <;> rfl

theorem tColumn_2 (b : Bool) (t : Tree) : (tColumn b t).2 = visitColumn t := by
  unfold tColumn visitColumn
  simp only [tm_bind_2, silent_2, tMap_2, tVisit_2, tm_pure_2]
  congr 1; funext n
  congr 1; funext ct
  split
  · rfl
  · split
    · rfl
    · split <;> rfl

theorem tColumns_2 (b : Bool) (t : Tree) : (tColumns b t).2 = visitColumns t := by
  unfold tColumns visitColumns
  simp only [tMap_2, tVisit_2, tColumn_2]

theorem tIndex_2 (b : Bool) (t : Tree) : (tIndex b t).2 = visitIndex t := by
  unfold tIndex visitIndex
  simp only [tm_bind_2, silent_2, tVisit_2, tm_pure_2]
  cases t.getText .index_name 0 with
  | error e => rfl
  | ok s => cases h : dropFirst s <;> simp [h, ok_bind] <;> rfl

theorem tForeignKey_2 (b : Bool) (t : Tree) : (tForeignKey b t).2 = visitForeignKey t := by
  unfold tForeignKey visitForeignKey
  simp only [tm_bind_2, silent_2, tVisit_2, tm_pure_2, tMap_2, mapM_pure, ok_bind]
  rfl

theorem tTable_2 (b : Bool) (t : Tree) : (tTable b t).2 = visitTable t := by
  unfold tTable visitTable
  simp only [tm_bind_2, silent_2, tVisit_2, tm_pure_2, tMap_2, tColumns_2, tIndex_2, tForeignKey_2]
  rfl

theorem tStmts_2 (b : Bool) (t : Tree) : (tStmts b t).2 = .ok (visitStmts t) := by
  unfold tStmts visitStmts
  simp only [tMap_2, tVisit_2, tm_pure_2, mapM_pure]

theorem tParams_2 (b : Bool) (pl : Tree) :
    (tParams b pl).2 = .ok ((pl.all .parameter).map (·.text)) := by
  unfold tParams
  split
  · simp
  · rename_i h
    have : (pl.all .parameter) = [] := by simpa using h
    rw [this]; rfl

theorem tAction_2 (b : Bool) (t : Tree) : (tAction b t).2 = visitAction t := by
  unfold tAction visitAction
  simp only [tm_bind_2, silent_2, tVisit_2, tm_pure_2, tMap_2, tStmts_2, tParams_2, ok_bind]
  rfl

theorem tInit_2 (b : Bool) (t : Tree) : (tInit b t).2 = visitInit t := by
  unfold tInit visitInit
  simp only [tm_bind_2, silent_2, tVisit_2, tm_pure_2, tStmts_2, ok_bind]
  rfl

theorem tSource_2 (b : Bool) (t : Tree) : (tSource b t).2 = visitSource t := by
  unfold tSource visitSource
  simp only [tm_bind_2, silent_2, tVisit_2, tm_pure_2, tMap_2, tExtension_2, tTable_2]
  cases t.get .database_directive 0 with
  | none => rfl
  | some d =>
    simp only [need, ok_bind]
    congr 1; funext n
    congr 1; funext ex
    congr 1; funext tb
    split
    · rfl
    · simp only [tm_bind_2, tMap_2, tVisit_2, tAction_2]
      congr 1; funext ac
      cases t.all .init_decl with
      | nil => rfl
      | cons i l => simp only [tLast, tm_bind_2, tVisit_2, tInit_2]; cases visitInit i <;> rfl

/-- Tracing does not change what is returned. -/
theorem traced_result (b : Bool) (t : Tree) : (tVisitSource b t).2 = visitSource t := by
  unfold tVisitSource
  rw [tVisit_2, tSource_2]

/-! ## Nothing is printed without tracing -/

theorem tm_bind_quiet {α β : Type} {x : TM α} {f : α → TM β} (hx : x.1 = [])
    (hf : ∀ a, (f a).1 = []) : (x >>= f).1 = [] := by
  obtain ⟨w, r⟩ := x
  cases hx
  cases r with
  | error e => rfl
  | ok a => exact hf a

theorem tVisit_quiet {α : Type} {t : Tree} {k : TM α} (hk : k.1 = []) :
    (tVisit false t k).1 = [] := tm_bind_quiet rfl fun _ => hk

theorem tMap_quiet {α β : Type} {f : α → TM β} (hf : ∀ a, (f a).1 = []) (l : List α) :
    (tMap f l).1 = [] := by
  induction l with
  | nil => rfl
  | cons x l ih => exact tm_bind_quiet (hf x) fun y => tm_bind_quiet ih fun ys => rfl

theorem silent_quiet {α : Type} (x : Except Panic α) : (silent x).1 = [] := rfl
theorem pure_quiet {α : Type} (x : α) : (pure x : TM α).1 = [] := rfl

theorem tExtension_quiet (t : Tree) : (tExtension false t).1 = [] := by
  unfold tExtension
  refine tm_bind_quiet rfl fun _ => tm_bind_quiet ?_ fun _ => tm_bind_quiet rfl fun _ => rfl
  cases t.get .ext_config_list 0
  · rfl
  · exact tm_bind_quiet (tVisit_quiet rfl) fun _ => rfl

theorem tColumn_quiet (t : Tree) : (tColumn false t).1 = [] := by
  unfold tColumn
  exact tm_bind_quiet rfl fun _ => tm_bind_quiet rfl fun _ => tm_bind_quiet rfl fun _ =>
    tm_bind_quiet (tMap_quiet (fun _ => tVisit_quiet rfl) _) fun _ => rfl

theorem tIndex_quiet (t : Tree) : (tIndex false t).1 = [] := by
  unfold tIndex
  exact tm_bind_quiet rfl fun _ => tm_bind_quiet rfl fun _ => tm_bind_quiet (tVisit_quiet rfl)
    fun _ => rfl

theorem tForeignKey_quiet (t : Tree) : (tForeignKey false t).1 = [] := by
  unfold tForeignKey
  exact tm_bind_quiet rfl fun _ => tm_bind_quiet (tVisit_quiet rfl) fun _ =>
    tm_bind_quiet rfl fun _ => tm_bind_quiet rfl fun _ => tm_bind_quiet (tVisit_quiet rfl) fun _ =>
    tm_bind_quiet (tMap_quiet (fun _ => tVisit_quiet rfl) _) fun _ => rfl

theorem tTable_quiet (t : Tree) : (tTable false t).1 = [] := by
  unfold tTable
  refine tm_bind_quiet rfl fun _ => tm_bind_quiet rfl fun _ => tm_bind_quiet (tVisit_quiet ?_) fun _ =>
    tm_bind_quiet (tMap_quiet (fun _ => tVisit_quiet (tIndex_quiet _)) _) fun _ =>
    tm_bind_quiet (tMap_quiet (fun _ => tVisit_quiet (tForeignKey_quiet _)) _) fun _ => rfl
  exact tMap_quiet (fun _ => tVisit_quiet (tColumn_quiet _)) _

theorem tStmts_quiet (t : Tree) : (tStmts false t).1 = [] :=
  tMap_quiet (fun _ => tVisit_quiet rfl) _

theorem tAction_quiet (t : Tree) : (tAction false t).1 = [] := by
  unfold tAction
  refine tm_bind_quiet rfl fun _ => tm_bind_quiet (tMap_quiet (fun _ => tVisit_quiet rfl) _) fun _ =>
    tm_bind_quiet rfl fun _ => tm_bind_quiet ?_ fun _ => tm_bind_quiet rfl fun _ =>
    tm_bind_quiet (tVisit_quiet rfl) fun _ => tm_bind_quiet rfl fun _ =>
    tm_bind_quiet (tVisit_quiet (tStmts_quiet _)) fun _ => rfl
  unfold tParams
  split
  · exact tVisit_quiet rfl
  · rfl

theorem tInit_quiet (t : Tree) : (tInit false t).1 = [] := by
  unfold tInit
  exact tm_bind_quiet rfl fun _ => tm_bind_quiet (tVisit_quiet (tStmts_quiet _)) fun _ => rfl

theorem tSource_quiet (t : Tree) : (tSource false t).1 = [] := by
  unfold tSource
  refine tm_bind_quiet rfl fun _ =>
    tm_bind_quiet (tMap_quiet (fun _ => tVisit_quiet (tExtension_quiet _)) _) fun _ =>
    tm_bind_quiet (tMap_quiet (fun _ => tVisit_quiet (tTable_quiet _)) _) fun _ => ?_
  dsimp only
  split
  · rfl
  · refine tm_bind_quiet (tMap_quiet (fun _ => tVisit_quiet (tAction_quiet _)) _) fun _ =>
      tm_bind_quiet ?_ fun _ => rfl
    cases t.all .init_decl
    · rfl
    · exact tm_bind_quiet (tVisit_quiet (tInit_quiet _)) fun _ => rfl

theorem untraced (t : Tree) : (tVisitSource false t).1 = [] := tVisit_quiet (tSource_quiet t)

/-! ## What is printed with tracing -/

theorem tm_silent {α β : Type} {x : Except Panic α} {a : α} {f : α → TM β} (h : x = .ok a) :
    (silent x >>= f) = f a := by subst h; rfl

theorem tm_ok {α β : Type} {x : TM α} {w : List Str} {a : α} {f : α → TM β} (h : x = ⟨w, .ok a⟩) :
    (x >>= f) = ⟨w ++ (f a).1, (f a).2⟩ := by subst h; rfl

theorem tm_err {α β : Type} {x : TM α} {w : List Str} {e : Panic} {f : α → TM β}
    (h : x = ⟨w, .error e⟩) : (x >>= f) = ⟨w, .error e⟩ := by subst h; rfl

theorem tVisit_true {α : Type} {t : Tree} {k : TM α} {w : List Str} {r : Except Panic α}
    (h : k = ⟨w, r⟩) : tVisit true t k = ⟨visitLine t :: w, r⟩ := by subst h; rfl

theorem tMap_ok {α β γ : Type} {f : β → TM γ} {t : α → β} {v : α → List Str} {g : α → γ}
    (l : List α) (h : ∀ x ∈ l, f (t x) = ⟨v x, .ok (g x)⟩) :
    tMap f (l.map t) = ⟨l.flatMap v, .ok (l.map g)⟩ := by
  induction l with
  | nil => rfl
  | cons x l ih =>
    rw [List.map_cons, tMap, tm_ok (h x (by simp)), tm_ok (ih fun y hy => h y (by simp [hy]))]
    show TM.mk (v x ++ (l.flatMap v ++ [])) _ = _
    rw [List.append_nil]
    rfl

/-- The line of a context, from the tokens under it. -/
theorem line_of {α : Type} {g : G} {f : α → List Tok} {k : α → Tree} (h : Rep g f fun x => [k x])
    (x : α) (kind : String) (hk : (k x).goType = ("*kfgrammar." ++ kind ++ "Context").toList) :
    visitLine (k x) = visitOf kind (f x) := by
  have ht : (k x).text = glued (f x) := by
    have := h.leaves x
    simp only [leavesL_singleton] at this
    simp [Tree.text, this, glued]
  unfold visitLine visitOf
  rw [ht, hk]
  simp

theorem goType_eq (r : Rule) (ks : List Tree) (kind : String)
    (h : r.goType = (kind ++ "Context").toList) :
    (Tree.node r ks).goType = ("*kfgrammar." ++ kind ++ "Context").toList := by
  show "*kfgrammar.".toList ++ r.goType = _
  rw [h]
  simp

theorem traced_extension (e : ExtDecl) :
    tVisit true e.tree (tExtension true e.tree) = ⟨e.visits, .ok e.denote⟩ := by
  have h₂ : (tExtension true e.tree).2 = .ok e.denote := by rw [tExtension_2, visit_extension]
  have hl : visitLine e.tree = visitOf "Extension_directive" e.toks :=
    line_of (rep_extension (n := 0)) e _ (goType_eq _ _ _ (by decide))
  have h₁ : (tExtension true e.tree).1 = (match e.config with
    | none => []
    | some c => [visitOf "Ext_config_list" (c.toks (Pair.toks .COL))]) := by
    obtain ⟨name, config, alias⟩ := e
    cases config with
    | none => rfl
    | some c =>
      have hc := line_of (rep_ext_config_list (n := 0)) c "Ext_config_list"
        (goType_eq _ _ _ (by decide))
      have hv := visit_ext_config c
      dsimp only
      rw [← hc]
      unfold tExtension
      have e₁ : (ExtDecl.tree ⟨name, some c, alias⟩).getText .extension_name 0 = .ok name :=
        congrArg Except.ok (name_text .extension_name name)
      have e₂ : (ExtDecl.tree ⟨name, some c, alias⟩).getText .extension_name 1 = .ok alias :=
        congrArg Except.ok (name_text .extension_name alias)
      have e₃ : (ExtDecl.tree ⟨name, some c, alias⟩).get .ext_config_list 0 =
        some (extConfigTree c) := rfl
      rw [tm_silent e₁, e₃]
      have e₄ : tExtConfig true (some (extConfigTree c)) =
          ⟨[visitLine (extConfigTree c)], .ok (some (c.list.map Pair.config))⟩ := by
        show (do return some (← tVisit true _ (silent (visitExtConfigList (extConfigTree c))))) = _
        rw [tm_ok (tVisit_true (w := []) (r := .ok (c.list.map Pair.config)) (by rw [hv]; rfl))]
        rfl
      rw [tm_ok e₄, tm_silent e₂]
      rfl
  rw [tVisit_true (w := (tExtension true e.tree).1) (r := (tExtension true e.tree).2) rfl, h₁, h₂, hl]
  rfl

theorem tMap_lines {α γ : Type} {f : Tree → TM γ} {t : α → Tree} {v : α → Str} {g : α → γ}
    (l : List α) (h : ∀ x ∈ l, f (t x) = ⟨[v x], .ok (g x)⟩) :
    tMap f (l.map t) = ⟨l.map v, .ok (l.map g)⟩ := by
  rw [tMap_ok (v := fun x => [v x]) l h, List.map_eq_flatMap (f := v)]

theorem traced_column (c : ColDecl) :
    tVisit true c.tree (tColumn true c.tree) = ⟨c.visits, .ok c.denote⟩ := by
  have h₂ : (tColumn true c.tree).2 = .ok c.denote := by rw [tColumn_2, visit_column]
  have hl : visitLine c.tree = visitOf "Column_def" c.toks :=
    line_of (rep_column (n := 0)) c _ (goType_eq _ _ _ (by decide))
  have h₁ : (tColumn true c.tree).1 = c.constraints.map fun k => visitOf "Column_constraint" k.toks := by
    obtain ⟨name, type, cs⟩ := c
    have hall : (ColDecl.tree ⟨name, type, cs⟩).all .column_constraint = cs.map Constraint.tree := by
      show (cs.map Constraint.tree).filter (·.isRule .column_constraint) = _
      exact filter_map_all _ _ _ (by intro y; rfl)
    have hm : tMap (fun c => tVisit true c (silent (visitConstraint c))) (cs.map Constraint.tree) =
        ⟨cs.map fun k => visitOf "Column_constraint" k.toks, .ok (cs.map Constraint.denote)⟩ := by
      apply tMap_lines
      intro k _
      rw [tVisit_true (w := []) (r := .ok k.denote) (by rw [visit_constraint]; rfl),
        line_of (rep_constraint (n := 0)) k "Column_constraint" (goType_eq _ _ _ (by decide))]
    have e₁ : (ColDecl.tree ⟨name, type, cs⟩).getText .column_name 0 = .ok name :=
      congrArg Except.ok (name_text .column_name name)
    have e₂ : need ((ColDecl.tree ⟨name, type, cs⟩).get .column_type 0) = .ok type.tree := rfl
    unfold tColumn
    rw [tm_silent e₁, tm_silent e₂, hall]
    have e₃ : (if type.tree.has .INT_ = true then pure C.colInt
        else if type.tree.has .TEXT_ = true then pure C.colText
        else if type.tree.has .BLOB_ = true then pure C.colBlob
        else Except.error (Panic.err (Sent.notSupportColumnType.with type.tree.text))) =
        Except.ok type.denote := by cases type <;> rfl
    rw [tm_silent e₃, tm_ok hm]
    show _ ++ [] = _
    rw [List.append_nil]
  rw [tVisit_true (w := (tColumn true c.tree).1) (r := (tColumn true c.tree).2) rfl, h₁, h₂, hl]
  rfl

theorem traced_names (x : NE Str) {r : Except Panic (List Str)} (h : r = .ok x.list) :
    tVisit true (namesTree x) (pure (visitColumnNames (namesTree x))) = ⟨[namesVisit x], r⟩ := by
  subst h
  rw [tVisit_true (w := []) (r := .ok x.list) (by rw [visit_names]; rfl),
    line_of (rep_names (n := 0)) x "Column_name_list" (goType_eq _ _ _ (by decide))]
  rfl

theorem traced_index (i : IdxDecl) :
    tVisit true i.tree (tIndex true i.tree) = ⟨i.visits, .ok i.denote⟩ := by
  have h₂ : (tIndex true i.tree).2 = .ok i.denote := by rw [tIndex_2, visit_index]
  have hl : visitLine i.tree = visitOf "Index_def" i.toks :=
    line_of (rep_index (n := 0)) i _ (goType_eq _ _ _ (by decide))
  have h₁ : (tIndex true i.tree).1 = [namesVisit i.columns] := by
    have e₁ : (do dropFirst (← i.tree.getText .index_name 0)) = Except.ok i.name := by
      show dropFirst (Tree.node .index_name [.leaf ⟨.INDEX_NAME, '#' :: i.name⟩]).text = _
      rw [leaf_text]; rfl
    have e₂ : need (i.tree.get .column_name_list 0) = .ok (namesTree i.columns) := rfl
    unfold tIndex
    rw [tm_silent e₁, tm_silent e₂, tm_ok (traced_names _ rfl)]
    rfl
  rw [tVisit_true (w := (tIndex true i.tree).1) (r := (tIndex true i.tree).2) rfl, h₁, h₂, hl]
  rfl

theorem traced_fk (f : FkDecl) :
    tVisit true f.tree (tForeignKey true f.tree) = ⟨f.visits, .ok f.denote⟩ := by
  have h₂ : (tForeignKey true f.tree).2 = .ok f.denote := by rw [tForeignKey_2, visit_fk]
  have hl : visitLine f.tree = visitOf "Foreign_key_def" f.toks :=
    line_of (rep_fk (n := 0)) f _ (goType_eq _ _ _ (by decide))
  have h₁ : (tForeignKey true f.tree).1 = [namesVisit f.child, namesVisit f.parent] ++
      f.acts.map fun a => visitOf "Foreign_key_action" a.toks := by
    have e₁ : need (f.tree.get .column_name_list 0) = .ok (namesTree f.child) := rfl
    have e₂ : f.tree.getText .table_name 0 = .ok f.table :=
      congrArg Except.ok (name_text .table_name f.table)
    have e₃ : need (f.tree.get .column_name_list 1) = .ok (namesTree f.parent) := rfl
    have e₄ : f.tree.all .foreign_key_action = f.acts.map FkAct.tree :=
      filter_map_all _ FkAct.tree _ (by intro y; rfl)
    have e₅ : tMap (fun a => tVisit true a (pure (visitFKAction a))) (f.acts.map FkAct.tree) =
        ⟨f.acts.map fun a => visitOf "Foreign_key_action" a.toks, .ok (f.acts.map FkAct.denote)⟩ := by
      apply tMap_lines
      intro k _
      rw [tVisit_true (w := []) (r := .ok k.denote) (by rw [visit_fk_action]; rfl),
        line_of (rep_fk_action (n := 0)) k "Foreign_key_action" (goType_eq _ _ _ (by decide))]
    unfold tForeignKey
    rw [tm_silent e₁, tm_ok (traced_names _ rfl), tm_silent e₂, tm_silent e₃,
      tm_ok (traced_names _ rfl), e₄, tm_ok e₅]
    show [_] ++ ([_] ++ (_ ++ [])) = _
    rw [List.append_nil]
    rfl
  rw [tVisit_true (w := (tForeignKey true f.tree).1) (r := (tForeignKey true f.tree).2) rfl,
    h₁, h₂, hl]
  rfl

theorem traced_columns (c : NE ColDecl) :
    tVisit true (columnsTree c) (tColumns true (columnsTree c)) =
      ⟨visitOf "Column_def_list" (c.toks ColDecl.toks) :: c.list.flatMap ColDecl.visits,
        .ok (c.list.map ColDecl.denote)⟩ := by
  have e : (columnsTree c).all .column_def = c.list.map ColDecl.tree :=
    NE.filter_trees _ _ _ (by intro y; rfl)
  have h : tColumns true (columnsTree c) =
      ⟨c.list.flatMap ColDecl.visits, .ok (c.list.map ColDecl.denote)⟩ := by
    unfold tColumns
    rw [e]
    exact tMap_ok _ fun x _ => traced_column x
  rw [tVisit_true h, line_of (rep_columns (n := 0)) c "Column_def_list" (goType_eq _ _ _ (by decide))]

theorem traced_table (t : TableDecl) :
    tVisit true t.tree (tTable true t.tree) = ⟨t.visits, .ok t.denote⟩ := by
  have h₂ : (tTable true t.tree).2 = .ok t.denote := by rw [tTable_2, visit_table]
  have hl : visitLine t.tree = visitOf "Table_decl" t.toks :=
    line_of (rep_table (n := 0)) t _ (goType_eq _ _ _ (by decide))
  have h₁ : (tTable true t.tree).1 =
      visitOf "Column_def_list" (t.columns.toks ColDecl.toks) ::
      (t.columns.list.flatMap ColDecl.visits ++ (t.indexes.flatMap IdxDecl.visits ++
        t.fks.flatMap FkDecl.visits)) := by
    obtain ⟨name, cols, items, comma⟩ := t
    have h₃ : (TableDecl.tree ⟨name, cols, items, comma⟩).all .index_def =
        (TableDecl.indexes ⟨name, cols, items, comma⟩).map IdxDecl.tree := by
      unfold Tree.all TableDecl.tree Tree.kids
      simp only [List.filter_append, items_filter_index]
      cases comma <;> simp [TableDecl.indexes, Tree.isRule, nameTree, columnsTree] <;> rfl
    have h₄ : (TableDecl.tree ⟨name, cols, items, comma⟩).all .foreign_key_def =
        (TableDecl.fks ⟨name, cols, items, comma⟩).map FkDecl.tree := by
      unfold Tree.all TableDecl.tree Tree.kids
      simp only [List.filter_append, items_filter_fk]
      cases comma <;> simp [TableDecl.fks, Tree.isRule, nameTree, columnsTree] <;> rfl
    have h₅ : (TableDecl.tree ⟨name, cols, items, comma⟩).getText .table_name 0 = .ok name :=
      congrArg Except.ok (name_text .table_name name)
    have h₆ : need ((TableDecl.tree ⟨name, cols, items, comma⟩).get .column_def_list 0) =
        .ok (columnsTree cols) := rfl
    unfold tTable
    rw [tm_silent h₅, tm_silent h₆, tm_ok (traced_columns cols), h₃,
      tm_ok (tMap_ok _ fun x _ => traced_index x), h₄, tm_ok (tMap_ok _ fun x _ => traced_fk x)]
    show _ :: _ ++ (_ ++ (_ ++ [])) = _
    rw [List.append_nil]
    rfl
  rw [tVisit_true (w := (tTable true t.tree).1) (r := (tTable true t.tree).2) rfl, h₁, h₂, hl]
  simp [TableDecl.visits]

theorem traced_body (b : NE Stmt) :
    tVisit true (stmtsTree b) (tStmts true (stmtsTree b)) =
      ⟨bodyVisits b, .ok (visitStmts (stmtsTree b))⟩ := by
  have e : (stmtsTree b).all .action_stmt = b.list.map Stmt.tree :=
    filter_map_all _ Stmt.tree _ (by intro y; rfl)
  have h : tStmts true (stmtsTree b) =
      ⟨b.list.map fun s => visitOf "Action_stmt" s.toks, .ok (visitStmts (stmtsTree b))⟩ := by
    unfold tStmts visitStmts
    rw [e, tMap_lines (v := fun s : Stmt => visitOf "Action_stmt" s.toks)
      (g := fun s : Stmt => visitStmt s.tree)]
    · simp
    · intro s _
      rw [tVisit_true (w := []) (k := pure (visitStmt s.tree)) (r := .ok (visitStmt s.tree)) rfl,
        line_of (rep_stmt (n := 0)) s "Action_stmt" (goType_eq _ _ _ (by decide))]
  rw [tVisit_true h, line_of (rep_stmts (n := 0)) b "Action_stmt_list" (goType_eq _ _ _ (by decide))]
  rfl

theorem traced_params (ps : CommaList Str) :
    tParams true (paramsTree ps) =
      ⟨if ps.list = [] then [] else [visitOf "Param_list" (ps.toks fun s => [varTok s])],
        .ok ps.list⟩ := by
  have h := visit_params ps
  unfold tParams
  rw [h]
  have hn : ((paramsTree ps).all .parameter).length = ps.list.length := by
    rw [← h, List.length_map]
  rw [hn]
  by_cases he : ps.list = []
  · rw [he]; rfl
  · have : (ps.list.length != 0) = true := by
      cases hp : ps.list with
      | nil => exact absurd hp he
      | cons => rfl
    rw [if_pos this, if_neg he, tVisit_true (w := []) (k := pure ps.list) (r := .ok ps.list) rfl,
      line_of (rep_params (n := 0)) ps "Param_list" (goType_eq _ _ _ (by decide))]

theorem traced_action (a : ActionDecl) (hb : ∀ s ∈ a.body.list, s.Clean) :
    tVisit true a.tree (tAction true a.tree) =
      ⟨a.visits, match modifierFault a.modifiers with
        | none => .ok a.denote
        | some e => .error (.err e)⟩ := by
  have h₂ := (tAction_2 true a.tree).trans (visit_action a hb)
  have hl : visitLine a.tree = visitOf "Action_decl" a.toks :=
    line_of (rep_action (n := 0)) a _ (goType_eq _ _ _ (by decide))
  have h₁ : (tAction true a.tree).1 =
      a.annotations.map (fun x => visitOf "Annotation_decl" x.toks) ++
      ((if a.params.list = [] then []
        else [visitOf "Param_list" (a.params.toks fun s => [varTok s])]) ++
      (visitOf "Action_attr_list" (a.modifiers.map Modifier.tok) ::
      (if modifierFault a.modifiers = none then bodyVisits a.body else []))) := by
    have hann : a.tree.all .annotation_decl = a.annotations.map Annot.tree := by
      unfold ActionDecl.tree Tree.all Tree.kids
      rw [List.filter_append, filter_map_all .annotation_decl Annot.tree _ (by intro y; rfl)]
      simp [Tree.isRule, nameTree, paramsTree, modifiersTree, stmtsTree]
    have hname : a.tree.getText .action_name 0 = .ok a.name := by
      unfold Tree.getText Tree.get
      rw [action_all_none a _ (by decide)]
      exact congrArg Except.ok (name_text .action_name a.name)
    have hpar : need (a.tree.get .param_list 0) = .ok (paramsTree a.params) := by
      unfold Tree.get
      rw [action_all_none a _ (by decide)]
      rfl
    have hmod : need (a.tree.get .action_attr_list 0) = .ok (modifiersTree a.modifiers) := by
      unfold Tree.get
      rw [action_all_none a _ (by decide)]
      rfl
    have hst : need (a.tree.get .action_stmt_list 0) = .ok (stmtsTree a.body) := by
      unfold Tree.get
      rw [action_all_none a _ (by decide)]
      rfl
    have hanns : tMap (fun x => tVisit true x (silent (visitAnnotation x)))
        (a.annotations.map Annot.tree) =
        ⟨a.annotations.map (fun x => visitOf "Annotation_decl" x.toks),
          .ok (a.annotations.map Annot.denote)⟩ := by
      apply tMap_lines
      intro k _
      rw [tVisit_true (w := []) (r := .ok k.denote) (by rw [visit_annotation]; rfl),
        line_of (rep_annotation (n := 0)) k "Annotation_decl" (goType_eq _ _ _ (by decide))]
    have hattrs : tVisit true (modifiersTree a.modifiers)
        (silent (visitActionAttrs (modifiersTree a.modifiers))) =
        ⟨[visitOf "Action_attr_list" (a.modifiers.map Modifier.tok)],
          visitActionAttrs (modifiersTree a.modifiers)⟩ := by
      rw [tVisit_true (w := []) (k := silent (visitActionAttrs (modifiersTree a.modifiers)))
          (r := visitActionAttrs (modifiersTree a.modifiers)) rfl,
        line_of (rep_modifiers (n := 0)) a.modifiers "Action_attr_list" (goType_eq _ _ _ (by decide))]
    unfold tAction
    rw [tm_silent hname, hann, tm_ok hanns, tm_silent hpar, tm_ok (traced_params _), tm_silent hmod]
    dsimp only
    congr 2
    rw [visit_modifiers] at hattrs
    cases hf : modifierFault a.modifiers with
    | some e =>
      rw [hf] at hattrs
      rw [visit_modifiers, hf, tm_err hattrs]
      rfl
    | none =>
      rw [hf] at hattrs
      rw [visit_modifiers, hf, tm_ok hattrs, tm_silent hst, tm_ok (traced_body _)]
      show [_] ++ (_ ++ []) = _
      rw [List.append_nil]
      rfl
  rw [tVisit_true (w := (tAction true a.tree).1) (r := (tAction true a.tree).2) rfl, h₁, h₂, hl]
  simp only [ActionDecl.visits, List.append_assoc, List.cons_append, List.nil_append]
  cases modifierFault a.modifiers <;> rfl

theorem traced_init (b : NE Stmt) (hb : ∀ s ∈ b.list, s.Clean) :
    tVisit true (initTree b) (tInit true (initTree b)) = ⟨initVisits b, .ok (initAction b)⟩ := by
  have h₂ := (tInit_2 true (initTree b)).trans (visit_init b hb)
  have hl : visitLine (initTree b) = visitOf "Init_decl" (Decl.init b).toks :=
    line_of (rep_init (n := 0)) b _ (goType_eq _ _ _ (by decide))
  have h₁ : (tInit true (initTree b)).1 = bodyVisits b := by
    have e : need ((initTree b).get .action_stmt_list 0) = .ok (stmtsTree b) := rfl
    unfold tInit
    rw [tm_silent e, tm_ok (traced_body _)]
    show _ ++ [] = _
    rw [List.append_nil]
  rw [tVisit_true (w := (tInit true (initTree b)).1) (r := (tInit true (initTree b)).2) rfl,
    h₁, h₂, hl]
  rfl

/-- The actions and then something that prints `rest`, if there is no complaint. -/
theorem traced_actions {β : Type} (rest : List Str) (l : List ActionDecl)
    (hc : ∀ a ∈ l, ∀ s ∈ a.body.list, s.Clean) (k : List Action → TM β) (hk : ∀ x, (k x).1 = rest) :
    (tMap (fun a => tVisit true a (tAction true a)) (l.map ActionDecl.tree) >>= k).1 =
      actionsVisits rest l := by
  induction l generalizing k with
  | nil =>
    show [] ++ (k []).1 = _
    rw [hk]; rfl
  | cons a l ih =>
    have ha := traced_action a (hc a (by simp))
    have hl := ih (fun b hb => hc b (by simp [hb]))
    rw [List.map_cons, tMap]
    unfold actionsVisits
    cases hf : modifierFault a.modifiers with
    | some e =>
      rw [hf] at ha
      rw [tm_err (tm_err ha)]
      simp
    | none =>
      rw [hf] at ha
      rw [tm_ok ha]
      have := hl (fun ys => k (a.denote :: ys)) (fun ys => hk _)
      rw [if_pos rfl, ← this]
      generalize tMap (fun a => tVisit true a (tAction true a)) (l.map ActionDecl.tree) = x
      obtain ⟨w, r⟩ := x
      cases r with
      | error e => rfl
      | ok ys =>
        show (a.visits ++ (w ++ [])) ++ (k (a.denote :: ys)).1 = a.visits ++ (w ++ (k (a.denote :: ys)).1)
        simp

/-- What the visitor prints in trace mode. -/
theorem traced_program (p : Program) (hc : p.Clean) : (tVisitSource true p.tree).1 = p.visits := by
  have htab : p.tree.all .table_decl = p.tables.map TableDecl.tree := by
    rw [program_all p _ (by decide) (by decide), decls_tables]; rfl
  have hact : p.tree.all .action_decl = p.actions.map ActionDecl.tree := by
    rw [program_all p _ (by decide) (by decide), decls_actions]; rfl
  have hini : p.tree.all .init_decl = p.inits.map initTree := by
    rw [program_all p _ (by decide) (by decide), decls_inits]; rfl
  have hext : p.tree.all .extension_directive = p.exts.map ExtDecl.tree := by
    unfold Program.tree Tree.all Tree.kids
    simp only [List.filter_append]
    rw [filter_map_all _ ExtDecl.tree _ (by intro y; rfl), decls_other _ _ (by decide)]
    simp [Tree.isRule]
  have hname : (do (← need (p.tree.get .database_directive 0)).getText .database_name 0) =
      Except.ok p.name :=
    congrArg Except.ok (name_text .database_name p.name)
  have hl : visitLine p.tree = visitOf "Source_unit" (p.toks ++ [kw .EOF]) :=
    line_of (rep_program (n := 0)) p _ (goType_eq _ _ _ (by decide))
  have h₁ : (tSource true p.tree).1 = p.exts.flatMap ExtDecl.visits ++
      (p.tables.flatMap TableDecl.visits ++
      (if 2 ≤ p.inits.length then [] else actionsVisits (p.inits.flatMap initVisits) p.actions)) := by
    unfold tSource
    rw [tm_silent hname, hext, tm_ok (tMap_ok _ fun e _ => traced_extension e), htab,
      tm_ok (tMap_ok _ fun e _ => traced_table e), hini, hact]
    dsimp only
    congr 2
    rw [List.length_map]
    by_cases hi : 2 ≤ p.inits.length
    · rw [if_pos hi, if_pos (by omega)]; rfl
    · rw [if_neg hi, if_neg (by omega)]
      apply traced_actions _ _ hc.1
      intro acts
      cases hinits : p.inits with
      | nil => rfl
      | cons b l =>
        have hln : l = [] := by
          cases l with
          | nil => rfl
          | cons => rw [hinits] at hi; simp at hi
        subst hln
        have hb := traced_init b (hc.2 b (by rw [hinits]; simp))
        show (tLast true [initTree b] >>= _).1 = _
        unfold tLast
        have : ((do return [← tVisit true (initTree b) (tInit true (initTree b))]) : TM (List Action)) =
            ⟨initVisits b, .ok [initAction b]⟩ := by
          rw [tm_ok hb]
          show TM.mk (_ ++ []) _ = _
          rw [List.append_nil]
          rfl
        rw [tm_ok this]
        show _ ++ [] = _
        simp
  unfold tVisitSource
  rw [tVisit_true (w := (tSource true p.tree).1) (r := (tSource true p.tree).2) rfl, h₁, hl]
  simp [Program.visits]

end Verif
