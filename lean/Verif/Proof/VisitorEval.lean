import Verif.Model.Visitor
import Verif.Proof.Spelt
/-!
# The visitor computes the meaning of a program
-/

namespace Verif

theorem Rep.leaves {α : Type} {g : G} {f : α → List Tok} {k : α → List Tree} (h : Rep g f k)
    (x : α) : Tree.leavesL (k x) = f x := (h.bwd x).leaves

theorem ok_bind {α β : Type} (a : α) (f : α → Except Panic β) : (Except.ok a >>= f) = f a := rfl

theorem mapM_ok {α β γ : Type} (f : β → Except Panic γ) (t : α → β) (g : α → γ) (l : List α)
    (h : ∀ x ∈ l, f (t x) = .ok (g x)) : (l.map t).mapM f = .ok (l.map g) := by
  induction l with
  | nil => rfl
  | cons x l ih =>
    rw [List.map_cons, List.mapM_cons, h x (by simp), ih fun y hy => h y (by simp [hy])]
    rfl

theorem mapM_fault {α β γ : Type} (f : β → Except Panic γ) (t : α → β) (g : α → γ)
    (fault : α → Option Err) (l : List α)
    (h : ∀ x ∈ l, f (t x) = match fault x with
      | none => .ok (g x)
      | some e => .error (.err e)) :
    (l.map t).mapM f = match l.findSome? fault with
      | none => .ok (l.map g)
      | some e => .error (.err e) := by
  induction l with
  | nil => rfl
  | cons x l ih =>
    rw [List.map_cons, List.mapM_cons, h x (by simp), ih fun y hy => h y (by simp [hy])]
    rw [List.findSome?_cons]
    cases fault x with
    | some e => rfl
    | none =>
      cases l.findSome? fault with
      | none => rfl
      | some e => rfl

theorem ofNonempty_listed {α : Type} (l : List α) : Slice.ofNonempty l = listed l := by
  cases l <;> rfl

theorem filter_flatMap_pair {α : Type} (r : Rule) (t : α → Tree) (l : List α)
    (h : ∀ y, (t y).isRule r = true) :
    (l.flatMap (fun y => [kl .COMMA, t y])).filter (·.isRule r) = l.map t := by
  induction l with
  | nil => rfl
  | cons x l ih =>
    simp only [List.flatMap_cons, List.filter_append, ih, List.map_cons]
    have : (kl TT.COMMA).isRule r = false := rfl
    simp [h, this]

theorem NE.filter_trees {α : Type} (r : Rule) (t : α → Tree) (x : NE α)
    (h : ∀ y, (t y).isRule r = true) :
    (x.trees fun y => [t y]).filter (·.isRule r) = x.list.map t := by
  simp only [NE.trees, List.filter_append, filter_flatMap_pair r t _ h, NE.list, List.map_cons]
  simp [h]

theorem CommaList.filter_trees {α : Type} (r : Rule) (t : α → Tree) (x : CommaList α)
    (h : ∀ y, (t y).isRule r = true) :
    (x.trees fun y => [t y]).filter (·.isRule r) = x.list.map t := by
  simp only [CommaList.trees, List.filter_append, filter_flatMap_pair r t _ h, CommaList.list,
    List.map_append]
  cases x.first <;> simp [h]

theorem filter_map_all {α : Type} (r : Rule) (t : α → Tree) (l : List α)
    (h : ∀ y, (t y).isRule r = true) : (l.map t).filter (·.isRule r) = l.map t := by
  rw [List.filter_eq_self]
  simp [h]

theorem filter_map_none {α : Type} (r : Rule) (t : α → Tree) (l : List α)
    (h : ∀ y, (t y).isRule r = false) : (l.map t).filter (·.isRule r) = [] := by
  rw [List.filter_eq_nil_iff]
  simp [h]

@[simp] theorem leaf_text (r : Rule) (t : Tok) : (Tree.node r [.leaf t]).text = t.text := by
  simp [Tree.text, Tree.leaves, Tree.leavesL]

@[simp] theorem name_text (r : Rule) (s : Str) : (nameTree r s).text = s := by
  simp [nameTree, Tree.text, Tree.leaves, Tree.leavesL, idTok]

@[simp] theorem lit_text (l : Lit) : l.tree.text = l.text := by
  cases l <;> simp [Lit.tree, Tree.text, Tree.leaves, Tree.leavesL, Lit.tok, numTok, Lit.text]

@[simp] theorem num_text (s : Str) : (numTree s).text = s := by
  simp [numTree, Tree.text, Tree.leaves, Tree.leavesL, numTok]

/-! ## Extensions -/

theorem visit_pair (p : Pair) :
    ((p.tree .ext_config .ext_config_name .ext_config_value .COL).getText .ext_config_name 0
      = .ok p.name) ∧
    ((p.tree .ext_config .ext_config_name .ext_config_value .COL).getText .ext_config_value 0
      = .ok p.value.text) := by
  constructor
  · have : (nameTree .ext_config_name p.name).text = p.name := name_text _ _
    simp only [Tree.getText, Tree.get, Tree.all, Pair.tree, Tree.kids]
    exact congrArg Except.ok this
  · have : (Tree.node .ext_config_value [p.value.tree]).text = p.value.text := by
      rw [← lit_text]; simp [Tree.text, Tree.leaves]
    exact congrArg Except.ok this

theorem visit_ext_config (c : NE Pair) :
    visitExtConfigList (extConfigTree c) = .ok (c.list.map Pair.config) := by
  unfold visitExtConfigList extConfigTree Tree.all Tree.kids
  rw [NE.filter_trees _ _ _ (by intro y; rfl)]
  apply mapM_ok
  intro p _
  rw [(visit_pair p).1, (visit_pair p).2]
  rfl

theorem visit_extension (e : ExtDecl) : visitExtension e.tree = .ok e.denote := by
  obtain ⟨name, config, alias⟩ := e
  cases config with
  | none =>
    have h₁ := name_text .extension_name name
    have h₂ := name_text .extension_name alias
    show Except.ok (⟨(nameTree .extension_name name).text, none,
      (nameTree .extension_name alias).text⟩ : Extension) = _
    rw [h₁, h₂]; rfl
  | some c =>
    have h₁ := name_text .extension_name name
    have h₂ := name_text .extension_name alias
    have h₃ : visitExtension (ExtDecl.tree ⟨name, some c, alias⟩) =
      (visitExtConfigList (extConfigTree c)).bind fun l =>
          .ok (⟨(nameTree .extension_name name).text, some l,
            (nameTree .extension_name alias).text⟩ : Extension) := rfl
    rw [h₃, visit_ext_config, h₁, h₂]; rfl

/-! ## Tables -/

theorem visit_constraint (c : Constraint) : visitConstraint c.tree = .ok c.denote := by
  cases c with
  | default l => exact congrArg (fun s => Except.ok (⟨C.attrDefault, some s⟩ : Attribute)) (lit_text l)
  | min n => exact congrArg (fun s => Except.ok (⟨C.attrMin, some s⟩ : Attribute)) (num_text n)
  | max n => exact congrArg (fun s => Except.ok (⟨C.attrMax, some s⟩ : Attribute)) (num_text n)
  | minLen n => exact congrArg (fun s => Except.ok (⟨C.attrMinLength, some s⟩ : Attribute)) (num_text n)
  | maxLen n => exact congrArg (fun s => Except.ok (⟨C.attrMaxLength, some s⟩ : Attribute)) (num_text n)
  | _ => rfl

theorem visit_column (c : ColDecl) : visitColumn c.tree = .ok c.denote := by
  obtain ⟨name, type, cs⟩ := c
  have hall : (ColDecl.tree ⟨name, type, cs⟩).all .column_constraint = cs.map Constraint.tree := by
    show (cs.map Constraint.tree).filter (·.isRule .column_constraint) = _
    exact filter_map_all _ _ _ (by intro y; rfl)
  have hn := name_text .column_name name
  have hm := mapM_ok visitConstraint Constraint.tree Constraint.denote cs
    (fun c _ => visit_constraint c)
  unfold visitColumn
  rw [hall, hm]
  cases type <;>
    exact congrArg (fun s => Except.ok (⟨s, _, _⟩ : Column)) hn |>.trans
      (by rw [ofNonempty_listed]; rfl)

theorem visit_names (x : NE Str) : visitColumnNames (namesTree x) = x.list := by
  unfold visitColumnNames namesTree Tree.all Tree.kids
  rw [NE.filter_trees _ _ _ (by intro y; rfl)]
  simp [Function.comp_def]

theorem visit_index (i : IdxDecl) : visitIndex i.tree = .ok i.denote := by
  obtain ⟨name, kind, cols⟩ := i
  have h := visit_names cols
  have h₁ := leaf_text .index_name ⟨.INDEX_NAME, '#' :: name⟩
  have h₂ : visitIndex (IdxDecl.tree ⟨name, kind, cols⟩) =
      (dropFirst (Tree.node .index_name [.leaf ⟨.INDEX_NAME, '#' :: name⟩]).text).bind fun n =>
        .ok ⟨n, some (visitColumnNames (namesTree cols)), kind.denote⟩ := by
    cases kind <;> rfl
  rw [h₂, h₁, h]
  rfl

theorem visit_fk_action (a : FkAct) : visitFKAction a.tree = a.denote := by
  obtain ⟨on, d, act⟩ := a
  cases on <;> cases d <;> cases act <;> rfl

theorem visit_fk (f : FkDecl) : visitForeignKey f.tree = .ok f.denote := by
  obtain ⟨short, child, shortRef, table, parent, acts⟩ := f
  have hc := visit_names child
  have hp := visit_names parent
  have ht := name_text .table_name table
  have ha : (acts.map FkAct.tree).filter (·.isRule .foreign_key_action) = acts.map FkAct.tree :=
    filter_map_all _ _ _ (by intro y; rfl)
  have hm : (acts.map FkAct.tree).map visitFKAction = acts.map FkAct.denote := by
    simp [visit_fk_action]
  have : visitForeignKey (FkDecl.tree ⟨short, child, shortRef, table, parent, acts⟩) =
      .ok ⟨some (visitColumnNames (namesTree child)), some (visitColumnNames (namesTree parent)),
        (nameTree .table_name table).text,
        Slice.ofNonempty (((acts.map FkAct.tree).filter (·.isRule .foreign_key_action)).map
          visitFKAction)⟩ := by
    rfl
  rw [this, ha, hm, hc, hp, ht, ofNonempty_listed]
  rfl

theorem items_filter_index (l : List TableItem) :
    (l.flatMap (fun i => [kl .COMMA, i.tree])).filter (·.isRule .index_def) =
      (l.filterMap fun | .index i => some i | .fk _ => none).map IdxDecl.tree := by
  induction l with
  | nil => rfl
  | cons x l ih =>
    rw [List.flatMap_cons, List.filter_append, ih]
    cases x <;> rfl

theorem items_filter_fk (l : List TableItem) :
    (l.flatMap (fun i => [kl .COMMA, i.tree])).filter (·.isRule .foreign_key_def) =
      (l.filterMap fun | .fk f => some f | .index _ => none).map FkDecl.tree := by
  induction l with
  | nil => rfl
  | cons x l ih =>
    rw [List.flatMap_cons, List.filter_append, ih]
    cases x <;> rfl

theorem visit_columns (c : NE ColDecl) :
    visitColumns (columnsTree c) = .ok (c.list.map ColDecl.denote) := by
  unfold visitColumns columnsTree Tree.all Tree.kids
  rw [NE.filter_trees _ _ _ (by intro y; rfl)]
  exact mapM_ok _ _ _ _ fun c _ => visit_column c

theorem visit_table (t : TableDecl) : visitTable t.tree = .ok t.denote := by
  obtain ⟨name, cols, items, comma⟩ := t
  have h₁ := name_text .table_name name
  have h₂ := visit_columns cols
  have h₃ : (TableDecl.tree ⟨name, cols, items, comma⟩).all .index_def =
      (TableDecl.indexes ⟨name, cols, items, comma⟩).map IdxDecl.tree := by
    unfold Tree.all TableDecl.tree Tree.kids
    simp only [List.filter_append, items_filter_index]
    cases comma <;> simp [TableDecl.indexes, Tree.isRule, nameTree, columnsTree] <;> rfl
  have h₄ : (TableDecl.tree ⟨name, cols, items, comma⟩).all .foreign_key_def =
      (TableDecl.fks ⟨name, cols, items, comma⟩).map FkDecl.tree := by
    unfold Tree.all TableDecl.tree Tree.kids
    simp only [List.filter_append, items_filter_fk]
    cases comma <;> simp [TableDecl.fks, Tree.isRule, nameTree, columnsTree] <;> rfl
  have h₅ : (TableDecl.tree ⟨name, cols, items, comma⟩).getText .table_name 0 =
      .ok (nameTree .table_name name).text := rfl
  have h₆ : (TableDecl.tree ⟨name, cols, items, comma⟩).get .column_def_list 0 =
      some (columnsTree cols) := rfl
  unfold visitTable
  rw [h₅, h₆, h₃, h₄, mapM_ok _ _ _ _ fun i _ => visit_index i,
    mapM_ok _ _ _ _ fun f _ => visit_fk f, h₁]
  show (visitColumns (columnsTree cols)).bind _ = _
  rw [h₂]
  show Except.ok (⟨_, _, Slice.ofNonempty _, Slice.ofNonempty _⟩ : Table) = _
  rw [ofNonempty_listed, ofNonempty_listed]
  rfl

/-! ## Actions -/

theorem stmt_text (s : Stmt) : s.tree.text = s.denote := by
  have := rep_stmt (n := 0) |>.leaves s
  simp only [leavesL_singleton] at this
  simp [Tree.text, this, Stmt.denote, glued]

theorem annot_text (a : Annot) : a.tree.text = '@' :: a.denote := by
  have := rep_annotation (n := 0) |>.leaves a
  simp only [leavesL_singleton] at this
  simp [Tree.text, this, Annot.denote, glued, Annot.toks, kw, TT.fixed]

theorem visit_annotation (a : Annot) : visitAnnotation a.tree = .ok a.denote := by
  unfold visitAnnotation
  rw [annot_text]
  rfl

/-- A text with no white space at either end. -/
theorem trimSpace_eq {s : Str} (h₁ : ∀ c ∈ s.head?, isSpace c = false)
    (h₂ : ∀ c ∈ s.getLast?, isSpace c = false) : trimSpace s = s := by
  unfold trimSpace
  have a : ∀ s : Str, (∀ c ∈ s.head?, isSpace c = false) → s.dropWhile isSpace = s := by
    intro s h
    cases s with
    | nil => rfl
    | cons c s => simp [h c (by simp)]
  rw [a s h₁, a s.reverse (by simpa using h₂), List.reverse_reverse]

/-- The statement's text does not begin with white space. -/
def Stmt.Clean (s : Stmt) : Prop := ∀ c ∈ s.denote.head?, isSpace c = false

theorem stmt_last (s : Stmt) : ∃ x, s.denote = x ++ [';'] := by
  cases s with
  | sql t => exact ⟨t, by simp [Stmt.denote, Stmt.toks, glued, kw, TT.fixed]⟩
  | call rs ext m args =>
    simp only [Stmt.denote, Stmt.toks, glued]
    rw [show [kw TT.R_PAREN, kw .SCOL] = [kw .R_PAREN] ++ [kw .SCOL] from rfl,
      ← List.append_assoc, List.flatMap_append]
    exact ⟨_, rfl⟩

theorem visit_stmt (s : Stmt) (h : s.Clean) : visitStmt s.tree = s.denote := by
  unfold visitStmt
  rw [stmt_text]
  apply trimSpace_eq h
  obtain ⟨x, hx⟩ := stmt_last s
  rw [hx]
  simp
  decide

theorem visit_stmts (b : NE Stmt) (h : ∀ s ∈ b.list, s.Clean) :
    visitStmts (stmtsTree b) = b.list.map Stmt.denote := by
  unfold visitStmts stmtsTree Tree.all Tree.kids
  rw [filter_map_all _ _ _ (by intro y; rfl), List.map_map]
  exact List.map_congr_left fun s hs => visit_stmt s (h s hs)

theorem visit_params (ps : CommaList Str) :
    ((paramsTree ps).all .parameter).map (·.text) = ps.list := by
  unfold paramsTree Tree.all Tree.kids
  rw [CommaList.filter_trees _ _ _ (by intro y; rfl)]
  simp [Function.comp_def, varTok]

theorem modifiers_vis (ms : List Modifier) :
    ((modifiersTree ms).all .action_visibility).map (·.text) =
      (ms.filter Modifier.isVis).map (·.tok.text) := by
  induction ms with
  | nil => rfl
  | cons m ms ih =>
    have : (modifiersTree (m :: ms)).all .action_visibility =
      ([m.tree].filter (·.isRule .action_visibility)) ++
        (modifiersTree ms).all .action_visibility := by
      simp only [modifiersTree, Tree.all, Tree.kids]
      rw [← List.filter_append]
      rfl
    rw [this, List.map_append, ih]
    cases m <;> rfl

theorem modifiers_mut (ms : List Modifier) :
    ((modifiersTree ms).all .action_mutability).map (·.text) =
      List.replicate (ms.count .view) C.mutView := by
  induction ms with
  | nil => rfl
  | cons m ms ih =>
    have : (modifiersTree (m :: ms)).all .action_mutability =
      ([m.tree].filter (·.isRule .action_mutability)) ++
        (modifiersTree ms).all .action_mutability := by
      simp only [modifiersTree, Tree.all, Tree.kids]
      rw [← List.filter_append]
      rfl
    rw [this, List.map_append, ih, List.count_cons]
    cases m <;> simp <;> rfl

theorem modifiers_aux (ms : List Modifier) :
    ((modifiersTree ms).all .action_auxiliary).map (·.text) =
      List.replicate (ms.count .owner) C.auxOwner := by
  induction ms with
  | nil => rfl
  | cons m ms ih =>
    have : (modifiersTree (m :: ms)).all .action_auxiliary =
      ([m.tree].filter (·.isRule .action_auxiliary)) ++
        (modifiersTree ms).all .action_auxiliary := by
      simp only [modifiersTree, Tree.all, Tree.kids]
      rw [← List.filter_append]
      rfl
    rw [this, List.map_append, ih, List.count_cons]
    cases m <;> simp <;> rfl

theorem visit_modifiers (ms : List Modifier) :
    visitActionAttrs (modifiersTree ms) = match modifierFault ms with
      | none => .ok (ms.contains .pub,
          if ms.contains .view then "view".toList else "update".toList,
          if ms.contains .owner then some ["owner".toList] else none)
      | some e => .error (.err e) := by
  unfold visitActionAttrs modifierFault
  rw [modifiers_vis, modifiers_mut, modifiers_aux]
  have hview : ms.contains .view = decide (0 < ms.count .view) := by
    rw [Bool.eq_iff_iff]; simp [List.count_pos_iff]
  have howner : ms.contains .owner = decide (0 < ms.count .owner) := by
    rw [Bool.eq_iff_iff]; simp [List.count_pos_iff]
  have hpub : ms.contains .pub = (ms.filter Modifier.isVis).contains .pub := by
    rw [Bool.eq_iff_iff]; simp [Modifier.isVis]
  rw [hview, howner, hpub]
  generalize ms.count .view = v
  generalize ms.count .owner = o
  have hall : ∀ m ∈ ms.filter Modifier.isVis, m.isVis = true := fun m hm =>
    (List.mem_filter.1 hm).2
  clear hpub
  generalize ms.filter Modifier.isVis = fl at hall ⊢
  rcases fl with _ | ⟨a, _ | ⟨b, l⟩⟩
  · rcases v with _ | _ | v
    · rcases o with _ | _ | o
      · rfl
      · rfl
      · simp [List.replicate_succ]; rfl
    · rcases o with _ | _ | o
      · rfl
      · rfl
      · simp [List.replicate_succ]; rfl
    · simp [List.replicate_succ]; rfl
  · have ha := hall a (by simp)
    rcases v with _ | _ | v
    · rcases o with _ | _ | o
      · cases a <;> first | rfl | simp [Modifier.isVis] at ha
      · cases a <;> first | rfl | simp [Modifier.isVis] at ha
      · simp [List.replicate_succ]; rfl
    · rcases o with _ | _ | o
      · cases a <;> first | rfl | simp [Modifier.isVis] at ha
      · cases a <;> first | rfl | simp [Modifier.isVis] at ha
      · simp [List.replicate_succ]; rfl
    · simp [List.replicate_succ]; rfl
  · rfl


theorem action_all_none (a : ActionDecl) (r : Rule) (h : r ≠ .annotation_decl) :
    a.tree.all r = [kl .ACTION_, nameTree .action_name a.name, kl .L_PAREN, paramsTree a.params,
      kl .R_PAREN, modifiersTree a.modifiers, kl .L_BRACE, stmtsTree a.body,
      kl .R_BRACE].filter (·.isRule r) := by
  unfold ActionDecl.tree Tree.all Tree.kids
  rw [List.filter_append, filter_map_none r Annot.tree]
  · rfl
  · intro y; simpa [Tree.isRule, Annot.tree] using h

theorem visit_action (a : ActionDecl) (hb : ∀ s ∈ a.body.list, s.Clean) :
    visitAction a.tree = match modifierFault a.modifiers with
      | none => .ok a.denote
      | some e => .error (.err e) := by
  have hann : a.tree.all .annotation_decl = a.annotations.map Annot.tree := by
    unfold ActionDecl.tree Tree.all Tree.kids
    rw [List.filter_append, filter_map_all .annotation_decl Annot.tree _ (by intro y; rfl)]
    simp [Tree.isRule, nameTree, paramsTree, modifiersTree, stmtsTree]
  have hname : a.tree.getText .action_name 0 = .ok a.name := by
    unfold Tree.getText Tree.get
    rw [action_all_none a _ (by decide)]
    exact congrArg Except.ok (name_text .action_name a.name)
  have hpar : a.tree.get .param_list 0 = some (paramsTree a.params) := by
    unfold Tree.get
    rw [action_all_none a _ (by decide)]
    rfl
  have hmod : a.tree.get .action_attr_list 0 = some (modifiersTree a.modifiers) := by
    unfold Tree.get
    rw [action_all_none a _ (by decide)]
    rfl
  have hst : a.tree.get .action_stmt_list 0 = some (stmtsTree a.body) := by
    unfold Tree.get
    rw [action_all_none a _ (by decide)]
    rfl
  unfold visitAction
  rw [hann, hname, hpar, hmod, hst, mapM_ok _ _ _ _ fun i _ => visit_annotation i]
  show (visitActionAttrs (modifiersTree a.modifiers)).bind _ = _
  rw [visit_modifiers]
  cases hf : modifierFault a.modifiers with
  | some e => rfl
  | none =>
    show Except.ok (⟨a.name, Slice.ofNonempty (a.annotations.map Annot.denote),
      Slice.ofNonempty (((paramsTree a.params).all .parameter).map (·.text)), _, _, _,
      some (visitStmts (stmtsTree a.body))⟩ : Action) = .ok a.denote
    rw [visit_params, visit_stmts _ hb, ofNonempty_listed, ofNonempty_listed]
    rfl

theorem visit_init (b : NE Stmt) (hb : ∀ s ∈ b.list, s.Clean) :
    visitInit (initTree b) = .ok (initAction b) := by
  have : visitInit (initTree b) = .ok ⟨C.init, none, none, false, C.mutUpdate, none,
    some (visitStmts (stmtsTree b))⟩ := rfl
  rw [this, visit_stmts _ hb]
  rfl

/-! ## Programs -/

/-- No statement begins with white space. -/
def Program.Clean (p : Program) : Prop :=
  (∀ a ∈ p.actions, ∀ s ∈ a.body.list, s.Clean) ∧ (∀ b ∈ p.inits, ∀ s ∈ b.list, s.Clean)

theorem decls_tables (l : List Decl) :
    (l.map Decl.tree).filter (·.isRule .table_decl) =
      (l.filterMap fun | .table t => some t | _ => none).map TableDecl.tree := by
  induction l with
  | nil => rfl
  | cons d l ih =>
    rw [List.map_cons, List.filter_cons, ih]
    cases d <;> rfl

theorem decls_actions (l : List Decl) :
    (l.map Decl.tree).filter (·.isRule .action_decl) =
      (l.filterMap fun | .action a => some a | _ => none).map ActionDecl.tree := by
  induction l with
  | nil => rfl
  | cons d l ih =>
    rw [List.map_cons, List.filter_cons, ih]
    cases d <;> rfl

theorem decls_inits (l : List Decl) :
    (l.map Decl.tree).filter (·.isRule .init_decl) =
      (l.filterMap fun | .init b => some b | _ => none).map initTree := by
  induction l with
  | nil => rfl
  | cons d l ih =>
    rw [List.map_cons, List.filter_cons, ih]
    cases d <;> rfl

theorem decls_other (l : List Decl) (r : Rule)
    (h : r ∉ [Rule.table_decl, .action_decl, .init_decl]) :
    (l.map Decl.tree).filter (·.isRule r) = [] := by
  apply filter_map_none
  intro d
  simp only [List.mem_cons, not_or] at h
  cases d
  · simpa [Tree.isRule, Decl.tree, TableDecl.tree] using h.1
  · simpa [Tree.isRule, Decl.tree, ActionDecl.tree] using h.2.1
  · simpa [Tree.isRule, Decl.tree, initTree] using h.2.2.1

theorem program_all (p : Program) (r : Rule)
    (h₁ : r ≠ .extension_directive) (h₂ : r ≠ .database_directive) :
    p.tree.all r = (p.decls.map Decl.tree).filter (·.isRule r) := by
  unfold Program.tree Tree.all Tree.kids
  simp only [List.filter_append]
  rw [filter_map_none r ExtDecl.tree]
  · have : Tree.isRule r (.node .database_directive
        [kl .DATABASE_, nameTree .database_name p.name]) = false := by
      simpa [Tree.isRule] using h₂
    simpa [Tree.isRule] using h₂
  · intro y; simpa [Tree.isRule, ExtDecl.tree] using h₁

/-- The visitor returns the schema the program stands for, or the complaint
about it. -/
theorem visit_program (p : Program) (hc : p.Clean) :
    visitSource p.tree = match p.fault with
      | none => .ok p.denote
      | some e => .error (.err e) := by
  have htab : p.tree.all .table_decl = p.tables.map TableDecl.tree := by
    rw [program_all p _ (by decide) (by decide), decls_tables]; rfl
  have hact : p.tree.all .action_decl = p.actions.map ActionDecl.tree := by
    rw [program_all p _ (by decide) (by decide), decls_actions]; rfl
  have hini : p.tree.all .init_decl = p.inits.map initTree := by
    rw [program_all p _ (by decide) (by decide), decls_inits]; rfl
  have hext : p.tree.all .extension_directive = p.exts.map ExtDecl.tree := by
    unfold Program.tree Tree.all Tree.kids
    simp only [List.filter_append]
    rw [filter_map_all _ ExtDecl.tree _ (by intro y; rfl), decls_other _ _ (by decide)]
    simp [Tree.isRule]
  have hdb : p.tree.get .database_directive 0 =
      some (.node .database_directive [kl .DATABASE_, nameTree .database_name p.name]) := rfl
  have hname : Tree.getText .database_name 0
      (.node .database_directive [kl .DATABASE_, nameTree .database_name p.name]) = .ok p.name :=
    congrArg Except.ok (name_text .database_name p.name)
  unfold visitSource
  rw [htab, hact, hini, hext, hdb, mapM_ok _ _ _ _ fun e _ => visit_extension e,
    mapM_ok _ _ _ _ fun e _ => visit_table e,
    mapM_fault _ _ _ (fun a => modifierFault a.modifiers) _ fun a ha =>
      visit_action a (hc.1 a ha)]
  rw [show ∀ t : Tree, need (some t) = .ok t from fun _ => rfl, ok_bind, hname, ok_bind, ok_bind,
    ok_bind]
  unfold Program.fault
  show (if (p.inits.map initTree).length > 1 then _ else _) = _
  rw [List.length_map]
  by_cases hi : 2 ≤ p.inits.length
  · rw [if_pos hi, if_pos (by omega)]
  · rw [if_neg hi, if_neg (by omega)]
    cases p.actions.findSome? fun a => modifierFault a.modifiers with
    | some e => rfl
    | none =>
      cases hinits : p.inits with
      | nil =>
        show Except.ok (⟨[], p.name, Slice.ofNonempty (p.tables.map TableDecl.denote),
          Slice.ofNonempty (p.actions.map ActionDecl.denote ++ []),
          Slice.ofNonempty (p.exts.map ExtDecl.denote)⟩ : Schema) = .ok p.denote
        simp only [ofNonempty_listed, Program.denote, hinits, List.map_nil]
      | cons b l =>
        have hl : l = [] := by
          cases l with
          | nil => rfl
          | cons => rw [hinits] at hi; simp at hi
        subst hl
        have hb := visit_init b (hc.2 b (by rw [hinits]; simp))
        show ((visitInit (initTree b)).bind fun i => Except.ok
          (⟨[], p.name, Slice.ofNonempty (p.tables.map TableDecl.denote),
          Slice.ofNonempty (p.actions.map ActionDecl.denote ++ [i]),
          Slice.ofNonempty (p.exts.map ExtDecl.denote)⟩ : Schema)) = .ok p.denote
        rw [hb]
        show Except.ok _ = _
        simp only [ofNonempty_listed, Program.denote, hinits, List.map_cons, List.map_nil]

end Verif
