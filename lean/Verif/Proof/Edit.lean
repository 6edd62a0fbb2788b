import Verif.Spec.Edit
import Verif.Proof.ParseKF
import Verif.Proof.Meaning
import Verif.Proof.Reorder
/-!
# Adding and removing declarations
-/

namespace Verif

/-- Everything declared in `s` is declared in `s'`. -/
structure Grows (s s' : Schema) : Prop where
  tables : ∀ t ∈ s.tables.elems, t ∈ s'.tables.elems
  actions : ∀ n ∈ s.actionNames, n ∈ s'.actionNames
  exts : ∀ n ∈ s.extNames, n ∈ s'.extNames

theorem ValidFK.mono {s s' : Schema} {t : Table} {f : ForeignKey} (g : Grows s s') (h : ValidFK s t f) :
    ValidFK s' t f :=
  ⟨h.child, let ⟨p, hp, h'⟩ := h.parent; ⟨p, g.tables p hp, h'⟩, h.events⟩

theorem ValidStmt.mono {env : Env} {s s' : Schema} {d : List Str} {st : Str} (g : Grows s s')
    (h : ValidStmt env s d st) : ValidStmt env s' d st := by
  unfold ValidStmt at h ⊢
  split at h
  · exact h.elim
  · trivial
  · exact h
  · exact ⟨g.actions _ h.1, h.2⟩
  · exact ⟨g.exts _ h.1, h.2⟩

theorem TableFits.mono {s s' : Schema} {t : Table} (g : Grows s s') (h : TableFits s t) : TableFits s' t :=
  ⟨h.1, fun f hf => (h.2 f hf).mono g⟩

theorem ActionFits.mono {env : Env} {s s' : Schema} {a : Action} (g : Grows s s') (h : ActionFits env s a) :
    ActionFits env s' a :=
  ⟨h.1, fun b st x hx => (h.2 b st x hx).mono g⟩

theorem valid_iff (env : Env) (s : Schema) : ValidSchema env s ↔
    s.extNames.Nodup ∧ s.tableNames.Nodup ∧ s.actionNames.Nodup ∧
    (∀ t ∈ s.tables.elems, TableFits s t) ∧ ∀ a ∈ s.actions.elems, ActionFits env s a := by
  constructor
  · intro h
    exact ⟨h.exts, h.tables, h.actions, fun t ht => ⟨h.table t ht, h.fks t ht⟩,
      fun a ha => ⟨h.params a ha, h.stmts a ha⟩⟩
  · rintro ⟨h1, h2, h3, h4, h5⟩
    exact ⟨h1, h2, h3, fun t ht => (h4 t ht).1, fun a ha => (h5 a ha).1, fun t ht => (h4 t ht).2,
      fun a ha => (h5 a ha).2⟩

theorem nodup_names_cons {α : Type} {f : α → Str} {l l' : List α} {x : α} (h : l'.Perm (x :: l)) :
    (l'.map f).Nodup ↔ f x ∉ l.map f ∧ (l.map f).Nodup := by
  rw [(h.map f).nodup_iff, List.map_cons, List.nodup_cons]

/-- One table more. -/
theorem valid_add_table (env : Env) {s s' : Schema} {t : Table} (ht : s'.tables.elems.Perm (t :: s.tables.elems))
    (ha : s'.actions.elems = s.actions.elems) (he : s'.extensions.elems = s.extensions.elems)
    (h : ValidSchema env s) :
    ValidSchema env s' ↔ t.name ∉ s.tableNames ∧ TableFits s' t := by
  have g : Grows s s' := ⟨fun u hu => ht.mem_iff.2 (List.mem_cons_of_mem _ hu),
    fun n hn => by unfold Schema.actionNames at *; rw [ha]; exact hn,
    fun n hn => by unfold Schema.extNames at *; rw [he]; exact hn⟩
  rw [valid_iff] at h ⊢
  obtain ⟨h1, h2, h3, h4, h5⟩ := h
  have e1 : s'.extNames = s.extNames := by unfold Schema.extNames; rw [he]
  have e3 : s'.actionNames = s.actionNames := by unfold Schema.actionNames; rw [ha]
  have e2 : s'.tableNames.Nodup ↔ t.name ∉ s.tableNames ∧ s.tableNames.Nodup := nodup_names_cons ht
  rw [e1, e3, e2, ha]
  constructor
  · rintro ⟨_, h, _, h', _⟩
    exact ⟨h.1, h' t (ht.mem_iff.2 (List.mem_cons_self ..))⟩
  · rintro ⟨hn, hf⟩
    refine ⟨h1, ⟨hn, h2⟩, h3, fun u hu => ?_, fun a ha => (h5 a ha).mono g⟩
    rcases List.mem_cons.1 (ht.mem_iff.1 hu) with rfl | hu
    · exact hf
    · exact (h4 u hu).mono g

/-- One action more. -/
theorem valid_add_action (env : Env) {s s' : Schema} {a : Action} (ht : s'.tables.elems = s.tables.elems)
    (ha : s'.actions.elems.Perm (a :: s.actions.elems)) (he : s'.extensions.elems = s.extensions.elems)
    (h : ValidSchema env s) :
    ValidSchema env s' ↔ a.name ∉ s.actionNames ∧ ActionFits env s' a := by
  have g : Grows s s' := ⟨fun u hu => by rw [ht]; exact hu,
    fun n hn => by
      unfold Schema.actionNames at *
      exact (ha.map _).mem_iff.2 (List.mem_cons_of_mem _ hn),
    fun n hn => by unfold Schema.extNames at *; rw [he]; exact hn⟩
  rw [valid_iff] at h ⊢
  obtain ⟨h1, h2, h3, h4, h5⟩ := h
  have e1 : s'.extNames = s.extNames := by unfold Schema.extNames; rw [he]
  have e3 : s'.tableNames = s.tableNames := by unfold Schema.tableNames; rw [ht]
  have e2 : s'.actionNames.Nodup ↔ a.name ∉ s.actionNames ∧ s.actionNames.Nodup := nodup_names_cons ha
  rw [e1, e3, e2, ht]
  constructor
  · rintro ⟨_, _, h, _, h'⟩
    exact ⟨h.1, h' a (ha.mem_iff.2 (List.mem_cons_self ..))⟩
  · rintro ⟨hn, hf⟩
    refine ⟨h1, h2, ⟨hn, h3⟩, fun u hu => (h4 u hu).mono g, fun u hu => ?_⟩
    rcases List.mem_cons.1 (ha.mem_iff.1 hu) with rfl | hu
    · exact hf
    · exact (h5 u hu).mono g

/-- One extension more. -/
theorem valid_add_ext (env : Env) {s s' : Schema} {e : Extension} (ht : s'.tables.elems = s.tables.elems)
    (ha : s'.actions.elems = s.actions.elems) (he : s'.extensions.elems.Perm (e :: s.extensions.elems))
    (h : ValidSchema env s) :
    ValidSchema env s' ↔ (if e.alias = [] then e.name else e.alias) ∉ s.extNames := by
  have g : Grows s s' := ⟨fun u hu => by rw [ht]; exact hu,
    fun n hn => by unfold Schema.actionNames at *; rw [ha]; exact hn,
    fun n hn => by
      unfold Schema.extNames at *
      exact (he.map _).mem_iff.2 (List.mem_cons_of_mem _ hn)⟩
  rw [valid_iff] at h ⊢
  obtain ⟨h1, h2, h3, h4, h5⟩ := h
  have e1 : s'.actionNames = s.actionNames := by unfold Schema.actionNames; rw [ha]
  have e3 : s'.tableNames = s.tableNames := by unfold Schema.tableNames; rw [ht]
  have e2 : s'.extNames.Nodup ↔ (if e.alias = [] then e.name else e.alias) ∉ s.extNames ∧ s.extNames.Nodup :=
    nodup_names_cons he
  rw [e1, e3, e2, ht, ha]
  constructor
  · rintro ⟨h, _⟩; exact h.1
  · intro hn
    exact ⟨⟨hn, h1⟩, h2, h3, fun u hu => (h4 u hu).mono g, fun u hu => (h5 u hu).mono g⟩

/-- One extension less. -/
theorem valid_drop_ext (env : Env) {s s' : Schema} {e : Extension} (ht : s'.tables.elems = s.tables.elems)
    (ha : s'.actions.elems = s.actions.elems) (he : s'.extensions.elems.Perm (e :: s.extensions.elems))
    (hu : ∀ a ∈ s.actions.elems, ∀ stmt ∈ a.statements.elems, ∀ args rs,
      env.actParse stmt ≠ .ok (.extCall (if e.alias = [] then e.name else e.alias) args rs))
    (h : ValidSchema env s') : ValidSchema env s := by
  rw [valid_iff] at h ⊢
  obtain ⟨h1, h2, h3, h4, h5⟩ := h
  have e1 : s'.actionNames = s.actionNames := by unfold Schema.actionNames; rw [ha]
  have e3 : s'.tableNames = s.tableNames := by unfold Schema.tableNames; rw [ht]
  have e2 : s'.extNames.Nodup ↔ (if e.alias = [] then e.name else e.alias) ∉ s.extNames ∧ s.extNames.Nodup :=
    nodup_names_cons he
  refine ⟨(e2.1 h1).2, e3 ▸ h2, e1 ▸ h3, fun t hm => ?_, fun a hm => ?_⟩
  · obtain ⟨h', hf⟩ := h4 t (ht ▸ hm)
    exact ⟨h', fun f hfm => ⟨(hf f hfm).child, by have := (hf f hfm).parent; rwa [ht] at this, (hf f hfm).events⟩⟩
  · obtain ⟨h', hs⟩ := h5 a (ha ▸ hm)
    refine ⟨h', fun b st x hx => ?_⟩
    have hv := hs b st x hx
    unfold ValidStmt at hv ⊢
    split at hv
    · exact hv.elim
    · trivial
    · exact hv
    · exact ⟨e1 ▸ hv.1, hv.2⟩
    · rename_i n args rs hn
      refine ⟨?_, hv.2⟩
      have hmem : n ∈ (if e.alias = [] then e.name else e.alias) :: s.extNames := by
        have := hv.1
        unfold Schema.extNames at this ⊢
        exact (he.map _).mem_iff.1 this
      rcases List.mem_cons.1 hmem with rfl | hm'
      · exact absurd hn (hu a hm st (by rw [hx]; simp) args rs)
      · exact hm'

/-! ### Programs -/

def Decl.asTable : Decl → List TableDecl | .table t => [t] | _ => []
def Decl.asAction : Decl → List ActionDecl | .action t => [t] | _ => []
def Decl.asInit : Decl → List (NE Stmt) | .init t => [t] | _ => []

theorem perm_mid {α : Type} (l r : List α) (x : α) : (l ++ x :: r).Perm (x :: (l ++ r)) := List.perm_middle

theorem Added.tables {p q : Program} {d : Decl} (h : Added p q d) :
    q.tables.Perm (d.asTable ++ p.tables) := by
  obtain ⟨b, a, hp, hq⟩ := h.decls
  unfold Program.tables
  rw [hp, hq, List.filterMap_append, List.filterMap_append]
  cases d with
  | table t => exact perm_mid _ _ _
  | action x => exact .refl _
  | init x => exact .refl _

theorem Added.actions {p q : Program} {d : Decl} (h : Added p q d) :
    q.actions.Perm (d.asAction ++ p.actions) := by
  obtain ⟨b, a, hp, hq⟩ := h.decls
  unfold Program.actions
  rw [hp, hq, List.filterMap_append, List.filterMap_append]
  cases d with
  | table t => exact .refl _
  | action x => exact perm_mid _ _ _
  | init x => exact .refl _

theorem Added.inits {p q : Program} {d : Decl} (h : Added p q d) :
    q.inits.Perm (d.asInit ++ p.inits) := by
  obtain ⟨b, a, hp, hq⟩ := h.decls
  unfold Program.inits
  rw [hp, hq, List.filterMap_append, List.filterMap_append]
  cases d with
  | table t => exact .refl _
  | action x => exact .refl _
  | init x => exact perm_mid _ _ _

theorem Added.tables_eq {p q : Program} {d : Decl} (h : Added p q d) (hd : ∀ t, d ≠ .table t) :
    q.tables = p.tables := by
  obtain ⟨b, a, hp, hq⟩ := h.decls
  unfold Program.tables
  rw [hp, hq, List.filterMap_append, List.filterMap_append]
  cases d with
  | table t => exact (hd t rfl).elim
  | action x => rfl
  | init x => rfl

theorem Added.actions_eq {p q : Program} {d : Decl} (h : Added p q d) (hd : ∀ t, d ≠ .action t) :
    q.actions = p.actions := by
  obtain ⟨b, a, hp, hq⟩ := h.decls
  unfold Program.actions
  rw [hp, hq, List.filterMap_append, List.filterMap_append]
  cases d with
  | action t => exact (hd t rfl).elim
  | table x => rfl
  | init x => rfl

theorem Added.inits_eq {p q : Program} {d : Decl} (h : Added p q d) (hd : ∀ t, d ≠ .init t) :
    q.inits = p.inits := by
  obtain ⟨b, a, hp, hq⟩ := h.decls
  unfold Program.inits
  rw [hp, hq, List.filterMap_append, List.filterMap_append]
  cases d with
  | init t => exact (hd t rfl).elim
  | table x => rfl
  | action x => rfl

theorem Added.exts_eq {p q : Program} {d : Decl} (h : Added p q d) :
    q.denote.extensions.elems = p.denote.extensions.elems := by
  rw [q.denote_exts, p.denote_exts, h.exts]

theorem fault_none_iff (p : Program) : p.fault = none ↔
    p.inits.length ≤ 1 ∧ ∀ a ∈ p.actions, modifierFault a.modifiers = none := by
  refine ⟨no_fault, fun h => ?_⟩
  unfold Program.fault
  rw [if_neg (by omega), List.findSome?_eq_none_iff]
  exact h.2

/-- One declaration more. -/
theorem Added.ok {p q : Program} {d : Decl} (env : Env) (h : Added p q d) (hf : p.fault = none)
    (hv : ValidSchema env p.denote) :
    (q.fault = none ∧ ValidSchema env q.denote) ↔ MayAdd env p q d := by
  rw [fault_none_iff] at hf ⊢
  cases d with
  | table t =>
    rw [h.inits_eq (by simp), h.actions_eq (by simp)]
    rw [valid_add_table env (t := t.denote) ?_ ?_ h.exts_eq hv]
    · exact ⟨fun x => x.2, fun x => ⟨hf, x⟩⟩
    · rw [q.denote_tables, p.denote_tables]
      exact h.tables.map TableDecl.denote
    · rw [q.denote_actions, p.denote_actions, h.inits_eq (by simp), h.actions_eq (by simp)]
  | action a =>
    rw [h.inits_eq (by simp)]
    have hp := h.actions
    simp only [Decl.asAction, Decl.asInit, List.cons_append, List.nil_append] at hp
    rw [valid_add_action env (a := a.denote) ?_ ?_ h.exts_eq hv]
    · constructor
      · rintro ⟨⟨_, x⟩, y, z⟩
        exact ⟨y, x a (hp.mem_iff.2 (by simp)), z⟩
      · rintro ⟨x, y, z⟩
        refine ⟨⟨hf.1, fun u hu => ?_⟩, x, z⟩
        rcases List.mem_cons.1 (hp.mem_iff.1 hu) with rfl | hu
        · exact y
        · exact hf.2 u hu
    · rw [q.denote_tables, p.denote_tables, h.tables_eq (by simp)]
    · rw [q.denote_actions, p.denote_actions, h.inits_eq (by simp)]
      exact (hp.map ActionDecl.denote).append_right _
  | init b =>
    rw [h.actions_eq (by simp)]
    have hp := h.inits
    simp only [Decl.asAction, Decl.asInit, List.cons_append, List.nil_append] at hp
    rw [valid_add_action env (a := initAction b) ?_ ?_ h.exts_eq hv]
    · have hl := hp.length_eq
      rw [List.length_cons] at hl
      constructor
      · rintro ⟨⟨x, _⟩, y, z⟩
        exact ⟨List.eq_nil_of_length_eq_zero (by omega), y, z⟩
      · rintro ⟨x, y, z⟩
        rw [x] at hl
        exact ⟨⟨by rw [hl]; simp, hf.2⟩, y, z⟩
    · rw [q.denote_tables, p.denote_tables, h.tables_eq (by simp)]
    · rw [q.denote_actions, p.denote_actions, h.actions_eq (by simp)]
      refine ((hp.map initAction).append_left _).trans ?_
      exact perm_mid _ _ _

theorem ValidStmt.restrict {env : Env} {s s' : Schema} {d : List Str} {st : Str}
    (ha : ∀ m args, env.actParse st = .ok (.actionCall m args) → m ∈ s'.actionNames → m ∈ s.actionNames)
    (he : s'.extNames = s.extNames) (h : ValidStmt env s' d st) :
    ValidStmt env s d st := by
  unfold ValidStmt at h ⊢
  split at h
  · exact h.elim
  · trivial
  · exact h
  · rename_i m args hm
    exact ⟨ha _ _ hm h.1, h.2⟩
  · exact ⟨he ▸ h.1, h.2⟩

/-- One declaration less. -/
theorem Added.without {p q : Program} {d : Decl} (env : Env) (h : Added p q d) (hu : Unused env p d)
    (hf : q.fault = none) (hv : ValidSchema env q.denote) : p.fault = none ∧ ValidSchema env p.denote := by
  rw [fault_none_iff] at hf ⊢
  rw [valid_iff] at hv ⊢
  obtain ⟨h1, h2, h3, h4, h5⟩ := hv
  have he : q.denote.extNames = p.denote.extNames := by unfold Schema.extNames; rw [h.exts_eq]
  have hta := h.tables
  have hac := h.actions
  have hin := h.inits
  refine ⟨⟨?_, fun a ha => hf.2 a (hac.mem_iff.2 (List.mem_append_right _ ha))⟩, he ▸ h1, ?_, ?_, ?_, ?_⟩
  · have := hin.length_eq
    rw [List.length_append] at this
    omega
  · unfold Schema.tableNames at h2 ⊢
    rw [q.denote_tables] at h2
    rw [p.denote_tables]
    have := ((hta.map TableDecl.denote).map (·.name)).nodup_iff.1 h2
    rw [List.map_append, List.map_append] at this
    exact (List.nodup_append.1 this).2.1
  · unfold Schema.actionNames at h3 ⊢
    rw [q.denote_actions] at h3
    rw [p.denote_actions]
    have := ((((hac.map ActionDecl.denote).append (hin.map initAction))).map (·.name)).nodup_iff.1 h3
    rw [List.map_append, List.map_append, List.map_append, List.map_append, List.map_append] at this
    obtain ⟨x, y, z⟩ := List.nodup_append.1 this
    rw [List.map_append, List.nodup_append]
    refine ⟨(List.nodup_append.1 x).2.1, (List.nodup_append.1 y).2.1, fun a ha b hb => ?_⟩
    exact z a (List.mem_append_right _ ha) b (List.mem_append_right _ hb)
  · intro t ht
    rw [p.denote_tables] at ht
    obtain ⟨td, htd, rfl⟩ := List.mem_map.1 ht
    have hq : td.denote ∈ q.denote.tables.elems := by
      rw [q.denote_tables]
      exact List.mem_map.2 ⟨td, hta.mem_iff.2 (List.mem_append_right _ htd), rfl⟩
    refine ⟨(h4 _ hq).1, fun f hfk => ?_⟩
    have hfq := (h4 _ hq).2 f hfk
    refine ⟨hfq.child, ?_, hfq.events⟩
    obtain ⟨u, hu', hun, huk⟩ := hfq.parent
    refine ⟨u, ?_, hun, huk⟩
    rw [q.denote_tables] at hu'
    rw [p.denote_tables]
    obtain ⟨ud, hud, rfl⟩ := List.mem_map.1 hu'
    refine List.mem_map.2 ⟨ud, ?_, rfl⟩
    rcases List.mem_append.1 (hta.mem_iff.1 hud) with hm | hm
    · exfalso
      cases d with
      | table t =>
        simp only [Decl.asTable, List.mem_singleton] at hm
        subst hm
        simp only [TableDecl.denote, listed_elems] at hfk
        obtain ⟨fd, hfd, rfl⟩ := List.mem_map.1 hfk
        exact hu td htd fd hfd hun.symm
      | action a => simp [Decl.asTable] at hm
      | init b => simp [Decl.asTable] at hm
    · exact hm
  · intro a ha
    have haq : a ∈ q.denote.actions.elems := by
      rw [p.denote_actions] at ha
      rw [q.denote_actions]
      rcases List.mem_append.1 ha with hm | hm
      · obtain ⟨x, hx, rfl⟩ := List.mem_map.1 hm
        exact List.mem_append_left _ (List.mem_map.2 ⟨x, hac.mem_iff.2 (List.mem_append_right _ hx), rfl⟩)
      · obtain ⟨x, hx, rfl⟩ := List.mem_map.1 hm
        exact List.mem_append_right _ (List.mem_map.2 ⟨x, hin.mem_iff.2 (List.mem_append_right _ hx), rfl⟩)
    refine ⟨(h5 a haq).1, fun b st c hst => ?_⟩
    have hvs := (h5 a haq).2 b st c hst
    have hmem : st ∈ a.statements.elems := by rw [hst]; simp
    have names : ∀ m ∈ q.denote.actionNames,
        (m ∈ d.asAction.map (·.name) ∨
         m ∈ d.asInit.map (fun _ => "init".toList)) ∨
        m ∈ p.denote.actionNames := by
      intro m hm
      unfold Schema.actionNames at hm ⊢
      obtain ⟨x, hx, rfl⟩ := List.mem_map.1 hm
      rw [q.denote_actions] at hx
      rw [p.denote_actions]
      rcases List.mem_append.1 hx with hx | hx
      · obtain ⟨y, hy, rfl⟩ := List.mem_map.1 hx
        rcases List.mem_append.1 (hac.mem_iff.1 hy) with hy | hy
        · exact .inl (.inl (List.mem_map.2 ⟨y, hy, rfl⟩))
        · exact .inr (List.mem_map.2 ⟨_, List.mem_append_left _ (List.mem_map.2 ⟨y, hy, rfl⟩), rfl⟩)
      · obtain ⟨y, hy, rfl⟩ := List.mem_map.1 hx
        rcases List.mem_append.1 (hin.mem_iff.1 hy) with hy | hy
        · exact .inl (.inr (List.mem_map.2 ⟨y, hy, rfl⟩))
        · exact .inr (List.mem_map.2 ⟨_, List.mem_append_right _ (List.mem_map.2 ⟨y, hy, rfl⟩), rfl⟩)
    refine ValidStmt.restrict (fun m args hm hmn => ?_) he hvs
    rcases names m hmn with (h' | h') | h'
    · cases d with
      | action x =>
        simp only [Decl.asAction, List.map_cons, List.map_nil, List.mem_singleton] at h'
        subst h'
        exact (hu a ha st hmem args hm).elim
      | table x => simp [Decl.asAction] at h'
      | init x => simp [Decl.asAction] at h'
    · cases d with
      | init x =>
        simp only [Decl.asInit, List.map_cons, List.map_nil, List.mem_singleton] at h'
        subst h'
        exact (hu a ha st hmem args hm).elim
      | table x => simp [Decl.asInit] at h'
      | action x => simp [Decl.asInit] at h'
    · exact h'

end Verif
