import Verif.Spec.Reorder
import Verif.Proof.Meaning
/-!
# Validity does not depend on order
-/

namespace Verif

theorem Matched.symm {α β : Type} {R : α → β → Prop} {R' : β → α → Prop} {l : List α} {l' : List β}
    (h : Matched R l l') (hr : ∀ a b, R a b → R' b a) : Matched R' l' l := by
  obtain ⟨z, h1, h2, h3⟩ := h
  refine ⟨z.map fun x => (x.2, x.1), ?_, ?_, ?_⟩
  · simpa [Function.comp_def] using h2
  · simpa [Function.comp_def] using h1
  · intro x hx
    obtain ⟨y, hy, rfl⟩ := List.mem_map.1 hx
    exact hr _ _ (h3 y hy)

theorem Matched.map_perm {α β γ : Type} {R : α → β → Prop} {l : List α} {l' : List β}
    (h : Matched R l l') (f : α → γ) (g : β → γ) (hr : ∀ a b, R a b → f a = g b) :
    (l.map f).Perm (l'.map g) := by
  obtain ⟨z, h1, h2, h3⟩ := h
  refine (h1.map f).symm.trans (List.Perm.trans ?_ (h2.map g))
  simp only [List.map_map]
  have e : z.map (f ∘ fun x => x.1) = z.map (g ∘ fun x => x.2) :=
    List.map_congr_left fun x hx => hr _ _ (h3 x hx)
  rw [e]

theorem Matched.mem {α β : Type} {R : α → β → Prop} {l : List α} {l' : List β}
    (h : Matched R l l') {a : α} (ha : a ∈ l) : ∃ b ∈ l', R a b := by
  obtain ⟨z, h1, h2, h3⟩ := h
  obtain ⟨x, hx, rfl⟩ := List.mem_map.1 (h1.mem_iff.2 ha)
  exact ⟨x.2, h2.mem_iff.1 (List.mem_map.2 ⟨x, hx, rfl⟩), h3 x hx⟩

theorem Matched.filterMap {α β γ δ : Type} {R : α → β → Prop} {Q : γ → δ → Prop} {l : List α}
    {l' : List β} (h : Matched R l l') (f : α → Option γ) (g : β → Option δ)
    (hr : ∀ a b, R a b → (f a = none ∧ g b = none) ∨ ∃ c d, f a = some c ∧ g b = some d ∧ Q c d) :
    Matched Q (l.filterMap f) (l'.filterMap g) := by
  obtain ⟨z, h1, h2, h3⟩ := h
  have key : ∀ z : List (α × β), (∀ x ∈ z, R x.1 x.2) → ∃ y : List (γ × δ),
      y.map (·.1) = (z.map (·.1)).filterMap f ∧ y.map (·.2) = (z.map (·.2)).filterMap g ∧
      ∀ x ∈ y, Q x.1 x.2 := by
    intro z
    induction z with
    | nil => intro _; exact ⟨[], rfl, rfl, by simp⟩
    | cons x z ih =>
      intro hz
      obtain ⟨y, e1, e2, e3⟩ := ih fun x hx => hz x (by simp [hx])
      rcases hr _ _ (hz x (by simp)) with ⟨ha, hb⟩ | ⟨c, d, ha, hb, hq⟩
      · exact ⟨y, by simp [ha, e1], by simp [hb, e2], e3⟩
      · refine ⟨(c, d) :: y, by simp [ha, e1], by simp [hb, e2], ?_⟩
        intro w hw
        rcases List.mem_cons.1 hw with rfl | hw
        · exact hq
        · exact e3 w hw
  obtain ⟨y, e1, e2, e3⟩ := key z h3
  exact ⟨y, by rw [e1]; exact h1.filterMap f, by rw [e2]; exact h2.filterMap g, e3⟩

/-! ## Symmetry -/

theorem ColDecl.Same.symm {c c' : ColDecl} (h : c.Same c') : c'.Same c :=
  ⟨h.name.symm, h.type.symm, h.constraints.symm⟩

theorem FkDecl.Same.symm {f f' : FkDecl} (h : f.Same f') : f'.Same f :=
  ⟨h.child.symm, h.table.symm, h.parent.symm, h.acts.symm⟩

theorem TableDecl.Same.symm {t t' : TableDecl} (h : t.Same t') : t'.Same t :=
  ⟨h.name.symm, h.columns.symm fun _ _ h => h.symm, h.indexes.symm, h.fks.symm fun _ _ h => h.symm⟩

theorem ExtDecl.Same.symm {e e' : ExtDecl} (h : e.Same e') : e'.Same e :=
  ⟨h.name.symm, h.alias.symm, h.config.symm⟩

theorem ActionDecl.Same.symm {a a' : ActionDecl} (h : a.Same a') : a'.Same a :=
  ⟨h.name.symm, h.annotations.symm, h.params.symm, h.modifiers.symm, h.body.symm⟩

theorem Decl.Same.symm {d d' : Decl} (h : d.Same d') : d'.Same d := by
  cases h with
  | table h => exact .table h.symm
  | action h => exact .action h.symm
  | init => exact .init

theorem Program.Same.symm {p q : Program} (h : p.Same q) : q.Same p :=
  ⟨h.name.symm, h.exts.symm fun _ _ h => h.symm, h.decls.symm fun _ _ h => h.symm⟩

/-! ## Parts of programs -/

theorem Program.Same.tables {p q : Program} (h : p.Same q) :
    Matched TableDecl.Same p.tables q.tables :=
  h.decls.filterMap _ _ fun a b hab => by
    cases hab with
    | table h => exact .inr ⟨_, _, rfl, rfl, h⟩
    | action h => exact .inl ⟨rfl, rfl⟩
    | init => exact .inl ⟨rfl, rfl⟩

theorem Program.Same.actions {p q : Program} (h : p.Same q) :
    Matched ActionDecl.Same p.actions q.actions :=
  h.decls.filterMap _ _ fun a b hab => by
    cases hab with
    | table h => exact .inl ⟨rfl, rfl⟩
    | action h => exact .inr ⟨_, _, rfl, rfl, h⟩
    | init => exact .inl ⟨rfl, rfl⟩

theorem Program.Same.inits {p q : Program} (h : p.Same q) : p.inits.Perm q.inits := by
  have : Matched (fun a b : NE Stmt => a = b) p.inits q.inits :=
    h.decls.filterMap _ _ fun a b hab => by
      cases hab with
      | table h => exact .inl ⟨rfl, rfl⟩
      | action h => exact .inl ⟨rfl, rfl⟩
      | init => exact .inr ⟨_, _, rfl, rfl, rfl⟩
  simpa using this.map_perm id id fun _ _ h => h

/-! ## Faults -/

theorem modifierFault_perm {ms ms' : List Modifier} (h : ms.Perm ms') (hf : modifierFault ms = none) :
    modifierFault ms' = none := by
  have hl := (h.filter Modifier.isVis).length_eq
  have h1 := h.count_eq Modifier.view
  have h2 := h.count_eq Modifier.owner
  unfold modifierFault at hf ⊢
  rcases e : ms.filter Modifier.isVis with _ | ⟨a, _ | ⟨b, l⟩⟩ <;>
    rcases e' : ms'.filter Modifier.isVis with _ | ⟨a', _ | ⟨b', l'⟩⟩ <;>
    simp only [e, e', List.length_cons, List.length_nil] at hl hf ⊢ <;>
    first
    | omega
    | (rw [← h1, ← h2]; exact hf)
    | simp at hf

theorem fault_none {p : Program} :
    p.fault = none ↔ p.inits.length ≤ 1 ∧ ∀ a ∈ p.actions, modifierFault a.modifiers = none := by
  unfold Program.fault
  split
  · next h => simp; omega
  · next h => simp [List.findSome?_eq_none_iff]; omega

theorem Program.Same.fault {p q : Program} (h : p.Same q) (hf : p.fault = none) : q.fault = none := by
  rw [fault_none] at hf ⊢
  refine ⟨by rw [← h.inits.length_eq]; exact hf.1, ?_⟩
  intro a ha
  obtain ⟨b, hb, hs⟩ := h.symm.actions.mem ha
  exact modifierFault_perm hs.symm.modifiers (hf.2 b hb)

/-! ## Validity -/

theorem col_names {t t' : TableDecl} (h : t.Same t') :
    t.denote.columnNames.Perm t'.denote.columnNames := by
  have := h.columns.map_perm (fun c => c.denote.name) (fun c => c.denote.name) fun _ _ h => h.name
  simpa [Table.columnNames, TableDecl.denote, Slice.elems, Function.comp_def] using this

theorem idx_names {t t' : TableDecl} (h : t.Same t') :
    t.denote.indexNames.Perm t'.denote.indexNames := by
  simp only [Table.indexNames, TableDecl.denote, listed_elems]
  exact (h.indexes.map _).map _

theorem all_names {t t' : TableDecl} (h : t.Same t') :
    (t.denote.columnNames ++ t.denote.indexNames).Perm
      (t'.denote.columnNames ++ t'.denote.indexNames) := by
  exact (col_names h).append (idx_names h)

theorem validTable_same {t t' : TableDecl} (h : t.Same t')
    (hi : ∀ i ∈ t.indexes, ∀ c ∈ i.columns.list, c ∉ t.indexes.map (·.name)) (hv : ValidTable t.denote) :
    ValidTable t'.denote where
  distinct := (all_names h).nodup hv.distinct
  columns := by
    intro c' hc'
    obtain ⟨d', hd', rfl⟩ := List.mem_map.1 (show c' ∈ t'.columns.list.map ColDecl.denote from hc')
    obtain ⟨d, hd, hs⟩ := h.symm.columns.mem hd'
    have v := hv.columns d.denote (List.mem_map.2 ⟨d, hd, rfl⟩ : _ ∈ t.columns.list.map ColDecl.denote)
    have hp : (d.denote.attributes.elems).Perm d'.denote.attributes.elems := by
      simp only [ColDecl.denote, listed_elems]
      exact hs.symm.constraints.map _
    refine ⟨(hp.map _).nodup v.distinct, ?_⟩
    intro a ha
    have := v.fits a (hp.mem_iff.2 ha)
    rw [show d'.denote.type = d.denote.type by simp [ColDecl.denote, hs.type]]
    exact this
  indexes := by
    intro before i after he c hc
    left
    have hm : i ∈ t'.denote.indexes.elems := by rw [he]; simp
    have hm : i ∈ t'.indexes.map IdxDecl.denote := by
      simpa only [TableDecl.denote, listed_elems] using hm
    obtain ⟨d', hd', rfl⟩ := List.mem_map.1 hm
    have hd := h.indexes.mem_iff.2 hd'
    obtain ⟨A, B, hab⟩ := List.append_of_mem hd
    have he' : t.denote.indexes.elems = A.map IdxDecl.denote ++ d'.denote :: B.map IdxDecl.denote := by
      simp only [TableDecl.denote, listed_elems, hab, List.map_append, List.map_cons]
    have hno := hi d' hd c hc
    rcases hv.indexes _ _ _ he' c hc with h1 | h1 | h1
    · exact (col_names h).mem_iff.1 h1
    · refine absurd ?_ hno
      rw [hab, List.map_append]
      refine List.mem_append_left _ ?_
      simpa [IdxDecl.denote, Function.comp_def] using h1
    · exact absurd (List.mem_map.2 ⟨d', hd, h1.symm⟩) hno

theorem varOk_congr {d d' : List Str} (h : ∀ v, v ∈ d ↔ v ∈ d') {v : Str} (hv : VarOk d v) : VarOk d' v :=
  ⟨fun hd => (h v).1 (hv.1 hd), hv.2⟩

theorem validStmt_congr {env : Env} {s s' : Schema} {d d' : List Str} {st : Str}
    (ha : ∀ m, m ∈ s.actionNames → m ∈ s'.actionNames) (he : ∀ m, m ∈ s.extNames → m ∈ s'.extNames)
    (hd : ∀ v, v ∈ d ↔ v ∈ d') (h : ValidStmt env s d st) : ValidStmt env s' d' st := by
  unfold ValidStmt at h ⊢
  split <;> rename_i hp <;> rw [hp] at h <;> simp only at h
  · exact h
  · exact h
  · exact ⟨ha _ h.1, fun a hm v hv => varOk_congr hd (h.2 a hm v hv)⟩
  · exact ⟨he _ h.1, fun a hm v hv => varOk_congr hd (h.2.1 a hm v hv), h.2.2⟩

theorem Program.Same.extNames {p q : Program} (h : p.Same q) :
    p.denote.extNames.Perm q.denote.extNames := by
  unfold Schema.extNames
  rw [p.denote_exts, q.denote_exts, List.map_map, List.map_map]
  exact h.exts.map_perm _ _ fun a b hab => by
    obtain ⟨n, c, al⟩ := a
    obtain ⟨n', c', al'⟩ := b
    obtain ⟨h1, h2, _⟩ := hab
    simp only at h1 h2
    subst h1 h2
    rfl

theorem Program.Same.tableNames {p q : Program} (h : p.Same q) :
    p.denote.tableNames.Perm q.denote.tableNames := by
  unfold Schema.tableNames
  rw [p.denote_tables, q.denote_tables, List.map_map, List.map_map]
  exact h.tables.map_perm _ _ fun a b hab => by simp [TableDecl.denote, hab.name]

theorem Program.Same.actionNames {p q : Program} (h : p.Same q) :
    p.denote.actionNames.Perm q.denote.actionNames := by
  unfold Schema.actionNames
  rw [p.denote_actions, q.denote_actions, List.map_append, List.map_append, List.map_map, List.map_map,
    List.map_map, List.map_map]
  exact (h.actions.map_perm _ _ fun a b hab => by simp [ActionDecl.denote, hab.name]).append
    (h.inits.map _)

/-- An action of the second program has a counterpart in the first one. -/
theorem Program.Same.action {p q : Program} (h : p.Same q) {a' : Action}
    (ha : a' ∈ q.denote.actions.elems) :
    ∃ a ∈ p.denote.actions.elems, a.inputs.elems.Perm a'.inputs.elems ∧
      a.statements.elems = a'.statements.elems := by
  rw [q.denote_actions] at ha
  rcases List.mem_append.1 ha with ha | ha
  · obtain ⟨d', hd', rfl⟩ := List.mem_map.1 ha
    obtain ⟨d, hd, hs⟩ := h.symm.actions.mem hd'
    refine ⟨d.denote, by rw [p.denote_actions]; exact List.mem_append_left _ (List.mem_map.2 ⟨d, hd, rfl⟩), ?_, ?_⟩
    · simp only [ActionDecl.denote, listed_elems]
      exact hs.symm.params
    · simp only [ActionDecl.denote, hs.body]
  · obtain ⟨b, hb, rfl⟩ := List.mem_map.1 ha
    refine ⟨initAction b, ?_, List.Perm.refl _, rfl⟩
    rw [p.denote_actions]
    exact List.mem_append_right _ (List.mem_map.2 ⟨b, h.inits.mem_iff.2 hb, rfl⟩)

theorem Program.Same.indexesOnColumns {p q : Program} (h : p.Same q) (hi : p.IndexesOnColumns) :
    q.IndexesOnColumns := by
  intro t' ht' i hi' c hc hm
  obtain ⟨t, ht, hs⟩ := h.symm.tables.mem ht'
  exact hi t ht i (hs.indexes.mem_iff.1 hi') c hc ((hs.indexes.map _).mem_iff.1 hm)

theorem Program.Same.valid {env : Env} {p q : Program} (h : p.Same q) (hi : p.IndexesOnColumns)
    (hv : ValidSchema env p.denote) : ValidSchema env q.denote where
  exts := h.extNames.nodup hv.exts
  tables := h.tableNames.nodup hv.tables
  actions := h.actionNames.nodup hv.actions
  table := by
    intro t' ht'
    rw [q.denote_tables] at ht'
    obtain ⟨d', hd', rfl⟩ := List.mem_map.1 ht'
    obtain ⟨d, hd, hs⟩ := h.symm.tables.mem hd'
    exact validTable_same hs.symm (hi d hd)
      (hv.table d.denote (by rw [p.denote_tables]; exact List.mem_map.2 ⟨d, hd, rfl⟩))
  params := by
    intro a' ha'
    obtain ⟨a, ha, hi, _⟩ := h.action ha'
    exact hi.nodup (hv.params a ha)
  fks := by
    intro t' ht' f' hf'
    rw [q.denote_tables] at ht'
    obtain ⟨d', hd', rfl⟩ := List.mem_map.1 ht'
    obtain ⟨d, hd, hs⟩ := h.symm.tables.mem hd'
    simp only [TableDecl.denote, listed_elems] at hf'
    obtain ⟨g', hg', rfl⟩ := List.mem_map.1 hf'
    obtain ⟨g, hg, hgs⟩ := hs.fks.mem hg'
    have v := hv.fks d.denote (by rw [p.denote_tables]; exact List.mem_map.2 ⟨d, hd, rfl⟩) g.denote
      (by simp only [TableDecl.denote, listed_elems]; exact List.mem_map.2 ⟨g, hg, rfl⟩)
    refine ⟨?_, ?_, ?_⟩
    · intro c hc
      refine (all_names hs.symm).mem_iff.1 (v.child c ?_)
      simpa only [FkDecl.denote, hgs.child] using hc
    · obtain ⟨pt, hpt, hn, hk⟩ := v.parent
      rw [p.denote_tables] at hpt
      obtain ⟨e, he, rfl⟩ := List.mem_map.1 hpt
      obtain ⟨e', he', hes⟩ := h.tables.mem he
      refine ⟨e'.denote, by rw [q.denote_tables]; exact List.mem_map.2 ⟨e', he', rfl⟩, ?_, ?_⟩
      · simp only [TableDecl.denote, FkDecl.denote] at hn ⊢
        rw [← hes.name, hn, hgs.table]
      · intro c hc
        refine (all_names hes).mem_iff.1 (hk c ?_)
        simpa only [FkDecl.denote, hgs.parent] using hc
    · have hp : (g.denote.actions.elems).Perm g'.denote.actions.elems := by
        simp only [FkDecl.denote, listed_elems]
        exact hgs.symm.acts
      exact (hp.map _).nodup v.events
  stmts := by
    intro a' ha' before st after he
    obtain ⟨a, ha, hi, hst⟩ := h.action ha'
    refine validStmt_congr (fun m => h.actionNames.mem_iff.1) (fun m => h.extNames.mem_iff.1) ?_
      (hv.stmts a ha before st after (hst.trans he))
    intro v
    unfold definedBefore
    simp only [List.mem_append]
    rw [hi.mem_iff]

end Verif
