import Verif.Proof.Canonical
import Verif.Proof.Meaning
import Verif.Proof.Edit
import Verif.Props.SampleText
import Verif.Spec.Rename
import Verif.Props.SqlScope
/-!
# C65: names of tables, columns and indexes
-/

namespace Verif

theorem Slice.elems_map {α β : Type} (f : α → β) (s : Slice α) : (Slice.map f s).elems = s.elems.map f := by
  cases s <;> rfl

theorem listed_map {α β : Type} (f : α → β) (l : List α) : listed (l.map f) = Slice.map f (listed l) := by
  cases l <;> rfl

theorem nodup_map_iff {α β : Type} {f : α → β} (hf : ∀ a b, f a = f b → a = b) {l : List α} :
    (l.map f).Nodup ↔ l.Nodup := by
  induction l with
  | nil => simp
  | cons x xs ih =>
    simp only [List.map_cons, List.nodup_cons, ih, List.mem_map]
    constructor
    · rintro ⟨h, h'⟩; exact ⟨fun hx => h ⟨x, hx, rfl⟩, h'⟩
    · rintro ⟨h, h'⟩; exact ⟨fun ⟨y, hy, he⟩ => h (hf _ _ he ▸ hy), h'⟩

theorem mem_map_iff {α β : Type} {f : α → β} (hf : ∀ a b, f a = f b → a = b) {l : List α} {x : α} :
    f x ∈ l.map f ↔ x ∈ l :=
  ⟨fun h => by obtain ⟨y, hy, he⟩ := List.mem_map.1 h; exact hf _ _ he ▸ hy, fun h => List.mem_map.2 ⟨x, h, rfl⟩⟩

theorem map_eq_split {α β : Type} {f : α → β} {l : List α} {b : List β} {y : β} {e : List β} :
    l.map f = b ++ y :: e ↔ ∃ b' x e', l = b' ++ x :: e' ∧ b'.map f = b ∧ f x = y ∧ e'.map f = e := by
  constructor
  · intro h
    obtain ⟨l1, l2, rfl, h1, h2⟩ := List.map_eq_append_iff.1 h
    obtain ⟨x, e', rfl, h3, h4⟩ := List.map_eq_cons_iff.1 h2
    exact ⟨l1, x, e', rfl, h1, h3, h4⟩
  · rintro ⟨b', x, e', rfl, rfl, rfl, rfl⟩; simp

variable (r : Renaming)

theorem Table.rename_columnNames (t : Table) :
    (t.rename r).columnNames = t.columnNames.map (r.column t.name) := by
  simp only [Table.columnNames, Table.rename, Slice.elems_map, List.map_map]; rfl

theorem Table.rename_indexNames (t : Table) :
    (t.rename r).indexNames = t.indexNames.map (r.column t.name) := by
  simp only [Table.indexNames, Table.rename, Slice.elems_map, List.map_map]; rfl

theorem Table.rename_valid (t : Table) : ValidTable (t.rename r) ↔ ValidTable t := by
  have hi := r.column_inj t.name
  constructor
  · intro h
    refine ⟨?_, ?_, ?_⟩
    · have := h.distinct
      rw [t.rename_columnNames r, t.rename_indexNames r, ← List.map_append] at this
      exact (nodup_map_iff hi).1 this
    · intro c hc
      have := h.columns { c with name := r.column t.name c.name } (by
        simp only [Table.rename, Slice.elems_map]; exact List.mem_map.2 ⟨c, hc, rfl⟩)
      exact ⟨this.distinct, this.fits⟩
    · intro b i e he c hc
      have := h.indexes (b.map (Index.rename (r.column t.name))) (i.rename (r.column t.name))
        (e.map (Index.rename (r.column t.name))) (by simp [Table.rename, Slice.elems_map, he])
        (r.column t.name c) (by simp only [Index.rename, Slice.elems_map]; exact List.mem_map.2 ⟨c, hc, rfl⟩)
      rw [t.rename_columnNames r, mem_map_iff hi,
        show (b.map (Index.rename (r.column t.name))).map (·.name) = (b.map (·.name)).map (r.column t.name) by
          simp [Index.rename], mem_map_iff hi] at this
      rcases this with h | h | h
      · exact .inl h
      · exact .inr (.inl h)
      · exact .inr (.inr (hi _ _ h))
  · intro h
    refine ⟨?_, ?_, ?_⟩
    · rw [t.rename_columnNames r, t.rename_indexNames r, ← List.map_append]
      exact (nodup_map_iff hi).2 h.distinct
    · intro c hc
      simp only [Table.rename, Slice.elems_map, List.mem_map] at hc
      obtain ⟨c, hc, rfl⟩ := hc
      exact ⟨(h.columns c hc).distinct, (h.columns c hc).fits⟩
    · intro b i e he c hc
      simp only [Table.rename, Slice.elems_map] at he
      obtain ⟨b, i, e, he', rfl, rfl, rfl⟩ := map_eq_split.1 he
      simp only [Index.rename, Slice.elems_map, List.mem_map] at hc
      obtain ⟨c, hc', rfl⟩ := hc
      rw [t.rename_columnNames r, mem_map_iff hi,
        show (b.map (Index.rename (r.column t.name))).map (·.name) = (b.map (·.name)).map (r.column t.name) by
          simp [Index.rename], mem_map_iff hi]
      rcases h.indexes b i e he' c hc' with h | h | h
      · exact .inl h
      · exact .inr (.inl h)
      · exact .inr (.inr (by rw [h]; rfl))

theorem Schema.rename_fk (s : Schema) (t : Table) (f : ForeignKey) :
    ValidFK (s.rename r) (t.rename r) (f.rename r (r.column t.name)) ↔ ValidFK s t f := by
  have hi := r.column_inj t.name
  have hn : ∀ t : Table, (t.rename r).columnNames ++ (t.rename r).indexNames =
      (t.columnNames ++ t.indexNames).map (r.column t.name) := fun t => by
    rw [t.rename_columnNames r, t.rename_indexNames r, List.map_append]
  have hc : (∀ c ∈ (f.rename r (r.column t.name)).childKeys.elems,
      c ∈ (t.rename r).columnNames ++ (t.rename r).indexNames) ↔
      ∀ c ∈ f.childKeys.elems, c ∈ t.columnNames ++ t.indexNames := by
    rw [hn]
    simp only [ForeignKey.rename, Slice.elems_map]
    constructor
    · intro h c hc; exact (mem_map_iff hi).1 (h _ (List.mem_map.2 ⟨c, hc, rfl⟩))
    · intro h c hc
      obtain ⟨c, hc', rfl⟩ := List.mem_map.1 hc
      exact (mem_map_iff hi).2 (h c hc')
  have hp : (∃ p ∈ (s.rename r).tables.elems, p.name = (f.rename r (r.column t.name)).parentTable ∧
      ∀ c ∈ (f.rename r (r.column t.name)).parentKeys.elems, c ∈ p.columnNames ++ p.indexNames) ↔
      ∃ p ∈ s.tables.elems, p.name = f.parentTable ∧ ∀ c ∈ f.parentKeys.elems, c ∈ p.columnNames ++ p.indexNames := by
    simp only [ForeignKey.rename, Schema.rename, Slice.elems_map]
    constructor
    · rintro ⟨p, hp, hname, hk⟩
      obtain ⟨p, hp', rfl⟩ := List.mem_map.1 hp
      have hname : p.name = f.parentTable := r.table_inj _ _ hname
      refine ⟨p, hp', hname, fun c hc => ?_⟩
      rw [hn] at hk
      have := hk _ (List.mem_map.2 ⟨c, hc, rfl⟩)
      rw [← hname] at this
      exact (mem_map_iff (r.column_inj p.name)).1 this
    · rintro ⟨p, hp, hname, hk⟩
      refine ⟨p.rename r, List.mem_map.2 ⟨p, hp, rfl⟩, by rw [← hname]; rfl, fun c hc => ?_⟩
      obtain ⟨c, hc', rfl⟩ := List.mem_map.1 hc
      rw [hn, ← hname]
      exact (mem_map_iff (r.column_inj p.name)).2 (hk c hc')
  exact ⟨fun h => ⟨hc.1 h.child, hp.1 h.parent, h.events⟩, fun h => ⟨hc.2 h.child, hp.2 h.parent, h.events⟩⟩

theorem Schema.rename_valid (env : Env) (s : Schema) : ValidSchema env (s.rename r) ↔ ValidSchema env s := by
  have ht : (s.rename r).tableNames = s.tableNames.map r.table := by
    simp only [Schema.tableNames, Schema.rename, Slice.elems_map, List.map_map]; rfl
  have hmem : ∀ t, t ∈ s.tables.elems → t.rename r ∈ (s.rename r).tables.elems := fun t h => by
    simp only [Schema.rename, Slice.elems_map]; exact List.mem_map.2 ⟨t, h, rfl⟩
  have hfk : ∀ (t : Table) (f : ForeignKey), f ∈ t.foreignKeys.elems →
      f.rename r (r.column t.name) ∈ (t.rename r).foreignKeys.elems := fun t f h => by
    simp only [Table.rename, Slice.elems_map]; exact List.mem_map.2 ⟨f, h, rfl⟩
  constructor
  · intro h
    refine ⟨h.exts, (nodup_map_iff r.table_inj).1 (ht ▸ h.tables), h.actions,
      fun t htm => (t.rename_valid r).1 (h.table _ (hmem t htm)), h.params, ?_, h.stmts⟩
    intro t htm f hf
    exact (s.rename_fk r t f).1 (h.fks _ (hmem t htm) _ (hfk t f hf))
  · intro h
    refine ⟨h.exts, ht ▸ (nodup_map_iff r.table_inj).2 h.tables, h.actions, ?_, h.params, ?_, h.stmts⟩
    · intro t htm
      simp only [Schema.rename, Slice.elems_map] at htm
      obtain ⟨t, htm', rfl⟩ := List.mem_map.1 htm
      exact (t.rename_valid r).2 (h.table t htm')
    · intro t htm f hf
      simp only [Schema.rename, Slice.elems_map] at htm
      obtain ⟨t, htm', rfl⟩ := List.mem_map.1 htm
      simp only [Table.rename, Slice.elems_map] at hf
      obtain ⟨f, hf', rfl⟩ := List.mem_map.1 hf
      exact (s.rename_fk r t f).2 (h.fks t htm' f hf')

/-! ## Programs -/

theorem NE.map_list {α β : Type} (f : α → β) (x : NE α) : (x.map f).list = x.list.map f := rfl

theorem TableDecl.rename_indexes (t : TableDecl) :
    (t.rename r).indexes = t.indexes.map (IdxDecl.rename (r.column t.name)) := by
  simp only [TableDecl.indexes, TableDecl.rename, List.filterMap_map, List.map_filterMap]
  congr 1
  funext x
  cases x <;> rfl

theorem TableDecl.rename_fks (t : TableDecl) :
    (t.rename r).fks = t.fks.map (FkDecl.rename r (r.column t.name)) := by
  simp only [TableDecl.fks, TableDecl.rename, List.filterMap_map, List.map_filterMap]
  congr 1
  funext x
  cases x <;> rfl

theorem TableDecl.rename_denote (t : TableDecl) : (t.rename r).denote = t.denote.rename r := by
  simp only [TableDecl.denote, t.rename_indexes, t.rename_fks, Table.rename, List.map_map, ← listed_map]
  simp only [TableDecl.rename, NE.map_list, List.map_map]
  have h1 : IdxDecl.denote ∘ IdxDecl.rename (r.column t.name) = Index.rename (r.column t.name) ∘ IdxDecl.denote := by
    funext i; rfl
  have h2 : FkDecl.denote ∘ FkDecl.rename r (r.column t.name) = ForeignKey.rename r (r.column t.name) ∘ FkDecl.denote := by
    funext i; rfl
  rw [h1, h2]
  simp only [Slice.map, Option.map_some, List.map_map]
  rfl

theorem Program.rename_tables (p : Program) : (p.rename r).tables = p.tables.map (TableDecl.rename r) := by
  simp only [Program.tables, Program.rename, List.filterMap_map, List.map_filterMap]
  congr 1
  funext x
  cases x <;> rfl

theorem Program.rename_actions (p : Program) : (p.rename r).actions = p.actions := by
  simp only [Program.actions, Program.rename, List.filterMap_map]
  congr 1
  funext x
  cases x <;> rfl

theorem Program.rename_inits (p : Program) : (p.rename r).inits = p.inits := by
  simp only [Program.inits, Program.rename, List.filterMap_map]
  congr 1
  funext x
  cases x <;> rfl

theorem Program.rename_denote (p : Program) : (p.rename r).denote = p.denote.rename r := by
  simp only [Program.denote, p.rename_tables, p.rename_actions, p.rename_inits, Schema.rename, List.map_map,
    ← listed_map]
  rw [show TableDecl.denote ∘ TableDecl.rename r = Table.rename r ∘ TableDecl.denote from
    funext (TableDecl.rename_denote r)]
  rfl

theorem Program.rename_fault (p : Program) : (p.rename r).fault = p.fault := by
  simp only [Program.fault, p.rename_actions, p.rename_inits]

/-- C65. If the tables, columns and indexes of a text get other names throughout
(different names staying different; statements are not touched), the new text is
accepted if and only if the old one was, and is read as the old schema with the
new names. -/
theorem C65_rename (w : World) (r : Renaming) (s t : Str) (p : Program) (hs : Writes s p)
    (ht : Writes t (p.rename r)) :
    (∀ sch, Accepts w s sch → Accepts w t (sch.rename r)) ∧
    (∀ sch, Accepts w t sch → ∃ old, Accepts w s old ∧ sch = old.rename r) := by
  constructor
  · intro sch h
    obtain ⟨q, hq, hf, rfl, hv⟩ := (accepts_iff (w := w) (mode := modeDefault)).1 h
    have hd := (hs.unique hq)
    refine (accepts_iff (w := w) (mode := modeDefault)).2 ⟨p.rename r, ht, ?_, ?_, (Schema.rename_valid r _ _).2 hv⟩
    · rw [p.rename_fault, hd.2.2.1]; exact hf
    · rw [p.rename_denote, hd.2.2.2 (by rw [hd.2.2.1]; exact hf)]
  · intro sch h
    obtain ⟨q, hq, hf, rfl, hv⟩ := (accepts_iff (w := w) (mode := modeDefault)).1 h
    have hd := (hq.unique ht)
    have he : q.denote = p.denote.rename r := by rw [hd.2.2.2 hf, p.rename_denote]
    refine ⟨p.denote, (accepts_iff (w := w) (mode := modeDefault)).2 ⟨p, hs, ?_, rfl, ?_⟩, he⟩
    · rw [← p.rename_fault r, ← hd.2.2.1]; exact hf
    · rw [he] at hv; exact (Schema.rename_valid r _ _).1 hv

/-- Such a text exists if the new names are identifiers. -/
theorem C65_writable (r : Renaming) (p : Program)
    (hn : ∀ x ∈ (p.rename r).toks, WellSpelt x) : ∃ t, Writes t (p.rename r) :=
  ⟨_, (p.rename r).writes_text hn⟩

/-- Columns, indexes and tables get an underscore, and the columns and indexes
of `users` two. -/
def Sample.renaming : Renaming where
  table n := n ++ ['_']
  column t n := if t = "users".toList then n ++ ['_', '_'] else n ++ ['_']
  table_inj _ _ h := List.append_cancel_right h
  column_inj t _ _ h := by split at h <;> exact List.append_cancel_right h

/-- The sample, renamed, is accepted. -/
example : ∃ t, Accepts Sample.world t (Sample.prog.denote.rename Sample.renaming) ∧
    (Sample.prog.denote.rename Sample.renaming).tableNames = ["posts_".toList, "users_".toList] := by
  have hq : Writes (Sample.prog.rename Sample.renaming).text (Sample.prog.rename Sample.renaming) :=
    writes_iff.2 (by decide +kernel)
  exact ⟨_, (C65_rename Sample.world Sample.renaming _ _ Sample.prog Sample.writes hq).1 _ Sample.accepts,
    by decide +kernel⟩

end Verif
