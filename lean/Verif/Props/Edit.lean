import Verif.Proof.Edit
import Verif.Props.SampleText
import Verif.Spec.Canonical
/-!
# C59: adding and removing declarations
-/

namespace Verif

/-- C59. If a declaration is added, anywhere, to a text that is accepted, the
new text is accepted exactly if the name of the declaration is new and the
declaration keeps the rules: no other declaration becomes wrong.  The schema of
the new text is the old one, with the declaration in its place. -/
theorem C59_add (w : World) (s t : Str) (p q : Program) (d : Decl) (hp : Writes s p) (hq : Writes t q)
    (h : Added p q d) (ha : Accepts w s p.denote) :
    (Accepts w t q.denote ↔ MayAdd w.toEnv p q d) ∧
    q.denote.name = p.denote.name ∧ q.denote.extensions = p.denote.extensions ∧
    (∀ td, d = .table td → ∃ b a, p.denote.tables.elems = b ++ a ∧
      q.denote.tables.elems = b ++ td.denote :: a ∧ q.denote.actions = p.denote.actions) ∧
    (∀ ad, d = .action ad → q.denote.tables = p.denote.tables ∧ ∃ b a, p.denote.actions.elems = b ++ a ∧
      q.denote.actions.elems = b ++ ad.denote :: a) := by
  obtain ⟨p', hp', hf, he, hv⟩ := accepts_iff.1 ha
  have hf : p.fault = none := (hp.unique hp').2.2.1.trans hf
  refine ⟨?_, h.name, by simp only [Program.denote, h.exts], ?_, ?_⟩
  · rw [← h.ok w.toEnv hf hv]
    constructor
    · intro h'
      obtain ⟨q', hq', hf', _, hv'⟩ := accepts_iff.1 h'
      exact ⟨(hq.unique hq').2.2.1.trans hf', hv'⟩
    · rintro ⟨h1, h2⟩
      exact accepts_iff.2 ⟨q, hq, h1, rfl, h2⟩
  · rintro td rfl
    obtain ⟨b, a, h1, h2⟩ := h.decls
    refine ⟨(⟨p.name, p.exts, b⟩ : Program).tables.map TableDecl.denote,
      (⟨p.name, p.exts, a⟩ : Program).tables.map TableDecl.denote, ?_, ?_,
      by simp only [Program.denote, h.actions_eq (by simp), h.inits_eq (by simp)]⟩
    · rw [p.denote_tables, ← List.map_append]
      unfold Program.tables
      rw [h1, List.filterMap_append]
    · rw [q.denote_tables, ← List.map_cons, ← List.map_append]
      unfold Program.tables
      rw [h2, List.filterMap_append]
      rfl
  · rintro ad rfl
    obtain ⟨b, a, h1, h2⟩ := h.decls
    refine ⟨by simp only [Program.denote, h.tables_eq (by simp)], ?_⟩
    refine ⟨((⟨p.name, p.exts, b⟩ : Program).actions.map ActionDecl.denote),
      ((⟨p.name, p.exts, a⟩ : Program).actions.map ActionDecl.denote) ++ p.inits.map initAction, ?_, ?_⟩
    · rw [p.denote_actions, ← List.append_assoc, ← List.map_append]
      unfold Program.actions
      rw [h1, List.filterMap_append]
    · rw [q.denote_actions, h.inits_eq (by simp), ← List.cons_append, ← List.append_assoc,
        ← List.map_cons, ← List.map_append]
      unfold Program.actions
      rw [h2, List.filterMap_append]
      rfl

/-- C59, for extensions: only the name that the extension is known by matters. -/
theorem C59_add_extension (w : World) (s t : Str) (p q : Program) (e : ExtDecl) (hp : Writes s p)
    (hq : Writes t q) (h : AddedExt p q e) (ha : Accepts w s p.denote) :
    Accepts w t q.denote ↔ (if e.alias = [] then e.name else e.alias) ∉ p.denote.extNames := by
  obtain ⟨p', hp', hf, he, hv⟩ := accepts_iff.1 ha
  have hf : p.fault = none := (hp.unique hp').2.2.1.trans hf
  have ht : q.tables = p.tables := by unfold Program.tables; rw [h.decls]
  have hac : q.actions = p.actions := by unfold Program.actions; rw [h.decls]
  have hin : q.inits = p.inits := by unfold Program.inits; rw [h.decls]
  have hqf : q.fault = none := by unfold Program.fault; rw [hac, hin]; exact hf
  have key := valid_add_ext w.toEnv (s := p.denote) (s' := q.denote) (e := e.denote)
    (by rw [q.denote_tables, p.denote_tables, ht])
    (by rw [q.denote_actions, p.denote_actions, hac, hin])
    (by
      obtain ⟨b, a, h1, h2⟩ := h.exts
      rw [q.denote_exts, p.denote_exts, h1, h2, List.map_append, List.map_cons, List.map_append]
      exact perm_mid _ _ _) hv
  refine Iff.trans ?_ key
  constructor
  · intro h'
    obtain ⟨q', hq', hf', _, hv'⟩ := accepts_iff.1 h'
    exact hv'
  · intro h2
    exact accepts_iff.2 ⟨q, hq, hqf, rfl, h2⟩

/-- C59, the converse: a declaration that nothing refers to can be removed. -/
theorem C59_remove (w : World) (s t : Str) (p q : Program) (d : Decl) (hp : Writes s p) (hq : Writes t q)
    (h : Added p q d) (hu : Unused w.toEnv p d) (ha : Accepts w t q.denote) : Accepts w s p.denote := by
  obtain ⟨q', hq', hf, _, hv⟩ := accepts_iff.1 ha
  obtain ⟨h1, h2⟩ := h.without w.toEnv hu ((hq.unique hq').2.2.1.trans hf) hv
  exact accepts_iff.2 ⟨p, hp, h1, rfl, h2⟩

/-- C59: an extension that nothing calls can be removed. -/
theorem C59_remove_extension (w : World) (s t : Str) (p q : Program) (e : ExtDecl) (hp : Writes s p)
    (hq : Writes t q) (h : AddedExt p q e)
    (hu : UnusedExt w.toEnv p (if e.alias = [] then e.name else e.alias)) (ha : Accepts w t q.denote) :
    Accepts w s p.denote := by
  obtain ⟨q', hq', hf, he, hv⟩ := accepts_iff.1 ha
  have hf : q.fault = none := (hq.unique hq').2.2.1.trans hf
  have ht : q.tables = p.tables := by unfold Program.tables; rw [h.decls]
  have hac : q.actions = p.actions := by unfold Program.actions; rw [h.decls]
  have hin : q.inits = p.inits := by unfold Program.inits; rw [h.decls]
  have hpf : p.fault = none := by
    unfold Program.fault at hf ⊢
    rw [hac, hin] at hf
    exact hf
  refine accepts_iff.2 ⟨p, hp, hpf, rfl, valid_drop_ext w.toEnv (e := e.denote)
    (by rw [q.denote_tables, p.denote_tables, ht])
    (by rw [q.denote_actions, p.denote_actions, hac, hin])
    (by
      obtain ⟨b, a, h1, h2⟩ := h.exts
      rw [q.denote_exts, p.denote_exts, h1, h2, List.map_append, List.map_cons, List.map_append]
      exact perm_mid _ _ _) hu hv⟩

namespace Sample

/-- A table to be added: it refers to a table of `prog`. -/
def tagsDecl : TableDecl :=
  ⟨"tags".toList, ⟨⟨"id".toList, .int, []⟩, [⟨"user_id".toList, .int, [.notNull]⟩]⟩,
    [.fk ⟨false, ⟨"user_id".toList, []⟩, false, "users".toList, ⟨"id".toList, []⟩, []⟩], false⟩

/-- `prog` with another table in the middle. -/
def prog3 : Program := { prog with decls := prog.decls.take 2 ++ .table tagsDecl :: prog.decls.drop 2 }

set_option maxRecDepth 10000 in
theorem writes3 : Writes prog3.text prog3 := writes_iff.2 (by decide +kernel)

theorem added3 : Added prog prog3 (.table tagsDecl) :=
  ⟨rfl, rfl, prog.decls.take 2, prog.decls.drop 2, rfl, rfl⟩

theorem mayAdd3 : MayAdd world.toEnv prog prog3 (.table tagsDecl) := by
  refine ⟨by decide +kernel, (visitTableV_none Ctx.new tagsDecl.denote).1 (by decide +kernel), ?_⟩
  · intro f hf
    have hf : f ∈ [FkDecl.denote ⟨false, ⟨"user_id".toList, []⟩, false, "users".toList, ⟨"id".toList, []⟩, []⟩] := hf
    rw [List.mem_singleton] at hf
    subst hf
    refine ⟨by decide +kernel, ?_, by decide +kernel⟩
    refine ⟨(prog3.tables[2]'(by decide)).denote, ?_, by decide +kernel, by decide +kernel⟩
    rw [prog3.denote_tables]
    exact List.mem_map.2 ⟨_, List.getElem_mem _, rfl⟩

end Sample

/-- The table may be added, so the new text is accepted. -/
example : Accepts Sample.world Sample.prog3.text Sample.prog3.denote :=
  ((C59_add Sample.world _ _ _ _ _ Sample.writes Sample.writes3 Sample.added3 Sample.accepts).1).2
    Sample.mayAdd3

/-- Nothing refers to it, so it may be removed. -/
example : Unused Sample.world.toEnv Sample.prog (.table Sample.tagsDecl) := by
  show ∀ u ∈ Sample.prog.tables, ∀ f ∈ u.fks, f.table ≠ Sample.tagsDecl.name
  decide +kernel

/-- `prog` calls the extension known as `e`, and no other. -/
example : UnusedExt Sample.world.toEnv Sample.prog "ghost".toList := by
  have h : ∀ a ∈ Sample.prog.denote.actions.elems, ∀ stmt ∈ a.statements.elems,
      (match Sample.world.toEnv.actParse stmt with
      | .ok (.extCall n _ _) => n == "ghost".toList
      | _ => false) = false := by decide +kernel
  intro a ha stmt hs args rs hc
  have := h a ha stmt hs
  rw [hc] at this
  simp at this

end Verif
