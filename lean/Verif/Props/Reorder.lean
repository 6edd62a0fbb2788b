import Verif.Proof.Reorder
import Verif.Props.SampleText
import Verif.Spec.Canonical
/-!
# C55: the order of declarations
-/

namespace Verif

/-- C55, what holds: if two texts contain the same declarations in different
order (extensions, tables, actions, `init`, and within them columns, indexes,
foreign keys, constraints, parameters, modifiers, annotations, configuration
entries), and no index lists the name of an index, then one is accepted exactly
if the other is; so declarations may refer to later ones.  The statements of an
action keep their order.  Missing: an index that lists the name of another index
(`C55_violated`). -/
theorem C55_order_partial (w : World) (s t : Str) (p q : Program) (hp : Writes s p) (hq : Writes t q)
    (h : p.Same q) (hi : p.IndexesOnColumns) :
    Accepts w s p.denote ↔ Accepts w t q.denote := by
  have key : ∀ {s t : Str} {p q : Program}, Writes s p → Writes t q → p.Same q → p.IndexesOnColumns →
      Accepts w s p.denote → Accepts w t q.denote := by
    intro s t p q hp hq h hi ha
    obtain ⟨p', hp', hf, he, hv⟩ := accepts_iff.1 ha
    have hf : p.fault = none := (hp.unique hp').2.2.1.trans hf
    exact accepts_iff.2 ⟨q, hq, h.fault hf, rfl, h.valid hi hv⟩
  exact ⟨key hp hq h hi, key hq hp h.symm (h.indexesOnColumns hi)⟩

namespace Sample

/-- `Sample.prog` in another order: an action calls a later one, a table has a
foreign key to a later one. -/
def prog2 : Program where
  name := "app".toList
  exts := [⟨"erc20".toList, some ⟨⟨"n".toList, .num "3".toList⟩,
    [⟨"addr".toList, .str "'0x'".toList⟩]⟩, "e".toList⟩]
  decls := [
    .action ⟨[⟨"kgw".toList, ⟨⟨"authn".toList, .str "'true'".toList⟩, []⟩⟩], "go".toList,
      ⟨some "$y".toList, ["$x".toList]⟩, [.owner],
      ⟨.call (some ⟨"$r".toList, []⟩) (some "e".toList) "m".toList
          ⟨some (.var "$x".toList), [.block "@caller".toList]⟩,
        [.call none none "hello".toList ⟨some (.var "$r".toList), []⟩]⟩⟩,
    .table ⟨"posts".toList, ⟨⟨"author".toList, .int, []⟩, [⟨"id".toList, .int, []⟩]⟩,
      [.fk ⟨true, ⟨"author".toList, []⟩, true, "users".toList, ⟨"id".toList, []⟩,
        [⟨.update, false, .setNull⟩, ⟨.delete, false, .cascade⟩]⟩], true⟩,
    .table ⟨"users".toList, ⟨⟨"id".toList, .int, [.min "0".toList, .primary]⟩,
      [⟨"name".toList, .text, [.maxLen "9".toList]⟩]⟩,
      [.index ⟨"by_name".toList, .index, ⟨"name".toList, ["id".toList]⟩⟩], true⟩,
    .init ⟨.sql "select 1".toList, []⟩,
    .action ⟨[], "hello".toList, ⟨some "$x".toList, []⟩, [.view, .pub],
      ⟨.sql "select 1".toList, []⟩⟩]

set_option maxRecDepth 10000 in
theorem writes2 : Writes prog2.text prog2 := writes_iff.2 (by decide +kernel)

theorem prog_same : prog.Same prog2 where
  name := rfl
  exts := ⟨[(prog.exts[0], prog2.exts[0])], .refl _, .refl _, by
    simp only [List.mem_singleton, forall_eq]
    exact ⟨rfl, rfl, .swap _ _ _⟩⟩
  decls := ⟨[(prog.decls[0], prog2.decls[1]), (prog.decls[1], prog2.decls[3]),
      (prog.decls[2], prog2.decls[4]), (prog.decls[3], prog2.decls[2]), (prog.decls[4], prog2.decls[0])],
    .refl _, by
      simp only [List.map_cons, List.map_nil]
      show List.Perm [prog2.decls[1], prog2.decls[3], prog2.decls[4], prog2.decls[2], prog2.decls[0]]
        [prog2.decls[0], prog2.decls[1], prog2.decls[2], prog2.decls[3], prog2.decls[4]]
      generalize prog2.decls[0] = a
      generalize prog2.decls[1] = b
      generalize prog2.decls[2] = c
      generalize prog2.decls[3] = d
      generalize prog2.decls[4] = e
      refine (List.perm_append_comm (l₁ := [b, d, e, c]) (l₂ := [a])).trans (.cons a (.cons b ?_))
      refine (List.perm_append_comm (l₁ := [d, e]) (l₂ := [c])), by
    intro x hx
    simp only [List.mem_cons, List.not_mem_nil, or_false] at hx
    have same : ∀ c : ColDecl, c.Same c := fun _ => ⟨rfl, rfl, .refl _⟩
    rcases hx with rfl | rfl | rfl | rfl | rfl
    · refine .table ⟨rfl, ⟨[(⟨"id".toList, .int, []⟩, ⟨"id".toList, .int, []⟩),
          (⟨"author".toList, .int, []⟩, ⟨"author".toList, .int, []⟩)], .refl _, .swap _ _ _, ?_⟩, .refl _, ?_⟩
      · intro x hx
        simp only [List.mem_cons, List.not_mem_nil, or_false] at hx
        rcases hx with rfl | rfl <;> exact same _
      · refine ⟨[(⟨true, ⟨"author".toList, []⟩, true, "users".toList, ⟨"id".toList, []⟩,
            [⟨.delete, false, .cascade⟩, ⟨.update, true, .setNull⟩]⟩,
          ⟨true, ⟨"author".toList, []⟩, true, "users".toList, ⟨"id".toList, []⟩,
            [⟨.update, false, .setNull⟩, ⟨.delete, false, .cascade⟩]⟩)], .refl _, .refl _, ?_⟩
        simp only [List.mem_singleton, forall_eq]
        exact ⟨rfl, rfl, rfl, .swap _ _ _⟩
    · exact .init
    · exact .action ⟨rfl, .refl _, .refl _, .swap _ _ _, rfl⟩
    · refine .table ⟨rfl, ⟨[(⟨"id".toList, .int, [.primary, .min "0".toList]⟩,
          ⟨"id".toList, .int, [.min "0".toList, .primary]⟩),
        (⟨"name".toList, .text, [.maxLen "9".toList]⟩, ⟨"name".toList, .text, [.maxLen "9".toList]⟩)],
          .refl _, .refl _, ?_⟩, .refl _, ⟨[], .refl _, .refl _, by simp⟩⟩
      intro x hx
      simp only [List.mem_cons, List.not_mem_nil, or_false] at hx
      rcases hx with rfl | rfl
      · exact ⟨rfl, rfl, .swap _ _ _⟩
      · exact same _
    · exact .action ⟨rfl, .refl _, .swap _ _ _, .refl _, rfl⟩⟩

/-- A table whose second index lists the name of the first one. -/
def onIndex : Program where
  name := "d".toList
  exts := []
  decls := [.table ⟨"t".toList, ⟨⟨"a".toList, .int, []⟩, []⟩,
    [.index ⟨"i".toList, .index, ⟨"a".toList, []⟩⟩, .index ⟨"j".toList, .index, ⟨"i".toList, []⟩⟩], false⟩]

/-- The indexes in the other order. -/
def onIndex2 : Program where
  name := "d".toList
  exts := []
  decls := [.table ⟨"t".toList, ⟨⟨"a".toList, .int, []⟩, []⟩,
    [.index ⟨"j".toList, .index, ⟨"i".toList, []⟩⟩, .index ⟨"i".toList, .index, ⟨"a".toList, []⟩⟩], false⟩]

end Sample

/-- The sample and its reordering meet the hypotheses, so the latter is accepted. -/
example : Accepts Sample.world Sample.prog2.text Sample.prog2.denote :=
  (C55_order_partial Sample.world _ _ _ _ Sample.writes Sample.writes2 Sample.prog_same
    (by unfold Program.IndexesOnColumns; decide +kernel)).1 Sample.accepts

example : Sample.prog.denote ≠ Sample.prog2.denote := by decide +kernel

/-- C55 is false for indexes: exchanging two of them makes an accepted text a
rejected one, whatever the statement parsers do. -/
theorem C55_violated (w : World) : ∃ s t p q, Writes s p ∧ Writes t q ∧ p.Same q ∧
    Accepts w s p.denote ∧ ∀ sch, ¬ Accepts w t sch := by
  have h1 : Writes "database d; table t { a int, #i index(a), #j index(i) }".toList Sample.onIndex :=
    writes_lit _ rfl (by decide +kernel)
  have h2 : Writes "database d; table t { a int, #j index(i), #i index(a) }".toList Sample.onIndex2 :=
    writes_lit _ rfl (by decide +kernel)
  refine ⟨_, _, _, _, h1, h2, ⟨rfl, ⟨[], .refl _, .refl _, by simp⟩,
    ⟨[(Sample.onIndex.decls[0], Sample.onIndex2.decls[0])], .refl _, .refl _, ?_⟩⟩, ?_, ?_⟩
  · simp only [List.mem_singleton, forall_eq]
    exact .table ⟨rfl, ⟨[(⟨"a".toList, .int, []⟩, ⟨"a".toList, .int, []⟩)], .refl _, .refl _, by
      simp only [List.mem_singleton, forall_eq]; exact ⟨rfl, rfl, .refl _⟩⟩, .swap _ _ _,
      ⟨[], .refl _, .refl _, by simp⟩⟩
  · refine accepts_iff.2 ⟨_, h1, by decide +kernel, rfl, (validate_none _ _).1 ?_⟩
    rw [show validate w.toEnv Sample.onIndex.denote = validate Sample.env Sample.onIndex.denote from rfl]
    decide +kernel
  · intro sch ha
    obtain ⟨p', hp', hf, rfl, hv⟩ := accepts_iff.1 ha
    have e := (h2.unique hp').2.2.2 (by decide +kernel)
    rw [← e] at hv
    have := (validate_none _ _).2 hv
    rw [show validate w.toEnv Sample.onIndex2.denote = validate Sample.env Sample.onIndex2.denote from rfl] at this
    revert this
    decide +kernel

end Verif
