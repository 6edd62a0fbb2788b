import Verif.Proof.Rules
import Verif.Proof.ParseKF
import Verif.Proof.Meaning
import Verif.Proof.Edit
import Verif.Proof.Canonical
import Verif.Props.SampleText
import Verif.Spec.Canonical
import Verif.Spec.Values
/-!
# C61: values of literals, and declarations that make sense
-/

namespace Verif

/-! ## What validation looks at -/

theorem splits_map {α β γ : Type} (f : α → γ) (g : β → γ) :
    ∀ (b l : List α) (b' l' : List β), b.map f = b'.map g → l.map f = l'.map g →
      (splits b l).map (fun x => (x.1.map f, f x.2)) = (splits b' l').map (fun x => (x.1.map g, g x.2)) := by
  intro b l
  induction l generalizing b with
  | nil =>
    intro b' l' _ h
    cases l' with
    | nil => rfl
    | cons => cases h
  | cons x xs ih =>
    intro b' l' hb h
    cases l' with
    | nil => cases h
    | cons y ys =>
      simp only [List.map_cons, List.cons.injEq] at h
      simp only [splits, List.map_cons]
      rw [hb, h.1, ih _ (b' ++ [y]) ys (by simp [hb, h.1]) h.2]

/-- Rules made from something that two lists have in common are the same. -/
theorem rules_congr {α β γ : Type} {f : α → γ} {g : β → γ} {l : List α} {l' : List β}
    (h : l.map f = l'.map g) {F : List α × α → List Check} {G : List β × β → List Check}
    {K : List γ × γ → List Check} (hF : ∀ x, F x = K (x.1.map f, f x.2)) (hG : ∀ x, G x = K (x.1.map g, g x.2)) :
    (eachAfter l).flatMap F = (eachAfter l').flatMap G := by
  have h1 : (eachAfter l).flatMap F = ((eachAfter l).map (fun x => (x.1.map f, f x.2))).flatMap K := by
    rw [List.flatMap_map]; congr 1; funext x; exact hF x
  have h2 : (eachAfter l').flatMap G = ((eachAfter l').map (fun x => (x.1.map g, g x.2))).flatMap K := by
    rw [List.flatMap_map]; congr 1; funext x; exact hG x
  rw [h1, h2]
  unfold eachAfter
  rw [splits_map f g [] l [] l' rfl h]

theorem constraint_type (c : Constraint) : c.blank.denote.type = c.denote.type := by cases c <;> rfl

theorem column_type' (c : ColDecl) :
    c.blank.denote.attributes.elems.map (·.type) = c.denote.attributes.elems.map (·.type) := by
  simp only [ColDecl.denote, ColDecl.blank, listed_elems, List.map_map]
  refine List.map_congr_left fun x _ => ?_
  exact constraint_type x

theorem column_rules (c : ColDecl) : c.blank.denote.rules = c.denote.rules := by
  unfold Column.rules
  refine rules_congr (f := (·.type)) (g := (·.type)) (K := fun x =>
    [⟨x.2 ∉ x.1, .err (Sent.duplicateAttribute.with x.2)⟩,
     ⟨¬ Misfit c.denote.type x.2,
      .err (Sent.attributeNotAllow.with (c.denote.type ++ "(".toList ++ x.2 ++ ")".toList))⟩])
    (column_type' c) (fun x => rfl) (fun x => rfl)

theorem table_columnNames (t : TableDecl) : t.blank.denote.columnNames = t.denote.columnNames := by
  simp only [Table.columnNames, TableDecl.denote, TableDecl.blank, Slice.elems, NE.map, NE.list,
    List.map_map, List.map_cons, Option.getD_some]
  rfl

theorem table_indexes (t : TableDecl) : t.blank.denote.indexes = t.denote.indexes := rfl
theorem table_fks (t : TableDecl) : t.blank.denote.foreignKeys = t.denote.foreignKeys := rfl
theorem table_name (t : TableDecl) : t.blank.denote.name = t.denote.name := rfl

theorem table_rules (t : TableDecl) : t.blank.denote.rules = t.denote.rules := by
  unfold Table.rules
  rw [table_columnNames, table_indexes, table_name]
  congr 1
  refine rules_congr (f := fun c => (c.name, c.rules)) (g := fun c => (c.name, c.rules))
    (K := fun x => ⟨x.2.1 ∉ x.1.map (·.1), .err (Sent.duplicateColumn.with x.2.1)⟩ :: x.2.2)
    ?_ (fun x => by simp [List.map_map, Function.comp_def]) (fun x => by simp [List.map_map, Function.comp_def])
  simp only [TableDecl.denote, TableDecl.blank, Slice.elems, NE.map, NE.list, List.map_map, List.map_cons,
    Option.getD_some]
  refine List.cons_eq_cons.2 ⟨?_, List.map_congr_left fun x _ => ?_⟩
  · rw [column_rules]; rfl
  · simp only [Function.comp]; rw [column_rules]; rfl

theorem blank_tables (p : Program) : p.blank.tables = p.tables.map TableDecl.blank := by
  simp only [Program.tables, Program.blank, List.filterMap_map, List.map_filterMap]
  congr 1
  funext d
  cases d <;> rfl

theorem blank_actions (p : Program) : p.blank.actions = p.actions.map ActionDecl.blank := by
  simp only [Program.actions, Program.blank, List.filterMap_map, List.map_filterMap]
  congr 1
  funext d
  cases d <;> rfl

theorem blank_inits (p : Program) : p.blank.inits = p.inits := by
  simp only [Program.inits, Program.blank, List.filterMap_map]
  congr 1
  funext d
  cases d <;> rfl

theorem blank_fault (p : Program) : p.blank.fault = p.fault := by
  unfold Program.fault
  rw [blank_inits, blank_actions, List.findSome?_map]
  rfl

theorem blank_tableNames (p : Program) : p.blank.denote.tableNames = p.denote.tableNames := by
  simp only [Schema.tableNames, Program.denote_tables, blank_tables, List.map_map]
  rfl

theorem blank_extNames (p : Program) : p.blank.denote.extNames = p.denote.extNames ∨
    ∃ e ∈ p.exts, e.alias = [] := by
  by_cases h : ∃ e ∈ p.exts, e.alias = []
  · exact .inr h
  · refine .inl ?_
    simp only [Schema.extNames, Program.denote_exts, Program.blank, List.map_map]
    refine List.map_congr_left fun e he => ?_
    have : e.alias ≠ [] := fun h' => h ⟨e, he, h'⟩
    simp [Function.comp, ExtDecl.blank, ExtDecl.denote, this]

theorem fk_rules (p : Program) (t : TableDecl) (f : ForeignKey) :
    f.rules p.blank.denote t.blank.denote = f.rules p.denote t.denote := by
  unfold ForeignKey.rules
  have hp : ∀ c, (∃ q ∈ p.blank.denote.tables.elems, q.name = f.parentTable ∧
      c ∈ q.columnNames ++ q.indexNames) ↔ ∃ q ∈ p.denote.tables.elems, q.name = f.parentTable ∧
      c ∈ q.columnNames ++ q.indexNames := by
    intro c
    simp only [Program.denote_tables, blank_tables, List.map_map, List.mem_map]
    constructor
    · rintro ⟨q, ⟨d, hd, rfl⟩, h1, h2⟩
      refine ⟨_, ⟨d, hd, rfl⟩, h1, ?_⟩
      rw [← table_columnNames]; exact h2
    · rintro ⟨q, ⟨d, hd, rfl⟩, h1, h2⟩
      refine ⟨_, ⟨d, hd, rfl⟩, h1, ?_⟩
      simp only [Function.comp]
      rw [table_columnNames]; exact h2
  rw [table_columnNames, blank_tableNames, table_name]
  simp only [hp]
  rfl

theorem blank_actionNames (p : Program) : p.blank.denote.actionNames = p.denote.actionNames := by
  simp only [Schema.actionNames, Program.denote_actions, blank_actions, blank_inits, List.map_append,
    List.map_map]
  rfl

theorem blank_rules (env : Env) (p : Program) (he : p.blank.denote.extNames = p.denote.extNames) :
    p.blank.denote.rules env = p.denote.rules env := by
  have hs : ∀ d st, stmtRules env p.blank.denote d st = stmtRules env p.denote d st := by
    intro d st
    unfold stmtRules
    rw [he, blank_actionNames]
  unfold Schema.rules
  rw [he]
  congr 1
  · congr 1
    · congr 1
      · congr 1
        refine rules_congr (f := fun t => (t.name, t.rules)) (g := fun t => (t.name, t.rules))
          (K := fun x => ⟨x.2.1 ∉ x.1.map (·.1), .err (Sent.duplicateTable.with x.2.1)⟩ :: x.2.2)
          ?_ (fun x => by simp [List.map_map, Function.comp_def])
          (fun x => by simp [List.map_map, Function.comp_def])
        simp only [Program.denote_tables, blank_tables, List.map_map]
        refine List.map_congr_left fun t _ => ?_
        simp only [Function.comp]
        rw [table_rules]; rfl
      · refine rules_congr (f := fun a => (a.name, a.inputs)) (g := fun a => (a.name, a.inputs))
          (K := fun x => ⟨x.2.1 ∉ x.1.map (·.1), .err (Sent.duplicateAction.with x.2.1)⟩ ::
            distinct .duplicateParam x.2.2.elems)
          ?_ (fun x => by simp [List.map_map, Function.comp_def])
          (fun x => by simp [List.map_map, Function.comp_def])
        simp only [Program.denote_actions, blank_actions, blank_inits, List.map_append, List.map_map]
        rfl
    · simp only [Program.denote_tables, blank_tables, List.flatMap_map]
      congr 1
      funext t
      rw [table_fks]
      congr 1
      funext f
      exact fk_rules p t f
  · simp only [Program.denote_actions, blank_actions, blank_inits, List.flatMap_append, List.flatMap_map,
      hs]
    rfl

/-- C61, what holds: `ParseKF` never looks at the values of literals, at the
name of the database, at the names and the configuration of extensions, or at
annotations.  Two texts that differ only in these get the same verdict, with the
same error. -/
theorem C61_values_partial (w : World) (s t : Str) (p q : Program) (hp : Writes s p) (hq : Writes t q)
    (h : p.blank = q.blank) (mode : Nat) :
    (parseKF w s none mode).err = (parseKF w t none mode).err ∧
    (parseKF w s none mode).result.isSome = (parseKF w t none mode).result.isSome := by
  have ne : ∀ {s : Str} {p : Program}, Writes s p → ¬ ∃ e ∈ p.exts, e.alias = [] := by
    rintro s p hp ⟨e, he, h⟩
    have := hp.wellSpelt (idTok e.alias) (by
      simp only [Program.toks, List.mem_append, List.mem_flatMap]
      exact .inl (.inr ⟨e, he, by simp [ExtDecl.toks]⟩))
    rw [h] at this
    exact this.1
  have hv : validate w.toEnv p.denote = validate w.toEnv q.denote := by
    rw [validate_report, validate_report,
      ← blank_rules w.toEnv p ((blank_extNames p).resolve_right (ne hp)),
      ← blank_rules w.toEnv q ((blank_extNames q).resolve_right (ne hq)), h]
  have hf : p.fault = q.fault := by rw [← blank_fault p, ← blank_fault q, h]
  rw [hp.parseKF, hq.parseKF, hf, hv]
  simp only [Option.getD_none, ErrorList.isErr, List.isEmpty_nil, Bool.not_true, Bool.false_eq_true,
    if_false]
  cases q.fault with
  | some e => exact ⟨rfl, rfl⟩
  | none =>
    cases validate w.toEnv q.denote with
    | none => exact ⟨rfl, rfl⟩
    | some f => cases f <;> exact ⟨rfl, rfl⟩

/-- A table in which nothing makes sense. -/
def Sample.nonsense : Program where
  name := "d".toList
  exts := []
  decls := [.table ⟨"t".toList,
    ⟨⟨"a".toList, .int, [.primary, .default (.str "'x'".toList), .min "5".toList, .max "3".toList]⟩,
      [⟨"b".toList, .text, [.primary, .default (.num "1".toList), .minLen "9".toList, .maxLen "2".toList]⟩]⟩,
    [.index ⟨"i".toList, .index, ⟨"a".toList, ["a".toList]⟩⟩, .index ⟨"j".toList, .primary, ⟨"a".toList, []⟩⟩,
      .fk ⟨true, ⟨"a".toList, ["b".toList]⟩, true, "t".toList, ⟨"a".toList, []⟩, []⟩], false⟩]

/-- C61 is false: this text is accepted, whatever the statement parsers do, and
breaks every clause of `Sensible`: three primary keys, defaults that do not fit
the type, empty ranges of values and of lengths, an index with a column twice, a
foreign key with two columns that refers to one. -/
theorem C61_violated (w : World) : ∃ s sch t a b i f, Accepts w s sch ∧ sch.tables.elems = [t] ∧
    t.primaryKeys = 3 ∧ t.columns.elems = [a, b] ∧
    a.type = "int".toList ∧ ⟨"default".toList, some "'x'".toList⟩ ∈ a.attributes.elems ∧
    b.type = "text".toList ∧ ⟨"default".toList, some "1".toList⟩ ∈ b.attributes.elems ∧
    ⟨"min".toList, some "5".toList⟩ ∈ a.attributes.elems ∧
    ⟨"max".toList, some "3".toList⟩ ∈ a.attributes.elems ∧
    ⟨"min_length".toList, some "9".toList⟩ ∈ b.attributes.elems ∧
    ⟨"max_length".toList, some "2".toList⟩ ∈ b.attributes.elems ∧
    i ∈ t.indexes.elems ∧ ¬ i.columns.elems.Nodup ∧
    f ∈ t.foreignKeys.elems ∧ f.childKeys.elems.length = 2 ∧ f.parentKeys.elems.length = 1 := by
  have h1 : Writes "database d; table t { a int primary default('x') min(5) max(3), b text primary default(1) minlen(9) maxlen(2), #i index(a, a), #j primary(a), fk(a, b) ref t(a) }".toList
      Sample.nonsense := by
    set_option maxRecDepth 10000 in exact writes_lit _ rfl (by decide +kernel)
  have hv : validate w.toEnv Sample.nonsense.denote = none := by
    rw [show validate w.toEnv Sample.nonsense.denote = validate Sample.env Sample.nonsense.denote from rfl]
    decide +kernel
  have ha := accepts_iff (w := w) (mode := modeDefault).2
    ⟨_, h1, by decide +kernel, rfl, (validate_none _ _).1 hv⟩
  refine ⟨_, _, _, _, _, ⟨"i".toList, some ["a".toList, "a".toList], "btree".toList⟩,
    ⟨some ["a".toList, "b".toList], some ["a".toList], "t".toList, none⟩, ha, rfl, ?_, rfl, ?_⟩
  · decide +kernel
  · decide +kernel

/-- So it does not follow from acceptance that the declarations make sense. -/
example (w : World) : ¬ ∀ s sch, Accepts w s sch → Sensible sch := by
  intro h
  obtain ⟨s, sch, t, a, b, i, f, ha, ht, hk, _⟩ := C61_violated w
  have := (h s sch ha).primary t (by rw [ht]; simp)
  omega

/-- Two texts for `C61_values_partial`, the first of which is accepted. -/
example : ∃ t q, Writes t q ∧ t ≠ Sample.text ∧ q.blank = Sample.prog.blank ∧
    (parseKF Sample.world t none 1).err = none := by
  let q : Program := { Sample.prog with
    name := "other".toList
    exts := [⟨"oracle".toList, none, "e".toList⟩] }
  have hq : Writes q.text q := writes_iff.2 (by decide +kernel)
  refine ⟨q.text, q, hq, by decide +kernel, rfl, ?_⟩
  rw [(C61_values_partial Sample.world _ _ q Sample.prog hq Sample.writes rfl 1).1]
  exact Sample.accepts.1

end Verif
