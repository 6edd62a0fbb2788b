import Verif.Proof.Canonical
import Verif.Proof.Meaning
import Verif.Props.SampleText
import Verif.Props.SqlScope
import Verif.Spec.Docs
/-!
# C64: the documented syntax
-/

namespace Verif

/-! ## Documented files as programs -/

def Doc.ColType.ty : Doc.ColType → ColTy
  | .int => .int
  | .text => .text

def Doc.Attr.con : Doc.Attr → Constraint
  | .primary => .primary
  | .notnull => .notNull
  | .max n => .max n
  | .min n => .min n
  | .maxlen n => .maxLen n
  | .minlen n => .minLen n
  | .default v => .default v

def Doc.IndexType.kind : Doc.IndexType → IdxKind
  | .unique => .unique
  | .index => .index
  | .primary => .primary

theorem Doc.Attr.con_toks (a : Doc.Attr) : a.con.toks = a.toks := by cases a <;> rfl
theorem Doc.Attr.con_denote (a : Doc.Attr) : a.con.denote = a.denote := by cases a <;> rfl

theorem Doc.column_decl {x : Doc.Item} (h : x.column? ≠ none) :
    ∃ c : ColDecl, c.toks = x.toks ∧ x.column? = some c.denote ∧ x.index? = none := by
  cases x with
  | index => exact absurd rfl h
  | column n t as =>
    refine ⟨⟨n, t.ty, as.map Doc.Attr.con⟩, ?_, ?_, rfl⟩
    · simp only [ColDecl.toks, Doc.Item.toks, List.flatMap_map, Doc.Attr.con_toks]
      cases t <;> rfl
    · simp only [ColDecl.denote, Doc.Item.column?, List.map_map]
      rw [show Constraint.denote ∘ Doc.Attr.con = Doc.Attr.denote from funext Doc.Attr.con_denote]
      cases t <;> rfl

theorem Doc.index_decl {x : Doc.Item} (h : x.index? ≠ none) :
    ∃ i : IdxDecl, i.toks = x.toks ∧ x.index? = some i.denote ∧ x.column? = none := by
  cases x with
  | column => exact absurd rfl h
  | index n t c cs =>
    refine ⟨⟨n, t.kind, ⟨c, cs⟩⟩, ?_, ?_, rfl⟩
    · simp only [IdxDecl.toks, Doc.Item.toks, parenNames, NE.toks, Doc.commas, List.map_cons, List.flatMap_map]
      cases t <;> simp [Doc.IndexType.kind, IdxKind.tok, Doc.IndexType.tok]
    · cases t <;> rfl

theorem Doc.columns_decl : ∀ {l : List Doc.Item}, (∀ x ∈ l, x.column? ≠ none) →
    ∃ cs : List ColDecl, cs.map ColDecl.toks = l.map Doc.Item.toks ∧
      l.filterMap Doc.Item.column? = cs.map ColDecl.denote ∧ l.filterMap Doc.Item.index? = []
  | [], _ => ⟨[], rfl, rfl, rfl⟩
  | x :: l, h => by
    obtain ⟨c, h1, h2, h3⟩ := Doc.column_decl (h x (by simp))
    obtain ⟨cs, k1, k2, k3⟩ := Doc.columns_decl (l := l) (fun y hy => h y (by simp [hy]))
    exact ⟨c :: cs, by simp [h1, k1], by simp [h2, k2], by simp [h3, k3]⟩

theorem Doc.indexes_decl : ∀ {l : List Doc.Item}, (∀ x ∈ l, x.index? ≠ none) →
    ∃ is : List IdxDecl, is.map IdxDecl.toks = l.map Doc.Item.toks ∧
      l.filterMap Doc.Item.index? = is.map IdxDecl.denote ∧ l.filterMap Doc.Item.column? = []
  | [], _ => ⟨[], rfl, rfl, rfl⟩
  | x :: l, h => by
    obtain ⟨c, h1, h2, h3⟩ := Doc.index_decl (h x (by simp))
    obtain ⟨cs, k1, k2, k3⟩ := Doc.indexes_decl (l := l) (fun y hy => h y (by simp [hy]))
    exact ⟨c :: cs, by simp [h1, k1], by simp [h2, k2], by simp [h3, k3]⟩

theorem Doc.commas_append (x : List Tok) (l r : List (List Tok)) :
    Doc.commas (x :: l ++ r) = Doc.commas (x :: l) ++ r.flatMap (fun y => kw .COMMA :: y) := by
  simp [Doc.commas, List.flatMap_append]

theorem Doc.table_decl {t : Doc.Table} (h : t.ColumnsFirst) :
    ∃ d : TableDecl, d.toks = t.toks ∧ d.denote = t.denote := by
  obtain ⟨cs, is, he, hne, hc, hi⟩ := h
  obtain ⟨ds, d1, d2, d3⟩ := Doc.columns_decl hc
  obtain ⟨xs, x1, x2, x3⟩ := Doc.indexes_decl hi
  cases ds with
  | nil =>
    cases cs with
    | nil => exact absurd rfl hne
    | cons => simp at d1
  | cons d ds =>
    refine ⟨⟨t.name, ⟨d, ds⟩, xs.map .index, false⟩, ?_, ?_⟩
    · unfold TableDecl.toks Doc.Table.toks
      rw [he, List.map_append, ← d1, ← x1, List.map_cons, Doc.commas_append]
      simp [NE.toks, Doc.commas, List.flatMap_map, TableItem.toks]
    · have hx : (⟨t.name, ⟨d, ds⟩, xs.map .index, false⟩ : TableDecl).indexes = xs := by
        simp [TableDecl.indexes, List.filterMap_map, Function.comp_def]
      have hf : (⟨t.name, ⟨d, ds⟩, xs.map .index, false⟩ : TableDecl).fks = [] := by
        simp [TableDecl.fks, List.filterMap_map, Function.comp_def]
      simp only [TableDecl.denote, hx, hf, Doc.Table.denote, he, List.filterMap_append, d2, d3, x2, x3, NE.list]
      simp [listed]

def Doc.Action.decl (a : Doc.Action) : ActionDecl where
  annotations := []
  name := a.name
  params := ⟨a.params.head?, a.params.tail⟩
  modifiers := []
  body := ⟨.sql a.sql, a.more.map .sql⟩

theorem Doc.Action.decl_toks (a : Doc.Action) : a.decl.toks = a.toks := by
  unfold ActionDecl.toks Doc.Action.toks Doc.Action.decl bodyToks
  have h1 : (⟨a.params.head?, a.params.tail⟩ : CommaList Str).toks (fun s => [varTok s]) =
      Doc.commas (a.params.map fun x => [varTok x]) := by
    cases a.params <;> simp [CommaList.toks, Doc.commas, List.flatMap_map]
  simp only [h1]
  simp [NE.list, List.flatMap_map, Stmt.toks]

theorem Doc.Action.decl_denote (a : Doc.Action) : a.decl.denote = a.denote := by
  have h1 : (⟨a.params.head?, a.params.tail⟩ : CommaList Str).list = a.params := by
    cases a.params <;> rfl
  have h2 : ∀ x, Stmt.denote (.sql x) = x ++ [';'] := by
    intro x; simp [Stmt.denote, Stmt.toks, glued, kw, TT.fixed]
  simp only [ActionDecl.denote, Doc.Action.decl, Doc.Action.denote, h1, NE.list, List.map_cons, h2, List.map_map]
  simp [listed, Function.comp_def, h2]

theorem Doc.tables_decl : ∀ {l : List Doc.Table}, (∀ t ∈ l, t.ColumnsFirst) →
    ∃ ds : List TableDecl, ds.flatMap TableDecl.toks = l.flatMap Doc.Table.toks ∧
      ds.map TableDecl.denote = l.map Doc.Table.denote
  | [], _ => ⟨[], rfl, rfl⟩
  | t :: l, h => by
    obtain ⟨d, h1, h2⟩ := Doc.table_decl (h t (by simp))
    obtain ⟨ds, k1, k2⟩ := Doc.tables_decl (l := l) (fun y hy => h y (by simp [hy]))
    exact ⟨d :: ds, by simp [h1, k1], by simp [h2, k2]⟩

/-- A documented file is a program. -/
theorem Doc.File.program {f : Doc.File} (h : ∀ t ∈ f.tables, t.ColumnsFirst) :
    ∃ p : Program, p.toks = f.toks ∧ p.denote = f.denote ∧ p.fault = none := by
  obtain ⟨ds, h1, h2⟩ := Doc.tables_decl h
  have ht : (⟨f.name, [], ds.map .table ++ f.actions.map (fun a => .action a.decl)⟩ : Program).tables = ds := by
    simp [Program.tables, List.filterMap_append, List.filterMap_map, Function.comp_def]
  have ha : (⟨f.name, [], ds.map .table ++ f.actions.map (fun a => .action a.decl)⟩ : Program).actions =
      f.actions.map Doc.Action.decl := by
    simp only [Program.actions, List.filterMap_append, List.filterMap_map, Function.comp_def]
    simp
  have hi : (⟨f.name, [], ds.map .table ++ f.actions.map (fun a => .action a.decl)⟩ : Program).inits = [] := by
    simp [Program.inits, List.filterMap_append, List.filterMap_map, Function.comp_def]
  refine ⟨⟨f.name, [], ds.map .table ++ f.actions.map (fun a => .action a.decl)⟩, ?_, ?_, ?_⟩
  · simp only [Program.toks, Doc.File.toks, List.flatMap_append, List.flatMap_map, Decl.toks,
      Doc.Action.decl_toks, ← h1]
    simp
  · simp only [Program.denote, ht, ha, hi, Doc.File.denote, ← h2, List.map_map]
    rw [show ActionDecl.denote ∘ Doc.Action.decl = Doc.Action.denote from funext Doc.Action.decl_denote]
    simp [listed]
  · simp only [Program.fault, hi, ha]
    simp [modifierFault, Doc.Action.decl]

theorem Doc.File.written {f : Doc.File} {s : Str} (h : (lexAllRaw s).map visible = some f.toks) : f.WrittenBy s := by
  cases hl : lexAllRaw s with
  | none => rw [hl] at h; simp at h
  | some l => rw [hl] at h; exact ⟨l, (lexAllRaw_iff _ _).1 hl, by simpa using h⟩

/-! ## C64 -/

/-- C64, what holds: if in every table the columns come before the indexes (and
there is at least one), a text of the documented form, however it is laid out,
is accepted if and only if the schema it describes keeps the rules, and is read
as that schema. -/
theorem C64_documented_partial (w : World) (s : Str) (f : Doc.File)
    (hs : f.WrittenBy s) (hc : ∀ t ∈ f.tables, t.ColumnsFirst) (sch : Schema) :
    Accepts w s sch ↔ sch = f.denote ∧ ValidSchema w.toEnv f.denote := by
  obtain ⟨p, h1, h2, h3⟩ := Doc.File.program hc
  have hp : Writes s p := by rw [Writes, h1]; exact hs
  refine (accepts_iff (w := w) (mode := modeDefault)).trans ?_
  constructor
  · rintro ⟨q, hq, hf, rfl, hval⟩
    have hd := (hq.unique hp).2.2.2 hf
    rw [h2] at hd
    rw [hd] at hval ⊢
    exact ⟨rfl, hval⟩
  · rintro ⟨rfl, hval⟩
    exact ⟨p, hp, h3, h2, hval⟩

/-- Every such file can be written, provided that names, literals and statements
are well-formed. -/
theorem C64_writable_partial (f : Doc.File) (hc : ∀ t ∈ f.tables, t.ColumnsFirst)
    (hs : ∀ t ∈ f.toks, WellSpelt t) : f.WrittenBy (spaced f.toks) := by
  obtain ⟨p, h1, _, _⟩ := Doc.File.program hc
  unfold Doc.File.WrittenBy
  rw [← h1] at hs ⊢
  exact p.writes_text hs

/-- A table with an index above the column it is for, as lines 34-42 have it. -/
def Sample.indexFirst : Doc.File where
  name := "d".toList
  tables := [⟨"t".toList, .index "i".toList .index "a".toList [], [.column "a".toList .int []]⟩]
  actions := []

/-- C64 is false: this text is of the documented form and describes a schema
that keeps the rules; it is not accepted, whatever the statement parsers do. -/
theorem C64_violated (w : World) : ∃ (s : Str) (f : Doc.File),
    f.WrittenBy s ∧ ValidSchema w.toEnv f.denote ∧ ∀ sch, ¬ Accepts w s sch := by
  let s := "database d; table t { #i index(a), a int }".toList
  refine ⟨s, Sample.indexFirst, Doc.File.written (by decide +kernel), ?_, ?_⟩
  · refine (validate_none _ _).1 ?_
    rw [show validate w.toEnv Sample.indexFirst.denote = validate Sample.env Sample.indexFirst.denote from rfl]
    decide +kernel
  · intro sch h
    obtain ⟨p, hp, _⟩ := (accepts_iff (w := w)).1 h
    exact syntaxTree_none.1 (by decide +kernel) ⟨p, hp⟩

/-- A file for `C64_documented_partial`. -/
def Sample.documented : Doc.File where
  name := "d".toList
  tables := [⟨"t".toList, .column "a".toList .int [.primary, .min "1".toList],
    [.column "b".toList .text [.default (.str "'x'".toList)], .index "i".toList .unique "a".toList ["b".toList]]⟩]
  actions := [⟨"f".toList, ["$x".toList], "insert into t values ($x)".toList, ["delete from t".toList]⟩]

example : ∃ sch, Accepts Sample.lenient
    "database d; // docs\ntable t { a int primary min(1), b text default('x'), #i unique(a, b) }\naction f($x) { insert into t values ($x); delete from t; }".toList sch ∧
    sch = Sample.documented.denote := by
  refine ⟨_, (C64_documented_partial Sample.lenient _ Sample.documented
    (Doc.File.written (by decide +kernel)) ?_ _).2 ⟨rfl, ?_⟩, rfl⟩
  · intro t ht
    simp only [Sample.documented, List.mem_singleton] at ht
    subst ht
    exact ⟨[_, _], [_], rfl, by simp, by simp [Doc.Item.column?], by simp [Doc.Item.index?]⟩
  · exact (validate_none _ _).1 (by decide +kernel)

end Verif
