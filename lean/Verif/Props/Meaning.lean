import Verif.Proof.Names
import Verif.Props.SampleText
/-!
# C06–C09, C28, C42: what accepted texts mean

`Accepts w s sch`: `Parse(s)` returns `sch` and a nil error.
-/

namespace Verif

/-- C06. `ParseKF` (with a fresh listener, in any mode) returns the schema and
no error exactly if the text writes a program that has no modifier or init
fault, means this schema, and the schema satisfies the static rules. -/
theorem C06_exact (w : World) (s : Str) (mode : Nat) (sch : Schema) :
    ((parseKF w s none mode).err = none ∧ (parseKF w s none mode).result = some sch) ↔
      ∃ p, Writes s p ∧ p.fault = none ∧ p.denote = sch ∧ ValidSchema w.toEnv sch := accepts_iff

/-- C06 for `Parse`. -/
theorem C06_parse (w : World) (s : Str) (sch : Schema) :
    Accepts w s sch ↔
      ∃ p, Writes s p ∧ p.fault = none ∧ p.denote = sch ∧ ValidSchema w.toEnv sch := accepts_iff

/-- C07. Extensions, tables and actions are listed in source order, the init
block last. -/
theorem C07_top_level_order (w : World) (s : Str) (sch : Schema) (p : Program)
    (h : Accepts w s sch) (hp : Writes s p) :
    sch.name = p.name ∧ sch.owner = [] ∧
    sch.extensions.elems.map (fun e => (e.name, e.config.map (·.map fun c => (c.argument, c.value)), e.alias)) =
      p.exts.map (fun e => (e.name, e.config.map (·.list.map fun c => (c.name, c.value.text)), e.alias)) ∧
    sch.tables.elems.map (·.name) = p.tables.map (·.name) ∧
    sch.actions.elems.map (·.name) =
      p.actions.map (·.name) ++ (if p.inits = [] then [] else ["init".toList]) := by
  obtain ⟨hf, rfl, _⟩ := h.program hp
  refine ⟨rfl, rfl, ?_, ?_, ?_⟩
  · rw [p.denote_exts, List.map_map]
    apply List.map_congr_left
    intro e _
    cases hc : e.config <;> simp [ExtDecl.denote, Pair.config, hc]
  · rw [p.denote_tables, List.map_map]; rfl
  · rw [p.denote_actions, List.map_append, List.map_map, List.map_map]
    congr 1
    have := (no_fault hf).1
    rcases hi : p.inits with _ | ⟨a, _ | ⟨b, l⟩⟩
    · rfl
    · rfl
    · rw [hi] at this; simp at this

/-- C07. Inside a table: columns with their constraints, indexes with their
columns, foreign keys with their keys and actions, each in source order. -/
theorem C07_table_order (w : World) (s : Str) (sch : Schema) (p : Program)
    (h : Accepts w s sch) (hp : Writes s p) (i : Nat) (t : Table) (d : TableDecl)
    (ht : sch.tables.elems[i]? = some t) (hd : p.tables[i]? = some d) :
    t.columns.elems.map (fun c => (c.name, c.type, c.attributes.elems)) =
      d.columns.list.map (fun c => (c.name, c.type.denote, c.constraints.map Constraint.denote)) ∧
    t.indexes.elems.map (fun x => (x.name, x.type, x.columns.elems)) =
      d.indexes.map (fun x => (x.name, x.kind.denote, x.columns.list)) ∧
    t.foreignKeys.elems.map (fun f => (f.childKeys.elems, f.parentTable, f.parentKeys.elems,
        f.actions.elems.map fun a => (a.on, a.doo))) =
      d.fks.map (fun f => (f.child.list, f.table, f.parent.list,
        f.acts.map fun a => (a.on.denote, a.act.denote))) := by
  obtain ⟨hf, rfl, _⟩ := h.program hp
  rw [p.denote_tables, List.getElem?_map, hd] at ht
  simp at ht
  subst ht
  refine ⟨?_, ?_, ?_⟩
  · show (d.columns.list.map ColDecl.denote).map _ = _
    simp only [List.map_map]
    apply List.map_congr_left
    intro c _
    simp only [Function.comp_def, ColDecl.denote]
    rw [listed_elems]
  · show (listed (d.indexes.map IdxDecl.denote)).elems.map _ = _
    rw [listed_elems, List.map_map]
    rfl
  · show (listed (d.fks.map FkDecl.denote)).elems.map _ = _
    rw [listed_elems, List.map_map]
    apply List.map_congr_left
    intro f _
    simp only [Function.comp_def, FkDecl.denote]
    rw [listed_elems, List.map_map]
    rfl

/-- C07. Inside an action: annotations, parameters and statements in source
order. -/
theorem C07_action_order (w : World) (s : Str) (sch : Schema) (p : Program)
    (h : Accepts w s sch) (hp : Writes s p) (i : Nat) (a : Action) (d : ActionDecl)
    (ha : sch.actions.elems[i]? = some a) (hd : p.actions[i]? = some d) :
    a.name = d.name ∧ a.annotations.elems = d.annotations.map Annot.denote ∧
    a.inputs.elems = d.params.list ∧ a.statements.elems = d.body.list.map Stmt.denote := by
  obtain ⟨hf, rfl, _⟩ := h.program hp
  have hi : i < p.actions.length := by
    rcases Nat.lt_or_ge i p.actions.length with h | h
    · exact h
    · rw [List.getElem?_eq_none h] at hd; cases hd
  rw [p.denote_actions, List.getElem?_append_left (by simpa using hi), List.getElem?_map, hd] at ha
  simp at ha
  subst ha
  exact ⟨rfl, listed_elems _, listed_elems _, rfl⟩

/-- C07. The init block is the last action, with its statements in order. -/
theorem C07_init_last (w : World) (s : Str) (sch : Schema) (p : Program)
    (h : Accepts w s sch) (hp : Writes s p) (b : NE Stmt) (hb : b ∈ p.inits) :
    ∃ a, sch.actions.elems.getLast? = some a ∧ a.name = "init".toList ∧
      a.statements.elems = b.list.map Stmt.denote := by
  obtain ⟨hf, rfl, _⟩ := h.program hp
  have := (no_fault hf).1
  rw [p.denote_actions]
  rcases hi : p.inits with _ | ⟨c, _ | ⟨d, l⟩⟩
  · rw [hi] at hb; simp at hb
  · rw [hi] at hb
    simp at hb
    subst hb
    exact ⟨initAction b, by simp, rfl, rfl⟩
  · rw [hi] at this; simp at this

/-- C07. The interleaving of tables, actions and the init block does not
matter: two texts with the same declarations of each kind, in the same order
within each kind, have the same result and the same errors. -/
theorem C07_interleaving (w : World) (s t : Str) (p q : Program) (hp : Writes s p)
    (hq : Writes t q) (hn : p.name = q.name) (he : p.exts = q.exts) (ht : p.tables = q.tables)
    (ha : p.actions = q.actions) (hi : p.inits = q.inits) (l : Option ErrorList) (mode : Nat) :
    (parseKF w s l mode).result = (parseKF w t l mode).result ∧
    (parseKF w s l mode).errors = (parseKF w t l mode).errors := by
  have hd : p.denote = q.denote := by unfold Program.denote; rw [hn, he, ht, ha, hi]
  have hf : p.fault = q.fault := by unfold Program.fault; rw [ha, hi]
  rw [hp.parseKF, hq.parseKF, hd, hf]
  split
  · exact ⟨rfl, rfl⟩
  · cases q.fault with
    | some e => exact ⟨rfl, rfl⟩
    | none =>
      cases validate w.toEnv q.denote with
      | none => exact ⟨rfl, rfl⟩
      | some f => cases f <;> exact ⟨rfl, rfl⟩

/-- C08. Two or more init blocks: rejected with `ErrMultiInit`, no result. -/
theorem C08_multi_init (w : World) (s : Str) (mode : Nat) (p : Program) (hp : Writes s p)
    (h : 2 ≤ p.inits.length) :
    (parseKF w s none mode).errors = [.real (.sent .multiInit)] ∧
    (parseKF w s none mode).result = none := by
  rw [hp.parseKF]
  have : p.fault = some (.sent .multiInit) := by unfold Program.fault; rw [if_pos h]
  rw [this]
  exact ⟨rfl, rfl⟩

/-- C08. An accepted text has an action named `init` iff it has an init block,
and then it is the only one and has the fixed signature. -/
theorem C08_init_signature (w : World) (s : Str) (sch : Schema) (p : Program)
    (h : Accepts w s sch) (hp : Writes s p) :
    ((∃ a ∈ sch.actions.elems, a.name = "init".toList) ↔ p.inits ≠ []) ∧
    ∀ a ∈ sch.actions.elems, a.name = "init".toList →
      a.pub = false ∧ a.mutability = "update".toList ∧ a.inputs = none ∧ a.annotations = none ∧
      a.auxiliaries = none ∧ ∃ b, p.inits = [b] ∧ a.statements.elems = b.list.map Stmt.denote := by
  obtain ⟨hf, rfl, _⟩ := h.program hp
  have hno : ∀ d ∈ p.actions, d.denote.name ≠ "init".toList := by
    intro d hd hn
    have hm : idTok d.name ∈ p.toks := by
      apply decl_toks_sub (mem_actions hd)
      simp [Decl.toks, ActionDecl.toks]
    have := hp.ident hm
    rw [show d.name = "init".toList from hn] at this
    exact this.2 (by decide)
  rw [p.denote_actions]
  constructor
  · constructor
    · rintro ⟨a, ha, hn⟩ h0
      rw [h0] at ha
      simp at ha
      obtain ⟨d, hd, rfl⟩ := ha
      exact hno d hd hn
    · intro h0
      obtain ⟨b, l, hb⟩ := List.exists_cons_of_ne_nil h0
      exact ⟨initAction b, by simp [hb], rfl⟩
  · intro a ha hn
    rcases List.mem_append.1 ha with ha | ha
    · obtain ⟨d, hd, rfl⟩ := List.mem_map.1 ha
      exact absurd hn (hno d hd)
    · obtain ⟨b, hb, rfl⟩ := List.mem_map.1 ha
      have h1 := (no_fault hf).1
      refine ⟨rfl, rfl, rfl, rfl, rfl, b, ?_, rfl⟩
      rcases hi : p.inits with _ | ⟨c, _ | ⟨d, l⟩⟩
      · rw [hi] at hb; simp at hb
      · rw [hi] at hb; simp at hb; rw [hb]
      · rw [hi] at h1; simp at h1

/-- C09. Modifiers decide visibility, mutability and ownership. -/
theorem C09_modifiers (w : World) (s : Str) (sch : Schema) (p : Program)
    (h : Accepts w s sch) (hp : Writes s p) (i : Nat) (a : Action) (d : ActionDecl)
    (ha : sch.actions.elems[i]? = some a) (hd : p.actions[i]? = some d) :
    (a.pub = true ↔ .pub ∈ d.modifiers) ∧
    (.view ∈ d.modifiers → a.mutability = "view".toList) ∧
    (.view ∉ d.modifiers → a.mutability = "update".toList) ∧
    (.owner ∈ d.modifiers → a.auxiliaries = some ["owner".toList]) ∧
    (.owner ∉ d.modifiers → a.auxiliaries = none) ∧
    -- and nothing is repeated
    (d.modifiers.count .pub + d.modifiers.count .priv ≤ 1 ∧ d.modifiers.count .view ≤ 1 ∧
      d.modifiers.count .owner ≤ 1) := by
  obtain ⟨hf, rfl, _⟩ := h.program hp
  have hi : i < p.actions.length := by
    rcases Nat.lt_or_ge i p.actions.length with h | h
    · exact h
    · rw [List.getElem?_eq_none h] at hd; cases hd
  rw [p.denote_actions, List.getElem?_append_left (by simpa using hi), List.getElem?_map, hd] at ha
  simp at ha
  subst ha
  have hm := modifierFault_none.1 ((no_fault hf).2 d (List.mem_of_getElem? hd))
  refine ⟨by simp [ActionDecl.denote], ?_, ?_, ?_, ?_, ?_, hm.2⟩
  · intro hv; simp [ActionDecl.denote, hv]
  · intro hv; simp [ActionDecl.denote, hv]
  · intro hv; simp [ActionDecl.denote, hv]
  · intro hv; simp [ActionDecl.denote, hv]
  · rw [vis_count]; exact hm.1

/-- C09. Otherwise the text is rejected, with the error for the first action
that repeats a modifier; if it repeats several kinds, visibility comes first,
then mutability, then `owner`. -/
theorem C09_repeated (w : World) (s : Str) (mode : Nat) (p : Program) (hp : Writes s p)
    (hi : p.inits.length ≤ 1) (before after : List ActionDecl) (d : ActionDecl)
    (hsplit : p.actions = before ++ d :: after)
    (hb : ∀ a ∈ before, a.modifiers.count .pub + a.modifiers.count .priv ≤ 1 ∧
      a.modifiers.count .view ≤ 1 ∧ a.modifiers.count .owner ≤ 1) :
    let out := parseKF w s none mode
    let vis := d.modifiers.count .pub + d.modifiers.count .priv
    (2 ≤ vis → out.result = none ∧ out.errors.is .actionVisibilityAlreadySet = true) ∧
    (vis ≤ 1 → 2 ≤ d.modifiers.count .view →
      out.result = none ∧ out.errors.is .actionMutabilityAlreadySet = true) ∧
    (vis ≤ 1 → d.modifiers.count .view ≤ 1 → 2 ≤ d.modifiers.count .owner →
      out.result = none ∧ out.errors.is .actionAuxiliaryAlreadySet = true) := by
  intro out vis
  have cnt := vis_count
  have hf : ∀ e, modifierFault d.modifiers = some e → p.fault = some e := by
    intro e he
    unfold Program.fault
    rw [if_neg (by omega), hsplit, List.findSome?_append]
    have : before.findSome? (fun a => modifierFault a.modifiers) = none := by
      rw [List.findSome?_eq_none_iff]
      intro a ha
      have := hb a ha
      rw [cnt] at this
      exact modifierFault_none.2 this
    rw [this]
    simp [he]
  have ho : ∀ e, modifierFault d.modifiers = some e →
      out.result = none ∧ out.errors = [.real e] := by
    intro e he
    show (parseKF w s none mode).result = none ∧ (parseKF w s none mode).errors = [.real e]
    rw [hp.parseKF, hf e he]
    exact ⟨rfl, rfl⟩
  have hvis : vis = (d.modifiers.filter Modifier.isVis).length := cnt _
  have hsmall : vis ≤ 1 → ∀ v v' l, d.modifiers.filter Modifier.isVis ≠ v :: v' :: l := by
    intro h1 v v' l he
    rw [hvis, he] at h1
    simp at h1
  refine ⟨?_, ?_, ?_⟩
  · intro h2
    rcases hm : d.modifiers.filter Modifier.isVis with _ | ⟨v, _ | ⟨v', l⟩⟩
    · rw [hvis, hm] at h2; simp at h2
    · rw [hvis, hm] at h2; simp at h2
    · obtain ⟨h3, h4⟩ := ho _ (by unfold modifierFault; rw [hm])
      rw [h4]
      exact ⟨h3, rfl⟩
  · intro h1 h2
    obtain ⟨h3, h4⟩ := ho (Sent.actionMutabilityAlreadySet.with "view".toList) (by
      unfold modifierFault
      split
      · next h => exact absurd h (hsmall h1 _ _ _)
      · rw [if_pos h2])
    rw [h4]
    exact ⟨h3, rfl⟩
  · intro h1 h2 h5
    obtain ⟨h3, h4⟩ := ho (Sent.actionAuxiliaryAlreadySet.with "owner".toList) (by
      unfold modifierFault
      split
      · next h => exact absurd h (hsmall h1 _ _ _)
      · rw [if_neg (by omega), if_pos h5])
    rw [h4]
    exact ⟨h3, rfl⟩

theorem filterMap_map_eq {α β γ : Type} (f : α → Option β) (g : α → α) (h : β → γ)
    (hg : ∀ a, (f (g a)).map h = (f a).map h) (l : List α) :
    ((l.map g).filterMap f).map h = (l.filterMap f).map h := by
  induction l with
  | nil => rfl
  | cons a l ih =>
    have := hg a
    simp only [List.map_cons, List.filterMap_cons]
    cases h1 : f (g a) <;> cases h2 : f a <;> simp_all

theorem plain_table (t : TableDecl) : t.plain.denote = t.denote := by
  have h1 : t.plain.indexes.map IdxDecl.denote = t.indexes.map IdxDecl.denote :=
    filterMap_map_eq _ TableItem.plain _ (by intro a; cases a <;> rfl) t.items
  have h2 : t.plain.fks.map FkDecl.denote = t.fks.map FkDecl.denote :=
    filterMap_map_eq _ TableItem.plain _ (by
      intro a
      cases a with
      | index i => rfl
      | fk f =>
        simp only [TableItem.plain, Option.map_some, FkDecl.denote, FkDecl.plain, List.map_map]
        rfl) t.items
  unfold TableDecl.denote
  rw [h1, h2]
  rfl

theorem plain_program (p : Program) : p.plain.denote = p.denote ∧ p.plain.fault = p.fault := by
  have h1 : p.plain.tables.map TableDecl.denote = p.tables.map TableDecl.denote :=
    filterMap_map_eq _ Decl.plain _ (by
      intro a
      cases a with
      | table t => simp [Decl.plain, plain_table]
      | action => rfl
      | init => rfl) p.decls
  have h2 : p.plain.actions = p.actions := by
    have := filterMap_map_eq (fun | .action a => some a | _ => none) Decl.plain
      (fun x : ActionDecl => x) (by intro a; cases a <;> rfl) p.decls
    rw [List.map_id', List.map_id'] at this
    exact this
  have h3 : p.plain.inits = p.inits := by
    have := filterMap_map_eq (fun | .init a => some a | _ => none) Decl.plain
      (fun x : NE Stmt => x) (by intro a; cases a <;> rfl) p.decls
    rw [List.map_id', List.map_id'] at this
    exact this
  constructor
  · unfold Program.denote
    rw [h1, h2, h3]
    rfl
  · unfold Program.fault
    rw [h2, h3]

/-- C42. Texts of programs that differ only in `fk`/`foreign_key`,
`ref`/`references`, the optional `do` and trailing commas (anywhere) have the
same result and the same errors. -/
theorem C42_spelling (w : World) (s t : Str) (p q : Program) (hp : Writes s p) (hq : Writes t q)
    (h : p.plain = q.plain) (l : Option ErrorList) (mode : Nat) :
    (parseKF w s l mode).result = (parseKF w t l mode).result ∧
    (parseKF w s l mode).errors = (parseKF w t l mode).errors := by
  have hd : p.denote = q.denote := by rw [← (plain_program p).1, h, (plain_program q).1]
  have hf : p.fault = q.fault := by rw [← (plain_program p).2, h, (plain_program q).2]
  rw [hp.parseKF, hq.parseKF, hd, hf]
  split
  · exact ⟨rfl, rfl⟩
  · cases q.fault with
    | some e => exact ⟨rfl, rfl⟩
    | none =>
      cases validate w.toEnv q.denote with
      | none => exact ⟨rfl, rfl⟩
      | some f => cases f <;> exact ⟨rfl, rfl⟩

/-- C42. The documented constants, keyword by keyword: a foreign-key action is
written with one of these words and yields the constant beside it. -/
theorem C42_constants (w : World) (s : Str) (sch : Schema) (p : Program)
    (h : Accepts w s sch) (hp : Writes s p) (i j k : Nat) (t : Table) (d : TableDecl)
    (f : ForeignKey) (fd : FkDecl) (a : FKAction) (ad : FkAct)
    (ht : sch.tables.elems[i]? = some t) (hd : p.tables[i]? = some d)
    (hf : t.foreignKeys.elems[j]? = some f) (hfd : d.fks[j]? = some fd)
    (ha : f.actions.elems[k]? = some a) (had : fd.acts[k]? = some ad) :
    (ad.on.tok.text, a.on) ∈
      [("on_update".toList, "UPDATE".toList), ("on_delete".toList, "DELETE".toList)] ∧
    (ad.act.tok.text, a.doo) ∈
      [("no_action".toList, "NO ACTION".toList), ("cascade".toList, "CASCADE".toList),
       ("set_null".toList, "SET NULL".toList), ("set_default".toList, "SET DEFAULT".toList),
       ("restrict".toList, "RESTRICT".toList)] := by
  have h1 := (C07_table_order w s sch p h hp i t d ht hd).2.2
  have h2 := congrArg (·[j]?) h1
  simp only [List.getElem?_map, hf, hfd, Option.map_some] at h2
  simp at h2
  have h3 := congrArg (·[k]?) h2.2.2.2
  simp only [List.getElem?_map, ha, had, Option.map_some] at h3
  simp at h3
  obtain ⟨h4, h5⟩ := h3
  rw [h4, h5]
  constructor
  · cases ad.on <;> decide
  · cases ad.act <;> decide

/-- A letter followed by letters, digits and underscores, and no reserved
word. -/
def GoodName (x : Str) : Prop := IsName x ∧ ¬ Reserved x

/-- C28. Names of the database, extensions, tables and columns. -/
theorem C28_names (w : World) (s : Str) (sch : Schema) (h : Accepts w s sch) :
    GoodName sch.name ∧
    (∀ e ∈ sch.extensions.elems, GoodName e.name ∧ GoodName e.alias ∧
      ∀ c ∈ e.config.elems, GoodName c.argument) ∧
    (∀ t ∈ sch.tables.elems, GoodName t.name ∧
      (∀ c ∈ t.columns.elems, GoodName c.name) ∧
      (∀ i ∈ t.indexes.elems, IsName i.name ∧ ∀ c ∈ i.columns.elems, GoodName c) ∧
      (∀ f ∈ t.foreignKeys.elems, GoodName f.parentTable ∧
        (∀ c ∈ f.childKeys.elems, GoodName c) ∧ (∀ c ∈ f.parentKeys.elems, GoodName c))) ∧
    (∀ a ∈ sch.actions.elems, (a.name = "init".toList ∨ GoodName a.name) ∧
      (∀ i ∈ a.inputs.elems, ∃ y, i = '$' :: y ∧ IsName y) ∧
      (∀ n ∈ a.annotations.elems, ∃ target rest, n = target ++ '(' :: rest ∧ IsName target)) := by
  obtain ⟨p, hp, hf, rfl⟩ := h.exists_program
  refine ⟨?_, ?_, ?_, ?_⟩
  · exact hp.ident (by simp [Program.toks, Program.denote])
  · rw [p.denote_exts]
    intro e he
    obtain ⟨d, hd, rfl⟩ := List.mem_map.1 he
    have sub := ext_toks_sub hd
    refine ⟨hp.ident (sub (by simp [ExtDecl.toks, ExtDecl.denote])),
      hp.ident (sub (by simp [ExtDecl.toks, ExtDecl.denote])), ?_⟩
    intro c hc
    cases hcfg : d.config with
    | none => simp [ExtDecl.denote, hcfg, Slice.elems] at hc
    | some cfg =>
      simp only [ExtDecl.denote, hcfg, Slice.elems, Option.map_some, Option.getD_some] at hc
      obtain ⟨q, hq, rfl⟩ := List.mem_map.1 hc
      apply hp.ident (sub _)
      simp only [ExtDecl.toks, hcfg, List.mem_append]
      exact .inl (.inr (.inl (.inr (NE.mem_toks (f := Pair.toks .COL) hq
        (by simp [Pair.toks, Pair.config])))))
  · rw [p.denote_tables]
    intro t ht
    obtain ⟨d, hd, rfl⟩ := List.mem_map.1 ht
    have sub := table_toks_sub hd
    refine ⟨hp.ident (sub (by simp [TableDecl.toks, TableDecl.denote])), ?_, ?_, ?_⟩
    · intro c hc
      obtain ⟨q, hq, rfl⟩ := List.mem_map.1 (show c ∈ d.columns.list.map ColDecl.denote from hc)
      exact hp.ident (sub (column_toks_sub hq (by simp [ColDecl.toks, ColDecl.denote])))
    · intro i hi
      rw [show (TableDecl.denote d).indexes.elems = _ from listed_elems _] at hi
      obtain ⟨q, hq, rfl⟩ := List.mem_map.1 hi
      have sub' : q.toks ⊆ p.toks := fun x hx => sub (item_toks_sub (mem_indexes hq) hx)
      constructor
      · obtain ⟨y, hy, hn⟩ := lexeme_index (hp.lexemes ⟨.INDEX_NAME, '#' :: q.name⟩
          (sub' (by simp [IdxDecl.toks])))
        simp at hy
        subst hy
        exact hn
      · intro c hc
        apply hp.ident (sub' _)
        simp only [IdxDecl.toks, List.mem_append]
        exact .inr (parenNames_mem hc)
    · intro f hf
      rw [show (TableDecl.denote d).foreignKeys.elems = _ from listed_elems _] at hf
      obtain ⟨q, hq, rfl⟩ := List.mem_map.1 hf
      have sub' : q.toks ⊆ p.toks := fun x hx => sub (item_toks_sub (mem_fks hq) hx)
      refine ⟨hp.ident (sub' (by simp [FkDecl.toks, FkDecl.denote])), ?_, ?_⟩
      · intro c hc
        apply hp.ident (sub' _)
        simp only [FkDecl.toks, List.mem_append]
        exact .inl (.inl (.inl (.inr (parenNames_mem hc))))
      · intro c hc
        apply hp.ident (sub' _)
        simp only [FkDecl.toks, List.mem_append]
        exact .inl (.inr (parenNames_mem hc))
  · rw [p.denote_actions]
    intro a ha
    rcases List.mem_append.1 ha with ha | ha
    · obtain ⟨d, hd, rfl⟩ := List.mem_map.1 ha
      have sub := action_toks_sub hd
      refine ⟨.inr (hp.ident (sub (by simp [ActionDecl.toks, ActionDecl.denote]))), ?_, ?_⟩
      · intro i hi
        rw [show (ActionDecl.denote d).inputs.elems = _ from listed_elems _] at hi
        apply lexeme_var (hp.lexemes (varTok i) (sub _))
        simp only [ActionDecl.toks, List.mem_append]
        exact .inl (.inl (.inl (.inr (CommaList.mem_toks (f := fun s => [varTok s]) hi (by simp)))))
      · intro n hn
        rw [show (ActionDecl.denote d).annotations.elems = _ from listed_elems _] at hn
        obtain ⟨q, hq, rfl⟩ := List.mem_map.1 hn
        obtain ⟨y, hy, hn⟩ := lexeme_block (hp.lexemes ⟨.BLOCK_VAR_OR_ANNOTATION, '@' :: q.target⟩
          (sub (by
            simp only [ActionDecl.toks, List.mem_append, List.mem_flatMap]
            exact .inl (.inl (.inl (.inl (.inl ⟨q, hq, by simp [Annot.toks]⟩)))))))
        simp at hy
        subst hy
        exact ⟨q.target, _, by simp [Annot.denote]; rfl, hn⟩
    · obtain ⟨b, hb, rfl⟩ := List.mem_map.1 ha
      refine ⟨.inl rfl, ?_, ?_⟩
      · intro i hi; simp [initAction, Slice.elems] at hi
      · intro i hi; simp [initAction, Slice.elems] at hi

/-! The hypotheses can be met. -/

/-- The sample text, with every kind of declaration, is accepted
(`Sample.accepts`).  It has two tables, three actions (the last from the init block in the
middle of the text) and one extension. -/
example : Sample.prog.tables.length = 2 ∧ Sample.prog.actions.length = 2 ∧
    Sample.prog.inits.length = 1 ∧ Sample.prog.denote.actions.elems.map (·.name) =
      ["hello".toList, "go".toList, "init".toList] := by decide +kernel

/-- A short text with two init blocks (C08). -/
example : ∃ p, Writes "database d; init() {select 1;} init() {select 1;}".toList p ∧
    2 ≤ p.inits.length :=
  ⟨⟨"d".toList, [], [.init ⟨.sql "select 1".toList, []⟩, .init ⟨.sql "select 1".toList, []⟩]⟩,
    writes_lit _ rfl (by decide +kernel), by decide⟩

/-- A repeated visibility (C09). -/
example : ∃ p, Writes "database d; action a() public private {select 1;}".toList p ∧
    p.fault = some (Sent.actionVisibilityAlreadySet.with "public".toList) :=
  ⟨⟨"d".toList, [], [.action ⟨[], "a".toList, ⟨none, []⟩, [.pub, .priv],
      ⟨.sql "select 1".toList, []⟩⟩]⟩,
    writes_lit _ rfl (by decide +kernel), by decide⟩

/-- Two spellings of one program (C42). -/
example : ∃ p q, Writes "database d; table t {a int, fk(a) ref t(a) on_update cascade,}".toList p ∧
    Writes "database d; table t {a int, foreign_key(a) references t(a) on_update do cascade}".toList q ∧
    p.plain = q.plain :=
  ⟨⟨"d".toList, [], [.table ⟨"t".toList, ⟨⟨"a".toList, .int, []⟩, []⟩,
      [.fk ⟨true, ⟨"a".toList, []⟩, true, "t".toList, ⟨"a".toList, []⟩, [⟨.update, false, .cascade⟩]⟩],
      true⟩]⟩,
   ⟨"d".toList, [], [.table ⟨"t".toList, ⟨⟨"a".toList, .int, []⟩, []⟩,
      [.fk ⟨false, ⟨"a".toList, []⟩, false, "t".toList, ⟨"a".toList, []⟩, [⟨.update, true, .cascade⟩]⟩],
      false⟩]⟩,
    writes_lit _ rfl (by decide +kernel), writes_iff.2 (by decide +kernel), rfl⟩

end Verif
