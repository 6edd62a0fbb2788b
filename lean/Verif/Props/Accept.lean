import Verif.Model.Accept
import Verif.Proof.Reuse
import Verif.Props.Samples
/-!
# C57: Accept on the parts of a schema
-/

namespace Verif

/-- Inside `VisitSchema` no entry is ever replaced, so that `VisitTable` and
`VisitAction` called from there are the ones of the model of `VisitSchema`. -/
theorem dropKey_new {m : List (Str × List Str)} {k : Str} (h : hasKey m k = false) : dropKey m k = m := by
  rw [hasKey_false] at h
  refine List.filter_eq_self.2 fun x hx => ?_
  simp only [ne_eq, decide_not, Bool.not_eq_eq_eq_not, Bool.not_true, decide_eq_false_iff_not]
  intro he
  exact h (List.mem_map.2 ⟨x, hx, he⟩)

theorem map_err_none {o : Option Err} : o.map Fail.err = none ↔ o = none := by cases o <;> simp

/-- C57, what holds. On a validator in any state, that is, after any use,
`Accept` of a column, of an attribute, of a table and of an action returns nil
exactly if that part keeps the rules for such parts (a table without its foreign
keys, an action without its statements), and the answer does not depend on the
state.  Missing: extensions, see `C57_violated`. -/
theorem C57_parts_partial (env : Env) (v : Ctx) :
    (∀ c, (accept env v (.column c)).2 = none ↔ ValidColumn c) ∧
    (∀ a, (accept env v (.attribute a)).2 = none) ∧
    (∀ t, (accept env v (.table t)).2 = none ↔ ValidTable t) ∧
    (∀ a, (accept env v (.action a)).2 = none ↔ a.inputs.elems.Nodup) := by
  refine ⟨?_, fun _ => rfl, ?_, ?_⟩
  · intro c
    simp only [accept]
    rw [map_err_none, checkAttrs_valid]
  · intro t
    simp only [accept]
    rw [map_err_none, visitTableV_none]
  · intro a
    simp only [accept, visitActionV]
    rw [map_err_none]
    have := visitParams_none [] a.inputs.elems (by simp)
    rw [List.nil_append] at this
    exact this

/-- A schema with one table and nothing else. -/
def justTable (t : Table) : Schema := ⟨[], [], some [t], none, none⟩

/-- C57. Errors about single parts describe a mistake in that part: the same
mistake in a schema that consists of the part.  (A table is spoken of by the
name of the declaration that the validator is at.) -/
theorem C57_truthful (env : Env) (v : Ctx) (f : Fail) :
    (∀ t, (accept env v (.table t)).2 = some f →
      ∃ e, f = .err e ∧ Defect env (justTable { t with name := v.current }) e) ∧
    (∀ a, (accept env v (.action a)).2 = some f →
      ∃ n, f = .err (Sent.duplicateParam.with n) ∧ Twice n a.inputs.elems) ∧
    (∀ c, (accept env v (.column c)).2 = some f →
      (∃ a, f = .err (Sent.duplicateAttribute.with a) ∧ Twice a (c.attributes.elems.map (·.type))) ∨
      (∃ a ∈ c.attributes.elems, Misfit c.type a.type ∧
        f = .err (Sent.attributeNotAllow.with (c.type ++ "(".toList ++ a.type ++ ")".toList)))) := by
  refine ⟨?_, ?_, ?_⟩
  · intro t h
    simp only [accept, Option.map_eq_some_iff] at h
    obtain ⟨e, he, rfl⟩ := h
    refine ⟨e, rfl, ?_⟩
    refine visitTableV_some env _ { v with tables := dropKey v.tables v.current } { t with name := v.current }
      (by simp [justTable, Slice.elems]) rfl ?_
    exact he
  · intro a h
    simp only [accept, visitActionV, Option.map_eq_some_iff] at h
    obtain ⟨e, he, rfl⟩ := h
    obtain ⟨n, ht, hn⟩ := visitParams_some [] a.inputs.elems he
    exact ⟨n, by rw [hn], ht⟩
  · intro c h
    simp only [accept, Option.map_eq_some_iff] at h
    obtain ⟨e, he, rfl⟩ := h
    rcases checkAttrs_some _ _ _ he with ⟨a, h2, h1⟩ | ⟨a, h1, h2, h3⟩
    · exact .inl ⟨a, by rw [h1], by simpa using h2⟩
    · exact .inr ⟨a, h1, h2, by rw [h3]; rfl⟩

/-- C57. An index by itself is compared with the table that was accepted last;
a new validator knows no columns. -/
theorem C57_index (env : Env) (v : Ctx) (t : Table) (i : Index) :
    ((accept env v (.table t)).2 = none →
      ((accept env (accept env v (.table t)).1 (.index i)).2 = none ↔
        ∀ c ∈ i.columns.elems, c ∈ t.columnNames ++ t.indexNames)) ∧
    ((accept env Ctx.new (.index i)).2 = none ↔ i.columns.elems = []) := by
  refine ⟨?_, ?_⟩
  · intro h
    simp only [accept] at h ⊢
    rw [map_err_none] at h ⊢
    rw [visitTableV_fst _ _ h, checkIndexCols_none]
    have : ∀ (m : List (Str × List Str)) (k : Str) (x : List Str), lookupD (dropKey m k ++ [(k, x)]) k = x := by
      intro m k x
      unfold lookupD dropKey
      induction m with
      | nil => simp
      | cons a m ih =>
        by_cases ha : a.1 = k
        · simpa [ha] using ih
        · rw [List.filter_cons_of_pos (by simp [ha])]
          have hb : (k == a.1) = false := by
            rw [beq_eq_false_iff_ne]; exact fun h => ha h.symm
          rw [List.cons_append, List.lookup_cons]
          simp only [hb]
          exact ih
    rw [this]
  · simp only [accept]
    rw [map_err_none, checkIndexCols_none]
    simp only [Ctx.new, lookupD, List.lookup_nil, Option.getD_none, List.not_mem_nil]
    constructor
    · intro h
      cases hc : i.columns.elems with
      | nil => rfl
      | cons c cs => exact (h c (by simp [hc])).elim
    · intro h; simp [h]

/-- After a schema was accepted by a new validator, the validator's state is the
schema's declarations. -/
theorem declared_of_valid (env : Env) (s : Schema) (h : validate env s = none) :
    Declared (visitSchema env Ctx.new s).1 s := by
  have hv := (validate_none env s).1 h
  unfold validate at h
  unfold visitSchema at h ⊢
  have hxf := visitExts_fst [] s.extensions.elems
  cases h₁ : visitExts Ctx.new.exts s.extensions.elems with
  | mk x e =>
    rw [h₁] at h
    rw [show (Ctx.new.exts) = [] from rfl] at h₁
    rw [h₁] at hxf
    rw [List.nil_append, ← extNames_eq] at hxf
    cases e with
    | some e => simp at h
    | none =>
      obtain rfl := hxf rfl
      simp only at h ⊢
      generalize hc₀ : ({ Ctx.new with exts := s.extNames } : Ctx) = c₀ at h ⊢
      have htf := visitTables_fst c₀ s.tables.elems
      cases h₂ : visitTables c₀ s.tables.elems with
      | mk c₁ e =>
        rw [h₂] at htf h
        cases e with
        | some e => simp at h
        | none =>
          obtain ⟨ht₁, ht₂, ht₃⟩ := htf rfl
          simp only at ht₁ ht₂ ht₃ h ⊢
          have haf := visitActionDecls_fst c₁ s.actions.elems
          cases h₃ : visitActionDecls c₁ s.actions.elems with
          | mk c₂ e =>
            rw [h₃] at haf h
            cases e with
            | some e => simp at h
            | none =>
              obtain ⟨ha₁, ha₂, ha₃⟩ := haf rfl
              simp only at ha₁ ha₂ ha₃ h ⊢
              have d : Declared c₂ s := by
                refine ⟨?_, ?_, ?_, hv.tables, hv.actions⟩
                · rw [ha₂, ht₁]; subst hc₀; simp [Ctx.new]
                · rw [ha₁, ht₂]; subst hc₀; simp [Ctx.new]
                · rw [ha₃, ht₃]; subst hc₀; rfl
              cases checkAllFKs c₂ s.tables.elems <;> exact d

/-- C57. A foreign key by itself is compared with the tables of the schema that
the validator has accepted; a new validator knows no tables.  The child keys are
not looked at. -/
theorem C57_foreign_key (env : Env) (f : ForeignKey) :
    (∀ s, validate env s = none →
      ((accept env (accept env Ctx.new (.schema s)).1 (.foreignKey f)).2 = none ↔
        (∃ p ∈ s.tables.elems, p.name = f.parentTable ∧
          ∀ c ∈ f.parentKeys.elems, c ∈ p.columnNames ++ p.indexNames) ∧
        (f.actions.elems.map (·.on)).Nodup)) ∧
    (accept env Ctx.new (.foreignKey f)).2 = some (.err (Sent.tableNotFound.with f.parentTable)) := by
  refine ⟨?_, rfl⟩
  intro s h
  simp only [accept]
  rw [map_err_none]
  exact checkForeignKey_none (declared_of_valid env s h) f

/-- C57 is false of the code: `Accept` of an extension panics. -/
theorem C57_violated (env : Env) (v : Ctx) (e : Extension) :
    (accept env v (.extension e)).2 = some (.panic (.str "implement me".toList)) := rfl

theorem checkStmts_panic (env : Env) (c : Ctx) (a : Str) (l ss : List Str) (p : Panic)
    (h : checkStmts env c a l ss = some (.panic p)) :
    ∃ st ∈ ss, env.actParse st = .error (.panic p) ∨ env.sqlCheck st = some (.panic p) := by
  induction ss generalizing l with
  | nil => simp [checkStmts] at h
  | cons st ss ih =>
    unfold checkStmts at h
    cases hs : checkStmt env c a l st with
    | ok l' =>
      rw [hs] at h
      obtain ⟨x, hx, r⟩ := ih _ h
      exact ⟨x, by simp [hx], r⟩
    | error f =>
      rw [hs] at h
      simp only [Option.some.injEq] at h
      subst h
      refine ⟨st, by simp, ?_⟩
      unfold checkStmt at hs
      split at hs
      · simp at hs
      · next hp => simp at hs; subst hs; exact .inl hp
      · simp at hs
      · split at hs
        · simp at hs
        · next hp => simp at hs; subst hs; exact .inr hp
        · simp at hs
      · split at hs
        · split at hs <;> simp at hs
        · simp at hs
      · split at hs
        · split at hs
          · simp at hs
          · split at hs <;> simp at hs
        · simp at hs

theorem checkBodies_panic (env : Env) (c : Ctx) (as : List Action) (p : Panic)
    (h : checkBodies env c as = some (.panic p)) : ∃ a ∈ as, ∃ st ∈ a.statements.elems,
      env.actParse st = .error (.panic p) ∨ env.sqlCheck st = some (.panic p) := by
  induction as with
  | nil => simp [checkBodies] at h
  | cons a as ih =>
    unfold checkBodies at h
    split at h
    · next f hf =>
      simp only [Option.some.injEq] at h
      subst h
      exact ⟨a, by simp, checkStmts_panic _ _ _ _ _ _ hf⟩
    · obtain ⟨x, hx, r⟩ := ih h
      exact ⟨x, by simp [hx], r⟩

/-- C57. Nothing else panics, unless one of the external parsers does, on a
statement of the schema that is being validated. -/
theorem C57_panics (env : Env) (v : Ctx) (n : Node) (p : Panic)
    (h : (accept env v n).2 = some (.panic p)) :
    (∃ e, n = .extension e) ∨
    ∃ s, n = .schema s ∧ ∃ a ∈ s.actions.elems, ∃ st ∈ a.statements.elems,
      env.actParse st = .error (.panic p) ∨ env.sqlCheck st = some (.panic p) := by
  cases n with
  | extension e => exact .inl ⟨e, rfl⟩
  | column c => simp [accept] at h
  | «attribute» a => simp [accept] at h
  | index i => simp [accept] at h
  | foreignKey f => simp [accept] at h
  | table t => simp [accept] at h
  | action a => simp [accept] at h
  | schema s =>
    right
    refine ⟨s, rfl, ?_⟩
    simp only [accept, visitSchema] at h
    split at h
    · simp at h
    · split at h
      · simp at h
      · split at h
        · simp at h
        · split at h
          · simp at h
          · exact checkBodies_panic _ _ _ _ h

theorem dropKey_keys (m : List (Str × List Str)) (k : Str) (x : List Str) :
    ∀ y ∈ m.map (·.1), y ∈ (dropKey m k ++ [(k, x)]).map (·.1) := by
  intro y hy
  obtain ⟨z, hz, rfl⟩ := List.mem_map.1 hy
  by_cases h : z.1 = k
  · simp [h]
  · exact List.mem_map.2 ⟨z, List.mem_append_left _ (List.mem_filter.2 ⟨hz, by simp [h]⟩), rfl⟩

/-- A validator forgets no declaration. -/
theorem accept_le (env : Env) (v : Ctx) (n : Node) : Ctx.Le v (accept env v n).1 := by
  cases n with
  | schema s => exact visitSchema_le env v s
  | table t =>
    simp only [accept]
    obtain ⟨m, hm⟩ := visitTableV_keeps { v with tables := dropKey v.tables v.current } t
    rw [hm]
    exact ⟨fun _ h => h, dropKey_keys _ _ _, fun _ h => h⟩
  | action a =>
    simp only [accept, visitActionV]
    exact ⟨fun _ h => h, fun _ h => h, dropKey_keys _ _ _⟩
  | extension _ => exact .refl v
  | column _ => exact .refl v
  | «attribute» _ => exact .refl v
  | index _ => exact .refl v
  | foreignKey _ => exact .refl v

theorem acceptMany_le (env : Env) (v : Ctx) (ns : List Node) : Ctx.Le v (acceptMany env v ns) := by
  induction ns generalizing v with
  | nil => exact .refl v
  | cons n ns ih => exact (accept_le env v n).trans (ih _)

/-- C46, for arbitrary use of the validator: once it has seen a schema, whatever
came before and whatever parts were given to it in between, it fails on that
schema, with a duplicate of its first declaration. -/
theorem C46_any_history (env : Env) (v : Ctx) (before between : List Node) (s : Schema) :
    let r := (accept env (acceptMany env v (before ++ .schema s :: between)) (.schema s)).2
    (∀ e es, s.extensions.elems = e :: es →
      r = some (.err (Sent.duplicateExtension.with (if e.alias = [] then e.name else e.alias)))) ∧
    (s.extensions.elems = [] → ∀ t ts, s.tables.elems = t :: ts →
      r = some (.err (Sent.duplicateTable.with t.name))) ∧
    (s.extensions.elems = [] → s.tables.elems = [] → ∀ a as, s.actions.elems = a :: as →
      r = some (.err (Sent.duplicateAction.with a.name))) := by
  have hk : Knows (acceptMany env v (before ++ .schema s :: between)) s := by
    unfold acceptMany
    rw [List.foldl_append, List.foldl_cons]
    exact (visitSchema_knows env _ s).mono (acceptMany_le env _ between)
  have := fun e => visitSchema_again env _ s hk (e := e)
  refine ⟨?_, ?_, ?_⟩
  · intro e es he
    exact this _ (by simp [firstDuplicate, he, Extension.known])
  · intro he t ts ht
    exact this _ (by simp [firstDuplicate, he, ht])
  · intro he ht a as ha
    exact this _ (by simp [firstDuplicate, he, ht, ha])

namespace Sample

def plainTable (n : Str) (fks : List ForeignKey) : Table :=
  ⟨n, some [⟨"id".toList, C.colInt, none⟩], none, some fks⟩

/-- One table. -/
def first : Schema := ⟨[], "a".toList, some [plainTable "t".toList []], none, none⟩

/-- Another table, with a foreign key to a table that the schema does not have. -/
def second : Schema := ⟨[], "b".toList,
  some [plainTable "u".toList [⟨some ["id".toList], some ["id".toList], "t".toList, none⟩]], none, none⟩

end Sample

/-- C46, why it matters: a validator that was used before may accept a schema
that is not valid (here one with a foreign key to a table of an earlier schema),
whatever the external parsers do. -/
theorem C46_reuse_unsound (env : Env) :
    (accept env (acceptMany env Ctx.new [.schema Sample.first]) (.schema Sample.second)).2 = none ∧
    ¬ ValidSchema env Sample.second := by
  refine ⟨?_, ?_⟩
  · rw [show (accept env (acceptMany env Ctx.new [.schema Sample.first]) (.schema Sample.second)).2 =
      (accept Sample.env (acceptMany Sample.env Ctx.new [.schema Sample.first]) (.schema Sample.second)).2 from rfl]
    decide +kernel
  · intro h
    have := (validate_none env Sample.second).2 h
    rw [show validate env Sample.second = validate Sample.env Sample.second from rfl] at this
    revert this
    decide +kernel

/-! Concrete cases. -/

/-- A table, an index of it, and a foreign key, after other use. -/
example : (accept Sample.env (acceptMany Sample.env Ctx.new [.schema Sample.schema]) (.table Sample.users)).2 = none := by
  decide +kernel

example : ValidTable Sample.users :=
  ((C57_parts_partial Sample.env Ctx.new).2.2.1 Sample.users).1 (by decide +kernel)

example : (accept Sample.env Ctx.new (.column ⟨"c".toList, C.colText, some [⟨C.attrMin, some "1".toList⟩]⟩)).2 =
    some (.err (Sent.attributeNotAllow.with "text(min)".toList)) := by decide +kernel

example : (accept Sample.env (accept Sample.env Ctx.new (.table Sample.users)).1
    (.index ⟨"i".toList, some ["nope".toList], C.idxBtree⟩)).2 =
    some (.err (Sent.columnNotFound.with "index(current/nope)".toList)) := by decide +kernel

end Verif
