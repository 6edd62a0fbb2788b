import Verif.Spec.Rules
import Verif.Proof.Validator
/-!
# The validator reports the first broken rule
-/

namespace Verif

open Classical in
/-- The complaint about the first broken rule. -/
noncomputable def report : List Check → Option Fail
  | [] => none
  | r :: rs => if r.holds then report rs else some r.complaint

@[simp] theorem report_nil : report [] = none := rfl

theorem report_pos {r : Check} {rs : List Check} (h : r.holds) : report (r :: rs) = report rs := by
  simp [report, h]

theorem report_neg {r : Check} {rs : List Check} (h : ¬ r.holds) :
    report (r :: rs) = some r.complaint := by
  simp [report, h]

theorem report_append (a b : List Check) : report (a ++ b) = (report a).or (report b) := by
  induction a with
  | nil => simp
  | cons r a ih =>
    by_cases h : r.holds
    · rw [List.cons_append, report_pos h, report_pos h, ih]
    · rw [List.cons_append, report_neg h, report_neg h]; rfl

theorem report_none {l : List Check} : report l = none ↔ ∀ r ∈ l, r.holds := by
  induction l with
  | nil => simp
  | cons r l ih =>
    by_cases h : r.holds
    · rw [report_pos h, ih]; simp [h]
    · rw [report_neg h]; simp [h]

theorem report_some {l : List Check} {f : Fail} : report l = some f ↔ FirstBroken l f := by
  induction l with
  | nil =>
    simp only [report_nil, reduceCtorEq, false_iff]
    rintro ⟨b, r, a, h, _⟩
    simp at h
  | cons r l ih =>
    by_cases h : r.holds
    · rw [report_pos h, ih]
      constructor
      · rintro ⟨b, x, a, rfl, hb, hx, rfl⟩
        exact ⟨r :: b, x, a, rfl, by simpa [h] using hb, hx, rfl⟩
      · rintro ⟨b, x, a, he, hb, hx, rfl⟩
        cases b with
        | nil =>
          simp only [List.nil_append, List.cons.injEq] at he
          exact (hx (he.1 ▸ h)).elim
        | cons y b =>
          simp only [List.cons_append, List.cons.injEq] at he
          exact ⟨b, x, a, he.2, fun z hz => hb z (by simp [hz]), hx, rfl⟩
    · rw [report_neg h]
      constructor
      · intro hf
        exact ⟨[], r, l, rfl, by simp, h, by simpa using hf.symm⟩
      · rintro ⟨b, x, a, he, hb, hx, rfl⟩
        cases b with
        | nil =>
          simp only [List.nil_append, List.cons.injEq] at he
          rw [he.1]
        | cons y b =>
          simp only [List.cons_append, List.cons.injEq] at he
          exact (h (he.1 ▸ hb y (by simp))).elim

/-! ### Lists without repetition -/

/-- The rules of `distinct` from a point on. -/
def distinctFrom (k : Sent) (m l : List Str) : List Check :=
  (splits m l).map fun (before, x) => ⟨x ∉ before, .err (k.with x)⟩

theorem distinctFrom_cons (k : Sent) (m : List Str) (x : Str) (l : List Str) :
    distinctFrom k m (x :: l) = ⟨x ∉ m, .err (k.with x)⟩ :: distinctFrom k (m ++ [x]) l := rfl

theorem report_exts (m : List Str) (es : List Extension) :
    (visitExts m es).2.map Fail.err = report (distinctFrom .duplicateExtension m (es.map Extension.known)) := by
  induction es generalizing m with
  | nil => rfl
  | cons e es ih =>
    unfold visitExts
    rw [List.map_cons, distinctFrom_cons]
    by_cases h : e.known ∈ m
    · rw [if_pos (by simpa using h), report_neg (by simpa using h)]; rfl
    · rw [if_neg (by simpa using h), report_pos h, ih]

theorem report_params (m : List Str) (es : List Str) :
    (visitParams m es).2.map Fail.err = report (distinctFrom .duplicateParam m es) := by
  induction es generalizing m with
  | nil => rfl
  | cons e es ih =>
    unfold visitParams
    rw [distinctFrom_cons]
    by_cases h : e ∈ m
    · rw [if_pos (by simpa using h), report_neg (by simpa using h)]; rfl
    · rw [if_neg (by simpa using h), report_pos h, ih]

theorem report_events (m : List Str) (es : List FKAction) :
    (checkFKActions m es).map Fail.err = report (distinctFrom .dupFKAction m (es.map (·.on))) := by
  induction es generalizing m with
  | nil => rfl
  | cons e es ih =>
    unfold checkFKActions
    rw [List.map_cons, distinctFrom_cons]
    by_cases h : e.on ∈ m
    · rw [if_pos (by simpa using h), report_neg (by simpa using h)]; rfl
    · rw [if_neg (by simpa using h), report_pos h, ih]

theorem report_receivers (m l rs : List Str) :
    (match addReceivers m l rs with | .error e => some (Fail.err e) | .ok _ => none) =
      report (distinctFrom .duplicateVariable m rs) := by
  induction rs generalizing m l with
  | nil => rfl
  | cons e es ih =>
    unfold addReceivers
    rw [distinctFrom_cons]
    by_cases h : e ∈ m
    · rw [if_pos (by simpa using h), report_neg (by simpa using h)]
    · rw [if_neg (by simpa using h), report_pos h, ih]

/-! ### Tables -/

theorem report_attrs (ty : Str) (b as : List Attribute) :
    (checkAttrs ty (b.map (·.type)) as).map Fail.err =
      report ((splits b as).flatMap fun (before, a) =>
        [⟨a.type ∉ before.map (·.type), .err (Sent.duplicateAttribute.with a.type)⟩,
         ⟨¬ Misfit ty a.type,
          .err (Sent.attributeNotAllow.with (ty ++ "(".toList ++ a.type ++ ")".toList))⟩]) := by
  induction as generalizing b with
  | nil => rfl
  | cons a as ih =>
    unfold checkAttrs
    simp only [splits, List.flatMap_cons, List.cons_append, List.nil_append]
    by_cases h : a.type ∈ b.map (·.type)
    · rw [if_pos (by simpa using h), report_neg (not_not_intro h)]; rfl
    · rw [if_neg (by simpa using h), report_pos h]
      by_cases hm : Misfit ty a.type
      · rw [report_neg (not_not_intro hm)]
        rw [misfit_iff] at hm
        rcases hm with hm | hm
        · rw [if_pos hm]; rfl
        · have : ¬ (ty = C.colInt ∧ (a.type = C.attrMinLength ∨ a.type = C.attrMaxLength)) := by
            rintro ⟨h1, _⟩
            rw [h1] at hm
            exact absurd hm.1 (by decide)
          rw [if_neg this, if_pos hm]; rfl
      · rw [report_pos hm]
        rw [misfit_iff, not_or] at hm
        rw [if_neg hm.1, if_neg hm.2]
        rw [← ih]
        simp

theorem report_column (c : Column) :
    (checkAttrs c.type [] c.attributes.elems).map Fail.err = report c.rules :=
  report_attrs c.type [] c.attributes.elems

theorem report_cols (b cs : List Column) :
    (visitCols (b.map (·.name)) cs).2.map Fail.err =
      report ((splits b cs).flatMap fun (before, c) =>
        ⟨c.name ∉ before.map (·.name), .err (Sent.duplicateColumn.with c.name)⟩ :: c.rules) := by
  induction cs generalizing b with
  | nil => rfl
  | cons c cs ih =>
    unfold visitCols
    simp only [splits, List.flatMap_cons, List.cons_append]
    by_cases h : c.name ∈ b.map (·.name)
    · rw [if_pos (by simpa using h), report_neg (not_not_intro h)]; rfl
    · rw [if_neg (by simpa using h), report_pos h, report_append, ← report_column]
      cases hc : checkAttrs c.type [] c.attributes.elems with
      | some e => rfl
      | none =>
        simp only [Option.map_none, Option.none_or]
        rw [← ih]
        simp

theorem report_indexCols (cur : Str) (m cols : List Str) :
    (checkIndexCols cur m cols).map Fail.err = report (cols.map fun c => ⟨c ∈ m,
      .err (Sent.columnNotFound.with ("index(".toList ++ cur ++ "/".toList ++ c ++ ")".toList))⟩) := by
  induction cols with
  | nil => rfl
  | cons c cols ih =>
    unfold checkIndexCols
    rw [List.map_cons]
    by_cases h : c ∈ m
    · rw [if_pos (by simpa using h), report_pos h, ih]
    · rw [if_neg (by simpa using h), report_neg h]; rfl

theorem report_idxs (cur : Str) (m : List Str) (b is : List Index) :
    (visitIdxs cur (m ++ b.map (·.name)) is).2.map Fail.err =
      report ((splits b is).flatMap fun (before, i) =>
        ⟨i.name ∉ m ++ before.map (·.name), .err (Sent.duplicateIndex.with i.name)⟩ ::
        i.columns.elems.map fun c =>
          ⟨c ∈ m ++ before.map (·.name) ++ [i.name],
           .err (Sent.columnNotFound.with ("index(".toList ++ cur ++ "/".toList ++ c ++ ")".toList))⟩) := by
  induction is generalizing b with
  | nil => rfl
  | cons i is ih =>
    unfold visitIdxs
    simp only [splits, List.flatMap_cons, List.cons_append]
    by_cases h : i.name ∈ m ++ b.map (·.name)
    · rw [if_pos (by simpa using h), report_neg (not_not_intro h)]; rfl
    · rw [if_neg (by simpa using h), report_pos h, report_append, ← report_indexCols]
      cases hc : checkIndexCols cur (m ++ b.map (·.name) ++ [i.name]) i.columns.elems with
      | some e => rfl
      | none =>
        simp only [Option.map_none, Option.none_or]
        rw [← ih]
        simp

theorem report_table (c : Ctx) (t : Table) (hc : c.current = t.name) :
    (visitTableV c t).2.map Fail.err = report t.rules := by
  unfold visitTableV Table.rules eachAfter
  rw [report_append, ← report_cols []]
  have h₂ := visitCols_fst [] t.columns.elems
  rw [List.map_nil]
  cases hv : visitCols [] t.columns.elems with
  | mk m e =>
    rw [hv] at h₂
    cases e with
    | some e => rfl
    | none =>
      obtain rfl := h₂ rfl
      simp only [Option.map_none, Option.none_or]
      have := report_idxs t.name t.columnNames [] t.indexes.elems
      rw [← this, hc]
      simp only [List.map_nil, List.append_nil, List.nil_append]
      rfl

theorem report_tables (c : Ctx) (b ts : List Table) (hb : c.tables.map (·.1) = b.map (·.name)) :
    (visitTables c ts).2.map Fail.err =
      report ((splits b ts).flatMap fun (before, t) =>
        ⟨t.name ∉ before.map (·.name), .err (Sent.duplicateTable.with t.name)⟩ :: t.rules) := by
  induction ts generalizing c b with
  | nil => rfl
  | cons t ts ih =>
    unfold visitTables
    simp only [splits, List.flatMap_cons, List.cons_append]
    by_cases h : t.name ∈ b.map (·.name)
    · rw [if_pos ((hasKey_iff _ _).2 (hb ▸ h)), report_neg (not_not_intro h)]; rfl
    · rw [if_neg (by rw [hasKey_iff, hb]; exact h), report_pos h, report_append,
        ← report_table { c with current := t.name } t rfl]
      have hk := visitTableV_keeps { c with current := t.name } t
      cases hv : visitTableV { c with current := t.name } t with
      | mk c' e =>
        cases e with
        | some e => rfl
        | none =>
          simp only [Option.map_none, Option.none_or]
          rw [hv] at hk
          obtain ⟨m, hm⟩ := hk
          simp only at hm
          refine ih c' (b ++ [t]) ?_
          rw [hm]; simp [hb]

theorem report_actionDecls (c : Ctx) (b as : List Action) (hb : c.actions.map (·.1) = b.map (·.name)) :
    (visitActionDecls c as).2.map Fail.err =
      report ((splits b as).flatMap fun (before, a) =>
        ⟨a.name ∉ before.map (·.name), .err (Sent.duplicateAction.with a.name)⟩ ::
        distinct .duplicateParam a.inputs.elems) := by
  induction as generalizing c b with
  | nil => rfl
  | cons a as ih =>
    unfold visitActionDecls
    simp only [splits, List.flatMap_cons, List.cons_append]
    by_cases h : a.name ∈ b.map (·.name)
    · rw [if_pos ((hasKey_iff _ _).2 (hb ▸ h)), report_neg (not_not_intro h)]; rfl
    · rw [if_neg (by rw [hasKey_iff, hb]; exact h), report_pos h, report_append,
        show distinct .duplicateParam a.inputs.elems = distinctFrom .duplicateParam [] a.inputs.elems from rfl,
        ← report_params]
      unfold visitActionV
      cases hv : visitParams [] a.inputs.elems with
      | mk m e =>
        cases e with
        | some e => rfl
        | none =>
          simp only [Option.map_none, Option.none_or]
          refine ih _ (b ++ [a]) ?_
          simp [hb]

/-! ### Foreign keys -/

theorem report_childKeys (c : Ctx) (t : Str) (cols : List Str) :
    (checkChildKeys c t cols).map Fail.err = report (cols.map fun col => ⟨col ∈ lookupD c.tables t,
      .err (Sent.columnNotFound.with ("fk(".toList ++ t ++ "/".toList ++ col ++ ")".toList))⟩) := by
  induction cols with
  | nil => rfl
  | cons x cols ih =>
    unfold checkChildKeys
    rw [List.map_cons]
    by_cases h : x ∈ lookupD c.tables t
    · rw [if_pos (by simpa using h), report_pos h, ih]
    · rw [if_neg (by simpa using h), report_neg h]; rfl

theorem report_parentKeys (c : Ctx) (t : Str) (cols : List Str) :
    (checkParentKeys c t cols).map Fail.err = report (cols.map fun col => ⟨col ∈ lookupD c.tables t,
      .err (Sent.columnNotFound.with ("ref(".toList ++ t ++ "->".toList ++ col ++ ")".toList))⟩) := by
  induction cols with
  | nil => rfl
  | cons x cols ih =>
    unfold checkParentKeys
    rw [List.map_cons]
    by_cases h : x ∈ lookupD c.tables t
    · rw [if_pos (by simpa using h), report_pos h, ih]
    · rw [if_neg (by simpa using h), report_neg h]; rfl

theorem report_foreignKey {c : Ctx} {s : Schema} (d : Declared c s) {t : Table}
    (ht : t ∈ s.tables.elems) (f : ForeignKey) :
    ((checkChildKeys c t.name f.childKeys.elems).or (checkForeignKey c f)).map Fail.err =
      report (f.rules s t) := by
  unfold ForeignKey.rules
  rw [List.append_assoc, report_append]
  have h1 := report_childKeys c t.name f.childKeys.elems
  rw [d.lookup ht] at h1
  rw [← h1]
  cases checkChildKeys c t.name f.childKeys.elems with
  | some e => rfl
  | none =>
    simp only [Option.map_none, Option.none_or, List.cons_append]
    unfold checkForeignKey
    by_cases h : f.parentTable ∈ s.tableNames
    · rw [if_pos ((hasKey_iff _ _).2 (d.keys ▸ h)), report_pos h, report_append]
      obtain ⟨p, hp, hpn⟩ := List.mem_map.1 h
      have hl := d.lookup hp
      rw [hpn] at hl
      have h2 := report_parentKeys c f.parentTable f.parentKeys.elems
      rw [hl] at h2
      have he : (f.parentKeys.elems.map fun c => (⟨∃ p ∈ s.tables.elems, p.name = f.parentTable ∧
            c ∈ p.columnNames ++ p.indexNames, .err (Sent.columnNotFound.with
              ("ref(".toList ++ f.parentTable ++ "->".toList ++ c ++ ")".toList))⟩ : Check)) =
          f.parentKeys.elems.map fun c => ⟨c ∈ p.columnNames ++ p.indexNames,
            .err (Sent.columnNotFound.with
              ("ref(".toList ++ f.parentTable ++ "->".toList ++ c ++ ")".toList))⟩ := by
        apply List.map_congr_left
        intro x _
        congr 1
        apply propext
        constructor
        · rintro ⟨q, hq, hqn, hx⟩
          have : q = p := nodup_map_inj d.tnodup hq hp (hqn.trans hpn.symm)
          exact this ▸ hx
        · intro hx; exact ⟨p, hp, hpn, hx⟩
      rw [he, ← h2]
      cases checkParentKeys c f.parentTable f.parentKeys.elems with
      | some e => rfl
      | none =>
        simp only [Option.map_none, Option.none_or]
        exact report_events [] f.actions.elems
    · rw [if_neg (by rw [hasKey_iff, d.keys]; exact h), report_neg h]; rfl

theorem report_fks {c : Ctx} {s : Schema} (d : Declared c s) {t : Table}
    (ht : t ∈ s.tables.elems) (fks : List ForeignKey) :
    (checkFKs c t.name fks).map Fail.err = report (fks.flatMap (·.rules s t)) := by
  induction fks with
  | nil => rfl
  | cons f fks ih =>
    unfold checkFKs
    rw [List.flatMap_cons, report_append, ← report_foreignKey d ht f, ← ih]
    cases checkChildKeys c t.name f.childKeys.elems with
    | some e => rfl
    | none => cases checkForeignKey c f <;> rfl

theorem report_allFKs {c : Ctx} {s : Schema} (d : Declared c s) (ts : List Table)
    (hsub : ∀ t ∈ ts, t ∈ s.tables.elems) :
    (checkAllFKs c ts).map Fail.err =
      report (ts.flatMap fun t => t.foreignKeys.elems.flatMap (·.rules s t)) := by
  induction ts with
  | nil => rfl
  | cons t ts ih =>
    unfold checkAllFKs
    rw [List.flatMap_cons, report_append, ← report_fks d (hsub t (by simp)),
      ← ih fun t' h' => hsub t' (by simp [h'])]
    cases checkFKs c t.name t.foreignKeys.elems <;> rfl

/-! ### Statements -/

theorem report_args (ps l : List Str) (hsub : ∀ p ∈ ps, p ∈ l) (as : List Arg) :
    (checkArgs ps l as).map Fail.err = report (argRules l as) := by
  induction as with
  | nil => rfl
  | cons a as ih =>
    unfold checkArgs
    have h := checkArg_none ps l hsub a
    have h' := fun e => checkArg_some ps l a (err := e)
    rw [argRules, List.flatMap_cons, report_append]
    rw [argRules] at ih
    rw [← ih]
    cases a with
    | other vs => rfl
    | bind v pr =>
      simp only [Arg.topVars, List.mem_singleton, forall_eq] at h
      cases hc : checkArg ps l (.bind v pr) with
      | some e =>
        obtain ⟨p, pr', he, hv, rfl⟩ := h' e hc
        cases he
        simp only
        rw [report_neg hv]; rfl
      | none =>
        simp only
        rw [report_pos (h.1 hc)]; rfl

theorem report_stmt {env : Env} {c : Ctx} {s : Schema} (d : Declared c s) {a : Action}
    (ha : a ∈ s.actions.elems) (l : List Str) (hsub : ∀ p ∈ a.inputs.elems, p ∈ l) (stmt : Str) :
    (match checkStmt env c a.name l stmt with | .error f => some f | .ok _ => none) =
      report (stmtRules env s l stmt) := by
  have hla : lookupD c.actions a.name = a.inputs.elems := by
    rw [d.actions]
    refine lookup_of_mem ?_ (List.mem_map.2 ⟨a, ha, rfl⟩)
    rw [List.map_map]
    exact d.anodup
  unfold checkStmt stmtRules
  cases env.actParse stmt with
  | error f =>
    cases f <;> simp only <;> rw [report_neg (by simp)]
  | ok p =>
    cases p with
    | unknown => rfl
    | dml =>
      simp only
      cases env.sqlCheck stmt with
      | none => rfl
      | some f => cases f <;> simp only <;> rw [report_neg (by simp)]
    | actionCall m args =>
      simp only
      by_cases h : m ∈ s.actionNames
      · rw [if_pos ((hasKey_iff _ _).2 (d.akeys ▸ h)), report_pos h, hla,
          ← report_args _ _ hsub]
        cases checkArgs a.inputs.elems l args <;> rfl
      · rw [if_neg (by rw [hasKey_iff, d.akeys]; exact h), report_neg h]
    | extCall e args rs =>
      simp only [List.cons_append]
      by_cases h : e ∈ s.extNames
      · rw [if_pos (by rw [d.exts]; simpa using h), report_pos h, hla, report_append,
          ← report_args _ _ hsub]
        cases checkArgs a.inputs.elems l args with
        | some e => rfl
        | none =>
          simp only [Option.map_none, Option.none_or]
          rw [show distinct .duplicateVariable rs = distinctFrom .duplicateVariable [] rs from rfl,
            ← report_receivers [] l]
          cases addReceivers [] l rs <;> rfl
      · rw [if_neg (by rw [d.exts]; simpa using h), report_neg h]

theorem report_stmts {env : Env} {c : Ctx} {s : Schema} (d : Declared c s) {a : Action}
    (ha : a ∈ s.actions.elems) (done ss : List Str) :
    checkStmts env c a.name (definedBefore env a done) ss =
      report ((splits done ss).flatMap fun (before, stmt) =>
        stmtRules env s (definedBefore env a before) stmt) := by
  induction ss generalizing done with
  | nil => rfl
  | cons st ss ih =>
    unfold checkStmts
    have hsub : ∀ p ∈ a.inputs.elems, p ∈ definedBefore env a done := by
      intro p hp; simp [definedBefore, hp]
    simp only [splits, List.flatMap_cons]
    rw [report_append, ← report_stmt d ha _ hsub]
    have hok := checkStmt_ok (env := env) d ha (definedBefore env a done) hsub st
    cases hc : checkStmt env c a.name (definedBefore env a done) st with
    | error f => rfl
    | ok l =>
      have := ((hok l).1 hc).2
      subst this
      simp only [Option.none_or]
      rw [← ih]
      simp [definedBefore]

theorem report_bodies {env : Env} {c : Ctx} {s : Schema} (d : Declared c s) (as : List Action)
    (hsub : ∀ a ∈ as, a ∈ s.actions.elems) :
    checkBodies env c as = report (as.flatMap fun a =>
      (eachAfter a.statements.elems).flatMap fun (before, stmt) =>
        stmtRules env s (definedBefore env a before) stmt) := by
  induction as with
  | nil => rfl
  | cons a as ih =>
    unfold checkBodies
    have h := report_stmts (env := env) d (hsub a (by simp)) [] a.statements.elems
    have hd : definedBefore env a [] = a.inputs.elems := by simp [definedBefore]
    rw [hd] at h
    rw [h, List.flatMap_cons, report_append, ih fun t' h' => hsub t' (by simp [h'])]
    unfold eachAfter
    cases report _ <;> rfl

/-- The validator reports the first broken rule. -/
theorem validate_report (env : Env) (s : Schema) : validate env s = report (s.rules env) := by
  unfold validate visitSchema Schema.rules
  have hx := visitExts_none [] s.extensions.elems (by simp)
  have hxf := visitExts_fst [] s.extensions.elems
  have hxr := report_exts [] s.extensions.elems
  rw [show (Ctx.new.exts) = [] from rfl]
  cases h₁ : visitExts [] s.extensions.elems with
  | mk x e =>
    rw [h₁] at hx hxf hxr
    rw [List.nil_append, ← extNames_eq] at hx hxf
    rw [← extNames_eq] at hxr
    rw [report_append, report_append, report_append, report_append,
      show distinct .duplicateExtension s.extNames = distinctFrom .duplicateExtension [] s.extNames from rfl,
      ← hxr]
    cases e with
    | some e => rfl
    | none =>
      obtain rfl := hxf rfl
      simp only [Option.map_none, Option.none_or]
      have htn := visitTables_none { Ctx.new with exts := s.extNames } s.tables.elems (by simp [Ctx.new])
      have htf := visitTables_fst { Ctx.new with exts := s.extNames } s.tables.elems
      have htr := report_tables { Ctx.new with exts := s.extNames } [] s.tables.elems rfl
      cases h₂ : visitTables { Ctx.new with exts := s.extNames } s.tables.elems with
      | mk c₁ e =>
        rw [h₂] at htn htf htr
        rw [eachAfter, ← htr]
        cases e with
        | some e => rfl
        | none =>
          obtain ⟨ht₁, ht₂, ht₃⟩ := htf rfl
          have htn := (htn.1 rfl).1
          simp only [Option.map_none, Option.none_or] at ht₁ ht₂ ht₃ ⊢
          have hempty : c₁.actions.map (·.1) = [] := by rw [ht₂]; rfl
          have han := visitActionDecls_none c₁ s.actions.elems (by rw [hempty]; simp)
          have haf := visitActionDecls_fst c₁ s.actions.elems
          have har := report_actionDecls c₁ [] s.actions.elems hempty
          cases h₃ : visitActionDecls c₁ s.actions.elems with
          | mk c₂ e =>
            rw [h₃] at han haf har
            rw [eachAfter, ← har]
            cases e with
            | some e => rfl
            | none =>
              have han := (han.1 rfl).1
              have d : Declared c₂ s := by
                obtain ⟨a₁, a₂, a₃⟩ := haf rfl
                simp only at a₁ a₂ a₃
                refine ⟨?_, ?_, ?_, ?_, ?_⟩
                · first | rw [a₁, ht₁]; rfl | rw [a₂, ht₁]; rfl | rw [a₃, ht₁]; rfl
                · first | rw [a₁, ht₂]; rfl | rw [a₂, ht₂]; rfl
                · first | rw [a₃, ht₃] | rw [a₂, ht₃]
                · simpa [Ctx.new, Schema.tableNames] using htn
                · rw [hempty] at han; simpa [Schema.actionNames] using han
              simp only [Option.map_none, Option.none_or]
              rw [← report_allFKs d s.tables.elems fun _ h => h]
              cases checkAllFKs c₂ s.tables.elems with
              | some e => rfl
              | none =>
                simp only [Option.map_none, Option.none_or]
                exact report_bodies d s.actions.elems fun _ h => h

end Verif
