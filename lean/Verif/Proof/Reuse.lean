import Verif.Proof.Validator
/-!
# Using a validator again

What a validator has seen it never forgets.
-/

namespace Verif

/-- `c'` knows at least the declarations that `c` knows. -/
structure Ctx.Le (c c' : Ctx) : Prop where
  exts : ∀ x ∈ c.exts, x ∈ c'.exts
  tables : ∀ x ∈ c.tables.map (·.1), x ∈ c'.tables.map (·.1)
  actions : ∀ x ∈ c.actions.map (·.1), x ∈ c'.actions.map (·.1)

theorem Ctx.Le.refl (c : Ctx) : Ctx.Le c c := ⟨fun _ h => h, fun _ h => h, fun _ h => h⟩

theorem Ctx.Le.trans {a b c : Ctx} (h : Ctx.Le a b) (h' : Ctx.Le b c) : Ctx.Le a c :=
  ⟨fun x hx => h'.exts x (h.exts x hx), fun x hx => h'.tables x (h.tables x hx),
   fun x hx => h'.actions x (h.actions x hx)⟩

theorem visitExts_le (m : List Str) (es : List Extension) : ∀ x ∈ m, x ∈ (visitExts m es).1 := by
  induction es generalizing m with
  | nil => simp [visitExts]
  | cons e es ih =>
    intro x hx
    unfold visitExts
    by_cases h : e.known ∈ m
    · simp [h, hx]
    · simp only [List.contains_iff_mem, h, if_false]
      exact ih _ x (by simp [hx])

theorem visitExts_head (m : List Str) (e : Extension) (es : List Extension) :
    e.known ∈ (visitExts m (e :: es)).1 := by
  unfold visitExts
  by_cases h : e.known ∈ m
  · simpa [h] using h
  · simp only [List.contains_iff_mem, h, if_false]
    exact visitExts_le _ _ _ (by simp)

theorem visitTables_le (c : Ctx) (ts : List Table) : Ctx.Le c (visitTables c ts).1 := by
  induction ts generalizing c with
  | nil => exact .refl c
  | cons t ts ih =>
    unfold visitTables
    by_cases hk : hasKey c.tables t.name = true
    · rw [if_pos hk]; exact .refl c
    · rw [if_neg hk]
      obtain ⟨m, hm⟩ := visitTableV_keeps { c with current := t.name } t
      cases hr : visitTableV { c with current := t.name } t with
      | mk c' e =>
        rw [hr] at hm
        simp only at hm
        subst hm
        have hle : Ctx.Le c ⟨c.tables ++ [(t.name, m)], c.actions, c.exts, t.name⟩ :=
          ⟨fun _ h => h, fun x h => by simp at h ⊢; exact .inl h, fun _ h => h⟩
        cases e with
        | some e => exact hle
        | none => exact hle.trans (ih _)

theorem visitTables_head (c : Ctx) (t : Table) (ts : List Table) :
    t.name ∈ (visitTables c (t :: ts)).1.tables.map (·.1) := by
  unfold visitTables
  by_cases hk : hasKey c.tables t.name = true
  · rw [if_pos hk]; exact (hasKey_iff _ _).1 hk
  · rw [if_neg hk]
    obtain ⟨m, hm⟩ := visitTableV_keeps { c with current := t.name } t
    cases hr : visitTableV { c with current := t.name } t with
    | mk c' e =>
      rw [hr] at hm
      simp only at hm
      subst hm
      cases e with
      | some e => simp
      | none => exact (visitTables_le _ _).tables _ (by simp)

theorem visitActionDecls_le (c : Ctx) (as : List Action) :
    Ctx.Le c (visitActionDecls c as).1 := by
  induction as generalizing c with
  | nil => exact .refl c
  | cons a as ih =>
    unfold visitActionDecls
    by_cases hk : hasKey c.actions a.name = true
    · rw [if_pos hk]; exact .refl c
    · rw [if_neg hk]
      unfold visitActionV
      cases hr : visitParams [] a.inputs.elems with
      | mk m e =>
        have hle : Ctx.Le c ⟨c.tables, c.actions ++ [(a.name, m)], c.exts, a.name⟩ :=
          ⟨fun _ h => h, fun _ h => h, fun x h => by simp at h ⊢; exact .inl h⟩
        cases e with
        | some e => exact hle
        | none => exact hle.trans (ih _)

theorem visitActionDecls_head (c : Ctx) (a : Action) (as : List Action) :
    a.name ∈ (visitActionDecls c (a :: as)).1.actions.map (·.1) := by
  unfold visitActionDecls
  by_cases hk : hasKey c.actions a.name = true
  · rw [if_pos hk]; exact (hasKey_iff _ _).1 hk
  · rw [if_neg hk]
    unfold visitActionV
    cases hr : visitParams [] a.inputs.elems with
    | mk m e =>
      cases e with
      | some e => simp
      | none => exact (visitActionDecls_le _ _).actions _ (by simp)

/-- Validation only adds to what the validator knows. -/
theorem visitSchema_le (env : Env) (c : Ctx) (s : Schema) : Ctx.Le c (visitSchema env c s).1 := by
  unfold visitSchema
  have hx := visitExts_le c.exts s.extensions.elems
  cases h₁ : visitExts c.exts s.extensions.elems with
  | mk x e =>
    rw [h₁] at hx
    have hle : Ctx.Le c { c with exts := x } := ⟨hx, fun _ h => h, fun _ h => h⟩
    cases e with
    | some e => exact hle
    | none =>
      simp only
      have ht := visitTables_le { c with exts := x } s.tables.elems
      cases h₂ : visitTables { c with exts := x } s.tables.elems with
      | mk c₁ e =>
        rw [h₂] at ht
        cases e with
        | some e => exact hle.trans ht
        | none =>
          simp only
          have ha := visitActionDecls_le c₁ s.actions.elems
          cases h₃ : visitActionDecls c₁ s.actions.elems with
          | mk c₂ e =>
            rw [h₃] at ha
            cases e with
            | some e => exact (hle.trans ht).trans ha
            | none =>
              simp only
              cases checkAllFKs c₂ s.tables.elems <;> exact (hle.trans ht).trans ha

/-- The name of the first declaration is known afterwards. -/
def Knows (c : Ctx) (s : Schema) : Prop :=
  match s.extensions.elems, s.tables.elems, s.actions.elems with
  | e :: _, _, _ => e.known ∈ c.exts
  | [], t :: _, _ => t.name ∈ c.tables.map (·.1)
  | [], [], a :: _ => a.name ∈ c.actions.map (·.1)
  | [], [], [] => True

theorem Knows.mono {c c' : Ctx} {s : Schema} (h : Knows c s) (hle : Ctx.Le c c') : Knows c' s := by
  unfold Knows at h ⊢
  cases hx : s.extensions.elems with
  | cons e es => rw [hx] at h; exact hle.exts _ h
  | nil =>
    rw [hx] at h
    cases ht : s.tables.elems with
    | cons t ts => rw [ht] at h; exact hle.tables _ h
    | nil =>
      rw [ht] at h
      cases ha : s.actions.elems with
      | cons a as => rw [ha] at h; exact hle.actions _ h
      | nil => trivial

theorem visitSchema_knows (env : Env) (c : Ctx) (s : Schema) :
    Knows (visitSchema env c s).1 s := by
  unfold Knows visitSchema
  cases hx : s.extensions.elems with
  | cons e es =>
    have hh := visitExts_head c.exts e es
    simp only
    cases h₁ : visitExts c.exts (e :: es) with
    | mk x r =>
      rw [h₁] at hh
      cases r with
      | some r => exact hh
      | none =>
        simp only
        have ht := visitTables_le { c with exts := x } s.tables.elems
        cases h₂ : visitTables { c with exts := x } s.tables.elems with
        | mk c₁ r =>
          rw [h₂] at ht
          cases r with
          | some r => exact ht.exts _ hh
          | none =>
            simp only
            have ha := visitActionDecls_le c₁ s.actions.elems
            cases h₃ : visitActionDecls c₁ s.actions.elems with
            | mk c₂ r =>
              rw [h₃] at ha
              cases r with
              | some r => exact ha.exts _ (ht.exts _ hh)
              | none =>
                simp only
                cases checkAllFKs c₂ s.tables.elems <;> exact ha.exts _ (ht.exts _ hh)
  | nil =>
    simp only [visitExts]
    cases ht : s.tables.elems with
    | cons t ts =>
      simp only
      have hh := visitTables_head c t ts
      cases h₂ : visitTables c (t :: ts) with
      | mk c₁ r =>
        rw [h₂] at hh
        cases r with
        | some r => exact hh
        | none =>
          simp only
          have ha := visitActionDecls_le c₁ s.actions.elems
          cases h₃ : visitActionDecls c₁ s.actions.elems with
          | mk c₂ r =>
            rw [h₃] at ha
            cases r with
            | some r => exact ha.tables _ hh
            | none =>
              simp only
              cases checkAllFKs c₂ (t :: ts) <;> exact ha.tables _ hh
    | nil =>
      simp only [visitTables]
      cases ha : s.actions.elems with
      | nil => trivial
      | cons a as =>
        simp only
        have hh := visitActionDecls_head c a as
        cases h₃ : visitActionDecls c (a :: as) with
        | mk c₂ r =>
          rw [h₃] at hh
          cases r with
          | some r => exact hh
          | none =>
            simp only [checkAllFKs]
            exact hh

/-- The error for declaring the first declaration of a schema again. -/
def firstDuplicate (s : Schema) : Option Err :=
  match s.extensions.elems, s.tables.elems, s.actions.elems with
  | e :: _, _, _ => some (Sent.duplicateExtension.with e.known)
  | [], t :: _, _ => some (Sent.duplicateTable.with t.name)
  | [], [], a :: _ => some (Sent.duplicateAction.with a.name)
  | [], [], [] => none

theorem visitSchema_again (env : Env) (c : Ctx) (s : Schema) (hk : Knows c s) {e : Err}
    (he : firstDuplicate s = some e) : (visitSchema env c s).2 = some (.err e) := by
  unfold Knows at hk
  unfold firstDuplicate at he
  unfold visitSchema
  cases hx : s.extensions.elems with
  | cons x es =>
    rw [hx] at hk he
    simp only [Option.some.injEq] at hk he
    subst he
    simp [visitExts, hk]
  | nil =>
    rw [hx] at hk he
    simp only [visitExts]
    cases ht : s.tables.elems with
    | cons t ts =>
      rw [ht] at hk he
      simp only [Option.some.injEq] at hk he
      subst he
      simp [visitTables, (hasKey_iff _ _).2 hk]
    | nil =>
      rw [ht] at hk he
      simp only [visitTables]
      cases ha : s.actions.elems with
      | nil => rw [ha] at he; simp at he
      | cons a as =>
        rw [ha] at hk he
        simp only [Option.some.injEq] at hk he
        subst he
        simp [visitActionDecls, (hasKey_iff _ _).2 hk]

/-- The validator after validating several schemas one after the other. -/
def validateMany (env : Env) (c : Ctx) (history : List Schema) : Ctx :=
  history.foldl (fun c s => (visitSchema env c s).1) c

theorem validateMany_le (env : Env) (c : Ctx) (history : List Schema) :
    Ctx.Le c (validateMany env c history) := by
  induction history generalizing c with
  | nil => exact .refl c
  | cons s h ih => exact (visitSchema_le env c s).trans (ih _)

theorem validateMany_knows (env : Env) (c : Ctx) (history : List Schema) (s : Schema)
    (h : s ∈ history) : Knows (validateMany env c history) s := by
  induction history generalizing c with
  | nil => simp at h
  | cons s' hs ih =>
    rcases List.mem_cons.1 h with rfl | h
    · exact (visitSchema_knows env c s).mono (validateMany_le env _ hs)
    · exact ih _ h

end Verif
