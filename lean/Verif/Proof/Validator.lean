import Verif.Spec.Validity
/-!
# The validator against the static rules
-/

namespace Verif

theorem nodup_snoc {m : List Str} {x : Str} (h : m.Nodup) (hx : x ∉ m) : (m ++ [x]).Nodup := by
  rw [List.nodup_append]
  refine ⟨h, by simp, ?_⟩
  intro a ha b hb
  simp at hb
  subst hb
  rintro rfl
  exact hx ha

theorem not_nodup_mid {m xs : List Str} {x : Str} (h : x ∈ m) : ¬ (m ++ x :: xs).Nodup := by
  rw [List.nodup_append]
  rintro ⟨_, _, h'⟩
  exact h' x h x (by simp) rfl

theorem twice_mid {m xs : List Str} {x : Str} (h : x ∈ m) : Twice x (m ++ x :: xs) := by
  unfold Twice
  rw [List.count_append, List.count_cons]
  have := List.count_pos_iff.2 h
  simp
  omega

theorem Twice.not_nodup {x : Str} {l : List Str} (h : Twice x l) : ¬ l.Nodup := by
  intro hn
  have := List.nodup_iff_count.1 hn x
  unfold Twice at h
  omega

theorem snoc_append {α : Type} (m : List α) (x : α) (xs : List α) :
    (m ++ [x]) ++ xs = m ++ x :: xs := by simp

/-- Distinct images: the elements are determined by them. -/
theorem nodup_map_inj {α : Type} {f : α → Str} {l : List α} (h : (l.map f).Nodup) {a b : α}
    (ha : a ∈ l) (hb : b ∈ l) (he : f a = f b) : a = b := by
  induction l with
  | nil => simp at ha
  | cons x l ih =>
    simp only [List.map_cons, List.nodup_cons] at h
    rcases List.mem_cons.1 ha with rfl | ha'
    · rcases List.mem_cons.1 hb with rfl | hb'
      · rfl
      · exact absurd (he ▸ List.mem_map.2 ⟨b, hb', rfl⟩) h.1
    · rcases List.mem_cons.1 hb with rfl | hb'
      · exact absurd (he ▸ List.mem_map.2 ⟨a, ha', rfl⟩) h.1
      · exact ih h.2 ha' hb'

/-! ## Extensions, parameters, events, receivers -/

theorem visitExts_none (m : List Str) (es : List Extension) (hm : m.Nodup) :
    (visitExts m es).2 = none ↔ (m ++ es.map Extension.known).Nodup := by
  induction es generalizing m with
  | nil => simpa [visitExts] using hm
  | cons e es ih =>
    unfold visitExts
    by_cases h : e.known ∈ m
    · simp [h, not_nodup_mid h]
    · simp only [List.contains_iff_mem, h, if_false, List.map_cons]
      rw [ih _ (nodup_snoc hm h), snoc_append]

theorem visitExts_fst (m : List Str) (es : List Extension) (h : (visitExts m es).2 = none) :
    (visitExts m es).1 = m ++ es.map Extension.known := by
  induction es generalizing m with
  | nil => simp [visitExts]
  | cons e es ih =>
    unfold visitExts at h ⊢
    by_cases hc : e.known ∈ m
    · simp [hc] at h
    · simp only [List.contains_iff_mem, hc, if_false, List.map_cons] at h ⊢
      rw [ih _ h, snoc_append]

theorem visitExts_some (m : List Str) (es : List Extension) {err : Err}
    (h : (visitExts m es).2 = some err) :
    ∃ n, Twice n (m ++ es.map Extension.known) ∧ err = Sent.duplicateExtension.with n := by
  induction es generalizing m with
  | nil => simp [visitExts] at h
  | cons e es ih =>
    unfold visitExts at h
    by_cases hc : e.known ∈ m
    · simp [hc] at h
      exact ⟨e.known, twice_mid hc, h.symm⟩
    · simp only [List.contains_iff_mem, hc, if_false] at h
      obtain ⟨n, hn, he⟩ := ih _ h
      rw [snoc_append] at hn
      exact ⟨n, hn, he⟩

theorem visitParams_none (m : List Str) (es : List Str) (hm : m.Nodup) :
    (visitParams m es).2 = none ↔ (m ++ es).Nodup := by
  induction es generalizing m with
  | nil => simpa [visitParams] using hm
  | cons e es ih =>
    unfold visitParams
    by_cases h : e ∈ m
    · simp [h, not_nodup_mid h]
    · simp only [List.contains_iff_mem, h, if_false]
      rw [ih _ (nodup_snoc hm h), snoc_append]

theorem visitParams_fst (m : List Str) (es : List Str) (h : (visitParams m es).2 = none) :
    (visitParams m es).1 = m ++ es := by
  induction es generalizing m with
  | nil => simp [visitParams]
  | cons e es ih =>
    unfold visitParams at h ⊢
    by_cases hc : e ∈ m
    · simp [hc] at h
    · simp only [List.contains_iff_mem, hc, if_false] at h ⊢
      rw [ih _ h, snoc_append]

theorem visitParams_some (m : List Str) (es : List Str) {err : Err}
    (h : (visitParams m es).2 = some err) :
    ∃ n, Twice n (m ++ es) ∧ err = Sent.duplicateParam.with n := by
  induction es generalizing m with
  | nil => simp [visitParams] at h
  | cons e es ih =>
    unfold visitParams at h
    by_cases hc : e ∈ m
    · simp [hc] at h
      exact ⟨e, twice_mid hc, h.symm⟩
    · simp only [List.contains_iff_mem, hc, if_false] at h
      obtain ⟨n, hn, he⟩ := ih _ h
      rw [snoc_append] at hn
      exact ⟨n, hn, he⟩

theorem checkFKActions_none (m : List Str) (es : List FKAction) (hm : m.Nodup) :
    checkFKActions m es = none ↔ (m ++ es.map (·.on)).Nodup := by
  induction es generalizing m with
  | nil => simpa [checkFKActions] using hm
  | cons e es ih =>
    unfold checkFKActions
    by_cases h : e.on ∈ m
    · simp [h, not_nodup_mid h]
    · simp only [List.contains_iff_mem, h, if_false, List.map_cons]
      rw [ih _ (nodup_snoc hm h), snoc_append]

theorem checkFKActions_some (m : List Str) (es : List FKAction) {err : Err}
    (h : checkFKActions m es = some err) :
    ∃ n, Twice n (m ++ es.map (·.on)) ∧ err = Sent.dupFKAction.with n := by
  induction es generalizing m with
  | nil => simp [checkFKActions] at h
  | cons e es ih =>
    unfold checkFKActions at h
    by_cases hc : e.on ∈ m
    · simp [hc] at h
      exact ⟨e.on, twice_mid hc, h.symm⟩
    · simp only [List.contains_iff_mem, hc, if_false] at h
      obtain ⟨n, hn, he⟩ := ih _ h
      rw [snoc_append] at hn
      exact ⟨n, hn, he⟩

theorem addReceivers_ok (m l rs : List Str) (hm : m.Nodup) (l' : List Str) :
    addReceivers m l rs = .ok l' ↔ (m ++ rs).Nodup ∧ l' = l ++ rs := by
  induction rs generalizing m l with
  | nil => simp [addReceivers, hm, eq_comm]
  | cons e es ih =>
    unfold addReceivers
    by_cases h : e ∈ m
    · simp [h, not_nodup_mid h]
    · simp only [List.contains_iff_mem, h, if_false]
      rw [ih _ _ (nodup_snoc hm h), snoc_append, snoc_append]

theorem addReceivers_error (m l rs : List Str) {err : Err} (h : addReceivers m l rs = .error err) :
    ∃ n, Twice n (m ++ rs) ∧ err = Sent.duplicateVariable.with n := by
  induction rs generalizing m l with
  | nil => simp [addReceivers] at h
  | cons e es ih =>
    unfold addReceivers at h
    by_cases hc : e ∈ m
    · simp [hc] at h
      exact ⟨e, twice_mid hc, h.symm⟩
    · simp only [List.contains_iff_mem, hc, if_false] at h
      obtain ⟨n, hn, he⟩ := ih _ _ h
      rw [snoc_append] at hn
      exact ⟨n, hn, he⟩

/-! ## Tables -/

theorem misfit_iff (ty a : Str) : Misfit ty a ↔
    (ty = C.colInt ∧ (a = C.attrMinLength ∨ a = C.attrMaxLength)) ∨
    (ty = C.colText ∧ (a = C.attrMin ∨ a = C.attrMax)) := Iff.rfl

theorem checkAttrs_none (ty : Str) (m : List Str) (as : List Attribute) (hm : m.Nodup) :
    checkAttrs ty m as = none ↔ (m ++ as.map (·.type)).Nodup ∧ ∀ a ∈ as, ¬ Misfit ty a.type := by
  induction as generalizing m with
  | nil => simpa [checkAttrs] using hm
  | cons a as ih =>
    unfold checkAttrs
    by_cases h : a.type ∈ m
    · simp [h, not_nodup_mid h]
    · simp only [List.contains_iff_mem, h, if_false, List.map_cons]
      by_cases h₁ : ty = C.colInt ∧ (a.type = C.attrMinLength ∨ a.type = C.attrMaxLength)
      · rw [if_pos h₁]
        simp only [reduceCtorEq, false_iff, not_and]
        intro _ hall
        exact hall a (by simp) (.inl h₁)
      · rw [if_neg h₁]
        by_cases h₂ : ty = C.colText ∧ (a.type = C.attrMin ∨ a.type = C.attrMax)
        · rw [if_pos h₂]
          simp only [reduceCtorEq, false_iff, not_and]
          intro _ hall
          exact hall a (by simp) (.inr h₂)
        · rw [if_neg h₂, ih _ (nodup_snoc hm h), snoc_append]
          have : ¬ Misfit ty a.type := by rw [misfit_iff]; exact not_or.2 ⟨h₁, h₂⟩
          simp [this]

theorem checkAttrs_some (ty : Str) (m : List Str) (as : List Attribute) {err : Err}
    (h : checkAttrs ty m as = some err) :
    (∃ n, Twice n (m ++ as.map (·.type)) ∧ err = Sent.duplicateAttribute.with n) ∨
    ∃ a ∈ as, Misfit ty a.type ∧ err = Sent.attributeNotAllow.with (notAllowedMsg ty a.type) := by
  induction as generalizing m with
  | nil => simp [checkAttrs] at h
  | cons a as ih =>
    unfold checkAttrs at h
    by_cases hc : a.type ∈ m
    · simp [hc] at h
      exact .inl ⟨a.type, twice_mid hc, h.symm⟩
    · simp only [List.contains_iff_mem, hc, if_false] at h
      by_cases h₁ : ty = C.colInt ∧ (a.type = C.attrMinLength ∨ a.type = C.attrMaxLength)
      · rw [if_pos h₁] at h
        exact .inr ⟨a, by simp, .inl h₁, by simpa using h.symm⟩
      · rw [if_neg h₁] at h
        by_cases h₂ : ty = C.colText ∧ (a.type = C.attrMin ∨ a.type = C.attrMax)
        · rw [if_pos h₂] at h
          exact .inr ⟨a, by simp, .inr h₂, by simpa using h.symm⟩
        · rw [if_neg h₂] at h
          rcases ih _ h with ⟨n, hn, he⟩ | ⟨a', ha, h'⟩
          · rw [snoc_append] at hn
            exact .inl ⟨n, hn, he⟩
          · exact .inr ⟨a', by simp [ha], h'⟩

theorem checkAttrs_valid (c : Column) :
    checkAttrs c.type [] c.attributes.elems = none ↔ ValidColumn c := by
  rw [checkAttrs_none _ _ _ (by simp)]
  constructor
  · rintro ⟨h₁, h₂⟩; exact ⟨by simpa using h₁, h₂⟩
  · rintro ⟨h₁, h₂⟩; exact ⟨by simpa using h₁, h₂⟩

theorem visitCols_none (m : List Str) (cs : List Column) (hm : m.Nodup) :
    (visitCols m cs).2 = none ↔ (m ++ cs.map (·.name)).Nodup ∧ ∀ c ∈ cs, ValidColumn c := by
  induction cs generalizing m with
  | nil => simpa [visitCols] using hm
  | cons c cs ih =>
    unfold visitCols
    by_cases h : c.name ∈ m
    · simp [h, not_nodup_mid h]
    · simp only [List.contains_iff_mem, h, if_false, List.map_cons]
      have hv := checkAttrs_valid c
      cases hc : checkAttrs c.type [] c.attributes.elems with
      | some e =>
        rw [hc] at hv
        simp at hv
        simp [hv]
      | none =>
        have := hv.1 hc
        rw [ih _ (nodup_snoc hm h), snoc_append]
        simp [this]

theorem visitCols_fst (m : List Str) (cs : List Column) (h : (visitCols m cs).2 = none) :
    (visitCols m cs).1 = m ++ cs.map (·.name) := by
  induction cs generalizing m with
  | nil => simp [visitCols]
  | cons c cs ih =>
    unfold visitCols at h ⊢
    by_cases hc : c.name ∈ m
    · simp [hc] at h
    · simp only [List.contains_iff_mem, hc, if_false, List.map_cons] at h ⊢
      cases ha : checkAttrs c.type [] c.attributes.elems with
      | some e => rw [ha] at h; simp at h
      | none => rw [ha] at h; rw [ih _ h, snoc_append]

theorem visitCols_some (m : List Str) (cs : List Column) {err : Err}
    (h : (visitCols m cs).2 = some err) :
    (∃ n, Twice n (m ++ cs.map (·.name)) ∧ err = Sent.duplicateColumn.with n) ∨
    ∃ c ∈ cs, checkAttrs c.type [] c.attributes.elems = some err := by
  induction cs generalizing m with
  | nil => simp [visitCols] at h
  | cons c cs ih =>
    unfold visitCols at h
    by_cases hc : c.name ∈ m
    · simp [hc] at h
      exact .inl ⟨c.name, twice_mid hc, h.symm⟩
    · simp only [List.contains_iff_mem, hc, if_false] at h
      cases ha : checkAttrs c.type [] c.attributes.elems with
      | some e =>
        rw [ha] at h
        simp at h
        subst h
        exact .inr ⟨c, by simp, ha⟩
      | none =>
        rw [ha] at h
        rcases ih _ h with ⟨n, hn, he⟩ | ⟨a', ha, h'⟩
        · rw [snoc_append] at hn
          exact .inl ⟨n, hn, he⟩
        · exact .inr ⟨a', by simp [ha], h'⟩

theorem checkIndexCols_none (cur : Str) (m cols : List Str) :
    checkIndexCols cur m cols = none ↔ ∀ c ∈ cols, c ∈ m := by
  induction cols with
  | nil => simp [checkIndexCols]
  | cons c cols ih =>
    unfold checkIndexCols
    by_cases h : c ∈ m <;> simp [h, ih]

theorem checkIndexCols_some (cur : Str) (m cols : List Str) {err : Err}
    (h : checkIndexCols cur m cols = some err) :
    ∃ c ∈ cols, c ∉ m ∧ err = Sent.columnNotFound.with
      ("index(".toList ++ cur ++ "/".toList ++ c ++ ")".toList) := by
  induction cols with
  | nil => simp [checkIndexCols] at h
  | cons c cols ih =>
    unfold checkIndexCols at h
    by_cases hc : c ∈ m
    · simp only [List.contains_iff_mem, hc, if_true] at h
      obtain ⟨c', h', r⟩ := ih h
      exact ⟨c', by simp [h'], r⟩
    · simp only [List.contains_iff_mem, hc, if_false, Option.some.injEq] at h
      exact ⟨c, by simp, hc, h.symm⟩

/-- Index columns are names declared so far. -/
def IdxOk (m : List Str) (is : List Index) : Prop :=
  ∀ before i after, is = before ++ i :: after → ∀ c ∈ i.columns.elems,
    c ∈ m ∨ c ∈ before.map (·.name) ∨ c = i.name

theorem idxOk_cons (m : List Str) (i : Index) (is : List Index) :
    IdxOk m (i :: is) ↔ (∀ c ∈ i.columns.elems, c ∈ m ++ [i.name]) ∧ IdxOk (m ++ [i.name]) is := by
  constructor
  · intro h
    refine ⟨fun c hc => ?_, ?_⟩
    · have := h [] i is rfl c hc
      simpa using this
    · rintro before j after rfl c hc
      have := h (i :: before) j after rfl c hc
      simp only [List.map_cons, List.mem_cons] at this
      simp only [List.mem_append, List.mem_singleton]
      grind
  · rintro ⟨h₁, h₂⟩ before j after he c hc
    cases before with
    | nil =>
      simp at he
      obtain ⟨rfl, rfl⟩ := he
      have := h₁ c hc
      simpa using this
    | cons b before =>
      simp at he
      obtain ⟨rfl, rfl⟩ := he
      have := h₂ before j after rfl c hc
      simp only [List.mem_append, List.mem_singleton] at this
      simp only [List.map_cons, List.mem_cons]
      grind

theorem visitIdxs_none (cur : Str) (m : List Str) (is : List Index) (hm : m.Nodup) :
    (visitIdxs cur m is).2 = none ↔ (m ++ is.map (·.name)).Nodup ∧ IdxOk m is := by
  induction is generalizing m with
  | nil =>
    simp only [visitIdxs, List.map_nil, List.append_nil, hm, true_and, true_iff]
    intro b i a h
    simp at h
  | cons i is ih =>
    unfold visitIdxs
    by_cases h : i.name ∈ m
    · simp [h, not_nodup_mid h]
    · simp only [List.contains_iff_mem, h, if_false, List.map_cons, idxOk_cons]
      have hv := checkIndexCols_none cur (m ++ [i.name]) i.columns.elems
      cases hc : checkIndexCols cur (m ++ [i.name]) i.columns.elems with
      | some e =>
        rw [hc] at hv
        simp only [reduceCtorEq, false_iff] at hv
        simp only [reduceCtorEq, false_iff]
        grind
      | none =>
        have := hv.1 hc
        simp only
        rw [ih _ (nodup_snoc hm h), snoc_append]
        grind

theorem visitIdxs_fst (cur : Str) (m : List Str) (is : List Index)
    (h : (visitIdxs cur m is).2 = none) :
    (visitIdxs cur m is).1 = m ++ is.map (·.name) := by
  induction is generalizing m with
  | nil => simp [visitIdxs]
  | cons c cs ih =>
    unfold visitIdxs at h ⊢
    by_cases hc : c.name ∈ m
    · simp [hc] at h
    · simp only [List.contains_iff_mem, hc, if_false, List.map_cons] at h ⊢
      cases ha : checkIndexCols cur (m ++ [c.name]) c.columns.elems with
      | some e => rw [ha] at h; simp at h
      | none => rw [ha] at h; rw [ih _ h, snoc_append]

theorem visitIdxs_some (cur : Str) (m : List Str) (is : List Index) {err : Err}
    (h : (visitIdxs cur m is).2 = some err) :
    (∃ n, n ∈ is.map (·.name) ∧ Twice n (m ++ is.map (·.name)) ∧
      err = Sent.duplicateIndex.with n) ∨
    ∃ i ∈ is, ∃ c ∈ i.columns.elems, c ∉ m ∧ err = Sent.columnNotFound.with
      ("index(".toList ++ cur ++ "/".toList ++ c ++ ")".toList) := by
  induction is generalizing m with
  | nil => simp [visitIdxs] at h
  | cons i is ih =>
    unfold visitIdxs at h
    by_cases hc : i.name ∈ m
    · simp [hc] at h
      exact .inl ⟨i.name, by simp, twice_mid hc, h.symm⟩
    · simp only [List.contains_iff_mem, hc, if_false] at h
      cases ha : checkIndexCols cur (m ++ [i.name]) i.columns.elems with
      | some e =>
        rw [ha] at h
        simp at h
        subst h
        obtain ⟨c, h₁, h₂, h₃⟩ := checkIndexCols_some _ _ _ ha
        exact .inr ⟨i, by simp, c, h₁, fun hm => h₂ (by simp [hm]), h₃⟩
      | none =>
        rw [ha] at h
        rcases ih _ h with ⟨n, hn', hn, he⟩ | ⟨j, hj, c, hc', hm, he⟩
        · rw [snoc_append] at hn
          exact .inl ⟨n, by simp [hn'], hn, he⟩
        · exact .inr ⟨j, by simp [hj], c, hc', fun hm' => hm (by simp [hm']), he⟩

theorem visitTableV_none (c : Ctx) (t : Table) :
    (visitTableV c t).2 = none ↔ ValidTable t := by
  unfold visitTableV
  have h₁ := visitCols_none [] t.columns.elems (by simp)
  have h₂ := visitCols_fst [] t.columns.elems
  cases hc : visitCols [] t.columns.elems with
  | mk m e =>
    rw [hc] at h₁ h₂
    simp only [List.nil_append] at h₁ h₂
    cases e with
    | some e =>
      simp only [reduceCtorEq, false_iff] at h₁ ⊢
      intro hv
      exact h₁ ⟨(List.nodup_append.1 hv.distinct).1, hv.columns⟩
    | none =>
      obtain ⟨hn, hcol⟩ := h₁.1 rfl
      obtain rfl := h₂ rfl
      simp only
      rw [visitIdxs_none _ _ _ hn]
      constructor
      · rintro ⟨h, hi⟩
        exact ⟨h, hcol, hi⟩
      · rintro ⟨h, _, hi⟩
        exact ⟨h, hi⟩

theorem visitTableV_fst (c : Ctx) (t : Table) (h : (visitTableV c t).2 = none) :
    (visitTableV c t).1 =
      { c with tables := c.tables ++ [(c.current, t.columnNames ++ t.indexNames)] } := by
  unfold visitTableV at h ⊢
  have h₂ := visitCols_fst [] t.columns.elems
  cases hc : visitCols [] t.columns.elems with
  | mk m e =>
    rw [hc] at h h₂
    cases e with
    | some e => simp at h
    | none =>
      obtain rfl := h₂ rfl
      simp only at h ⊢
      rw [visitIdxs_fst _ _ _ h]
      simp [Table.columnNames, Table.indexNames]

/-- After a table the validator's other maps are unchanged. -/
theorem visitTableV_keeps (c : Ctx) (t : Table) :
    ∃ m, (visitTableV c t).1 = { c with tables := c.tables ++ [(c.current, m)] } := by
  unfold visitTableV
  cases visitCols [] t.columns.elems with
  | mk m e =>
    cases e with
    | some e => exact ⟨m, rfl⟩
    | none => exact ⟨_, rfl⟩

theorem visitTableV_some (env : Env) (s : Schema) (c : Ctx) (t : Table) (ht : t ∈ s.tables.elems)
    (hcur : c.current = t.name) {err : Err} (h : (visitTableV c t).2 = some err) :
    Defect env s err := by
  unfold visitTableV at h
  have h₁ := visitCols_some [] t.columns.elems (err := err)
  have h₂ := visitCols_fst [] t.columns.elems
  cases hc : visitCols [] t.columns.elems with
  | mk m e =>
    rw [hc] at h h₁ h₂
    cases e with
    | some e =>
      simp only at h
      rcases h₁ h with ⟨n, hn, rfl⟩ | ⟨col, hcol, hattr⟩
      · exact .column ht (by simpa [Table.columnNames] using hn)
      · rcases checkAttrs_some _ _ _ hattr with ⟨n, hn, rfl⟩ | ⟨a, ha, hm, rfl⟩
        · exact .attribute ht hcol (by simpa using hn)
        · exact .misfit ht hcol ha hm
    | none =>
      obtain rfl := h₂ rfl
      simp only at h
      rcases visitIdxs_some _ _ _ h with ⟨n, hn, h₂, rfl⟩ | ⟨i, hi, c', hc', hm, rfl⟩
      · exact .index ht hn (by simpa [Table.columnNames, Table.indexNames] using h₂)
      · rw [hcur]
        exact .indexColumn ht hi hc' (by simpa [Table.columnNames] using hm)

/-! ## Maps -/

theorem hasKey_iff (m : List (Str × List Str)) (k : Str) : hasKey m k = true ↔ k ∈ m.map (·.1) := by
  unfold hasKey
  induction m with
  | nil => simp
  | cons p m ih =>
    obtain ⟨a, b⟩ := p
    simp only [List.lookup_cons, List.map_cons, List.mem_cons]
    by_cases h : k = a
    · subst h; simp
    · have : (k == a) = false := by simpa using h
      simp [this, ih, h]

theorem hasKey_false (m : List (Str × List Str)) (k : Str) :
    hasKey m k = false ↔ k ∉ m.map (·.1) := by
  rw [← hasKey_iff]; simp

/-- With distinct keys, looking up an entry's key gives its value. -/
theorem lookup_of_mem {m : List (Str × List Str)} (hn : (m.map (·.1)).Nodup) {k : Str}
    {v : List Str} (h : (k, v) ∈ m) : lookupD m k = v := by
  unfold lookupD
  induction m with
  | nil => simp at h
  | cons p m ih =>
    obtain ⟨a, b⟩ := p
    simp only [List.map_cons, List.nodup_cons] at hn
    simp only [List.lookup_cons]
    rcases List.mem_cons.1 h with h' | h
    · cases h'; simp
    · have hne : k ≠ a := by
        intro he
        exact hn.1 (he ▸ List.mem_map.2 ⟨(k, v), h, rfl⟩)
      have : (k == a) = false := by simpa using hne
      simp only [this]
      exact ih hn.2 h

/-! ## Lists of tables and actions -/

/-- What the validator remembers of a table. -/
def Table.entry (t : Table) : Str × List Str := (t.name, t.columnNames ++ t.indexNames)

/-- What the validator remembers of an action. -/
def Action.entry (a : Action) : Str × List Str := (a.name, a.inputs.elems)

theorem visitTables_none (c : Ctx) (ts : List Table) (hn : (c.tables.map (·.1)).Nodup) :
    (visitTables c ts).2 = none ↔
      (c.tables.map (·.1) ++ ts.map (·.name)).Nodup ∧ ∀ t ∈ ts, ValidTable t := by
  induction ts generalizing c with
  | nil => simpa [visitTables] using hn
  | cons t ts ih =>
    unfold visitTables
    by_cases h : t.name ∈ c.tables.map (·.1)
    · rw [if_pos ((hasKey_iff _ _).2 h)]
      simp only [reduceCtorEq, List.map_cons, false_iff, not_and]
      exact fun h' => absurd h' (not_nodup_mid h)
    · rw [if_neg (by rw [hasKey_iff]; exact h)]
      have hv := visitTableV_none { c with current := t.name } t
      have hf := visitTableV_fst { c with current := t.name } t
      cases hr : visitTableV { c with current := t.name } t with
      | mk c' e =>
        rw [hr] at hv hf
        cases e with
        | some e =>
          simp only [reduceCtorEq, false_iff] at hv ⊢
          rintro ⟨_, h'⟩
          exact hv (h' t (by simp))
        | none =>
          have hvt := hv.1 rfl
          obtain rfl := hf rfl
          simp only
          rw [ih _ (by simpa using nodup_snoc hn h)]
          simp [hvt]

theorem visitTables_fst (c : Ctx) (ts : List Table) (h : (visitTables c ts).2 = none) :
    (visitTables c ts).1.tables = c.tables ++ ts.map Table.entry ∧
    (visitTables c ts).1.actions = c.actions ∧ (visitTables c ts).1.exts = c.exts := by
  induction ts generalizing c with
  | nil => simp [visitTables]
  | cons t ts ih =>
    unfold visitTables at h ⊢
    by_cases hk : hasKey c.tables t.name = true
    · simp [hk] at h
    · rw [if_neg hk] at h ⊢
      have hf := visitTableV_fst { c with current := t.name } t
      cases hr : visitTableV { c with current := t.name } t with
      | mk c' e =>
        rw [hr] at h hf
        cases e with
        | some e => simp at h
        | none =>
          obtain rfl := hf rfl
          simp only at h ⊢
          obtain ⟨h₁, h₂, h₃⟩ := ih _ h
          simp [h₁, h₂, h₃, Table.entry]

theorem visitTables_some (c : Ctx) (ts : List Table) {err : Err}
    (h : (visitTables c ts).2 = some err) :
    (∃ n, Twice n (c.tables.map (·.1) ++ ts.map (·.name)) ∧ err = Sent.duplicateTable.with n) ∨
    ∃ t ∈ ts, ∃ c' : Ctx, c'.current = t.name ∧ (visitTableV c' t).2 = some err := by
  induction ts generalizing c with
  | nil => simp [visitTables] at h
  | cons t ts ih =>
    unfold visitTables at h
    by_cases hk : hasKey c.tables t.name = true
    · simp only [hk, if_true, Option.some.injEq] at h
      exact .inl ⟨t.name, twice_mid ((hasKey_iff _ _).1 hk), h.symm⟩
    · rw [if_neg hk] at h
      cases hr : visitTableV { c with current := t.name } t with
      | mk c' e =>
        rw [hr] at h
        cases e with
        | some e =>
          simp only [Option.some.injEq] at h
          subst h
          exact .inr ⟨t, by simp, { c with current := t.name }, rfl, by rw [hr]⟩
        | none =>
          simp only at h
          obtain ⟨m, hm⟩ := visitTableV_keeps { c with current := t.name } t
          rw [hr] at hm
          simp only at hm
          subst hm
          rcases ih _ h with ⟨n, hn, he⟩ | ⟨t', ht', r⟩
          · refine .inl ⟨n, ?_, he⟩
            simpa using hn
          · exact .inr ⟨t', by simp [ht'], r⟩

theorem visitActionDecls_none (c : Ctx) (as : List Action) (hn : (c.actions.map (·.1)).Nodup) :
    (visitActionDecls c as).2 = none ↔
      (c.actions.map (·.1) ++ as.map (·.name)).Nodup ∧ ∀ a ∈ as, a.inputs.elems.Nodup := by
  induction as generalizing c with
  | nil => simpa [visitActionDecls] using hn
  | cons a as ih =>
    unfold visitActionDecls
    by_cases h : a.name ∈ c.actions.map (·.1)
    · rw [if_pos ((hasKey_iff _ _).2 h)]
      simp only [reduceCtorEq, List.map_cons, false_iff, not_and]
      exact fun h' => absurd h' (not_nodup_mid h)
    · rw [if_neg (by rw [hasKey_iff]; exact h)]
      have hv := visitParams_none [] a.inputs.elems (by simp)
      unfold visitActionV
      cases hr : visitParams [] a.inputs.elems with
      | mk m e =>
        rw [hr] at hv
        simp only [List.nil_append] at hv
        cases e with
        | some e =>
          simp only [reduceCtorEq, false_iff] at hv ⊢
          rintro ⟨_, h'⟩
          exact hv (h' a (by simp))
        | none =>
          have hvt := hv.1 rfl
          simp only
          rw [ih _ (by simpa using nodup_snoc hn h)]
          simp [hvt]

theorem visitActionDecls_fst (c : Ctx) (as : List Action) (h : (visitActionDecls c as).2 = none) :
    (visitActionDecls c as).1.actions = c.actions ++ as.map Action.entry ∧
    (visitActionDecls c as).1.tables = c.tables ∧ (visitActionDecls c as).1.exts = c.exts := by
  induction as generalizing c with
  | nil => simp [visitActionDecls]
  | cons a as ih =>
    unfold visitActionDecls at h ⊢
    by_cases hk : hasKey c.actions a.name = true
    · simp [hk] at h
    · rw [if_neg hk] at h ⊢
      unfold visitActionV at h ⊢
      have hf := visitParams_fst [] a.inputs.elems
      cases hr : visitParams [] a.inputs.elems with
      | mk m e =>
        rw [hr] at h hf
        cases e with
        | some e => simp at h
        | none =>
          obtain rfl := hf rfl
          simp only [List.nil_append] at h ⊢
          obtain ⟨h₁, h₂, h₃⟩ := ih _ h
          simp [h₁, h₂, h₃, Action.entry]

theorem visitActionDecls_some (c : Ctx) (as : List Action) {err : Err}
    (h : (visitActionDecls c as).2 = some err) :
    (∃ n, Twice n (c.actions.map (·.1) ++ as.map (·.name)) ∧ err = Sent.duplicateAction.with n) ∨
    ∃ a ∈ as, ∃ n, Twice n a.inputs.elems ∧ err = Sent.duplicateParam.with n := by
  induction as generalizing c with
  | nil => simp [visitActionDecls] at h
  | cons a as ih =>
    unfold visitActionDecls at h
    by_cases hk : hasKey c.actions a.name = true
    · simp only [hk, if_true, Option.some.injEq] at h
      exact .inl ⟨a.name, twice_mid ((hasKey_iff _ _).1 hk), h.symm⟩
    · rw [if_neg hk] at h
      unfold visitActionV at h
      have hs := visitParams_some [] a.inputs.elems (err := err)
      cases hr : visitParams [] a.inputs.elems with
      | mk m e =>
        rw [hr] at h hs
        cases e with
        | some e =>
          simp only at h
          obtain ⟨n, hn, he⟩ := hs h
          exact .inr ⟨a, by simp, n, by simpa using hn, he⟩
        | none =>
          simp only at h
          rcases ih _ h with ⟨n, hn, he⟩ | ⟨t', ht', r⟩
          · exact .inl ⟨n, by simpa using hn, he⟩
          · exact .inr ⟨t', by simp [ht'], r⟩

/-! ## Foreign keys -/

theorem checkChildKeys_none (c : Ctx) (t : Str) (cols : List Str) :
    checkChildKeys c t cols = none ↔ ∀ col ∈ cols, col ∈ lookupD c.tables t := by
  induction cols with
  | nil => simp [checkChildKeys]
  | cons col cols ih =>
    unfold checkChildKeys
    by_cases h : col ∈ lookupD c.tables t <;> simp [h, ih]

theorem checkChildKeys_some (c : Ctx) (t : Str) (cols : List Str) {err : Err}
    (h : checkChildKeys c t cols = some err) :
    ∃ col ∈ cols, col ∉ lookupD c.tables t ∧ err = Sent.columnNotFound.with
      ("fk(".toList ++ t ++ "/".toList ++ col ++ ")".toList) := by
  induction cols with
  | nil => simp [checkChildKeys] at h
  | cons col cols ih =>
    unfold checkChildKeys at h
    by_cases hc : col ∈ lookupD c.tables t
    · simp only [List.contains_iff_mem, hc, if_true] at h
      obtain ⟨c', h', r⟩ := ih h
      exact ⟨c', by simp [h'], r⟩
    · simp only [List.contains_iff_mem, hc, if_false, Option.some.injEq] at h
      exact ⟨col, by simp, hc, h.symm⟩

theorem checkParentKeys_none (c : Ctx) (t : Str) (cols : List Str) :
    checkParentKeys c t cols = none ↔ ∀ col ∈ cols, col ∈ lookupD c.tables t := by
  induction cols with
  | nil => simp [checkParentKeys]
  | cons col cols ih =>
    unfold checkParentKeys
    by_cases h : col ∈ lookupD c.tables t <;> simp [h, ih]

theorem checkParentKeys_some (c : Ctx) (t : Str) (cols : List Str) {err : Err}
    (h : checkParentKeys c t cols = some err) :
    ∃ col ∈ cols, col ∉ lookupD c.tables t ∧ err = Sent.columnNotFound.with
      ("ref(".toList ++ t ++ "->".toList ++ col ++ ")".toList) := by
  induction cols with
  | nil => simp [checkParentKeys] at h
  | cons col cols ih =>
    unfold checkParentKeys at h
    by_cases hc : col ∈ lookupD c.tables t
    · simp only [List.contains_iff_mem, hc, if_true] at h
      obtain ⟨c', h', r⟩ := ih h
      exact ⟨c', by simp [h'], r⟩
    · simp only [List.contains_iff_mem, hc, if_false, Option.some.injEq] at h
      exact ⟨col, by simp, hc, h.symm⟩

/-- The state after all declarations of the schema. -/
structure Declared (c : Ctx) (s : Schema) : Prop where
  tables : c.tables = s.tables.elems.map Table.entry
  actions : c.actions = s.actions.elems.map Action.entry
  exts : c.exts = s.extNames
  tnodup : s.tableNames.Nodup
  anodup : s.actionNames.Nodup

theorem Declared.keys {c : Ctx} {s : Schema} (d : Declared c s) :
    c.tables.map (·.1) = s.tableNames := by
  rw [d.tables]; simp [Table.entry, Schema.tableNames]

theorem Declared.akeys {c : Ctx} {s : Schema} (d : Declared c s) :
    c.actions.map (·.1) = s.actionNames := by
  rw [d.actions]; simp [Action.entry, Schema.actionNames]

theorem Declared.lookup {c : Ctx} {s : Schema} (d : Declared c s) {t : Table}
    (h : t ∈ s.tables.elems) : lookupD c.tables t.name = t.columnNames ++ t.indexNames := by
  apply lookup_of_mem
  · rw [d.keys]; exact d.tnodup
  · rw [d.tables]; exact List.mem_map.2 ⟨t, h, rfl⟩

theorem Declared.inputs {c : Ctx} {s : Schema} (d : Declared c s) {a : Action}
    (h : a ∈ s.actions.elems) : lookupD c.actions a.name = a.inputs.elems := by
  apply lookup_of_mem
  · rw [d.akeys]; exact d.anodup
  · rw [d.actions]; exact List.mem_map.2 ⟨a, h, rfl⟩

theorem checkForeignKey_none {c : Ctx} {s : Schema} (d : Declared c s) (fk : ForeignKey) :
    checkForeignKey c fk = none ↔
      (∃ p ∈ s.tables.elems, p.name = fk.parentTable ∧
        ∀ col ∈ fk.parentKeys.elems, col ∈ p.columnNames ++ p.indexNames) ∧
      (fk.actions.elems.map (·.on)).Nodup := by
  unfold checkForeignKey
  by_cases h : fk.parentTable ∈ s.tableNames
  · rw [if_pos ((hasKey_iff _ _).2 (d.keys ▸ h))]
    obtain ⟨p, hp, hpn⟩ := List.mem_map.1 h
    have hl := d.lookup hp
    rw [hpn] at hl
    have h₁ := checkParentKeys_none c fk.parentTable fk.parentKeys.elems
    have h₂ := checkFKActions_none [] fk.actions.elems (by simp)
    rw [List.nil_append] at h₂
    rw [hl] at h₁
    have hex : (∃ p ∈ s.tables.elems, p.name = fk.parentTable ∧
        ∀ col ∈ fk.parentKeys.elems, col ∈ p.columnNames ++ p.indexNames) ↔
        ∀ col ∈ fk.parentKeys.elems, col ∈ p.columnNames ++ p.indexNames := by
      constructor
      · rintro ⟨q, hq, hqn, hk⟩
        have := d.lookup hq
        rw [hqn, hl] at this
        rw [this]; exact hk
      · exact fun hk => ⟨p, hp, hpn, hk⟩
    rw [hex, ← h₁, ← h₂]
    cases checkParentKeys c fk.parentTable fk.parentKeys.elems with
    | some e => simp
    | none => simp
  · rw [if_neg (by rw [hasKey_iff, d.keys]; exact h)]
    simp only [reduceCtorEq, false_iff, not_and]
    rintro ⟨p, hp, hpn, _⟩
    exact absurd (List.mem_map.2 ⟨p, hp, hpn⟩) h

theorem checkForeignKey_some {env : Env} {c : Ctx} {s : Schema} (d : Declared c s) {t : Table}
    (ht : t ∈ s.tables.elems) {fk : ForeignKey} (hf : fk ∈ t.foreignKeys.elems) {err : Err}
    (he : checkForeignKey c fk = some err) : Defect env s err := by
  unfold checkForeignKey at he
  by_cases h : fk.parentTable ∈ s.tableNames
  · rw [if_pos ((hasKey_iff _ _).2 (d.keys ▸ h))] at he
    obtain ⟨p, hp, hpn⟩ := List.mem_map.1 h
    have hl := d.lookup hp
    rw [hpn] at hl
    cases hk : checkParentKeys c fk.parentTable fk.parentKeys.elems with
    | some e =>
      rw [hk] at he
      simp only [Option.some.injEq] at he
      subst he
      obtain ⟨col, hcol, hnot, rfl⟩ := checkParentKeys_some _ _ _ hk
      rw [hl] at hnot
      rw [← hpn]
      exact .parentKey ht hf hp hpn hcol (fun h' => hnot (by simp [h']))
    | none =>
      rw [hk] at he
      obtain ⟨n, hn, rfl⟩ := checkFKActions_some _ _ he
      exact .event ht hf (by simpa using hn)
  · rw [if_neg (by rw [hasKey_iff, d.keys]; exact h)] at he
    simp only [Option.some.injEq] at he
    subst he
    exact .parentTable ht hf h

theorem checkFKs_none {c : Ctx} {s : Schema} (d : Declared c s) {t : Table}
    (ht : t ∈ s.tables.elems) (fks : List ForeignKey) :
    checkFKs c t.name fks = none ↔ ∀ f ∈ fks, ValidFK s t f := by
  induction fks with
  | nil => simp [checkFKs]
  | cons fk fks ih =>
    unfold checkFKs
    have h₁ := checkChildKeys_none c t.name fk.childKeys.elems
    rw [d.lookup ht] at h₁
    have h₂ := checkForeignKey_none d fk
    cases hk : checkChildKeys c t.name fk.childKeys.elems with
    | some e =>
      rw [hk] at h₁
      simp only [reduceCtorEq, false_iff] at h₁ ⊢
      intro h
      exact h₁ (h fk (by simp)).child
    | none =>
      have hc := h₁.1 hk
      simp only
      cases hf : checkForeignKey c fk with
      | some e =>
        rw [hf] at h₂
        simp only [reduceCtorEq, false_iff] at h₂ ⊢
        intro h
        exact h₂ ⟨(h fk (by simp)).parent, (h fk (by simp)).events⟩
      | none =>
        have hp := h₂.1 hf
        simp only [ih, List.mem_cons, forall_eq_or_imp]
        exact ⟨fun h => ⟨⟨hc, hp.1, hp.2⟩, h⟩, fun h => h.2⟩

theorem checkFKs_some {env : Env} {c : Ctx} {s : Schema} (d : Declared c s) {t : Table}
    (ht : t ∈ s.tables.elems) (fks : List ForeignKey)
    (hsub : ∀ f ∈ fks, f ∈ t.foreignKeys.elems) {err : Err}
    (he : checkFKs c t.name fks = some err) : Defect env s err := by
  induction fks with
  | nil => simp [checkFKs] at he
  | cons fk fks ih =>
    unfold checkFKs at he
    have hf := hsub fk (by simp)
    cases hk : checkChildKeys c t.name fk.childKeys.elems with
    | some e =>
      rw [hk] at he
      simp only [Option.some.injEq] at he
      subst he
      obtain ⟨col, hcol, hnot, rfl⟩ := checkChildKeys_some _ _ _ hk
      rw [d.lookup ht] at hnot
      exact .childKey ht hf hcol (fun h' => hnot (by simp [h']))
    | none =>
      rw [hk] at he
      simp only at he
      cases hfk : checkForeignKey c fk with
      | some e =>
        rw [hfk] at he
        simp only [Option.some.injEq] at he
        subst he
        exact checkForeignKey_some d ht hf hfk
      | none =>
        rw [hfk] at he
        exact ih (fun f h => hsub f (by simp [h])) he

theorem checkAllFKs_none {c : Ctx} {s : Schema} (d : Declared c s) (ts : List Table)
    (hsub : ∀ t ∈ ts, t ∈ s.tables.elems) :
    checkAllFKs c ts = none ↔ ∀ t ∈ ts, ∀ f ∈ t.foreignKeys.elems, ValidFK s t f := by
  induction ts with
  | nil => simp [checkAllFKs]
  | cons t ts ih =>
    unfold checkAllFKs
    have h := checkFKs_none d (hsub t (by simp)) t.foreignKeys.elems
    have ih := ih fun t' h' => hsub t' (by simp [h'])
    cases hc : checkFKs c t.name t.foreignKeys.elems with
    | some e =>
      rw [hc] at h
      simp only [reduceCtorEq, false_iff] at h ⊢
      exact fun h' => h (h' t (by simp))
    | none =>
      simp only [ih, List.mem_cons, forall_eq_or_imp]
      exact ⟨fun h' => ⟨h.1 hc, h'⟩, fun h' => h'.2⟩

theorem checkAllFKs_some {env : Env} {c : Ctx} {s : Schema} (d : Declared c s) (ts : List Table)
    (hsub : ∀ t ∈ ts, t ∈ s.tables.elems) {err : Err} (he : checkAllFKs c ts = some err) :
    Defect env s err := by
  induction ts with
  | nil => simp [checkAllFKs] at he
  | cons t ts ih =>
    unfold checkAllFKs at he
    cases hc : checkFKs c t.name t.foreignKeys.elems with
    | some e =>
      rw [hc] at he
      simp only [Option.some.injEq] at he
      subst he
      exact checkFKs_some d (hsub t (by simp)) _ (fun _ h => h) hc
    | none =>
      rw [hc] at he
      exact ih (fun t' h' => hsub t' (by simp [h'])) he

/-! ## Bodies -/

theorem varOk_iff (defined : List Str) (v : Str) : VarOk defined v ↔
    ¬ (v.head? = some '$' ∧ ¬ v ∈ defined) ∧
    ¬ (v.head? = some '@' ∧ v ≠ "@caller".toList) := by
  unfold VarOk
  simp only [not_and, Classical.not_not, ne_eq]

theorem checkArg_none (ps l : List Str) (hsub : ∀ p ∈ ps, p ∈ l) (a : Arg) :
    checkArg ps l a = none ↔ ∀ v ∈ a.topVars, VarOk l v := by
  cases a with
  | other _ => simp [checkArg, Arg.topVars]
  | bind p pr =>
    simp only [checkArg, Arg.topVars, List.mem_singleton, forall_eq, varOk_iff]
    by_cases h₁ : p.head? = some '$' ∧ ¬ p ∈ ps ∧ ¬ p ∈ l
    · rw [if_pos h₁]
      simp only [reduceCtorEq, false_iff]
      exact fun h => h.1 ⟨h₁.1, h₁.2.2⟩
    · rw [if_neg h₁]
      have h₁' : ¬ (p.head? = some '$' ∧ ¬ p ∈ l) := by
        rintro ⟨ha, hb⟩
        exact h₁ ⟨ha, fun h => hb (hsub _ h), hb⟩
      by_cases h₂ : p.head? = some '@' ∧ p ≠ "@caller".toList
      · rw [if_pos h₂]
        simp only [reduceCtorEq, false_iff]
        exact fun h => h.2 h₂
      · rw [if_neg h₂]
        exact ⟨fun _ => ⟨h₁', h₂⟩, fun _ => rfl⟩

theorem checkArg_some (ps l : List Str) (a : Arg) {err : Err}
    (h : checkArg ps l a = some err) :
    ∃ p pr, a = .bind p pr ∧ ¬ VarOk l p ∧ err = Sent.variableNotFound.with pr := by
  cases a with
  | other _ => simp [checkArg] at h
  | bind p pr =>
    simp only [checkArg] at h
    by_cases h₁ : p.head? = some '$' ∧ ¬ p ∈ ps ∧ ¬ p ∈ l
    · rw [if_pos h₁] at h
      refine ⟨p, pr, rfl, fun hv => h₁.2.2 (hv.1 h₁.1), ?_⟩
      simpa using h.symm
    · rw [if_neg h₁] at h
      by_cases h₂ : p.head? = some '@' ∧ p ≠ "@caller".toList
      · rw [if_pos h₂] at h
        refine ⟨p, pr, rfl, fun hv => h₂.2 (hv.2 h₂.1), ?_⟩
        simpa using h.symm
      · rw [if_neg h₂] at h
        simp at h

theorem checkArgs_none (ps l : List Str) (hsub : ∀ p ∈ ps, p ∈ l) (as : List Arg) :
    checkArgs ps l as = none ↔ ∀ a ∈ as, ∀ v ∈ a.topVars, VarOk l v := by
  induction as with
  | nil => simp [checkArgs]
  | cons a as ih =>
    unfold checkArgs
    have h := checkArg_none ps l hsub a
    cases hc : checkArg ps l a with
    | some e =>
      rw [hc] at h
      simp only [reduceCtorEq, false_iff] at h ⊢
      exact fun h' => h (h' a (by simp))
    | none =>
      simp only [ih, List.mem_cons, forall_eq_or_imp]
      exact ⟨fun h' => ⟨h.1 hc, h'⟩, fun h' => h'.2⟩

theorem checkArgs_some (ps l : List Str) (as : List Arg) {err : Err}
    (h : checkArgs ps l as = some err) :
    ∃ p pr, .bind p pr ∈ as ∧ ¬ VarOk l p ∧ err = Sent.variableNotFound.with pr := by
  induction as with
  | nil => simp [checkArgs] at h
  | cons a as ih =>
    unfold checkArgs at h
    cases hc : checkArg ps l a with
    | some e =>
      rw [hc] at h
      simp only [Option.some.injEq] at h
      subst h
      obtain ⟨p, pr, rfl, r⟩ := checkArg_some _ _ _ hc
      exact ⟨p, pr, by simp, r⟩
    | none =>
      rw [hc] at h
      obtain ⟨p, pr, hm, r⟩ := ih h
      exact ⟨p, pr, by simp [hm], r⟩

/-- One statement passes exactly when it is valid, and then defines its
receivers. -/
theorem checkStmt_ok {env : Env} {c : Ctx} {s : Schema} (d : Declared c s) {a : Action}
    (ha : a ∈ s.actions.elems) (l : List Str) (hsub : ∀ p ∈ a.inputs.elems, p ∈ l) (stmt : Str)
    (l' : List Str) :
    checkStmt env c a.name l stmt = .ok l' ↔
      ValidStmt env s l stmt ∧ l' = l ++ defines env stmt := by
  unfold checkStmt ValidStmt defines
  cases hp : env.actParse stmt with
  | error f => cases f <;> simp
  | ok p =>
    cases p with
    | unknown => simp [eq_comm]
    | dml =>
      simp only
      cases hs : env.sqlCheck stmt with
      | none => simp [eq_comm]
      | some f => cases f <;> simp
    | actionCall m args =>
      simp only
      have h := checkArgs_none (lookupD c.actions a.name) l
        (by rw [d.inputs ha]; exact hsub) args
      by_cases hk : m ∈ s.actionNames
      · rw [if_pos ((hasKey_iff _ _).2 (d.akeys ▸ hk))]
        cases hc : checkArgs (lookupD c.actions a.name) l args with
        | some e =>
          rw [hc] at h
          simp only [reduceCtorEq, false_iff] at h
          simp [h]
        | none =>
          have h := h.1 hc
          simp only [Except.ok.injEq, List.append_nil]
          exact ⟨fun e => ⟨⟨hk, h⟩, e.symm⟩, fun e => e.2.symm⟩
      · rw [if_neg (by rw [hasKey_iff, d.akeys]; exact hk)]
        simp [hk]
    | extCall e args rs =>
      simp only
      have h := checkArgs_none (lookupD c.actions a.name) l
        (by rw [d.inputs ha]; exact hsub) args
      by_cases hk : e ∈ s.extNames
      · rw [if_pos (by rw [d.exts]; simpa using hk)]
        cases hc : checkArgs (lookupD c.actions a.name) l args with
        | some e =>
          rw [hc] at h
          simp only [reduceCtorEq, false_iff] at h
          simp [h]
        | none =>
          have h := h.1 hc
          simp only
          have hr := addReceivers_ok [] l rs (by simp) l'
          rw [List.nil_append] at hr
          cases hx : addReceivers [] l rs with
          | error e =>
            rw [hx] at hr
            simp only [reduceCtorEq, false_iff] at hr ⊢
            exact fun h' => hr ⟨h'.1.2.2, h'.2⟩
          | ok l'' =>
            rw [hx] at hr
            simp only [Except.ok.injEq] at hr ⊢
            exact ⟨fun e => ⟨⟨hk, h, (hr.1 e).1⟩, (hr.1 e).2⟩, fun e => hr.2 ⟨e.1.2.2, e.2⟩⟩
      · rw [if_neg (by rw [d.exts]; simpa using hk)]
        simp [hk]

/-- Why a statement fails. -/
theorem checkStmt_error {env : Env} {c : Ctx} {s : Schema} (d : Declared c s) {a : Action}
    (l : List Str) (stmt : Str) (hat : StmtAt env s l stmt) {f : Fail}
    (h : checkStmt env c a.name l stmt = .error f) :
    (∃ e, f = .err e ∧ Defect env s e) ∨
    ∃ p, f = .panic p ∧ (env.actParse stmt = .error (.panic p) ∨
      (env.actParse stmt = .ok .dml ∧ env.sqlCheck stmt = some (.panic p))) := by
  unfold checkStmt at h
  cases hp : env.actParse stmt with
  | error f' =>
    cases f' with
    | err e =>
      rw [hp] at h
      simp only [Except.error.injEq] at h
      exact .inl ⟨_, h.symm, .unparsable hat hp⟩
    | panic p =>
      rw [hp] at h
      simp only [Except.error.injEq] at h
      exact .inr ⟨p, h.symm, .inl rfl⟩
  | ok pr =>
    rw [hp] at h
    cases pr with
    | unknown => simp at h
    | dml =>
      simp only at h
      cases hs : env.sqlCheck stmt with
      | none => rw [hs] at h; simp at h
      | some f' =>
        rw [hs] at h
        cases f' with
        | err e =>
          simp only [Except.error.injEq] at h
          exact .inl ⟨_, h.symm, .badSql hat hp hs⟩
        | panic p =>
          simp only [Except.error.injEq] at h
          exact .inr ⟨p, h.symm, .inr ⟨rfl, rfl⟩⟩
    | actionCall m args =>
      simp only at h
      by_cases hk : m ∈ s.actionNames
      · rw [if_pos ((hasKey_iff _ _).2 (d.akeys ▸ hk))] at h
        cases hc : checkArgs (lookupD c.actions a.name) l args with
        | none => rw [hc] at h; simp at h
        | some e =>
          rw [hc] at h
          simp only [Except.error.injEq] at h
          obtain ⟨p, pr, hm, hv, rfl⟩ := checkArgs_some _ _ _ hc
          exact .inl ⟨_, h.symm, .variable hat (.inl ⟨m, hp⟩) hm hv⟩
      · rw [if_neg (by rw [hasKey_iff, d.akeys]; exact hk)] at h
        simp only [Except.error.injEq] at h
        exact .inl ⟨_, h.symm, .noAction hat hp hk⟩
    | extCall e args rs =>
      simp only at h
      by_cases hk : e ∈ s.extNames
      · rw [if_pos (by rw [d.exts]; simpa using hk)] at h
        cases hc : checkArgs (lookupD c.actions a.name) l args with
        | some e =>
          rw [hc] at h
          simp only [Except.error.injEq] at h
          obtain ⟨p, pr, hm, hv, rfl⟩ := checkArgs_some _ _ _ hc
          exact .inl ⟨_, h.symm, .variable hat (.inr ⟨_, rs, hp⟩) hm hv⟩
        | none =>
          rw [hc] at h
          simp only at h
          cases hx : addReceivers [] l rs with
          | ok l'' => rw [hx] at h; simp at h
          | error e =>
            rw [hx] at h
            simp only [Except.error.injEq] at h
            obtain ⟨n, hn, rfl⟩ := addReceivers_error _ _ _ hx
            exact .inl ⟨_, h.symm, .receiver hat hp (by simpa using hn)⟩
      · rw [if_neg (by rw [d.exts]; simpa using hk)] at h
        simp only [Except.error.injEq] at h
        exact .inl ⟨_, h.symm, .noExtension hat hp hk⟩

/-- The statements after `done` of an action. -/
theorem checkStmts_none {env : Env} {c : Ctx} {s : Schema} (d : Declared c s) {a : Action}
    (ha : a ∈ s.actions.elems) (done ss : List Str) :
    checkStmts env c a.name (definedBefore env a done) ss = none ↔
      ∀ before stmt after, ss = before ++ stmt :: after →
        ValidStmt env s (definedBefore env a (done ++ before)) stmt := by
  induction ss generalizing done with
  | nil =>
    simp only [checkStmts, true_iff]
    intro b st a h
    simp at h
  | cons st ss ih =>
    unfold checkStmts
    have hsub : ∀ p ∈ a.inputs.elems, p ∈ definedBefore env a done := by
      intro p hp; simp [definedBefore, hp]
    have hok := checkStmt_ok (env := env) d ha (definedBefore env a done) hsub st
    cases hc : checkStmt env c a.name (definedBefore env a done) st with
    | error f =>
      simp only [reduceCtorEq, false_iff]
      intro h
      have := (hok _).2 ⟨by simpa using h [] st ss rfl, rfl⟩
      rw [hc] at this
      simp at this
    | ok l =>
      obtain ⟨hv, rfl⟩ := (hok l).1 hc
      have heq : definedBefore env a done ++ defines env st = definedBefore env a (done ++ [st]) := by
        simp [definedBefore]
      simp only
      rw [heq, ih]
      constructor
      · intro h before stmt after he
        cases before with
        | nil => simp at he; obtain ⟨rfl, rfl⟩ := he; simpa using hv
        | cons b before =>
          simp at he
          obtain ⟨rfl, rfl⟩ := he
          simpa using h before stmt after rfl
      · rintro h before stmt after rfl
        simpa using h (st :: before) stmt after rfl

theorem checkStmts_some {env : Env} {c : Ctx} {s : Schema} (d : Declared c s) {a : Action}
    (ha : a ∈ s.actions.elems) (done ss : List Str) (hst : a.statements.elems = done ++ ss)
    {f : Fail} (h : checkStmts env c a.name (definedBefore env a done) ss = some f) :
    (∃ e, f = .err e ∧ Defect env s e) ∨
    ∃ p l stmt, StmtAt env s l stmt ∧ f = .panic p ∧ (env.actParse stmt = .error (.panic p) ∨
      (env.actParse stmt = .ok .dml ∧ env.sqlCheck stmt = some (.panic p))) := by
  induction ss generalizing done with
  | nil => simp [checkStmts] at h
  | cons st ss ih =>
    unfold checkStmts at h
    have hat : StmtAt env s (definedBefore env a done) st := ⟨a, ha, done, ss, hst, rfl⟩
    cases hc : checkStmt env c a.name (definedBefore env a done) st with
    | error f' =>
      rw [hc] at h
      simp only [Option.some.injEq] at h
      subst h
      rcases checkStmt_error d _ _ hat hc with h | ⟨p, h₁, h₂⟩
      · exact .inl h
      · exact .inr ⟨p, _, st, hat, h₁, h₂⟩
    | ok l =>
      rw [hc] at h
      have hsub : ∀ p ∈ a.inputs.elems, p ∈ definedBefore env a done := by
        intro p hp; simp [definedBefore, hp]
      obtain ⟨hv, rfl⟩ := (checkStmt_ok d ha _ hsub st l).1 hc
      refine ih (done ++ [st]) (by simpa using hst) ?_
      simpa [definedBefore] using h

theorem checkBodies_none {env : Env} {c : Ctx} {s : Schema} (d : Declared c s) (as : List Action)
    (hsub : ∀ a ∈ as, a ∈ s.actions.elems) :
    checkBodies env c as = none ↔ ∀ a ∈ as, ∀ before stmt after,
      a.statements.elems = before ++ stmt :: after →
      ValidStmt env s (definedBefore env a before) stmt := by
  induction as with
  | nil => simp [checkBodies]
  | cons a as ih =>
    unfold checkBodies
    have h := checkStmts_none (env := env) d (hsub a (by simp)) [] a.statements.elems
    have hd : definedBefore env a [] = a.inputs.elems := by simp [definedBefore]
    rw [hd] at h
    simp only [List.nil_append] at h
    have ih := ih fun t' h' => hsub t' (by simp [h'])
    cases hc : checkStmts env c a.name a.inputs.elems a.statements.elems with
    | some e =>
      rw [hc] at h
      simp only [reduceCtorEq, false_iff] at h ⊢
      exact fun h' => h (h' a (by simp))
    | none =>
      simp only [ih, List.mem_cons, forall_eq_or_imp]
      exact ⟨fun h' => ⟨h.1 hc, h'⟩, fun h' => h'.2⟩

theorem checkBodies_some {env : Env} {c : Ctx} {s : Schema} (d : Declared c s) (as : List Action)
    (hsub : ∀ a ∈ as, a ∈ s.actions.elems) {f : Fail} (h : checkBodies env c as = some f) :
    (∃ e, f = .err e ∧ Defect env s e) ∨
    ∃ p l stmt, StmtAt env s l stmt ∧ f = .panic p ∧ (env.actParse stmt = .error (.panic p) ∨
      (env.actParse stmt = .ok .dml ∧ env.sqlCheck stmt = some (.panic p))) := by
  induction as with
  | nil => simp [checkBodies] at h
  | cons a as ih =>
    unfold checkBodies at h
    cases hc : checkStmts env c a.name a.inputs.elems a.statements.elems with
    | some e =>
      rw [hc] at h
      simp only [Option.some.injEq] at h
      subst h
      refine checkStmts_some d (hsub a (by simp)) [] a.statements.elems rfl ?_
      simpa [definedBefore] using hc
    | none =>
      rw [hc] at h
      exact ih (fun t' h' => hsub t' (by simp [h'])) h

/-! ## The whole validation -/

theorem extNames_eq (s : Schema) : s.extNames = s.extensions.elems.map Extension.known := rfl

/-- A schema passes exactly when it satisfies the static rules. -/
theorem validate_none (env : Env) (s : Schema) : validate env s = none ↔ ValidSchema env s := by
  unfold validate visitSchema Ctx.new
  have hx := visitExts_none [] s.extensions.elems (by simp)
  have hxf := visitExts_fst [] s.extensions.elems
  cases h₁ : visitExts [] s.extensions.elems with
  | mk x e =>
    rw [h₁] at hx hxf
    rw [List.nil_append, ← extNames_eq] at hx hxf
    cases e with
    | some e =>
      simp only [reduceCtorEq, false_iff] at hx ⊢
      exact fun hv => hx hv.exts
    | none =>
      have hxn := hx.1 rfl
      obtain rfl := hxf rfl
      simp only
      generalize hc₀ : (⟨[], [], s.extNames, "current".toList⟩ : Ctx) = c₀
      have ht := visitTables_none c₀ s.tables.elems (by subst hc₀; simp)
      have htf := visitTables_fst c₀ s.tables.elems
      cases h₂ : visitTables c₀ s.tables.elems with
      | mk c₁ e =>
        rw [h₂] at ht htf
        cases e with
        | some e =>
          simp only [reduceCtorEq, false_iff] at ht ⊢
          refine fun hv => ht ⟨?_, hv.table⟩
          subst hc₀; simpa [Schema.tableNames] using hv.tables
        | none =>
          obtain ⟨htn, htv⟩ := ht.1 rfl
          obtain ⟨ht₁, ht₂, ht₃⟩ := htf rfl
          simp only at ht₁ ht₂ ht₃ ⊢
          have ha := visitActionDecls_none c₁ s.actions.elems
            (by rw [ht₂]; subst hc₀; simp)
          have haf := visitActionDecls_fst c₁ s.actions.elems
          have htn' : s.tableNames.Nodup := by subst hc₀; simpa [Schema.tableNames] using htn
          cases h₃ : visitActionDecls c₁ s.actions.elems with
          | mk c₂ e =>
            rw [h₃] at ha haf
            cases e with
            | some e =>
              simp only [reduceCtorEq, false_iff] at ha ⊢
              refine fun hv => ha ⟨?_, hv.params⟩
              rw [ht₂]; subst hc₀; simpa [Schema.actionNames] using hv.actions
            | none =>
              obtain ⟨han, hav⟩ := ha.1 rfl
              obtain ⟨ha₁, ha₂, ha₃⟩ := haf rfl
              simp only at ha₁ ha₂ ha₃ ⊢
              have han' : s.actionNames.Nodup := by
                rw [ht₂] at han; subst hc₀; simpa [Schema.actionNames] using han
              have d : Declared c₂ s := by
                refine ⟨?_, ?_, ?_, htn', han'⟩
                · rw [ha₂, ht₁]; subst hc₀; simp
                · rw [ha₁, ht₂]; subst hc₀; simp
                · rw [ha₃, ht₃]; subst hc₀; rfl
              have hf := checkAllFKs_none d s.tables.elems (fun _ h => h)
              cases h₄ : checkAllFKs c₂ s.tables.elems with
              | some e =>
                rw [h₄] at hf
                simp only [reduceCtorEq, false_iff] at hf ⊢
                exact fun hv => hf hv.fks
              | none =>
                have hfv := hf.1 h₄
                simp only
                rw [checkBodies_none d _ (fun _ h => h)]
                exact ⟨fun h => ⟨hxn, htn', han', htv, hav, hfv, h⟩, fun h => h.stmts⟩

/-- Why a schema fails. -/
theorem validate_some (env : Env) (s : Schema) {f : Fail} (h : validate env s = some f) :
    (∃ e, f = .err e ∧ Defect env s e) ∨
    ∃ p l stmt, StmtAt env s l stmt ∧ f = .panic p ∧ (env.actParse stmt = .error (.panic p) ∨
      (env.actParse stmt = .ok .dml ∧ env.sqlCheck stmt = some (.panic p))) := by
  unfold validate visitSchema Ctx.new at h
  have hx := fun e => visitExts_some [] s.extensions.elems (err := e)
  have hxf := visitExts_fst [] s.extensions.elems
  cases h₁ : visitExts [] s.extensions.elems with
  | mk x e =>
    rw [h₁] at hx hxf h
    rw [List.nil_append, ← extNames_eq] at hx hxf
    cases e with
    | some e =>
      simp only [Option.some.injEq] at h
      obtain ⟨n, hn, he⟩ := hx e rfl
      exact .inl ⟨e, h.symm, he ▸ .extension hn⟩
    | none =>
      obtain rfl := hxf rfl
      simp only at h
      generalize hc₀ : (⟨[], [], s.extNames, "current".toList⟩ : Ctx) = c₀ at h
      have ht := fun e => visitTables_some c₀ s.tables.elems (err := e)
      have htf := visitTables_fst c₀ s.tables.elems
      have htn := visitTables_none c₀ s.tables.elems (by subst hc₀; simp)
      cases h₂ : visitTables c₀ s.tables.elems with
      | mk c₁ e =>
        rw [h₂] at ht htf h htn
        cases e with
        | some e =>
          simp only [Option.some.injEq] at h
          rcases ht e rfl with ⟨n, hn, he⟩ | ⟨t, htm, c', hc', he⟩
          · refine .inl ⟨e, h.symm, he ▸ .table ?_⟩
            subst hc₀; simpa [Schema.tableNames] using hn
          · exact .inl ⟨e, h.symm, visitTableV_some env s c' t htm hc' he⟩
        | none =>
          obtain ⟨htn, _⟩ := htn.1 rfl
          obtain ⟨ht₁, ht₂, ht₃⟩ := htf rfl
          simp only at ht₁ ht₂ ht₃ h
          have ha := fun e => visitActionDecls_some c₁ s.actions.elems (err := e)
          have haf := visitActionDecls_fst c₁ s.actions.elems
          have han := visitActionDecls_none c₁ s.actions.elems
            (by rw [ht₂]; subst hc₀; simp)
          have htn' : s.tableNames.Nodup := by subst hc₀; simpa [Schema.tableNames] using htn
          cases h₃ : visitActionDecls c₁ s.actions.elems with
          | mk c₂ e =>
            rw [h₃] at ha haf h han
            cases e with
            | some e =>
              simp only [Option.some.injEq] at h
              rcases ha e rfl with ⟨n, hn, he⟩ | ⟨a, ham, n, hn, he⟩
              · refine .inl ⟨e, h.symm, he ▸ .action ?_⟩
                rw [ht₂] at hn; subst hc₀; simpa [Schema.actionNames] using hn
              · exact .inl ⟨e, h.symm, he ▸ .param ham hn⟩
            | none =>
              obtain ⟨han, _⟩ := han.1 rfl
              obtain ⟨ha₁, ha₂, ha₃⟩ := haf rfl
              simp only at ha₁ ha₂ ha₃ h
              have han' : s.actionNames.Nodup := by
                rw [ht₂] at han; subst hc₀; simpa [Schema.actionNames] using han
              have d : Declared c₂ s := by
                refine ⟨?_, ?_, ?_, htn', han'⟩
                · rw [ha₂, ht₁]; subst hc₀; simp
                · rw [ha₁, ht₂]; subst hc₀; simp
                · rw [ha₃, ht₃]; subst hc₀; rfl
              cases h₄ : checkAllFKs c₂ s.tables.elems with
              | some e =>
                rw [h₄] at h
                simp only [Option.some.injEq] at h
                exact .inl ⟨e, h.symm, checkAllFKs_some d _ (fun _ h => h) h₄⟩
              | none =>
                rw [h₄] at h
                exact checkBodies_some d _ (fun _ h => h) h

end Verif
