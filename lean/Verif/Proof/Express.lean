import Verif.Proof.Canonical
/-!
# Schemas that are the meaning of a program
-/

namespace Verif

/-- The token texts all fit. -/
def Fine (ts : List Tok) : Prop := ∀ t ∈ ts, WellSpelt t

theorem fine_nil : Fine [] := by simp [Fine]

theorem fine_cons {t : Tok} {ts : List Tok} : Fine (t :: ts) ↔ WellSpelt t ∧ Fine ts := by
  simp [Fine]

theorem fine_append {a b : List Tok} : Fine (a ++ b) ↔ Fine a ∧ Fine b := by
  simp only [Fine, List.mem_append]
  constructor
  · intro h; exact ⟨fun t ht => h t (.inl ht), fun t ht => h t (.inr ht)⟩
  · rintro ⟨h1, h2⟩ t (ht | ht)
    · exact h1 t ht
    · exact h2 t ht

theorem fine_flatMap {α : Type} {f : α → List Tok} {l : List α} :
    Fine (l.flatMap f) ↔ ∀ x ∈ l, Fine (f x) := by
  simp only [Fine, List.mem_flatMap]
  constructor
  · intro h x hx t ht; exact h t ⟨x, hx, ht⟩
  · rintro h t ⟨x, hx, ht⟩; exact h x hx t ht

/-- Token types with one spelling. -/
def okKw (ty : TT) : Bool := ty.fixed.isSome && ty != .EOF

theorem ws_kw {ty : TT} (h : okKw ty = true) : WellSpelt (kw ty) := by
  cases ty <;> first | rfl | (exact absurd h (by decide))

theorem ws_id {s : Str} : WellSpelt (idTok s) ↔ IsIdent s := Iff.rfl
theorem ws_var {s : Str} : WellSpelt (varTok s) ↔ IsVar s := Iff.rfl
theorem ws_num {s : Str} : WellSpelt (numTok s) ↔ IsNumber s := Iff.rfl

theorem ws_lit {l : Lit} (h : WellSpelt l.tok) : IsLiteral l.text := by
  cases l with
  | num s => exact .inl h
  | str s => exact .inr h

theorem lit_of {s : Str} (h : IsLiteral s) : ∃ l : Lit, WellSpelt l.tok ∧ l.text = s := by
  rcases h with h | h
  · exact ⟨.num s, h, rfl⟩
  · exact ⟨.str s, h, rfl⟩

theorem fine_ne {α : Type} {f : α → List Tok} {x : NE α} :
    Fine (x.toks f) ↔ ∀ a ∈ x.list, Fine (f a) := by
  simp only [NE.toks, NE.list, fine_append, fine_flatMap, fine_cons, List.mem_cons]
  constructor
  · rintro ⟨h1, h2⟩ a (rfl | ha)
    · exact h1
    · exact (h2 a ha).2
  · intro h
    exact ⟨h _ (.inl rfl), fun a ha => ⟨ws_kw rfl, h a (.inr ha)⟩⟩

theorem fine_comma {α : Type} {f : α → List Tok} {x : CommaList α} :
    Fine (x.toks f) ↔ ∀ a ∈ x.list, Fine (f a) := by
  simp only [CommaList.toks, CommaList.list, fine_append, fine_flatMap, fine_cons, List.mem_append]
  constructor
  · rintro ⟨h1, h2⟩ a (ha | ha)
    · exact h1 a ha
    · exact (h2 a ha).2
  · intro h
    exact ⟨fun a ha => h a (.inl ha), fun a ha => ⟨ws_kw rfl, h a (.inr ha)⟩⟩

/-! Lists -/

theorem preimage {α β : Type} {f : α → β} {P : α → Prop} {l : List β}
    (h : ∀ x ∈ l, ∃ y, P y ∧ f y = x) : ∃ l' : List α, l'.map f = l ∧ ∀ y ∈ l', P y := by
  induction l with
  | nil => exact ⟨[], rfl, by simp⟩
  | cons x l ih =>
    obtain ⟨y, hy, rfl⟩ := h x (by simp)
    obtain ⟨l', rfl, hl⟩ := ih fun z hz => h z (by simp [hz])
    exact ⟨y :: l', rfl, by simpa using ⟨hy, hl⟩⟩

theorem sliceOf_listed {α β : Type} {f : α → β} {P : β → Prop} {l : List α}
    (h : ∀ x ∈ l, P (f x)) : SliceOf P (listed (l.map f)) := by
  cases l with
  | nil => exact .inl rfl
  | cons x l =>
    refine .inr ⟨(x :: l).map f, rfl, by simp, ?_⟩
    intro y hy
    obtain ⟨z, hz, rfl⟩ := List.mem_map.1 hy
    exact h z hz

theorem listed_of_sliceOf {α β : Type} {f : α → β} {P : β → Prop} {Q : α → Prop} {s : Slice β}
    (h : SliceOf P s) (hf : ∀ x, P x → ∃ y, Q y ∧ f y = x) :
    ∃ l : List α, listed (l.map f) = s ∧ ∀ y ∈ l, Q y := by
  rcases h with rfl | ⟨l, rfl, hne, hl⟩
  · exact ⟨[], rfl, by simp⟩
  · obtain ⟨l', rfl, hl'⟩ := preimage (f := f) (P := Q) (l := l) fun x hx => hf x (hl x hx)
    refine ⟨l', ?_, hl'⟩
    cases l' with
    | nil => simp at hne
    | cons => rfl

theorem fullOf_ne {α β : Type} {f : α → β} {P : β → Prop} {x : NE α}
    (h : ∀ a ∈ x.list, P (f a)) : FullOf P (some (x.list.map f)) := by
  refine ⟨_, rfl, by simp [NE.list], ?_⟩
  intro y hy
  obtain ⟨z, hz, rfl⟩ := List.mem_map.1 hy
  exact h z hz

theorem ne_of_fullOf {α β : Type} {f : α → β} {P : β → Prop} {Q : α → Prop} {s : Slice β}
    (h : FullOf P s) (hf : ∀ x, P x → ∃ y, Q y ∧ f y = x) :
    ∃ l : NE α, some (l.list.map f) = s ∧ ∀ y ∈ l.list, Q y := by
  obtain ⟨l, rfl, hne, hl⟩ := h
  obtain ⟨l', rfl, hl'⟩ := preimage (f := f) (P := Q) (l := l) fun x hx => hf x (hl x hx)
  cases l' with
  | nil => simp at hne
  | cons a l' => exact ⟨⟨a, l'⟩, rfl, hl'⟩

theorem names_of_fullOf {s : Slice Str} (h : FullOf IsIdent s) :
    ∃ l : NE Str, some l.list = s ∧ Fine (parenNames l) := by
  obtain ⟨l, hl, hq⟩ := ne_of_fullOf (f := id) (Q := IsIdent) h fun x hx => ⟨x, hx, rfl⟩
  refine ⟨l, by simpa using hl, ?_⟩
  simp only [parenNames, fine_append, fine_cons, fine_ne, fine_nil, and_true]
  exact ⟨⟨ws_kw rfl, hq⟩, ws_kw rfl⟩

theorem fullOf_names {x : NE Str} (h : Fine (parenNames x)) : FullOf IsIdent (some x.list) := by
  simp only [parenNames, fine_append, fine_cons, fine_ne, fine_nil, and_true] at h
  exact ⟨_, rfl, by simp [NE.list], h.1.2⟩

/-! Extensions -/

theorem pair_fine {sep : TT} {p : Pair} (h : Fine (p.toks sep)) :
    IsIdent p.name ∧ IsLiteral p.value.text := by
  simp only [Pair.toks, fine_cons, fine_nil, and_true] at h
  exact ⟨h.1, ws_lit h.2.2⟩

theorem pair_of {sep : TT} (hs : okKw sep = true) {n v : Str} (hn : IsIdent n) (hv : IsLiteral v) :
    ∃ p : Pair, Fine (p.toks sep) ∧ p.name = n ∧ p.value.text = v := by
  obtain ⟨l, hl, rfl⟩ := lit_of hv
  refine ⟨⟨n, l⟩, ?_, rfl, rfl⟩
  simp only [Pair.toks, fine_cons, fine_nil, and_true]
  exact ⟨hn, ws_kw hs, hl⟩

theorem ext_express {e : ExtDecl} (h : Fine e.toks) : ExprExt e.denote := by
  obtain ⟨n, c, a⟩ := e
  simp only [ExtDecl.toks, fine_append, fine_cons, fine_nil, and_true] at h
  obtain ⟨⟨⟨_, hn⟩, hc⟩, _, ha, _⟩ := h
  refine ⟨hn, ?_, ha⟩
  cases c with
  | none => exact .inl rfl
  | some c =>
    simp only [fine_append, fine_cons, fine_nil, and_true, fine_ne] at hc
    refine .inr ⟨_, rfl, by simp [NE.list], ?_⟩
    intro x hx
    obtain ⟨y, hy, rfl⟩ := List.mem_map.1 hx
    exact pair_fine (hc.1.2 y hy)

theorem ext_of {e : Extension} (h : ExprExt e) : ∃ d : ExtDecl, Fine d.toks ∧ d.denote = e := by
  obtain ⟨n, c, a⟩ := e
  obtain ⟨hn, hc, ha⟩ := h
  have hconf : ∀ x : ExtConfig, ExprConfig x → ∃ y : Pair, Fine (y.toks .COL) ∧ y.config = x := by
    rintro ⟨n, v⟩ ⟨hn, hv⟩
    obtain ⟨p, hp, rfl, rfl⟩ := pair_of (sep := .COL) rfl hn hv
    exact ⟨p, hp, rfl⟩
  rcases hc with hc | hc
  · simp only at hc
    subst hc
    refine ⟨⟨n, none, a⟩, ?_, rfl⟩
    simp only [ExtDecl.toks, fine_append, fine_cons, fine_nil, and_true]
    exact ⟨⟨ws_kw rfl, hn⟩, ws_kw rfl, ha, ws_kw rfl⟩
  · obtain ⟨l, hl, hq⟩ := ne_of_fullOf (f := Pair.config) (Q := fun y => Fine (y.toks .COL))
      (show FullOf ExprConfig c from hc) hconf
    refine ⟨⟨n, some l, a⟩, ?_, by simp [ExtDecl.denote, ← hl]⟩
    simp only [ExtDecl.toks, fine_append, fine_cons, fine_nil, and_true, fine_ne]
    exact ⟨⟨⟨ws_kw rfl, hn⟩, ⟨ws_kw rfl, hq⟩, ws_kw rfl⟩, ws_kw rfl, ha, ws_kw rfl⟩

/-! Tables -/

theorem attr_express {c : Constraint} (h : Fine c.toks) : ExprAttr c.denote := by
  cases c with
  | primary => exact .inl ⟨.head _, rfl⟩
  | notNull => exact .inl ⟨.tail _ (.head _), rfl⟩
  | unique => exact .inl ⟨.tail _ (.tail _ (.head _)), rfl⟩
  | default l =>
    simp only [Constraint.toks, fine_cons] at h
    exact .inr (.inl ⟨rfl, _, rfl, ws_lit h.2.2.1⟩)
  | min l =>
    simp only [Constraint.toks, fine_cons] at h
    exact .inr (.inr ⟨.head _, _, rfl, h.2.2.1⟩)
  | max l =>
    simp only [Constraint.toks, fine_cons] at h
    exact .inr (.inr ⟨.tail _ (.head _), _, rfl, h.2.2.1⟩)
  | minLen l =>
    simp only [Constraint.toks, fine_cons] at h
    exact .inr (.inr ⟨.tail _ (.tail _ (.head _)), _, rfl, h.2.2.1⟩)
  | maxLen l =>
    simp only [Constraint.toks, fine_cons] at h
    exact .inr (.inr ⟨.tail _ (.tail _ (.tail _ (.head _))), _, rfl, h.2.2.1⟩)

theorem attr_of {a : Attribute} (h : ExprAttr a) : ∃ c : Constraint, Fine c.toks ∧ c.denote = a := by
  obtain ⟨ty, v⟩ := a
  rcases h with ⟨ht, hv⟩ | ⟨ht, v', hv, hl⟩ | ⟨ht, v', hv, hl⟩
  · simp only [List.mem_cons, List.not_mem_nil, or_false] at ht hv
    subst hv
    rcases ht with rfl | rfl | rfl
    · exact ⟨.primary, fine_cons.2 ⟨ws_kw rfl, fine_nil⟩, rfl⟩
    · exact ⟨.notNull, fine_cons.2 ⟨ws_kw rfl, fine_nil⟩, rfl⟩
    · exact ⟨.unique, fine_cons.2 ⟨ws_kw rfl, fine_nil⟩, rfl⟩
  · simp only at ht hv
    subst ht hv
    obtain ⟨l, hl', rfl⟩ := lit_of hl
    refine ⟨.default l, ?_, rfl⟩
    simp only [Constraint.toks, fine_cons, fine_nil, and_true]
    exact ⟨ws_kw rfl, ws_kw rfl, hl', ws_kw rfl⟩
  · simp only [List.mem_cons, List.not_mem_nil, or_false] at ht hv
    subst hv
    rcases ht with rfl | rfl | rfl | rfl
    · refine ⟨.min v', ?_, rfl⟩
      simp only [Constraint.toks, fine_cons, fine_nil, and_true]
      exact ⟨ws_kw rfl, ws_kw rfl, hl, ws_kw rfl⟩
    · refine ⟨.max v', ?_, rfl⟩
      simp only [Constraint.toks, fine_cons, fine_nil, and_true]
      exact ⟨ws_kw rfl, ws_kw rfl, hl, ws_kw rfl⟩
    · refine ⟨.minLen v', ?_, rfl⟩
      simp only [Constraint.toks, fine_cons, fine_nil, and_true]
      exact ⟨ws_kw rfl, ws_kw rfl, hl, ws_kw rfl⟩
    · refine ⟨.maxLen v', ?_, rfl⟩
      simp only [Constraint.toks, fine_cons, fine_nil, and_true]
      exact ⟨ws_kw rfl, ws_kw rfl, hl, ws_kw rfl⟩

theorem column_express {c : ColDecl} (h : Fine c.toks) : ExprColumn c.denote := by
  simp only [ColDecl.toks, fine_append, fine_cons, fine_nil, and_true, fine_flatMap] at h
  refine ⟨h.1.1, ?_, sliceOf_listed fun x hx => attr_express (h.2 x hx)⟩
  simp only [ColDecl.denote]
  cases c.type
  · exact .head _
  · exact .tail _ (.head _)
  · exact .tail _ (.tail _ (.head _))

theorem column_of {c : Column} (h : ExprColumn c) : ∃ d : ColDecl, Fine d.toks ∧ d.denote = c := by
  obtain ⟨n, ty, as⟩ := c
  obtain ⟨hn, ht, ha⟩ := h
  obtain ⟨l, hl, hq⟩ := listed_of_sliceOf (f := Constraint.denote) (Q := fun y => Fine y.toks) ha
    fun x hx => attr_of hx
  have hty : ∃ t : ColTy, WellSpelt t.tok ∧ t.denote = ty := by
    simp only [List.mem_cons, List.not_mem_nil, or_false] at ht
    rcases ht with rfl | rfl | rfl
    · exact ⟨.int, ws_kw rfl, rfl⟩
    · exact ⟨.text, ws_kw rfl, rfl⟩
    · exact ⟨.blob, ws_kw rfl, rfl⟩
  obtain ⟨t, hw, rfl⟩ := hty
  simp only at hl
  subst hl
  refine ⟨⟨n, t, l⟩, ?_, rfl⟩
  simp only [ColDecl.toks, fine_append, fine_cons, fine_nil, and_true, fine_flatMap]
  exact ⟨⟨hn, hw⟩, hq⟩

theorem index_express {i : IdxDecl} (h : Fine i.toks) : ExprIndex i.denote := by
  simp only [IdxDecl.toks, fine_append, fine_cons, fine_nil, and_true] at h
  obtain ⟨⟨⟨n, hn, hi⟩, _⟩, hc⟩ := h
  simp only [List.cons.injEq, true_and] at hn
  refine ⟨?_, fullOf_names hc, ?_⟩
  · simp only [IdxDecl.denote, hn]; exact hi
  · simp only [IdxDecl.denote]
    cases i.kind
    · exact .head _
    · exact .tail _ (.head _)
    · exact .tail _ (.tail _ (.head _))

theorem index_of {i : Index} (h : ExprIndex i) : ∃ d : IdxDecl, Fine d.toks ∧ d.denote = i := by
  obtain ⟨n, cs, ty⟩ := i
  obtain ⟨hn, hc, ht⟩ := h
  obtain ⟨l, hl, hq⟩ := names_of_fullOf hc
  have hty : ∃ t : IdxKind, WellSpelt t.tok ∧ t.denote = ty := by
    simp only [List.mem_cons, List.not_mem_nil, or_false] at ht
    rcases ht with rfl | rfl | rfl
    · exact ⟨.primary, ws_kw rfl, rfl⟩
    · exact ⟨.unique, ws_kw rfl, rfl⟩
    · exact ⟨.index, ws_kw rfl, rfl⟩
  obtain ⟨t, hw, rfl⟩ := hty
  simp only at hl
  subst hl
  refine ⟨⟨n, t, l⟩, ?_, rfl⟩
  simp only [IdxDecl.toks, fine_append, fine_cons, fine_nil, and_true]
  exact ⟨⟨⟨n, rfl, hn⟩, hw⟩, hq⟩

theorem fkAct_express (a : FkAct) : ExprFkAct a.denote := by
  obtain ⟨on, w, act⟩ := a
  constructor
  · cases on
    · exact .head _
    · exact .tail _ (.head _)
  · cases act
    · exact .head _
    · exact .tail _ (.head _)
    · exact .tail _ (.tail _ (.head _))
    · exact .tail _ (.tail _ (.tail _ (.head _)))
    · exact .tail _ (.tail _ (.tail _ (.tail _ (.head _))))

theorem fkAct_of {a : FKAction} (h : ExprFkAct a) : ∃ d : FkAct, Fine d.toks ∧ d.denote = a := by
  obtain ⟨o, x⟩ := a
  obtain ⟨ho, hx⟩ := h
  simp only [List.mem_cons, List.not_mem_nil, or_false] at ho hx
  have h1 : ∃ t : FkOn, WellSpelt t.tok ∧ t.denote = o := by
    rcases ho with rfl | rfl
    · exact ⟨.update, ws_kw rfl, rfl⟩
    · exact ⟨.delete, ws_kw rfl, rfl⟩
  have h2 : ∃ t : FkDo, WellSpelt t.tok ∧ t.denote = x := by
    rcases hx with rfl | rfl | rfl | rfl | rfl
    · exact ⟨.noAction, ws_kw rfl, rfl⟩
    · exact ⟨.cascade, ws_kw rfl, rfl⟩
    · exact ⟨.setNull, ws_kw rfl, rfl⟩
    · exact ⟨.setDefault, ws_kw rfl, rfl⟩
    · exact ⟨.restrict, ws_kw rfl, rfl⟩
  obtain ⟨t, ht, rfl⟩ := h1
  obtain ⟨u, hu, rfl⟩ := h2
  refine ⟨⟨t, false, u⟩, ?_, rfl⟩
  simp only [FkAct.toks, fine_append, fine_cons, fine_nil, and_true, Bool.false_eq_true, if_false]
  exact ⟨ht, hu⟩

theorem fk_express {f : FkDecl} (h : Fine f.toks) : ExprFk f.denote := by
  simp only [FkDecl.toks, fine_append, fine_cons, fine_nil, and_true, fine_flatMap] at h
  obtain ⟨⟨⟨⟨_, hc⟩, _, ht⟩, hp⟩, _⟩ := h
  exact ⟨fullOf_names hc, fullOf_names hp, ht, sliceOf_listed fun x _ => fkAct_express x⟩

theorem fk_of {f : ForeignKey} (h : ExprFk f) : ∃ d : FkDecl, Fine d.toks ∧ d.denote = f := by
  obtain ⟨ck, pk, pt, as⟩ := f
  obtain ⟨hc, hp, ht, ha⟩ := h
  obtain ⟨c, hc', hcf⟩ := names_of_fullOf hc
  obtain ⟨p, hp', hpf⟩ := names_of_fullOf hp
  obtain ⟨l, hl, hq⟩ := listed_of_sliceOf (f := FkAct.denote) (Q := fun y => Fine y.toks) ha
    fun x hx => fkAct_of hx
  simp only at hc' hp' hl
  subst hc' hp' hl
  refine ⟨⟨false, c, false, pt, p, l⟩, ?_, rfl⟩
  simp only [FkDecl.toks, fine_append, fine_cons, fine_nil, and_true, fine_flatMap,
    Bool.false_eq_true, if_false]
  exact ⟨⟨⟨⟨ws_kw rfl, hcf⟩, ws_kw rfl, ht⟩, hpf⟩, hq⟩

theorem table_express {t : TableDecl} (h : Fine t.toks) : ExprTable t.denote := by
  simp only [TableDecl.toks, fine_append, fine_cons, fine_nil, and_true, fine_flatMap, fine_ne] at h
  obtain ⟨⟨⟨⟨⟨_, hn, _⟩, hc⟩, hi⟩, _⟩, _⟩ := h
  refine ⟨hn, fullOf_ne fun a ha => column_express (hc a ha), ?_, ?_⟩
  · exact sliceOf_listed fun x hx => index_express ((hi _ (mem_indexes hx)).2)
  · exact sliceOf_listed fun x hx => fk_express ((hi _ (mem_fks hx)).2)

theorem table_of {t : Table} (h : ExprTable t) : ∃ d : TableDecl, Fine d.toks ∧ d.denote = t := by
  obtain ⟨n, cs, is, fs⟩ := t
  obtain ⟨hn, hc, hi, hf⟩ := h
  obtain ⟨c, hc', hcf⟩ := ne_of_fullOf (f := ColDecl.denote) (Q := fun y => Fine y.toks) hc
    fun x hx => column_of hx
  obtain ⟨i, hi', hif⟩ := listed_of_sliceOf (f := IdxDecl.denote) (Q := fun y => Fine y.toks) hi
    fun x hx => index_of hx
  obtain ⟨f, hf', hff⟩ := listed_of_sliceOf (f := FkDecl.denote) (Q := fun y => Fine y.toks) hf
    fun x hx => fk_of hx
  simp only at hc' hi' hf'
  subst hc' hi' hf'
  refine ⟨⟨n, c, i.map .index ++ f.map .fk, false⟩, ?_, ?_⟩
  · simp only [TableDecl.toks, fine_append, fine_cons, fine_nil, and_true, fine_flatMap, fine_ne,
      Bool.false_eq_true, if_false]
    refine ⟨⟨⟨⟨ws_kw rfl, hn, ws_kw rfl⟩, hcf⟩, ?_⟩, ws_kw rfl⟩
    intro x hx
    refine ⟨ws_kw rfl, ?_⟩
    rcases List.mem_append.1 hx with hx | hx
    · obtain ⟨y, hy, rfl⟩ := List.mem_map.1 hx; exact hif y hy
    · obtain ⟨y, hy, rfl⟩ := List.mem_map.1 hx; exact hff y hy
  · have e1 : TableDecl.indexes ⟨n, c, i.map .index ++ f.map .fk, false⟩ = i := by
      simp [TableDecl.indexes, List.filterMap_append, List.filterMap_map, Function.comp_def]
    have e2 : TableDecl.fks ⟨n, c, i.map .index ++ f.map .fk, false⟩ = f := by
      simp [TableDecl.fks, List.filterMap_append, List.filterMap_map, Function.comp_def]
    simp only [TableDecl.denote, e1, e2]

/-! Actions -/

theorem glue_app (a b : List Tok) : glued (a ++ b) = glued a ++ glued b := by simp [glued]

theorem glued_pairs (x : NE Pair) : glued (x.toks (Pair.toks .ASSIGN)) =
    commaText (glued (Pair.toks .ASSIGN x.head)) (x.tail.map fun y => glued (Pair.toks .ASSIGN y)) := by
  obtain ⟨x, xs⟩ := x
  simp only [NE.toks, commaText, glue_app]
  congr 1
  induction xs with
  | nil => rfl
  | cons y ys ih =>
    simp only [List.flatMap_cons, List.map_cons, glue_app, ih]
    rfl

theorem pair_text (p : Pair) : glued (p.toks .ASSIGN) = p.name ++ '=' :: p.value.text := by
  obtain ⟨n, v⟩ := p
  cases v <;> simp [glued, Pair.toks, idTok, kw, TT.fixed, Lit.tok, Lit.text, numTok]

theorem annot_express {a : Annot} (h : Fine a.toks) : ExprAnnot a.denote := by
  simp only [Annot.toks, fine_append, fine_cons, fine_nil, and_true, fine_ne] at h
  obtain ⟨⟨⟨⟨n, hn, hi⟩, _⟩, hp⟩, _⟩ := h
  simp only [List.cons.injEq, true_and] at hn
  have hpair : ∀ y ∈ a.attrs.list, ExprAnnotAttr (glued (Pair.toks .ASSIGN y)) := by
    intro y hy
    obtain ⟨h1, h2⟩ := pair_fine (hp y hy)
    exact ⟨y.name, y.value.text, pair_text y, h1, h2⟩
  refine ⟨a.target, glued (Pair.toks .ASSIGN a.attrs.head),
    a.attrs.tail.map fun y => glued (Pair.toks .ASSIGN y), ?_, hn ▸ hi, ?_⟩
  · simp only [Annot.denote]
    rw [glued_pairs]
    simp
  · intro y hy
    rcases List.mem_cons.1 hy with rfl | hy
    · exact hpair _ (by simp [NE.list])
    · obtain ⟨z, hz, rfl⟩ := List.mem_map.1 hy
      exact hpair _ (by simp [NE.list, hz])

theorem annot_of {s : Str} (h : ExprAnnot s) : ∃ a : Annot, Fine a.toks ∧ a.denote = s := by
  obtain ⟨target, x, xs, rfl, ht, hall⟩ := h
  have hp : ∀ y, ExprAnnotAttr y → ∃ p : Pair, Fine (p.toks .ASSIGN) ∧
      glued (p.toks .ASSIGN) = y := by
    rintro y ⟨n, v, rfl, hn, hv⟩
    obtain ⟨p, hp, rfl, rfl⟩ := pair_of (sep := .ASSIGN) rfl hn hv
    exact ⟨p, hp, pair_text p⟩
  obtain ⟨p, hpf, rfl⟩ := hp x (hall x (by simp))
  obtain ⟨ps, rfl, hps⟩ := preimage (f := fun p : Pair => glued (p.toks .ASSIGN))
    (P := fun p => Fine (p.toks .ASSIGN)) (l := xs) fun y hy => hp y (hall y (by simp [hy]))
  refine ⟨⟨target, ⟨p, ps⟩⟩, ?_, ?_⟩
  · simp only [Annot.toks, fine_append, fine_cons, fine_nil, and_true, fine_ne, NE.list, List.mem_cons]
    refine ⟨⟨⟨⟨target, rfl, ht⟩, ws_kw rfl⟩, ?_⟩, ws_kw rfl⟩
    rintro a (rfl | ha)
    · exact hpf
    · exact hps a ha
  · simp only [Annot.denote]
    rw [glued_pairs]
    simp

theorem stmt_express {s : Stmt} (h : Fine s.toks) : ExprStmt s.denote := by
  cases s with
  | sql q =>
    simp only [Stmt.toks, fine_cons] at h
    exact .inl ⟨q, by simp [Stmt.denote, Stmt.toks, glued, kw, TT.fixed], h.1⟩
  | call rs ext m args => exact .inr ⟨rs, ext, m, args, rfl, h⟩

theorem stmt_of {s : Str} (h : ExprStmt s) : ∃ d : Stmt, Fine d.toks ∧ d.denote = s := by
  rcases h with ⟨q, rfl, hq⟩ | ⟨rs, ext, m, args, rfl, h⟩
  · refine ⟨.sql q, ?_, by simp [Stmt.denote, Stmt.toks, glued, kw, TT.fixed]⟩
    simp only [Stmt.toks, fine_cons, fine_nil, and_true]
    exact ⟨hq, ws_kw rfl⟩
  · exact ⟨.call rs ext m args, h, rfl⟩

theorem body_express {b : NE Stmt} (h : Fine (bodyToks b)) :
    FullOf ExprStmt (some (b.list.map Stmt.denote)) := by
  simp only [bodyToks, fine_append, fine_cons, fine_nil, and_true, fine_flatMap] at h
  exact fullOf_ne fun a ha => stmt_express (h.1.2 a ha)

theorem body_of {s : Slice Str} (h : FullOf ExprStmt s) :
    ∃ b : NE Stmt, Fine (bodyToks b) ∧ some (b.list.map Stmt.denote) = s := by
  obtain ⟨b, hb, hq⟩ := ne_of_fullOf (f := Stmt.denote) (Q := fun y => Fine y.toks) h
    fun x hx => stmt_of hx
  refine ⟨b, ?_, hb⟩
  simp only [bodyToks, fine_append, fine_cons, fine_nil, and_true, fine_flatMap]
  exact ⟨⟨ws_kw rfl, hq⟩, ws_kw rfl⟩

theorem fine_vars {x : CommaList Str} : Fine (x.toks fun s => [varTok s]) ↔ ∀ a ∈ x.list, IsVar a := by
  rw [fine_comma]
  simp only [fine_cons, fine_nil, and_true]
  exact Iff.rfl

theorem action_express {a : ActionDecl} (h : Fine a.toks) : ExprAction a.denote := by
  simp only [ActionDecl.toks, fine_append, fine_cons, fine_nil, and_true, fine_flatMap] at h
  obtain ⟨⟨⟨⟨⟨ha, _, hn, _⟩, hp⟩, _⟩, _⟩, hb⟩ := h
  refine ⟨hn, sliceOf_listed fun x hx => annot_express (ha x hx), ?_, ?_, ?_, body_express hb⟩
  · have := sliceOf_listed (f := id) (P := IsVar) (l := a.params.list) (fine_vars.1 hp)
    simpa [ActionDecl.denote] using this
  · simp only [ActionDecl.denote]; split <;> simp
  · simp only [ActionDecl.denote]; split <;> simp

theorem action_of {a : Action} (h : ExprAction a) :
    ∃ d : ActionDecl, (Fine d.toks ∧ modifierFault d.modifiers = none) ∧ d.denote = a := by
  obtain ⟨n, as, ins, pub, mt, aux, ss⟩ := a
  obtain ⟨hn, ha, hi, hm, hx, hs⟩ := h
  simp only at ha hi hm hx hs hn
  obtain ⟨al, rfl, hal⟩ := listed_of_sliceOf (f := Annot.denote) (Q := fun y => Fine y.toks) ha
    fun x hx => annot_of hx
  obtain ⟨b, hb, rfl⟩ := body_of hs
  obtain ⟨ps, rfl, hps⟩ := listed_of_sliceOf (f := id) (Q := IsVar) hi fun x hx => ⟨x, hx, rfl⟩
  -- the parameters
  have hpar : ∃ c : CommaList Str, c.list = ps := by
    cases ps with
    | nil => exact ⟨⟨none, []⟩, rfl⟩
    | cons p ps => exact ⟨⟨some p, ps⟩, rfl⟩
  obtain ⟨c, rfl⟩ := hpar
  -- the modifiers
  have hmod : ∃ ms : List Modifier, modifierFault ms = none ∧ ms.contains .pub = pub ∧
      (if ms.contains .view then "view".toList else "update".toList) = mt ∧
      (if ms.contains .owner then some ["owner".toList] else none) = aux := by
    simp only [List.mem_cons, List.not_mem_nil, or_false] at hm
    rcases hm with rfl | rfl <;> rcases hx with rfl | rfl <;> cases pub
    · exact ⟨[.view], rfl, rfl, rfl, rfl⟩
    · exact ⟨[.pub, .view], rfl, rfl, rfl, rfl⟩
    · exact ⟨[.view, .owner], rfl, rfl, rfl, rfl⟩
    · exact ⟨[.pub, .view, .owner], rfl, rfl, rfl, rfl⟩
    · exact ⟨[], rfl, rfl, rfl, rfl⟩
    · exact ⟨[.pub], rfl, rfl, rfl, rfl⟩
    · exact ⟨[.owner], rfl, rfl, rfl, rfl⟩
    · exact ⟨[.pub, .owner], rfl, rfl, rfl, rfl⟩
  obtain ⟨ms, hf, h1, h2, h3⟩ := hmod
  refine ⟨⟨al, n, c, ms, b⟩, ⟨?_, hf⟩, ?_⟩
  · simp only [ActionDecl.toks, fine_append, fine_cons, fine_nil, and_true, fine_flatMap]
    refine ⟨⟨⟨⟨⟨hal, ws_kw rfl, hn, ws_kw rfl⟩, fine_vars.2 hps⟩, ws_kw rfl⟩, ?_⟩, hb⟩
    intro t ht
    obtain ⟨m, _, rfl⟩ := List.mem_map.1 ht
    cases m <;> exact ws_kw rfl
  · simp only [ActionDecl.denote, h1, h2, h3, List.map_id]

theorem init_express {b : NE Stmt} (h : Fine (Decl.init b).toks) : ExprInit (initAction b) := by
  simp only [Decl.toks, fine_append] at h
  exact ⟨rfl, rfl, rfl, rfl, rfl, rfl, body_express h.2⟩

theorem init_of {a : Action} (h : ExprInit a) :
    ∃ b : NE Stmt, Fine (Decl.init b).toks ∧ initAction b = a := by
  obtain ⟨n, as, ins, pub, mt, aux, ss⟩ := a
  obtain ⟨h1, h2, h3, h4, h5, h6, hs⟩ := h
  simp only at h1 h2 h3 h4 h5 h6 hs
  subst h1 h2 h3 h4 h5 h6
  obtain ⟨b, hb, rfl⟩ := body_of hs
  refine ⟨b, ?_, rfl⟩
  simp only [Decl.toks, fine_append, fine_cons, fine_nil, and_true]
  exact ⟨⟨ws_kw rfl, ws_kw rfl, ws_kw rfl⟩, hb⟩

/-! Programs -/

theorem filterMap_nothing {α β : Type} (l : List α) :
    l.filterMap (fun _ => (none : Option β)) = [] := by
  induction l with
  | nil => rfl
  | cons _ _ ih => simp [ih]

theorem mem_inits' {p : Program} {b : NE Stmt} (h : b ∈ p.inits) : .init b ∈ p.decls := by
  unfold Program.inits at h
  obtain ⟨x, hx, he⟩ := List.mem_filterMap.1 h
  cases x <;> simp at he
  subst he
  exact hx

theorem program_express {p : Program} (h : Fine p.toks) (hf : p.fault = none) :
    Expressible p.denote := by
  simp only [Program.toks, fine_append, fine_cons, fine_nil, and_true, fine_flatMap] at h
  obtain ⟨⟨⟨_, hn, _⟩, he⟩, hd⟩ := h
  refine ⟨rfl, hn, ?_, ?_, ?_⟩
  · exact sliceOf_listed fun x hx => table_express (hd _ (mem_tables hx))
  · exact sliceOf_listed fun x hx => ext_express (he x hx)
  · by_cases hne : p.actions.map ActionDecl.denote ++ p.inits.map initAction = []
    · left
      simp only [Program.denote, hne]; rfl
    · right
      refine ⟨p.actions.map ActionDecl.denote, p.inits.map initAction, ?_, hne, ?_, ?_, ?_⟩
      · simp only [Program.denote, listed]
        rw [if_neg (by simpa using hne)]
      · intro a ha
        obtain ⟨x, hx, rfl⟩ := List.mem_map.1 ha
        exact action_express (hd _ (mem_actions hx))
      · simp only [Program.fault] at hf
        split at hf
        · simp at hf
        · simp; omega
      · intro a ha
        obtain ⟨x, hx, rfl⟩ := List.mem_map.1 ha
        exact init_express (hd _ (mem_inits' hx))

theorem program_of {s : Schema} (h : Expressible s) :
    ∃ p : Program, Fine p.toks ∧ p.fault = none ∧ p.denote = s := by
  obtain ⟨ow, n, ts, as, es⟩ := s
  obtain ⟨ho, hn, ht, he, ha⟩ := h
  simp only at ho hn ht he ha
  subst ho
  obtain ⟨tl, rfl, htl⟩ := listed_of_sliceOf (f := TableDecl.denote) (Q := fun y => Fine y.toks) ht
    fun x hx => table_of hx
  obtain ⟨el, rfl, hel⟩ := listed_of_sliceOf (f := ExtDecl.denote) (Q := fun y => Fine y.toks) he
    fun x hx => ext_of hx
  have hact : ∃ (al : List ActionDecl) (il : List (NE Stmt)),
      listed (al.map ActionDecl.denote ++ il.map initAction) = as ∧
      (∀ a ∈ al, Fine a.toks ∧ modifierFault a.modifiers = none) ∧ il.length ≤ 1 ∧
      ∀ b ∈ il, Fine (Decl.init b).toks := by
    rcases ha with rfl | ⟨a, i, rfl, hne, h1, h2, h3⟩
    · exact ⟨[], [], rfl, by simp, by simp, by simp⟩
    · obtain ⟨al, rfl, hal⟩ := preimage (f := ActionDecl.denote)
        (P := fun d => Fine d.toks ∧ modifierFault d.modifiers = none) fun x hx => action_of (h1 x hx)
      obtain ⟨il, rfl, hil⟩ := preimage (f := initAction) (P := fun b => Fine (Decl.init b).toks)
        fun x hx => init_of (h3 x hx)
      refine ⟨al, il, ?_, hal, by simpa using h2, hil⟩
      unfold listed
      rw [if_neg (by simpa using hne)]
  obtain ⟨al, il, rfl, hal, hlen, hil⟩ := hact
  have e1 : Program.tables ⟨n, el, tl.map .table ++ (al.map .action ++ il.map .init)⟩ = tl := by
    simp [Program.tables, List.filterMap_append, List.filterMap_map, Function.comp_def, filterMap_nothing]
  have e2 : Program.actions ⟨n, el, tl.map .table ++ (al.map .action ++ il.map .init)⟩ = al := by
    simp [Program.actions, List.filterMap_append, List.filterMap_map, Function.comp_def, filterMap_nothing]
  have e3 : Program.inits ⟨n, el, tl.map .table ++ (al.map .action ++ il.map .init)⟩ = il := by
    simp [Program.inits, List.filterMap_append, List.filterMap_map, Function.comp_def, filterMap_nothing]
  refine ⟨⟨n, el, tl.map .table ++ (al.map .action ++ il.map .init)⟩, ?_, ?_, ?_⟩
  · simp only [Program.toks, fine_append, fine_cons, fine_nil, and_true, fine_flatMap]
    refine ⟨⟨⟨ws_kw rfl, hn, ws_kw rfl⟩, hel⟩, ?_⟩
    intro d hd
    simp only [List.mem_append, List.mem_map] at hd
    rcases hd with ⟨x, hx, rfl⟩ | ⟨x, hx, rfl⟩ | ⟨x, hx, rfl⟩
    · exact htl x hx
    · exact (hal x hx).1
    · exact hil x hx
  · simp only [Program.fault, e2, e3]
    rw [if_neg (by omega)]
    exact List.findSome?_eq_none_iff.2 fun a ha => (hal a ha).2
  · simp only [Program.denote, e1, e2, e3]

end Verif
