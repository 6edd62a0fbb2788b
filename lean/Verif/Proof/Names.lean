import Verif.Proof.Meaning
/-!
# Where tokens of a program come from
-/

namespace Verif

theorem NE.mem_toks {α : Type} {f : α → List Tok} {x : NE α} {a : α} (h : a ∈ x.list) :
    f a ⊆ x.toks f := by
  intro t ht
  simp only [NE.list, List.mem_cons] at h
  simp only [NE.toks, List.mem_append, List.mem_flatMap, List.mem_cons]
  rcases h with rfl | h
  · exact .inl ht
  · exact .inr ⟨a, h, .inr ht⟩

theorem CommaList.mem_toks {α : Type} {f : α → List Tok} {x : CommaList α} {a : α}
    (h : a ∈ x.list) : f a ⊆ x.toks f := by
  intro t ht
  simp only [CommaList.list, List.mem_append] at h
  simp only [CommaList.toks, List.mem_append, List.mem_flatMap, List.mem_cons]
  rcases h with h | h
  · exact .inl ⟨a, h, ht⟩
  · exact .inr ⟨a, h, .inr ht⟩

theorem ext_toks_sub {p : Program} {e : ExtDecl} (h : e ∈ p.exts) : e.toks ⊆ p.toks := by
  intro t ht
  simp only [Program.toks, List.mem_append, List.mem_flatMap]
  exact .inl (.inr ⟨e, h, ht⟩)

theorem table_toks_sub {p : Program} {t : TableDecl} (h : t ∈ p.tables) : t.toks ⊆ p.toks :=
  fun _ hx => decl_toks_sub (mem_tables h) hx

theorem action_toks_sub {p : Program} {t : ActionDecl} (h : t ∈ p.actions) : t.toks ⊆ p.toks :=
  fun _ hx => decl_toks_sub (mem_actions h) hx

theorem column_toks_sub {t : TableDecl} {c : ColDecl} (h : c ∈ t.columns.list) :
    c.toks ⊆ t.toks := by
  intro x hx
  have := NE.mem_toks (f := ColDecl.toks) h hx
  simp only [TableDecl.toks, List.mem_append]
  exact .inl (.inl (.inl (.inr this)))

theorem item_toks_sub {t : TableDecl} {i : TableItem} (h : i ∈ t.items) : i.toks ⊆ t.toks := by
  intro x hx
  simp only [TableDecl.toks, List.mem_append, List.mem_flatMap]
  exact .inl (.inl (.inr ⟨i, h, by simp [hx]⟩))

theorem mem_indexes {t : TableDecl} {i : IdxDecl} (h : i ∈ t.indexes) : .index i ∈ t.items := by
  unfold TableDecl.indexes at h
  obtain ⟨x, hx, he⟩ := List.mem_filterMap.1 h
  cases x <;> simp at he
  subst he
  exact hx

theorem mem_fks {t : TableDecl} {i : FkDecl} (h : i ∈ t.fks) : .fk i ∈ t.items := by
  unfold TableDecl.fks at h
  obtain ⟨x, hx, he⟩ := List.mem_filterMap.1 h
  cases x <;> simp at he
  subst he
  exact hx

theorem parenNames_mem {x : NE Str} {s : Str} (h : s ∈ x.list) : idTok s ∈ parenNames x := by
  have : idTok s ∈ x.toks (fun s => [idTok s]) := NE.mem_toks (f := fun s => [idTok s]) h (by simp)
  simp only [parenNames, List.mem_append]
  exact .inl (.inr this)

theorem lexeme_var {x : Str} {h : Bool} (hl : Lexeme ⟨.PARAM_OR_VAR, x⟩ h) :
    ∃ y, x = '$' :: y ∧ IsName y := by
  obtain ⟨y, e, hy⟩ := hl.form.2.2.2.1 rfl
  exact ⟨y, e, isName_iff.2 hy⟩

theorem lexeme_index {x : Str} {h : Bool} (hl : Lexeme ⟨.INDEX_NAME, x⟩ h) :
    ∃ y, x = '#' :: y ∧ IsName y := by
  obtain ⟨y, e, hy⟩ := hl.form.2.2.1 rfl
  exact ⟨y, e, isName_iff.2 hy⟩

theorem lexeme_block {x : Str} {h : Bool} (hl : Lexeme ⟨.BLOCK_VAR_OR_ANNOTATION, x⟩ h) :
    ∃ y, x = '@' :: y ∧ IsName y := by
  obtain ⟨y, e, hy⟩ := hl.form.2.2.2.2.1 rfl
  exact ⟨y, e, isName_iff.2 hy⟩

end Verif
