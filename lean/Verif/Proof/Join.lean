import Verif.Spec.Join
import Verif.Proof.Edit
import Verif.Proof.CommentOut
/-!
# Two files in one
-/

namespace Verif

theorem nodup_names_append {α : Type} {f : α → Str} {l a b : List α} (h : l.Perm (a ++ b)) :
    (l.map f).Nodup ↔ (a.map f).Nodup ∧ (b.map f).Nodup ∧ ∀ n ∈ a.map f, n ∉ b.map f := by
  rw [(h.map f).nodup_iff, List.map_append, List.nodup_append]
  constructor
  · rintro ⟨x, y, z⟩
    exact ⟨x, y, fun n hn hn' => z n hn n hn' rfl⟩
  · rintro ⟨x, y, z⟩
    exact ⟨x, y, fun n hn m hm e => z n hn (e ▸ hm)⟩

theorem valid_join (env : Env) {s a b : Schema} (ht : s.tables.elems.Perm (a.tables.elems ++ b.tables.elems))
    (ha : s.actions.elems.Perm (a.actions.elems ++ b.actions.elems))
    (he : s.extensions.elems.Perm (a.extensions.elems ++ b.extensions.elems))
    (h₁ : ValidSchema env a) (h₂ : ValidSchema env b) : ValidSchema env s ↔ Apart a b := by
  have g₁ : Grows a s := ⟨fun u hu => ht.mem_iff.2 (List.mem_append_left _ hu),
    fun n hn => by
      unfold Schema.actionNames at *
      rw [(ha.map _).mem_iff, List.map_append]
      exact List.mem_append_left _ hn,
    fun n hn => by
      unfold Schema.extNames at *
      rw [(he.map _).mem_iff, List.map_append]
      exact List.mem_append_left _ hn⟩
  have g₂ : Grows b s := ⟨fun u hu => ht.mem_iff.2 (List.mem_append_right _ hu),
    fun n hn => by
      unfold Schema.actionNames at *
      rw [(ha.map _).mem_iff, List.map_append]
      exact List.mem_append_right _ hn,
    fun n hn => by
      unfold Schema.extNames at *
      rw [(he.map _).mem_iff, List.map_append]
      exact List.mem_append_right _ hn⟩
  rw [valid_iff] at h₁ h₂ ⊢
  obtain ⟨h1, h2, h3, h4, h5⟩ := h₁
  obtain ⟨k1, k2, k3, k4, k5⟩ := h₂
  have e1 := nodup_names_append (f := fun e : Extension => if e.alias = [] then e.name else e.alias) he
  have e2 := nodup_names_append (f := Table.name) ht
  have e3 := nodup_names_append (f := Action.name) ha
  constructor
  · rintro ⟨x, y, z, _⟩
    exact ⟨(e1.1 x).2.2, (e2.1 y).2.2, (e3.1 z).2.2⟩
  · rintro ⟨x, y, z⟩
    refine ⟨e1.2 ⟨h1, k1, x⟩, e2.2 ⟨h2, k2, y⟩, e3.2 ⟨h3, k3, z⟩, fun t hm => ?_, fun t hm => ?_⟩
    · rcases List.mem_append.1 (ht.mem_iff.1 hm) with hm | hm
      · exact (h4 t hm).mono g₁
      · exact (k4 t hm).mono g₂
    · rcases List.mem_append.1 (ha.mem_iff.1 hm) with hm | hm
      · exact (h5 t hm).mono g₁
      · exact (k5 t hm).mono g₂

theorem Program.join_tables (p q : Program) : (p.join q).tables = p.tables ++ q.tables := by
  simp [Program.join, Program.tables]

theorem Program.join_actions (p q : Program) : (p.join q).actions = p.actions ++ q.actions := by
  simp [Program.join, Program.actions]

theorem Program.join_inits (p q : Program) : (p.join q).inits = p.inits ++ q.inits := by
  simp [Program.join, Program.inits]

/-- Layout and another file after a file. -/
theorem tokenises_join {s t : Str} {p : Program} (hp : Writes s p) (hl : NoOpenComment s) {c : Char} {sep : Str}
    (hsep : Layout (c :: sep)) {l₃ : List (Tok × Bool)} (h₃ : Tokenises t l₃) :
    ∃ l, Tokenises (s ++ (c :: sep) ++ t) l ∧ visible l = p.toks ++ visible l₃ := by
  obtain ⟨la, ht, hv⟩ := hp
  obtain ⟨hverb, hds⟩ := sentence_calm ht (by rw [hv]; exact p.sentence)
  have hlast : ∀ x, la.getLast? = some x → x.1.ty ≠ .SQL_STMT ∧ x.1.ty ≠ .LINE_COMMENT ∧
      (c = '/' → x.1.ty ≠ .DIV) := by
    intro x hx
    have hmem : x ∈ la := List.mem_of_getLast? hx
    obtain ⟨m, hm⟩ : ∃ m, la = m ++ [x] := List.getLast?_eq_some_iff.1 hx
    have hcases : x.1.ty ∈ [TT.WS, .TERMINATOR, .BLOCK_COMMENT, .LINE_COMMENT] ∨ x.1.ty = .SCOL ∨
        x.1.ty = .R_BRACE := by
      cases hxb : x.2 with
      | true => exact .inl ((ht.hidden x hmem).1 hxb)
      | false =>
        right
        obtain ⟨l, z, hz, hzc⟩ := Program.toks_last p
        have : visible [x] = [x.1] := by simp [visible, hxb]
        rw [hm, visible_append, this, hz] at hv
        have := (List.append_inj' hv rfl).2
        simp only [List.cons.injEq, and_true] at this
        rw [this]
        rcases hzc with rfl | rfl
        · exact .inl rfl
        · exact .inr rfl
    refine ⟨?_, ?_, fun _ => ?_⟩
    · intro e; rw [e] at hcases; revert hcases; decide
    · intro e
      obtain ⟨r, hrm, hty, _, hcl⟩ := (ht.lexemes x hmem).rule
      have hx := hcl.2.1
      rw [(rules_by_ty r hrm).2.2.2.2.2.1 (hty.trans e)] at hx
      obtain ⟨b, hb, n1, _⟩ := line_iff.1 hx
      have htx := ht.text
      rw [hm] at htx
      exact n1 (hl (m.flatMap (·.1.text)) b (by rw [← htx]; simp [hb]))
    · intro e; rw [e] at hcases; revert hcases; decide
  obtain ⟨k, hk, hvk⟩ := put_layout (s₂ := []) (l₂ := []) hsep h₃ la s (by simpa using ht) ht.text hlast hverb hds
  exact ⟨la ++ k ++ l₃, by simpa using hk, by simp [visible_append, hvk, hv]⟩

end Verif
