import Verif.Proof.ParseKF
import Verif.Proof.Digram
/-!
# Inserting layout into a text
-/

namespace Verif

theorem Tokenises.hidden {s l} (h : Tokenises s l) :
    ∀ p ∈ l, p.2 = true ↔ p.1.ty ∈ [TT.WS, .TERMINATOR, .BLOCK_COMMENT, .LINE_COMMENT] := by
  intro p hp
  obtain ⟨r, hr, hty, hh, _⟩ := (h.lexemes p hp).rule
  rw [← hty, ← hh]
  exact (rules_by_ty r hr).2.2.2.2.2.2.2.2

theorem lexAll_of {s l} (h : Tokenises s l) : lexAll s = some (visible l) :=
  lexAll_iff _ _ |>.2 ⟨l, h, rfl⟩

/-- The tokens do not change. -/
theorem lexAll_insert {sep s₁ s₂ : Str} {l₁ l₂ : List (Tok × Bool)} (hsep : Layout sep)
    (ht : Tokenises (s₁ ++ s₂) (l₁ ++ l₂)) (htext : l₁.flatMap (·.1.text) = s₁)
    (hlast : ∀ p, l₁.getLast? = some p → p.1.ty ≠ .SQL_STMT ∧ p.1.ty ≠ .LINE_COMMENT ∧
      (sep.head? = some '/' → p.1.ty ≠ .DIV))
    (hverb : ∀ p ∈ l₁, p.1.ty ∉ verbTypes) (hds : ¬ [TT.DIV, .STAR] <:+: l₁.map (·.1.ty)) :
    lexAll (s₁ ++ sep ++ s₂) = lexAll (s₁ ++ s₂) := by
  cases sep with
  | nil => simp
  | cons c sep =>
    obtain ⟨k, hk, hv⟩ := insert_layout hsep l₁ s₁ ht htext
      (fun p hp => by
        obtain ⟨a, b, d⟩ := hlast p hp
        exact ⟨a, b, fun h => d (by simp [h])⟩) hverb hds
    rw [lexAll_of ht, List.append_assoc, lexAll_of hk]
    simp [visible_append, hv]

theorem chain_infix {R : TT → TT → Bool} {a : List Tok} {t u : Tok} {b : List Tok}
    (h : Chain R (a ++ t :: u :: b)) : R t.ty u.ty = true := by
  induction a with
  | nil => exact h.1 u rfl
  | cons x a ih => exact ih h.2

/-- In the tokens of a sentence there is nothing layout could disturb. -/
theorem sentence_calm {s l} (h : Tokenises s l) (hs : Sentence (visible l)) :
    (∀ p ∈ l, p.1.ty ∉ verbTypes) ∧ ¬ [TT.DIV, .STAR] <:+: l.map (·.1.ty) := by
  have vis : ∀ p ∈ l, p.2 = false → p.1 ∈ visible l := by
    intro p hp h2
    simp only [visible, List.mem_map, List.mem_filter]
    exact ⟨p, ⟨hp, by simp [h2]⟩, rfl⟩
  constructor
  · intro p hp hv
    cases h2 : p.2 with
    | true =>
      have := (h.hidden p hp).1 h2
      revert hv this
      generalize p.1.ty = ty
      cases ty <;> decide
    | false =>
      have := sentence_types hs _ (vis p hp h2)
      revert hv this
      generalize p.1.ty = ty
      cases ty <;> decide
  · rintro ⟨a, b, hab⟩
    have hc := sentence_pairs hs
    obtain ⟨m, z, rfl, hm, hz⟩ := List.map_eq_append_iff.1 hab.symm
    obtain ⟨x, y, rfl, hx, hy⟩ := List.map_eq_append_iff.1 hm
    have hl : y.length = 2 := by simpa using congrArg List.length hy
    obtain ⟨⟨t, h1⟩, ⟨u, h2⟩, rfl⟩ : ∃ a b, y = [a, b] := by
      rcases y with _ | ⟨a, _ | ⟨b, _ | ⟨_, _⟩⟩⟩ <;> simp at hl ⊢
    · simp at hy
      have e1 : h1 = false := by
        have := h.hidden (t, h1) (by simp)
        cases h1 with
        | false => rfl
        | true => have := this.1 rfl; rw [hy.1] at this; revert this; decide
      have e2 : h2 = false := by
        have := h.hidden (u, h2) (by simp)
        cases h2 with
        | false => rfl
        | true => have := this.1 rfl; rw [hy.2] at this; revert this; decide
      subst e1 e2
      rw [visible_append, visible_append] at hc
      have : visible [(t, false), (u, false)] = [t, u] := rfl
      rw [this, List.append_assoc] at hc
      have := chain_infix (b := visible z) hc
      rw [hy.1, hy.2] at this
      revert this; decide

theorem writes_of_lexAll {s s' : Str} (h : lexAll s = lexAll s') {p : Program} :
    Writes s p ↔ Writes s' p := by rw [writes_iff, writes_iff, h]

end Verif
