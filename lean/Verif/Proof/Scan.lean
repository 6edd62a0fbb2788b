import Verif.Proof.Position
import Verif.Model.Recover
/-!
# The tokens of a text with errors
-/

namespace Verif

theorem tableOne_shorter {s s' : Str} {t : Tok} {h : Bool} (hn : tableOne s = some (t, h, s')) :
    s = t.text ++ s' ∧ 1 ≤ t.text.length ∧ t.ty ≠ .EOF := by
  have hn := (tableOne_iff _ _ _ _).1 hn
  obtain ⟨h1, h2, before, r, after, hl, hty, _⟩ := hn
  refine ⟨h1, List.length_pos_iff.2 h2, ?_⟩
  rw [← hty]
  have : ∀ r ∈ lexRules, r.ty ≠ .EOF := by decide
  exact this r (by rw [hl]; simp)

/-- The tokens make up the text. -/
theorem scan_text (skip : Str → Nat × Bool) : ∀ (n : Nat) (p : Nat × Nat) (s : Str), s.length ≤ n →
    (scan skip n p s).1.flatMap (·.1.text) = s := by
  intro n
  induction n with
  | zero =>
    intro p s h
    have : s = [] := by simpa using h
    subst this; rfl
  | succ n ih =>
    intro p s h
    cases s with
    | nil => rfl
    | cons c s =>
      simp only [scan]
      cases ht : tableOne (c :: s) with
      | some q =>
        obtain ⟨t, hid, s'⟩ := q
        obtain ⟨e, hl, _⟩ := tableOne_shorter ht
        have : s'.length ≤ n := by
          have := congrArg List.length e
          simp only [List.length_cons, List.length_append] at this h
          omega
        simp only [List.flatMap_cons, ih _ _ this, ← e]
      | none =>
        have : (s.drop (skip (c :: s)).1).length ≤ n := by
          rw [List.length_drop]
          simp only [List.length_cons] at h
          omega
        simp only [List.flatMap_cons, ih _ _ this, List.cons_append, List.take_append_drop]

/-- There are not more tokens, and not more errors, than characters. -/
theorem scan_length (skip : Str → Nat × Bool) : ∀ (n : Nat) (p : Nat × Nat) (s : Str),
    (scan skip n p s).1.length ≤ s.length ∧ (scan skip n p s).2.length ≤ (scan skip n p s).1.length := by
  intro n
  induction n with
  | zero => intro p s; simp [scan]
  | succ n ih =>
    intro p s
    cases s with
    | nil => simp [scan]
    | cons c s =>
      simp only [scan]
      cases ht : tableOne (c :: s) with
      | some q =>
        obtain ⟨t, hid, s'⟩ := q
        obtain ⟨e, hl, _⟩ := tableOne_shorter ht
        have := ih (t.text.foldl advance p) s'
        have e := congrArg List.length e
        simp only [List.length_cons, List.length_append] at e ⊢
        omega
      | none =>
        have := ih ((c :: s.take (skip (c :: s)).1).foldl advance p) (s.drop (skip (c :: s)).1)
        simp only [List.length_cons]
        rw [List.length_drop] at this
        omega

theorem scan_ne_eof (skip : Str → Nat × Bool) : ∀ (n : Nat) (p : Nat × Nat) (s : Str),
    ∀ q ∈ (scan skip n p s).1, q.1.ty ≠ .EOF := by
  intro n
  induction n with
  | zero => intro p s; simp [scan]
  | succ n ih =>
    intro p s
    cases s with
    | nil => simp [scan]
    | cons c s =>
      simp only [scan]
      cases ht : tableOne (c :: s) with
      | some q =>
        obtain ⟨t, hid, s'⟩ := q
        intro x hx
        rcases List.mem_cons.1 hx with rfl | hx
        · exact (tableOne_shorter ht).2.2
        · exact ih _ _ x hx
      | none =>
        intro x hx
        rcases List.mem_cons.1 hx with rfl | hx
        · simp
        · exact ih _ _ x hx

/-- The errors are somewhere in the text. -/
theorem scan_places (skip : Str → Nat × Bool) : ∀ (n : Nat) (x s : Str),
    ∀ q ∈ (scan skip n (x.foldl advance (1, 0)) s).2, ∃ y, y <+: s ∧ q = placeAfter (x ++ y) := by
  intro n
  induction n with
  | zero => intro x s; simp [scan]
  | succ n ih =>
    intro x s
    cases s with
    | nil => simp [scan]
    | cons c s =>
      simp only [scan]
      cases ht : tableOne (c :: s) with
      | some q =>
        obtain ⟨t, hid, s'⟩ := q
        intro q hq
        simp only at hq
        rw [← List.foldl_append] at hq
        obtain ⟨y, ⟨z, hy⟩, hp⟩ := ih _ _ q hq
        obtain ⟨e, _⟩ := tableOne_shorter ht
        refine ⟨t.text ++ y, ⟨z, ?_⟩, by rw [hp, List.append_assoc]⟩
        rw [e, List.append_assoc, hy]
      | none =>
        intro q hq
        rcases List.mem_cons.1 hq with rfl | hq
        · exact ⟨[], List.nil_prefix, by rw [advance_foldl, List.append_nil]; rfl⟩
        · rw [← List.foldl_append] at hq
          obtain ⟨y, ⟨z, hy⟩, hp⟩ := ih _ _ q hq
          refine ⟨c :: (s.take (skip (c :: s)).1 ++ y), ⟨z, ?_⟩, ?_⟩
          · rw [List.cons_append, List.append_assoc, hy, List.take_append_drop]
          · rw [hp, List.append_assoc]; rfl

/-- Without errors, these are the tokens of the text. -/
theorem scan_tokens (skip : Str → Nat × Bool) {s : Str} {l : List (Tok × Bool)}
    (h : Tokenises s l) : ∀ (n : Nat) (p : Nat × Nat), s.length ≤ n → scan skip n p s = (l, []) := by
  induction h with
  | nil => intro n p _; cases n <;> rfl
  | @cons s rest t hid l hn _ ih =>
    intro n p hlen
    have ht := (tableOne_iff _ _ _ _).2 hn
    obtain ⟨e, hl, _⟩ := tableOne_shorter ht
    have e' := congrArg List.length e
    rw [List.length_append] at e'
    cases n with
    | zero => omega
    | succ n =>
      cases s with
      | nil => simp at e'; omega
      | cons c s =>
        simp only [scan, ht]
        rw [ih n _ (by omega)]

theorem scan_only (skip : Str → Nat × Bool) : ∀ (n : Nat) (p : Nat × Nat) (s : Str), s.length ≤ n →
    (scan skip n p s).2 = [] → Tokenises s (scan skip n p s).1 := by
  intro n
  induction n with
  | zero =>
    intro p s h _
    have : s = [] := by simpa using h
    subst this; exact .nil
  | succ n ih =>
    intro p s h he
    cases s with
    | nil => exact .nil
    | cons c s =>
      simp only [scan] at he ⊢
      cases ht : tableOne (c :: s) with
      | some q =>
        obtain ⟨t, hid, s'⟩ := q
        obtain ⟨e, hl, _⟩ := tableOne_shorter ht
        rw [ht] at he
        have e := congrArg List.length e
        simp only [List.length_cons, List.length_append] at e h
        exact .cons ((tableOne_iff _ _ _ _).1 ht) (ih _ _ (by omega) he)
      | none => rw [ht] at he; cases he

/-- The tokens start somewhere in the text. -/
theorem place_mem : ∀ (l : List (Tok × Bool)) (x : Str), ∀ q ∈ place (x.foldl advance (1, 0)) l,
    ∃ y, y <+: l.flatMap (·.1.text) ∧ q.2 = placeAfter (x ++ y) := by
  intro l
  induction l with
  | nil =>
    intro x q hq
    simp only [place, List.mem_singleton] at hq
    subst hq
    exact ⟨[], List.nil_prefix, by rw [List.append_nil]; exact advance_foldl x⟩
  | cons r l ih =>
    obtain ⟨t, hid⟩ := r
    intro x q hq
    have later : q ∈ place (t.text.foldl advance (x.foldl advance (1, 0))) l →
        ∃ y, y <+: ((t, hid) :: l).flatMap (·.1.text) ∧ q.2 = placeAfter (x ++ y) := by
      intro hq
      rw [← List.foldl_append] at hq
      obtain ⟨y, ⟨z, hy⟩, hp⟩ := ih _ q hq
      refine ⟨t.text ++ y, ⟨z, ?_⟩, by rw [hp, List.append_assoc]⟩
      rw [List.flatMap_cons, List.append_assoc, hy]
    cases hid with
    | true => exact later (by simpa [place] using hq)
    | false =>
      simp only [place, Bool.false_eq_true, if_false, List.mem_cons] at hq
      rcases hq with rfl | hq
      · exact ⟨[], List.nil_prefix, by rw [List.append_nil]; exact advance_foldl x⟩
      · exact later hq

theorem place_count : ∀ (l : List (Tok × Bool)) (p : Nat × Nat),
    (place p l).length = (visible l).length + 1 := by
  intro l
  induction l with
  | nil => intro p; rfl
  | cons r l ih =>
    obtain ⟨t, hid⟩ := r
    intro p
    rw [visible_cons]
    cases hid <;> simp [place, ih]

end Verif
