import Verif.Proof.RecoverStatic
/-!
# The parser comes to an end, errors or not
-/

namespace Verif
namespace PState

/-- The end-of-file token is the last one. -/
def Ended (l : List Tok) : Prop := ∀ m, m <:+ l → la m = .EOF → m.tail = []

theorem Ended.suffix {l m : List Tok} (h : Ended l) (hm : m <:+ l) : Ended m :=
  fun k hk => h k (hk.trans hm)

/-- How many states are not in a set. -/
def free (seen : List (Fin 456)) : Nat := (List.finRange 456).countP fun x => !seen.contains x

theorem free_le (seen : List (Fin 456)) : free seen ≤ 456 := by
  have := List.countP_le_length (p := fun x => !seen.contains x) (l := List.finRange 456)
  simpa [free] using this

theorem countP_lt {α : Type} {p q : α → Bool} : ∀ {l : List α}, (∀ x ∈ l, q x = true → p x = true) →
    (∃ x ∈ l, p x = true ∧ q x = false) → l.countP q < l.countP p := by
  intro l
  induction l with
  | nil => simp
  | cons a l ih =>
    intro h ⟨x, hx, h1, h2⟩
    have hmono : l.countP q ≤ l.countP p :=
      List.countP_mono_left fun y hy => h y (List.mem_cons_of_mem _ hy)
    rcases List.mem_cons.1 hx with rfl | hx
    · simp [List.countP_cons, h1, h2]; omega
    · have := ih (fun y hy => h y (List.mem_cons_of_mem _ hy)) ⟨x, hx, h1, h2⟩
      have ha := h a (by simp)
      simp only [List.countP_cons]
      cases hq : q a with
      | true => simp [ha hq]; omega
      | false => simp; omega

theorem free_cons {seen : List (Fin 456)} {x : Fin 456} (h : seen.contains x = false) :
    free (x :: seen) < free seen := by
  refine countP_lt (fun y _ hy => ?_) ⟨x, List.mem_finRange x, ?_, ?_⟩
  · simp only [List.contains_cons, Bool.not_or, Bool.and_eq_true] at hy
    exact hy.2
  · simp only [h, Bool.not_false]
  · simp

/-- What gets less with every progress. -/
def weight (s : PState) : Nat :=
  2000 * s.rest.length + (if s.last = some s.here then 0 else 500) + free s.seen

/-- Nothing has happened, or there was progress. -/
def NoWorse (s s' : PState) : Prop :=
  s'.rest <:+ s.rest ∧
    ((s'.rest = s.rest ∧ s'.last = s.last ∧ s'.seen = s.seen) ∨ s'.weight < s.weight)

theorem weight_congr {s s' : PState} (h : s'.rest = s.rest ∧ s'.last = s.last ∧ s'.seen = s.seen) :
    s'.weight = s.weight := by
  unfold weight here
  rw [h.1, h.2.1, h.2.2]

theorem NoWorse.le {s s' : PState} (h : NoWorse s s') : s'.weight ≤ s.weight := by
  rcases h.2 with h | h
  · exact Nat.le_of_eq (weight_congr h)
  · omega

theorem NoWorse.refl (s : PState) : NoWorse s s := ⟨List.suffix_refl _, .inl ⟨rfl, rfl, rfl⟩⟩

theorem NoWorse.trans {s₁ s₂ s₃ : PState} (h : NoWorse s₁ s₂) (h' : NoWorse s₂ s₃) :
    NoWorse s₁ s₃ := by
  refine ⟨h'.1.trans h.1, ?_⟩
  rcases h.2 with a | a
  · rcases h'.2 with b | b
    · exact .inl ⟨b.1.trans a.1, b.2.1.trans a.2.1, b.2.2.trans a.2.2⟩
    · rw [weight_congr a] at b; exact .inr b
  · have := h'.le; exact .inr (by omega)

/-- Fewer tokens are always progress. -/
theorem weight_short {s s' : PState} (h : s'.rest.length < s.rest.length) :
    s'.weight < s.weight := by
  unfold weight
  have := free_le s'.seen
  split <;> split <;> omega

theorem noWorse_short {s s' : PState} (hs : s'.rest <:+ s.rest)
    (h : s'.rest.length < s.rest.length) : NoWorse s s' := ⟨hs, .inr (weight_short h)⟩

theorem eat_rest (s : PState) : s.eat.rest <:+ s.rest ∧
    (la s.rest ≠ .EOF → s.eat.rest.length < s.rest.length) := by
  unfold eat
  split
  · rename_i h; exact ⟨List.suffix_refl _, fun h' => absurd h h'⟩
  · refine ⟨List.tail_suffix _, fun h => ?_⟩
    cases hr : s.rest with
    | nil => rw [hr] at h; exact absurd rfl h
    | cons t ts => simp

theorem eat_eof {s : PState} (h : la s.rest = .EOF) : s.eat = s := if_pos h

theorem report_same (s : PState) (k : Nat) :
    (s.report k).rest = s.rest ∧ (s.report k).last = s.last ∧ (s.report k).seen = s.seen := by
  unfold report; split <;> exact ⟨rfl, rfl, rfl⟩

theorem report_clock (s : PState) (k : Nat) : (s.report k).clock = s.clock := by
  unfold report; split <;> rfl

theorem dropTo_suffix (stop : TT → Bool) : ∀ l, dropTo stop l <:+ l := by
  intro l
  induction l with
  | nil => exact List.suffix_refl _
  | cons t ts ih =>
    unfold dropTo
    split
    · exact List.suffix_refl _
    · exact ih.trans (List.suffix_cons _ _)

theorem suffix_short {l m : List Tok} (h : m <:+ l) : m = l ∨ m.length < l.length := by
  rcases Nat.lt_or_ge m.length l.length with h' | h'
  · exact .inr h'
  · exact .inl (h.eq_of_length (Nat.le_antisymm h.length_le h'))

theorem consumeUntil_noWorse (o : Strategy) (s : PState) : NoWorse s (s.consumeUntil o) := by
  have hs : (s.consumeUntil o).rest <:+ s.rest := dropTo_suffix _ _
  rcases suffix_short hs with h | h
  · exact ⟨hs, .inl ⟨h, rfl, rfl⟩⟩
  · exact noWorse_short hs h

/-- A deletion consumes a token, and never the last one. -/
theorem delete_rest {o : Strategy} {s s' : PState} (he : Ended s.rest) (h : s.delete o = some s') :
    s'.rest <:+ s.rest ∧ s'.rest.length < s.rest.length := by
  unfold delete at h
  split at h
  · rename_i hx
    simp only [Bool.and_eq_true, Bool.not_eq_true'] at hx
    have hne : la s.rest ≠ .EOF := by
      intro hla
      rw [he _ (List.suffix_refl _) hla, hla] at hx
      simp only [la] at hx
      rw [hx.1] at hx
      exact absurd hx.2 (by simp)
    have hr : s'.rest = (s.tick.report s.here).eat.rest := by
      rw [← Option.some.inj h]; rfl
    have := eat_rest (s.tick.report s.here)
    rw [(report_same _ _).1] at this
    rw [hr]
    exact ⟨this.1, this.2 hne⟩
  · cases h

theorem recoverInline_noWorse {o : Strategy} {s : PState} (he : Ended s.rest) :
    NoWorse s (s.recoverInline o) := by
  unfold recoverInline
  split
  · rename_i s' h
    have h1 := delete_rest he h
    have h2 := (eat_rest s').1
    exact noWorse_short (h2.trans h1.1) (Nat.lt_of_le_of_lt h2.length_le h1.2)
  · split
    · have := report_same s.tick s.here
      exact ⟨by rw [this.1]; exact List.suffix_refl _, .inl this⟩
    · exact NoWorse.refl s

theorem sync_noWorse {o : Strategy} {st : Nat} {s : PState} (he : Ended s.rest) :
    NoWorse s (s.sync o st) := by
  unfold sync
  split
  · exact NoWorse.refl s
  · split
    · have h := report_same s s.here
      refine NoWorse.trans ⟨by rw [h.1]; exact List.suffix_refl _, .inl h⟩
        (consumeUntil_noWorse o (s.report s.here))
    · split
      · rename_i s' h
        exact noWorse_short (delete_rest he h).1 (delete_rest he h).2
      · exact NoWorse.refl s

/-- `Recover` makes progress, except at the end of file. -/
theorem recover_noWorse (o : Strategy) (s : PState) :
    NoWorse s (s.recover o) ∧ (la s.rest ≠ .EOF → (s.recover o).weight < s.weight) := by
  unfold recover
  simp only
  split
  · rename_i hc
    simp only [Bool.and_eq_true, beq_iff_eq] at hc
    by_cases hla : la s.rest = .EOF
    · rw [eat_eof hla]
      refine ⟨?_, fun h => absurd hla h⟩
      refine NoWorse.trans ?_ (consumeUntil_noWorse o _)
      refine ⟨List.suffix_refl _, .inl ⟨rfl, hc.1.symm, ?_⟩⟩
      simp only [tick, hc.2, if_true]
    · have h1 := eat_rest s
      have h2 := h1.2 hla
      refine ⟨NoWorse.trans ?_ (consumeUntil_noWorse o _), fun _ =>
        Nat.lt_of_le_of_lt (consumeUntil_noWorse o _).le ?_⟩
      · exact noWorse_short h1.1 h2
      · exact weight_short h2
  · rename_i hc
    have key : (PState.mk s.rest s.err s.mode (some s.here)
        (if s.seen.contains (o.state s.clock) then s.seen else o.state s.clock :: s.seen)
        s.places (s.clock + 1)).weight < s.weight := by
      unfold weight here
      simp only [if_true]
      by_cases hl : s.last = some s.rest.length
      · have hs : s.seen.contains (o.state s.clock) = false := by
          cases h : s.seen.contains (o.state s.clock) with
          | false => rfl
          | true => exact absurd (by simp [here, hl]; simpa using h) hc
        rw [hs]
        simp only [Bool.false_eq_true, if_false, hl, if_true]
        have := free_cons hs
        omega
      · rw [if_neg hl]
        have := free_le (if s.seen.contains (o.state s.clock) then s.seen
          else o.state s.clock :: s.seen)
        omega
    have hk : NoWorse s (PState.mk s.rest s.err s.mode (some s.here)
        (if s.seen.contains (o.state s.clock) then s.seen else o.state s.clock :: s.seen)
        s.places (s.clock + 1)) := ⟨List.suffix_refl _, .inr key⟩
    exact ⟨NoWorse.trans hk (consumeUntil_noWorse o _), fun _ =>
      Nat.lt_of_le_of_lt (consumeUntil_noWorse o _).le key⟩

theorem leave_noWorse (o : Strategy) (s : PState) : NoWorse s (s.leave o) ∧
    (s.err.isSome = true → la s.rest ≠ .EOF → (s.leave o).weight < s.weight) := by
  unfold leave
  split
  · rename_i h; exact ⟨NoWorse.refl s, fun h' => by simp [h] at h'⟩
  · rename_i k h
    have h1 := report_same s k
    have h2 := recover_noWorse o (s.report k)
    have h3 : NoWorse s (s.report k) := ⟨by rw [h1.1]; exact List.suffix_refl _, .inl h1⟩
    have h4 := NoWorse.trans h3 h2.1
    refine ⟨h4, fun _ hla => ?_⟩
    have h5 := h2.2 (by rw [h1.1]; exact hla)
    rw [weight_congr h1] at h5
    exact h5

end PState
end Verif
