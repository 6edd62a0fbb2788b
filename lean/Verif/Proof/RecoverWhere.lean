import Verif.Proof.RecoverFirst
/-!
# What the reports are about

Every report is about a token of the text, or its end.
-/

namespace Verif
open PState

/-- A prediction that fails does so at one of the tokens. -/
def Runtime.Near (rt : Runtime) : Prop :=
  ∀ d ∈ asked, ∀ p ctx ts, AtEnd ts → 1 ≤ (ts.drop (rt.dead d p ctx ts)).length

theorem sim_near : simRuntime.Near := by
  intro d hd p ctx ts h
  rw [sim_dead hd]
  have key : passed d (la ts) = 0 ∨ (passed d (la ts) = 1 ∧ la ts ≠ .EOF) := by
    unfold passed
    split
    · split
      · rename_i h; rw [h]; exact .inr ⟨rfl, by decide⟩
      · exact .inl rfl
    · split
      · rename_i h; rw [h]; exact .inr ⟨rfl, by decide⟩
      · exact .inl rfl
    · split
      · rename_i h; rw [h]; exact .inr ⟨rfl, by decide⟩
      · exact .inl rfl
    · exact .inl rfl
  rcases key with h0 | ⟨h1, h2⟩
  · rw [h0, List.drop_zero]
    exact List.length_pos_iff.2 h.ne
  · rw [h1, List.drop_one]
    exact List.length_pos_iff.2 (h.tail h2).ne

/-- All the parser knows is about the last `N` tokens. -/
structure InText (N : Nat) (s : PState) : Prop where
  atEnd : AtEnd s.rest
  rest : s.rest.length ≤ N
  err : ∀ k ∈ s.err, 1 ≤ k ∧ k ≤ N
  places : ∀ k ∈ s.places, 1 ≤ k ∧ k ≤ N

theorem InText.here {N : Nat} {s : PState} (h : InText N s) : 1 ≤ s.here ∧ s.here ≤ N :=
  ⟨List.length_pos_iff.2 h.atEnd.ne, h.rest⟩

theorem InText.eat {N : Nat} {s : PState} (h : InText N s) : InText N s.eat := by
  have e := eat_load s
  have r := (eat_rest s).1.length_le
  exact ⟨eat_atEnd h.atEnd, Nat.le_trans r h.rest, by rw [e.2.2]; exact h.err,
    by rw [e.1]; exact h.places⟩

theorem InText.report {N : Nat} {s : PState} (h : InText N s) {k : Nat} (hk : 1 ≤ k ∧ k ≤ N) :
    InText N (s.report k) := by
  unfold PState.report
  split
  · exact h
  · refine ⟨h.atEnd, h.rest, h.err, fun j hj => ?_⟩
    rcases List.mem_cons.1 hj with rfl | hj
    · exact hk
    · exact h.places j hj

theorem InText.same {N : Nat} {s s' : PState} (h : InText N s) (hr : s'.rest = s.rest)
    (he : s'.err = s.err) (hp : s'.places = s.places) : InText N s' :=
  ⟨by rw [hr]; exact h.atEnd, by rw [hr]; exact h.rest, by rw [he]; exact h.err,
    by rw [hp]; exact h.places⟩

theorem InText.setErr {N : Nat} {s : PState} (h : InText N s) : InText N s.setErr :=
  ⟨h.atEnd, h.rest, fun k hk => by cases hk; exact h.here, h.places⟩

theorem InText.consumeUntil {N : Nat} {s : PState} (o : Strategy) (h : InText N s) :
    InText N (s.consumeUntil o) :=
  ⟨h.atEnd.dropTo, Nat.le_trans (dropTo_suffix _ _).length_le h.rest, h.err, h.places⟩

theorem InText.delete {N : Nat} {o : Strategy} {s s' : PState} (h : InText N s)
    (hd : s.delete o = some s') : InText N s' := by
  unfold PState.delete at hd
  split at hd
  · rw [← Option.some.inj hd]
    exact (((h.same (s' := s.tick) rfl rfl rfl).report h.here).eat).same rfl rfl rfl
  · cases hd

theorem InText.recoverInline {N : Nat} {s : PState} (o : Strategy) (h : InText N s) :
    InText N (s.recoverInline o) := by
  unfold PState.recoverInline
  split
  · rename_i s' hd; exact (h.delete hd).eat
  · split
    · exact (h.same (s' := s.tick) rfl rfl rfl).report h.here
    · exact (h.same (s' := s.tick) rfl rfl rfl).setErr

theorem InText.sync {N : Nat} {s : PState} (o : Strategy) (st : Nat) (h : InText N s) :
    InText N (s.sync o st) := by
  unfold PState.sync
  split
  · exact h
  · split
    · exact (h.report h.here).consumeUntil o
    · split
      · rename_i s' hd; exact h.delete hd
      · exact (h.same (s' := s.tick) rfl rfl rfl).setErr

theorem InText.recover {N : Nat} {s : PState} (o : Strategy) (h : InText N s) :
    InText N (s.recover o) := by
  unfold PState.recover
  simp only
  refine InText.consumeUntil o ?_
  split
  · exact h.eat.same rfl rfl rfl
  · exact h.same rfl rfl rfl

theorem InText.leave {N : Nat} {s : PState} (o : Strategy) (h : InText N s) :
    InText N (s.leave o) := by
  unfold PState.leave
  split
  · exact h
  · rename_i k hk
    have := (h.report (h.err k hk)).recover o
    exact ⟨this.atEnd, this.rest, fun k hk => (by cases hk), this.places⟩

theorem wfArms_mem {x : Go} : ∀ {i n : Nat}, x.wfArms i n = true → ∀ q ∈ x.arms, q.2.wf = true := by
  induction x with
  | case d j a b _ ihb =>
    intro i n h q hq
    simp only [Go.wfArms, Bool.and_eq_true] at h
    rw [Go.arms, List.mem_cons] at hq
    rcases hq with rfl | hq
    · exact h.1.2
    · exact ihb h.2 q hq
  | _ => simp [Go.arms]

theorem execR_inText {rt : Runtime} (hrt : rt.Near) {o : Strategy} {N : Nat} : ∀ (F : Nat)
    (ctx : List Nat) (p : Nat) (c : Go) (s s' : PState) (b : Bool),
    execR rt o F ctx p c s = some (b, s') → c.wf = true → InText N s → InText N s' := by
  intro F
  induction F with
  | zero => intro ctx p c s s' b h; cases h
  | succ F ih =>
    intro ctx p c s s' b h hw hs
    cases c with
    | skip => cases h; exact hs
    | fail => cases h; exact hs.setErr
    | seq x y =>
      simp only [Go.wf, Bool.and_eq_true] at hw
      simp only [execR] at h
      split at h
      · rename_i s₁ h₁
        exact ih _ _ _ _ _ _ h hw.2 (ih _ _ _ _ _ _ h₁ hw.1 hs)
      · exact ih _ _ _ _ _ _ h hw.1 hs
    | tok x =>
      simp only [execR, Option.some.injEq, Prod.mk.injEq] at h
      rw [← h.2]
      split
      · exact (hs.same (s' := s.matched) rfl rfl rfl).eat
      · exact hs.recoverInline o
    | set x =>
      simp only [execR, Option.some.injEq, Prod.mk.injEq] at h
      rw [← h.2]
      split
      · exact (hs.same (s' := s.matched) rfl rfl rfl).eat
      · exact hs.recoverInline o
    | call st r q =>
      simp only [execR] at h
      split at h
      · rename_i e s₁ h₁
        simp only [Option.some.injEq, Prod.mk.injEq] at h
        rw [← h.2]
        exact (ih _ _ _ _ _ _ h₁ (goCode_wf r) hs).leave o
      · cases h
    | pred q =>
      simp only [execR] at h
      split at h
      · cases h; exact hs
      · cases h; exact hs.setErr
    | sync st =>
      simp only [execR, Option.some.injEq, Prod.mk.injEq] at h
      rw [← h.2]
      exact hs.sync o st
    | ifLA c x y =>
      simp only [Go.wf, Bool.and_eq_true] at hw
      simp only [execR] at h
      split at h
      · exact ih _ _ _ _ _ _ h hw.1 hs
      · exact ih _ _ _ _ _ _ h hw.2 hs
    | whileLA c x =>
      have hw' := hw
      simp only [Go.wf] at hw'
      simp only [execR] at h
      split at h
      · split at h
        · rename_i s₁ h₁
          exact ih _ _ _ _ _ _ h hw (ih _ _ _ _ _ _ h₁ hw' hs)
        · exact ih _ _ _ _ _ _ h hw' hs
      · cases h; exact hs
    | whileAP d x =>
      have hw' := hw
      simp only [Go.wf, Bool.and_eq_true, List.contains_eq_mem, decide_eq_true_eq] at hw'
      simp only [execR] at h
      split at h
      · cases h
        refine ⟨hs.atEnd, hs.rest, fun k hk => ?_, hs.places⟩
        cases hk
        refine ⟨hrt d (by grind) _ _ _ hs.atEnd, ?_⟩
        rw [List.length_drop]
        have := hs.rest
        omega
      · split at h
        · cases h; exact hs
        · split at h
          · cases h; exact hs
          · split at h
            · split at h
              · rename_i s₁ h₁
                exact ih _ _ _ _ _ _ h hw (ih _ _ _ _ _ _ h₁ (by grind) hs)
              · exact ih _ _ _ _ _ _ h (by grind) hs
            · exact ih _ _ _ _ _ _ h hw hs
    | switchAP d x =>
      have hw' := hw
      simp only [Go.wf, Bool.and_eq_true, List.contains_eq_mem, decide_eq_true_eq] at hw'
      simp only [execR] at h
      split at h
      · cases h
        refine ⟨hs.atEnd, hs.rest, fun k hk => ?_, hs.places⟩
        cases hk
        refine ⟨hrt d (by grind) _ _ _ hs.atEnd, ?_⟩
        rw [List.length_drop]
        have := hs.rest
        omega
      · split at h
        · rename_i a hl
          exact ih _ _ _ _ _ _ h (wfArms_mem hw'.2 _ (armLookup_mem hl)) hs
        · cases h; exact hs
    | case d i x y => cases h; exact hs

/-- More steps do not change the result. -/
theorem execR_mono {rt : Runtime} {o : Strategy} : ∀ (F : Nat) (ctx : List Nat) (p : Nat) (c : Go)
    (s : PState) (q : Bool × PState), execR rt o F ctx p c s = some q → ∀ G, F ≤ G →
    execR rt o G ctx p c s = some q := by
  intro F
  induction F with
  | zero => intro ctx p c s q h; cases h
  | succ F ih =>
    intro ctx p c s q h G hG
    obtain ⟨G, rfl⟩ : ∃ G', G = G' + 1 := ⟨G - 1, by omega⟩
    have hG : F ≤ G := by omega
    cases c with
    | seq x y =>
      simp only [execR] at h ⊢
      cases hx : execR rt o F ctx p x s with
      | none => rw [hx] at h; cases h
      | some r =>
        rw [ih _ _ _ _ _ hx G hG]
        rw [hx] at h
        obtain ⟨e, s₁⟩ := r
        cases e with
        | true => exact h
        | false => exact ih _ _ _ _ _ h G hG
    | call st r k =>
      simp only [execR] at h ⊢
      cases hx : execR rt o F (st :: ctx) k (goCode r) s with
      | none => rw [hx] at h; cases h
      | some r =>
        rw [ih _ _ _ _ _ hx G hG]
        rw [hx] at h
        exact h
    | ifLA c x y =>
      simp only [execR] at h ⊢
      split at h
      · rename_i hc; rw [if_pos hc]; exact ih _ _ _ _ _ h G hG
      · rename_i hc; rw [if_neg hc]; exact ih _ _ _ _ _ h G hG
    | whileLA c x =>
      simp only [execR] at h ⊢
      split at h
      · rename_i hc
        rw [if_pos hc]
        cases hx : execR rt o F ctx p x s with
        | none => rw [hx] at h; cases h
        | some r =>
          rw [ih _ _ _ _ _ hx G hG]
          rw [hx] at h
          obtain ⟨e, s₁⟩ := r
          cases e with
          | true => exact h
          | false => exact ih _ _ _ _ _ h G hG
      · rename_i hc; rw [if_neg hc]; exact h
    | whileAP d x =>
      simp only [execR] at h ⊢
      cases hp : rt.predict d p ctx s.rest with
      | zero => rw [hp] at h; exact h
      | succ i =>
        rw [hp] at h
        simp only at h ⊢
        split at h
        · rename_i hc; rw [if_pos hc]; exact h
        · rename_i hc
          rw [if_neg hc]
          split at h
          · rename_i hc; rw [if_pos hc]; exact h
          · rename_i hc
            rw [if_neg hc]
            split at h
            · rename_i hc
              rw [if_pos hc]
              cases hx : execR rt o F ctx p x s with
              | none => rw [hx] at h; cases h
              | some r =>
                rw [ih _ _ _ _ _ hx G hG]
                rw [hx] at h
                obtain ⟨e, s₁⟩ := r
                cases e with
                | true => exact h
                | false => exact ih _ _ _ _ _ h G hG
            · rename_i hc
              rw [if_neg hc]
              exact ih _ _ _ _ _ h G hG
    | switchAP d x =>
      simp only [execR] at h ⊢
      cases hp : rt.predict d p ctx s.rest with
      | zero => rw [hp] at h; exact h
      | succ i =>
        rw [hp] at h
        simp only at h ⊢
        cases hl : x.arms.lookup (i + 1) with
        | none => rw [hl] at h; exact h
        | some a => rw [hl] at h; exact ih _ _ _ _ _ h G hG
    | _ => exact h

end Verif
