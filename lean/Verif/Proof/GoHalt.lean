import Verif.Proof.GoRun
/-!
# The generated code comes to an end

Up to the first error, every run of the rule functions ends, whatever
`AdaptivePredict` answers (as long as it answers with the number of an
alternative).
-/

namespace Verif

/-- A bound for the depth of a rule function before it consumes a token. -/
def rank (r : Rule) : Nat :=
  [4, 2, 2, 5, 3, 3, 5, 3, 2, 3, 5, 1, 11, 1, 1, 3, 2, 2, 1, 1, 1, 9, 8, 6, 1, 1, 1, 1, 1, 1, 1,
   3, 1, 1, 1, 2, 2, 2, 19, 15, 2, 11, 3, 7, 1, 1, 2, 5, 1, 16, 12].getD r.code 0

/-- The depth of a piece of code before it consumes a token. -/
def Go.depth : Go → Nat
  | .seq a b => 1 + max a.depth (if nonNull 100 a.g then 1 else b.depth)
  | .call _ r _ => 1 + rank r
  | .ifLA _ a b => 1 + max a.depth b.depth
  | .whileLA _ a => 1 + a.depth
  | .whileAP _ a => 1 + a.depth
  | .switchAP _ x => 1 + x.depth
  | .case _ _ a b => max a.depth b.depth
  | _ => 1

/-- No part needs more than 30 steps between two tokens, and every loop body
consumes a token. -/
def Go.bounded : Go → Bool
  | .seq a b => a.bounded && b.bounded && decide (b.depth ≤ 30)
  | .ifLA _ a b => a.bounded && b.bounded
  | .whileLA _ a => a.bounded && decide (a.depth < 30) && nonNull 100 a.g
  | .whileAP _ a => a.bounded && decide (a.depth < 30) && nonNull 100 a.g
  | .switchAP _ x => x.bounded
  | .case _ _ a b => a.bounded && b.bounded
  | _ => true

theorem goCode_bounded_all : Rule.all.all (fun r => (goCode r).bounded &&
    decide ((goCode r).depth ≤ rank r)) = true := by decide +kernel

theorem goCode_bounded (r : Rule) : (goCode r).bounded = true ∧ (goCode r).depth ≤ rank r := by
  have := goCode_bounded_all
  rw [List.all_eq_true] at this
  simpa using this r (by cases r <;> decide)

theorem arms_bounded {x : Go} (h : x.bounded = true) :
    ∀ q ∈ x.arms, q.2.bounded = true ∧ q.2.depth ≤ x.depth := by
  induction x with
  | case d i a b _ ihb =>
    simp only [Go.bounded, Bool.and_eq_true] at h
    intro q hq
    rw [Go.arms, List.mem_cons] at hq
    simp only [Go.depth]
    rcases hq with rfl | hq
    · exact ⟨h.1, Nat.le_max_left _ _⟩
    · have := ihb h.2 q hq
      exact ⟨this.1, by omega⟩
  | _ => simp [Go.arms]

theorem andThen_ne {a : Res} {f : List Tok → Res} (ha : a ≠ .stuck)
    (hf : ∀ ks ts, a = .ok ks ts → f ts ≠ .stuck) : a.andThen f ≠ .stuck := by
  cases a with
  | ok ks ts =>
    simp only [Res.andThen]
    have := hf ks ts rfl
    cases h : f ts with
    | stuck => exact absurd h this
    | _ => simp
  | err _ => simp [Res.andThen]
  | stuck => exact absurd rfl ha

theorem depth_pos (c : Go) : c.depth ≥ 1 ∨ ∃ d i a b, c = .case d i a b := by
  cases c <;> simp [Go.depth]

/-- Enough steps for every run: 30 for each token. -/
theorem exec_halts {rt : Runtime} (hr : rt.InRange) : ∀ (n : Nat) (ctx : List Nat) (p : Nat)
    (c : Go) (ts : List Tok), c.wf = true → c.bounded = true → 30 * ts.length + c.depth ≤ n →
    exec rt n ctx p c ts ≠ .stuck := by
  intro n
  induction n with
  | zero =>
    intro ctx p c ts hw _ hn
    rcases depth_pos c with h | ⟨_, _, _, _, rfl⟩
    · omega
    · simp [Go.wf] at hw
  | succ n ih =>
    intro ctx p c ts hw hb hn
    have len : ∀ {a : Go} {ks t₁}, a.wf = true → exec rt n ctx p a ts = .ok ks t₁ →
        t₁.length ≤ ts.length ∧ (nonNull 100 a.g = true → t₁.length < ts.length) := by
      intro a ks t₁ hwa h
      obtain ⟨pre, rfl, hg⟩ := exec_sound hr _ _ _ _ _ _ _ hwa h
      refine ⟨by simp, fun hnn => ?_⟩
      have := nonNull_ok _ _ _ _ hnn hg
      simp; omega
    cases c with
    | skip => simp [exec]
    | fail => simp [exec]
    | seq a b =>
      simp only [Go.wf, Bool.and_eq_true] at hw
      simp only [Go.bounded, Bool.and_eq_true, decide_eq_true_eq] at hb
      simp only [Go.depth] at hn
      simp only [exec]
      refine andThen_ne (ih _ _ _ _ hw.1 hb.1.1 (by omega)) (fun ks t₁ h => ?_)
      have := len hw.1 h
      refine ih _ _ _ _ hw.2 hb.1.2 ?_
      split at hn
      · rename_i hnn
        have := this.2 hnn
        omega
      · have := this.1
        omega
    | tok x => cases ts <;> simp [exec] <;> split <;> simp
    | set x => cases ts <;> simp [exec] <;> split <;> simp
    | call st r k =>
      simp only [Go.depth] at hn
      have := goCode_bounded r
      have := ih (st :: ctx) k (goCode r) ts (goCode_wf r) this.1 (by omega)
      simp only [exec]
      split
      · simp
      · simp
      · rename_i h; exact absurd h this
    | pred k => simp only [exec]; split <;> simp
    | sync st => simp only [exec]; split <;> simp
    | ifLA c a b =>
      simp only [Go.wf, Bool.and_eq_true] at hw
      simp only [Go.bounded, Bool.and_eq_true] at hb
      simp only [Go.depth] at hn
      simp only [exec]
      split
      · exact ih _ _ _ _ hw.1 hb.1 (by omega)
      · exact ih _ _ _ _ hw.2 hb.2 (by omega)
    | whileLA c a =>
      have hw' := hw
      have hb' := hb
      simp only [Go.wf] at hw
      simp only [Go.bounded, Bool.and_eq_true, decide_eq_true_eq] at hb
      simp only [Go.depth] at hn
      simp only [exec]
      split
      · refine andThen_ne (ih _ _ _ _ hw hb.1.1 (by omega)) (fun ks t₁ h => ?_)
        have := (len hw h).2 hb.2
        refine ih _ _ _ _ hw' hb' ?_
        simp only [Go.depth]
        omega
      · simp
    | whileAP d a =>
      have hw' := hw
      have hb' := hb
      simp only [Go.wf, Bool.and_eq_true, beq_iff_eq] at hw
      simp only [Go.bounded, Bool.and_eq_true, decide_eq_true_eq] at hb
      simp only [Go.depth] at hn
      simp only [exec]
      split
      · simp
      · refine andThen_ne (ih _ _ _ _ hw.1.2 hb.1.1 (by omega)) (fun ks t₁ h => ?_)
        have := (len hw.1.2 h).2 hb.2
        refine ih _ _ _ _ hw' hb' ?_
        simp only [Go.depth]
        omega
      · simp
      · rename_i k hk
        have := hr d (List.contains_iff_mem.1 hw.1.1) p ctx ts
        omega
    | switchAP d x =>
      simp only [Go.wf, Bool.and_eq_true] at hw
      simp only [Go.bounded] at hb
      simp only [Go.depth] at hn
      simp only [exec]
      split
      · simp
      · rename_i i hi
        have := hr d (List.contains_iff_mem.1 hw.1) p ctx ts
        obtain ⟨a, hl, hm, hwa⟩ := wfArms_lookup _ _ _ hw.2 (i + 1) (by omega) (by omega)
        have := arms_bounded hb _ hm
        rw [hl]
        exact ih _ _ _ _ hwa this.1 (by simp only at this; omega)
    | case d i a b => simp [exec]

end Verif
