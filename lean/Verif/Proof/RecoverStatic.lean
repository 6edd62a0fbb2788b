import Verif.Model.Recover
import Verif.Proof.GoHalt
import Verif.Proof.PredictTable
/-!
# Static facts about the generated code, for runs with errors
-/

namespace Verif

/-- The end-of-file token is not matched here. -/
def Go.noEof : Go → Bool
  | .tok x => x != .EOF
  | .set c => !c.ok .EOF
  | .seq a b => a.noEof && b.noEof
  | .call _ r _ => r != .source_unit
  | .ifLA _ a b => a.noEof && b.noEof
  | .whileLA _ a => a.noEof
  | .whileAP _ a => a.noEof
  | .switchAP _ x => x.noEof
  | .case _ _ a b => a.noEof && b.noEof
  | _ => true

/-- The next tokens with which a loop may be entered. -/
def enters (d : Nat) (t : TT) : Bool :=
  if d = 7 ∨ d = 10 then t == .COMMA else t != .EOF

/-- With the next token `t`, the code consumes a token, or an error strategy
makes progress, or control goes to `errorExit`. -/
def Go.moves : Nat → TT → Go → Bool
  | 0, _, _ => false
  | _ + 1, _, .fail => true
  | n + 1, t, .seq a b => a.moves n t || b.moves n t
  | _ + 1, t, .tok x => x == t && t != .EOF
  | _ + 1, t, .set c => c.ok t && t != .EOF
  | n + 1, t, .call _ r _ => t != .EOF && (goCode r).moves n t
  | n + 1, t, .ifLA c a b => if c.ok t then a.moves n t else b.moves n t
  | n + 1, t, .whileLA c a => c.ok t && a.moves n t
  | n + 1, t, .switchAP _ x => x.arms.all fun q => q.2.moves n t
  | _ + 1, _, _ => false

/-- The depth of the calls is bounded as long as there is no progress, and
loops make progress. -/
def Go.fits : Nat → TT → Go → Bool
  | 0, _, _ => false
  | n + 1, t, .seq a b => a.noEof && a.fits n t && (a.moves n t || b.fits n t)
  | n + 1, t, .call _ r _ => r != .source_unit && (goCode r).fits n t
  | n + 1, t, .ifLA c a b => if c.ok t then a.fits n t else b.fits n t
  | n + 1, t, .whileLA c a => !c.ok t || (a.noEof && a.fits n t && a.moves n t)
  | n + 1, t, .whileAP d a => a.noEof && a.fits n t && (!enters d t || a.moves n t)
  | n + 1, t, .switchAP _ x => x.arms.all fun q => q.2.fits n t
  | _ + 1, _, _ => true

def Go.subs : Go → List Go
  | .seq a b => .seq a b :: (a.subs ++ b.subs)
  | .ifLA c a b => .ifLA c a b :: (a.subs ++ b.subs)
  | .whileLA c a => .whileLA c a :: a.subs
  | .whileAP d a => .whileAP d a :: a.subs
  | .switchAP d x => .switchAP d x :: x.subs
  | .case d i a b => .case d i a b :: (a.subs ++ b.subs)
  | c => [c]

/-- Every part of the code fits, whatever comes next. -/
def Go.good (c : Go) : Bool := c.subs.all fun x => TT.all.all fun t => x.fits 40 t

theorem rules_parts (f : Rule → Bool) (h₁ : (Rule.all.take 10).all f = true)
    (h₂ : ((Rule.all.drop 10).take 10).all f = true) (h₃ : ((Rule.all.drop 20).take 10).all f = true)
    (h₄ : ((Rule.all.drop 30).take 10).all f = true) (h₅ : ((Rule.all.drop 40).take 6).all f = true)
    (h₆ : (Rule.all.drop 46).all f = true) (r : Rule) : f r = true := by
  have h : Rule.all.all f = true := by
    have e : Rule.all = Rule.all.take 10 ++ ((Rule.all.drop 10).take 10 ++
        ((Rule.all.drop 20).take 10 ++ ((Rule.all.drop 30).take 10 ++ ((Rule.all.drop 40).take 6 ++
          Rule.all.drop 46)))) := by decide
    rw [e]
    simp only [List.all_append, h₁, h₂, h₃, h₄, h₅, h₆, Bool.and_self]
  rw [List.all_eq_true] at h
  exact h r (by cases r <;> decide)

set_option Elab.async false in
theorem goCode_good₁ : (Rule.all.take 10).all (fun r => (goCode r).good) = true := by
  decide +kernel
set_option Elab.async false in
theorem goCode_good₂ : ((Rule.all.drop 10).take 10).all (fun r => (goCode r).good) = true := by
  decide +kernel
set_option Elab.async false in
theorem goCode_good₃ : ((Rule.all.drop 20).take 10).all (fun r => (goCode r).good) = true := by
  decide +kernel
set_option Elab.async false in
theorem goCode_good₄ : ((Rule.all.drop 30).take 10).all (fun r => (goCode r).good) = true := by
  decide +kernel
set_option Elab.async false in
theorem goCode_good₅ : ((Rule.all.drop 40).take 6).all (fun r => (goCode r).good) = true := by
  decide +kernel
set_option Elab.async false in
theorem goCode_good₆ : (Rule.all.drop 46).all (fun r => (goCode r).good) = true := by
  decide +kernel

theorem goCode_good (r : Rule) : (goCode r).good = true :=
  rules_parts (fun r => (goCode r).good) goCode_good₁ goCode_good₂ goCode_good₃ goCode_good₄ goCode_good₅
    goCode_good₆ r

theorem goCode_noEof_all : Rule.all.all (fun r => r == .source_unit || (goCode r).noEof) = true := by
  decide +kernel

theorem goCode_noEof {r : Rule} (h : (r != .source_unit) = true) : (goCode r).noEof = true := by
  have := goCode_noEof_all
  rw [List.all_eq_true] at this
  have := this r (by cases r <;> decide)
  simp only [bne_iff_ne, ne_eq] at h
  simpa [h] using this

theorem Go.self_subs (c : Go) : c ∈ c.subs := by cases c <;> simp [Go.subs]

theorem Go.good.fits {c : Go} (h : c.good = true) (t : TT) : c.fits 40 t = true := by
  unfold Go.good at h
  rw [List.all_eq_true] at h
  have := h c c.self_subs
  rw [List.all_eq_true] at this
  exact this t (TT.mem_all' t)

theorem Go.good.sub {c a : Go} (h : c.good = true) (hs : ∀ x ∈ a.subs, x ∈ c.subs) :
    a.good = true := by
  unfold Go.good at h ⊢
  rw [List.all_eq_true] at h ⊢
  exact fun x hx => h x (hs x hx)

theorem arms_subs {x : Go} : ∀ q ∈ x.arms, ∀ y ∈ q.2.subs, y ∈ x.subs := by
  induction x with
  | case d i a b _ ihb =>
    intro q hq y hy
    rw [Go.arms, List.mem_cons] at hq
    rcases hq with rfl | hq
    · simp [Go.subs, hy]
    · simp [Go.subs, ihb q hq y hy]
  | _ => simp [Go.arms]

theorem arms_noEof {x : Go} (h : x.noEof = true) : ∀ q ∈ x.arms, q.2.noEof = true := by
  induction x with
  | case d i a b _ ihb =>
    simp only [Go.noEof, Bool.and_eq_true] at h
    intro q hq
    rw [Go.arms, List.mem_cons] at hq
    rcases hq with rfl | hq
    · exact h.1
    · exact ihb h.2 q hq
  | _ => simp [Go.arms]

end Verif
