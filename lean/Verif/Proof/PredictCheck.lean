import Verif.Model.Predict
import Verif.Spec.Predict
/-!
# What the tables predict
-/

namespace Verif

set_option Elab.async false

open Atn

/-- A configuration with an empty context. -/
def pc (s alt : Nat) (sem : Option Nat) (dips : Nat) (supp : Bool) : PConfig := ⟨s, alt, [], sem, dips, supp⟩

def set7 : List PConfig := [pc 168 1 none 0 false, pc 178 2 none 0 false, pc 181 2 none 0 false]
def set10 : List PConfig := [pc 192 1 none 0 false, pc 168 2 none 1 false, pc 178 2 none 1 false, pc 181 2 none 1 false]
def set24 : List PConfig := [⟨378, 1, [385], none, 0, false⟩, ⟨312, 2, [385], none, 0, false⟩]
def set30 : List PConfig := [pc 428 1 (some 10) 0 false, pc 431 2 (some 9) 0 false, pc 434 3 (some 8) 0 false,
  pc 437 4 (some 7) 0 false, pc 440 5 (some 6) 0 false, pc 443 6 (some 5) 0 false,
  pc 446 7 (some 3) 0 false, pc 449 8 (some 2) 0 false]
def set31 : List PConfig := [pc 428 1 (some 10) 0 false, pc 431 1 (some 9) 0 false, pc 434 1 (some 8) 0 false,
  pc 437 1 (some 7) 0 false, pc 440 1 (some 6) 0 false, pc 443 1 (some 5) 0 false,
  pc 446 1 (some 3) 0 false, pc 449 1 (some 2) 0 false,
  pc 391 2 none 1 true, pc 372 2 none 2 true, pc 404 2 none 1 true,
  pc 428 2 none 2 false, pc 431 2 none 2 false, pc 434 2 none 2 false, pc 437 2 none 2 false,
  pc 440 2 none 2 false, pc 443 2 none 2 false, pc 446 2 none 2 false, pc 449 2 none 2 false,
  pc 413 2 none 2 true, pc 423 2 none 2 true]

theorem start7 : parserAtn.startP 7 = some set7 := by decide +kernel
theorem start10 : parserAtn.startP 10 = some set10 := by decide +kernel
theorem start24 : parserAtn.startP 24 = some set24 := by decide +kernel
theorem start30 : parserAtn.startP 30 = some set30 := by decide +kernel
theorem start31 : parserAtn.startP 31 = some set31 := by decide +kernel

theorem prec_none : parserAtn.precOf 7 = none ∧ parserAtn.precOf 10 = none ∧
    parserAtn.precOf 24 = none ∧ parserAtn.precOf 30 = none := by decide +kernel

theorem prec31 : parserAtn.precOf 31 = some 50 := by decide +kernel

/-- The answer after the next token `t`, if there is one that does not depend on
predicates. -/
def decide1 (a : T) (prec : Option Nat) (ks : List PConfig) (t : TT) : Option Nat :=
  match a.reachP prec ks t with
  | none => none
  | some [] => if ks.all (fun k => k.sem.isNone) then some (a.giveUp 0 ks) else none
  | some (k :: l) =>
    if (k :: l).all (fun k => k.sem.isNone) && uniqueAlt (k :: l) != 0 then some (uniqueAlt (k :: l))
    else none

theorem holds_of_none {p : Nat} {k : PConfig} (h : k.sem.isNone = true) : k.holds p = true := by
  cases hs : k.sem with
  | none => simp [PConfig.holds, hs]
  | some j => simp [hs] at h

theorem giveUp_free {a : T} {ks : List PConfig} (h : ks.all (fun k => k.sem.isNone) = true) (p q : Nat) :
    a.giveUp p ks = a.giveUp q ks := by
  have h : ∀ k ∈ ks, k.sem.isNone = true := List.all_eq_true.1 h
  have e : ∀ r, ks.filter (PConfig.holds r) = ks := fun r =>
    List.filter_eq_self.2 fun k hk => holds_of_none (h k hk)
  have e' : ∀ r, (ks.filter fun k => !k.holds r) = [] := fun r =>
    List.filter_eq_nil_iff.2 fun k hk => by simp [holds_of_none (h k hk)]
  simp only [T.giveUp, e, e']

theorem decide1_ok {a : T} {prec : Option Nat} {ks : List PConfig} {ts : List Tok} {i : Nat}
    (h : decide1 a prec ks (la ts) = some i) (p n m : Nat) :
    a.predictFrom prec p (n + 1) m ks ts = some (i, m) := by
  unfold decide1 at h
  unfold T.predictFrom
  cases hr : a.reachP prec ks (la ts) with
  | none => rw [hr] at h; cases h
  | some l =>
    rw [hr] at h
    cases l with
    | nil =>
      simp only at h ⊢
      split at h
      · rename_i hn
        rw [giveUp_free hn p 0]; cases h; rfl
      · cases h
    | cons k l =>
      simp only at h ⊢
      split at h
      · rename_i hc
        simp only [Bool.and_eq_true] at hc
        have hh : (k :: l).any (PConfig.holds p) = true := by
          have := List.all_eq_true.1 hc.1 k List.mem_cons_self
          simp [holds_of_none this]
        rw [if_pos hc.2, hh]
        cases h; rfl
      · cases h

/-- The configurations after the next token `t`, if it does not decide. -/
def next1 (a : T) (prec : Option Nat) (ks : List PConfig) (t : TT) : Option (List PConfig) :=
  match a.reachP prec ks t with
  | none => none
  | some [] => none
  | some (k :: l) =>
    if uniqueAlt (k :: l) == 0 && !a.conflict (k :: l) && t != .EOF then some (k :: l) else none

theorem next1_ok {a : T} {prec : Option Nat} {ks ks' : List PConfig} {ts : List Tok}
    (h : next1 a prec ks (la ts) = some ks') (p n m : Nat) :
    a.predictFrom prec p (n + 1) m ks ts = a.predictFrom prec p n (m + 1) ks' ts.tail := by
  unfold next1 at h
  conv => lhs; unfold T.predictFrom
  cases hr : a.reachP prec ks (la ts) with
  | none => rw [hr] at h; cases h
  | some l =>
    rw [hr] at h
    cases l with
    | nil => cases h
    | cons k l =>
      simp only at h ⊢
      split at h
      · rename_i hc
        simp only [Bool.and_eq_true, beq_iff_eq, Bool.not_eq_true', bne_iff_ne] at hc
        cases h
        simp [hc.1.1, hc.1.2, hc.2]
      · cases h

/-- The answer after the next token `t`, when every way to go on is under the
predicate `sem`: level and alternative; or when there is no way (0). -/
def decideP (a : T) (prec : Option Nat) (ks : List PConfig) (t : TT) : Option (Option (Nat × Nat)) :=
  match a.reachP prec ks t with
  | none => none
  | some [] => if ks.all (fun k => k.dips == 0 && !((a.st k.state).ty == 7)) then some none else none
  | some (k :: l) =>
    match k.sem with
    | none => none
    | some j => if (k :: l).all (fun k => k.sem == some j) && uniqueAlt (k :: l) != 0 then
        some (some (uniqueAlt (k :: l), j)) else none

theorem finished_zero {a : T} {ks : List PConfig} {q : PConfig → Bool}
    (h : ks.all (fun k => k.dips == 0 && !((a.st k.state).ty == 7)) = true) :
    a.finished (ks.filter q) = 0 := by
  have h := List.all_eq_true.1 h
  have : ((ks.filter q).filter fun k => decide (0 < k.dips) ||
      ((a.st k.state).ty == 7 && k.stack.isEmpty)) = [] :=
    List.filter_eq_nil_iff.2 fun k hk => by
      have := h k (List.mem_filter.1 hk).1
      simp only [Bool.and_eq_true, beq_iff_eq, Bool.not_eq_true'] at this
      simp [this.1, this.2]
  simp only [T.finished, this, List.map_nil, List.min?_nil, Option.getD_none]

/-- The answer in a rule invoked with precedence `p`. -/
def answerP (p : Nat) : Option (Nat × Nat) → Nat
  | some (i, k) => if p ≤ k then i else 0
  | none => 0

theorem decideP_ok {a : T} {prec : Option Nat} {ks : List PConfig} {ts : List Tok}
    {x : Option (Nat × Nat)} (h : decideP a prec ks (la ts) = some x) (p n : Nat) :
    a.predictFrom prec p (n + 1) 0 ks ts = some (answerP p x, 0) := by
  unfold decideP at h
  unfold T.predictFrom
  cases hr : a.reachP prec ks (la ts) with
  | none => rw [hr] at h; cases h
  | some l =>
    rw [hr] at h
    cases l with
    | nil =>
      simp only at h ⊢
      split at h
      · rename_i hn
        cases h
        simp only [T.giveUp, finished_zero hn]
        rfl
      · cases h
    | cons k l =>
      simp only at h ⊢
      split at h
      · cases h
      · rename_i j hj
        split at h
        · rename_i hc
          simp only [Bool.and_eq_true] at hc
          cases h
          rw [if_pos hc.2]
          have hh : (k :: l).any (PConfig.holds p) = decide (p ≤ j) := by
            have hall := List.all_eq_true.1 hc.1
            by_cases hp : p ≤ j
            · simp [PConfig.holds, hj, hp]
            · simp only [hp, decide_false]
              rw [List.any_eq_false]
              intro c hcm
              have := hall c hcm
              simp only [beq_iff_eq] at this
              simp [PConfig.holds, this, hp]
          rw [hh]
          by_cases hp : p ≤ j <;> simp [answerP, hp]
        · cases h

end Verif
