import Verif.Proof.AtnParser
import Verif.Proof.AtnCheck
/-!
# The generated code implements the grammar

`Go.g` reads off the grammar expression that a piece of generated code
implements; on the 51 rule functions it gives `grammar`.
-/

namespace Verif

/-- The token types that pass a test. -/
def LaTest.toks : LaTest → List TT
  | .eqs l => l
  | .bits b m => Verif.bits b m
  | .or a b => a.toks ++ b.toks

theorem LaTest.ok_iff (t : TT) : ∀ c : LaTest, c.ok t = true ↔ t ∈ c.toks := by
  intro c
  have ht : t ∈ TT.all := by cases t <;> decide
  induction c with
  | eqs l => simp [LaTest.ok, LaTest.toks]
  | bits b m => simp [LaTest.ok, LaTest.toks, Verif.bits, ht]
  | or a b iha ihb => simp [LaTest.ok, LaTest.toks, iha, ihb]

/-- The lookahead test of the grammar at a decision made by
`AdaptivePredict`. -/
def guardOf (d i : Nat) : Guard :=
  if d = 7 then G.la2 [.COMMA] [.INDEX_NAME, .FOREIGN_KEY_, .FOREIGN_KEY_ABBR_]
  else if d = 10 then G.la2 [.COMMA] [.IDENTIFIER]
  else if d = 24 then G.la2 [.IDENTIFIER] [.PERIOD]
  else if d = 30 then ((opTable[i - 1]?).map opLook).toList
  else opTable.map opLook

/-- A sequence of code, without calls of `Sync`. -/
def seqG (a b : Go) (x y : G) : G :=
  match a, b with
  | .sync _, _ => y
  | _, .sync _ => x
  | _, _ => .seq x y

/-- A branch; an error branch or two empty branches are no decision. -/
def ifG (c : LaTest) (a b : Go) (x y : G) : G :=
  match a, b with
  | _, .fail => x
  | .skip, .skip => .eps
  | _, _ => .alt (G.la1 c.toks) x y

/-- A case of a `switch`; the last one is no decision. -/
def caseG (d i : Nat) (b : Go) (x y : G) : G :=
  match b with
  | .skip => x
  | _ => .alt (guardOf d i) x y

/-- The grammar expression of a piece of code. -/
def Go.g : Go → G
  | .skip => .eps
  | .fail => .eps
  | .seq a b => seqG a b a.g b.g
  | .tok t => .tok [t]
  | .set c => .tok c.toks
  | .call _ r k => .call r k
  | .pred k => .pred k
  | .sync _ => .eps
  | .ifLA c a b => ifG c a b a.g b.g
  | .whileLA c a => .star (G.la1 c.toks) a.g
  | .whileAP d a => .star (guardOf d 1) a.g
  | .switchAP _ x => x.g
  | .case d i a b => caseG d i b a.g b.g

/-- The rule functions implement the rules of the grammar. -/
theorem goCode_g : ∀ r, (goCode r).g = grammar r := by
  intro r; cases r <;> decide +kernel

mutual
/-- `case` occurs only inside `switch`, and a `switch` has exactly the
branches 1, ..., n of its decision, which is one of those listed as asked. -/
def Go.wf : Go → Bool
  | .seq a b => a.wf && b.wf
  | .ifLA _ a b => a.wf && b.wf
  | .whileLA _ a => a.wf
  | .whileAP d a => asked.contains d && a.wf && (parserAtn.choices d).length == 2
  | .switchAP d x => asked.contains d && x.wfArms 1 (parserAtn.choices d).length
  | .case _ _ _ _ => false
  | _ => true
/-- The branches of a `switch`, from number `i` to number `n`. -/
def Go.wfArms : Go → Nat → Nat → Bool
  | .case _ j a b, i, n => j == i && a.wf && b.wfArms (i + 1) n
  | .skip, i, n => i == n + 1
  | _, _, _ => false
end

theorem goCode_wf : ∀ r, (goCode r).wf = true := by
  intro r; cases r <;> decide +kernel

theorem wfArms_lookup : ∀ (x : Go) (i n : Nat), x.wfArms i n = true → ∀ j, i ≤ j → j ≤ n →
    ∃ a, x.arms.lookup j = some a ∧ (j, a) ∈ x.arms ∧ a.wf = true := by
  intro x
  induction x with
  | case d j a b _ ihb =>
    intro i n h k hik hkn
    simp only [Go.wfArms, Bool.and_eq_true, beq_iff_eq] at h
    obtain ⟨⟨rfl, ha⟩, hb⟩ := h
    simp only [Go.arms, List.lookup, List.mem_cons]
    by_cases hk : k = j
    · subst hk; exact ⟨a, by simp, by simp, ha⟩
    · obtain ⟨y, hy, hm, hw⟩ := ihb _ _ hb k (by omega) hkn
      have : (k == j) = false := by simpa using hk
      exact ⟨y, by simp [this, hy], .inr hm, hw⟩
  | skip =>
    intro i n h k hik hkn
    simp [Go.wfArms] at h
    omega
  | _ => intro i n h; simp [Go.wfArms] at h

theorem arms_gen {x a : Go} {i : Nat} {ts ks} (h : (i, a) ∈ x.arms) (hg : Gen a.g ts ks) :
    Gen x.g ts ks := by
  induction x with
  | case d j b y _ ih =>
    simp only [Go.arms, List.mem_cons, Prod.mk.injEq] at h
    simp only [Go.g, caseG]
    rcases h with ⟨_, rfl⟩ | h
    · split
      · exact hg
      · exact .altL hg
    · split
      · simp [Go.arms] at h
      · exact .altR (ih h)
  | _ => simp [Go.arms] at h

theorem gen_seq_g {a b : Go} {t₁ t₂ k₁ k₂} (ha : Gen a.g t₁ k₁) (hb : Gen b.g t₂ k₂) :
    Gen (Go.seq a b).g (t₁ ++ t₂) (k₁ ++ k₂) := by
  simp only [Go.g, seqG]
  split
  · simp [Go.g] at ha; obtain ⟨rfl, rfl⟩ := ha; simpa using hb
  · simp [Go.g] at hb; obtain ⟨rfl, rfl⟩ := hb; simpa using ha
  · exact .seq ha hb

theorem andThen_ok {a : Res} {f : List Tok → Res} {ks rest} (h : a.andThen f = .ok ks rest) :
    ∃ k₁ t₁ k₂, a = .ok k₁ t₁ ∧ f t₁ = .ok k₂ rest ∧ ks = k₁ ++ k₂ := by
  unfold Res.andThen at h
  split at h
  · rename_i k₁ t₁
    split at h
    · rename_i k₂ t₂ h₂
      simp only [Res.ok.injEq] at h
      obtain ⟨rfl, rfl⟩ := h
      exact ⟨k₁, t₁, k₂, rfl, h₂, rfl⟩
    · cases h
    · cases h
  · cases h
  · cases h

/-- A run without an error derives what it consumed. -/
theorem exec_sound {rt : Runtime} (hr : rt.InRange) : ∀ (n : Nat) (ctx : List Nat) (p : Nat)
    (c : Go) (ts : List Tok) (ks : List Tree) (rest : List Tok), c.wf = true →
    exec rt n ctx p c ts = .ok ks rest → ∃ pre, ts = pre ++ rest ∧ Gen c.g pre ks := by
  intro n
  induction n with
  | zero => intro ctx p c ts ks rest _ h; simp [exec] at h
  | succ n ih =>
    intro ctx p c ts ks rest hw h
    cases c with
    | skip => simp [exec] at h; obtain ⟨rfl, rfl⟩ := h; exact ⟨[], rfl, .eps⟩
    | fail => simp [exec] at h
    | seq a b =>
      simp only [exec] at h
      simp only [Go.wf, Bool.and_eq_true] at hw
      obtain ⟨k₁, t₁, k₂, h₁, h₂, rfl⟩ := andThen_ok h
      obtain ⟨p₁, rfl, g₁⟩ := ih _ _ _ _ _ _ hw.1 h₁
      obtain ⟨p₂, rfl, g₂⟩ := ih _ _ _ _ _ _ hw.2 h₂
      exact ⟨p₁ ++ p₂, by simp, gen_seq_g g₁ g₂⟩
    | tok x =>
      cases ts with
      | nil => simp [exec] at h
      | cons t ts =>
        simp only [exec] at h
        split at h
        · rename_i ht
          simp only [Res.ok.injEq] at h
          obtain ⟨rfl, rfl⟩ := h
          exact ⟨[t], rfl, .tok (by simp [ht])⟩
        · cases h
    | set c =>
      cases ts with
      | nil => simp [exec] at h
      | cons t ts =>
        simp only [exec] at h
        split at h
        · rename_i ht
          simp only [Res.ok.injEq] at h
          obtain ⟨rfl, rfl⟩ := h
          exact ⟨[t], rfl, .tok ((LaTest.ok_iff _ _).1 ht)⟩
        · cases h
    | call st r k =>
      simp only [exec] at h
      split at h
      · rename_i ks' ts' h'
        simp only [Res.ok.injEq] at h
        obtain ⟨rfl, rfl⟩ := h
        obtain ⟨pre, rfl, hg⟩ := ih _ _ _ _ _ _ (goCode_wf r) h'
        rw [goCode_g] at hg
        exact ⟨pre, rfl, .call hg⟩
      · cases h
      · cases h
    | pred k =>
      simp only [exec] at h
      split at h
      · simp only [Res.ok.injEq] at h; obtain ⟨rfl, rfl⟩ := h; exact ⟨[], rfl, .pred⟩
      · cases h
    | sync st =>
      simp only [exec] at h
      split at h
      · simp only [Res.ok.injEq] at h; obtain ⟨rfl, rfl⟩ := h; exact ⟨[], rfl, .eps⟩
      · cases h
    | ifLA c a b =>
      simp only [Go.wf, Bool.and_eq_true] at hw
      simp only [exec] at h
      simp only [Go.g, ifG]
      split at h
      · obtain ⟨pre, rfl, hg⟩ := ih _ _ _ _ _ _ hw.1 h
        refine ⟨pre, rfl, ?_⟩
        split
        · exact hg
        · exact hg
        · exact .altL hg
      · obtain ⟨pre, rfl, hg⟩ := ih _ _ _ _ _ _ hw.2 h
        refine ⟨pre, rfl, ?_⟩
        split
        · cases n <;> simp [exec] at h
        · exact hg
        · exact .altR hg
    | whileLA c a =>
      have hw' := hw
      simp only [Go.wf] at hw
      simp only [exec] at h
      split at h
      · obtain ⟨k₁, t₁, k₂, h₁, h₂, rfl⟩ := andThen_ok h
        obtain ⟨p₁, rfl, g₁⟩ := ih _ _ _ _ _ _ hw h₁
        obtain ⟨p₂, rfl, g₂⟩ := ih _ _ _ _ _ _ hw' h₂
        exact ⟨p₁ ++ p₂, by simp, .starCons g₁ g₂⟩
      · simp only [Res.ok.injEq] at h; obtain ⟨rfl, rfl⟩ := h; exact ⟨[], rfl, .starNil⟩
    | whileAP d a =>
      have hw' := hw
      simp only [Go.wf, Bool.and_eq_true, beq_iff_eq] at hw
      simp only [exec] at h
      split at h
      · cases h
      · obtain ⟨k₁, t₁, k₂, h₁, h₂, rfl⟩ := andThen_ok h
        obtain ⟨p₁, rfl, g₁⟩ := ih _ _ _ _ _ _ hw.1.2 h₁
        obtain ⟨p₂, rfl, g₂⟩ := ih _ _ _ _ _ _ hw' h₂
        exact ⟨p₁ ++ p₂, by simp, .starCons g₁ g₂⟩
      · simp only [Res.ok.injEq] at h; obtain ⟨rfl, rfl⟩ := h; exact ⟨[], rfl, .starNil⟩
      · exact ih _ _ _ _ _ _ hw' h
    | switchAP d x =>
      simp only [Go.wf, Bool.and_eq_true] at hw
      simp only [exec] at h
      split at h
      · cases h
      · rename_i i hi
        have := hr d (List.contains_iff_mem.1 hw.1) p ctx ts
        obtain ⟨a, hl, hm, hwa⟩ := wfArms_lookup _ _ _ hw.2 (i + 1) (by omega) (by omega)
        rw [hl] at h
        obtain ⟨pre, rfl, hg⟩ := ih _ _ _ _ _ _ hwa h
        exact ⟨pre, rfl, arms_gen (x := x) hm hg⟩
    | case d i a b => simp [Go.wf] at hw

end Verif
