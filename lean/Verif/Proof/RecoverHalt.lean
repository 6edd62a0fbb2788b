import Verif.Proof.Recover
import Verif.Proof.PredictRight
/-!
# The parser comes to an end, errors or not: the runs
-/

namespace Verif
open PState

/-- A prediction service that does not ask for another round of a loop where
the loop cannot go on: not at the end of file, and for the lists of columns and
indexes only at a comma. -/
def Runtime.Modest (rt : Runtime) : Prop :=
  ∀ d ∈ asked, ∀ p ctx ts, rt.predict d p ctx ts = 1 →
    la ts ≠ .EOF ∧ (d = 7 ∨ d = 10 → la ts = .COMMA)

theorem opLevel_eof : opLevel .EOF = none := by decide +kernel

theorem sim_modest : simRuntime.Modest := by
  intro d hd p ctx ts h
  rw [sim_eq hd] at h
  have key : ∀ t, byTwo d p t (la ts.tail) = 1 → t ≠ .EOF ∧ (d = 7 ∨ d = 10 → t = .COMMA) := by
    intro t h
    simp only [asked, List.mem_cons, List.not_mem_nil, or_false] at hd
    rcases hd with rfl | rfl | rfl | rfl | rfl
    · simp only [byTwo] at h
      split at h <;> first | exact ⟨by simp, fun _ => rfl⟩ | cases h
    · simp only [byTwo] at h
      split at h
      · rename_i h'; rw [h'.1]; exact ⟨by simp, fun _ => rfl⟩
      · cases h
    · simp only [byTwo] at h
      split at h
      · rename_i h'; rw [h']; exact ⟨by simp, by simp⟩
      · cases h
    · simp only [byTwo] at h
      refine ⟨?_, by simp⟩
      rintro rfl
      rw [opLevel_eof] at h
      cases h
    · simp only [byTwo] at h
      refine ⟨?_, by simp⟩
      rintro rfl
      rw [opLevel_eof] at h
      cases h
  exact key _ h

theorem Runtime.Modest.enters {rt : Runtime} (h : rt.Modest) {d p : Nat} {ctx : List Nat}
    {ts : List Tok} (hd : d ∈ asked) (hp : rt.predict d p ctx ts = 1) :
    enters d (la ts) = true := by
  obtain ⟨h1, h2⟩ := h d hd p ctx ts hp
  unfold Verif.enters
  split
  · rename_i h'; rw [h2 h']; rfl
  · simpa using h1

/-- What a run of a statement achieves. -/
def Reaches (s : PState) (c : Go) (r : Option (Bool × PState)) : Prop :=
  ∃ b s', r = some (b, s') ∧ (b = true → s'.err.isSome = true) ∧
    (c.noEof = true → NoWorse s s' ∧
      ∀ k, c.moves k (la s.rest) = true → b = true ∨ s'.weight < s.weight)

theorem Reaches.mk {s s' : PState} {c : Go} {b : Bool} (hb : b = true → s'.err.isSome = true)
    (hn : c.noEof = true → NoWorse s s')
    (hm : c.noEof = true → ∀ k, c.moves k (la s.rest) = true → b = true ∨ s'.weight < s.weight) :
    Reaches s c (some (b, s')) := ⟨b, s', rfl, hb, fun h => ⟨hn h, hm h⟩⟩

/-- Enough steps: 40 for each progress. -/
theorem execR_halts {rt : Runtime} (hin : rt.InRange) (hmod : rt.Modest) (o : Strategy) :
    ∀ (m n : Nat) (c : Go) (ctx : List Nat) (p : Nat) (s : PState) (F : Nat), s.weight = m →
      Ended s.rest → c.wf = true → c.good = true → c.fits n (la s.rest) = true →
      n + 40 * m ≤ F → Reaches s c (execR rt o F ctx p c s) := by
  intro m
  induction m using Nat.strongRecOn with
  | ind m IH =>
  -- after progress
  have later : ∀ (c : Go) (ctx : List Nat) (p : Nat) (s : PState) (F : Nat), s.weight < m →
      Ended s.rest → c.wf = true → c.good = true → 40 * m ≤ F →
      Reaches s c (execR rt o F ctx p c s) := by
    intro c ctx p s F hw he hwf hg hF
    exact IH _ hw 40 c ctx p s F rfl he hwf hg (Go.good.fits hg _) (by omega)
  intro n
  induction n with
  | zero => intro c ctx p s F _ _ _ _ hf; simp [Go.fits] at hf
  | succ n ih =>
    intro c ctx p s F hm he hwf hg hf hF
    obtain ⟨F, rfl⟩ : ∃ F', F = F' + 1 := ⟨F - 1, by omega⟩
    cases c with
    | skip =>
      simp only [execR]
      exact .mk (by simp) (fun _ => .refl s) (fun _ k h => by cases k <;> simp [Go.moves] at h)
    | fail =>
      simp only [execR]
      exact .mk (fun _ => rfl) (fun _ => .refl s) (fun _ _ _ => .inl rfl)
    | seq a b =>
      simp only [Go.wf, Bool.and_eq_true] at hwf
      simp only [Go.fits, Bool.and_eq_true, Bool.or_eq_true] at hf
      have hga : a.good = true := Go.good.sub hg fun x hx => by simp [Go.subs, hx]
      have hgb : b.good = true := Go.good.sub hg fun x hx => by simp [Go.subs, hx]
      obtain ⟨e, s₁, h₁, hx₁, hr₁⟩ := ih a ctx p s F hm he hwf.1 hga hf.1.2 (by omega)
      obtain ⟨hn₁, hmv₁⟩ := hr₁ hf.1.1
      simp only [execR, h₁]
      cases e with
      | true =>
        exact .mk hx₁ (fun _ => hn₁) (fun _ _ _ => .inl rfl)
      | false =>
        simp only
        have he₁ : Ended s₁.rest := he.suffix hn₁.1
        have hb : Reaches s₁ b (execR rt o F ctx p b s₁) := by
          rcases hn₁.2 with h | h
          · refine ih b ctx p s₁ F (by rw [weight_congr h, hm]) he₁ hwf.2 hgb ?_ (by omega)
            rcases hf.2 with h' | h'
            · rcases hmv₁ n h' with h'' | h''
              · cases h''
              · rw [weight_congr h] at h''; omega
            · rw [h.1]; exact h'
          · exact later b ctx p s₁ F (by omega) he₁ hwf.2 hgb (by omega)
        obtain ⟨e₂, s₂, h₂, hx₂, hr₂⟩ := hb
        rw [h₂]
        refine .mk hx₂ (fun h => ?_) (fun h k hk => ?_)
        · simp only [Go.noEof, Bool.and_eq_true] at h
          exact hn₁.trans (hr₂ h.2).1
        · simp only [Go.noEof, Bool.and_eq_true] at h
          obtain ⟨hn₂, hmv₂⟩ := hr₂ h.2
          rcases hn₁.2 with h' | h'
          · cases k with
            | zero => simp [Go.moves] at hk
            | succ k =>
              simp only [Go.moves, Bool.or_eq_true] at hk
              rcases hk with hk | hk
              · rcases hmv₁ k hk with h'' | h''
                · cases h''
                · rw [weight_congr h'] at h''; omega
              · rw [← h'.1] at hk
                rcases hmv₂ k hk with h'' | h''
                · exact .inl h''
                · rw [weight_congr h'] at h''; exact .inr h''
          · have := hn₂.le; exact .inr (by omega)
    | tok x =>
      simp only [execR]
      refine .mk (fun h => h) (fun h => ?_) (fun h k hk => ?_)
      · simp only [Go.noEof, bne_iff_ne, ne_eq] at h
        split
        · rename_i hla
          have := eat_rest s.matched
          refine noWorse_short this.1 (this.2 ?_)
          rw [show s.matched.rest = s.rest from rfl, hla]; exact h
        · exact recoverInline_noWorse he
      · right
        cases k with
        | zero => simp [Go.moves] at hk
        | succ k =>
          simp only [Go.moves, Bool.and_eq_true, beq_iff_eq, bne_iff_ne, ne_eq] at hk
          rw [if_pos hk.1.symm]
          have := eat_rest s.matched
          exact weight_short (this.2 hk.2)
    | set x =>
      simp only [execR]
      refine .mk (by simp) (fun h => ?_) (fun h k hk => ?_)
      · simp only [Go.noEof, Bool.not_eq_true'] at h
        split
        · rename_i hla
          have := eat_rest s.matched
          refine noWorse_short this.1 (this.2 ?_)
          rw [show s.matched.rest = s.rest from rfl]
          intro h'
          rw [h', h] at hla
          cases hla
        · exact recoverInline_noWorse he
      · right
        cases k with
        | zero => simp [Go.moves] at hk
        | succ k =>
          simp only [Go.moves, Bool.and_eq_true, bne_iff_ne, ne_eq] at hk
          rw [if_pos hk.1]
          have := eat_rest s.matched
          exact weight_short (this.2 hk.2)
    | call st r q =>
      simp only [Go.fits, Bool.and_eq_true] at hf
      obtain ⟨e, s₁, h₁, hx₁, hr₁⟩ := ih (goCode r) (st :: ctx) q s F hm he (goCode_wf r)
        (goCode_good r) hf.2 (by omega)
      obtain ⟨hn₁, hmv₁⟩ := hr₁ (goCode_noEof hf.1)
      simp only [execR, h₁]
      have hl := leave_noWorse o s₁
      refine .mk (by simp) (fun _ => hn₁.trans hl.1) (fun _ k hk => .inr ?_)
      cases k with
      | zero => simp [Go.moves] at hk
      | succ k =>
        simp only [Go.moves, Bool.and_eq_true, bne_iff_ne, ne_eq] at hk
        rcases hn₁.2 with h' | h'
        · rcases hmv₁ k hk.2 with h'' | h''
          · have := hl.2 (hx₁ h'') (by rw [h'.1]; exact hk.1)
            rw [weight_congr h'] at this
            exact this
          · have := hl.1.le; omega
        · have := hl.1.le; omega
    | pred q =>
      simp only [execR]
      split
      · exact .mk (by simp) (fun _ => .refl s) (fun _ k h => by cases k <;> simp [Go.moves] at h)
      · exact .mk (fun _ => rfl) (fun _ => .refl s) (fun _ _ _ => .inl rfl)
    | sync st =>
      simp only [execR]
      exact .mk (fun h => h) (fun _ => sync_noWorse he)
        (fun _ k h => by cases k <;> simp [Go.moves] at h)
    | ifLA c a b =>
      simp only [Go.wf, Bool.and_eq_true] at hwf
      simp only [Go.fits] at hf
      have hga : a.good = true := Go.good.sub hg fun x hx => by simp [Go.subs, hx]
      have hgb : b.good = true := Go.good.sub hg fun x hx => by simp [Go.subs, hx]
      simp only [execR]
      split
      · rename_i hc
        rw [if_pos hc] at hf
        obtain ⟨e, s₁, h₁, hx₁, hr₁⟩ := ih a ctx p s F hm he hwf.1 hga hf (by omega)
        rw [h₁]
        refine .mk hx₁ (fun h => ?_) (fun h k hk => ?_)
        · simp only [Go.noEof, Bool.and_eq_true] at h
          exact (hr₁ h.1).1
        · simp only [Go.noEof, Bool.and_eq_true] at h
          cases k with
          | zero => simp [Go.moves] at hk
          | succ k =>
            simp only [Go.moves, if_pos hc] at hk
            exact (hr₁ h.1).2 k hk
      · rename_i hc
        rw [if_neg hc] at hf
        obtain ⟨e, s₁, h₁, hx₁, hr₁⟩ := ih b ctx p s F hm he hwf.2 hgb hf (by omega)
        rw [h₁]
        refine .mk hx₁ (fun h => ?_) (fun h k hk => ?_)
        · simp only [Go.noEof, Bool.and_eq_true] at h
          exact (hr₁ h.2).1
        · simp only [Go.noEof, Bool.and_eq_true] at h
          cases k with
          | zero => simp [Go.moves] at hk
          | succ k =>
            simp only [Go.moves, if_neg hc] at hk
            exact (hr₁ h.2).2 k hk
    | whileLA c a =>
      have hwf' := hwf
      simp only [Go.wf] at hwf
      simp only [Go.fits, Bool.or_eq_true, Bool.not_eq_true', Bool.and_eq_true] at hf
      have hga : a.good = true := Go.good.sub hg fun x hx => by simp [Go.subs, hx]
      simp only [execR]
      split
      · rename_i hc
        rcases hf with hf | hf
        · rw [hf] at hc; cases hc
        obtain ⟨e, s₁, h₁, hx₁, hr₁⟩ := ih a ctx p s F hm he hwf hga hf.1.2 (by omega)
        obtain ⟨hn₁, hmv₁⟩ := hr₁ hf.1.1
        rw [h₁]
        cases e with
        | true => exact .mk hx₁ (fun _ => hn₁) (fun _ _ _ => .inl rfl)
        | false =>
          have hless : s₁.weight < s.weight := by
            rcases hmv₁ n hf.2 with h | h
            · cases h
            · exact h
          obtain ⟨e₂, s₂, h₂, hx₂, hr₂⟩ := later (.whileLA c a) ctx p s₁ F (by omega)
            (he.suffix hn₁.1) hwf' hg (by omega)
          simp only [h₂]
          refine .mk hx₂ (fun h => hn₁.trans (hr₂ h).1) (fun h k _ => .inr ?_)
          have := (hr₂ h).1.le
          omega
      · rename_i hc
        exact .mk (by simp) (fun _ => .refl s)
          (fun _ k h => by cases k <;> simp [Go.moves, hc] at h)
    | whileAP d a =>
      have hwf' := hwf
      simp only [Go.wf, Bool.and_eq_true, beq_iff_eq] at hwf
      have hd : d ∈ asked := List.contains_iff_mem.1 hwf.1.1
      simp only [Go.fits, Bool.or_eq_true, Bool.not_eq_true', Bool.and_eq_true] at hf
      have hga : a.good = true := Go.good.sub hg fun x hx => by simp [Go.subs, hx]
      have nomove : ∀ k, Go.moves k (la s.rest) (.whileAP d a) = true → False := by
        intro k h; cases k <;> simp [Go.moves] at h
      simp only [execR]
      split
      · exact .mk (fun _ => rfl) (fun _ => .refl s) (fun _ _ _ => .inl rfl)
      · rename_i i hi
        split
        · rename_i herr
          exact .mk (fun _ => herr) (fun _ => .refl s) (fun _ _ _ => .inl rfl)
        · split
          · exact .mk (by simp) (fun _ => .refl s) (fun _ k h => (nomove k h).elim)
          · split
            · rename_i hi0
              subst hi0
              have hent := hmod.enters hd hi
              obtain ⟨e, s₁, h₁, hx₁, hr₁⟩ := ih a ctx p s F hm he hwf.1.2 hga hf.1.2 (by omega)
              obtain ⟨hn₁, hmv₁⟩ := hr₁ hf.1.1
              rw [h₁]
              cases e with
              | true => exact .mk hx₁ (fun _ => hn₁) (fun _ _ _ => .inl rfl)
              | false =>
                have hless : s₁.weight < s.weight := by
                  rcases hf.2 with h | h
                  · rw [hent] at h; cases h
                  · rcases hmv₁ n h with h | h
                    · cases h
                    · exact h
                obtain ⟨e₂, s₂, h₂, hx₂, hr₂⟩ := later (.whileAP d a) ctx p s₁ F (by omega)
                  (he.suffix hn₁.1) hwf' hg (by omega)
                simp only [h₂]
                exact .mk hx₂ (fun h => hn₁.trans (hr₂ h).1) (fun h k hk => (nomove k hk).elim)
            · have := hin d hd p ctx s.rest
              omega
    | switchAP d x =>
      simp only [Go.wf, Bool.and_eq_true] at hwf
      have hd : d ∈ asked := List.contains_iff_mem.1 hwf.1
      simp only [Go.fits, List.all_eq_true] at hf
      simp only [execR]
      split
      · exact .mk (fun _ => rfl) (fun _ => .refl s) (fun _ _ _ => .inl rfl)
      · rename_i i hi
        have := hin d hd p ctx s.rest
        obtain ⟨a, hl, hmem, hwa⟩ := wfArms_lookup _ _ _ hwf.2 (i + 1) (by omega) (by omega)
        have hga : a.good = true := Go.good.sub hg fun y hy => by
          simp [Go.subs, arms_subs (_, a) hmem y hy]
        simp only [hl]
        obtain ⟨e, s₁, h₁, hx₁, hr₁⟩ := ih a ctx p s F hm he hwa hga (hf (_, a) hmem) (by omega)
        rw [h₁]
        refine .mk hx₁ (fun h => (hr₁ (arms_noEof (x := x) h (_, a) hmem)).1) (fun h k hk => ?_)
        cases k with
        | zero => simp [Go.moves] at hk
        | succ k =>
          simp only [Go.moves, List.all_eq_true] at hk
          exact (hr₁ (arms_noEof (x := x) h (_, a) hmem)).2 k (hk (_, a) hmem)
    | case d i a b => simp [Go.wf] at hwf

end Verif
