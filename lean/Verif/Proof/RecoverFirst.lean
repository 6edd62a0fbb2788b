import Verif.Proof.RecoverCount
/-!
# The first report

Until the first error, the run with the error strategy is the run of `exec`;
the first report is about the token at which that run stops.
-/

namespace Verif
open PState

/-! ## Reports are kept -/

/-- The reports so far are kept. -/
def Keeps (s s' : PState) : Prop := ∃ l, s'.places = l ++ s.places

theorem Keeps.refl (s : PState) : Keeps s s := ⟨[], rfl⟩

theorem Keeps.of {s s' : PState} (h : s'.places = s.places) : Keeps s s' := ⟨[], h⟩

theorem Keeps.trans {s₁ s₂ s₃ : PState} (h : Keeps s₁ s₂) (h' : Keeps s₂ s₃) : Keeps s₁ s₃ := by
  obtain ⟨l, h⟩ := h
  obtain ⟨l', h'⟩ := h'
  exact ⟨l' ++ l, by rw [h', h, List.append_assoc]⟩

theorem report_keeps (s : PState) (k : Nat) : Keeps s (s.report k) := by
  unfold report
  split
  · exact .refl s
  · exact ⟨[k], rfl⟩

theorem report_new {s : PState} (k : Nat) (h : s.mode = false) :
    (s.report k).places = k :: s.places := by
  unfold report
  simp [h]

theorem delete_places {o : Strategy} {s s' : PState} (h : s.delete o = some s') :
    s'.places = (s.report s.here).places := by
  unfold delete at h
  split at h
  · rw [← Option.some.inj h]
    show (s.tick.report s.here).eat.places = _
    rw [(eat_load _).1, tick_report]
    rfl
  · cases h

theorem recoverInline_places (o : Strategy) (s : PState) :
    (s.recoverInline o).places = (s.report s.here).places ∨
      s.recoverInline o = s.tick.setErr := by
  unfold recoverInline
  split
  · rename_i s' h
    left
    rw [(eat_load _).1, delete_places h]
  · split
    · left
      rw [tick_report]
      rfl
    · exact .inr rfl

theorem recover_places (o : Strategy) (s : PState) : (s.recover o).places = s.places := by
  unfold recover
  simp only
  split
  · exact (eat_load s).1
  · rfl

theorem leave_keeps (o : Strategy) (s : PState) : Keeps s (s.leave o) := by
  unfold leave
  split
  · exact .refl s
  · rename_i k h
    exact (report_keeps s k).trans (.of (recover_places o _))

/-- What `Sync` does when it is not satisfied. -/
theorem sync_places (o : Strategy) (st : Nat) (s : PState) :
    s.sync o st = s ∨ (s.sync o st).places = (s.report s.here).places ∨
      s.sync o st = s.tick.setErr := by
  unfold sync
  split
  · exact .inl rfl
  · split
    · exact .inr (.inl rfl)
    · split
      · rename_i s' h; exact .inr (.inl (delete_places h))
      · exact .inr (.inr rfl)

theorem execR_keeps {rt : Runtime} {o : Strategy} : ∀ (F : Nat) (ctx : List Nat) (p : Nat) (c : Go)
    (s s' : PState) (b : Bool), execR rt o F ctx p c s = some (b, s') → Keeps s s' := by
  intro F
  have inline : ∀ s : PState, Keeps s (s.recoverInline o) := by
    intro s
    rcases recoverInline_places o s with h | h
    · exact (report_keeps s s.here).trans (.of h)
    · rw [h]; exact .refl s
  induction F with
  | zero => intro ctx p c s s' b h; cases h
  | succ F ih =>
    intro ctx p c s s' b h
    cases c with
    | skip => cases h; exact .refl _
    | fail => cases h; exact .refl s
    | seq x y =>
      simp only [execR] at h
      split at h
      · rename_i s₁ h₁
        exact (ih _ _ _ _ _ _ h₁).trans (ih _ _ _ _ _ _ h)
      · exact ih _ _ _ _ _ _ h
    | tok x =>
      simp only [execR, Option.some.injEq, Prod.mk.injEq] at h
      rw [← h.2]
      split
      · exact .of (eat_load s.matched).1
      · exact inline s
    | set x =>
      simp only [execR, Option.some.injEq, Prod.mk.injEq] at h
      rw [← h.2]
      split
      · exact .of (eat_load s.matched).1
      · exact inline s
    | call st r q =>
      simp only [execR] at h
      split at h
      · rename_i e s₁ h₁
        simp only [Option.some.injEq, Prod.mk.injEq] at h
        rw [← h.2]
        exact (ih _ _ _ _ _ _ h₁).trans (leave_keeps o s₁)
      · cases h
    | pred q =>
      simp only [execR] at h
      split at h
      · cases h; exact .refl _
      · cases h; exact .refl s
    | sync st =>
      simp only [execR, Option.some.injEq, Prod.mk.injEq] at h
      rw [← h.2]
      rcases sync_places o st s with h | h | h
      · rw [h]; exact .refl s
      · exact (report_keeps s s.here).trans (.of h)
      · rw [h]; exact .refl s
    | ifLA c x y =>
      simp only [execR] at h
      split at h
      · exact ih _ _ _ _ _ _ h
      · exact ih _ _ _ _ _ _ h
    | whileLA c x =>
      simp only [execR] at h
      split at h
      · split at h
        · rename_i s₁ h₁
          exact (ih _ _ _ _ _ _ h₁).trans (ih _ _ _ _ _ _ h)
        · exact ih _ _ _ _ _ _ h
      · cases h; exact .refl _
    | whileAP d x =>
      simp only [execR] at h
      split at h
      · cases h; exact .refl s
      · split at h
        · cases h; exact .refl _
        · split at h
          · cases h; exact .refl _
          · split at h
            · split at h
              · rename_i s₁ h₁
                exact (ih _ _ _ _ _ _ h₁).trans (ih _ _ _ _ _ _ h)
              · exact ih _ _ _ _ _ _ h
            · exact ih _ _ _ _ _ _ h
    | switchAP d x =>
      simp only [execR] at h
      split at h
      · cases h; exact .refl s
      · split at h
        · exact ih _ _ _ _ _ _ h
        · cases h; exact .refl _
    | case d i x y => cases h; exact .refl _

/-! ## Static facts -/

/-- An exception of a token set may be pending after this code. -/
def Go.endsSet : Go → Bool
  | .set _ => true
  | .seq _ b => b.endsSet
  | .ifLA _ a b => a.endsSet || b.endsSet
  | .switchAP _ x => x.endsSet
  | .case _ _ a b => a.endsSet || b.endsSet
  | _ => false

/-- The code looks for a pending exception before it goes on. -/
def Go.stops : Nat → Go → Bool
  | 0, _ => false
  | _ + 1, .tok _ => true
  | _ + 1, .sync _ => true
  | n + 1, .seq a _ => a.stops n
  | n + 1, .call _ r _ => (goCode r).stops n
  | _, _ => false

/-- Exceptions of token sets do not stay pending for long. -/
def Go.tight : Go → Bool
  | .seq a b => a.tight && b.tight && (!a.endsSet || b.stops 6)
  | .ifLA _ a b => a.tight && b.tight
  | .whileLA _ a => a.tight && !a.endsSet
  | .whileAP _ a => a.tight && !a.endsSet
  | .switchAP _ x => x.tight
  | .case _ _ a b => a.tight && b.tight
  | _ => true

theorem goCode_tight_all : Rule.all.all (fun r => (goCode r).tight) = true := by decide +kernel

theorem goCode_tight (r : Rule) : (goCode r).tight = true := by
  have := goCode_tight_all
  rw [List.all_eq_true] at this
  exact this r (by cases r <;> decide)

theorem arms_tight {x : Go} (h : x.tight = true) : ∀ q ∈ x.arms, q.2.tight = true ∧
    (q.2.endsSet = true → x.endsSet = true) := by
  induction x with
  | case d i a b _ ihb =>
    simp only [Go.tight, Bool.and_eq_true] at h
    intro q hq
    rw [Go.arms, List.mem_cons] at hq
    rcases hq with rfl | hq
    · exact ⟨h.1, fun h => by simp [Go.endsSet, h]⟩
    · exact ⟨(ihb h.2 q hq).1, fun h' => by simp [Go.endsSet, (ihb h.2 q hq).2 h']⟩
  | _ => simp [Go.arms]

/-! ## The first report -/

/-- The first new report is about token `k`, or its exception is pending. -/
def Blamed (s : PState) (k : Nat) (b : Bool) (s' : PState) : Prop :=
  (∃ l, s'.places = l ++ k :: s.places) ∨
    (s'.places = s.places ∧ s'.mode = false ∧ s'.err = some k ∧ b = true)

theorem Blamed.later {s s₁ s' : PState} {k : Nat} {b : Bool} (h : ∃ l, s₁.places = l ++ k :: s.places)
    (h' : Keeps s₁ s') : Blamed s k b s' := by
  obtain ⟨l, h⟩ := h
  obtain ⟨l', h'⟩ := h'
  exact .inl ⟨l' ++ l, by rw [h', h, List.append_assoc]⟩

theorem leave_told {o : Strategy} {s s₁ : PState} {k : Nat} {b c : Bool} (h : Blamed s k b s₁) :
    Blamed s k c (s₁.leave o) := by
  rcases h with h | ⟨h1, h2, h3, _⟩
  · exact Blamed.later h (leave_keeps o s₁)
  · left
    refine ⟨[], ?_⟩
    unfold leave
    rw [h3]
    simp only
    rw [recover_places, report_new k h2, h1]
    rfl

theorem inline_told {o : Strategy} {s : PState} (hm : s.mode = false) :
    Blamed s s.here (s.recoverInline o).err.isSome (s.recoverInline o) := by
  rcases recoverInline_places o s with h | h
  · exact .inl ⟨[], by rw [h, report_new _ hm]; rfl⟩
  · rw [h]
    exact .inr ⟨rfl, hm, rfl, rfl⟩

/-- With an exception pending about the current token. -/
theorem stops_told {rt : Runtime} {o : Strategy} : ∀ (F : Nat) (n : Nat) (ctx : List Nat) (p : Nat)
    (c : Go) (s s' : PState) (b : Bool), execR rt o F ctx p c s = some (b, s') →
    c.stops n = true → s.mode = false → s.err = some s.here → Blamed s s.here b s' := by
  intro F
  induction F with
  | zero => intro n ctx p c s s' b h; cases h
  | succ F ih =>
    intro n ctx p c s s' b h hs hm he
    obtain ⟨n, rfl⟩ : ∃ n', n = n' + 1 := by
      cases n with
      | zero => simp [Go.stops] at hs
      | succ n => exact ⟨n, rfl⟩
    cases c with
    | tok x =>
      simp only [execR, Option.some.injEq, Prod.mk.injEq] at h
      obtain ⟨rfl, rfl⟩ := h
      split
      · have := eat_load s.matched
        refine .inr ⟨this.1, this.2.1, this.2.2.trans he, ?_⟩
        rw [this.2.2, show s.matched.err = s.err from rfl, he]
        rfl
      · exact inline_told hm
    | sync st =>
      simp only [execR, Option.some.injEq, Prod.mk.injEq] at h
      obtain ⟨rfl, rfl⟩ := h
      rcases sync_places o st s with h | h | h
      · rw [h]; exact .inr ⟨rfl, hm, he, by rw [he]; rfl⟩
      · exact .inl ⟨[], by rw [h, report_new _ hm]; rfl⟩
      · rw [h]; exact .inr ⟨rfl, hm, rfl, rfl⟩
    | seq x y =>
      simp only [Go.stops] at hs
      simp only [execR] at h
      split at h
      · rename_i s₁ h₁
        rcases ih n _ _ _ _ _ _ h₁ hs hm he with h' | h'
        · exact Blamed.later h' (execR_keeps _ _ _ _ _ _ _ h)
        · cases h'.2.2.2
      · exact ih n _ _ _ _ _ _ h hs hm he
    | call st r q =>
      simp only [Go.stops] at hs
      simp only [execR] at h
      split at h
      · rename_i e s₁ h₁
        simp only [Option.some.injEq, Prod.mk.injEq] at h
        rw [← h.2]
        exact leave_told (ih n _ _ _ _ _ _ h₁ hs hm he)
      · cases h
    | _ => simp [Go.stops] at hs

/-- No error so far, and `r` left to read. -/
structure Clean (s s' : PState) (r : List Tok) : Prop where
  rest : s'.rest = r
  err : s'.err = none
  mode : s'.mode = false
  places : s'.places = s.places

/-- The first error of a piece of code: reported, or pending. -/
def Stopped (s : PState) (c : Go) (k : Nat) (b : Bool) (s' : PState) : Prop :=
  Blamed s k b s' ∨ (c.endsSet = true ∧ s'.places = s.places ∧ s'.mode = false ∧
    s'.err = some k ∧ s'.here = k ∧ b = false)

/-- The two runs. -/
def Agrees (s : PState) (c : Go) (a : Res) (b : Bool) (s' : PState) : Prop :=
  (∀ ks r, a = .ok ks r → b = false ∧ Clean s s' r) ∧
  (∀ r, a = .err r → Stopped s c r.length b s')

theorem Agrees.ok {s s' : PState} {c : Go} {ks : List Tree} {r : List Tok} (h : Clean s s' r) :
    Agrees s c (.ok ks r) false s' :=
  ⟨fun _ _ e => by cases e; exact ⟨rfl, h⟩, fun _ e => by cases e⟩

theorem Agrees.err {s s' : PState} {c : Go} {r : List Tok} {b : Bool}
    (h : Stopped s c r.length b s') : Agrees s c (.err r) b s' :=
  ⟨fun _ _ e => (by cases e), fun _ e => by cases e; exact h⟩

theorem Agrees.stuck {s s' : PState} {c : Go} {b : Bool} : Agrees s c .stuck b s' :=
  ⟨fun _ _ e => (by cases e), fun _ e => by cases e⟩

theorem la_ne_eof {l : List Tok} (h : la l ≠ .EOF) : ∃ t ts, l = t :: ts ∧ t.ty = la l := by
  cases l with
  | nil => exact absurd rfl h
  | cons t ts => exact ⟨t, ts, rfl, rfl⟩

theorem clean_eat {s : PState} {t : Tok} {ts : List Tok} (he : s.err = none)
    (hr : s.rest = t :: ts) (hne : t.ty ≠ .EOF) : Clean s s.matched.eat ts := by
  have h := eat_load s.matched
  refine ⟨?_, h.2.2.trans he, h.2.1, h.1⟩
  unfold eat
  rw [if_neg]
  · show s.rest.tail = ts
    rw [hr]; rfl
  · show la s.rest ≠ .EOF
    rw [hr]; exact hne

theorem execR_first {rt : Runtime} {o : Strategy} : ∀ (n : Nat) (F : Nat) (ctx : List Nat) (p : Nat)
    (c : Go) (s s' : PState) (b : Bool), execR rt o F ctx p c s = some (b, s') →
    c.noEof = true → c.tight = true → (goodCalls : c.good = true) → s.err = none → s.mode = false →
    Agrees s c (exec rt n ctx p c s.rest) b s' := by
  intro n
  induction n with
  | zero => intro F ctx p c s s' b _ _ _ _ _ _; exact .stuck
  | succ n ih =>
    intro F ctx p c s s' b h hn ht hg he hm
    obtain ⟨F, rfl⟩ : ∃ F', F = F' + 1 := by
      cases F with
      | zero => cases h
      | succ F => exact ⟨F, rfl⟩
    have clean : Clean s s s.rest := ⟨rfl, he, hm, rfl⟩
    cases c with
    | skip => cases h; exact .ok clean
    | fail => cases h; exact .err (.inl (.inr ⟨rfl, hm, rfl, rfl⟩))
    | seq x y =>
      simp only [Go.noEof, Bool.and_eq_true] at hn
      simp only [Go.tight, Bool.and_eq_true, Bool.or_eq_true, Bool.not_eq_true'] at ht
      have hgx : x.good = true := Go.good.sub hg fun z hz => by simp [Go.subs, hz]
      have hgy : y.good = true := Go.good.sub hg fun z hz => by simp [Go.subs, hz]
      simp only [execR] at h
      obtain ⟨e, s₁, h₁⟩ : ∃ e s₁, execR rt o F ctx p x s = some (e, s₁) := by
        cases hx : execR rt o F ctx p x s with
        | none => rw [hx] at h; cases h
        | some q => exact ⟨q.1, q.2, rfl⟩
      have hx := ih F ctx p x s s₁ e h₁ hn.1 ht.1.1 hgx he hm
      rw [h₁] at h
      simp only [exec]
      cases ha : exec rt n ctx p x s.rest with
      | stuck => exact .stuck
      | ok ks r =>
        obtain ⟨rfl, hc⟩ := hx.1 ks r ha
        simp only at h
        have hy := ih F ctx p y s₁ s' b h hn.2 ht.1.2 hgy hc.err hc.mode
        rw [hc.rest] at hy
        simp only [Res.andThen]
        cases hb : exec rt n ctx p y r with
        | stuck => exact .stuck
        | ok ks₂ r₂ =>
          obtain ⟨rfl, hc₂⟩ := hy.1 _ _ hb
          exact .ok ⟨hc₂.rest, hc₂.err, hc₂.mode, hc₂.places.trans hc.places⟩
        | err r₂ =>
          refine .err ?_
          have := hy.2 _ hb
          unfold Stopped Blamed at this ⊢
          rw [hc.places] at this
          exact this
      | err r =>
        simp only [Res.andThen]
        refine .err ?_
        rcases hx.2 r ha with hx | ⟨h1, h2, h3, h4, h5, rfl⟩
        · cases e with
          | true => cases h; exact .inl hx
          | false =>
            simp only at h
            rcases hx with hx | hx
            · exact .inl (Blamed.later hx (execR_keeps _ _ _ _ _ _ _ h))
            · cases hx.2.2.2
        · simp only at h
          have hst : y.stops 6 = true := by
            rcases ht.2 with h' | h'
            · rw [h1] at h'; cases h'
            · exact h'
          have := stops_told _ _ _ _ _ _ _ _ h hst h3 (by rw [h4, h5])
          rw [h5] at this
          left
          unfold Blamed at this ⊢
          rw [h2] at this
          exact this
    | tok x =>
      simp only [Go.noEof, bne_iff_ne, ne_eq] at hn
      simp only [execR, Option.some.injEq, Prod.mk.injEq] at h
      obtain ⟨rfl, rfl⟩ := h
      by_cases hla : la s.rest = x
      · obtain ⟨t, ts, hr, hty⟩ := la_ne_eof (l := s.rest) (by rw [hla]; exact hn)
        have hc := clean_eat he hr (by rw [hty, hla]; exact hn)
        have : exec rt (n + 1) ctx p (.tok x) s.rest = .ok [.leaf t] ts := by
          rw [hr]
          simp only [exec]
          rw [if_pos (by rw [hty, hla])]
        rw [this]
        simp only [if_pos hla]
        rw [hc.err]
        exact .ok hc
      · simp only [if_neg hla]
        have : exec rt (n + 1) ctx p (.tok x) s.rest = .err s.rest := by
          cases hr : s.rest with
          | nil => rfl
          | cons t ts =>
            simp only [exec]
            rw [if_neg]
            rw [hr] at hla
            exact hla
        rw [this]
        exact .err (.inl (inline_told hm))
    | set x =>
      simp only [Go.noEof, Bool.not_eq_true'] at hn
      simp only [execR, Option.some.injEq, Prod.mk.injEq] at h
      obtain ⟨rfl, rfl⟩ := h
      by_cases hla : x.ok (la s.rest) = true
      · have hne : la s.rest ≠ .EOF := by
          intro h'; rw [h', hn] at hla; cases hla
        obtain ⟨t, ts, hr, hty⟩ := la_ne_eof hne
        have hc := clean_eat he hr (by rw [hty]; exact hne)
        rw [if_pos hla]
        have : exec rt (n + 1) ctx p (.set x) s.rest = .ok [.leaf t] ts := by
          rw [hr]
          simp only [exec]
          rw [if_pos (by rw [hty]; exact hla)]
        rw [this]
        exact .ok hc
      · rw [if_neg hla]
        have : exec rt (n + 1) ctx p (.set x) s.rest = .err s.rest := by
          cases hr : s.rest with
          | nil => rfl
          | cons t ts =>
            simp only [exec]
            rw [if_neg]
            rw [hr] at hla
            exact hla
        rw [this]
        refine .err ?_
        rcases recoverInline_places o s with h | h
        · exact .inl (.inl ⟨[], by rw [h, report_new _ hm]; rfl⟩)
        · rw [h]
          exact .inr ⟨rfl, rfl, hm, rfl, rfl, rfl⟩
    | call st r q =>
      simp only [Go.noEof] at hn
      simp only [execR] at h
      split at h
      · rename_i e s₁ h₁
        simp only [Option.some.injEq, Prod.mk.injEq] at h
        obtain ⟨rfl, rfl⟩ := h
        have hx := ih F (st :: ctx) q (goCode r) s s₁ e h₁ (goCode_noEof hn) (goCode_tight r)
          (goCode_good r) he hm
        simp only [exec]
        cases ha : exec rt n (st :: ctx) q (goCode r) s.rest with
        | stuck => exact .stuck
        | ok ks r' =>
          obtain ⟨rfl, hc⟩ := hx.1 ks r' ha
          have : s₁.leave o = s₁ := by unfold leave; rw [hc.err]
          rw [this]
          exact .ok hc
        | err r' =>
          refine .err (.inl ?_)
          rcases hx.2 r' ha with hx | ⟨_, h2, h3, h4, _, rfl⟩
          · exact leave_told hx
          · exact leave_told (b := true) (.inr ⟨h2, h3, h4, rfl⟩)
      · cases h
    | pred q =>
      simp only [execR] at h
      simp only [exec]
      split at h
      · rename_i hq
        cases h
        rw [if_pos hq]
        exact .ok clean
      · rename_i hq
        cases h
        rw [if_neg hq]
        exact .err (.inl (.inr ⟨rfl, hm, rfl, rfl⟩))
    | sync st =>
      simp only [execR, Option.some.injEq, Prod.mk.injEq] at h
      obtain ⟨rfl, rfl⟩ := h
      simp only [exec]
      split
      · rename_i hs
        have : s.sync o st = s := by unfold PState.sync; rw [if_pos (.inr hs)]
        rw [this, he]
        exact .ok clean
      · rename_i hs
        refine .err (.inl ?_)
        rcases sync_places o st s with h | h | h
        · exfalso
          unfold PState.sync at h
          rw [if_neg (by rw [hm]; simpa using hs)] at h
          split at h
          · have := congrArg PState.places h
            rw [show ((s.report s.here).consumeUntil o).places = (s.report s.here).places from rfl,
              report_new _ hm] at this
            exact absurd this (by simp)
          · split at h
            · rename_i s' hd
              have := congrArg PState.places h
              rw [delete_places hd, report_new _ hm] at this
              exact absurd this (by simp)
            · have := congrArg PState.err h
              rw [he] at this
              cases this
        · exact .inl ⟨[], by rw [h, report_new _ hm]; rfl⟩
        · rw [h]; exact .inr ⟨rfl, hm, rfl, rfl⟩
    | ifLA c x y =>
      simp only [Go.noEof, Bool.and_eq_true] at hn
      simp only [Go.tight, Bool.and_eq_true] at ht
      have hgx : x.good = true := Go.good.sub hg fun z hz => by simp [Go.subs, hz]
      have hgy : y.good = true := Go.good.sub hg fun z hz => by simp [Go.subs, hz]
      simp only [execR] at h
      simp only [exec]
      split at h
      · rename_i hc
        rw [if_pos hc]
        have hx := ih F ctx p x s s' b h hn.1 ht.1 hgx he hm
        refine ⟨hx.1, fun r hr => (hx.2 r hr).imp id fun h => ⟨?_, h.2⟩⟩
        simp [Go.endsSet, h.1]
      · rename_i hc
        rw [if_neg hc]
        have hx := ih F ctx p y s s' b h hn.2 ht.2 hgy he hm
        refine ⟨hx.1, fun r hr => (hx.2 r hr).imp id fun h => ⟨?_, h.2⟩⟩
        simp [Go.endsSet, h.1]
    | whileLA c x =>
      have hgx : x.good = true := Go.good.sub hg fun z hz => by simp [Go.subs, hz]
      have hn' : x.noEof = true := hn
      have ht' := ht
      simp only [Go.tight, Bool.and_eq_true, Bool.not_eq_true'] at ht'
      simp only [execR] at h
      simp only [exec]
      split at h
      · rename_i hc
        rw [if_pos hc]
        obtain ⟨e, s₁, h₁⟩ : ∃ e s₁, execR rt o F ctx p x s = some (e, s₁) := by
          cases hx : execR rt o F ctx p x s with
          | none => rw [hx] at h; cases h
          | some q => exact ⟨q.1, q.2, rfl⟩
        have hx := ih F ctx p x s s₁ e h₁ hn' ht'.1 hgx he hm
        rw [h₁] at h
        cases ha : exec rt n ctx p x s.rest with
        | stuck => exact .stuck
        | ok ks r =>
          obtain ⟨rfl, hc⟩ := hx.1 ks r ha
          simp only at h
          have hy := ih F ctx p (.whileLA c x) s₁ s' b h hn ht hg hc.err hc.mode
          rw [hc.rest] at hy
          simp only [Res.andThen]
          cases hb : exec rt n ctx p (.whileLA c x) r with
          | stuck => exact .stuck
          | ok ks₂ r₂ =>
            obtain ⟨rfl, hc₂⟩ := hy.1 _ _ hb
            exact .ok ⟨hc₂.rest, hc₂.err, hc₂.mode, hc₂.places.trans hc.places⟩
          | err r₂ =>
            refine .err ?_
            have := hy.2 _ hb
            unfold Stopped Blamed at this ⊢
            rw [hc.places] at this
            exact this
        | err r =>
          simp only [Res.andThen]
          refine .err ?_
          rcases hx.2 r ha with hx | ⟨h1, _⟩
          · cases e with
            | true => cases h; exact .inl hx
            | false =>
              simp only at h
              rcases hx with hx | hx
              · exact .inl (Blamed.later hx (execR_keeps _ _ _ _ _ _ _ h))
              · cases hx.2.2.2
          · rw [h1] at ht'; cases ht'.2
      · rename_i hc
        cases h
        rw [if_neg hc]
        exact .ok clean
    | whileAP d x =>
      have hgx : x.good = true := Go.good.sub hg fun z hz => by simp [Go.subs, hz]
      have hn' : x.noEof = true := hn
      have ht' := ht
      simp only [Go.tight, Bool.and_eq_true, Bool.not_eq_true'] at ht'
      simp only [execR, he, Option.isSome_none, Bool.false_eq_true, if_false] at h
      simp only [exec]
      split at h
      · rename_i hp
        cases h
        simp only [hp]
        exact .err (.inl (.inr ⟨rfl, hm, rfl, rfl⟩))
      · rename_i i hp
        simp only [hp]
        split at h
        · rename_i hi
          subst hi
          cases h
          exact .ok clean
        · rename_i hi1
          split at h
          · rename_i hi
            subst hi
            simp only
            obtain ⟨e, s₁, h₁⟩ : ∃ e s₁, execR rt o F ctx p x s = some (e, s₁) := by
              cases hx : execR rt o F ctx p x s with
              | none => rw [hx] at h; cases h
              | some q => exact ⟨q.1, q.2, rfl⟩
            have hx := ih F ctx p x s s₁ e h₁ hn' ht'.1 hgx he hm
            rw [h₁] at h
            cases ha : exec rt n ctx p x s.rest with
            | stuck => exact .stuck
            | ok ks r =>
              obtain ⟨rfl, hc⟩ := hx.1 ks r ha
              simp only at h
              have hy := ih F ctx p (.whileAP d x) s₁ s' b h hn ht hg hc.err hc.mode
              rw [hc.rest] at hy
              simp only [Res.andThen]
              cases hb : exec rt n ctx p (.whileAP d x) r with
              | stuck => exact .stuck
              | ok ks₂ r₂ =>
                obtain ⟨rfl, hc₂⟩ := hy.1 _ _ hb
                exact .ok ⟨hc₂.rest, hc₂.err, hc₂.mode, hc₂.places.trans hc.places⟩
              | err r₂ =>
                refine .err ?_
                have := hy.2 _ hb
                unfold Stopped Blamed at this ⊢
                rw [hc.places] at this
                exact this
            | err r =>
              simp only [Res.andThen]
              refine .err ?_
              rcases hx.2 r ha with hx | ⟨h1, _⟩
              · cases e with
                | true => cases h; exact .inl hx
                | false =>
                  simp only at h
                  rcases hx with hx | hx
                  · exact .inl (Blamed.later hx (execR_keeps _ _ _ _ _ _ _ h))
                  · cases hx.2.2.2
              · rw [h1] at ht'; cases ht'.2
          · rename_i hi0
            obtain ⟨j, rfl⟩ : ∃ j, i = j + 2 := ⟨i - 2, by omega⟩
            exact ih F ctx p (.whileAP d x) s s' b h hn ht hg he hm
    | switchAP d x =>
      simp only [execR] at h
      simp only [exec]
      split at h
      · rename_i hp
        cases h
        simp only [hp]
        exact .err (.inl (.inr ⟨rfl, hm, rfl, rfl⟩))
      · rename_i i hp
        simp only [hp]
        split at h
        · rename_i a hl
          have hmem := armLookup_mem hl
          have hta := arms_tight (x := x) ht (_, a) hmem
          have hx := ih F ctx p a s s' b h (arms_noEof (x := x) hn (_, a) hmem) hta.1
            (Go.good.sub hg fun y hy => by simp [Go.subs, arms_subs (_, a) hmem y hy]) he hm
          simp only [hl]
          exact ⟨hx.1, fun r hr => (hx.2 r hr).imp id fun h => ⟨hta.2 h.1, h.2⟩⟩
        · rename_i hl
          cases h
          simp only [hl]
          exact .ok clean
    | case d i x y => cases h; exact .ok clean

/-- The two runs, with the end-of-file token at the end. -/
theorem execR_first_last {rt : Runtime} {o : Strategy} : ∀ (n : Nat) (F : Nat) (ctx : List Nat)
    (p : Nat) (c : Go) (s s' : PState) (b : Bool), execR rt o F ctx p c s = some (b, s') →
    c.endsEof = true → c.tight = true → c.good = true → s.err = none → s.mode = false →
    Ended s.rest → AtEnd s.rest →
    (∀ ks r, exec rt n ctx p c s.rest = .ok ks r → s'.err = none ∧ s'.places = s.places) ∧
    (∀ r, exec rt n ctx p c s.rest = .err r → Blamed s r.length b s') := by
  intro n
  induction n with
  | zero =>
    intro F ctx p c s s' b _ _ _ _ _ _ _ _
    exact ⟨fun _ _ e => (by cases e), fun _ e => by cases e⟩
  | succ n ih =>
    intro F ctx p c s s' b h hl ht hg he hm hend hat
    obtain ⟨F, rfl⟩ : ∃ F', F = F' + 1 := by
      cases F with
      | zero => cases h
      | succ F => exact ⟨F, rfl⟩
    cases c with
    | seq x y =>
      simp only [Go.endsEof, Bool.and_eq_true] at hl
      simp only [Go.tight, Bool.and_eq_true, Bool.or_eq_true, Bool.not_eq_true'] at ht
      have hgx : x.good = true := Go.good.sub hg fun z hz => by simp [Go.subs, hz]
      have hgy : y.good = true := Go.good.sub hg fun z hz => by simp [Go.subs, hz]
      simp only [execR] at h
      obtain ⟨e, s₁, h₁⟩ : ∃ e s₁, execR rt o F ctx p x s = some (e, s₁) := by
        cases hx : execR rt o F ctx p x s with
        | none => rw [hx] at h; cases h
        | some q => exact ⟨q.1, q.2, rfl⟩
      have hx := execR_first n F ctx p x s s₁ e h₁ hl.1.1 ht.1.1 hgx he hm
      rw [h₁] at h
      simp only [exec]
      cases ha : exec rt n ctx p x s.rest with
      | stuck => exact ⟨fun _ _ e => (by cases e), fun _ e => by cases e⟩
      | ok ks r =>
        obtain ⟨rfl, hc⟩ := hx.1 ks r ha
        simp only at h
        have hpay := execR_pays _ _ _ _ _ _ _ h₁ hend hgx hl.1.1
        have hy := ih F ctx p y s₁ s' b h hl.2 ht.1.2 hgy hc.err hc.mode
          (hend.suffix hpay.1) (hpay.3 hat)
        rw [hc.rest] at hy
        simp only [Res.andThen]
        cases hb : exec rt n ctx p y r with
        | stuck => exact ⟨fun _ _ e => (by cases e), fun _ e => by cases e⟩
        | ok ks₂ r₂ =>
          have := hy.1 _ _ hb
          exact ⟨fun _ _ _ => ⟨this.1, this.2.trans hc.places⟩, fun _ e => by cases e⟩
        | err r₂ =>
          refine ⟨fun _ _ e => (by cases e), fun _ e => ?_⟩
          cases e
          have := hy.2 _ hb
          unfold Blamed at this ⊢
          rw [hc.places] at this
          exact this
      | err r =>
        simp only [Res.andThen]
        refine ⟨fun _ _ e => (by cases e), fun _ e' => ?_⟩
        cases e'
        rcases hx.2 r ha with hx | ⟨h1, h2, h3, h4, h5, rfl⟩
        · cases e with
          | true => cases h; exact hx
          | false =>
            simp only at h
            rcases hx with hx | hx
            · exact Blamed.later hx (execR_keeps _ _ _ _ _ _ _ h)
            · cases hx.2.2.2
        · simp only at h
          have hst : y.stops 6 = true := by
            rcases ht.2 with h' | h'
            · rw [h1] at h'; cases h'
            · exact h'
          have := stops_told _ _ _ _ _ _ _ _ h hst h3 (by rw [h4, h5])
          rw [h5] at this
          unfold Blamed at this ⊢
          rw [h2] at this
          exact this
    | tok x =>
      simp only [execR, Option.some.injEq, Prod.mk.injEq] at h
      obtain ⟨rfl, rfl⟩ := h
      by_cases hla : la s.rest = x
      · simp only [if_pos hla]
        have := eat_load s.matched
        refine ⟨fun _ _ _ => ⟨this.2.2.trans he, this.1⟩, fun r hr => ?_⟩
        cases hs : s.rest with
        | nil => exact absurd hs hat.ne
        | cons t ts =>
          rw [hs] at hr hla
          simp only [exec] at hr
          rw [if_pos (show t.ty = x from hla)] at hr
          cases hr
      · simp only [if_neg hla]
        have : exec rt (n + 1) ctx p (.tok x) s.rest = .err s.rest := by
          cases hr : s.rest with
          | nil => rfl
          | cons t ts =>
            simp only [exec]
            rw [if_neg]
            rw [hr] at hla
            exact hla
        rw [this]
        refine ⟨fun _ _ e => (by cases e), fun _ e => ?_⟩
        cases e
        exact inline_told hm
    | _ => simp [Go.endsEof] at hl

end Verif
