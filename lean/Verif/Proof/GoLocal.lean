import Verif.Proof.GoError
/-!
# What an error depends on

The first error depends on the tokens up to the one it is about only: with
other tokens after that one, the code reports the same error.
-/

namespace Verif

open Atn

/-- A path without rule calls and predicates, found by search. -/
def walk : Nat → Option Nat → Nat → List Nat → List Tok → Bool
  | 0, _, _, _, _ => false
  | n + 1, lead, s, stack, ts =>
    ((parserAtn.st s).ty == 7 && match stack with
      | [] => ts.isEmpty
      | i :: stack => walk n none (parserAtn.follow i) stack ts) ||
    (parserAtn.out s).any fun e =>
      (e.silent && walk n lead e.trg stack ts) ||
      match ts with
      | [] => false
      | t :: ts => parserAtn.eats e t.ty && walk n none e.trg stack ts

theorem walk_path : ∀ (n : Nat) (lead : Option Nat) (s : Nat) (stack : List Nat) (ts : List Tok),
    walk n lead s stack ts = true → parserAtn.Path lead s stack ts := by
  intro n
  induction n with
  | zero => intro lead s stack ts h; simp [walk] at h
  | succ n ih =>
    intro lead s stack ts h
    simp only [walk, Bool.or_eq_true, Bool.and_eq_true, beq_iff_eq, List.any_eq_true] at h
    rcases h with ⟨hs, h⟩ | ⟨e, he, h⟩
    · cases stack with
      | nil => simp at h; subst h; exact .stop hs
      | cons i stack => exact .ret hs (ih _ _ _ _ h)
    · rcases h with h | h
      · exact .silent he h.1 (ih _ _ _ _ h.2)
      · cases ts with
        | nil => cases h
        | cons t ts =>
          simp only [Bool.and_eq_true] at h
          exact .token he h.1 (ih _ _ _ _ h.2)

theorem sync_comma : SyncOk 175 .COMMA ∧ SyncOk 179 .COMMA :=
  ⟨path_sync (ts := [⟨.COMMA, []⟩, ⟨.R_BRACE, []⟩]) (walk_path 30 none 175 [] _ (by decide +kernel)),
   path_sync (ts := [⟨.COMMA, []⟩, ⟨.R_BRACE, []⟩]) (walk_path 30 none 179 [] _ (by decide +kernel))⟩

/-! ## Code that gets over its first token -/

/-- If the next token is `t`, the code consumes something. -/
def eatsFirst (t : TT) : Go → Bool
  | .ifLA c a _ => c.ok t && nonNull 100 a.g
  | c => nonNull 100 c.g

/-- If the next token is `t`, no error is about this token. -/
def strict : Nat → TT → Go → Bool
  | 0, _, _ => false
  | _ + 1, _, .skip => true
  | _ + 1, t, .tok x => x == t
  | _ + 1, t, .sync s => t == .COMMA && (s == 175 || s == 179)
  | n + 1, t, .seq a b => strict n t a && (strict n t b || eatsFirst t a)
  | n + 1, t, .ifLA c a b => if c.ok t then strict n t a else strict n t b
  | n + 1, t, .whileAP d a => d == 7 && t == .COMMA && strict n t a && nonNull 100 a.g
  | n + 1, t, .call _ r _ => strict n t (goCode r)
  | _ + 1, _, _ => false

theorem nonNull_exec {n : Nat} {ctx : List Nat} {p : Nat} {c : Go} {ts rest : List Tok}
    {ks : List Tree} (hw : c.wf = true) (hn : nonNull 100 c.g = true)
    (h : exec simRuntime n ctx p c ts = .ok ks rest) : rest.length < ts.length := by
  obtain ⟨pre, rfl, hg⟩ := exec_sound sim_inRange _ _ _ _ _ _ _ hw h
  have := nonNull_ok _ _ _ _ hn hg
  simp; omega

theorem eatsFirst_ok {n : Nat} {ctx : List Nat} {p : Nat} {c : Go} {ts rest : List Tok}
    {ks : List Tree} (hw : c.wf = true) (hn : eatsFirst (la ts) c = true)
    (h : exec simRuntime n ctx p c ts = .ok ks rest) : rest.length < ts.length := by
  unfold eatsFirst at hn
  split at hn
  · rename_i c a b
    simp only [Bool.and_eq_true] at hn
    simp only [Go.wf, Bool.and_eq_true] at hw
    cases n with
    | zero => simp [exec] at h
    | succ n =>
      simp only [exec, hn.1, if_true] at h
      exact nonNull_exec hw.1 hn.2 h
  · exact nonNull_exec hw hn h

theorem ok_le {n : Nat} {ctx : List Nat} {p : Nat} {c : Go} {ts rest : List Tok}
    {ks : List Tree} (hw : c.wf = true)
    (h : exec simRuntime n ctx p c ts = .ok ks rest) : rest.length ≤ ts.length := by
  obtain ⟨pre, rfl, hg⟩ := exec_sound sim_inRange _ _ _ _ _ _ _ hw h
  simp

theorem ok_same {n : Nat} {ctx : List Nat} {p : Nat} {c : Go} {ts rest : List Tok}
    {ks : List Tree} (hw : c.wf = true)
    (h : exec simRuntime n ctx p c ts = .ok ks rest) : rest = ts ∨ rest.length < ts.length := by
  obtain ⟨pre, rfl, hg⟩ := exec_sound sim_inRange _ _ _ _ _ _ _ hw h
  cases pre with
  | nil => exact .inl rfl
  | cons x xs => right; simp; omega

theorem err_le {n : Nat} {ctx : List Nat} {p : Nat} {c : Go} {ts rest : List Tok}
    (hw : c.wf = true) (hl : c.alive = true)
    (h : exec simRuntime n ctx p c ts = .err rest) : rest.length ≤ ts.length := by
  obtain ⟨pre, rfl, hg⟩ := exec_viable _ _ _ _ _ _ hw hl h
  simp

theorem strict_ok : ∀ (n : Nat) (ctx : List Nat) (p : Nat) (c : Go) (ts rest : List Tok) (f : Nat),
    c.wf = true → c.alive = true → la ts ≠ .EOF → strict f (la ts) c = true →
    exec simRuntime n ctx p c ts = .err rest → rest.length < ts.length := by
  intro n
  induction n with
  | zero => intro ctx p c ts rest f _ _ _ _ h; simp [exec] at h
  | succ n ih =>
    intro ctx p c ts rest f hw hl he hs h
    cases f with
    | zero => simp [strict] at hs
    | succ f =>
    cases c with
    | skip => simp [exec] at h
    | fail => simp [strict] at hs
    | seq a b =>
      simp only [Go.wf, Bool.and_eq_true] at hw
      simp only [Go.alive, Bool.and_eq_true] at hl
      simp only [strict, Bool.and_eq_true, Bool.or_eq_true] at hs
      simp only [exec] at h
      rcases andThen_err h with h | ⟨k₁, t₁, h₁, h₂⟩
      · exact ih _ _ _ _ _ _ hw.1 hl.1.1.1 he hs.1 h
      · have hlt : t₁.length < ts.length → rest.length < ts.length := fun h => by
          have := err_le hw.2 hl.1.1.2 h₂
          omega
        rcases hs.2 with hb | ha
        · rcases ok_same hw.1 h₁ with rfl | h
          · exact ih _ _ _ _ _ _ hw.2 hl.1.1.2 he hb h₂
          · exact hlt h
        · exact hlt (eatsFirst_ok hw.1 ha h₁)
    | tok x =>
      simp only [strict, beq_iff_eq] at hs
      obtain ⟨y, ys, rfl, hy⟩ := la_cons rfl he
      simp only [exec, hy, hs, if_true] at h
      cases h
    | set c => simp [strict] at hs
    | call st r k =>
      simp only [strict] at hs
      simp only [exec] at h
      split at h
      · cases h
      · rename_i ts' h'
        cases h
        exact ih _ _ _ _ _ _ (goCode_wf r) (goCode_alive r) he hs h'
      · cases h
    | pred k => simp [strict] at hs
    | sync st =>
      simp only [strict, Bool.and_eq_true, Bool.or_eq_true, beq_iff_eq] at hs
      obtain ⟨ht, hs⟩ := hs
      have : SyncOk st (la ts) := by
        rw [ht]
        rcases hs with rfl | rfl
        · exact sync_comma.1
        · exact sync_comma.2
      simp only [exec, this, if_true] at h
      cases h
    | ifLA c a b =>
      simp only [Go.wf, Bool.and_eq_true] at hw
      simp only [Go.alive, Bool.and_eq_true] at hl
      simp only [strict] at hs
      simp only [exec] at h
      split at h
      · rename_i hc
        rw [if_pos hc] at hs
        exact ih _ _ _ _ _ _ hw.1 hl.1.1.1 he hs h
      · rename_i hc
        rw [if_neg hc] at hs
        exact ih _ _ _ _ _ _ hw.2 hl.1.1.2 he hs h
    | whileLA c a => simp [strict] at hs
    | whileAP d a =>
      have hw' := hw
      have hl' := hl
      have hs' := hs
      simp only [Go.wf, Bool.and_eq_true, beq_iff_eq] at hw
      simp only [Go.alive, Bool.and_eq_true, Bool.or_eq_true] at hl
      simp only [strict, Bool.and_eq_true, beq_iff_eq] at hs
      obtain ⟨⟨⟨rfl, ht⟩, hsa⟩, hna⟩ := hs
      have hd : 7 ∈ asked := by decide
      simp only [exec] at h
      split at h
      · rw [sim_dead hd, ht] at h
        obtain ⟨x, xs, rfl, hx⟩ := la_cons ht (by decide)
        simp only [passed, if_true, List.drop_succ_cons, List.drop_zero, Res.err.injEq] at h
        subst h
        simp
      · rcases andThen_err h with h | ⟨k₁, t₁, h₁, h₂⟩
        · exact ih _ _ _ _ _ _ hw.1.2 hl.1.1 he hsa h
        · have := nonNull_exec hw.1.2 hna h₁
          have := err_le hw' hl' h₂
          omega
      · cases h
      · exact ih _ _ _ _ _ _ hw' hl' he hs' h
    | switchAP d x => simp [strict] at hs
    | case d i a b => simp [Go.wf] at hw

/-! ## Locality -/

/-- Two continuations look the same: in the next two tokens, or, for code that
is not loose or if the next token is no comma, in the next one. -/
def Alike (loose : Bool) (r r' : List Tok) : Prop :=
  r.take 2 = r'.take 2 ∨ r.head? = r'.head? ∧ (loose = false ∨ la r ≠ .COMMA)

/-- What is done depends on the next tokens only. -/
structure Local (loose : Bool) (f : List Tok → Res) : Prop where
  okSuffix : ∀ {ts ks rest}, f ts = .ok ks rest → ∃ pre, ts = pre ++ rest
  errSuffix : ∀ {ts rest}, f ts = .err rest → ∃ pre, ts = pre ++ rest
  err : ∀ {pre rest rest'}, f (pre ++ rest) = .err rest → rest.head? = rest'.head? →
    f (pre ++ rest') = .err rest'
  ok : ∀ {pre ks rest rest'}, f (pre ++ rest) = .ok ks rest → Alike loose rest rest' →
    f (pre ++ rest') = .ok ks rest'

theorem alike_head {loose : Bool} {r r' : List Tok} (h : Alike loose r r') : r.head? = r'.head? := by
  rcases h with h | h
  · cases r with
    | nil =>
      cases r' with
      | nil => rfl
      | cons y ys => cases ys <;> simp at h
    | cons x xs =>
      cases r' with
      | nil => cases xs <;> simp at h
      | cons y ys => simp at h; simp [h.1]
  · exact h.1

theorem head_la {r r' : List Tok} (h : r.head? = r'.head?) : la r = la r' := by
  cases r <;> cases r' <;> simp_all [la]

theorem append_head {pre r r' : List Tok} (h : r.head? = r'.head?) :
    (pre ++ r).head? = (pre ++ r').head? := by
  cases pre <;> simp [h]

theorem alike_append {loose : Bool} {x : Tok} {pre r r' : List Tok} (h : r.head? = r'.head?) :
    Alike loose (x :: pre ++ r) (x :: pre ++ r') := by
  left
  cases pre with
  | nil => cases r <;> cases r' <;> simp_all
  | cons y ys => simp

theorem alike_tail {loose : Bool} {r r' : List Tok} (h : Alike loose r r') :
    la r.tail = la r'.tail ∨ la r = la r' ∧ (loose = false ∨ la r ≠ .COMMA) := by
  rcases h with h | h
  · left
    cases r with
    | nil => cases r' with
      | nil => rfl
      | cons y ys => cases ys <;> simp at h
    | cons x xs => cases r' with
      | nil => cases xs <;> simp at h
      | cons y ys =>
        cases xs <;> cases ys <;> simp_all [la]
  · exact .inr ⟨head_la h.1, h.2⟩

theorem Alike.weaken {r r' : List Tok} {b : Bool} (h : Alike true r r') : Alike b r r' := by
  rcases h with h | ⟨h, h' | h'⟩
  · exact .inl h
  · cases h'
  · exact .inr ⟨h, .inr h'⟩

theorem Local.weaken {f : List Tok → Res} {b : Bool} (h : Local b f) : Local true f :=
  ⟨h.okSuffix, h.errSuffix, h.err, fun h₁ h₂ => h.ok h₁ h₂.weaken⟩

theorem Local.seq {a b : Bool} {f g : List Tok → Res} (hf : Local a f) (hg : Local b g)
    (hs : a = true → ∀ r, la r = .COMMA → g r ≠ .err r)
    (hn : a = true → b = true ∨ ∀ ks r, g r ≠ .ok ks r) :
    Local b (fun ts => (f ts).andThen g) where
  okSuffix := by
    intro ts ks rest h
    obtain ⟨k₁, t₁, k₂, h₁, h₂, rfl⟩ := andThen_ok h
    obtain ⟨p₁, rfl⟩ := hf.okSuffix h₁
    obtain ⟨p₂, rfl⟩ := hg.okSuffix h₂
    exact ⟨p₁ ++ p₂, by simp⟩
  errSuffix := by
    intro ts rest h
    rcases andThen_err h with h | ⟨k₁, t₁, h₁, h₂⟩
    · exact hf.errSuffix h
    · obtain ⟨p₁, rfl⟩ := hf.okSuffix h₁
      obtain ⟨p₂, rfl⟩ := hg.errSuffix h₂
      exact ⟨p₁ ++ p₂, by simp⟩
  err := by
    intro pre rest rest' h hh
    rcases andThen_err h with h | ⟨k₁, t₁, h₁, h₂⟩
    · simp only [hf.err h hh, Res.andThen]
    · obtain ⟨p₁, e₁⟩ := hf.okSuffix h₁
      obtain ⟨p₂, rfl⟩ := hg.errSuffix h₂
      rw [← List.append_assoc] at e₁
      obtain rfl := List.append_cancel_right e₁
      rw [List.append_assoc] at h₁ ⊢
      have : Alike a (p₂ ++ rest) (p₂ ++ rest') := by
        cases p₂ with
        | cons x xs => exact alike_append hh
        | nil =>
          refine .inr ⟨hh, ?_⟩
          cases ha : a with
          | false => exact .inl rfl
          | true => exact .inr fun hc => hs ha _ hc h₂
      simp only [hf.ok h₁ this, Res.andThen, hg.err h₂ hh]
  ok := by
    intro pre ks rest rest' h hh
    obtain ⟨k₁, t₁, k₂, h₁, h₂, rfl⟩ := andThen_ok h
    obtain ⟨p₁, e₁⟩ := hf.okSuffix h₁
    obtain ⟨p₂, rfl⟩ := hg.okSuffix h₂
    rw [← List.append_assoc] at e₁
    obtain rfl := List.append_cancel_right e₁
    rw [List.append_assoc] at h₁ ⊢
    have : Alike a (p₂ ++ rest) (p₂ ++ rest') := by
      cases p₂ with
      | cons x xs => exact alike_append (alike_head hh)
      | nil =>
        cases ha : a with
        | false => exact .inr ⟨alike_head hh, .inl rfl⟩
        | true =>
          rcases hn ha with rfl | hn
          · exact hh
          · exact absurd h₂ (hn _ _)
    simp only [hf.ok h₁ this, Res.andThen, hg.ok h₂ hh]

/-- Code that may have looked at a second token before it stops: the loops of
decisions 7 and 10. -/
def Go.loose : Go → Bool
  | .seq _ b => b.loose
  | .ifLA _ a b => a.loose || b.loose
  | .whileAP d _ => d == 7 || d == 10
  | .call _ r _ => r == .column_def_list
  | _ => false

/-- The conditions for locality. -/
def Go.near : Go → Bool
  | .seq a b => a.near && b.near && (!a.loose || strict 50 .COMMA b && (b.loose || nonNull 100 b.g))
  | .ifLA _ a b => a.near && b.near
  | .whileLA _ a => a.near && !a.loose
  | .whileAP d a => a.near && !a.loose && nonNull 100 a.g &&
      (d == 31 || (d == 7 || d == 10) && strict 50 .COMMA a)
  | .switchAP d x => x.near && (d == 30 || d == 24 && x.arms.all fun q => strict 50 .IDENTIFIER q.2 && nonNull 100 q.2.g)
  | .case _ _ a b => a.near && !a.loose && b.near
  | _ => true

theorem goCode_near_all : Rule.all.all (fun r => (goCode r).near &&
    (!(goCode r).loose || r == .column_def_list)) = true := by decide +kernel

theorem goCode_near (r : Rule) : (goCode r).near = true ∧
    ((goCode r).loose = true → r = .column_def_list) := by
  have := goCode_near_all
  rw [List.all_eq_true] at this
  have := this r (by cases r <;> decide)
  simp only [Bool.and_eq_true, Bool.or_eq_true, Bool.not_eq_true', beq_iff_eq] at this
  refine ⟨this.1, fun h => ?_⟩
  rcases this.2 with h' | h'
  · rw [h] at h'; cases h'
  · exact h'

theorem arms_near {x : Go} (h : x.near = true) :
    ∀ q ∈ x.arms, q.2.near = true ∧ q.2.loose = false := by
  induction x with
  | case d i a b _ ihb =>
    simp only [Go.near, Bool.and_eq_true, Bool.not_eq_true'] at h
    intro q hq
    rw [Go.arms, List.mem_cons] at hq
    rcases hq with rfl | hq
    · exact h.1
    · exact ihb h.2 q hq
  | _ => simp [Go.arms]

/-- Without a look at the second token. -/
theorem byTwo_first {d p : Nat} {t : TT} (u u' : TT) (hd : d ∈ asked)
    (h : d = 30 ∨ d = 31 ∨ (d = 7 ∨ d = 10) ∧ t ≠ .COMMA ∨ d = 24 ∧ t ≠ .IDENTIFIER) :
    byTwo d p t u = byTwo d p t u' := by
  rcases h with rfl | rfl | ⟨rfl | rfl, ht⟩ | ⟨rfl, ht⟩
  · rfl
  · rfl
  · simp only [byTwo]; split <;> first | rfl | exact absurd rfl ht
  · simp [byTwo, ht]
  · simp [byTwo, ht]

/-- The first token is the same, and the second one as well or it does not
matter. -/
theorem predict_congr {d p : Nat} {ctx : List Nat} {ts ts' : List Tok} (hd : d ∈ asked)
    (h : ts.head? = ts'.head?)
    (h2 : la ts.tail = la ts'.tail ∨ d = 30 ∨ d = 31 ∨ (d = 7 ∨ d = 10) ∧ la ts ≠ .COMMA ∨
      d = 24 ∧ la ts ≠ .IDENTIFIER) :
    simRuntime.predict d p ctx ts = simRuntime.predict d p ctx ts' := by
  rw [sim_eq hd, sim_eq hd, ← head_la h]
  rcases h2 with h2 | h2
  · rw [h2]
  · exact byTwo_first _ _ hd h2

theorem dead_congr {d p : Nat} {ctx : List Nat} {ts ts' : List Tok} (hd : d ∈ asked)
    (h : ts.head? = ts'.head?) :
    simRuntime.dead d p ctx ts = simRuntime.dead d p ctx ts' := by
  rw [sim_dead hd, sim_dead hd, ← head_la h]

theorem append_tail {pre r r' : List Tok} (hp : pre ≠ []) (h : r.head? = r'.head?) :
    la (pre ++ r).tail = la (pre ++ r').tail := by
  cases pre with
  | nil => exact absurd rfl hp
  | cons x xs =>
    simp only [List.cons_append, List.tail_cons]
    exact head_la (append_head h)

/-- The code never looks further than to the token that an error is about, or
(for loose code) one token further than it goes. -/
theorem exec_local : ∀ (n : Nat) (ctx : List Nat) (p : Nat) (c : Go),
    c.wf = true → c.alive = true → c.near = true →
    Local c.loose (exec simRuntime n ctx p c) := by
  intro n
  induction n with
  | zero => intro ctx p c _ _ _; constructor <;> intros <;> simp_all [exec]
  | succ n ih =>
    intro ctx p c hw hl hn
    have hok : ∀ {ts ks rest}, exec simRuntime (n + 1) ctx p c ts = .ok ks rest →
        ∃ pre, ts = pre ++ rest := fun h => by
      obtain ⟨pre, h, _⟩ := exec_sound sim_inRange _ _ _ _ _ _ _ hw h
      exact ⟨pre, h⟩
    have herr : ∀ {ts rest}, exec simRuntime (n + 1) ctx p c ts = .err rest →
        ∃ pre, ts = pre ++ rest := fun h => by
      obtain ⟨pre, h, _⟩ := exec_viable _ _ _ _ _ _ hw hl h
      exact ⟨pre, h⟩
    cases c with
    | skip =>
      refine ⟨hok, herr, ?_, ?_⟩
      · intro pre rest rest' h; simp [exec] at h
      · intro pre ks rest rest' h _
        simp [exec] at h
        obtain ⟨rfl, rfl⟩ := h
        simp [exec]
    | fail =>
      refine ⟨hok, herr, ?_, ?_⟩
      · intro pre rest rest' h _
        simp [exec] at h
        subst h
        simp [exec]
      · intro pre ks rest rest' h; simp [exec] at h
    | seq a b =>
      simp only [Go.wf, Bool.and_eq_true] at hw
      simp only [Go.alive, Bool.and_eq_true] at hl
      simp only [Go.near, Bool.and_eq_true, Bool.or_eq_true, Bool.not_eq_true'] at hn
      have := Local.seq (ih ctx p a hw.1 hl.1.1.1 hn.1.1) (ih ctx p b hw.2 hl.1.1.2 hn.1.2) ?_ ?_
      · simpa only [exec, Go.loose] using this
      · intro ha r hr h
        rcases hn.2 with h' | h'
        · rw [ha] at h'; cases h'
        · have := strict_ok n ctx p b r r 50 hw.2 hl.1.1.2 (by rw [hr]; decide) (by rw [hr]; exact h'.1) h
          omega
      · intro ha
        rcases hn.2 with h' | ⟨_, h' | h'⟩
        · rw [ha] at h'; cases h'
        · exact .inl h'
        · right
          intro ks r h
          have := nonNull_exec hw.2 h' h
          omega
    | tok x =>
      refine ⟨hok, herr, ?_, ?_⟩
      · intro pre rest rest' h hh
        have hp : pre = [] ∧ (rest = [] ∨ ∃ t ts, rest = t :: ts ∧ t.ty ≠ x) := by
          obtain ⟨t, ts, hts⟩ | hts : (∃ t ts, pre ++ rest = t :: ts) ∨ pre ++ rest = [] := by
            cases pre ++ rest with
            | nil => exact .inr rfl
            | cons t ts => exact .inl ⟨t, ts, rfl⟩
          · rw [hts] at h
            simp only [exec] at h
            split at h
            · cases h
            · rename_i ht
              simp only [Res.err.injEq] at h
              rw [h] at hts
              have : pre = [] := by simpa using hts
              exact ⟨this, .inr ⟨t, ts, h.symm, ht⟩⟩
          · simp only [List.append_eq_nil_iff] at hts
            exact ⟨hts.1, .inl hts.2⟩
        obtain ⟨rfl, rfl | ⟨t, ts, rfl, ht⟩⟩ := hp
        · have : rest' = [] := by cases rest' <;> simp_all
          subst this
          exact h
        · obtain ⟨ts', rfl⟩ : ∃ ts', rest' = t :: ts' := by
            cases rest' with
            | nil => simp at hh
            | cons y ys => simp at hh; exact ⟨ys, by rw [hh]⟩
          simp [exec, ht]
      · intro pre ks rest rest' h _
        obtain ⟨t, ts, hts⟩ | hts : (∃ t ts, pre ++ rest = t :: ts) ∨ pre ++ rest = [] := by
          cases pre ++ rest with
          | nil => exact .inr rfl
          | cons t ts => exact .inl ⟨t, ts, rfl⟩
        · rw [hts] at h
          simp only [exec] at h
          split at h
          · rename_i ht
            simp only [Res.ok.injEq] at h
            obtain ⟨rfl, rfl⟩ := h
            have : pre = [t] := List.append_cancel_right (by simpa using hts)
            subst this
            simp [exec, ht]
          · cases h
        · rw [hts] at h; simp [exec] at h
    | set x =>
      refine ⟨hok, herr, ?_, ?_⟩
      · intro pre rest rest' h hh
        have hp : pre = [] ∧ (rest = [] ∨ ∃ t ts, rest = t :: ts ∧ ¬ x.ok t.ty = true) := by
          obtain ⟨t, ts, hts⟩ | hts : (∃ t ts, pre ++ rest = t :: ts) ∨ pre ++ rest = [] := by
            cases pre ++ rest with
            | nil => exact .inr rfl
            | cons t ts => exact .inl ⟨t, ts, rfl⟩
          · rw [hts] at h
            simp only [exec] at h
            split at h
            · cases h
            · rename_i ht
              simp only [Res.err.injEq] at h
              rw [h] at hts
              have : pre = [] := by simpa using hts
              exact ⟨this, .inr ⟨t, ts, h.symm, ht⟩⟩
          · simp only [List.append_eq_nil_iff] at hts
            exact ⟨hts.1, .inl hts.2⟩
        obtain ⟨rfl, rfl | ⟨t, ts, rfl, ht⟩⟩ := hp
        · have : rest' = [] := by cases rest' <;> simp_all
          subst this
          exact h
        · obtain ⟨ts', rfl⟩ : ∃ ts', rest' = t :: ts' := by
            cases rest' with
            | nil => simp at hh
            | cons y ys => simp at hh; exact ⟨ys, by rw [hh]⟩
          simp [exec, ht]
      · intro pre ks rest rest' h _
        obtain ⟨t, ts, hts⟩ | hts : (∃ t ts, pre ++ rest = t :: ts) ∨ pre ++ rest = [] := by
          cases pre ++ rest with
          | nil => exact .inr rfl
          | cons t ts => exact .inl ⟨t, ts, rfl⟩
        · rw [hts] at h
          simp only [exec] at h
          split at h
          · rename_i ht
            simp only [Res.ok.injEq] at h
            obtain ⟨rfl, rfl⟩ := h
            have : pre = [t] := List.append_cancel_right (by simpa using hts)
            subst this
            simp [exec, ht]
          · cases h
        · rw [hts] at h; simp [exec] at h
    | call st r k =>
      have hr := ih (st :: ctx) k (goCode r) (goCode_wf r) (goCode_alive r) (goCode_near r).1
      refine ⟨hok, herr, ?_, ?_⟩
      · intro pre rest rest' h hh
        simp only [exec] at h ⊢
        split at h
        · cases h
        · rename_i ts' h'
          cases h
          rw [hr.err h' hh]
        · cases h
      · intro pre ks rest rest' h hh
        simp only [exec] at h ⊢
        split at h
        · rename_i ks' ts' h'
          simp only [Res.ok.injEq] at h
          obtain ⟨rfl, rfl⟩ := h
          rw [hr.ok h' ?_]
          cases hlo : (goCode r).loose with
          | true =>
            have := (goCode_near r).2 hlo
            subst this
            simpa [Go.loose] using hh
          | false => exact .inr ⟨alike_head hh, .inl rfl⟩
        · cases h
        · cases h
    | pred k =>
      refine ⟨hok, herr, ?_, ?_⟩
      · intro pre rest rest' h hh
        simp only [exec] at h ⊢
        split at h
        · cases h
        · rename_i hk
          have : pre = [] := by simpa using h
          subst this
          rw [if_neg hk]; rfl
      · intro pre ks rest rest' h hh
        simp only [exec] at h ⊢
        split at h
        · rename_i hk
          simp only [Res.ok.injEq] at h
          obtain ⟨rfl, h⟩ := h
          have : pre = [] := by simpa using h
          subst this
          rw [if_pos hk]; rfl
        · cases h
    | sync st =>
      refine ⟨hok, herr, ?_, ?_⟩
      · intro pre rest rest' h hh
        simp only [exec] at h ⊢
        rw [← head_la (append_head (pre := pre) hh)]
        split at h
        · cases h
        · rename_i hk
          have : pre = [] := by simpa using h
          subst this
          rw [if_neg hk]; rfl
      · intro pre ks rest rest' h hh
        simp only [exec] at h ⊢
        rw [← head_la (append_head (pre := pre) (alike_head hh))]
        split at h
        · rename_i hk
          simp only [Res.ok.injEq] at h
          obtain ⟨rfl, h⟩ := h
          have : pre = [] := by simpa using h
          subst this
          rw [if_pos hk]; rfl
        · cases h
    | ifLA c a b =>
      simp only [Go.wf, Bool.and_eq_true] at hw
      simp only [Go.alive, Bool.and_eq_true] at hl
      simp only [Go.near, Bool.and_eq_true] at hn
      have ha := ih ctx p a hw.1 hl.1.1.1 hn.1
      have hb := ih ctx p b hw.2 hl.1.1.2 hn.2
      refine ⟨hok, herr, ?_, ?_⟩
      · intro pre rest rest' h hh
        simp only [exec] at h ⊢
        rw [← head_la (append_head (pre := pre) hh)]
        split at h
        · rename_i hc; rw [if_pos hc]; exact ha.err h hh
        · rename_i hc; rw [if_neg hc]; exact hb.err h hh
      · intro pre ks rest rest' h hh
        simp only [exec] at h ⊢
        rw [← head_la (append_head (pre := pre) (alike_head hh))]
        have haa : Alike a.loose rest rest' := by
          cases hx : a.loose with
          | true => simpa [Go.loose, hx] using hh
          | false => exact .inr ⟨alike_head hh, .inl rfl⟩
        have hbb : Alike b.loose rest rest' := by
          cases hx : b.loose with
          | true => simpa [Go.loose, hx] using hh
          | false => exact .inr ⟨alike_head hh, .inl rfl⟩
        split at h
        · rename_i hc; rw [if_pos hc]; exact ha.ok h haa
        · rename_i hc; rw [if_neg hc]; exact hb.ok h hbb
    | whileLA c a =>
      have hw' := hw
      have hl' := hl
      have hn' := hn
      simp only [Go.wf] at hw
      simp only [Go.alive, Bool.and_eq_true] at hl
      simp only [Go.near, Bool.and_eq_true, Bool.not_eq_true'] at hn
      have hseq := Local.seq (ih ctx p a hw hl.1 hn.1) (ih ctx p _ hw' hl' hn')
        (by rw [hn.2]; intro h; cases h) (by rw [hn.2]; intro h; cases h)
      refine ⟨hok, herr, ?_, ?_⟩
      · intro pre rest rest' h hh
        simp only [exec] at h ⊢
        rw [← head_la (append_head (pre := pre) hh)]
        split at h
        · rename_i hc; rw [if_pos hc]; exact hseq.err h hh
        · cases h
      · intro pre ks rest rest' h hh
        simp only [exec] at h ⊢
        rw [← head_la (append_head (pre := pre) (alike_head hh))]
        split at h
        · rename_i hc; rw [if_pos hc]; exact hseq.ok h hh
        · rename_i hc
          rw [if_neg hc]
          simp only [Res.ok.injEq] at h
          obtain ⟨rfl, h⟩ := h
          have : pre = [] := by simpa using h
          subst this
          rfl
    | whileAP d a =>
      have hw' := hw
      have hl' := hl
      have hn' := hn
      simp only [Go.wf, Bool.and_eq_true, beq_iff_eq] at hw
      simp only [Go.alive, Bool.and_eq_true, Bool.or_eq_true] at hl
      simp only [Go.near, Bool.and_eq_true, Bool.not_eq_true', Bool.or_eq_true, beq_iff_eq] at hn
      have hd : d ∈ asked := List.contains_iff_mem.1 hw.1.1
      have hseq := Local.seq (ih ctx p a hw.1.2 hl.1.1 hn.1.1.1) (ih ctx p _ hw' hl' hn')
        (by rw [hn.1.1.2]; intro h; cases h) (by rw [hn.1.1.2]; intro h; cases h)
      have hself := ih ctx p _ hw' hl' hn'
      refine ⟨hok, herr, ?_, ?_⟩
      · intro pre rest rest' h hh
        have hhd := append_head (pre := pre) hh
        have key : simRuntime.predict d p ctx (pre ++ rest) = simRuntime.predict d p ctx (pre ++ rest') := by
          refine predict_congr hd hhd ?_
          by_cases hp : pre = []
          · subst hp
            simp only [List.nil_append] at h ⊢
            rcases hn.2 with h31 | ⟨h7, hst⟩
            · exact .inr (.inr (.inl h31))
            · refine .inr (.inr (.inr (.inl ⟨h7, fun hc => ?_⟩)))
              simp only [exec] at h
              split at h
              · rename_i hz
                rw [sim_eq hd] at hz
                rw [sim_dead hd] at h
                rcases byTwo_zero hd hz with hp | ⟨rfl, ht, hp⟩
                · rw [hc] at hp
                  rcases h7 with rfl | rfl <;> simp [passed] at hp
                · rw [hp] at h
                  obtain ⟨x, xs, rfl, hx⟩ := la_cons hc (by decide)
                  simp at h
              · rcases andThen_err h with h | ⟨k₁, t₁, h₁, h₂⟩
                · have := strict_ok n ctx p a rest rest 50 hw.1.2 hl.1.1 (by rw [hc]; decide) (by rw [hc]; exact hst) h
                  omega
                · have := nonNull_exec hw.1.2 hn.1.2 h₁
                  have := err_le hw' hl' h₂
                  omega
              · cases h
              · have := sim_inRange d hd p ctx rest
                omega
          · exact .inl (append_tail hp hh)
        simp only [exec] at h ⊢
        rw [← key, ← dead_congr hd hhd]
        split at h
        · rename_i hz
          rw [sim_eq hd] at hz
          rw [sim_dead hd] at h ⊢
          rcases byTwo_zero hd hz with hp | ⟨rfl, ht, hp⟩
          · rw [hp] at h ⊢
            have : pre = [] := by simpa using h
            subst this
            rfl
          · rw [hp] at h ⊢
            obtain ⟨x, xs, hts, hx⟩ := la_cons ht (by decide)
            rw [hts] at h
            simp only [List.drop_succ_cons, List.drop_zero, Res.err.injEq] at h
            subst h
            have : pre = [x] := List.append_cancel_right (by simpa using hts)
            subst this
            rfl
        · exact hseq.err h hh
        · cases h
        · have := sim_inRange d hd p ctx (pre ++ rest)
          omega
      · intro pre ks rest rest' h hh
        have hhd := append_head (pre := pre) (alike_head hh)
        have key : simRuntime.predict d p ctx (pre ++ rest) = simRuntime.predict d p ctx (pre ++ rest') := by
          refine predict_congr hd hhd ?_
          by_cases hp : pre = []
          · subst hp
            simp only [List.nil_append] at h ⊢
            rcases alike_tail hh with ht | ⟨_, hlo | hc⟩
            · exact .inl ht
            · rcases hn.2 with h31 | ⟨h7, hst⟩
              · exact .inr (.inr (.inl h31))
              · simp only [Go.loose] at hlo
                rcases h7 with rfl | rfl <;> simp at hlo
            · rcases hn.2 with h31 | ⟨h7, hst⟩
              · exact .inr (.inr (.inl h31))
              · exact .inr (.inr (.inr (.inl ⟨h7, hc⟩)))
          · exact .inl (append_tail hp (alike_head hh))
        simp only [exec] at h ⊢
        rw [← key]
        split at h
        · cases h
        · exact hseq.ok h hh
        · simp only [Res.ok.injEq] at h
          obtain ⟨rfl, h⟩ := h
          have : pre = [] := by simpa using h
          subst this
          rfl
        · have := sim_inRange d hd p ctx (pre ++ rest)
          omega
    | switchAP d x =>
      simp only [Go.wf, Bool.and_eq_true] at hw
      simp only [Go.alive, Bool.and_eq_true] at hl
      simp only [Go.near, Bool.and_eq_true, Bool.or_eq_true, beq_iff_eq, List.all_eq_true] at hn
      have hd : d ∈ asked := List.contains_iff_mem.1 hw.1
      have arm : ∀ i ts, simRuntime.predict d p ctx ts = i + 1 → ∃ a, x.arms.lookup (i + 1) = some a ∧
          (i + 1, a) ∈ x.arms ∧ a.wf = true := by
        intro i ts hi
        have := sim_inRange d hd p ctx ts
        exact wfArms_lookup _ _ _ hw.2 (i + 1) (by omega) (by omega)
      refine ⟨hok, herr, ?_, ?_⟩
      · intro pre rest rest' h hh
        have hhd := append_head (pre := pre) hh
        have key : simRuntime.predict d p ctx (pre ++ rest) = simRuntime.predict d p ctx (pre ++ rest') := by
          refine predict_congr hd hhd ?_
          by_cases hp : pre = []
          · subst hp
            simp only [List.nil_append] at h ⊢
            rcases hn.2 with h30 | ⟨h24, hst⟩
            · exact .inr (.inl h30)
            · refine .inr (.inr (.inr (.inr ⟨h24, fun hc => ?_⟩)))
              simp only [exec] at h
              split at h
              · rename_i hz
                subst h24
                rw [sim_eq hd] at hz
                simp only [byTwo, hc, if_true] at hz
                split at hz <;> cases hz
              · rename_i i hi
                obtain ⟨a, hlk, hm, hwa⟩ := arm i _ hi
                rw [hlk] at h
                have := strict_ok n ctx p a rest rest 50 hwa (arms_alive hl.1.1 _ hm) (by rw [hc]; decide)
                  (by rw [hc]; exact (hst _ hm).1) h
                omega
          · exact .inl (append_tail hp hh)
        simp only [exec] at h ⊢
        rw [← key, ← dead_congr hd hhd]
        split at h
        · rename_i hz
          rw [sim_eq hd] at hz
          rw [sim_dead hd] at h ⊢
          rcases byTwo_zero hd hz with hp | ⟨rfl, ht, hp⟩
          · rw [hp] at h ⊢
            have : pre = [] := by simpa using h
            subst this
            rfl
          · exact absurd hl.2 (by simp)
        · rename_i i hi
          obtain ⟨a, hlk, hm, hwa⟩ := arm i _ hi
          rw [hlk] at h ⊢
          exact (ih ctx p a hwa (arms_alive hl.1.1 _ hm) (arms_near hn.1 _ hm).1).err h hh
      · intro pre ks rest rest' h hh
        have hhd := append_head (pre := pre) (alike_head hh)
        have key : simRuntime.predict d p ctx (pre ++ rest) = simRuntime.predict d p ctx (pre ++ rest') := by
          refine predict_congr hd hhd ?_
          by_cases hp : pre = []
          · subst hp
            simp only [List.nil_append] at h ⊢
            rcases hn.2 with h30 | ⟨h24, hst⟩
            · exact .inr (.inl h30)
            · refine .inr (.inr (.inr (.inr ⟨h24, fun hc => ?_⟩)))
              simp only [exec] at h
              split at h
              · cases h
              · rename_i i hi
                obtain ⟨a, hlk, hm, hwa⟩ := arm i _ hi
                rw [hlk] at h
                have := nonNull_exec hwa (hst _ hm).2 h
                omega
          · exact .inl (append_tail hp (alike_head hh))
        simp only [exec] at h ⊢
        rw [← key]
        split at h
        · cases h
        · rename_i i hi
          obtain ⟨a, hlk, hm, hwa⟩ := arm i _ hi
          rw [hlk] at h ⊢
          have hnear := arms_near hn.1 _ hm
          refine (ih ctx p a hwa (arms_alive hl.1.1 _ hm) hnear.1).ok h ?_
          exact .inr ⟨alike_head hh, .inl hnear.2⟩
    | case d i a b => simp [Go.wf] at hw

/-- The first error, and what comes after the token it is about. -/
theorem exec_err_source {n : Nat} {pre rest rest' : List Tok}
    (h : exec simRuntime n [] 0 (goCode .source_unit) (pre ++ rest) = .err rest)
    (hh : rest.head? = rest'.head?) :
    exec simRuntime n [] 0 (goCode .source_unit) (pre ++ rest') = .err rest' :=
  (exec_local n [] 0 _ (goCode_wf _) (goCode_alive _) (goCode_near _).1).err h hh

end Verif
