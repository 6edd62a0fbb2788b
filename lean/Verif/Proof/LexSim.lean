import Verif.Proof.LexRest
/-!
# The lexer simulation follows the languages of the rules

For any ATN that passes the checks of `Proof/LexRest`.
-/

namespace Verif.Atn

/-! ## Folds -/

theorem foldlM_inv {α σ : Type} {f : σ → α → Option σ} {P : σ → Prop} :
    ∀ {l : List α} {s s' : σ}, (∀ s s' x, x ∈ l → f s x = some s' → P s → P s') →
      l.foldlM f s = some s' → P s → P s'
  | [], s, s', _, h, hp => by
    simp only [List.foldlM_nil, Option.pure_def, Option.some.injEq] at h; rw [← h]; exact hp
  | x :: l, s, s', step, h, hp => by
    simp only [List.foldlM_cons, Option.bind_eq_bind, Option.bind_eq_some_iff] at h
    obtain ⟨t, ht, h⟩ := h
    exact foldlM_inv (fun s s' y hy => step s s' y (by simp [hy])) h (step s t x (by simp) ht hp)

theorem foldlM_mem {α σ : Type} {f : σ → α → Option σ} {Q : σ → Prop} {e : α} :
    ∀ {l : List α} {s s' : σ}, e ∈ l → (∀ s s' x, x ∈ l → f s x = some s' → Q s → Q s') →
      (∀ s s', f s e = some s' → Q s') → l.foldlM f s = some s' → Q s'
  | [], s, s', he, _, _, _ => by simp at he
  | x :: l, s, s', he, keep, make, h => by
    simp only [List.foldlM_cons, Option.bind_eq_bind, Option.bind_eq_some_iff] at h
    obtain ⟨t, ht, h⟩ := h
    rcases List.mem_cons.1 he with rfl | he
    · exact foldlM_inv (fun s s' y hy => keep s s' y (by simp [hy])) h (make s t ht)
    · exact foldlM_mem he (fun s s' y hy => keep s s' y (by simp [hy])) make h

theorem foldlM_total {α σ : Type} {f : σ → α → Option σ} {P : σ → Prop} :
    ∀ {l : List α} {s : σ}, P s → (∀ s x, x ∈ l → P s → ∃ s', f s x = some s' ∧ P s') →
      ∃ s', l.foldlM f s = some s'
  | [], s, _, _ => ⟨s, rfl⟩
  | x :: l, s, hp, step => by
    obtain ⟨t, ht, hp'⟩ := step s x (by simp) hp
    obtain ⟨r, hr⟩ := foldlM_total (l := l) hp' (fun s y hy => step s y (by simp [hy]))
    exact ⟨r, by simp [List.foldlM_cons, ht, hr]⟩

theorem foldlM_rel {α σ τ : Type} {f : σ → α → Option σ} {g : τ → α → Option τ} {R : σ → τ → Prop} :
    ∀ {l : List α} {s : σ} {t t' : τ}, R s t →
      (∀ s t t' x, x ∈ l → R s t → g t x = some t' → ∃ s', f s x = some s' ∧ R s' t') →
      l.foldlM g t = some t' → ∃ s', l.foldlM f s = some s' ∧ R s' t'
  | [], s, t, t', hr, _, h => by
    simp only [List.foldlM_nil, Option.pure_def, Option.some.injEq] at h
    exact ⟨s, rfl, by rw [← h]; exact hr⟩
  | x :: l, s, t, t', hr, step, h => by
    simp only [List.foldlM_cons, Option.bind_eq_bind, Option.bind_eq_some_iff] at h
    obtain ⟨u, hu, h⟩ := h
    obtain ⟨v, hv, hr'⟩ := step s t u x (by simp) hr hu
    obtain ⟨r, h1, h2⟩ := foldlM_rel hr' (fun s t t' y hy => step s t t' y (by simp [hy])) h
    exact ⟨r, by simp [List.foldlM_cons, hv, h1], h2⟩

/-! ## Configurations -/

/-- The facts that the checks give. -/
structure Checked (a : T) (N : Notes) (m z : Nat) : Prop where
  shape : ∀ s, 0 < s → s ≤ m → LShape a N m z s
  D : ∀ s, 0 < s → s ≤ m → N.D s ≤ 20
  L : ∀ s, 0 < s → s ≤ m → N.L s ≤ 3
  lazy : ∀ s ∈ a.nonGreedy, (a.st s).rule = z

/-- The return states fit: each rule is called from one of a higher level. -/
def Chain (N : Notes) (m : Nat) : Nat → List Nat → Prop
  | _, [] => True
  | s, f :: stk => (0 < f ∧ f ≤ m) ∧ N.L s < N.L f ∧ Chain N m f stk

/-- The state in the token rule. -/
def base : Nat → List Nat → Nat
  | s, [] => s
  | _, f :: stk => base f stk

/-- Bound on the depth of `closure`. -/
def need (N : Notes) : Nat → List Nat → Nat
  | s, [] => N.D s
  | s, f :: stk => N.D s + if N.null s then 1 + need N f stk else 0

/-- What can follow a configuration. -/
def Config.rest (N : Notes) (k : Config) : List RE := N.X k.state ++ k.stack.flatMap N.X

/-- A configuration of token rule `i`, whose actions are `acts`. -/
structure Good (a : T) (N : Notes) (m z i : Nat) (acts : List Nat) (k : Config) : Prop where
  alt : k.alt = i + 1
  range : 0 < k.state ∧ k.state ≤ m
  chain : Chain N m k.state k.stack
  rule : (a.st (base k.state k.stack)).rule = i
  acts : k.acts ++ N.A (base k.state k.stack) = acts
  lazy : i ≠ z → k.lazy = false ∧ ∀ x ∈ k.state :: k.stack, (a.st x).rule ≠ z

/-- A configuration that `closure` keeps: at the end of the token rule, or in
front of a character. -/
def Final (a : T) (N : Notes) (m : Nat) (k : Config) : Prop :=
  ((a.st k.state).ty = 7 ∧ k.stack = []) ∨
  ∃ e neg rs, (a.st k.state).ty ≠ 7 ∧ a.out k.state = [e] ∧ a.classOf e = some (neg, rs) ∧
    N.X k.state = .cls neg rs :: N.X e.trg ∧ Same a N m k.state e.trg ∧ N.A k.state = N.A e.trg

section

variable {a : T} {N : Notes} {m z i : Nat} {acts : List Nat}

theorem Chain.same {s t : Nat} {stk : List Nat} (h : Chain N m s stk) (hl : N.L t = N.L s) : Chain N m t stk := by
  cases stk with
  | nil => exact trivial
  | cons f stk => exact ⟨h.1, by rw [hl]; exact h.2.1, h.2.2⟩

theorem base_same (s t : Nat) (stk : List Nat) {P : Nat → Prop} (h : P s → P t) (hp : P (base s stk)) :
    P (base t stk) := by
  cases stk with
  | nil => exact h hp
  | cons f stk => exact hp

theorem need_same {s t : Nat} {stk : List Nat} (hD : N.D t < N.D s) (hn : N.null t = true → N.null s = true) :
    need N t stk < need N s stk := by
  cases stk with
  | nil => exact hD
  | cons f stk =>
    simp only [need]
    split
    · rename_i h; rw [if_pos (hn h)]; omega
    · split <;> omega

theorem Chain.length (hc : Checked a N m z) : ∀ {stk : List Nat} {s : Nat}, 0 < s → s ≤ m → Chain N m s stk →
    N.L s + stk.length ≤ 3
  | [], s, h0, h, _ => by simpa using hc.L s h0 h
  | f :: stk, s, _, _, h => by
    have := Chain.length hc h.1.1 h.1.2 h.2.2
    have := h.2.1
    simp only [List.length_cons]; omega

theorem need_le (hc : Checked a N m z) : ∀ {stk : List Nat} {s : Nat}, 0 < s → s ≤ m → Chain N m s stk →
    need N s stk ≤ 20 + 21 * stk.length
  | [], s, h0, h, _ => by simpa [need] using hc.D s h0 h
  | f :: stk, s, h0, h, hch => by
    have h1 := need_le hc hch.1.1 hch.1.2 hch.2.2
    have h2 := hc.D s h0 h
    simp only [need, List.length_cons]
    split <;> omega

theorem Good.enough (hc : Checked a N m z) {k : Config} (h : Good a N m z i acts k) : need N k.state k.stack < depth := by
  have h1 := need_le hc h.range.1 h.range.2 h.chain
  have h2 := Chain.length hc h.range.1 h.range.2 h.chain
  unfold depth; omega

/-- The flag does not change outside of rule `z`. -/
theorem move_lazy (hc : Checked a N m z) {k : Config} {s : Nat} (hk : k.lazy = false) (hs : (a.st s).rule ≠ z) :
    (k.move a s).lazy = false := by
  simp only [Config.move, hk, Bool.false_or]
  cases h : a.nonGreedy.contains s with
  | false => rfl
  | true => exact absurd (hc.lazy s (by simpa using h)) hs

/-- One step inside the rule. -/
theorem Good.step (hc : Checked a N m z) {k : Config} (h : Good a N m z i acts k) {t : Nat}
    (hs : Same a N m k.state t) (hA : N.A k.state = N.A t) : Good a N m z i acts (k.move a t) where
  alt := h.alt
  range := hs.range
  chain := h.chain.same hs.level
  rule := base_same (P := fun x => (a.st x).rule = i) k.state t k.stack (fun hr => by rw [hs.rule]; exact hr) h.rule
  acts := base_same (P := fun x => k.acts ++ N.A x = acts) k.state t k.stack (fun hr => by rw [← hA]; exact hr) h.acts
  lazy hz := by
    obtain ⟨h1, h2⟩ := h.lazy hz
    have ht : (a.st t).rule ≠ z := by rw [hs.rule]; exact h2 _ (by simp)
    refine ⟨move_lazy hc h1 ht, ?_⟩
    intro x hx
    rcases List.mem_cons.1 hx with rfl | hx
    · exact ht
    · exact h2 x (List.mem_cons_of_mem _ hx)

/-- One step of `closure` along a transition. -/
theorem Good.eps (hc : Checked a N m z) {k : Config} (h : Good a N m z i acts k) {e : Edge}
    (hs : Same a N m k.state e.trg) (he : EpsEdge a N m z k.state e) :
    ∃ k', k.epsTarget a e = some k' ∧ Good a N m z i acts k' ∧ need N k'.state k'.stack < need N k.state k.stack ∧
      k'.rest N = N.after e ++ k.stack.flatMap N.X := by
  cases he with
  | eps hty hD hn hA =>
    refine ⟨k.move a e.trg, by simp [Config.epsTarget, hty], h.step hc hs hA, need_same hD hn, ?_⟩
    simp [Config.rest, Config.move, Notes.after, hty]
  | act hty hD hn hA =>
    refine ⟨{ k.move a e.trg with acts := if k.stack.isEmpty then k.acts ++ [e.a2] else k.acts },
      by simp only [Config.epsTarget, hty], ?_, need_same hD hn, ?_⟩
    · refine ⟨h.alt, hs.range, h.chain.same hs.level, ?_, ?_, ?_⟩
      · exact base_same (P := fun x => (a.st x).rule = i) k.state e.trg k.stack
          (fun hr => by rw [hs.rule]; exact hr) h.rule
      · have := h.acts
        cases hst : k.stack with
        | nil =>
          rw [hst] at this
          simp only [base] at this ⊢
          simp [Config.move, hst, base, ← this, hA]
        | cons f stk =>
          rw [hst] at this
          simpa [Config.move, hst, base] using this
      · intro hz
        obtain ⟨h1, h2⟩ := h.lazy hz
        have ht : (a.st e.trg).rule ≠ z := by rw [hs.rule]; exact h2 _ (by simp)
        refine ⟨move_lazy hc h1 ht, fun x hx => ?_⟩
        rcases List.mem_cons.1 hx with rfl | hx
        · exact ht
        · exact h2 x (List.mem_cons_of_mem _ hx)
    · simp [Config.rest, Config.move, Notes.after, hty]
  | call hty hD hn hA hL hr hz' =>
    refine ⟨{ k.move a e.a1 with stack := e.trg :: k.stack }, by simp only [Config.epsTarget, hty], ?_, ?_, ?_⟩
    · refine ⟨h.alt, hr, ⟨hs.range, ?_, h.chain.same hs.level⟩, ?_, ?_, ?_⟩
      · show N.L e.a1 < N.L e.trg
        rw [hs.level]; exact hL
      · exact base_same (P := fun x => (a.st x).rule = i) k.state e.trg k.stack
          (fun hr => by rw [hs.rule]; exact hr) h.rule
      · exact base_same (P := fun x => k.acts ++ N.A x = acts) k.state e.trg k.stack
          (fun hr => by rw [← hA]; exact hr) h.acts
      · intro hz
        obtain ⟨h1, h2⟩ := h.lazy hz
        refine ⟨move_lazy hc h1 hz', fun x hx => ?_⟩
        rcases List.mem_cons.1 hx with rfl | hx
        · exact hz'
        · rcases List.mem_cons.1 hx with rfl | hx
          · rw [hs.rule]; exact h2 _ (by simp)
          · exact h2 x (List.mem_cons_of_mem _ hx)
    · show need N e.a1 (e.trg :: k.stack) < need N k.state k.stack
      have : N.D k.state ≤ need N k.state k.stack := by
        cases k.stack with
        | nil => exact Nat.le_refl _
        | cons f stk => simp only [need]; omega
      simp only [need, hn]
      simp
      omega
    · simp [Config.rest, Config.move, Notes.after, hty]

/-- Returning from a rule. -/
theorem Good.pop (hc : Checked a N m z) {k : Config} (h : Good a N m z i acts k) (hX : N.X k.state = [])
    {f : Nat} {stk : List Nat} (hk : k.stack = f :: stk) :
    Good a N m z i acts { k.move a f with stack := stk } ∧
      need N f stk < need N k.state k.stack ∧ Config.rest N { k.move a f with stack := stk } = k.rest N := by
  have hch := h.chain
  rw [hk] at hch
  refine ⟨⟨h.alt, hch.1, hch.2.2, ?_, ?_, ?_⟩, ?_, ?_⟩
  · have := h.rule; rw [hk] at this; exact this
  · have := h.acts; rw [hk] at this; exact this
  · intro hz
    obtain ⟨h1, h2⟩ := h.lazy hz
    rw [hk] at h2
    exact ⟨move_lazy hc h1 (h2 f (by simp)), fun x hx => h2 x (by
      rcases List.mem_cons.1 hx with rfl | hx
      · simp
      · exact List.mem_cons_of_mem _ (List.mem_cons_of_mem _ hx))⟩
  · rw [hk]
    have hn : N.null k.state = true := by unfold Notes.null; rw [hX]; rfl
    simp only [Atn.need, hn, if_true]; omega
  · simp [Config.rest, Config.move, hk, hX]

/-! ## `closure` -/

theorem isEps_class {e : Edge} {p} (h : a.classOf e = some p) : e.isEps = false := by
  unfold T.classOf at h
  unfold Edge.isEps
  split at h <;> simp_all

theorem EpsEdge.isEps {s : Nat} {e : Edge} (h : EpsEdge a N m z s e) : e.isEps = true := by
  cases h <;> simp_all [Edge.isEps]

theorem mem_addConfig {acc : List Config} {k d : Config} : d ∈ addConfig acc k ↔ d ∈ acc ∨ d = k := by
  unfold addConfig
  split
  · rename_i h
    exact ⟨.inl, fun h' => h'.elim id (fun e => e ▸ h)⟩
  · simp

theorem addConfig_new (acc : List Config) (k : Config) : ∃ new, addConfig acc k = acc ++ new ∧ ∀ d ∈ new, d = k := by
  unfold addConfig
  split
  · exact ⟨[], by simp, by simp⟩
  · exact ⟨[k], rfl, by simp⟩

theorem closure_total (hc : Checked a N m z) : ∀ {n : Nat} {k : Config} {σ : Bool × List Config},
    Good a N m z i acts k → need N k.state k.stack < n → ∃ r, a.closure n k σ = some r
  | 0, _, _, _, h => absurd h (Nat.not_lt_zero _)
  | n + 1, k, (hit, acc), hg, hn => by
    rw [T.closure]
    cases hc.shape k.state hg.range.1 hg.range.2 with
    | stop h7 hX hout hA =>
      simp only [h7, beq_self_eq_true, if_true]
      cases hk : k.stack with
      | nil => exact ⟨_, rfl⟩
      | cons f stk =>
        obtain ⟨h1, h2, _⟩ := hg.pop hc hX hk
        exact closure_total hc h1 (by show need N f stk < n; omega)
    | char e neg rs h7 hout hcl hX hs hA =>
      simp only [h7, beq_iff_eq, if_false]
      have : k.epsTarget a e = none := by
        have := isEps_class hcl
        unfold Config.epsTarget
        simp [Edge.isEps] at this
        split <;> simp_all
      simp [hout, this]
    | eps h7 hne hes hlang =>
      simp only [h7, beq_iff_eq, if_false]
      refine foldlM_total (P := fun _ => True) trivial ?_
      intro s e he _
      obtain ⟨k', h1, h2, h3, _⟩ := hg.eps hc (hes e he).1 (hes e he).2
      rw [h1]
      obtain ⟨r, hr⟩ := closure_total hc h2 (σ := s) (by omega : _ < n)
      exact ⟨r, hr, trivial⟩

/-- What is added belongs to the same token rule and can be followed by less. -/
theorem closure_spec (hc : Checked a N m z) : ∀ {n : Nat} {k : Config} {σ r : Bool × List Config},
    Good a N m z i acts k → a.closure n k σ = some r → ∃ new, r.2 = σ.2 ++ new ∧
      ∀ d ∈ new, Good a N m z i acts d ∧ Final a N m d ∧ ∀ y, LangL (d.rest N) y → LangL (k.rest N) y
  | 0, _, _, _, _, h => by simp [T.closure] at h
  | n + 1, k, (hit, acc), r, hg, h => by
    rw [T.closure] at h
    cases hc.shape k.state hg.range.1 hg.range.2 with
    | stop h7 hX hout hA =>
      simp only [h7, beq_self_eq_true, if_true] at h
      cases hk : k.stack with
      | nil =>
        rw [hk] at h
        simp only [Option.some.injEq] at h
        subst h
        obtain ⟨new, h1, h2⟩ := addConfig_new acc k
        refine ⟨new, h1, fun d hd => ?_⟩
        rw [h2 d hd]
        exact ⟨hg, .inl ⟨h7, hk⟩, fun _ hy => hy⟩
      | cons f stk =>
        rw [hk] at h
        obtain ⟨h1, h2, h3⟩ := hg.pop hc hX hk
        obtain ⟨new, h4, h5⟩ := closure_spec hc h1 h
        exact ⟨new, h4, fun d hd => ⟨(h5 d hd).1, (h5 d hd).2.1, fun y hy => by
          rw [← h3]; exact (h5 d hd).2.2 y hy⟩⟩
    | char e neg rs h7 hout hcl hX hs hA =>
      simp only [h7, beq_iff_eq, if_false] at h
      have : k.epsTarget a e = none := by
        have := isEps_class hcl
        unfold Config.epsTarget
        simp [Edge.isEps] at this
        split <;> simp_all
      simp only [hout, List.foldlM_cons, this, List.foldlM_nil, Option.bind_eq_bind, Option.bind_some,
        Option.pure_def, Option.some.injEq] at h
      subst h
      have hf : ∀ d, d = k → Good a N m z i acts d ∧ Final a N m d ∧ ∀ y, LangL (d.rest N) y → LangL (k.rest N) y := by
        rintro d rfl
        exact ⟨hg, .inr ⟨e, neg, rs, h7, hout, hcl, hX, hs, hA⟩, fun _ hy => hy⟩
      simp only
      split
      · obtain ⟨new, h1, h2⟩ := addConfig_new acc k
        exact ⟨new, h1, fun d hd => hf d (h2 d hd)⟩
      · exact ⟨[], by simp, by simp⟩
    | eps h7 hne hes hlang =>
      simp only [h7, beq_iff_eq, if_false] at h
      have he : a.epsOnly k.state = true := by
        simp only [T.epsOnly, Bool.and_eq_true, Bool.not_eq_true', List.isEmpty_eq_false_iff, List.all_eq_true]
        exact ⟨hne, fun e he => (hes e he).2.isEps⟩
      simp only [he, Bool.not_true, Bool.false_and, Bool.false_eq_true, if_false] at h
      refine foldlM_inv (P := fun σ => ∃ new, σ.2 = acc ++ new ∧
        ∀ d ∈ new, Good a N m z i acts d ∧ Final a N m d ∧ ∀ y, LangL (d.rest N) y → LangL (k.rest N) y)
        ?_ h ⟨[], by simp, by simp⟩
      rintro s s' e hem hs' ⟨new, h1, h2⟩
      obtain ⟨k', g1, g2, _, g4⟩ := hg.eps hc (hes e hem).1 (hes e hem).2
      rw [g1] at hs'
      obtain ⟨new', h3, h4⟩ := closure_spec hc g2 hs'
      refine ⟨new ++ new', by rw [h3, h1]; simp, fun d hd => ?_⟩
      rcases List.mem_append.1 hd with hd | hd
      · exact h2 d hd
      · refine ⟨(h4 d hd).1, (h4 d hd).2.1, fun y hy => ?_⟩
        have := (h4 d hd).2.2 y hy
        rw [g4] at this
        exact (hlang _ y).2 ⟨e, hem, this⟩

/-- Nothing is lost outside of the rule with the non-greedy loop. -/
theorem closure_complete (hc : Checked a N m z) (hz : i ≠ z) : ∀ {n : Nat} {k : Config} {σ r : Bool × List Config},
    Good a N m z i acts k → a.closure n k σ = some r → ∀ y, LangL (k.rest N) y →
      ∃ d ∈ r.2, d.alt = i + 1 ∧ LangL (d.rest N) y
  | 0, _, _, _, _, h => by simp [T.closure] at h
  | n + 1, k, (hit, acc), r, hg, h => by
    intro y hy
    rw [T.closure] at h
    cases hc.shape k.state hg.range.1 hg.range.2 with
    | stop h7 hX hout hA =>
      simp only [h7, beq_self_eq_true, if_true] at h
      cases hk : k.stack with
      | nil =>
        rw [hk] at h
        simp only [Option.some.injEq] at h
        subst h
        exact ⟨k, mem_addConfig.2 (.inr rfl), hg.alt, hy⟩
      | cons f stk =>
        rw [hk] at h
        obtain ⟨h1, h2, h3⟩ := hg.pop hc hX hk
        exact closure_complete hc hz h1 h y (by rw [h3]; exact hy)
    | char e neg rs h7 hout hcl hX hs hA =>
      simp only [h7, beq_iff_eq, if_false] at h
      have : k.epsTarget a e = none := by
        have := isEps_class hcl
        unfold Config.epsTarget
        simp [Edge.isEps] at this
        split <;> simp_all
      simp only [hout, List.foldlM_cons, this, List.foldlM_nil, Option.bind_eq_bind, Option.bind_some,
        Option.pure_def, Option.some.injEq] at h
      subst h
      have h1 : a.epsOnly k.state = false := by
        simp [T.epsOnly, hout, isEps_class hcl]
      simp only [h1, (hg.lazy hz).1, Bool.not_false, Bool.or_true, Bool.and_self, if_true]
      exact ⟨k, mem_addConfig.2 (.inr rfl), hg.alt, hy⟩
    | eps h7 hne hes hlang =>
      simp only [h7, beq_iff_eq, if_false] at h
      obtain ⟨e, hem, hy⟩ := (hlang _ y).1 hy
      obtain ⟨k', g1, g2, _, g4⟩ := hg.eps hc (hes e hem).1 (hes e hem).2
      rw [← g4] at hy
      refine foldlM_mem (Q := fun σ => ∃ d ∈ σ.2, d.alt = i + 1 ∧ LangL (d.rest N) y) hem ?_ ?_ h
      · rintro s s' f hf hs' ⟨d, hd, h2⟩
        obtain ⟨kf, q1, q2, _, _⟩ := hg.eps hc (hes f hf).1 (hes f hf).2
        rw [q1] at hs'
        obtain ⟨new, h3, _⟩ := closure_spec hc q2 hs'
        exact ⟨d, by rw [h3]; exact List.mem_append_left _ hd, h2⟩
      · intro s s' hs'
        rw [g1] at hs'
        exact closure_complete hc hz g2 hs' y hy

/-- Configurations of other token rules do not matter. -/
theorem addConfig_filter {A : Nat} {acc : List Config} {k : Config} (h : k.alt = A) :
    (addConfig acc k).filter (·.alt == A) = addConfig (acc.filter (·.alt == A)) k := by
  unfold addConfig
  have : k ∈ acc.filter (·.alt == A) ↔ k ∈ acc := by simp [List.mem_filter, h]
  simp only [this]
  split <;> simp [List.filter_append, h]

theorem closure_filter {A : Nat} : ∀ {n : Nat} {k : Config} {hit : Bool} {B : List Config} {r : Bool × List Config},
    k.alt = A → a.closure n k (hit, B) = some r →
      a.closure n k (hit, B.filter (·.alt == A)) = some (r.1, r.2.filter (·.alt == A))
  | 0, _, _, _, _, _, h => by simp [T.closure] at h
  | n + 1, k, hit, B, r, hp, h => by
    rw [T.closure] at h ⊢
    split
    · rename_i h7
      simp only [h7, if_true] at h
      cases hk : k.stack with
      | nil =>
        rw [hk] at h
        simp only [Option.some.injEq] at h
        subst h
        simp only [addConfig_filter hp]
      | cons f stk =>
        rw [hk] at h
        exact closure_filter (by simpa [Config.move] using hp) h
    · rename_i h7
      rw [if_neg h7] at h
      have step : ∀ (s t t' : Bool × List Config) e, e ∈ a.out k.state →
          (s.1 = t.1 ∧ s.2 = t.2.filter (·.alt == A)) →
          (match k.epsTarget a e with
          | none => some t
          | some k' => a.closure n k' t) = some t' →
          ∃ s', (match k.epsTarget a e with
          | none => some s
          | some k' => a.closure n k' s) = some s' ∧ (s'.1 = t'.1 ∧ s'.2 = t'.2.filter (·.alt == A)) := by
        rintro ⟨s1, s2⟩ ⟨t1, t2⟩ t' e _ ⟨hs1, hs2⟩ hg
        simp only at hg hs1 hs2 ⊢
        subst hs1 hs2
        cases he : k.epsTarget a e with
        | none =>
          rw [he] at hg
          simp only [Option.some.injEq] at hg
          subst hg
          exact ⟨_, rfl, rfl, rfl⟩
        | some k' =>
          rw [he] at hg
          have ha : k'.alt = k.alt := by
            unfold Config.epsTarget at he
            split at he
            · cases he; rfl
            · cases he; rfl
            · cases he; rfl
            · cases he
          exact ⟨_, closure_filter (by rw [ha]; exact hp) hg, rfl, rfl⟩
      obtain ⟨s', h1, h2⟩ := foldlM_rel
        (R := fun (σ τ : Bool × List Config) => σ.1 = τ.1 ∧ σ.2 = τ.2.filter (·.alt == A))
        (s := (hit, if (!a.epsOnly k.state && (!hit || !k.lazy)) = true then addConfig (B.filter (·.alt == A)) k
          else B.filter (·.alt == A)))
        (t := (hit, if (!a.epsOnly k.state && (!hit || !k.lazy)) = true then addConfig B k else B))
        ⟨rfl, by simp only; split <;> simp [addConfig_filter hp]⟩ step h
      exact h1.trans (congrArg some (Prod.ext h2.1 h2.2))

/-! ## One character -/

/-- A configuration in front of a character. -/
theorem reachOne_char {c : Char} {k : Config} {e : Edge} (hout : a.out k.state = [e]) (σ : Nat × List Config) :
    a.reachOne c k σ =
      if (k.alt == σ.1 && k.lazy) = true ∨ a.matchesChar e c = false then some σ
      else (a.closure depth (k.move a e.trg) (k.alt == σ.1, σ.2)).map
        fun r => (if r.1 then k.alt else σ.1, r.2) := by
  unfold T.reachOne
  simp only [hout, List.foldlM_cons, List.foldlM_nil]
  by_cases h1 : (k.alt == σ.1 && k.lazy) = true
  · simp [h1]
  · cases h2 : a.matchesChar e c with
    | false => simp [h1]
    | true => simp only [h1, if_true]; simp

theorem reachOne_stop {c : Char} {k : Config} (hout : a.out k.state = []) (σ : Nat × List Config) :
    a.reachOne c k σ = some σ := by
  unfold T.reachOne
  simp [hout]

theorem Final.stop (hc : Checked a N m z) {k : Config} (hg : Good a N m z i acts k) (h7 : (a.st k.state).ty = 7) :
    a.out k.state = [] ∧ N.X k.state = [] ∧ N.A k.state = [] := by
  cases hc.shape k.state hg.range.1 hg.range.2 with
  | stop h7 hX hout hA => exact ⟨hout, hX, hA⟩
  | char e neg rs h => exact absurd h7 h
  | eps h => exact absurd h7 h

theorem reachOne_total (hc : Checked a N m z) {c : Char} {k : Config} (hg : Good a N m z i acts k)
    (hf : Final a N m k) (σ : Nat × List Config) : ∃ r, a.reachOne c k σ = some r := by
  rcases hf with ⟨h7, _⟩ | ⟨e, neg, rs, h7, hout, hcl, hX, hs, hA⟩
  · exact ⟨_, reachOne_stop (Final.stop hc hg h7).1 σ⟩
  · rw [reachOne_char hout]
    split
    · exact ⟨_, rfl⟩
    · have hg' := hg.step hc hs hA
      obtain ⟨r, hr⟩ := closure_total hc (σ := (k.alt == σ.1, σ.2)) hg' (hg'.enough hc)
      rw [hr]
      exact ⟨_, rfl⟩

theorem reachOne_spec (hc : Checked a N m z) {c : Char} {k : Config} (hg : Good a N m z i acts k)
    (hf : Final a N m k) {σ r : Nat × List Config} (h : a.reachOne c k σ = some r) : ∃ new, r.2 = σ.2 ++ new ∧
      ∀ d ∈ new, Good a N m z i acts d ∧ Final a N m d ∧ ∀ y, LangL (d.rest N) y → LangL (k.rest N) (c :: y) := by
  rcases hf with ⟨h7, _⟩ | ⟨e, neg, rs, h7, hout, hcl, hX, hs, hA⟩
  · rw [reachOne_stop (Final.stop hc hg h7).1 σ, Option.some.injEq] at h
    subst h
    exact ⟨[], by simp, by simp⟩
  · rw [reachOne_char hout] at h
    split at h
    · rw [Option.some.injEq] at h
      subst h
      exact ⟨[], by simp, by simp⟩
    · rename_i hn
      simp only [Option.map_eq_some_iff] at h
      obtain ⟨q, hq, rfl⟩ := h
      obtain ⟨new, h1, h2⟩ := closure_spec hc (hg.step hc hs hA) hq
      refine ⟨new, h1, fun d hd => ⟨(h2 d hd).1, (h2 d hd).2.1, fun y hy => ?_⟩⟩
      have := (h2 d hd).2.2 y hy
      have hm : a.matchesChar e c = true := by
        cases hm : a.matchesChar e c with
        | true => rfl
        | false => exact absurd (.inr hm) hn
      rw [matchesChar_class hcl] at hm
      unfold Config.rest
      rw [hX, List.cons_append, langL_cls]
      exact ⟨c, y, rfl, hm, this⟩

theorem reachOne_complete (hc : Checked a N m z) (hz : i ≠ z) {c : Char} {k : Config} (hg : Good a N m z i acts k)
    (hf : Final a N m k) {σ r : Nat × List Config} (h : a.reachOne c k σ = some r) {y : Str}
    (hy : LangL (k.rest N) (c :: y)) : ∃ d ∈ r.2, d.alt = i + 1 ∧ LangL (d.rest N) y := by
  rcases hf with ⟨h7, hk⟩ | ⟨e, neg, rs, h7, hout, hcl, hX, hs, hA⟩
  · unfold Config.rest at hy
    rw [(Final.stop hc hg h7).2.1, hk] at hy
    simp [LangL] at hy
  · rw [reachOne_char hout] at h
    unfold Config.rest at hy
    rw [hX, List.cons_append, langL_cls] at hy
    obtain ⟨c', y', he, hm, hy⟩ := hy
    cases he
    rw [← matchesChar_class hcl] at hm
    rw [if_neg (by simp [(hg.lazy hz).1, hm])] at h
    simp only [Option.map_eq_some_iff] at h
    obtain ⟨q, hq, rfl⟩ := h
    exact closure_complete hc hz (hg.step hc hs hA) hq y hy

/-- The configurations of token rule `A - 1`. -/
theorem reachOne_filter {A : Nat} {c : Char} {k : Config} (hk : k.alt = A) {σ r τ : Nat × List Config}
    (h : a.reachOne c k σ = some r) (h1 : (A == τ.1) = (A == σ.1)) (h2 : τ.2 = σ.2.filter (·.alt == A)) :
    ∃ r', a.reachOne c k τ = some r' ∧ (A == r'.1) = (A == r.1) ∧ r'.2 = r.2.filter (·.alt == A) := by
  unfold T.reachOne at h ⊢
  simp only [hk, h1]
  simp only [hk] at h
  split at h
  · rename_i hl
    rw [if_pos hl]
    rw [Option.some.injEq] at h
    subst h
    exact ⟨_, rfl, h1, h2⟩
  · rename_i hl
    rw [if_neg hl]
    refine foldlM_rel (R := fun (s t : Nat × List Config) => (A == s.1) = (A == t.1) ∧ s.2 = t.2.filter (·.alt == A))
      ⟨h1, h2⟩ ?_ h
    rintro s t t' e _ ⟨r1, r2⟩ hg
    split at hg
    · rename_i hm
      simp only [Option.map_eq_some_iff] at hg
      obtain ⟨q, hq, rfl⟩ := hg
      rw [if_pos hm, r2, closure_filter (by simpa [Config.move] using hk) hq]
      refine ⟨_, rfl, ?_, rfl⟩
      simp only
      split
      · rfl
      · exact r1
    · rename_i hm
      rw [if_neg hm]
      rw [Option.some.injEq] at hg
      subst hg
      exact ⟨_, rfl, r1, r2⟩

theorem reachOne_skip {c : Char} {k : Config} {σ r : Nat × List Config} (h : a.reachOne c k σ = some r) :
    r.1 = σ.1 ∨ r.1 = k.alt := by
  unfold T.reachOne at h
  simp only at h
  split at h
  · rw [Option.some.injEq] at h; subst h; exact .inl rfl
  · refine foldlM_inv (P := fun s => s.1 = σ.1 ∨ s.1 = k.alt) ?_ h (.inl rfl)
    intro s s' e _ hs hp
    split at hs
    · simp only [Option.map_eq_some_iff] at hs
      obtain ⟨q, hq, rfl⟩ := hs
      simp only
      split
      · exact .inr rfl
      · exact hp
    · rw [Option.some.injEq] at hs; subst hs; exact hp

/-! ## A set of configurations -/

/-- A configuration of some token rule below `w`, whose start state is given by
`S`; `G` holds of the rule and what can still follow. -/
structure Of (a : T) (N : Notes) (m z w : Nat) (S : Nat → Nat) (G : Nat → Str → Prop) (k : Config) : Prop where
  out : ∃ i < w, Good a N m z i (N.A (S i)) k ∧ ∀ y, LangL (k.rest N) y → G i y
  final : Final a N m k

variable {w : Nat} {S : Nat → Nat}

theorem reach_total (hc : Checked a N m z) {G : Nat → Str → Prop} {ks : List Config} (h : ∀ k ∈ ks, Of a N m z w S G k)
    (c : Char) : ∃ r, a.reach ks c = some r := by
  unfold T.reach
  obtain ⟨r, hr⟩ := foldlM_total (l := ks) (f := fun σ k => a.reachOne c k σ) (s := (0, [])) (P := fun _ => True) trivial (by
    intro s k hk _
    obtain ⟨i, _, hg, _⟩ := (h k hk).out
    obtain ⟨r, hr⟩ := reachOne_total hc (c := c) hg (h k hk).final s
    exact ⟨r, hr, trivial⟩)
  exact ⟨r.2, by rw [hr]; rfl⟩

theorem reach_spec (hc : Checked a N m z) {G : Nat → Str → Prop} {ks : List Config} (h : ∀ k ∈ ks, Of a N m z w S G k)
    {c : Char} {r : List Config} (hr : a.reach ks c = some r) : ∀ d ∈ r, Of a N m z w S (fun i y => G i (c :: y)) d := by
  unfold T.reach at hr
  simp only [Option.map_eq_some_iff] at hr
  obtain ⟨q, hq, rfl⟩ := hr
  refine foldlM_inv (P := fun σ : Nat × List Config => ∀ d ∈ σ.2, Of a N m z w S (fun i y => G i (c :: y)) d) ?_ hq (by simp)
  intro s s' k hk hs hp d hd
  obtain ⟨i, hi, hg, hl⟩ := (h k hk).out
  obtain ⟨new, h1, h2⟩ := reachOne_spec hc hg (h k hk).final hs
  rw [h1] at hd
  rcases List.mem_append.1 hd with hd | hd
  · exact hp d hd
  · exact ⟨⟨i, hi, (h2 d hd).1, fun y hy => hl _ ((h2 d hd).2.2 y hy)⟩, (h2 d hd).2.1⟩

theorem reach_complete (hc : Checked a N m z) {G : Nat → Str → Prop} {ks : List Config} (h : ∀ k ∈ ks, Of a N m z w S G k)
    {c : Char} {r : List Config} (hr : a.reach ks c = some r) {i : Nat} (hz : i ≠ z) {y : Str}
    (hy : ∃ k ∈ ks, k.alt = i + 1 ∧ LangL (k.rest N) (c :: y)) : ∃ d ∈ r, d.alt = i + 1 ∧ LangL (d.rest N) y := by
  unfold T.reach at hr
  simp only [Option.map_eq_some_iff] at hr
  obtain ⟨q, hq, rfl⟩ := hr
  obtain ⟨k, hk, ha, hy⟩ := hy
  refine foldlM_mem (Q := fun σ : Nat × List Config => ∃ d ∈ σ.2, d.alt = i + 1 ∧ LangL (d.rest N) y) hk ?_ ?_ hq
  · rintro s s' k' hk' hs ⟨d, hd, h2⟩
    obtain ⟨j, hj, hg, hl⟩ := (h k' hk').out
    obtain ⟨new, h1, _⟩ := reachOne_spec hc hg (h k' hk').final hs
    exact ⟨d, by rw [h1]; exact List.mem_append_left _ hd, h2⟩
  · intro s s' hs
    obtain ⟨j, hj, hg, hl⟩ := (h k hk).out
    have : j = i := by have := hg.alt; omega
    subst this
    exact reachOne_complete hc hz hg (h k hk).final hs hy

/-- Configurations stay in the order of the token rules. -/
theorem reach_sorted (hc : Checked a N m z) {G : Nat → Str → Prop} {ks : List Config} (h : ∀ k ∈ ks, Of a N m z w S G k)
    {c : Char} {r : List Config} (hr : a.reach ks c = some r) (ho : ks.Pairwise (·.alt ≤ ·.alt)) :
    r.Pairwise (·.alt ≤ ·.alt) := by
  unfold T.reach at hr
  simp only [Option.map_eq_some_iff] at hr
  obtain ⟨q, hq, rfl⟩ := hr
  suffices key : ∀ (ks : List Config) (σ q : Nat × List Config), (∀ k ∈ ks, Of a N m z w S G k) →
      ks.Pairwise (·.alt ≤ ·.alt) → σ.2.Pairwise (·.alt ≤ ·.alt) → (∀ d ∈ σ.2, ∀ k ∈ ks, d.alt ≤ k.alt) →
      ks.foldlM (fun σ k => a.reachOne c k σ) σ = some q → q.2.Pairwise (·.alt ≤ ·.alt) from
    key ks _ q h ho .nil (by simp) hq
  intro ks
  induction ks with
  | nil =>
    intro σ q _ _ hσ _ hq
    simp only [List.foldlM_nil, Option.pure_def, Option.some.injEq] at hq
    rw [← hq]; exact hσ
  | cons k ks ih =>
    intro σ q h ho hσ hle hq
    simp only [List.foldlM_cons, Option.bind_eq_bind, Option.bind_eq_some_iff] at hq
    obtain ⟨τ, hτ, hq⟩ := hq
    obtain ⟨i, _, hg, _⟩ := (h k (by simp)).out
    obtain ⟨new, h1, h2⟩ := reachOne_spec hc hg (h k (by simp)).final hτ
    have hk : ∀ d ∈ new, d.alt = k.alt := fun d hd => by rw [(h2 d hd).1.alt, hg.alt]
    rw [List.pairwise_cons] at ho
    refine ih τ q (fun k hk => h k (by simp [hk])) ho.2 ?_ ?_ hq
    · rw [h1, List.pairwise_append]
      refine ⟨hσ, ?_, fun d hd d' hd' => ?_⟩
      · exact List.pairwise_of_forall_mem_list fun d hd d' hd' => by rw [hk d hd, hk d' hd']; exact Nat.le_refl _
      · rw [hk d' hd']; exact hle d hd k (by simp)
    · intro d hd k' hk'
      rw [h1] at hd
      rcases List.mem_append.1 hd with hd | hd
      · exact hle d hd k' (by simp [hk'])
      · rw [hk d hd]; exact ho.1 k' hk'

/-- The configurations of one token rule evolve on their own. -/
theorem reach_filter (hc : Checked a N m z) {G : Nat → Str → Prop} {ks : List Config} (h : ∀ k ∈ ks, Of a N m z w S G k)
    {c : Char} {r : List Config} (hr : a.reach ks c = some r) (ho : ks.Pairwise (·.alt ≤ ·.alt)) {A : Nat} (hA : 0 < A) :
    a.reach (ks.filter (·.alt == A)) c = some (r.filter (·.alt == A)) := by
  unfold T.reach at hr ⊢
  simp only [Option.map_eq_some_iff] at hr ⊢
  obtain ⟨q, hq, rfl⟩ := hr
  suffices key : ∀ (ks : List Config) (σ q τ : Nat × List Config), (∀ k ∈ ks, Of a N m z w S G k) →
      ks.Pairwise (·.alt ≤ ·.alt) →
      ((∃ k ∈ ks, k.alt = A) → (A == τ.1) = (A == σ.1)) → (σ.1 = 0 ∨ ∀ k ∈ ks, σ.1 ≤ k.alt) →
      τ.2 = σ.2.filter (·.alt == A) →
      ks.foldlM (fun σ k => a.reachOne c k σ) σ = some q →
      ∃ q', (ks.filter (·.alt == A)).foldlM (fun σ k => a.reachOne c k σ) τ = some q' ∧ q'.2 = q.2.filter (·.alt == A) from
    key ks _ q (0, []) h ho (fun _ => rfl) (.inl rfl) rfl hq
  intro ks
  induction ks with
  | nil =>
    intro σ q τ _ _ _ _ hτ hq
    simp only [List.foldlM_nil, Option.pure_def, Option.some.injEq] at hq
    exact ⟨τ, rfl, by rw [hτ, hq]⟩
  | cons k ks ih =>
    intro σ q τ h ho he hle hτ hq
    simp only [List.foldlM_cons, Option.bind_eq_bind, Option.bind_eq_some_iff] at hq
    obtain ⟨υ, hυ, hq⟩ := hq
    rw [List.pairwise_cons] at ho
    have hle' : υ.1 = 0 ∨ ∀ k ∈ ks, υ.1 ≤ k.alt := by
      rcases reachOne_skip hυ with h' | h'
      · rw [h']; rcases hle with h0 | h0
        · exact .inl h0
        · exact .inr fun k hk => h0 k (by simp [hk])
      · exact .inr fun k' hk' => by rw [h']; exact ho.1 k' hk'
    by_cases hk : k.alt = A
    · rw [List.filter_cons_of_pos (by simpa using hk)]
      obtain ⟨τ', h1, h2, h3⟩ := reachOne_filter hk hυ (he ⟨k, by simp, hk⟩) hτ
      obtain ⟨q', h4, h5⟩ := ih υ q τ' (fun k hk => h k (by simp [hk])) ho.2 (fun _ => h2) hle' h3 hq
      exact ⟨q', by simp [List.foldlM_cons, h1, h4], h5⟩
    · rw [List.filter_cons_of_neg (by simpa using hk)]
      obtain ⟨i, _, hg, _⟩ := (h k (by simp)).out
      obtain ⟨new, h1, h2⟩ := reachOne_spec hc hg (h k (by simp)).final hυ
      refine ih υ q τ (fun k hk => h k (by simp [hk])) ho.2 ?_ hle' ?_ hq
      · rintro ⟨k', hk', ha⟩
        rw [he ⟨k', by simp [hk'], ha⟩]
        rcases reachOne_skip hυ with h' | h'
        · rw [h']
        · have hlt : k.alt < A := by
            have := ho.1 k' hk'; omega
          have h0 : σ.1 ≠ A := by
            rcases hle with h0 | h0
            · omega
            · have := h0 k (by simp); omega
          rw [h']
          have e1 : (A == σ.1) = false := by simpa using Ne.symm h0
          have e2 : (A == k.alt) = false := by simpa using Ne.symm hk
          rw [e1, e2]
      · rw [hτ, h1, List.filter_append]
        have : new.filter (·.alt == A) = [] := by
          rw [List.filter_eq_nil_iff]
          intro d hd
          rw [(h2 d hd).1.alt, ← hg.alt]; simpa using hk
        rw [this, List.append_nil]

end

end Verif.Atn
