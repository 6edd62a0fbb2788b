import Verif.Proof.LexSim
import Verif.Proof.Boundary
/-!
# Start configurations and block comments
-/

namespace Verif

set_option Elab.async false

open Atn

/-! ## Start -/

namespace Atn

variable {a : T} {N : Notes} {m z w : Nat} {S : Nat → Nat}

/-- Token rule number `i` starts at `S i`. -/
structure Starts (a : T) (N : Notes) (m w : Nat) (S : Nat → Nat) (G : Nat → Str → Prop) (p : Edge × Nat) : Prop where
  start : S p.2 = p.1.trg
  range : 0 < p.1.trg ∧ p.1.trg ≤ m
  rule : (a.st p.1.trg).rule = p.2
  lt : p.2 < w
  lang : ∀ y, LangL (N.X p.1.trg) y ↔ G p.2 y

theorem Starts.good {G : Nat → Str → Prop} {p : Edge × Nat} (h : Starts a N m w S G p) :
    Good a N m z p.2 (N.A (S p.2)) ⟨p.1.trg, p.2 + 1, [], [], false⟩ where
  alt := rfl
  range := h.range
  chain := trivial
  rule := h.rule
  acts := by rw [h.start]; rfl
  lazy hz := ⟨rfl, fun x hx => by
    simp only [List.mem_singleton] at hx
    rw [hx, h.rule]; exact hz⟩

theorem start_spec (hc : Checked a N m z) {G : Nat → Str → Prop}
    (h : ∀ p ∈ (a.out (a.modes.getD 0 0)).zipIdx, Starts a N m w S G p) :
    ∃ C, a.start = some C ∧ (∀ k ∈ C, Of a N m z w S G k) ∧
      ∀ p ∈ (a.out (a.modes.getD 0 0)).zipIdx, p.2 ≠ z → ∀ y, G p.2 y → ∃ k ∈ C, k.alt = p.2 + 1 ∧ LangL (k.rest N) y := by
  have total : ∃ C, a.start = some C := by
    refine foldlM_total (P := fun _ => True) trivial ?_
    intro acc p hp _
    have hg := (h p hp).good (z := z)
    obtain ⟨r, hr⟩ := closure_total hc (σ := (false, acc)) hg (hg.enough hc)
    exact ⟨r.2, by rw [hr]; rfl, trivial⟩
  obtain ⟨C, hC⟩ := total
  refine ⟨C, hC, ?_, ?_⟩
  · refine foldlM_inv (P := fun acc : List Config => ∀ k ∈ acc, Of a N m z w S G k) ?_ hC (by simp)
    intro s s' p hp hs hi d hd
    simp only [Option.map_eq_some_iff] at hs
    obtain ⟨r, hr, rfl⟩ := hs
    obtain ⟨new, h1, h2⟩ := closure_spec hc ((h p hp).good (z := z)) hr
    rw [h1] at hd
    rcases List.mem_append.1 hd with hd | hd
    · exact hi d hd
    · refine ⟨⟨p.2, (h p hp).lt, (h2 d hd).1, fun y hy => ?_⟩, (h2 d hd).2.1⟩
      have := (h2 d hd).2.2 y hy
      exact ((h p hp).lang y).1 (by simpa [Config.rest] using this)
  · intro p hp hz y hy
    refine foldlM_mem (Q := fun acc : List Config => ∃ k ∈ acc, k.alt = p.2 + 1 ∧ LangL (k.rest N) y) hp ?_ ?_ hC
    · rintro s s' p' hp' hs ⟨d, hd, hd'⟩
      simp only [Option.map_eq_some_iff] at hs
      obtain ⟨r, hr, rfl⟩ := hs
      obtain ⟨new, h1, h2⟩ := closure_spec hc ((h p' hp').good (z := z)) hr
      exact ⟨d, by rw [h1]; exact List.mem_append_left _ hd, hd'⟩
    · intro s s' hs
      simp only [Option.map_eq_some_iff] at hs
      obtain ⟨r, hr, rfl⟩ := hs
      exact closure_complete hc hz ((h p hp).good (z := z)) hr y (by
        simpa [Config.rest] using ((h p hp).lang y).2 hy)

end Atn

/-! ## Block comments -/

/-- How far a block comment has been read. -/
inductive BC where
  | start | slash | body | star | done | dead
  deriving DecidableEq, Repr

namespace BC

/-- The next character. -/
def next : BC → Char → BC
  | start, c => if c = '/' then slash else dead
  | slash, c => if c = '*' then body else dead
  | body, c => if c = '*' then star else body
  | star, c => if c = '*' then star else if c = '/' then done else body
  | _, _ => dead

/-- After reading a text. -/
def run (x : Str) : BC := x.foldl next start

theorem run_snoc (x : Str) (c : Char) : run (x ++ [c]) = next (run x) c := by simp [run]

theorem foldl_dead (x : Str) : x.foldl next dead = dead := by
  induction x with
  | nil => rfl
  | cons c x ih => exact ih

/-- What has been read. -/
def Read : BC → Str → Prop
  | start, x => x = []
  | slash, x => x = ['/']
  | body, x => ∃ b, x = ['/', '*'] ++ b
  | star, x => ∃ b, x = ['/', '*'] ++ b ++ ['*']
  | done, x => ∃ b, x = ['/', '*'] ++ b ++ ['*', '/']
  | dead, _ => True

theorem Read.next {q : BC} {x : Str} (h : Read q x) (c : Char) : Read (q.next c) (x ++ [c]) := by
  cases q with
  | start =>
    by_cases hc : c = '/'
    · subst hc; cases h; rfl
    · simp only [BC.next, hc, if_false]; trivial
  | slash =>
    by_cases hc : c = '*'
    · subst hc; cases h; exact ⟨[], rfl⟩
    · simp only [BC.next, hc, if_false]; trivial
  | body =>
    obtain ⟨b, rfl⟩ := h
    by_cases hc : c = '*'
    · subst hc; exact ⟨b, rfl⟩
    · simp only [BC.next, hc, if_false]; exact ⟨b ++ [c], by simp⟩
  | star =>
    obtain ⟨b, rfl⟩ := h
    by_cases hc : c = '*'
    · subst hc; exact ⟨b ++ ['*'], by simp⟩
    · by_cases hc' : c = '/'
      · subst hc'; exact ⟨b, by simp⟩
      · simp only [BC.next, hc, hc', if_false]; exact ⟨b ++ ['*', c], by simp⟩
  | done => trivial
  | dead => trivial

theorem read_foldl {q : BC} {x : Str} (h : Read q x) (y : Str) : Read (y.foldl next q) (x ++ y) := by
  induction y generalizing q x with
  | nil => simpa using h
  | cons c y ih => simpa using ih (h.next c)

theorem run_text (x : Str) : Read (run x) x := read_foldl (q := start) (x := []) rfl x

theorem reaches_done (b : Str) (q : BC) (hq : q = body ∨ q = star) :
    ∃ p, p <+: b ++ ['*', '/'] ∧ p.foldl next q = done := by
  induction b generalizing q with
  | nil =>
    refine ⟨['*', '/'], List.prefix_refl _, ?_⟩
    rcases hq with rfl | rfl <;> rfl
  | cons c b ih =>
    have : next q c = body ∨ next q c = star ∨ next q c = done := by
      rcases hq with rfl | rfl <;> simp only [next]
      · split <;> simp
      · split
        · simp
        · split <;> simp
    have cont : (next q c = body ∨ next q c = star) → ∃ p, p <+: c :: b ++ ['*', '/'] ∧ p.foldl next q = done := by
      intro h
      obtain ⟨p, h1, h2⟩ := ih _ h
      exact ⟨c :: p, by simpa [List.cons_prefix_cons] using h1, h2⟩
    rcases this with h | h | h
    · exact cont (.inl h)
    · exact cont (.inr h)
    · exact ⟨[c], by simp [List.cons_prefix_cons], h⟩

/-- A closed comment has no proper prefix that is one. -/
theorem run_done (x : Str) : run x = done ↔
    Lang Lx.blockComment x ∧ ∀ p, p <+: x → Lang Lx.blockComment p → p = x := by
  have sound : ∀ x, run x = done → Lang Lx.blockComment x := by
    intro x h
    have := run_text x
    rw [h] at this
    exact block_iff.2 this
  have complete : ∀ x, Lang Lx.blockComment x → ∃ p, p <+: x ∧ run p = done := by
    intro x h
    obtain ⟨b, rfl⟩ := block_iff.1 h
    obtain ⟨p, h1, h2⟩ := reaches_done b body (.inl rfl)
    exact ⟨['/', '*'] ++ p, by simpa [List.cons_prefix_cons] using h1, by rw [run, List.foldl_append]; exact h2⟩
  have once : ∀ p x, p <+: x → run p = done → run x = done → p = x := by
    rintro p _ ⟨s, rfl⟩ h1 h2
    cases s with
    | nil => simp
    | cons c s =>
      simp only [run, List.foldl_append] at h1 h2
      rw [h1] at h2
      simp only [List.foldl_cons, next] at h2
      rw [foldl_dead] at h2
      cases h2
  constructor
  · intro h
    refine ⟨sound x h, fun p hp hl => ?_⟩
    obtain ⟨q, hq, hd⟩ := complete p hl
    have := once q x (hq.trans hp) hd h
    subst this
    exact List.IsPrefix.eq_of_length_le hp hq.length_le
  · rintro ⟨h1, h2⟩
    obtain ⟨q, hq, hd⟩ := complete x h1
    rw [← h2 q hq (sound q hd)]; exact hd

/-- The configurations of the rule for block comments (alternative 83). -/
def configs : BC → List Config
  | start => [⟨572, 83, [], [], false⟩]
  | slash => [⟨573, 83, [], [], false⟩]
  | body => [⟨581, 83, [], [], true⟩, ⟨575, 83, [], [], true⟩]
  | star => [⟨582, 83, [], [], true⟩, ⟨581, 83, [], [], true⟩, ⟨575, 83, [], [], true⟩]
  | done => [⟨166, 83, [], [0], true⟩]
  | dead => []

def all : List BC := [start, slash, body, star, done, dead]

theorem mem_all (q : BC) : q ∈ all := by cases q <;> decide

/-- The transitions of these configurations. -/
theorem edges : (all.all fun q => q.configs.all fun k => (lexerAtn.out k.state).all fun e =>
    e.ty == 9 || (e.ty == 5 && (e.a1 == 47 || e.a1 == 42))) = true := by decide +kernel

theorem steps : (all.all fun q => ['/', '*', 'a'].all fun c =>
    lexerAtn.reach q.configs c == some (next q c).configs) = true := by decide +kernel

theorem stops : (all.all fun q => q.configs.all fun k =>
    !((lexerAtn.st k.state).ty == 7) || q == done) = true := by decide +kernel

theorem stop_done : (lexerAtn.st 166).ty = 7 := by decide +kernel

/-- The start configurations: in order, and those of the rule for block
comments. -/
theorem at_start : (lexerAtn.start.map fun C =>
    (decide ((C.map (·.alt)).Pairwise (· ≤ ·)), C.filter (·.alt == 83))) = some (true, start.configs) := by
  decide +kernel

end BC



namespace Atn

theorem foldlM_congr {α σ : Type} {f g : σ → α → Option σ} :
    ∀ {l : List α} {s : σ}, (∀ s, ∀ x ∈ l, f s x = g s x) → l.foldlM f s = l.foldlM g s
  | [], _, _ => rfl
  | x :: l, s, h => by
    simp only [List.foldlM_cons, h s x (by simp)]
    congr 1
    funext t
    exact foldlM_congr fun s y hy => h s y (by simp [hy])

theorem reach_congr {a : T} {ks : List Config} {c c' : Char}
    (h : ∀ k ∈ ks, ∀ e ∈ a.out k.state, a.matchesChar e c = a.matchesChar e c') : a.reach ks c = a.reach ks c' := by
  unfold T.reach
  congr 1
  refine foldlM_congr fun σ k hk => ?_
  unfold T.reachOne
  simp only
  split
  · rfl
  · exact foldlM_congr fun s e he => by rw [h k hk e he]

end Atn

namespace BC

theorem reach (q : BC) (c : Char) : lexerAtn.reach q.configs c = some (next q c).configs := by
  have rep : ∀ c ∈ ['/', '*', 'a'], lexerAtn.reach q.configs c = some (next q c).configs := by
    intro c hc
    have := steps
    rw [List.all_eq_true] at this
    have := this q (mem_all q)
    rw [List.all_eq_true] at this
    simpa using this c hc
  by_cases h1 : c = '/'
  · exact rep c (by simp [h1])
  by_cases h2 : c = '*'
  · exact rep c (by simp [h2])
  have hn : next q c = next q 'a' := by cases q <;> simp [next, h1, h2]
  rw [hn, ← rep 'a' (by simp)]
  refine Atn.reach_congr fun k hk e he => ?_
  have := edges
  rw [List.all_eq_true] at this
  have := this q (mem_all q)
  rw [List.all_eq_true] at this
  have := this k hk
  rw [List.all_eq_true] at this
  have := this e he
  simp only [Bool.or_eq_true, Bool.and_eq_true, beq_iff_eq] at this
  unfold T.matchesChar
  rcases this with h9 | ⟨h5, h⟩
  · simp [h9]
  · simp only [h5]
    have hc : ∀ d : Char, c ≠ d → c.toNat ≠ d.toNat := fun d hd h => hd (Char.toNat_inj.1 h)
    have e1 : (c.toNat == e.a1) = false := by
      rcases h with h | h <;> rw [h]
      · simpa using hc '/' h1
      · simpa using hc '*' h2
    have e2 : ('a'.toNat == e.a1) = false := by
      rcases h with h | h <;> rw [h] <;> rfl
    rw [e1, e2]

end BC

end Verif
