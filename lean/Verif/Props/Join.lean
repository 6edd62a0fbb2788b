import Verif.Proof.Join
import Verif.Props.Edit
/-!
# C78: two files in one
-/

namespace Verif

/-- C78. A file followed by another one without its first line says what both
say. -/
theorem C78_text (s h t sep : Str) (p q : Program) (hp : Writes s p) (hq : Writes (h ++ t) q)
    (hh : Header h t q.name) (hpq : p.decls = [] ∨ q.exts = []) (hl : NoOpenComment s)
    (hs : Layout sep) (hne : sep ≠ []) : Writes (s ++ sep ++ t) (p.join q) := by
  obtain ⟨lh, lt, ht, htx, hv⟩ := hh
  cases sep with
  | nil => exact absurd rfl hne
  | cons c sep =>
  have h₃ := tokenises_drop ht
  have hall := ht.text
  rw [List.flatMap_append, htx] at hall
  rw [List.append_cancel_left hall] at h₃
  obtain ⟨l, hl, hvl⟩ := tokenises_join hp hl hs h₃
  refine ⟨l, hl, hvl.trans ?_⟩
  have hq' : visible (lh ++ lt) = q.toks := by
    obtain ⟨l', ht', hv'⟩ := hq
    have h1 := (lexAll_iff _ _).2 ⟨_, ht, rfl⟩
    have h2 := (lexAll_iff _ _).2 ⟨_, ht', rfl⟩
    rw [h1] at h2
    injection h2 with h2
    rw [h2, hv']
  have hlt : visible lt = q.exts.flatMap ExtDecl.toks ++ q.decls.flatMap Decl.toks := by
    rw [visible_append, hv] at hq'
    have : q.toks = Program.toks ⟨q.name, [], []⟩ ++
        (q.exts.flatMap ExtDecl.toks ++ q.decls.flatMap Decl.toks) := by simp [Program.toks]
    rw [this] at hq'
    exact List.append_cancel_left hq'
  rw [hlt]
  rcases hpq with h0 | h0 <;> simp [Program.join, Program.toks, h0]

/-- C78. Its schema has the tables, actions and extensions of both. -/
theorem C78_schema (p q : Program) :
    (p.join q).denote.name = p.denote.name ∧
    (p.join q).denote.tables.elems = p.denote.tables.elems ++ q.denote.tables.elems ∧
    (p.join q).denote.extensions.elems = p.denote.extensions.elems ++ q.denote.extensions.elems ∧
    (p.join q).denote.actions.elems.Perm (p.denote.actions.elems ++ q.denote.actions.elems) := by
  refine ⟨rfl, ?_, ?_, ?_⟩
  · simp [Program.denote_tables, Program.join_tables]
  · simp [Program.denote_exts, Program.join]
  · rw [Program.denote_actions, Program.denote_actions, Program.denote_actions, Program.join_actions,
      Program.join_inits, List.map_append, List.map_append]
    generalize p.actions.map ActionDecl.denote = a
    generalize q.actions.map ActionDecl.denote = b
    generalize p.inits.map initAction = c
    generalize q.inits.map initAction = d
    rw [List.append_assoc, List.append_assoc]
    refine List.Perm.append_left a ?_
    rw [← List.append_assoc, ← List.append_assoc]
    exact List.Perm.append_right d List.perm_append_comm

/-- C78. If both files are accepted, the joined one is accepted exactly if no
name is declared in both; nothing else can go wrong. -/
theorem C78_accepted (w : World) (s t u : Str) (p q : Program) (hs : Writes s p) (ht : Writes t q)
    (hu : Writes u (p.join q)) (ha : Accepts w s p.denote) (hb : Accepts w t q.denote) :
    Accepts w u (p.join q).denote ↔ Apart p.denote q.denote := by
  obtain ⟨p', hp', hf, he, hv⟩ := accepts_iff.1 ha
  have hf : p.fault = none := (hs.unique hp').2.2.1.trans hf
  obtain ⟨q', hq', hg, hd, hw⟩ := accepts_iff.1 hb
  have hg : q.fault = none := (ht.unique hq').2.2.1.trans hg
  obtain ⟨_, h1, h2, h3⟩ := C78_schema p q
  have key := valid_join w.toEnv (s := (p.join q).denote) (by rw [h1]) h3
    (by rw [h2]) hv hw
  constructor
  · intro h'
    obtain ⟨r, hr, hrf, _, hv'⟩ := accepts_iff.1 h'
    exact key.1 hv'
  · intro h'
    refine accepts_iff.2 ⟨_, hu, ?_, rfl, key.2 h'⟩
    rw [fault_none_iff] at hf hg ⊢
    refine ⟨?_, ?_⟩
    · rw [Program.join_inits, List.length_append]
      rcases Nat.lt_or_ge (p.inits.length + q.inits.length) 2 with h | h
      · omega
      · exfalso
        have init : ∀ p : Program, 1 ≤ p.inits.length → "init".toList ∈ p.denote.actionNames := by
          intro p hp
          unfold Schema.actionNames
          rw [p.denote_actions]
          cases hi : p.inits with
          | nil => simp [hi] at hp
          | cons a l => simp [initAction]
        exact h'.actions _ (init p (by omega)) (init q (by omega))
    · rw [Program.join_actions]
      intro a ha
      rcases List.mem_append.1 ha with ha | ha
      · exact hf.2 a ha
      · exact hg.2 a ha

/-! ## Cases -/

namespace Sample.Joined

/-- Two files, and their programs. -/
def first : Str := "database d;\ntable t { id int } // a comment\n".toList
def secondHead : Str := "database e;".toList
def secondRest : Str := "\ninit() { select 1; }".toList
def firstProg : Program :=
  ⟨"d".toList, [], [.table ⟨"t".toList, ⟨⟨"id".toList, .int, []⟩, []⟩, [], false⟩]⟩
def secondProg : Program := ⟨"e".toList, [], [.init ⟨.sql "select 1".toList, []⟩]⟩

theorem first_writes : Writes first firstProg := writes_lit _ rfl (by decide +kernel)

theorem second_writes : Writes (secondHead ++ secondRest) secondProg :=
  writes_iff.2 (by decide +kernel)

def secondToks : List (Tok × Bool) := (lexAllRaw (secondHead ++ secondRest)).getD []

theorem second_header : Header secondHead secondRest "e".toList := by
  refine ⟨secondToks.take 4, secondToks.drop 4, ?_, ?_, ?_⟩
  · rw [List.take_append_drop, ← lexAllRaw_iff]; decide +kernel
  all_goals decide +kernel

theorem first_comment : NoOpenComment first := by
  have h : first.getLast? = some '\n' := by decide +kernel
  intro x c hc
  rw [hc] at h
  cases c with
  | nil => rw [List.append_nil, List.getLast?_append] at h; simp at h
  | cons d c =>
    rw [List.getLast?_append] at h
    cases hl : (d :: c).getLast? with
    | none => simp at hl
    | some z =>
      rw [hl] at h
      simp only [Option.some_or, Option.some.injEq] at h
      subst h
      exact List.mem_of_getLast? hl

end Sample.Joined

example : Writes "database d;\ntable t { id int } // a comment\n\n\ninit() { select 1; }".toList
    (Sample.Joined.firstProg.join Sample.Joined.secondProg) := by
  have := C78_text Sample.Joined.first Sample.Joined.secondHead Sample.Joined.secondRest "\n".toList _ _ Sample.Joined.first_writes
    Sample.Joined.second_writes Sample.Joined.second_header (.inr rfl) Sample.Joined.first_comment (.blank (by decide) .nil) (by decide)
  have h : Sample.Joined.first ++ "\n".toList ++ Sample.Joined.secondRest =
      "database d;\ntable t { id int } // a comment\n\n\ninit() { select 1; }".toList := by decide +kernel
  rwa [h] at this

example : Apart Sample.Joined.firstProg.denote Sample.Joined.secondProg.denote :=
  ⟨by decide +kernel, by decide +kernel, by decide +kernel⟩

/-- Joined to itself, a file with a table is not accepted. -/
example : ¬ Apart Sample.Joined.firstProg.denote Sample.Joined.firstProg.denote := fun h =>
  h.tables "t".toList (by decide +kernel) (by decide +kernel)

end Verif
