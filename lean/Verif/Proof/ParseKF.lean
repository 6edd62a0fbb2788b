import Verif.Model.ParseKF
import Verif.Spec.Source
import Verif.Proof.Clean
import Verif.Proof.Trace
import Verif.Proof.Validator
/-!
# ParseKF on texts of programs
-/

namespace Verif

theorem writes_iff {s : Str} {p : Program} : Writes s p ↔ lexAll s = some p.toks := by
  rw [lexAll_iff]
  exact Iff.rfl

/-- For evaluation by the kernel, which is slow at decoding literals. -/
theorem writes_lit {s : String} {p : Program} (l : List Char) (h : s = String.ofList l)
    (hl : lexAll l = some p.toks) : Writes s.toList p := by
  subst h
  rw [String.toList_ofList]
  exact writes_iff.2 hl

theorem Writes.lexemes {s : Str} {p : Program} (h : Writes s p) :
    ∀ t ∈ p.toks, Lexeme t false := lexAll_lexemes (writes_iff.1 h)

theorem Writes.tree {s : Str} {p : Program} (h : Writes s p) : syntaxTree s = some p.tree := by
  have hl := writes_iff.1 h
  unfold syntaxTree
  rw [hl]
  exact (parseTokens_program _ (lexAll_spelt hl) _).2 ⟨p, rfl, rfl⟩

theorem Writes.visit {s : Str} {p : Program} (h : Writes s p) :
    visitSource p.tree = match p.fault with
      | none => .ok p.denote
      | some e => .error (.err e) := visit_program p (program_clean p h.lexemes)

theorem syntaxTree_iff {s : Str} {tree : Tree} :
    syntaxTree s = some tree ↔ ∃ p, Writes s p ∧ tree = p.tree := by
  constructor
  · intro h
    unfold syntaxTree at h
    cases hl : lexAll s with
    | none => rw [hl] at h; simp at h
    | some ts =>
      rw [hl] at h
      obtain ⟨p, rfl, rfl⟩ := (parseTokens_program ts (lexAll_spelt hl) tree).1 h
      exact ⟨p, writes_iff.2 hl, rfl⟩
  · rintro ⟨p, hp, rfl⟩
    exact hp.tree

/-- A text is syntactically correct iff it writes a program. -/
theorem syntaxTree_none {s : Str} : syntaxTree s = none ↔ ¬ ∃ p, Writes s p := by
  constructor
  · rintro h ⟨p, hp⟩
    rw [hp.tree] at h
    simp at h
  · intro h
    cases ht : syntaxTree s with
    | none => rfl
    | some t =>
      obtain ⟨p, hp, _⟩ := syntaxTree_iff.1 ht
      exact absurd ⟨p, hp⟩ h

theorem syntaxErrors_nil {w : World} {s : Str} : syntaxErrors w s = [] ↔ ∃ p, Writes s p := by
  unfold syntaxErrors
  cases ht : syntaxTree s with
  | none =>
    simp only [List.map_cons, reduceCtorEq, false_iff]
    exact syntaxTree_none.1 ht
  | some t =>
    obtain ⟨p, hp, _⟩ := syntaxTree_iff.1 ht
    exact ⟨fun _ => ⟨p, hp⟩, fun _ => rfl⟩

/-- Sentences of the grammar and programs. -/
theorem sentence_iff {s : Str} {l : List (Tok × Bool)} (h : Tokenises s l) :
    Sentence (visible l) ↔ ∃ p : Program, visible l = p.toks := by
  unfold Sentence
  constructor
  · rintro ⟨tree, ht⟩
    obtain ⟨p, hp, _⟩ := (parseTokens_program _ h.spelt tree).1 ((parseTokens_iff _ _).2 ht)
    exact ⟨p, hp⟩
  · rintro ⟨p, hp⟩
    rw [hp]
    exact ⟨p.tree, p.gen⟩

theorem writes_of_sentence {s : Str} :
    (∃ p, Writes s p) ↔ ∃ l, Tokenises s l ∧ Sentence (visible l) := by
  constructor
  · rintro ⟨p, l, hl, hv⟩
    exact ⟨l, hl, (sentence_iff hl).2 ⟨p, hv⟩⟩
  · rintro ⟨l, hl, hs⟩
    obtain ⟨p, hp⟩ := (sentence_iff hl).1 hs
    exact ⟨p, l, hl, hp⟩

/-- One text, one meaning. -/
theorem Writes.unique {s : Str} {p q : Program} (hp : Writes s p) (hq : Writes s q) :
    p.toks = q.toks ∧ p.tree = q.tree ∧ p.fault = q.fault ∧ (p.fault = none → p.denote = q.denote) := by
  have hts : p.toks = q.toks := by
    have h₁ := writes_iff.1 hp
    have h₂ := writes_iff.1 hq
    rw [h₁] at h₂
    simpa using h₂
  have ht : p.tree = q.tree := by
    have h₁ := hp.tree
    rw [hq.tree] at h₁
    simpa using h₁.symm
  have hv := hp.visit
  rw [ht, hq.visit] at hv
  refine ⟨hts, ht, ?_, ?_⟩
  · cases h₁ : p.fault <;> cases h₂ : q.fault <;> simp_all
  · intro h₁
    rw [h₁] at hv
    cases h₂ : q.fault with
    | none => rw [h₂] at hv; simpa using hv.symm
    | some e => rw [h₂] at hv; simp at hv

/-- The lines printed about the declarations in a mode. -/
def Program.traceIn (p : Program) (mode : Nat) : List Str :=
  if mode &&& modeTrace != 0 then p.visits else []

/-- What `ParseKF` does with a text of a program. -/
theorem Writes.parseKF {s : Str} {p : Program} (h : Writes s p) (w : World)
    (l : Option ErrorList) (mode : Nat) :
    parseKF w s l mode =
      if (l.getD []).isErr then finish mode none (l.getD []) (some .self) []
      else
        match p.fault with
        | some e => finish mode none [] (some (.real e)) (p.traceIn mode)
        | none =>
          match validate w.toEnv p.denote with
          | some (.err e) => finish mode (some p.denote) [] (some (.real e)) (p.traceIn mode)
          | some (.panic q) =>
              finish mode (some p.denote) [] (some (.real q.toErr)) (p.traceIn mode)
          | none => finish mode (some p.denote) [] none (p.traceIn mode) := by
  unfold Verif.parseKF
  have hs : syntaxErrors w s = [] := syntaxErrors_nil.2 ⟨p, h⟩
  have ht : (tVisitSource (mode &&& modeTrace != 0) p.tree).out = p.traceIn mode := by
    unfold Program.traceIn
    cases mode &&& modeTrace != 0 with
    | true => exact traced_program p (program_clean p h.lexemes)
    | false => exact untraced _
  simp only [hs, h.tree, h.visit, traced_result, ht, List.map_nil, List.append_nil]
  by_cases he : (l.getD []).isErr = true
  · simp [he]
  · have hn : l.getD [] = [] := by
      cases hl : l.getD [] with
      | nil => rfl
      | cons a b => rw [hl] at he; simp [ErrorList.isErr] at he
    rw [if_neg he, if_neg he, hn]
    cases p.fault with
    | some e => rfl
    | none => rfl

/-- What `ParseKF` does with other texts. -/
theorem parseKF_bad {s : Str} (h : ¬ ∃ p, Writes s p) (w : World) (l : Option ErrorList)
    (mode : Nat) :
    parseKF w s l mode =
      finish mode none
        (l.getD [] ++ ((w.report s).1 :: (w.report s).2).map (fun r => .real (syntaxErr r)))
        (some (match w.crash s with | some p => .real p.toErr | none => .self)) [] := by
  unfold Verif.parseKF
  have ht := syntaxTree_none.2 h
  have hs : syntaxErrors w s = ((w.report s).1 :: (w.report s).2).map syntaxErr := by
    unfold syntaxErrors; rw [ht]
  simp only [ht, hs, List.map_map]
  cases w.crash s <;> rfl

@[simp] theorem finish_result (m r l e t) : (finish m r l e t).result = r := rfl
@[simp] theorem finish_errors (m r l e t) : (finish m r l e t).errors = l ++ e.toList := rfl

end Verif
