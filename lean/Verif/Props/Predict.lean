import Verif.Props.Generated
import Verif.Props.LexTables
import Verif.Proof.PredictStar
import Verif.Proof.GoLocal
/-!
# Theorems about prediction on the parser tables (C67)
-/

namespace Verif

/-- C67. Every prediction that the generated code asks for is answered after at
most two tokens (in the first stage of ALL(*), without a conflict; `passed`
tells when it needs the second one), and the answer is the one in the table
`byTwo`. -/
theorem C67_two_tokens (d : Nat) (hd : d ∈ asked) (p : Nat) (ts : List Tok) :
    parserAtn.adaptivePredict d p ts = some (byTwo d p (la ts) (la ts.tail), passed d (la ts)) :=
  adaptivePredict_eq hd p ts

/-- C67. The answer is the first alternative that can consume the remaining
tokens, if there is one, whatever rules have been called (although the calls
are not looked at). -/
theorem C67_first_viable (d : Nat) (hd : d ∈ asked) (p : Nat) (ctx : List Nat) (ts : List Tok)
    (i : Nat) (hc : parserAtn.Chain (parserAtn.ruleOf d) ctx) (hv : Viable d p ctx ts i)
    (hmin : ∀ j, Viable d p ctx ts j → i ≤ j) :
    (parserAtn.adaptivePredict d p ts).map (·.1) = some i := by
  rw [adaptivePredict_eq hd, first_viable hd hc hv hmin, Option.map_some]

/-- C67. The generated code with prediction on the tables returns the parse
tree of a sentence, and reports an error on everything else. -/
theorem C67_tables_parser (s : Str) (toks : List (Tok × Bool)) (ht : Tokenises s toks) (n : Nat)
    (hn : 30 * ((visible toks).length + 2) ≤ n) :
    (∀ tree, Gen (.call .source_unit 0) (visible toks ++ [Tok.eof]) [tree] →
      execSource simRuntime n (visible toks) = .ok [tree] []) ∧
    (¬ Sentence (visible toks) → ∃ bad, execSource simRuntime n (visible toks) = .err bad) :=
  exec_exact sim_inRange sim_right (tokenises_ne_eof ht) hn

/-- C67. The syntax stage as it is shipped, lexer tables, generated code and
parser tables, gives the parse trees that all other theorems are about. -/
theorem C67_front_end (s : Str) : tableTree s = syntaxTree s := by
  unfold tableTree syntaxTree lexAll
  rw [tableRaw_eq]
  cases hl : lexAllRaw s with
  | none => rfl
  | some l =>
    have := exec_model sim_inRange sim_right ((lexAllRaw_iff s l).1 hl) (Nat.le_refl _)
    simp only [Option.map_some, Option.bind_some]
    unfold visible at this
    cases hp : parseTokens ((l.filter (fun p => !p.2)).map (·.1)) with
    | some tree => rw [this.1 tree hp]
    | none =>
      obtain ⟨bad, hb⟩ := this.2 hp
      rw [hb]

/-- C67. So a text has a parse tree exactly if its tokens are a sentence. -/
theorem C67_front_end_exact (s : Str) (tree : Tree) :
    tableTree s = some tree ↔ ∃ toks, Tokenises s toks ∧
      Gen (.call .source_unit 0) (visible toks ++ [Tok.eof]) [tree] := by
  rw [C67_front_end]
  unfold syntaxTree lexAll
  constructor
  · intro h
    cases hl : lexAllRaw s with
    | none => rw [hl] at h; cases h
    | some l =>
      rw [hl] at h
      exact ⟨l, (lexAllRaw_iff s l).1 hl, (parseTokens_iff _ _).1 h⟩
  · rintro ⟨l, hl, hg⟩
    rw [(lexAllRaw_iff s l).2 hl]
    exact (parseTokens_iff _ _).2 hg

/-- Tokens of the given types, for examples. -/
def tokensOf (l : List TT) : List Tok := l.map fun t => ⟨t, []⟩

/-- After a column: another column, an index, the end of the table, and the
same two tokens further on do not matter. -/
example : parserAtn.adaptivePredict 10 0 (tokensOf [.COMMA, .IDENTIFIER, .COMMA]) = some (1, 1) ∧
    parserAtn.adaptivePredict 10 0 (tokensOf [.COMMA, .INDEX_NAME]) = some (2, 1) ∧
    parserAtn.adaptivePredict 7 0 (tokensOf [.COMMA, .INDEX_NAME]) = some (1, 1) ∧
    parserAtn.adaptivePredict 7 0 (tokensOf [.COMMA, .R_BRACE]) = some (2, 1) ∧
    parserAtn.adaptivePredict 31 9 (tokensOf [.PLUS, .PARAM_OR_VAR]) = some (2, 0) ∧
    parserAtn.adaptivePredict 31 8 (tokensOf [.PLUS, .PARAM_OR_VAR]) = some (1, 0) := by
  refine ⟨?_, ?_, ?_, ?_, ?_, ?_⟩ <;> rw [C67_two_tokens _ (by decide)] <;> rfl

theorem viable_walk {d p i n : Nat} {ctx : List Nat} {ts : List Tok} (h0 : 0 < i)
    (h : ((parserAtn.choices d)[i - 1]?).any (fun e => walk n (some p) e.trg ctx ts) = true) :
    Viable d p ctx ts i := by
  rw [Option.any_eq_true] at h
  obtain ⟨e, he, h⟩ := h
  exact ⟨e, h0, he, walk_path _ _ _ _ _ h⟩

/-- A step of a chain of calls, for the example below. -/
theorem chain_step {i : Nat} {ctx : List Nat} {r q : Nat} (h : parserAtn.Chain q ctx)
    (hc : ((parserAtn.ruleEdge i).map (·.a2) == some r && (parserAtn.st i).rule == q) = true) :
    parserAtn.Chain r (i :: ctx) := by
  simp only [Bool.and_eq_true, beq_iff_eq, Option.map_eq_some_iff] at hc
  obtain ⟨⟨e, he, rfl⟩, rfl⟩ := hc
  exact .call he h

/-- Non-vacuity of `C67_first_viable`: after a column of a table, called from
the start rule (states 110 and 167), before the end of the table and of the
text. -/
example : parserAtn.Chain (parserAtn.ruleOf 10) [167, 110] ∧
    Viable 10 0 [167, 110] (tokensOf [.R_BRACE, .EOF]) 2 := by
  constructor
  · have h : parserAtn.Chain 10 [167, 110] :=
      chain_step (q := 8) (chain_step (q := 0) .start (by decide +kernel)) (by decide +kernel)
    rw [rules_asked.1]; exact h
  · exact viable_walk (n := 30) (by omega) (by decide +kernel)

/-- Non-vacuity: the sample text has a tree. -/
example : ∃ tree, tableTree Sample.text = some tree := by
  obtain ⟨toks, ht, tree, hg⟩ := writes_of_sentence.1 ⟨_, Sample.writes⟩
  exact ⟨tree, (C67_front_end_exact _ _).2 ⟨toks, ht, hg⟩⟩

end Verif
