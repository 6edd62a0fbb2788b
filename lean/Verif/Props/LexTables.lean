import Verif.Proof.LexRun
/-!
# C66: the lexer tables
-/

namespace Verif

/-- C66: ANTLR's lexer simulation on the tables of the generated lexer finds a
token exactly if there is one by the maximal-munch rule, and finds that one:
its type, text, channel and what is left of the input. -/
theorem C66_next_token (s : Str) (t : Tok) (hidden : Bool) (rest : Str) :
    tableOne s = some (t, hidden, rest) ↔ IsNext s t hidden rest := tableOne_iff s t hidden rest

/-- C66: the same for whole texts. -/
theorem C66_all_tokens (s : Str) (l : List (Tok × Bool)) : tableRaw s = some l ↔ Tokenises s l := by
  rw [tableRaw_eq]; exact lexAllRaw_iff s l

/-- C66: the lexer in all other theorems computes what the tables give. -/
theorem C66_model_lexer (s : Str) : tableRaw s = lexAllRaw s := tableRaw_eq s

/-- C66: the simulation comes to an end on every text (`none` would mean that
the recursion of `closure` is deeper than `depth`). -/
theorem C66_terminates (s : Str) : lexerAtn.matchToken s ≠ none := by
  obtain ⟨r, h, _⟩ := matchToken_spec s
  rw [h]; simp

/-- A block comment ends at the first `*/`. -/
example : (tableRaw "/* a **/ b*/".toList).map (·.map (fun p => (p.1.ty, String.ofList p.1.text, p.2))) =
    some [(.BLOCK_COMMENT, "/* a **/", true), (.WS, " ", true), (.IDENTIFIER, "b", false), (.STAR, "*", false),
      (.DIV, "/", false)] := by
  rw [tableRaw_eq]; decide +kernel

/-- Keywords, longest match, and a text without tokens. -/
example : (tableOne "tables x".toList).map (fun p => (p.1.ty, String.ofList p.1.text)) = some (.IDENTIFIER, "tables") ∧
    (tableOne "table x".toList).map (fun p => (p.1.ty, String.ofList p.1.text)) = some (.TABLE_, "table") ∧
    tableOne "'a".toList = none := by
  simp only [tableOne_eq]; decide +kernel

end Verif
