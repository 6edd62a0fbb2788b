import Verif.Proof.Lexer
/-!
# C04: tokenisation
-/

namespace Verif

/-- C04: the lexer succeeds exactly on the texts that have a tokenisation by
the maximal-munch rule, and then returns that (only) tokenisation. -/
theorem C04_maximal_munch (s : Str) (l : List (Tok × Bool)) :
    lexAllRaw s = some l ↔ Tokenises s l := lexAllRaw_iff s l

/-- C04: no character is lost or invented. -/
theorem C04_lossless (s : Str) (l : List (Tok × Bool)) (h : lexAllRaw s = some l) :
    l.flatMap (·.1.text) = s := ((lexAllRaw_iff s l).1 h).text

/-- C04: each token, at its place, is the maximal munch of what follows. -/
theorem C04_each_token (s : Str) (pre post : List (Tok × Bool)) (t : Tok) (hid : Bool)
    (h : lexAllRaw s = some (pre ++ (t, hid) :: post)) :
    IsNext (t.text ++ post.flatMap (·.1.text)) t hid (post.flatMap (·.1.text)) := by
  replace h := (lexAllRaw_iff _ _).1 h
  induction pre generalizing s with
  | nil =>
    cases h with
    | cons h₁ h₂ => rw [h₂.text, ← h₁.1]; exact h₁
  | cons p pre ih =>
    cases h with
    | cons h₁ h₂ => exact ih _ h₂

/-- A text with keywords, names, a string, a comment, and an SQL statement. -/
example : (lexAllRaw "action a($x) { select 1; b('q\\''); } // c".toList).map
    (·.map (fun p => (p.1.ty, String.ofList p.1.text, p.2))) =
    some [(.ACTION_, "action", false), (.WS, " ", true), (.IDENTIFIER, "a", false),
      (.L_PAREN, "(", false), (.PARAM_OR_VAR, "$x", false), (.R_PAREN, ")", false),
      (.WS, " ", true), (.L_BRACE, "{", false), (.WS, " ", true),
      (.SQL_STMT, "select 1", false), (.SCOL, ";", false), (.WS, " ", true),
      (.IDENTIFIER, "b", false), (.L_PAREN, "(", false), (.STRING_LITERAL, "'q\\''", false),
      (.R_PAREN, ")", false), (.SCOL, ";", false), (.WS, " ", true), (.R_BRACE, "}", false),
      (.WS, " ", true), (.LINE_COMMENT, "// c", true)] := by decide +kernel

end Verif
