import Verif.Proof.LexRest
/-!
# The lexer ATN passes the checks
-/

namespace Verif

set_option Elab.async false

open Atn

/-- The annotations of the lexer ATN. -/
def lexNotes : Notes where
  X s := (lexerAtn.restL 60 1000000 s).getD []
  D s := lexerAtn.rank 20 s
  A s := lexerAtn.actsFrom 30 s
  L s :=
    let r := (lexerAtn.st s).rule
    if r == 77 || r == 79 then 2 else if r == 73 || r == 74 || r == 75 || r == 76 || r == 78 || r == 87 then 1 else 0

/-- The states from `a` on pass (checked in parts, to keep memory low). -/
def okLexRange (a n : Nat) : Bool := (List.range' a n).all fun s => lexerAtn.okLex lexNotes 614 82 s

theorem lex_ok0 : okLexRange 1 28 = true := by decide +kernel
theorem lex_ok1 : okLexRange 29 28 = true := by decide +kernel
theorem lex_ok2 : okLexRange 57 28 = true := by decide +kernel
theorem lex_ok3 : okLexRange 85 28 = true := by decide +kernel
theorem lex_ok4 : okLexRange 113 28 = true := by decide +kernel
theorem lex_ok5 : okLexRange 141 28 = true := by decide +kernel
theorem lex_ok6 : okLexRange 169 28 = true := by decide +kernel
theorem lex_ok7 : okLexRange 197 28 = true := by decide +kernel
theorem lex_ok8 : okLexRange 225 28 = true := by decide +kernel
theorem lex_ok9 : okLexRange 253 28 = true := by decide +kernel
theorem lex_ok10 : okLexRange 281 28 = true := by decide +kernel
theorem lex_ok11 : okLexRange 309 28 = true := by decide +kernel
theorem lex_ok12 : okLexRange 337 28 = true := by decide +kernel
theorem lex_ok13 : okLexRange 365 28 = true := by decide +kernel
theorem lex_ok14 : okLexRange 393 28 = true := by decide +kernel
theorem lex_ok15 : okLexRange 421 28 = true := by decide +kernel
theorem lex_ok16 : okLexRange 449 28 = true := by decide +kernel
theorem lex_ok17 : okLexRange 477 28 = true := by decide +kernel
theorem lex_ok18 : okLexRange 505 28 = true := by decide +kernel
theorem lex_ok19 : okLexRange 533 28 = true := by decide +kernel
theorem lex_ok20 : okLexRange 561 28 = true := by decide +kernel
theorem lex_ok21 : okLexRange 589 26 = true := by decide +kernel

/-- All states pass. -/
theorem lex_ok (s : Nat) (h0 : 0 < s) (h : s ≤ 614) : lexerAtn.okLex lexNotes 614 82 s = true := by
  have part : ∀ a n, okLexRange a n = true → a ≤ s → s < a + n → lexerAtn.okLex lexNotes 614 82 s = true := by
    intro a n hr h1 h2
    unfold okLexRange at hr
    rw [List.all_eq_true] at hr
    exact hr s (List.mem_range'_1.2 ⟨h1, h2⟩)
  by_cases h1 : s < 29
  · exact part _ _ lex_ok0 (by omega) (by omega)
  by_cases h2 : s < 57
  · exact part _ _ lex_ok1 (by omega) (by omega)
  by_cases h3 : s < 85
  · exact part _ _ lex_ok2 (by omega) (by omega)
  by_cases h4 : s < 113
  · exact part _ _ lex_ok3 (by omega) (by omega)
  by_cases h5 : s < 141
  · exact part _ _ lex_ok4 (by omega) (by omega)
  by_cases h6 : s < 169
  · exact part _ _ lex_ok5 (by omega) (by omega)
  by_cases h7 : s < 197
  · exact part _ _ lex_ok6 (by omega) (by omega)
  by_cases h8 : s < 225
  · exact part _ _ lex_ok7 (by omega) (by omega)
  by_cases h9 : s < 253
  · exact part _ _ lex_ok8 (by omega) (by omega)
  by_cases h10 : s < 281
  · exact part _ _ lex_ok9 (by omega) (by omega)
  by_cases h11 : s < 309
  · exact part _ _ lex_ok10 (by omega) (by omega)
  by_cases h12 : s < 337
  · exact part _ _ lex_ok11 (by omega) (by omega)
  by_cases h13 : s < 365
  · exact part _ _ lex_ok12 (by omega) (by omega)
  by_cases h14 : s < 393
  · exact part _ _ lex_ok13 (by omega) (by omega)
  by_cases h15 : s < 421
  · exact part _ _ lex_ok14 (by omega) (by omega)
  by_cases h16 : s < 449
  · exact part _ _ lex_ok15 (by omega) (by omega)
  by_cases h17 : s < 477
  · exact part _ _ lex_ok16 (by omega) (by omega)
  by_cases h18 : s < 505
  · exact part _ _ lex_ok17 (by omega) (by omega)
  by_cases h19 : s < 533
  · exact part _ _ lex_ok18 (by omega) (by omega)
  by_cases h20 : s < 561
  · exact part _ _ lex_ok19 (by omega) (by omega)
  by_cases h21 : s < 589
  · exact part _ _ lex_ok20 (by omega) (by omega)
  by_cases h22 : s < 615
  · exact part _ _ lex_ok21 (by omega) (by omega)
  omega

theorem lex_shape {s : Nat} (h0 : 0 < s) (h : s ≤ 614) : LShape lexerAtn lexNotes 614 82 s := (okLex_spec (lex_ok s h0 h)).1
theorem lex_D {s : Nat} (h0 : 0 < s) (h : s ≤ 614) : lexNotes.D s ≤ 20 := (okLex_spec (lex_ok s h0 h)).2.1
theorem lex_L {s : Nat} (h0 : 0 < s) (h : s ≤ 614) : lexNotes.L s ≤ 3 := (okLex_spec (lex_ok s h0 h)).2.2

/-- The only non-greedy loop is in rule 82. -/
theorem lex_lazy : lexerAtn.nonGreedy.all (fun s => (lexerAtn.st s).rule == 82) = true := by decide +kernel

/-- The token rules, in order. -/
def tokenStarts : List Edge := lexerAtn.out (lexerAtn.modes.getD 0 0)

/-- Start state number `i` belongs to rule `i`, which has the expression, the
token type and the channel of rule `i` in the table. -/
def okStart (p : (LexRule × Edge) × Nat) : Bool :=
  p.1.2.ty == 1 && decide (0 < p.1.2.trg ∧ p.1.2.trg ≤ 614) && (lexerAtn.st p.1.2.trg).rule == p.2 &&
  lexNotes.X p.1.2.trg == p.1.1.re.flat &&
  TT.all[(lexerAtn.rules.getD p.2 default).2]? == some p.1.1.ty &&
  (lexerAtn.channel (lexNotes.A p.1.2.trg) != 0) == p.1.1.hidden &&
  p.1.1.lazy == (p.2 == 82)

/-- The token rules from `a` on pass. -/
def okStarts (a n : Nat) : Bool := (((lexRules.zip tokenStarts).zipIdx.drop a).take n).all okStart

theorem starts_ok0 : okStarts 0 12 = true := by decide +kernel
theorem starts_ok1 : okStarts 12 12 = true := by decide +kernel
theorem starts_ok2 : okStarts 24 12 = true := by decide +kernel
theorem starts_ok3 : okStarts 36 12 = true := by decide +kernel
theorem starts_ok4 : okStarts 48 12 = true := by decide +kernel
theorem starts_ok5 : okStarts 60 12 = true := by decide +kernel
theorem starts_ok6 : okStarts 72 12 = true := by decide +kernel

theorem okStarts_append (a n m : Nat) (h1 : okStarts a n = true) (h2 : okStarts (a + n) m = true) :
    okStarts a (n + m) = true := by
  unfold okStarts at *
  rw [List.take_add, List.all_append, h1, List.drop_drop, Bool.true_and]
  exact h2

theorem starts_length : tokenStarts.length = 84 ∧ lexRules.length = 84 := by decide +kernel

theorem starts_ok : (lexRules.zip tokenStarts).zipIdx.all okStart = true := by
  have h : okStarts 0 84 = true :=
    okStarts_append _ 12 72 starts_ok0 (okStarts_append _ 12 60 starts_ok1 (okStarts_append _ 12 48 starts_ok2 (okStarts_append _ 12 36 starts_ok3 (okStarts_append _ 12 24 starts_ok4 (okStarts_append _ 12 12 starts_ok5 (starts_ok6))))))
  unfold okStarts at h
  rw [List.drop_zero, List.take_of_length_le (by simp [starts_length])] at h
  exact h

end Verif
