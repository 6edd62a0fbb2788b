import Verif.Proof.Layout
import Verif.Proof.ProgTree
/-!
# Tokens of the lexer are correctly spelt
-/

namespace Verif

/-- The expressions of the rules, by token type. -/
theorem rules_forms : ∀ r ∈ lexRules,
    (r.ty.fixed = none ∨ r.re = Lx.lit (r.ty.fixed.getD [])) ∧
    (r.ty = .IDENTIFIER → r.re = Lx.ident) ∧
    (r.ty = .INDEX_NAME → r.re = .seq (Lx.ch '#') Lx.ident) ∧
    (r.ty = .PARAM_OR_VAR → r.re = .seq (Lx.ch '$') Lx.ident) ∧
    (r.ty = .BLOCK_VAR_OR_ANNOTATION → r.re = .seq (Lx.ch '@') Lx.ident) ∧
    (r.ty = .UNSIGNED_NUMBER_LITERAL → r.re = Lx.plus Lx.digit) ∧
    (r.ty = .STRING_LITERAL → r.re = Lx.string) ∧
    (r.ty = .SQL_STMT → r.re = Lx.sqlStmt) := by
  decide +kernel

theorem lang_prefix {c : Char} {r : RE} {x : Str} :
    Lang (.seq (Lx.ch c) r) x ↔ ∃ y, x = c :: y ∧ Lang r y := by
  rw [lang_seq]
  constructor
  · rintro ⟨a, b, rfl, ha, hb⟩
    rw [lang_ch] at ha
    subst ha
    exact ⟨b, rfl, hb⟩
  · rintro ⟨y, rfl, hy⟩
    exact ⟨[c], y, rfl, lang_ch.2 rfl, hy⟩

/-- What the text of a token looks like, by type. -/
theorem IsNext.form {s t h rest} (hn : IsNext s t h rest) :
    (∀ w, t.ty.fixed = some w → t.text = w) ∧
    (t.ty = .IDENTIFIER → Lang Lx.ident t.text) ∧
    (t.ty = .INDEX_NAME → ∃ y, t.text = '#' :: y ∧ Lang Lx.ident y) ∧
    (t.ty = .PARAM_OR_VAR → ∃ y, t.text = '$' :: y ∧ Lang Lx.ident y) ∧
    (t.ty = .BLOCK_VAR_OR_ANNOTATION → ∃ y, t.text = '@' :: y ∧ Lang Lx.ident y) ∧
    (t.ty = .UNSIGNED_NUMBER_LITERAL → Lang (Lx.plus Lx.digit) t.text) ∧
    (t.ty = .STRING_LITERAL → Lang Lx.string t.text) ∧
    (t.ty = .SQL_STMT → Lang Lx.sqlStmt t.text) := by
  obtain ⟨r, hr, hty, _, _, hl, _⟩ := hn.rule
  have hf := rules_forms r hr
  rw [hty] at hf
  refine ⟨?_, ?_, ?_, ?_, ?_, ?_, ?_, ?_⟩
  · intro w hw
    rw [hw] at hf
    rw [hf.1.resolve_left (by simp)] at hl
    exact lang_lit.1 hl
  · intro h; rw [← hf.2.1 h]; exact hl
  · intro h; rw [hf.2.2.1 h] at hl; exact lang_prefix.1 hl
  · intro h; rw [hf.2.2.2.1 h] at hl; exact lang_prefix.1 hl
  · intro h; rw [hf.2.2.2.2.1 h] at hl; exact lang_prefix.1 hl
  · intro h; rw [hf.2.2.2.2.2.1 h] at hl; exact hl
  · intro h; rw [hf.2.2.2.2.2.2.1 h] at hl; exact hl
  · intro h; rw [hf.2.2.2.2.2.2.2 h] at hl; exact hl

theorem IsNext.spelt {s t h rest} (hn : IsNext s t h rest) : t.Spelt := by
  have := hn.form
  refine ⟨this.1, ?_, ?_⟩
  · intro h; obtain ⟨y, hy, _⟩ := this.2.2.1 h; exact ⟨y, hy⟩
  · intro h; obtain ⟨y, hy, _⟩ := this.2.2.2.2.1 h; exact ⟨y, hy⟩

theorem Tokenises.lexemes {s l} (h : Tokenises s l) : ∀ p ∈ l, Lexeme p.1 p.2 := by
  induction h with
  | nil => simp
  | cons hn _ ih =>
    intro p hp
    rcases List.mem_cons.1 hp with rfl | hp
    · exact hn.lexeme
    · exact ih p hp

theorem Tokenises.spelt {s l} (h : Tokenises s l) : Spelt (visible l) := by
  intro t ht
  simp only [visible, List.mem_map, List.mem_filter] at ht
  obtain ⟨p, ⟨hp, _⟩, rfl⟩ := ht
  exact (h.lexemes p hp).spelt

theorem lexAll_spelt {s : Str} {ts : List Tok} (h : lexAll s = some ts) : Spelt ts := by
  obtain ⟨l, hl, rfl⟩ := (lexAll_iff _ _).1 h
  exact hl.spelt

/-- All visible tokens of a text are tokens by themselves. -/
theorem lexAll_lexemes {s : Str} {ts : List Tok} (h : lexAll s = some ts) :
    ∀ t ∈ ts, Lexeme t false := by
  obtain ⟨l, hl, rfl⟩ := (lexAll_iff _ _).1 h
  intro t ht
  simp only [visible, List.mem_map, List.mem_filter] at ht
  obtain ⟨p, ⟨hp, hh⟩, rfl⟩ := ht
  have := hl.lexemes p hp
  simpa [show p.2 = false by simpa using hh] using this

end Verif
