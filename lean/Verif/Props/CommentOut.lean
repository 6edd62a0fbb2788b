import Verif.Proof.CommentOut
import Verif.Props.Edit
import Verif.Props.Outcome
/-!
# C77: commenting out declarations
-/

namespace Verif

/-- C77. Every declaration has its part of the text, which begins with the
declaration's first token. -/
theorem C77_found (s : Str) (p q : Program) (bs ys as : List Tok) (hp : Writes s p)
    (hw : Without p q bs ys as) : ∃ a d b, s = a ++ d ++ b ∧ Parts a d b bs ys as := by
  refine parts_exist hp hw ?_
  cases hw with
  | decl n es xs zs y =>
    intro h
    have := congrArg List.length h
    cases y with
    | table t => simp [Decl.toks, TableDecl.toks] at this
    | action t => simp [Decl.toks, ActionDecl.toks] at this
    | init t => simp [Decl.toks] at this
  | ext n xs zs y ds =>
    intro h
    have := congrArg List.length h
    simp [ExtDecl.toks] at this

/-- C77, block comments. If `*/` does not occur in the text of a declaration, the
file in which it is put into a block comment says the same as without it. -/
theorem C77_block (a d b : Str) (p q : Program) (bs ys as : List Tok) (hw : Without p q bs ys as)
    (hp : Parts a d b bs ys as) (hd : ¬ "*/".toList <:+: d) :
    Writes (a ++ "/*".toList ++ d ++ "*/".toList ++ b) q := by
  have := writes_without hw hp (layout_block hd) (.inl rfl)
  simpa using this

/-- C77, line comments. If the declaration ends with its line, the file in which
`//` is put before all of its lines says the same as without it, whatever is in
these lines. -/
theorem C77_lines (a d b : Str) (p q : Program) (bs ys as : List Tok) (hw : Without p q bs ys as)
    (hp : Parts a d ('\n' :: b) bs ys as) (hd : '\r' ∉ d) :
    Writes (a ++ commentLines d ++ '\n' :: b) q := by
  have hl := layout_lines d [] (by simp) (by simp) hd
  have := writes_without (c := '/') (b' := b) hw hp (by simpa using hl) (.inr rfl)
  simpa [commentLines] using this

/-- C77, deletion. A declaration can be replaced by any layout, by a blank for
example. -/
theorem C77_deleted (a d b sep : Str) (p q : Program) (bs ys as : List Tok) (hw : Without p q bs ys as)
    (hp : Parts a d b bs ys as) (hs : Layout sep) (hne : sep ≠ []) : Writes (a ++ sep ++ b) q := by
  cases sep with
  | nil => exact absurd rfl hne
  | cons c sep => exact writes_without hw hp hs (.inl rfl)

/-- C77. What `ParseKF` does with the new file is what it does with any other
text of the program without the declaration: result, errors and trace. -/
theorem C77_same (w : World) (s t : Str) (q : Program) (hs : Writes s q) (ht : Writes t q)
    (l : Option ErrorList) (mode : Nat) : parseKF w s l mode = parseKF w t l mode := by
  rw [hs.parseKF, ht.parseKF]

/-- C77. A file that is accepted stays accepted when a table or action that
nothing refers to is commented out, and its schema is the old one without it. -/
theorem C77_accepted (w : World) (a d b : Str) (n : Str) (es : List ExtDecl) (xs zs : List Decl) (y : Decl)
    (hp : Parts a d b (Program.toks ⟨n, es, xs⟩) y.toks (zs.flatMap Decl.toks))
    (hu : Unused w.toEnv ⟨n, es, xs ++ zs⟩ y)
    (ha : Accepts w (a ++ d ++ b) (Program.denote ⟨n, es, xs ++ y :: zs⟩)) :
    (¬ "*/".toList <:+: d →
      Accepts w (a ++ "/*".toList ++ d ++ "*/".toList ++ b) (Program.denote ⟨n, es, xs ++ zs⟩)) ∧
    (∀ b', '\r' ∉ d → b = '\n' :: b' →
      Accepts w (a ++ commentLines d ++ b) (Program.denote ⟨n, es, xs ++ zs⟩)) := by
  have hw := Without.decl n es xs zs y
  have hwhole : Writes (a ++ d ++ b) ⟨n, es, xs ++ y :: zs⟩ := by
    obtain ⟨la, ld, lb, ht, _, _, h1, h2, h3, _⟩ := hp.split
    exact ⟨_, ht, by rw [visible_append, visible_append, h1, h2, h3, hw.toks.1]⟩
  have hadd : Added ⟨n, es, xs ++ zs⟩ ⟨n, es, xs ++ y :: zs⟩ y := ⟨rfl, rfl, xs, zs, rfl, rfl⟩
  constructor
  · intro hd
    exact C59_remove w _ _ _ _ y (C77_block a d b _ _ _ _ _ hw hp hd) hwhole hadd hu ha
  · rintro b' hd rfl
    exact C59_remove w _ _ _ _ y (C77_lines a d b' _ _ _ _ _ hw hp hd) hwhole hadd hu ha

/-- C77. The same for an extension that no action calls. -/
theorem C77_accepted_extension (w : World) (a d b : Str) (n : Str) (xs zs : List ExtDecl) (y : ExtDecl)
    (ds : List Decl)
    (hp : Parts a d b (Program.toks ⟨n, xs, []⟩) y.toks (zs.flatMap ExtDecl.toks ++ ds.flatMap Decl.toks))
    (hu : UnusedExt w.toEnv ⟨n, xs ++ zs, ds⟩ (if y.alias = [] then y.name else y.alias))
    (ha : Accepts w (a ++ d ++ b) (Program.denote ⟨n, xs ++ y :: zs, ds⟩)) :
    (¬ "*/".toList <:+: d →
      Accepts w (a ++ "/*".toList ++ d ++ "*/".toList ++ b) (Program.denote ⟨n, xs ++ zs, ds⟩)) ∧
    (∀ b', '\r' ∉ d → b = '\n' :: b' →
      Accepts w (a ++ commentLines d ++ b) (Program.denote ⟨n, xs ++ zs, ds⟩)) := by
  have hw := Without.ext n xs zs y ds
  have hwhole : Writes (a ++ d ++ b) ⟨n, xs ++ y :: zs, ds⟩ := by
    obtain ⟨la, ld, lb, ht, _, _, h1, h2, h3, _⟩ := hp.split
    exact ⟨_, ht, by rw [visible_append, visible_append, h1, h2, h3, hw.toks.1]⟩
  have hadd : AddedExt ⟨n, xs ++ zs, ds⟩ ⟨n, xs ++ y :: zs, ds⟩ y := ⟨rfl, rfl, xs, zs, rfl, rfl⟩
  constructor
  · intro hd
    exact C59_remove_extension w _ _ _ _ y (C77_block a d b _ _ _ _ _ hw hp hd) hwhole hadd hu ha
  · rintro b' hd rfl
    exact C59_remove_extension w _ _ _ _ y (C77_lines a d b' _ _ _ _ _ hw hp hd) hwhole hadd hu ha

/-! ## Cases -/

namespace Sample.Commented

/-- A file with two declarations, the first on three lines. -/
def before : Str := "database d;\n".toList
def part : Str := "init() {\n  select 1;\n}".toList
def rest : Str := "\ntable t { id int }".toList

/-- Its program, and that without the first declaration. -/
def initDecl : Decl := .init ⟨.sql "select 1".toList, []⟩
def tDecl : Decl := .table ⟨"t".toList, ⟨⟨"id".toList, .int, []⟩, []⟩, [], false⟩
def whole : Program := ⟨"d".toList, [], [initDecl, tDecl]⟩
def without : Program := ⟨"d".toList, [], [tDecl]⟩

theorem without_init : Without whole without (Program.toks ⟨"d".toList, [], []⟩) initDecl.toks tDecl.toks := by
  have := Without.decl "d".toList [] [] [tDecl] initDecl
  simpa [whole, without] using this

/-- All tokens of the file, the hidden ones too. -/
def allToks : List (Tok × Bool) := (lexAllRaw (before ++ part ++ rest)).getD []

theorem parts : Parts before part rest (Program.toks ⟨"d".toList, [], []⟩) initDecl.toks tDecl.toks := by
  refine ⟨allToks.take 5, (allToks.drop 5).take 12, allToks.drop 17, ?_, ?_, ?_, ?_, ?_, ?_, ?_⟩
  · rw [← lexAllRaw_iff]; decide +kernel
  all_goals decide +kernel

end Sample.Commented

example : commentLines Sample.Commented.part = "//init() {\n//  select 1;\n//}".toList := by decide +kernel

example : Writes ("database d;\n//init() {\n//  select 1;\n//}\ntable t { id int }".toList) Sample.Commented.without := by
  have := C77_lines Sample.Commented.before Sample.Commented.part "table t { id int }".toList _ _ _ _ _ Sample.Commented.without_init
    Sample.Commented.parts (by decide +kernel)
  have h : Sample.Commented.before ++ commentLines Sample.Commented.part ++ '\n' :: "table t { id int }".toList =
      "database d;\n//init() {\n//  select 1;\n//}\ntable t { id int }".toList := by decide +kernel
  rwa [h] at this

example : Writes ("database d;\n/*init() {\n  select 1;\n}*/\ntable t { id int }".toList) Sample.Commented.without := by
  have := C77_block Sample.Commented.before Sample.Commented.part Sample.Commented.rest _ _ _ _ _ Sample.Commented.without_init
    Sample.Commented.parts (by decide +kernel)
  have h : Sample.Commented.before ++ "/*".toList ++ Sample.Commented.part ++ "*/".toList ++ Sample.Commented.rest =
      "database d;\n/*init() {\n  select 1;\n}*/\ntable t { id int }".toList := by decide +kernel
  rwa [h] at this

/-- The condition on block comments is needed: a comment inside the declaration
ends the one around it, and what is left is no sentence. -/
example : ¬ ∃ toks, Tokenises "database d; /*table t { id int /* key */ }*/".toList toks ∧
    Sentence (visible toks) :=
  not_sentence_of_lexAll (by decide +kernel)

end Verif
