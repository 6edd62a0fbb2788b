import Verif.Proof.Canonical
import Verif.Props.Canonical
import Verif.Props.Statements
/-!
# C71: which SQL statements can be used in an action
-/

namespace Verif

/-- The statement `q`, with its semicolon, is a statement of an action of the
schema. -/
def Schema.uses (sch : Schema) (q : Str) : Prop :=
  ∃ a ∈ sch.actions.elems, q ++ [';'] ∈ a.statements.elems

/-- The two external parsers take `q;` for a correct SQL statement. -/
structure SqlOk (env : Env) (q : Str) : Prop where
  kind : env.actParse (q ++ [';']) = .ok .dml
  check : env.sqlCheck (q ++ [';']) = none

/-- A database with one public action that has the statement `q`. -/
def oneAction (q : Str) : Program :=
  ⟨"d".toList, [], [.action ⟨[], "a".toList, ⟨none, []⟩, [.pub], ⟨.sql q, []⟩⟩]⟩

/-- Its text. -/
def oneActionText (q : Str) : Str :=
  "database d ; action a ( ) public { ".toList ++ q ++ "; } ".toList

/-- The tokens before the statement and those behind it. -/
def oneActionHead : List Tok :=
  [kw .DATABASE_, idTok "d".toList, kw .SCOL, kw .ACTION_, idTok "a".toList, kw .L_PAREN, kw .R_PAREN,
   kw .PUBLIC_, kw .L_BRACE]
def oneActionTail : List Tok := [kw .SCOL, kw .R_BRACE]

theorem oneAction_toks (q : Str) :
    (oneAction q).toks = oneActionHead ++ ⟨.SQL_STMT, q⟩ :: oneActionTail := by
  simp only [oneAction, Program.toks, Decl.toks, ActionDecl.toks, CommaList.toks, NE.list, bodyToks, Stmt.toks,
    Modifier.tok, oneActionHead, oneActionTail, List.flatMap_nil, List.flatMap_cons, List.map_cons, List.map_nil,
    List.append_nil, List.nil_append, List.cons_append, Option.toList]

theorem oneAction_text (q : Str) : (oneAction q).text = oneActionText q := by
  have h1 : spaced oneActionHead = "database d ; action a ( ) public { ".toList := by decide +kernel
  have h2 : spaced oneActionTail = "; } ".toList := by decide +kernel
  have h3 : ∀ A B : List Tok, spaced (A ++ ⟨.SQL_STMT, q⟩ :: B) = spaced A ++ (q ++ spaced B) := by
    intro A B
    simp [spaced, List.flatMap_append, List.flatMap_cons]
  unfold Program.text oneActionText
  exact (congrArg spaced (oneAction_toks q)).trans ((h3 _ _).trans
    ((congr (congrArg _ h1) (congrArg _ h2)).trans (List.append_assoc _ _ _).symm))

theorem oneAction_spelt (q : Str) (h : IsSql q) : ∀ t ∈ (oneAction q).toks, WellSpelt t := by
  intro t ht
  rw [oneAction_toks] at ht
  have hid : ∀ c : Char, IsLetter c → ¬ Reserved [c] → WellSpelt (idTok [c]) := fun c h1 h2 =>
    ⟨⟨h1, fun _ h => nomatch h⟩, h2⟩
  simp only [List.mem_append, List.mem_cons, oneActionHead, oneActionTail, List.not_mem_nil, or_false] at ht
  rcases ht with (rfl | rfl | rfl | rfl | rfl | rfl | rfl | rfl | rfl) | rfl | rfl | rfl
  · rfl
  · exact hid 'd' (by decide) (by decide)
  · rfl
  · rfl
  · exact hid 'a' (by decide) (by decide)
  · rfl
  · rfl
  · rfl
  · rfl
  · exact h
  · rfl
  · rfl

theorem oneAction_accepted (w : World) (q : Str) (h : IsSql q) (hq : SqlOk w.toEnv q) :
    Accepts w (oneActionText q) (oneAction q).denote := by
  rw [← oneAction_text]
  refine accepts_iff.2 ⟨_, (oneAction q).writes_text (oneAction_spelt q h), rfl, rfl, ?_⟩
  refine ⟨List.Pairwise.nil, List.Pairwise.nil, ?_, (fun t h => nomatch h), ?_, (fun t h => nomatch h), ?_⟩
  · exact List.nodup_cons.2 ⟨(fun h => nomatch h), List.Pairwise.nil⟩
  · intro a ha
    cases ha with
    | head => exact List.Pairwise.nil
    | tail _ h => cases h
  · intro a ha before stmt after e
    have hm : a.statements.elems = [q ++ [';']] := by
      cases ha with
      | head => rfl
      | tail _ h => cases h
    rw [hm] at e
    cases before with
    | nil =>
      simp only [List.nil_append, List.cons.injEq] at e
      rw [← e.1]
      simp [ValidStmt, hq.kind, hq.check]
    | cons b bs => simp at e

/-- An SQL statement without `;` and `}` that the external parsers take for
correct can be used: the text with one action that has this statement is
accepted, and the statement in the schema is the given one. -/
theorem C71_usable_partial (w : World) (q : Str) (verb : Str) (b : Char) (rest : Str)
    (hq : q = verb ++ b :: rest) (hv : lower verb ∈ verbs.map (·.1)) (hb : b ∈ blanks) (hr : rest ≠ [])
    (hsemi : ';' ∉ rest) (hbrace : '}' ∉ rest) (hok : SqlOk w.toEnv q) :
    ∃ sch, Accepts w (oneActionText q) sch ∧ sch.uses q :=
  ⟨_, oneAction_accepted w q ⟨verb, b, rest, hq, hv, hb, hr, hsemi, hbrace⟩ hok,
    _, .head _, .head _⟩

/-- No other statement that starts like SQL can be used, whatever the external
parsers say: exactly those without `;` and `}` can. -/
theorem C71_exact (w : World) (q : Str) (hq : SqlStart q) (hok : SqlOk w.toEnv q) :
    (∃ s sch, Accepts w s sch ∧ sch.uses q) ↔
      (∃ verb b rest, q = verb ++ b :: rest ∧ lower verb ∈ verbs.map (·.1) ∧ b ∈ blanks ∧ rest ≠ [] ∧
        ';' ∉ rest ∧ '}' ∉ rest) := by
  constructor
  · rintro ⟨s, sch, ha, a, haa, hst⟩
    obtain ⟨v, b, r, rfl, hv, hb⟩ := hq
    obtain ⟨_, v', b', m, e, h1, h2, h3⟩ := C25_sql_verbatim w s sch ha a haa _ hst
      ⟨v, b, r ++ [';'], by simp, hv, hb⟩
    exact ⟨v', b', m, List.append_inj_left' e rfl, h1, h2, h3⟩
  · rintro ⟨v, b, r, e, h1, h2, h3, h4, h5⟩
    obtain ⟨sch, h⟩ := C71_usable_partial w q v b r e h1 h2 h3 h4 h5 hok
    exact ⟨_, sch, h⟩

theorem not_in_verb {v : Str} (hv : lower v ∈ verbs.map (·.1)) {c : Char} (hc : c ∈ v) :
    lowerChar c ∈ "selectinsertupdatedeletewith".toList := by
  have h : ∀ x ∈ verbs.map (·.1), ∀ d ∈ x, d ∈ "selectinsertupdatedeletewith".toList := by decide
  exact h _ hv _ (List.mem_map.2 ⟨c, hc, rfl⟩)

/-- A semicolon in a string. -/
def semicolonSql : Str := "insert into t values ('a;b')".toList

/-- Braces in a string. -/
def braceSql : Str := "update t set x = '{}'".toList

/-- The property is false: no accepted text has an action with one of these two
statements, also if both external parsers take them for correct. -/
theorem C71_violated (w : World) (s : Str) (sch : Schema) (h : Accepts w s sch) :
    ¬ sch.uses semicolonSql ∧ ¬ sch.uses braceSql := by
  constructor
  · rintro ⟨a, ha, hst⟩
    obtain ⟨_, v, b, m, e, hv, hb, _, h1, _⟩ := C25_sql_verbatim w s sch h a ha _ hst
      ⟨"insert".toList, ' ', "into t values ('a;b');".toList, by decide, by decide, by decide⟩
    have hm : ';' ∈ v ++ b :: m := by
      rw [← List.append_inj_left' e rfl]; decide
    rcases List.mem_append.1 hm with hm | hm
    · exact absurd (not_in_verb hv hm) (by decide)
    · rcases List.mem_cons.1 hm with rfl | hm
      · revert hb; decide
      · exact h1 hm
  · rintro ⟨a, ha, hst⟩
    obtain ⟨_, v, b, m, e, hv, hb, _, _, h1⟩ := C25_sql_verbatim w s sch h a ha _ hst
      ⟨"update".toList, ' ', "t set x = '{}';".toList, by decide, by decide, by decide⟩
    have hm : '}' ∈ v ++ b :: m := by
      rw [← List.append_inj_left' e rfl]; decide
    rcases List.mem_append.1 hm with hm | hm
    · exact absurd (not_in_verb hv hm) (by decide)
    · rcases List.mem_cons.1 hm with rfl | hm
      · revert hb; decide
      · exact h1 hm

/-! ## The hypotheses can be met -/

namespace Sample

/-- A world whose SQL parsers take the two statements and `select 1` for correct. -/
def sqlWorld : World :=
  { world with
    actParse := fun s => if s ∈ [semicolonSql ++ [';'], braceSql ++ [';'], "select 1;".toList] then .ok .dml
      else .error (.err (.other "cannot parse".toList))
    sqlCheck := fun _ => none }

example : SqlOk sqlWorld.toEnv semicolonSql ∧ SqlOk sqlWorld.toEnv braceSql ∧
    SqlStart semicolonSql ∧ SqlStart braceSql :=
  ⟨⟨by rfl, rfl⟩, ⟨by rfl, rfl⟩,
    ⟨"insert".toList, ' ', "into t values ('a;b')".toList, by decide, by decide, by decide⟩,
    ⟨"update".toList, ' ', "t set x = '{}'".toList, by decide, by decide, by decide⟩⟩

example : ∃ sch, Accepts world (oneActionText "select 1".toList) sch ∧ sch.uses "select 1".toList :=
  C71_usable_partial world _ "select".toList ' ' "1".toList (by decide) (by decide) (by decide) (by decide)
    (by decide) (by decide) ⟨by rfl, by rfl⟩

end Sample

end Verif
