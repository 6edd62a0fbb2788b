import Verif.Proof.Semicolons
import Verif.Props.Brackets
/-!
# C80: semicolons
-/

namespace Verif

theorem semi_word : lexAllRaw ";".toList = some [(⟨.SCOL, ";".toList⟩, false)] := by decide +kernel

theorem last_not_sql {s : Str} {la lc : List (Tok × Bool)} (ht : Tokenises s (la ++ lc))
    (hsql : ∀ t, (visible la).getLast? = some t → t.ty ≠ .SQL_STMT) :
    ∀ p, la.getLast? = some p → p.1.ty ≠ .SQL_STMT := by
  intro p hp hty
  obtain ⟨m, rfl⟩ : ∃ m, la = m ++ [p] := List.getLast?_eq_some_iff.1 hp
  have h2 : p.2 = false := by
    have := ht.hidden p (by simp)
    cases h : p.2 with
    | false => rfl
    | true => have := this.1 h; rw [hty] at this; revert this; decide
  refine hsql p.1 ?_ hty
  have : visible [p] = [p.1] := by simp [visible, h2]
  rw [visible_append, this]
  simp

/-- C80. A correct file in which a semicolon that does not end an SQL statement
is replaced by a blank, or by any other layout that begins with a blank, is
rejected. -/
theorem C80_missing (w : World) (a b sep : Str) (la lb : List (Tok × Bool))
    (ht : Tokenises (a ++ ";".toList ++ b) (la ++ (⟨.SCOL, ";".toList⟩, false) :: lb))
    (ha : la.flatMap (·.1.text) = a) (hs : Sentence (visible (la ++ (⟨.SCOL, ";".toList⟩, false) :: lb)))
    (hsql : ∀ t, (visible la).getLast? = some t → t.ty ≠ .SQL_STMT)
    (hsep : Layout (' ' :: sep)) (l : Option ErrorList) (mode : Nat) :
    (parseKF w (a ++ (' ' :: sep) ++ b) l mode).err ≠ none := by
  intro herr
  obtain ⟨k, hk, hks⟩ := C01_no_error_in_grammar w _ l mode herr
  have htb : Tokenises b lb := by
    have := tokenises_drop (l₁ := la ++ [(⟨.SCOL, ";".toList⟩, false)]) (l₂ := lb) (by simpa using ht)
    have htx := ht.text
    simp only [List.flatMap_append, List.flatMap_cons, ha, List.append_assoc] at htx
    rw [List.append_cancel_left (List.append_cancel_left htx)] at this
    exact this
  obtain ⟨g, hg, hgv⟩ := gap (c := ";".toList ++ b) (lc := (⟨.SCOL, ";".toList⟩, false) :: lb)
    (by rw [← List.append_assoc]; exact ht) hs ha htb
    (fun p hp => ⟨last_not_sql ht hsql p hp, last_calm ht p hp⟩) hsep
  have hs' : Sentence (visible (la ++ g ++ lb)) := by
    have e1 := lexAll_of hg
    rw [lexAll_of hk] at e1
    injection e1 with e1
    rwa [← e1]
  obtain ⟨p, hp⟩ := (sentence_iff ht).1 hs
  obtain ⟨q, hq⟩ := (sentence_iff hg).1 hs'
  have e : visible (la ++ (⟨.SCOL, ";".toList⟩, false) :: lb) = visible la ++ ⟨.SCOL, ";".toList⟩ :: visible lb := by
    rw [visible_append]; rfl
  rw [e] at hp
  rw [visible_append, visible_append, hgv, List.append_nil] at hq
  exact semi_edit rfl hp.symm hq.symm hsql

/-- C80. A correct file with one more semicolon, with blanks around it, between
any two tokens of which the first is no SQL statement, is rejected. -/
theorem C80_extra (w : World) (a b : Str) (la lb : List (Tok × Bool)) (ht : Tokenises (a ++ b) (la ++ lb))
    (ha : la.flatMap (·.1.text) = a) (hs : Sentence (visible (la ++ lb)))
    (hsql : ∀ t, (visible la).getLast? = some t → t.ty ≠ .SQL_STMT)
    (hline : ∀ p, la.getLast? = some p → p.1.ty ≠ .LINE_COMMENT)
    (l : Option ErrorList) (mode : Nat) : (parseKF w (a ++ " ; ".toList ++ b) l mode).err ≠ none := by
  intro herr
  obtain ⟨k, hk, hks⟩ := C01_no_error_in_grammar w _ l mode herr
  have hblank : Layout (' ' :: []) := .blank (by decide) .nil
  have htb : Tokenises b lb := by
    have := tokenises_drop (l₁ := la) (l₂ := lb) ht
    have htx := ht.text
    simp only [List.flatMap_append, ha] at htx
    rwa [List.append_cancel_left htx] at this
  have hword : Tokenises ";".toList [(⟨.SCOL, ";".toList⟩, false)] := (lexAllRaw_iff _ _).1 semi_word
  obtain ⟨g, hg, hgv⟩ : ∃ g, Tokenises (";".toList ++ [' '] ++ b) ([(⟨.SCOL, ";".toList⟩, false)] ++ g ++ lb) ∧
      visible g = [] := by
    have := put_layout (s₂ := []) (l₂ := []) hblank htb [(⟨.SCOL, ";".toList⟩, false)] ";".toList
      (by simpa using hword) (by simp)
      (fun p hp => by
        simp at hp
        subst hp
        exact ⟨by decide, by decide, fun h => absurd h (by decide)⟩)
      (fun p hp => by simp at hp; subst hp; show TT.SCOL ∉ verbTypes; decide)
      (fun hi => by have := hi.length_le; simp at this)
    simpa using this
  obtain ⟨g', hg', hgv'⟩ := gap (c := b) (lc := lb) ht hs ha hg
    (fun p hp => ⟨last_not_sql ht hsql p hp, hline p hp⟩) hblank
  have hs' : Sentence (visible (la ++ g' ++ ([(⟨.SCOL, ";".toList⟩, false)] ++ g ++ lb))) := by
    have e1 := lexAll_of hg'
    have e2 : a ++ " ; ".toList ++ b = a ++ [' '] ++ (";".toList ++ [' '] ++ b) := by simp
    rw [← e2, lexAll_of hk] at e1
    injection e1 with e1
    rwa [← e1]
  obtain ⟨p, hp⟩ := (sentence_iff ht).1 hs
  obtain ⟨q, hq⟩ := (sentence_iff hg').1 hs'
  have e : visible (la ++ g' ++ ([(⟨.SCOL, ";".toList⟩, false)] ++ g ++ lb)) =
      visible la ++ ⟨.SCOL, ";".toList⟩ :: visible lb := by
    have : visible [((⟨.SCOL, ";".toList⟩ : Tok), false)] = [⟨.SCOL, ";".toList⟩] := rfl
    simp only [visible_append, hgv, hgv', this]
    simp
  rw [e] at hq
  rw [visible_append] at hp
  exact semi_edit rfl hq.symm hp.symm hsql

/-! ## Cases -/

namespace Sample.Semicolons

/-- A file cut at the semicolon after the call, which is the last statement. -/
def first : Str := "database d; action b() public { b()".toList
def after : Str := "\n}".toList
def toks : List (Tok × Bool) := (lexAllRaw (first ++ ";".toList ++ after)).getD []

theorem whole : Tokenises (first ++ ";".toList ++ after)
    (toks.take 18 ++ (⟨.SCOL, ";".toList⟩, false) :: toks.drop 19) := by
  rw [← lexAllRaw_iff]; decide +kernel

theorem sentence : Sentence (visible (toks.take 18 ++ (⟨.SCOL, ";".toList⟩, false) :: toks.drop 19)) :=
  (sentence_iff whole).2 ⟨⟨"d".toList, [], [.action ⟨[], "b".toList, ⟨none, []⟩, [.pub],
    ⟨.call none none "b".toList ⟨none, []⟩, []⟩⟩]⟩, by decide +kernel⟩

end Sample.Semicolons

open Sample.Semicolons in
example (w : World) : (parseKF w (first ++ " ".toList ++ after) none 0).err ≠ none :=
  C80_missing w first after [] _ _ whole (by decide +kernel) sentence
    (by
      intro t ht
      have e : (visible (toks.take 18)).getLast?.map (·.ty) = some .R_PAREN := by decide +kernel
      rw [ht] at e
      simp only [Option.map_some, Option.some.injEq] at e
      rw [e]
      decide)
    (.blank (by decide) .nil) none 0

/-- An SQL statement without its semicolon goes on to the next one: two
statements have become one, and it is left to the SQL parser to notice. -/
example : Writes "database d; init() { select 1 select 2; }".toList
    ⟨"d".toList, [], [.init ⟨.sql "select 1 select 2".toList, []⟩]⟩ := writes_lit _ rfl (by decide +kernel)

end Verif
