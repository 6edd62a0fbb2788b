import Verif.Proof.Brackets
import Verif.Props.Syntax
/-!
# C79: brackets
-/

namespace Verif

/-- C79. In a text without syntax error the brackets are well nested. -/
theorem C79_nested (s : Str) (l : List (Tok × Bool)) (ht : Tokenises s l) (hs : Sentence (visible l)) :
    Nested (typesOf l) := by
  obtain ⟨p, hp⟩ := (sentence_iff ht).1 hs
  unfold typesOf
  rw [hp]
  exact nested_program p

/-- The tokens of `a`, then layout, then those of `b`. -/
theorem gap {a b c d : Str} {la lb lc : List (Tok × Bool)} (ht : Tokenises (a ++ c) (la ++ lc))
    (hs : Sentence (visible (la ++ lc)))
    (ha : la.flatMap (·.1.text) = a) (hb : Tokenises b lb)
    (hlast : ∀ p, la.getLast? = some p → p.1.ty ≠ .SQL_STMT ∧ p.1.ty ≠ .LINE_COMMENT)
    (hd : Layout (' ' :: d)) : ∃ k, Tokenises (a ++ (' ' :: d) ++ b) (la ++ k ++ lb) ∧ visible k = [] := by
  obtain ⟨hverb, hds⟩ := sentence_calm ht hs
  have := put_layout (s₂ := c) (l₂ := lc) hd hb la a ht ha
    (fun p hp => ⟨(hlast p hp).1, (hlast p hp).2, fun h => absurd h (by decide)⟩)
    (fun p hp => hverb p (by simp [hp]))
    (fun hi => hds (hi.trans (by rw [List.map_append]; exact (List.prefix_append _ _).isInfix)))
  simpa using this

/-- C79. A correct file in which one bracket is replaced by a blank, or by any
other layout that begins with a blank, is rejected. -/
theorem C79_missing (w : World) (a b sep : Str) (x : Str × TT) (la lb : List (Tok × Bool))
    (hx : x ∈ bracketText) (ht : Tokenises (a ++ x.1 ++ b) (la ++ (⟨x.2, x.1⟩, false) :: lb))
    (ha : la.flatMap (·.1.text) = a) (hs : Sentence (visible (la ++ (⟨x.2, x.1⟩, false) :: lb)))
    (hsep : Layout (' ' :: sep)) (l : Option ErrorList) (mode : Nat) :
    (parseKF w (a ++ (' ' :: sep) ++ b) l mode).err ≠ none := by
  intro herr
  obtain ⟨k, hk, hks⟩ := C01_no_error_in_grammar w _ l mode herr
  have hxb := bracket_fixed x hx
  have htb : Tokenises b lb := by
    have := tokenises_drop (l₁ := la ++ [(⟨x.2, x.1⟩, false)]) (l₂ := lb) (by simpa using ht)
    have htx := ht.text
    simp only [List.flatMap_append, List.flatMap_cons, ha, List.append_assoc] at htx
    rw [List.append_cancel_left (List.append_cancel_left htx)] at this
    exact this
  have hlast : ∀ p, la.getLast? = some p → p.1.ty ≠ .SQL_STMT ∧ p.1.ty ≠ .LINE_COMMENT := by
    intro p hp
    refine ⟨?_, last_calm ht p hp⟩
    obtain ⟨m, rfl⟩ : ∃ m, la = m ++ [p] := List.getLast?_eq_some_iff.1 hp
    exact sql_bracket (m := m) (k := lb) (by simpa using ht) (by simpa using hs) hxb
  obtain ⟨g, hg, hgv⟩ := gap (c := x.1 ++ b) (lc := (⟨x.2, x.1⟩, false) :: lb) (by simpa using ht)
    (by simpa using hs) ha htb hlast hsep
  have h1 := C79_nested _ _ ht hs
  have h2 := C79_nested _ _ hg (by
    have e1 := lexAll_of hg
    rw [lexAll_of hk] at e1
    injection e1 with e1
    rwa [← e1])
  have e : visible (la ++ (⟨x.2, x.1⟩, false) :: lb) = visible la ++ ⟨x.2, x.1⟩ :: visible lb := by
    rw [visible_append]; rfl
  unfold typesOf at h1 h2
  rw [e, List.map_append, List.map_cons] at h1
  rw [visible_append, visible_append, hgv, List.append_nil, List.map_append] at h2
  exact not_nested hxb h1 h2

/-- C79. A correct file with one more bracket anywhere between two tokens, with
blanks around it, is rejected (inside an SQL statement, and directly after it, a
bracket belongs to the statement). -/
theorem C79_extra (w : World) (a b : Str) (x : Str × TT) (la lb : List (Tok × Bool))
    (hx : x ∈ bracketText) (ht : Tokenises (a ++ b) (la ++ lb))
    (ha : la.flatMap (·.1.text) = a) (hs : Sentence (visible (la ++ lb)))
    (hlast : ∀ p, la.getLast? = some p → p.1.ty ≠ .SQL_STMT ∧ p.1.ty ≠ .LINE_COMMENT)
    (l : Option ErrorList) (mode : Nat) :
    (parseKF w (a ++ " ".toList ++ x.1 ++ " ".toList ++ b) l mode).err ≠ none := by
  intro herr
  obtain ⟨k, hk, hks⟩ := C01_no_error_in_grammar w _ l mode herr
  have hxb := bracket_fixed x hx
  have hblank : Layout (' ' :: []) := .blank (by decide) .nil
  have htb : Tokenises b lb := by
    have := tokenises_drop (l₁ := la) (l₂ := lb) ht
    have htx := ht.text
    simp only [List.flatMap_append, ha] at htx
    rwa [List.append_cancel_left htx] at this
  have hword : Tokenises x.1 [(⟨x.2, x.1⟩, false)] := (lexAllRaw_iff _ _).1 (bracket_word x hx)
  obtain ⟨g, hg, hgv⟩ : ∃ g, Tokenises (x.1 ++ [' '] ++ b) ([(⟨x.2, x.1⟩, false)] ++ g ++ lb) ∧ visible g = [] := by
    have hxt : x.2 ≠ .SQL_STMT ∧ x.2 ≠ .LINE_COMMENT ∧ x.2 ∉ verbTypes := by
      revert hxb
      generalize x.2 = ty
      cases ty <;> decide
    have := put_layout (s₂ := []) (l₂ := []) hblank htb [(⟨x.2, x.1⟩, false)] x.1 (by simpa using hword) (by simp)
      (fun p hp => by
        simp at hp
        subst hp
        exact ⟨hxt.1, hxt.2.1, fun h => absurd h (by decide)⟩)
      (fun p hp => by simp at hp; subst hp; exact hxt.2.2)
      (fun hi => by have := hi.length_le; simp at this)
    simpa using this
  obtain ⟨g', hg', hgv'⟩ := gap (c := b) (lc := lb) ht (by simpa using hs) ha hg hlast hblank
  have h1 := C79_nested _ _ ht hs
  have h2 := C79_nested _ _ hg' (by
    have e1 := lexAll_of hg'
    have e2 : a ++ " ".toList ++ x.1 ++ " ".toList ++ b = a ++ [' '] ++ (x.1 ++ [' '] ++ b) := by simp
    rw [← e2, lexAll_of hk] at e1
    injection e1 with e1
    rwa [← e1])
  unfold typesOf at h1 h2
  rw [visible_append, List.map_append] at h1
  have e : visible (la ++ g' ++ ([(⟨x.2, x.1⟩, false)] ++ g ++ lb)) = visible la ++ ⟨x.2, x.1⟩ :: visible lb := by
    have : visible [((⟨x.2, x.1⟩ : Tok), false)] = [⟨x.2, x.1⟩] := rfl
    simp only [visible_append, hgv, hgv', this]
    simp
  rw [e, List.map_append, List.map_cons] at h2
  exact not_nested hxb h2 h1

/-! ## Cases -/

namespace Sample.Brackets

/-- A file cut at the bracket of the attribute `min(0)`. -/
def before : Str := "database d; table t { id int min".toList
def after : Str := "0) }".toList
def toks : List (Tok × Bool) := (lexAllRaw (before ++ "(".toList ++ after)).getD []

theorem whole : Tokenises (before ++ "(".toList ++ after)
    (toks.take 16 ++ (⟨.L_PAREN, "(".toList⟩, false) :: toks.drop 17) := by
  rw [← lexAllRaw_iff]; decide +kernel

theorem sentence : Sentence (visible (toks.take 16 ++ (⟨.L_PAREN, "(".toList⟩, false) :: toks.drop 17)) :=
  (sentence_iff whole).2 ⟨⟨"d".toList, [], [.table ⟨"t".toList, ⟨⟨"id".toList, .int, [.min "0".toList]⟩, []⟩, [], false⟩]⟩,
    by decide +kernel⟩

end Sample.Brackets

open Sample.Brackets in
example (w : World) : (parseKF w (before ++ " ".toList ++ after) none 0).err ≠ none :=
  C79_missing w before after [] ("(".toList, .L_PAREN) _ _ (by decide) whole (by decide +kernel) sentence
    (.blank (by decide) .nil) none 0

open Sample.Brackets in
example (w : World) : (parseKF w (before ++ " ".toList ++ "{".toList ++ " ".toList ++ ("(".toList ++ after)) none 0).err ≠ none := by
  have ht : Tokenises (before ++ ("(".toList ++ after)) (toks.take 16 ++ (⟨.L_PAREN, "(".toList⟩, false) :: toks.drop 17) := by
    rw [← List.append_assoc]; exact whole
  refine C79_extra w before ("(".toList ++ after) ("{".toList, .L_BRACE) _ _ (by decide) ht (by decide +kernel) sentence ?_ none 0
  intro p hp
  have e : (toks.take 16).getLast?.map (·.1.ty) = some .MIN_ := by decide +kernel
  rw [hp] at e
  simp only [Option.map_some, Option.some.injEq] at e
  rw [e]
  decide

end Verif
