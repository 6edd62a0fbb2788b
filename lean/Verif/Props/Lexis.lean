import Verif.Proof.Words
import Verif.Proof.Insert
import Verif.Proof.Meaning
/-!
# C44, C45: words and commas
-/

namespace Verif

/-- C44. A name in the text, not continued by a word character, and not an SQL
verb that starts a statement, is one token, and `wordType` tells its type. -/
theorem C44_word (w rest : Str) (hw : IsName w)
    (hr : ∀ c, rest.head? = some c → ¬ IsWordChar c)
    (hv : lower w ∈ verbs.map (·.1) → ¬ SqlTail rest) :
    lexOne (w ++ rest) = some (⟨wordType w, w⟩, false, rest) :=
  (lexOne_iff _ _ _ _).2 (word_next hw hr hv)

theorem lookup_mem {l : List (Str × TT)} {k : Str} {ty : TT} (h : l.lookup k = some ty) :
    (k, ty) ∈ l := by
  induction l with
  | nil => simp at h
  | cons p l ih =>
    obtain ⟨a, b⟩ := p
    rw [List.lookup_cons] at h
    by_cases hk : k = a
    · subst hk; simp at h; simp [h]
    · have : (k == a) = false := by simpa using hk
      rw [this] at h
      simp [ih h]

theorem tables_ok :
    (∀ p ∈ keywords, keywords.lookup p.1 = some p.2 ∧ p.2 ≠ .IDENTIFIER) ∧
    (∀ p ∈ verbs, verbs.lookup p.1 = some p.2 ∧ p.2 ≠ .IDENTIFIER) ∧
    (∀ p ∈ keywords, ∀ q ∈ keywords, p.2 = q.2 → p = q) ∧
    (∀ p ∈ verbs, ∀ q ∈ verbs, p.2 = q.2 → p = q) ∧
    (∀ p ∈ keywords, ∀ q ∈ verbs, p.2 ≠ q.2 ∧ lower p.1 ≠ q.1) := by decide +kernel

/-- C44. A keyword token is written exactly as the keyword: lower case. -/
theorem C44_keyword (k : Str) (ty : TT) (hk : (k, ty) ∈ keywords) (w : Str) :
    wordType w = ty ↔ w = k := by
  obtain ⟨h1, h2, h3, h4, h5⟩ := tables_ok
  unfold wordType
  cases ha : keywords.lookup w with
  | some t =>
    have hm := lookup_mem ha
    constructor
    · intro h
      simp only at h
      have := h3 _ hm _ hk h
      simp at this; exact this.1
    · rintro rfl
      have := (h1 _ hk).1
      rw [ha] at this
      simpa using this
  | none =>
    constructor
    · intro h
      exfalso
      cases hb : verbs.lookup (lower w) with
      | some t => rw [hb] at h; exact (h5 _ hk _ (lookup_mem hb)).1 h.symm
      | none => rw [hb] at h; exact (h1 _ hk).2 h.symm
    · rintro rfl
      rw [(h1 _ hk).1] at ha; cases ha

/-- C44. A verb token is the verb in any mixture of cases. -/
theorem C44_verb (v : Str) (ty : TT) (hv : (v, ty) ∈ verbs) (w : Str) :
    wordType w = ty ↔ lower w = v := by
  obtain ⟨h1, h2, h3, h4, h5⟩ := tables_ok
  unfold wordType
  cases ha : keywords.lookup w with
  | some t =>
    have hm := lookup_mem ha
    constructor
    · intro h; exact absurd h (h5 _ hm _ hv).1
    · intro h; exact absurd h (h5 _ hm _ hv).2
  | none =>
    cases hb : verbs.lookup (lower w) with
    | some t =>
      have hm := lookup_mem hb
      constructor
      · intro h
        have := h4 _ hm _ hv h
        simp at this; exact this.1
      · intro h
        have := (h2 _ hv).1
        rw [← h, hb] at this
        simpa using this
    | none =>
      constructor
      · intro h; exact absurd h.symm (h2 _ hv).2
      · intro h
        have := (h2 _ hv).1
        rw [← h, hb] at this
        cases this

/-- C44. Every other word is an identifier. -/
theorem C44_identifier (w : Str) : wordType w = .IDENTIFIER ↔ ¬ Reserved w := wordType_ident

/-- Characters an SQL statement does not run over. -/
def isStop (c : Char) : Bool := c = ';' || c = '}'

theorem lang_not_stop {x : Str} (hx : ∀ c ∈ x, isStop c = false) :
    Lang (.star (.cls true [(59, 59), (125, 125)])) x := by
  induction x with
  | nil => exact .starNil
  | cons d x ih =>
    have hd := hx d (by simp)
    simp only [isStop, Bool.or_eq_false_iff, decide_eq_false_iff_not] at hd
    have e1 : d.toNat ≠ 59 := fun h => hd.1 (Char.toNat_inj.1 (by rw [h]; rfl))
    have e2 : d.toNat ≠ 125 := fun h => hd.2 (Char.toNat_inj.1 (by rw [h]; rfl))
    exact Lang.starCons (x := [d]) (lang_cls.2 ⟨d, rfl, by simp [inCls]; omega⟩)
      (ih fun c hc => hx c (by simp [hc]))

/-- C44. A verb, in any case, followed by a blank and one more character that
is not `;` or `}`, starts an SQL statement token, which runs up to the next `;`
or `}` or the end of the text. -/
theorem C44_sql (w rest : Str) (hw : lower w ∈ verbs.map (·.1)) (hr : SqlTail rest) :
    ∃ x y, rest = x ++ y ∧ (∀ c ∈ x, c ≠ ';' ∧ c ≠ '}') ∧
      (∀ c, y.head? = some c → c = ';' ∨ c = '}') ∧
      lexOne (w ++ rest) = some (⟨.SQL_STMT, w ++ x⟩, false, y) := by
  obtain ⟨b, c, r, rfl, hb, h1, h2⟩ := hr
  have hk := sqlKw_iff.2 hw
  have hbs : isStop b = false := by revert hb; revert b; decide
  have hcs : isStop c = false := by simp [isStop, h1, h2]
  refine ⟨b :: c :: r.takeWhile (fun c => !isStop c), r.dropWhile (fun c => !isStop c), by simp, ?_, ?_, ?_⟩
  · intro d hd
    have : isStop d = false := by
      simp only [List.mem_cons] at hd
      rcases hd with rfl | rfl | hd
      · exact hbs
      · exact hcs
      · have := List.all_takeWhile (l := r) (p := fun c => !isStop c)
        simpa using List.all_eq_true.1 this d hd
    simpa [isStop] using this
  · intro d hd
    have : isStop d = true := by
      have := List.head?_dropWhile_not (fun c => !isStop c) r
      rw [hd] at this
      simpa using this
    simpa [isStop] using this
  · rw [lexOne_iff]
    have hsplit : w ++ b :: c :: r = (w ++ b :: c :: r.takeWhile (fun c => !isStop c)) ++
        r.dropWhile (fun c => !isStop c) := by simp
    rw [hsplit]
    have hlang : Lang Lx.sqlStmt (w ++ b :: c :: r.takeWhile (fun c => !isStop c)) := by
      refine lang_seq.2 ⟨w, _, rfl, hk, ?_⟩
      refine lang_seq.2 ⟨[b], _, rfl, ?_, ?_⟩
      · exact lang_seq.2 ⟨[b], [], rfl, wsnl_iff.2 ⟨b, hb, rfl⟩, .starNil⟩
      · have hd : Lang (.cls true [(59, 59), (125, 125)]) [c] := by
          have e1 : c.toNat ≠ 59 := fun h => h1 (Char.toNat_inj.1 (by rw [h]; rfl))
          have e2 : c.toNat ≠ 125 := fun h => h2 (Char.toNat_inj.1 (by rw [h]; rfl))
          exact lang_cls.2 ⟨c, rfl, by simp [inCls]; omega⟩
        refine lang_seq.2 ⟨[c], _, rfl, hd, lang_not_stop ?_⟩
        intro d hd
        have := List.all_takeWhile (l := r) (p := fun c => !isStop c)
        simpa using List.all_eq_true.1 this d hd
    have hword : ∀ r' ∈ lexRules, r'.ty ≠ .SQL_STMT → ∀ y, y <+: (w ++ b :: c ::
        r.takeWhile (fun c => !isStop c)) ++ r.dropWhile (fun c => !isStop c) → Lang r'.re y →
        y.length ≤ w.length := by
      intro r' hr' hne y hy hl
      refine Classical.byContradiction fun hlt => ?_
      have hwp : w <+: (w ++ b :: c :: r.takeWhile (fun c => !isStop c)) ++
          r.dropWhile (fun c => !isStop c) := ⟨_, by simp; rfl⟩
      obtain ⟨z, rfl⟩ := prefix_of_le hwp hy (by omega)
      rcases rules_verb r' hr' with h | h | h
      · exact hne h
      · cases z with
        | nil => simp at hlt
        | cons d z =>
          rw [List.append_assoc, List.prefix_append_right_inj] at hy
          simp at hy
          have := hl.wordy h d (by simp)
          rw [hy.1, blank_not_word hb] at this
          cases this
      · cases w with
        | nil => exact sqlKw_ne hk
        | cons e w => exact Lang.starts hl (h e (sqlKw_start hk))
    refine IsNext.of_strict (r := { ty := .SQL_STMT, re := Lx.sqlStmt }) sqlRule_mem (by simp)
      ⟨List.prefix_append _ _, hlang, ?_⟩ ?_
    · intro y hy hl
      simp only [Bool.false_eq_true, if_false]
      refine Classical.byContradiction fun hlt => ?_
      obtain ⟨z, rfl⟩ := prefix_of_le (List.prefix_append _ _) hy (by omega)
      rw [List.prefix_append_right_inj] at hy
      cases z with
      | nil => simp at hlt
      | cons d z =>
        obtain ⟨q, hq⟩ := hy
        have : isStop d = true := by
          have := List.head?_dropWhile_not (fun c => !isStop c) r
          rw [← hq] at this
          simpa using this
        simp only [isStop, Bool.or_eq_true, decide_eq_true_eq] at this
        rcases this with rfl | rfl
        · exact absurd (hl.canContain (c := ';') (by simp)) (by decide +kernel)
        · exact absurd (hl.canContain (c := '}') (by simp)) (by decide +kernel)
    · intro r' hr' hne y hy
      have hty : r'.ty ≠ .SQL_STMT := by
        intro h
        apply hne
        exact (by decide +kernel : ∀ r ∈ lexRules, r.ty = .SQL_STMT →
          r = { ty := .SQL_STMT, re := Lx.sqlStmt }) r' hr' h
      have := hword r' hr' hty y hy.1 hy.2.1
      simp
      omega

/-- The verb in mixed case, as a token and as the start of a statement; a
keyword in upper case is an identifier. -/
example : lexOne "SeLect;".toList = some (⟨.SELECT_, "SeLect".toList⟩, false, ";".toList) ∧
    SqlTail " *} x".toList ∧
    lexOne "SeLect *} x".toList = some (⟨.SQL_STMT, "SeLect *".toList⟩, false, "} x".toList) ∧
    wordType "Table".toList = .IDENTIFIER ∧ wordType "table".toList = .TABLE_ := by
  refine ⟨by decide +kernel, ⟨' ', '*', "} x".toList, by decide, by decide, by decide, by decide⟩,
    by decide +kernel, by decide, by decide⟩

/-! ## C45 -/

/-- A comma is not followed by a comma or a closing parenthesis. -/
def commaPair (a b : TT) : Bool := a != .COMMA || (b != .COMMA && b != .R_PAREN)

/-- C45, as far as it holds. In an accepted text no list has a missing element
after a comma. Missing: a list may start with a comma, see `C45_violated`. -/
theorem C45_no_missing_partial (w : World) (s : Str) (sch : Schema) (h : Accepts w s sch) :
    ∃ toks, Tokenises s toks ∧ ∀ t u, [t, u] <:+: visible toks → t.ty = .COMMA →
      u.ty ≠ .COMMA ∧ u.ty ≠ .R_PAREN := by
  obtain ⟨p, hp, _⟩ := h.exists_program
  obtain ⟨l, hl, hs⟩ := writes_of_sentence.1 ⟨p, hp⟩
  refine ⟨l, hl, ?_⟩
  obtain ⟨tree, hs⟩ := hs
  have hR : ∀ r ∈ Rule.all,
      (grammar r).okPairs ruleInfo Rule.all sentenceTypes.contains commaPair = true := by
    decide +kernel
  have hd := (chain_append.1 (gen_described hR hs (by decide)).pairs).1
  rintro t u ⟨a, b, hab⟩ ht
  rw [← hab] at hd
  have := chain_infix (a := a) (t := t) (u := u) (b := b) (by simpa using hd)
  simpa [commaPair, ht] using this

/-- C45 does not hold: `action a(,$x)` is accepted. -/
theorem C45_violated : ∃ w s sch toks, Accepts w s sch ∧ Tokenises s toks ∧
    [kw .L_PAREN, kw .COMMA] <:+: visible toks := by
  let w : World := {
    actParse := fun _ => .ok .dml, sqlCheck := fun _ => none
    report := fun _ => ((1, 0, []), []), crash := fun _ => none }
  let p : Program := ⟨"d".toList, [], [.action ⟨[], "a".toList, ⟨none, ["$x".toList]⟩, [.pub],
    ⟨.sql "select 1".toList, []⟩⟩]⟩
  have hw : Writes "database d; action a(,$x) public {select 1;}".toList p :=
    writes_lit _ rfl (by decide +kernel)
  obtain ⟨l, hl, hv⟩ := id hw
  refine ⟨w, _, p.denote, l, ?_, hl, ?_⟩
  · have h1 : p.fault = none := by decide +kernel
    have h2 : validate w.toEnv p.denote = none := by decide +kernel
    rw [Accepts, parse, hw.parseKF, h1, h2]
    simp [Outcome.err, ErrorList.isErr]
  · rw [hv]
    exact ⟨p.toks.take 5, p.toks.drop 7, by decide +kernel⟩

end Verif
