import Verif.Proof.Boundary
/-!
# White space and comments between tokens
-/

namespace Verif

/-- SQL verbs as tokens. -/
def verbTypes : List TT := [.SELECT_, .INSERT_, .UPDATE_, .DELETE_, .WITH_, .SQL_KEYWORDS]

/-! Words -/

theorem isWord_letter {c : Char} (h : inCls false [(65, 90), (97, 122)] c = true) :
    isWord c = true := by
  simp [inCls, isWord] at *; omega

theorem ident_iff {x : Str} : Lang Lx.ident x ↔
    ∃ c y, x = c :: y ∧ inCls false [(65, 90), (97, 122)] c = true ∧
      ∀ d ∈ y, isWord d = true := by
  constructor
  · intro h
    obtain ⟨a, b, rfl, ha, hb⟩ := lang_seq.1 h
    obtain ⟨c, rfl, hc⟩ := lang_cls.1 ha
    exact ⟨c, b, rfl, hc, hb.wordy (by decide +kernel)⟩
  · rintro ⟨c, y, rfl, hc, hy⟩
    refine lang_seq.2 ⟨[c], y, rfl, lang_cls.2 ⟨c, rfl, hc⟩, ?_⟩
    clear hc
    induction y with
    | nil => exact .starNil
    | cons d y ih =>
      exact Lang.starCons (x := [d]) (lang_cls.2 ⟨d, rfl, hy d (by simp)⟩)
        (ih fun e he => hy e (by simp [he]))

theorem verbInitials_letter : ∀ c ∈ verbInitials, inCls false [(65, 90), (97, 122)] c = true := by
  decide

/-- The rule behind a token. -/
theorem IsNext.rule {s t h rest} (hn : IsNext s t h rest) :
    ∃ r ∈ lexRules, r.ty = t.ty ∧ r.hidden = h ∧ Claims r t.text s := by
  obtain ⟨_, _, b, r, a, he, h1, h2, h3, _⟩ := hn
  exact ⟨r, by rw [he]; simp, h1, h2, h3⟩

/-- No rule that comes earlier matches a whole token, and no rule matches more
(non-greedy rules aside). -/
theorem IsNext.maximal {s t h rest} (hn : IsNext s t h rest) {r' : LexRule} (hr : r' ∈ lexRules)
    (hz : r'.lazy = false) {y : Str} (hy : y <+: s) (hl : Lang r'.re y) :
    y.length ≤ t.text.length := by
  obtain ⟨_, _, b, r, a, he, h1, h2, h3, h4, h5⟩ := hn
  obtain ⟨z, hcz⟩ := claims_exists hy hl
  have hle := claims_longest hz hcz hy hl
  rw [he] at hr
  rcases List.mem_append.1 hr with hr | hr
  · have := h4 r' hr z hcz; omega
  · rcases List.mem_cons.1 hr with rfl | hr
    · exact claims_longest hz h3 hy hl
    · have := h5 r' hr z hcz; omega

theorem rule_mem_ident : ({ ty := .IDENTIFIER, re := Lx.ident } : LexRule) ∈ lexRules := by
  decide +kernel

theorem rules_before_verb : ∀ r ∈ lexRules, r.ty ∉ verbTypes →
    (∃ p ∈ punctTable ++ kwTable, r.re = Lx.lit p.2.toList) ∨
    ∀ q ∈ sqlKwTable, ∃ i j : Nat, lexRules[i]? = some ({ ty := q.1, re := Lx.litCI q.2.toList } : LexRule) ∧
      lexRules[j]? = some r ∧ i < j := by
  have : ∀ i : Fin lexRules.length, (lexRules[i]).ty ∉ verbTypes →
    (∃ p ∈ punctTable ++ kwTable, (lexRules[i]).re = Lx.lit p.2.toList) ∨
    ∀ q ∈ sqlKwTable, ∃ j : Fin lexRules.length,
      lexRules[j] = ({ ty := q.1, re := Lx.litCI q.2.toList } : LexRule) ∧ j < i := by decide +kernel
  intro r hr hty
  obtain ⟨i, hi, rfl⟩ := List.getElem_of_mem hr
  rcases this ⟨i, hi⟩ hty with h | h
  · exact .inl h
  · right
    intro q hq
    obtain ⟨j, hj, hlt⟩ := h q hq
    exact ⟨j, i, by rw [List.getElem?_eq_getElem j.2]; exact congrArg some hj,
      List.getElem?_eq_getElem hi, hlt⟩

theorem lang_lit {w x : Str} : Lang (Lx.lit w) x ↔ x = w := by
  induction w generalizing x with
  | nil => simp [Lx.lit]
  | cons c w ih =>
    cases w with
    | nil => simp [Lx.lit, lang_ch]
    | cons d w =>
      simp only [Lx.lit]
      rw [lang_seq]
      constructor
      · rintro ⟨a, b, rfl, ha, hb⟩
        rw [lang_ch] at ha
        rw [ih] at hb
        subst ha hb
        rfl
      · rintro rfl
        exact ⟨[c], _, rfl, lang_ch.2 rfl, ih.2 rfl⟩

/-- Matching by iterated derivatives. -/
def RE.matches (r : RE) (x : Str) : Bool := (x.foldl (fun r c => r.deriv c) r).nullable

theorem matches_iff (r : RE) (x : Str) : r.matches x = true ↔ Lang r x := by
  unfold RE.matches
  induction x generalizing r with
  | nil => exact nullable_iff r
  | cons c x ih =>
    simp only [List.foldl_cons]
    rw [ih, deriv_iff]

theorem sqlKw_lit : ∀ p ∈ punctTable ++ kwTable, ¬ Lang Lx.sqlKeywords p.2.toList := by
  have : ∀ p ∈ punctTable ++ kwTable, Lx.sqlKeywords.matches p.2.toList = false := by
    decide +kernel
  intro p hp h
  have := this p hp
  rw [(matches_iff _ _).2 h] at this
  cases this

/-- A token that spells an SQL verb is a verb token. -/
theorem verb_ty {s t h rest} (hn : IsNext s t h rest) (hk : Lang Lx.sqlKeywords t.text) :
    t.ty ∈ verbTypes := by
  obtain ⟨hs, _, b, r, a, he, hty, hh, hc, hb, ha⟩ := hn
  have hr : r ∈ lexRules := by rw [he]; simp
  by_cases hv : t.ty ∈ verbTypes
  · exact hv
  exfalso
  rw [← hty] at hv
  rcases rules_before_verb r hr hv with ⟨p, hp, hre⟩ | hq
  · have := hc.2.1
    rw [hre, lang_lit] at this
    rw [this] at hk
    exact sqlKw_lit p hp hk
  · have : ∃ q ∈ sqlKwTable, Lang (Lx.litCI q.2.toList) t.text := by
      simp only [Lx.sqlKeywords, lang_alt] at hk
      rcases hk with h | h | h | h | h
      · exact ⟨(.SELECT_, "select"), by decide, h⟩
      · exact ⟨(.INSERT_, "insert"), by decide, h⟩
      · exact ⟨(.UPDATE_, "update"), by decide, h⟩
      · exact ⟨(.DELETE_, "delete"), by decide, h⟩
      · exact ⟨(.WITH_, "with"), by decide, h⟩
    obtain ⟨q, hqm, hl⟩ := this
    obtain ⟨i, j, hi, hj, hlt⟩ := hq q hqm
    have hjb : j = b.length := by
      have hnd := lexRules_nodup
      have h1 : (lexRules.map (·.ty))[j]? = some r.ty := by simp [hj]
      have h2 : (lexRules.map (·.ty))[b.length]? = some r.ty := by rw [he]; simp
      have hjl : j < (lexRules.map (·.ty)).length := by
        rcases Nat.lt_or_ge j (lexRules.map (·.ty)).length with h | h
        · exact h
        · rw [List.getElem?_eq_none h] at h1; cases h1
      exact (List.getElem?_inj hjl hnd).1 (h1.trans h2.symm)
    have hib : b[i]? = some { ty := q.1, re := Lx.litCI q.2.toList } := by
      rw [he, List.getElem?_append_left (by omega)] at hi
      exact hi
    have hmem := List.mem_of_getElem? hib
    obtain ⟨z, hz⟩ := claims_exists (r := { ty := q.1, re := Lx.litCI q.2.toList })
      (s := s) (y := t.text) hc.1 hl
    have h1 := hb _ hmem z hz
    have h2 := claims_longest (r := { ty := q.1, re := Lx.litCI q.2.toList }) rfl hz hc.1 hl
    omega

theorem Tokenises.cons_inv {s p l} (h : Tokenises s (p :: l)) :
    ∃ rest, IsNext s p.1 p.2 rest ∧ Tokenises rest l := by
  cases h with
  | cons hn ht => exact ⟨_, hn, ht⟩

/-! Single tokens -/

/-- A text that is one token by itself. -/
def Lexeme (t : Tok) (h : Bool) : Prop := IsNext t.text t h []

theorem IsNext.lexeme {s t h rest} (hn : IsNext s t h rest) : Lexeme t h := by
  have hs := hn.1
  subst hs
  have := hn.transfer (n := []) (by
    intro r' _ y hy hlt
    exfalso
    have := hy.1.length_le
    simp at this
    omega)
  simpa [Lexeme] using this

/-- A token followed by a blank is found again. -/
theorem Lexeme.blank {t : Tok} {h : Bool} (hl : Lexeme t h) {c : Char} (hc : c ∈ blanks)
    (h1 : t.ty ≠ .SQL_STMT) (h2 : t.ty ∉ verbTypes) (h3 : t.ty ≠ .LINE_COMMENT) (s : Str) :
    IsNext (t.text ++ c :: s) t h (c :: s) := by
  have hn : IsNext (t.text ++ []) t h [] := by simpa [Lexeme] using hl
  obtain ⟨r, hr, hty, hh, hcl⟩ := hn.rule
  apply hn.transfer
  intro r' hr' y hy hlt
  left
  obtain ⟨z, hz⟩ := prefix_of_le (List.prefix_append t.text (c :: s)) hy.1 (by omega)
  subst hz
  have hz := hy.1
  cases z with
  | nil => simp at hlt
  | cons d z =>
    simp at hz
    obtain ⟨rfl, hz⟩ := hz
    have hnw : isWord d = false := blank_not_word hc
    rcases extend_cases hr hr' hcl.2.1 hn.2.1 ⟨d, by simp, blank_sep hc⟩ hy.2.1 with
      ⟨_, h | ⟨k, hk, hp, c', z', he, hc'⟩⟩ | ⟨h', h | ⟨_, h⟩⟩ | ⟨_, h | ⟨_, h⟩⟩
    · exact absurd (hty ▸ h) h1
    · exfalso
      obtain ⟨m, rfl⟩ := hp
      cases m with
      | nil => simp at hk; exact h2 (verb_ty hn hk)
      | cons e m =>
        simp at he
        obtain ⟨rfl, _⟩ := he
        have := hk.wordy sqlKw_wordy d (by simp)
        rw [hnw] at this; cases this
    · exact ⟨(rules_by_ty r' hr').2.2.2.2.2.2.2.1.2 h', by rw [h', ← hty, h]⟩
    · exfalso; simp at h; subst h; revert hc; decide
    · exact absurd (hty ▸ h) h3
    · exfalso; simp at h; subst h; revert hc; decide

/-! Hidden tokens -/

theorem IsNext.of_strict {r : LexRule} {x rest : Str} (hr : r ∈ lexRules) (hne : x ≠ [])
    (hc : Claims r x (x ++ rest))
    (hs : ∀ r' ∈ lexRules, r' ≠ r → ∀ y, Claims r' y (x ++ rest) → y.length < x.length) :
    IsNext (x ++ rest) ⟨r.ty, x⟩ r.hidden rest := by
  obtain ⟨b, a, he⟩ := List.append_of_mem hr
  have hnd := lexRules_nodup
  rw [he] at hnd
  simp only [List.map_append, List.map_cons] at hnd
  rw [List.nodup_append, List.nodup_cons] at hnd
  refine ⟨rfl, hne, b, r, a, he, rfl, rfl, hc, ?_, ?_⟩
  · intro r' hr' y hy
    refine hs r' (by rw [he]; simp [hr']) ?_ y hy
    rintro rfl
    exact hnd.2.2 _ (List.mem_map.2 ⟨_, hr', rfl⟩) _ (by simp) rfl
  · intro r' hr' y hy
    refine Nat.le_of_lt (hs r' (by rw [he]; simp [hr']) ?_ y hy)
    rintro rfl
    exact hnd.2.1.1 (List.mem_map.2 ⟨_, hr', rfl⟩)

theorem blank_start : ∀ c ∈ blanks, ∃ q ∈ lexRules, q.hidden = true ∧ q.lazy = false ∧
    q.re.deriv c = .eps ∧ ∀ r ∈ lexRules, r ≠ q → r.re.deriv c = .none := by
  decide +kernel

theorem isNext_blank {c : Char} (hc : c ∈ blanks) (s : Str) :
    ∃ t, IsNext (c :: s) t true s ∧ t.text = [c] := by
  obtain ⟨q, hq, hh, hz, hd, ho⟩ := blank_start c hc
  refine ⟨⟨q.ty, [c]⟩, ?_, rfl⟩
  have := IsNext.of_strict (r := q) (x := [c]) (rest := s) hq (by simp) ?_ ?_
  · rw [hh] at this; exact this
  · refine ⟨by simp, (deriv_iff _ _ _).1 (by rw [hd]; exact .eps), ?_⟩
    intro y hy hl
    simp only [hz, Bool.false_eq_true, if_false]
    cases y with
    | nil => simp
    | cons d y =>
      simp at hy
      obtain ⟨rfl, _⟩ := hy
      rw [← deriv_iff, hd] at hl
      simp at hl
      simp [hl]
  · intro r' hr' hne y hy
    cases y with
    | nil => simp
    | cons d y =>
      have h1 := hy.1
      simp at h1
      obtain ⟨rfl, _⟩ := h1
      have h2 := hy.2.1
      rw [← deriv_iff, ho r' hr' hne] at h2
      simp at h2

/-- The rules for comments. -/
def blockRule : LexRule :=
  { ty := .BLOCK_COMMENT, re := Lx.blockComment, lazy := true, hidden := true }
/-- The rules for comments. -/
def lineRule : LexRule := { ty := .LINE_COMMENT, re := Lx.lineComment, hidden := true }

theorem comment_start : blockRule ∈ lexRules ∧ lineRule ∈ lexRules ∧
    (∀ r ∈ lexRules, r ≠ blockRule → (r.re.deriv '/').deriv '*' = .none) ∧
    (∀ r ∈ lexRules, r ≠ lineRule → (r.re.deriv '/').deriv '/' = .none) := by
  decide +kernel

theorem short_of_deriv {r : LexRule} {a b : Char} {s y : Str}
    (h : (r.re.deriv a).deriv b = .none) (hy : Claims r y (a :: b :: s)) : y.length < 2 := by
  match y, hy with
  | [], _ => simp
  | [_], _ => simp
  | c :: d :: y, hy =>
    have h1 := hy.1
    simp at h1
    obtain ⟨rfl, rfl, _⟩ := h1
    have h2 := hy.2.1
    rw [← deriv_iff, ← deriv_iff, h] at h2
    simp at h2

theorem isNext_block {body : Str} (hb : ¬ ['*', '/'] <:+: body ++ ['*']) (s : Str) :
    IsNext (['/', '*'] ++ body ++ ['*', '/'] ++ s)
      ⟨.BLOCK_COMMENT, ['/', '*'] ++ body ++ ['*', '/']⟩ true s := by
  refine IsNext.of_strict (r := blockRule) comment_start.1 (by simp) ?_ ?_
  · refine ⟨List.prefix_append _ _, block_iff.2 ⟨body, rfl⟩, ?_⟩
    intro y hy hl
    obtain ⟨b', rfl⟩ := block_iff.1 hl
    simp only [blockRule, if_true]
    by_cases hlt : b'.length < body.length
    · exfalso
      apply hb
      have h1 : b' ++ ['*', '/'] <+: body ++ ['*', '/'] ++ s := by
        simpa using hy
      have h2 : b' ++ ['*', '/'] <+: body ++ ['*'] := by
        refine prefix_of_le h1 ?_ (by simp; omega)
        exact ⟨'/' :: s, by simp⟩
      exact ((List.suffix_append b' ['*', '/']).isInfix).trans h2.isInfix
    · simp; omega
  · intro r' hr' hne y hy
    have := short_of_deriv (comment_start.2.2.1 r' hr' hne) (by simpa using hy)
    simp; omega

theorem isNext_line {body : Str} (h1 : '\n' ∉ body) (h2 : '\r' ∉ body) (s : Str) :
    IsNext (['/', '/'] ++ body ++ '\n' :: s) ⟨.LINE_COMMENT, ['/', '/'] ++ body⟩ true
      ('\n' :: s) := by
  refine IsNext.of_strict (r := lineRule) comment_start.2.1 (by simp) ?_ ?_
  · refine ⟨List.prefix_append _ _, line_iff.2 ⟨body, rfl, h1, h2⟩, ?_⟩
    intro y hy hl
    obtain ⟨b', rfl, h3, h4⟩ := line_iff.1 hl
    simp only [lineRule, Bool.false_eq_true, if_false]
    by_cases hlt : body.length < b'.length
    · exfalso
      apply h3
      have h1 : b' <+: body ++ '\n' :: s := by simpa using hy
      have h2 : body ++ ['\n'] <+: b' := by
        refine prefix_of_le ⟨s, by simp⟩ h1 (by simp; omega)
      exact h2.subset (by simp)
    · simp; omega
  · intro r' hr' hne y hy
    have := short_of_deriv (comment_start.2.2.2 r' hr' hne) (by simpa using hy)
    simp; omega

/-- Layout lexes to hidden tokens. -/
theorem layout_hidden {sep : Str} (h : Layout sep) {s : Str} {l : List (Tok × Bool)}
    (ht : Tokenises s l) : ∃ k, Tokenises (sep ++ s) (k ++ l) ∧ visible k = [] := by
  induction h with
  | nil => exact ⟨[], ht, rfl⟩
  | @blank c sep hc _ ih =>
    obtain ⟨k, hk, hv⟩ := ih
    obtain ⟨t, hn, _⟩ := isNext_blank hc (sep ++ s)
    exact ⟨(t, true) :: k, .cons hn hk, by simpa [visible] using hv⟩
  | @block body sep hb _ ih =>
    obtain ⟨k, hk, hv⟩ := ih
    have := isNext_block hb (sep ++ s)
    have := Tokenises.cons this hk
    exact ⟨_ :: k, by simpa using this, by simpa [visible] using hv⟩
  | @line body sep h1 h2 _ ih =>
    obtain ⟨k, hk, hv⟩ := ih
    have a := isNext_line h1 h2 (sep ++ s)
    obtain ⟨t, hn, _⟩ := isNext_blank (c := '\n') (by decide) (sep ++ s)
    have := Tokenises.cons a (.cons hn hk)
    exact ⟨_ :: _ :: k, by simpa using this, by simpa [visible] using hv⟩

theorem Layout.append {a b : Str} (ha : Layout a) (hb : Layout b) : Layout (a ++ b) := by
  induction ha with
  | nil => exact hb
  | blank hc _ ih => exact .blank hc ih
  | block h _ ih => simpa using Layout.block h ih
  | line h1 h2 _ ih => simpa using Layout.line h1 h2 ih

theorem visible_append (a b : List (Tok × Bool)) :
    visible (a ++ b) = visible a ++ visible b := by simp [visible]

theorem sqlStmt_extend {x : Str} {d : Char} (h : Lang Lx.sqlStmt x) (h1 : d ≠ ';') (h2 : d ≠ '}') :
    Lang Lx.sqlStmt (x ++ [d]) := by
  obtain ⟨k, y, rfl, hk, hy⟩ := lang_seq.1 h
  obtain ⟨w, z, rfl, hw, hz⟩ := lang_seq.1 hy
  obtain ⟨a, b, rfl, ha, hb⟩ := lang_seq.1 hz
  have e1 : d.toNat ≠ 59 := fun h => h1 (Char.toNat_inj.1 (by rw [h]; rfl))
  have e2 : d.toNat ≠ 125 := fun h => h2 (Char.toNat_inj.1 (by rw [h]; rfl))
  have hd : Lang (.cls true [(59, 59), (125, 125)]) [d] :=
    lang_cls.2 ⟨d, rfl, by simp [inCls]; omega⟩
  have star : ∀ {r : RE} {b : Str}, Lang (.star r) b → Lang r [d] → Lang (.star r) (b ++ [d]) := by
    intro r b hb hd
    generalize hq : RE.star r = q at hb
    induction hb with
    | starNil => cases hq; exact Lang.starCons (y := []) hd .starNil
    | starCons h1 _ _ ih => cases hq; rw [List.append_assoc]; exact .starCons h1 (ih rfl)
    | _ => cases hq
  have : Lang (Lx.plus (.cls true [(59, 59), (125, 125)])) (a ++ b ++ [d]) := by
    rw [List.append_assoc]
    exact lang_seq.2 ⟨a, b ++ [d], rfl, ha, star hb hd⟩
  refine lang_seq.2 ⟨k, w ++ (a ++ b) ++ [d], by simp, hk, ?_⟩
  rw [List.append_assoc]
  exact lang_seq.2 ⟨w, _, rfl, hw, this⟩

theorem sep_not_word {c : Char} (h : c ∈ seps) : isWord c = false := by
  revert h; revert c; decide

theorem star_start : ∀ r ∈ lexRules, r.re.deriv '*' ≠ .none → r.ty = .STAR := by decide +kernel

theorem sqlRule_mem : ({ ty := .SQL_STMT, re := Lx.sqlStmt } : LexRule) ∈ lexRules := by
  decide +kernel

theorem layout_start {c : Char} {sep : Str} (h : Layout (c :: sep)) : c ∈ seps := by
  generalize he : c :: sep = s at h
  cases h with
  | nil => cases he
  | blank hc _ => cases he; exact blank_sep hc
  | block _ _ => simp at he; rw [he.1]; decide
  | line _ _ _ => simp at he; rw [he.1]; decide

/-- Inserting layout at a token boundary. -/
theorem insert_layout {c : Char} {sep s₂ : Str} (hsep : Layout (c :: sep))
    {l₂ : List (Tok × Bool)} :
    ∀ (l₁ : List (Tok × Bool)) (s₁ : Str),
    Tokenises (s₁ ++ s₂) (l₁ ++ l₂) → l₁.flatMap (·.1.text) = s₁ →
    (∀ p, l₁.getLast? = some p → p.1.ty ≠ .SQL_STMT ∧ p.1.ty ≠ .LINE_COMMENT ∧
      (c = '/' → p.1.ty ≠ .DIV)) →
    (∀ p ∈ l₁, p.1.ty ∉ verbTypes) →
    ¬ [TT.DIV, .STAR] <:+: l₁.map (·.1.ty) →
    ∃ k, Tokenises (s₁ ++ (c :: sep ++ s₂)) (l₁ ++ k ++ l₂) ∧ visible k = [] := by
  have hc := layout_start hsep
  intro l₁
  induction l₁ with
  | nil =>
    rintro s₁ ht rfl _ _ _
    obtain ⟨k, hk, hv⟩ := layout_hidden hsep ht
    exact ⟨k, hk, hv⟩
  | cons p l₁ ih =>
    obtain ⟨t, h⟩ := p
    rintro s₁ ht rfl hlast hverb hds
    simp only [List.flatMap_cons] at ht ⊢
    generalize hs' : l₁.flatMap (·.1.text) = s' at ht ih ⊢
    have hcase : ∃ rest, IsNext (t.text ++ s' ++ s₂) t h rest ∧ Tokenises rest (l₁ ++ l₂) := by
      exact ht.cons_inv
    obtain ⟨rest, hn, ht⟩ := hcase
    have hrest : rest = s' ++ s₂ := by
      have := hn.1
      rw [List.append_assoc] at this
      exact (List.append_cancel_left this).symm
    subst hrest
    rw [List.append_assoc] at hn
    obtain ⟨k, hk, hv⟩ := ih s' ht rfl
      (fun p hp => hlast p (by
        cases l₁ with
        | nil => simp at hp
        | cons q l => rw [List.getLast?_cons_cons]; exact hp))
      (fun p hp => hverb p (List.mem_cons_of_mem _ hp))
      (fun hi => hds (by
        simp only [List.map_cons]
        exact hi.trans (List.suffix_cons _ _).isInfix))
    refine ⟨k, ?_, hv⟩
    rw [List.append_assoc t.text s', List.cons_append, List.cons_append]
    refine .cons ?_ hk
    clear hk
    obtain ⟨r, hr, hty, hh, hcl⟩ := hn.rule
    -- if the first remaining token is the last of `l₁`
    have hs'nil : s' = [] → l₁ = [] := by
      intro h0
      cases l₁ with
      | nil => rfl
      | cons q l₁ =>
        exfalso
        have : q.1.text ≠ [] := by
          obtain ⟨_, hn, _⟩ := ht.cons_inv
          exact hn.2.1
        rw [h0] at hs'
        simp at hs'
        exact this hs'.1
    apply hn.transfer
    intro r' hr' y hy hlt
    obtain ⟨v, rfl⟩ := prefix_of_le (List.prefix_append t.text _) hy.1 (by omega)
    have hvp : v <+: s' ++ (c :: sep ++ s₂) := by
      have := hy.1
      rwa [List.prefix_append_right_inj] at this
    by_cases hvs : v.length ≤ s'.length
    · right
      rw [List.prefix_append_right_inj]
      exact (prefix_of_le hvp (List.prefix_append _ _) hvs).trans (List.prefix_append _ _)
    obtain ⟨w, rfl⟩ := prefix_of_le (List.prefix_append s' _) hvp (by omega)
    rw [List.prefix_append_right_inj] at hvp
    cases w with
    | nil => simp at hvs
    | cons d w =>
      simp at hvp
      obtain ⟨rfl, -⟩ := hvp
      have hnw : isWord d = false := sep_not_word hc
      have hr't := rules_by_ty r' hr'
      have hrt := rules_by_ty r hr
      have hhead : ∀ e, (s' ++ d :: w).head? = some e → s' = [] ∧ d = e ∨ ∃ s'', s' = e :: s'' := by
        intro e he
        cases s' with
        | nil => simp at he; exact .inl ⟨rfl, he⟩
        | cons f s'' => simp at he; subst he; exact .inr ⟨_, rfl⟩
      rcases extend_cases hr hr' hcl.2.1 hn.2.1 ⟨d, by simp, hc⟩ hy.2.1 with
        ⟨h', h | ⟨k, hk, hp, c', z', he, hc'⟩⟩ | ⟨h', h | ⟨hdiv, h⟩⟩ | ⟨h', h | ⟨hdiv, h⟩⟩
      · -- an SQL statement stops at `;` or `}`
        exfalso
        cases s' with
        | nil =>
          have := hs'nil rfl
          subst this
          exact (hlast (t, _) rfl).1 (hty ▸ h)
        | cons e s'' =>
          have hsql := hcl.2.1
          rw [hrt.2.1 h] at hsql
          have hy' := hy.2.1
          rw [hr't.2.1 h'] at hy'
          obtain ⟨_, _, _, _, _, _, _, n1, n2⟩ := sqlStmt_split hy'
          have := hn.maximal sqlRule_mem rfl (y := t.text ++ [e]) (by simp)
            (sqlStmt_extend hsql (fun h => n1 (by simp [h])) (fun h => n2 (by simp [h])))
          simp at this; omega
      · exfalso
        have hwordx : ∀ d ∈ t.text, isWord d = true := fun d hd =>
          hk.wordy sqlKw_wordy d (hp.subset hd)
        obtain ⟨m, rfl⟩ := hp
        cases m with
        | nil =>
          simp at hk
          exact hverb (t, h) (by simp) (verb_ty hn hk)
        | cons e m =>
          rw [List.append_assoc] at he
          have he := List.append_cancel_left he
          simp at he
          have hew : isWord e = true := hk.wordy sqlKw_wordy e (by simp)
          rcases hhead e (by rw [he]; simp) with ⟨_, rfl⟩ | ⟨s'', rfl⟩
          · rw [hnw] at hew; cases hew
          · have : Lang Lx.ident (t.text ++ [e]) := by
              rw [ident_iff]
              have hne := hn.2.1
              obtain ⟨a, x', hx⟩ := List.exists_cons_of_ne_nil hne
              refine ⟨a, x' ++ [e], by simp [hx], ?_, ?_⟩
              · apply verbInitials_letter
                rw [hx] at hk
                exact sqlKw_start (x := x' ++ e :: m) (by simpa using hk)
              · intro d hd
                rcases List.mem_append.1 hd with hd | hd
                · exact hwordx d (by simp [hx, hd])
                · simp at hd; subst hd; exact hew
            have := hn.maximal rule_mem_ident rfl (y := t.text ++ [e]) (by simp) this
            simp at this; omega
      · left
        exact ⟨hr't.2.2.2.2.2.2.2.1.2 h', by rw [h', ← hty, h]⟩
      · exfalso
        rcases hhead '*' h with ⟨_, rfl⟩ | ⟨s'', rfl⟩
        · revert hc; decide
        · cases l₁ with
          | nil => simp at hs'
          | cons q l₁ =>
            apply hds
            obtain ⟨rest, hn', _⟩ := ht.cons_inv
            · obtain ⟨t', h''⟩ := q
              simp only at hn'
              have : t'.ty = .STAR := by
                obtain ⟨r1, hr1, hty1, _, hcl1⟩ := hn'.rule
                rw [← hty1]
                apply star_start r1 hr1
                have h1 := hn'.1
                have h2 := hn'.2.1
                cases hx : t'.text with
                | nil => exact absurd hx h2
                | cons f x =>
                  rw [hx] at h1
                  simp at h1
                  obtain ⟨rfl, _⟩ := h1
                  have := hcl1.2.1
                  rw [hx] at this
                  exact this.starts
              exact ⟨[], l₁.map (·.1.ty), by simp [this, ← hty, hdiv]⟩
      · exfalso
        cases s' with
        | nil =>
          have := hs'nil rfl
          subst this
          exact (hlast (t, _) rfl).2.1 (hty ▸ h)
        | cons e s'' =>
          have hline := hcl.2.1
          rw [hrt.2.2.2.2.2.1 h] at hline
          have hy' := hy.2.1
          rw [hr't.2.2.2.2.2.1 h'] at hy'
          obtain ⟨b, hb, n1, n2⟩ := line_iff.1 hy'
          obtain ⟨b1, hb1, n3, n4⟩ := line_iff.1 hline
          rw [hb1] at hb
          simp at hb
          subst hb
          simp at n1 n2
          have := hn.maximal comment_start.2.1 rfl (y := t.text ++ [e]) (by simp)
            (line_iff.2 ⟨b1 ++ [e], by simp [hb1],
              by simp; exact ⟨n3, fun h => n1.2.1 h⟩,
              by simp; exact ⟨n4, fun h => n2.2.1 h⟩⟩)
          simp at this; omega
      · exfalso
        rcases hhead '/' h with ⟨h0, rfl⟩ | ⟨s'', rfl⟩
        · have := hs'nil h0
          subst this
          exact (hlast (t, _) rfl).2.2 rfl (hty ▸ hdiv)
        · have hx := hcl.2.1
          rw [hrt.2.2.2.2.2.2.1 hdiv, lang_ch] at hx
          have := hn.maximal comment_start.2.1 rfl (y := t.text ++ ['/']) (by simp)
            (line_iff.2 ⟨[], by simp [hx], by simp, by simp⟩)
          simp at this; omega

end Verif
