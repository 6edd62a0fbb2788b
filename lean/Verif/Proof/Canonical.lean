import Verif.Spec.Canonical
import Verif.Proof.Names
import Verif.Proof.Glue
/-!
# Texts of tokens, written out
-/

namespace Verif

theorem mem_digits {c : Char} : c ∈ digits ↔ '0' ≤ c ∧ c ≤ '9' := by
  have up : ∀ d : Char, c = d ↔ c.toNat = d.toNat := fun d => Char.toNat_inj.symm
  have e0 : '0'.toNat = 48 := rfl
  have e1 : '1'.toNat = 49 := rfl
  have e2 : '2'.toNat = 50 := rfl
  have e3 : '3'.toNat = 51 := rfl
  have e4 : '4'.toNat = 52 := rfl
  have e5 : '5'.toNat = 53 := rfl
  have e6 : '6'.toNat = 54 := rfl
  have e7 : '7'.toNat = 55 := rfl
  have e8 : '8'.toNat = 56 := rfl
  have e9 : '9'.toNat = 57 := rfl
  simp only [digits, List.mem_cons, List.not_mem_nil, or_false, up, e0, e1, e2, e3, e4, e5, e6,
    e7, e8, e9, Char.le_def, UInt32.le_iff_toNat_le]
  have e : c.toNat = c.val.toNat := rfl
  have a : '0'.val.toNat = 48 := rfl
  have b : '9'.val.toNat = 57 := rfl
  rw [e, a, b]
  omega

theorem isNumber_iff {x : Str} : IsNumber x ↔ Lang (Lx.plus Lx.digit) x := by
  rw [digits_plus]
  simp only [IsNumber, mem_digits]

theorem quotedBody_iff : ∀ (n : Nat) (x : Str), x.length ≤ n →
    ((∃ b, x = b ++ ['\''] ∧ QuotedBody b) ↔ Lang stringTail x) := by
  intro n
  induction n with
  | zero =>
    intro x hx
    have : x = [] := List.eq_nil_of_length_eq_zero (by omega)
    subst this
    constructor
    · rintro ⟨b, h, _⟩; simp at h
    · intro h
      exact absurd h (by rw [← nullable_iff]; decide +kernel)
  | succ n ih =>
    intro x hx
    cases x with
    | nil =>
      constructor
      · rintro ⟨b, h, _⟩; simp at h
      · intro h
        exact absurd h (by rw [← nullable_iff]; decide +kernel)
    | cons c x =>
      simp only [List.length_cons] at hx
      by_cases h1 : c = '\''
      · subst h1
        rw [stringTail_quote]
        constructor
        · rintro ⟨b, h, hb⟩
          cases hb with
          | nil => simpa using h
          | plain _ _ h3 => simp at h; exact absurd h.1.symm h3
          | escape => simp at h
        · rintro rfl
          exact ⟨[], rfl, .nil⟩
      · by_cases h2 : c = '\\'
        · subst h2
          rw [stringTail_backslash]
          constructor
          · rintro ⟨b, h, hb⟩
            cases hb with
            | nil => simp at h
            | plain _ _ _ h4 => simp at h; exact absurd h.1.symm h4
            | @escape d s hs =>
              simp at h
              refine ⟨d, s ++ ['\''], h, ?_⟩
              subst h
              exact (ih _ (by simp at hx ⊢; omega)).1 ⟨s, rfl, hs⟩
          · rintro ⟨d, y, rfl, hy⟩
            obtain ⟨b, rfl, hb⟩ := (ih y (by simp at hx; omega)).2 hy
            exact ⟨'\\' :: d :: b, rfl, .escape hb⟩
        · constructor
          · rintro ⟨b, h, hb⟩
            cases hb with
            | nil => simp at h; exact absurd h.1 h1
            | @plain d s h3 h4 _ _ hs =>
              simp at h
              obtain ⟨rfl, rfl⟩ := h
              have := (ih (s ++ ['\'']) (by omega)).1 ⟨s, rfl, hs⟩
              obtain ⟨u, v, hu, hv, hw⟩ := lang_seq.1 this
              refine lang_seq.2 ⟨c :: u, v, by simp [hu], ?_, hw⟩
              refine Lang.starCons (x := [c]) ?_ hv
              refine .altL (lang_cls.2 ⟨c, rfl, ?_⟩)
              have ne : ∀ d : Char, c ≠ d → c.toNat ≠ d.toNat :=
                fun d hd he => hd (Char.toNat_inj.1 he)
              have a1 := ne _ h1
              have a2 := ne _ h2
              have a3 := ne _ h3
              have a4 := ne _ h4
              have b1 : '\''.toNat = 39 := rfl
              have b2 : '\\'.toNat = 92 := rfl
              have b3 : '\n'.toNat = 10 := rfl
              have b4 : '\r'.toNat = 13 := rfl
              rw [b1] at a1; rw [b2] at a2; rw [b3] at a3; rw [b4] at a4
              simp [inCls]
              omega
            | escape => simp at h; exact absurd h.1 h2
          · intro h
            obtain ⟨h3, h4, hx'⟩ := stringTail_other h1 h2 x h
            obtain ⟨b, rfl, hb⟩ := (ih x (by omega)).2 hx'
            exact ⟨c :: b, rfl, .plain h3 h4 h1 h2 hb⟩

theorem isQuoted_iff {x : Str} : IsQuoted x ↔ Lang Lx.string x := by
  rw [string_tail]
  unfold IsQuoted
  constructor
  · rintro ⟨b, rfl, hb⟩
    exact ⟨_, rfl, (quotedBody_iff _ _ (Nat.le_refl _)).1 ⟨b, rfl, hb⟩⟩
  · rintro ⟨y, rfl, hy⟩
    obtain ⟨b, rfl, hb⟩ := (quotedBody_iff _ _ (Nat.le_refl _)).2 hy
    exact ⟨b, rfl, hb⟩

theorem not_stop_iff {x : Str} : Lang (.star (.cls true [(59, 59), (125, 125)])) x ↔
    ';' ∉ x ∧ '}' ∉ x := by
  constructor
  · intro h
    exact ⟨fun hm => absurd (h.canContain hm) (by decide +kernel),
      fun hm => absurd (h.canContain hm) (by decide +kernel)⟩
  · rintro ⟨h1, h2⟩
    induction x with
    | nil => exact .starNil
    | cons c x ih =>
      simp only [List.mem_cons, not_or] at h1 h2
      refine Lang.starCons (x := [c]) (lang_cls.2 ⟨c, rfl, ?_⟩) (ih h1.2 h2.2)
      have ne : ∀ d : Char, d ≠ c → c.toNat ≠ d.toNat :=
        fun d hd he => hd (Char.toNat_inj.1 he).symm
      have a1 := ne _ h1.1
      have a2 := ne _ h2.1
      have b1 : ';'.toNat = 59 := rfl
      have b2 : '}'.toNat = 125 := rfl
      rw [b1] at a1; rw [b2] at a2
      simp [inCls]
      omega

theorem isSql_iff {x : Str} : IsSql x ↔ Lang Lx.sqlStmt x := by
  constructor
  · rintro ⟨v, c, z, rfl, hv, hc, hz, h1, h2⟩
    obtain ⟨d, z, rfl⟩ := List.exists_cons_of_ne_nil hz
    have hstar := not_stop_iff.2 ⟨h1, h2⟩
    refine lang_seq.2 ⟨v, c :: d :: z, rfl, sqlKw_iff.2 hv, ?_⟩
    refine lang_seq.2 ⟨[c], d :: z, rfl, ?_, ?_⟩
    · exact lang_seq.2 ⟨[c], [], rfl, wsnl_iff.2 ⟨c, hc, rfl⟩, .starNil⟩
    · refine lang_seq.2 ⟨[d], z, rfl, ?_, ?_⟩
      · have hd : inCls true [(59, 59), (125, 125)] d = true := by
          have h1' : ';' ≠ d := by simp at h1; exact h1.1
          have h2' : '}' ≠ d := by simp at h2; exact h2.1
          have ne : ∀ e : Char, e ≠ d → d.toNat ≠ e.toNat :=
            fun e hd he => hd (Char.toNat_inj.1 he).symm
          have a1 := ne _ h1'
          have a2 := ne _ h2'
          have b1 : ';'.toNat = 59 := rfl
          have b2 : '}'.toNat = 125 := rfl
          rw [b1] at a1; rw [b2] at a2
          simp [inCls]
          omega
        exact lang_cls.2 ⟨d, rfl, hd⟩
      · exact not_stop_iff.2 ⟨by simp at h1; exact h1.2, by simp at h2; exact h2.2⟩
  · intro h
    obtain ⟨k, c, z, rfl, hk, hc, hz, h1, h2⟩ := sqlStmt_split h
    refine ⟨k, c, z, rfl, sqlKw_iff.1 hk, hc, hz, ?_, ?_⟩
    · intro hm; exact h1 (by simp [hm])
    · intro hm; exact h2 (by simp [hm])

/-! Which texts are tokens -/

theorem lexeme_of {x : Str} {before after : List LexRule} {r : LexRule} (hne : x ≠ [])
    (he : lexRules = before ++ r :: after) (hz : r.lazy = false) (hl : Lang r.re x)
    (hfirst : ∀ r' ∈ before, ¬ Lang r'.re x) : Lexeme ⟨r.ty, x⟩ r.hidden := by
  have := IsNext.of_first (rest := []) hne he hz hl (by
    intro r' _ y hy _
    simpa using hy.length_le) hfirst
  simpa [Lexeme] using this

theorem split_at (k : Nat) (r : LexRule) (h : lexRules[k]? = some r) :
    lexRules = lexRules.take k ++ r :: lexRules.drop (k + 1) := by
  obtain ⟨hk, rfl⟩ := List.getElem?_eq_some_iff.1 h
  rw [← List.drop_eq_getElem_cons hk, List.take_append_drop]

/-- A sigil and a name. -/
theorem lexeme_sigil {c : Char} {ty : TT} (k : Nat)
    (hk : lexRules[k]? = some { ty := ty, re := .seq (Lx.ch c) Lx.ident })
    (hb : ∀ r ∈ lexRules.take k, r.re.deriv c = .none ∨ r.re.deriv c = .eps) {n : Str}
    (hn : IsName n) : Lexeme ⟨ty, c :: n⟩ false := by
  have := lexeme_of (x := c :: n) (by simp) (split_at k _ hk) rfl
    (lang_seq.2 ⟨[c], n, rfl, lang_ch.2 rfl, isName_iff.1 hn⟩) (by
      intro r hr h
      rw [← deriv_iff] at h
      rcases hb r hr with e | e
      · rw [e] at h; exact lang_none h
      · rw [e] at h
        simp at h
        subst h
        exact hn)
  exact this

theorem lexeme_number {x : Str} (h : IsNumber x) : Lexeme ⟨.UNSIGNED_NUMBER_LITERAL, x⟩ false := by
  obtain ⟨c, y, rfl⟩ := List.exists_cons_of_ne_nil h.1
  have hc : c ∈ digits := mem_digits.2 (h.2 c (by simp))
  have hb : ∀ r ∈ lexRules.take 76, ∀ c ∈ digits, r.re.deriv c = .none := by decide +kernel
  exact lexeme_of (x := c :: y) (by simp)
    (split_at 76 { ty := .UNSIGNED_NUMBER_LITERAL, re := Lx.plus Lx.digit } (by decide +kernel)) rfl
    (isNumber_iff.1 h) (by
      intro r hr hl
      exact hl.starts (hb r hr c hc))

theorem lexeme_string {x : Str} (h : IsQuoted x) : Lexeme ⟨.STRING_LITERAL, x⟩ false := by
  obtain ⟨b, rfl, hb⟩ := h
  have hbf : ∀ r ∈ lexRules.take 77, r.re.deriv '\'' = .none := by decide +kernel
  exact lexeme_of (x := '\'' :: (b ++ ['\''])) (by simp)
    (split_at 77 { ty := .STRING_LITERAL, re := Lx.string } (by decide +kernel)) rfl
    (isQuoted_iff.1 ⟨b, rfl, hb⟩) (by
      intro r hr hl
      exact hl.starts (hbf r hr))

theorem lexeme_sql {x : Str} (h : IsSql x) : Lexeme ⟨.SQL_STMT, x⟩ false := by
  have hl := isSql_iff.1 h
  obtain ⟨v, c, z, rfl, hv, hc, hz, h1, h2⟩ := h
  have hb : ∀ r ∈ lexRules.take 79, r.re.wordy = true ∨ ∀ c ∈ verbInitials, r.re.deriv c = .none := by
    decide +kernel
  refine lexeme_of (by simp)
    (split_at 79 { ty := .SQL_STMT, re := Lx.sqlStmt } (by decide +kernel)) rfl hl ?_
  intro r hr hl
  rcases hb r hr with hw | hd
  · have := hl.wordy hw c (by simp)
    rw [blank_not_word hc] at this
    simp at this
  · cases v with
    | nil => exact sqlKw_ne (sqlKw_iff.2 hv)
    | cons a v => exact hl.starts (hd a (sqlKw_start (sqlKw_iff.2 hv)))

theorem fixed_lexeme : ∀ ty ∈ TT.all, ty ≠ .EOF → ∀ w ∈ ty.fixed.toList,
    lexOne w = some (⟨ty, w⟩, false, []) := by
  decide +kernel

theorem TT.mem_all (t : TT) : t ∈ TT.all := by cases t <;> decide

theorem WellSpelt.lexeme {t : Tok} (h : WellSpelt t) : Lexeme t false := by
  obtain ⟨ty, x⟩ := t
  have hf : ty ≠ .EOF → ty.fixed = some x → Lexeme ⟨ty, x⟩ false := fun h1 h2 =>
    (lexOne_iff _ _ _ _).1 (fixed_lexeme ty (TT.mem_all ty) h1 x (by simp [h2]))
  have d3 : ∀ r ∈ lexRules.take 73, r.re.deriv '#' = .none ∨ r.re.deriv '#' = .eps := by
    decide +kernel
  have d4 : ∀ r ∈ lexRules.take 74, r.re.deriv '$' = .none ∨ r.re.deriv '$' = .eps := by
    decide +kernel
  have d5 : ∀ r ∈ lexRules.take 75, r.re.deriv '@' = .none ∨ r.re.deriv '@' = .eps := by
    decide +kernel
  unfold WellSpelt at h
  split at h
  · rename_i e; cases e; exact lexeme_ident.2 h
  · rename_i e; cases e
    obtain ⟨n, rfl, hn⟩ := h
    exact lexeme_sigil 73 (by decide +kernel) d3 hn
  · rename_i e; cases e
    obtain ⟨n, rfl, hn⟩ := h
    exact lexeme_sigil 74 (by decide +kernel) d4 hn
  · rename_i e; cases e
    obtain ⟨n, rfl, hn⟩ := h
    exact lexeme_sigil 75 (by decide +kernel) d5 hn
  · rename_i e; cases e; exact lexeme_number h
  · rename_i e; cases e; exact lexeme_string h
  · rename_i e; cases e; exact lexeme_sql h
  · exact h.elim
  · rename_i hne; exact hf (by intro e; subst e; simp_all) h

theorem fixed_sentence : ∀ ty ∈ sentenceTypes, ty.fixed.isSome = true ∨
    ty ∈ [TT.IDENTIFIER, .INDEX_NAME, .PARAM_OR_VAR, .BLOCK_VAR_OR_ANNOTATION,
      .UNSIGNED_NUMBER_LITERAL, .STRING_LITERAL, .SQL_STMT] := by
  decide +kernel

theorem Lexeme.wellSpelt {t : Tok} (h : Lexeme t false) (ht : t.ty ∈ sentenceTypes) :
    WellSpelt t := by
  have hr := IsNext.rule h
  obtain ⟨ty, x⟩ := t
  have f := h.form
  unfold WellSpelt
  split
  · rename_i e; cases e; exact lexeme_ident.1 h
  · rename_i e; cases e; exact lexeme_index h
  · rename_i e; cases e; exact lexeme_var h
  · rename_i e; cases e; exact lexeme_block h
  · rename_i e; cases e; exact isNumber_iff.2 (f.2.2.2.2.2.1 rfl)
  · rename_i e; cases e; exact isQuoted_iff.2 (f.2.2.2.2.2.2.1 rfl)
  · rename_i e; cases e; exact isSql_iff.2 (f.2.2.2.2.2.2.2 rfl)
  · rename_i e; cases e
    obtain ⟨r, hr, e, _⟩ := hr
    exact (by decide +kernel : ∀ r ∈ lexRules, r.ty ≠ .EOF) r hr e
  · rename_i h1 h2 h3 h4 h5 h6 h7 h8
    rcases fixed_sentence ty ht with hs | hs
    · obtain ⟨w, hw⟩ := Option.isSome_iff_exists.1 hs
      rw [hw, f.1 w hw]
    · simp at hs
      simp only at h1 h2 h3 h4 h5 h6 h7 h8
      rcases hs with e | e | e | e | e | e | e <;> subst e <;> simp_all

/-! Tokenising spaced tokens -/

theorem spaced_writes {ts : List Tok} (h : ∀ t ∈ ts, WellSpelt t)
    (hty : ∀ t ∈ ts, t.ty ∈ sentenceTypes) (hp : Chain sentencePair (ts ++ [Tok.eof])) :
    ∃ l, Tokenises (spaced ts) l ∧ visible l = ts := by
  induction ts with
  | nil => exact ⟨[], .nil, rfl⟩
  | cons t ts ih =>
    obtain ⟨l, hl, hv⟩ := ih (fun u hu => h u (by simp [hu])) (fun u hu => hty u (by simp [hu])) hp.2
    have hlex := (h t (by simp)).lexeme
    by_cases hs : t.ty = .SQL_STMT
    · have hsp : spaced (t :: ts) = t.text ++ spaced ts := by simp [spaced, hs]
      refine ⟨(t, false) :: l, ?_, by simp [visible] at hv ⊢; exact hv⟩
      rw [hsp]
      refine .cons ?_ hl
      cases ts with
      | nil =>
        have := hp.1 Tok.eof (by simp)
        simp [hs, sentencePair] at this
        exact absurd this (by decide)
      | cons u us =>
        have hu := hp.1 u (by simp)
        simp [hs, sentencePair] at hu
        have hut : u.text = [';'] := by
          have := h u (by simp)
          unfold WellSpelt at this
          rw [hu] at this
          simp [TT.fixed] at this
          exact this.symm
        refine IsNext.stop hlex ?_
        intro r hr d z hd z' hl'
        have hd' : d = ';' := by
          simp [spaced, hut] at hd
          exact hd.1.symm
        subst hd'
        have hsql : Lang Lx.sqlStmt t.text := hlex.form.2.2.2.2.2.2.2 hs
        obtain ⟨k, c, y, hk, hkw, hc, _⟩ := sqlStmt_split hsql
        rcases rules_verb r hr with e | e | e
        · have := (rules_by_ty r hr).2.1 e
          rw [this] at hl'
          exact absurd (hl'.canContain (c := ';') (by simp)) (by decide +kernel)
        · have := hl'.wordy e ';' (by simp)
          exact absurd this (by decide)
        · cases k with
          | nil => exact sqlKw_ne hkw
          | cons a k =>
            rw [hk] at hl'
            exact hl'.starts (e a (sqlKw_start hkw))
    · have hsp : spaced (t :: ts) = t.text ++ ' ' :: spaced ts := by simp [spaced, hs]
      obtain ⟨b, hb, _⟩ := isNext_blank (c := ' ') (by simp [blanks]) (spaced ts)
      refine ⟨(t, false) :: (b, true) :: l, ?_, by simp [visible] at hv ⊢; exact hv⟩
      rw [hsp]
      refine .cons (hlex.blank (by simp [blanks]) hs ?_ ?_ _) (.cons hb hl)
      · have := hty t (by simp)
        intro hm
        exact absurd this ((by decide : ∀ ty ∈ verbTypes, ty ∉ sentenceTypes) _ hm)
      · have := hty t (by simp)
        intro hm
        rw [hm] at this
        exact absurd this (by decide)

theorem Program.sentence (p : Program) : Sentence p.toks := ⟨p.tree, p.gen⟩

theorem Program.writes_text (p : Program) (h : ∀ t ∈ p.toks, WellSpelt t) : Writes p.text p :=
  spaced_writes h (sentence_types p.sentence) (sentence_described p.sentence).pairs

theorem Writes.wellSpelt {s : Str} {p : Program} (h : Writes s p) : ∀ t ∈ p.toks, WellSpelt t :=
  fun t ht => (h.lexemes t ht).wellSpelt (sentence_types p.sentence t ht)

end Verif
