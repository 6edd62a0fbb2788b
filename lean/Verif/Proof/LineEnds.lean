import Verif.Spec.LineEnds
import Verif.Proof.Insert
import Verif.Proof.Truncate
import Verif.Proof.Canonical
/-!
# Line ends: tokens
-/

namespace Verif

set_option Elab.async false

@[simp] theorem crlf_nil : crlf [] = [] := rfl

theorem crlf_append (a b : Str) : crlf (a ++ b) = crlf a ++ crlf b := by simp [crlf]

theorem crlf_cons {c : Char} (h : c ≠ '\n') (s : Str) : crlf (c :: s) = c :: crlf s := by
  simp [crlf, h]

theorem crlf_nl (s : Str) : crlf ('\n' :: s) = '\r' :: '\n' :: crlf s := by simp [crlf]

theorem crlf_same {s : Str} (h : '\n' ∉ s) : crlf s = s := by
  induction s with
  | nil => rfl
  | cons c s ih =>
    simp at h
    rw [crlf_cons (fun e => h.1 e.symm), ih h.2]

theorem crlf_ne {s : Str} (h : s ≠ []) : crlf s ≠ [] := by
  cases s with
  | nil => exact absurd rfl h
  | cons c s =>
    by_cases e : c = '\n'
    · subst e; rw [crlf_nl]; simp
    · rw [crlf_cons e]; simp

theorem mem_crlf {c : Char} {s : Str} (h : c ∈ crlf s) : c ∈ s ∨ c = '\r' := by
  induction s with
  | nil => exact absurd h (by simp)
  | cons d s ih =>
    by_cases e : d = '\n'
    · subst e
      rw [crlf_nl] at h
      simp at h ⊢
      rcases h with rfl | rfl | h
      · exact .inr rfl
      · exact .inl (.inl rfl)
      · rcases ih h with h | h
        · exact .inl (.inr h)
        · exact .inr h
    · rw [crlf_cons e] at h
      simp at h ⊢
      rcases h with rfl | h
      · exact .inl (.inl rfl)
      · rcases ih h with h | h
        · exact .inl (.inr h)
        · exact .inr h

/-- Prefixes without separators are kept. -/
theorem crlf_prefix {v o : Str} (h : v <+: crlf o) (hv : ∀ c ∈ v, c ∉ seps) : v <+: o := by
  induction v generalizing o with
  | nil => exact List.nil_prefix
  | cons d v ih =>
    cases o with
    | nil => simp at h
    | cons c o =>
      by_cases e : c = '\n'
      · subst e
        rw [crlf_nl] at h
        have := (List.cons_prefix_cons.1 h).1
        exact absurd (by rw [this]; decide) (hv d (by simp))
      · rw [crlf_cons e] at h
        obtain ⟨rfl, h'⟩ := List.cons_prefix_cons.1 h
        exact List.cons_prefix_cons.2 ⟨rfl, ih h' fun c hc => hv c (by simp [hc])⟩

theorem crlf_head {s : Str} {c : Char} (h : (crlf s).head? = some c) (h1 : c ≠ '\r') : s.head? = some c := by
  cases s with
  | nil => exact h
  | cons d s =>
    by_cases e : d = '\n'
    · subst e
      rw [crlf_nl] at h
      simp at h
      exact absurd h.symm h1
    · rw [crlf_cons e] at h
      simpa using h

/-! ## Single tokens -/

theorem sqlKw_rule : ({ ty := .SQL_KEYWORDS, re := Lx.sqlKeywords } : LexRule) ∈ lexRules := by
  decide +kernel

/-- A token stays the next one if the text after it changes in such a way. -/
theorem IsNext.reline {t : Tok} {h : Bool} {o n : Str} (hn : IsNext (t.text ++ o) t h o)
    (h1 : t.ty ≠ .SQL_STMT) (h2 : t.ty ∉ verbTypes) (h3 : t.ty ≠ .LINE_COMMENT)
    (hd : t.ty = .DIV → n.head? ≠ some '*' ∧ n.head? ≠ some '/')
    (hp : ∀ v, v <+: n → (∀ c ∈ v, c ∉ seps) → v <+: o) : IsNext (t.text ++ n) t h n := by
  obtain ⟨r, hr, hty, _, hcl⟩ := hn.rule
  apply hn.transfer
  intro r' hr' y hy hlt
  obtain ⟨v, rfl⟩ := prefix_of_le (List.prefix_append t.text n) hy.1 (by omega)
  have hv : v <+: n := by
    have := hy.1
    rwa [List.prefix_append_right_inj] at this
  have hvh : ∀ c, v.head? = some c → n.head? = some c := by
    intro c hc
    obtain ⟨z, rfl⟩ := hv
    cases v with
    | nil => cases hc
    | cons d v => exact hc
  by_cases hs : ∃ c ∈ v, c ∈ seps
  · left
    rcases extend_cases hr hr' hcl.2.1 hn.2.1 hs hy.2.1 with
      ⟨_, h | ⟨k, hk, hpk, c, z, he, hc⟩⟩ | ⟨h', h | ⟨h, hh⟩⟩ | ⟨_, h | ⟨h, hh⟩⟩
    · exact absurd (hty ▸ h) h1
    · exfalso
      obtain ⟨m, rfl⟩ := hpk
      cases hm : m with
      | nil =>
        rw [hm] at hk
        simp at hk
        exact h2 (verb_ty hn hk)
      | cons e m' =>
        rw [List.append_assoc] at he
        have he := List.append_cancel_left he
        have hw : ∀ c ∈ m, c ∉ seps := by
          intro c hc hcs
          have := hk.wordy sqlKw_wordy c (by simp [hc])
          rw [sep_not_word hcs] at this
          cases this
        have hmo : m <+: o := hp m ((he ▸ List.prefix_append m _ : m <+: v).trans hv) hw
        have := hn.maximal sqlKw_rule rfl ((List.prefix_append_right_inj t.text).2 hmo) hk
        simp [hm] at this
        omega
    · exact ⟨(rules_by_ty r' hr').2.2.2.2.2.2.2.1.2 h', by rw [h', ← hty, h]⟩
    · exact absurd (hvh _ hh) (hd (hty ▸ h)).1
    · exact absurd (hty ▸ h) h3
    · exact absurd (hvh _ hh) (hd (hty ▸ h)).2
  · right
    rw [List.prefix_append_right_inj]
    exact hp v hv fun c hc hcs => hs ⟨c, hc, hcs⟩

theorem isSql_crlf {x : Str} (h : IsSql x) : IsSql (crlf x) := by
  obtain ⟨v, c, z, rfl, hv, hc, hz, h1, h2⟩ := h
  have hw : '\n' ∉ v := fun hm => by
    have := (sqlKw_iff.2 hv).wordy sqlKw_wordy _ hm
    revert this; decide
  have hz1 : ';' ∉ crlf z := fun h => by
    rcases mem_crlf h with h | h
    · exact h1 h
    · revert h; decide
  have hz2 : '}' ∉ crlf z := fun h => by
    rcases mem_crlf h with h | h
    · exact h2 h
    · revert h; decide
  rw [crlf_append, crlf_same hw]
  by_cases e : c = '\n'
  · subst e
    rw [crlf_nl]
    refine ⟨v, '\r', '\n' :: crlf z, rfl, hv, by decide, by simp, ?_, ?_⟩
    · simpa using hz1
    · simpa using hz2
  · rw [crlf_cons e]
    exact ⟨v, c, crlf z, rfl, hv, hc, crlf_ne hz, hz1, hz2⟩

/-- What can come after an SQL statement. -/
theorem IsNext.sql_end {t : Tok} {h : Bool} {o : Str} (hn : IsNext (t.text ++ o) t h o) (ht : t.ty = .SQL_STMT)
    {c : Char} (hc : o.head? = some c) : c = ';' ∨ c = '}' := by
  cases o with
  | nil => cases hc
  | cons d o =>
    simp at hc
    subst hc
    by_cases h1 : d = ';'
    · exact .inl h1
    · by_cases h2 : d = '}'
      · exact .inr h2
      · exfalso
        have hl := sqlStmt_extend (hn.form.2.2.2.2.2.2.2 ht) h1 h2
        have := hn.maximal sqlRule_mem rfl ⟨o, by simp⟩ hl
        simp at this
        omega

theorem isNext_sql {x n : Str} (h : IsSql x) (hn : ∀ c, n.head? = some c → c = ';' ∨ c = '}') :
    IsNext (x ++ n) ⟨.SQL_STMT, x⟩ false n := by
  have h0 : IsNext ((⟨.SQL_STMT, x⟩ : Tok).text ++ []) ⟨.SQL_STMT, x⟩ false [] := by
    simpa [Lexeme] using lexeme_sql h
  refine h0.transfer (n := n) ?_
  intro r' hr' y hy hlt
  exfalso
  obtain ⟨v, rfl⟩ := prefix_of_le (List.prefix_append x n) hy.1 (Nat.le_of_lt hlt)
  have hv : v <+: n := by
    have := hy.1
    rwa [List.prefix_append_right_inj] at this
  cases v with
  | nil => simp at hlt
  | cons d v =>
    have hd : d = ';' ∨ d = '}' := by
      obtain ⟨z, rfl⟩ := hv
      exact hn d rfl
    obtain ⟨k, c, z, rfl, hk, hc, _⟩ := h
    rcases rules_verb r' hr' with hs | hs | hs
    · have hl := hy.2.1
      rw [(rules_by_ty r' hr').2.1 hs] at hl
      obtain ⟨_, _, _, _, _, _, _, g1, g2⟩ := sqlStmt_split hl
      rcases hd with rfl | rfl
      · exact g1 (by simp)
      · exact g2 (by simp)
    · have := hy.2.1.wordy hs c (by simp)
      rw [blank_not_word hc] at this
      cases this
    · cases k with
      | nil => exact sqlKw_ne (sqlKw_iff.2 hk)
      | cons a k => exact hy.2.1.starts (hs a (sqlKw_start (sqlKw_iff.2 hk)))

theorem isNext_line_any {body n : Str} (h1 : '\n' ∉ body) (h2 : '\r' ∉ body)
    (hn : ∀ c, n.head? = some c → c = '\n' ∨ c = '\r') :
    IsNext (['/', '/'] ++ body ++ n) ⟨.LINE_COMMENT, ['/', '/'] ++ body⟩ true n := by
  have h0 := isNext_line h1 h2 []
  refine IsNext.transfer (t := ⟨.LINE_COMMENT, ['/', '/'] ++ body⟩) (n := n) h0 ?_
  intro r' hr' y hy hlt
  exfalso
  obtain ⟨v, rfl⟩ := prefix_of_le (List.prefix_append (['/', '/'] ++ body) n) hy.1 (Nat.le_of_lt hlt)
  have hv : v <+: n := by
    have := hy.1
    rwa [List.prefix_append_right_inj] at this
  cases v with
  | nil => simp at hlt
  | cons d v =>
    have hd : d = '\n' ∨ d = '\r' := by
      obtain ⟨z, rfl⟩ := hv
      exact hn d rfl
    have ht := rules_slash r' hr' (by
      have := hy.2.1
      exact Lang.starts (x := '/' :: (body ++ d :: v)) (by simpa using this))
    have tr := rules_by_ty r' hr'
    simp only [List.mem_cons, List.not_mem_nil, or_false] at ht
    have hl := hy.2.1
    rcases ht with h | h | h
    · rw [tr.2.2.2.2.2.2.1 h, lang_ch] at hl
      simp at hl
    · rw [tr.2.2.2.2.1 h] at hl
      obtain ⟨b, hb⟩ := block_iff.1 hl
      simp at hb
    · rw [tr.2.2.2.2.2.1 h] at hl
      obtain ⟨b, hb, g1, g2⟩ := line_iff.1 hl
      simp at hb
      subst hb
      rcases hd with rfl | rfl
      · exact g1 (by simp)
      · exact g2 (by simp)

theorem IsNext.line_end {t : Tok} {h : Bool} {o : Str} (hn : IsNext (t.text ++ o) t h o) (ht : t.ty = .LINE_COMMENT)
    {c : Char} (hc : o.head? = some c) : c = '\n' ∨ c = '\r' := by
  obtain ⟨r, hr, hty, _, hcl⟩ := hn.rule
  have hl := hcl.2.1
  rw [(rules_by_ty r hr).2.2.2.2.2.1 (hty.trans ht)] at hl
  obtain ⟨b, hb, g1, g2⟩ := line_iff.1 hl
  cases o with
  | nil => cases hc
  | cons d o =>
    simp at hc
    subst hc
    by_cases h1 : d = '\n'
    · exact .inl h1
    · by_cases h2 : d = '\r'
      · exact .inr h2
      · exfalso
        have hl' : Lang lineRule.re (t.text ++ [d]) := by
          refine line_iff.2 ⟨b ++ [d], by rw [hb]; simp, ?_, ?_⟩
          · simp; exact ⟨g1, fun e => h1 e.symm⟩
          · simp; exact ⟨g2, fun e => h2 e.symm⟩
        have := hn.maximal comment_start.2.1 rfl ⟨o, by simp⟩ hl'
        simp at this
        omega

/-- A block comment. -/
theorem IsNext.block_body {t : Tok} {h : Bool} {o : Str} (hn : IsNext (t.text ++ o) t h o)
    (ht : t.ty = .BLOCK_COMMENT) :
    ∃ body, t.text = ['/', '*'] ++ body ++ ['*', '/'] ∧ ¬ ['*', '/'] <:+: body ++ ['*'] := by
  obtain ⟨r, hr, hty, _, hcl⟩ := hn.rule
  have hre := (rules_by_ty r hr).2.2.2.2.1 (hty.trans ht)
  have hz : r.lazy = true := (rules_by_ty r hr).2.2.2.2.2.2.2.1.2 (hty.trans ht)
  have hl := hcl.2.1
  rw [hre] at hl
  obtain ⟨body, hb⟩ := block_iff.1 hl
  refine ⟨body, hb, ?_⟩
  rintro ⟨a, z, he⟩
  have hshort : ['/', '*'] ++ a ++ ['*', '/'] <+: t.text ++ o := by
    refine (?_ : ['/', '*'] ++ a ++ ['*', '/'] <+: t.text).trans (List.prefix_append _ _)
    rw [hb]
    refine ⟨z ++ ['/'], ?_⟩
    have : body ++ ['*', '/'] = (body ++ ['*']) ++ ['/'] := by simp
    rw [List.append_assoc _ body, this, ← he]
    simp
  have := hcl.2.2 _ hshort (by rw [hre]; exact block_iff.2 ⟨a, rfl⟩)
  rw [if_pos hz, hb] at this
  have hlen := congrArg List.length he
  simp at this hlen
  omega

theorem crlf_block {body : Str} (h : ¬ ['*', '/'] <:+: body ++ ['*']) :
    ¬ ['*', '/'] <:+: crlf body ++ ['*'] := by
  have e : crlf body ++ ['*'] = crlf (body ++ ['*']) := by rw [crlf_append]; rfl
  rw [e]
  generalize body ++ ['*'] = s at h
  intro hi
  apply h
  induction s with
  | nil => exact hi
  | cons c s ih =>
    by_cases ec : c = '\n'
    · subst ec
      rw [crlf_nl] at hi
      rcases List.infix_cons_iff.1 hi with hi | hi
      · exact absurd (List.cons_prefix_cons.1 hi).1 (by decide)
      · rcases List.infix_cons_iff.1 hi with hi | hi
        · exact absurd (List.cons_prefix_cons.1 hi).1 (by decide)
        · exact (ih (fun g => h (g.trans (List.suffix_cons _ _).isInfix)) hi).trans (List.suffix_cons _ _).isInfix
    · rw [crlf_cons ec] at hi
      rcases List.infix_cons_iff.1 hi with hi | hi
      · refine (?_ : ['*', '/'] <+: c :: s).isInfix
        obtain ⟨e1, e2⟩ := List.cons_prefix_cons.1 hi
        refine List.cons_prefix_cons.2 ⟨e1, ?_⟩
        cases s with
        | nil => exact e2
        | cons d s =>
          by_cases ed : d = '\n'
          · subst ed
            rw [crlf_nl] at e2
            exact absurd (List.cons_prefix_cons.1 e2).1 (by decide)
          · rw [crlf_cons ed] at e2
            exact List.cons_prefix_cons.2 ⟨(List.cons_prefix_cons.1 e2).1, List.nil_prefix⟩
      · exact (ih (fun g => h (g.trans (List.suffix_cons _ _).isInfix)) hi).trans (List.suffix_cons _ _).isInfix

/-! ## Whole texts -/

/-- Only escaped line feeds can be in strings. -/
theorem stringTail_nl : ∀ (n : Nat) (x : Str), x.length ≤ n → Lang stringTail x → '\n' ∈ x →
    ['\\', '\n'] <:+: x := by
  intro n
  induction n with
  | zero =>
    intro x hx _ hm
    have : x = [] := List.eq_nil_of_length_eq_zero (by omega)
    subst this
    cases hm
  | succ n ih =>
    intro x hx h hm
    cases x with
    | nil => cases hm
    | cons c x =>
      by_cases h1 : c = '\''
      · subst h1
        rw [stringTail_quote] at h
        subst h
        simp at hm
      · by_cases h2 : c = '\\'
        · subst h2
          obtain ⟨d, y, rfl, hy⟩ := (stringTail_backslash _).1 h
          by_cases hd : d = '\n'
          · subst hd
            exact (List.prefix_append ['\\', '\n'] y).isInfix
          · have hm' : '\n' ∈ y := by
              simp only [List.mem_cons] at hm
              rcases hm with hm | hm | hm
              · exact absurd hm (by decide)
              · exact absurd hm.symm hd
              · exact hm
            exact ((ih y (by simp at hx; omega) hy hm').trans (List.suffix_cons _ _).isInfix).trans
              (List.suffix_cons _ _).isInfix
        · have a := stringTail_other h1 h2 x h
          have hm' : '\n' ∈ x := by
            simp only [List.mem_cons] at hm
            rcases hm with hm | hm
            · exact absurd hm.symm a.1
            · exact hm
          exact (ih x (by simp at hx; omega) a.2.2 hm').trans (List.suffix_cons _ _).isInfix

theorem string_nl {x : Str} (h : Lang Lx.string x) (hm : '\n' ∈ x) : ['\\', '\n'] <:+: x := by
  obtain ⟨y, rfl, hy⟩ := string_tail.1 h
  have hm' : '\n' ∈ y := by
    simp only [List.mem_cons] at hm
    rcases hm with hm | hm
    · exact absurd hm (by decide)
    · exact hm
  exact (stringTail_nl _ y (Nat.le_refl _) hy hm').trans (List.suffix_cons _ _).isInfix

/-- The conversion of a token. -/
def Tok.crlf (t : Tok) : Tok := ⟨t.ty, Verif.crlf t.text⟩

/-- Tokens without line feeds. -/
theorem IsNext.no_nl {t : Tok} {h : Bool} {s o : Str} (hn : IsNext s t h o) (h1 : t.ty ≠ .SQL_STMT)
    (h2 : t.ty = .STRING_LITERAL → '\n' ∉ t.text) (h3 : h = false) : '\n' ∉ t.text := by
  intro hm
  obtain ⟨r, hr, hty, hh, hcl⟩ := hn.rule
  have hc := rules_blank '\n' (by decide) r hr (hcl.2.1.canContain hm)
  have hid := (rules_by_ty r hr).2.2.2.2.2.2.2.2
  rw [hh, h3] at hid
  simp only [List.mem_cons, List.not_mem_nil, or_false] at hc hid
  rcases hc with e | e | e | e | e | e | e
  · exact h2 (hty ▸ e) hm
  · exact h1 (hty ▸ e)
  · simp [e] at hid
  · simp [e] at hid
  · simp [e] at hid
  · simp [e] at hid
  · have hl := hcl.2.1
    rw [(rules_by_ty r hr).2.2.2.2.2.2.1 e, lang_ch] at hl
    rw [hl] at hm
    revert hm; decide

theorem visible_cons (t : Tok) (h : Bool) (l : List (Tok × Bool)) :
    visible ((t, h) :: l) = if h then visible l else t :: visible l := by
  cases h <;> rfl

/-- The tokens of the converted text are the converted tokens. -/
theorem crlf_tokens {s l} (h : Tokenises s l) (h1 : ∀ p ∈ l, p.1.ty ∉ verbTypes)
    (h2 : ¬ [TT.DIV, .STAR] <:+: l.map (·.1.ty))
    (h3 : ∀ p ∈ l, p.1.ty = .STRING_LITERAL → '\n' ∉ p.1.text) :
    ∃ k, Tokenises (crlf s) k ∧ visible k = (visible l).map Tok.crlf := by
  induction h with
  | nil => exact ⟨[], .nil, rfl⟩
  | @cons s rest t hd l hn ht ih =>
    obtain ⟨k, hk, hv⟩ := ih (fun p hp => h1 p (List.mem_cons_of_mem _ hp))
      (fun hi => h2 (by
        simp only [List.map_cons]
        exact hi.trans (List.suffix_cons _ _).isInfix))
      (fun p hp => h3 p (List.mem_cons_of_mem _ hp))
    have hs := hn.1
    subst hs
    rw [crlf_append]
    obtain ⟨r, hr, hty, hh, hcl⟩ := hn.rule
    have tr := rules_by_ty r hr
    by_cases hsql : t.ty = .SQL_STMT
    · -- a statement
      have hq := isSql_iff.2 (hn.form.2.2.2.2.2.2.2 hsql)
      have hf : hd = false := by
        have := tr.2.2.2.2.2.2.2.2
        rw [hh, hty, hsql] at this
        cases hd with
        | false => rfl
        | true => exact absurd (this.1 rfl) (by decide)
      refine ⟨(⟨.SQL_STMT, crlf t.text⟩, false) :: k, .cons (isNext_sql (isSql_crlf hq) ?_) hk, ?_⟩
      · intro c hc
        cases rest with
        | nil => cases hc
        | cons d z =>
          have := hn.sql_end hsql (c := d) rfl
          rcases this with rfl | rfl
          · rw [crlf_cons (by decide)] at hc; simp at hc; exact .inl hc.symm
          · rw [crlf_cons (by decide)] at hc; simp at hc; exact .inr hc.symm
      · subst hf
        rw [visible_cons, visible_cons]
        simp [hv, Tok.crlf, hsql]
    by_cases hb : t.ty = .BLOCK_COMMENT
    · obtain ⟨body, he, hn2⟩ := hn.block_body hb
      have hf : hd = true := hh ▸ tr.2.2.2.2.2.2.2.2.2 (by rw [hty, hb]; decide)
      subst hf
      refine ⟨_ :: k, .cons (t := ⟨.BLOCK_COMMENT, ['/', '*'] ++ crlf body ++ ['*', '/']⟩) (h := true) ?_ hk, ?_⟩
      · have := isNext_block (crlf_block hn2) (crlf rest)
        rw [he, crlf_append, crlf_append, crlf_same (s := ['/', '*']) (by decide),
          crlf_same (s := ['*', '/']) (by decide)]
        exact this
      · rw [visible_cons, visible_cons]; simpa using hv
    by_cases hlc : t.ty = .LINE_COMMENT
    · have hl := hcl.2.1
      rw [tr.2.2.2.2.2.1 (hty.trans hlc)] at hl
      obtain ⟨body, he, g1, g2⟩ := line_iff.1 hl
      have hf : hd = true := hh ▸ tr.2.2.2.2.2.2.2.2.2 (by rw [hty, hlc]; decide)
      subst hf
      refine ⟨_ :: k, .cons (t := ⟨.LINE_COMMENT, ['/', '/'] ++ body⟩) (h := true) ?_ hk, ?_⟩
      · rw [he, crlf_append, crlf_same (s := ['/', '/']) (by decide), crlf_same g1]
        refine isNext_line_any g1 g2 ?_
        intro c hc
        cases rest with
        | nil => cases hc
        | cons d z =>
          rcases hn.line_end hlc (c := d) rfl with rfl | rfl
          · rw [crlf_nl] at hc; simp at hc; exact .inr hc.symm
          · rw [crlf_cons (by decide)] at hc; simp at hc; exact .inr hc.symm
      · rw [visible_cons, visible_cons]; simpa using hv
    by_cases hws : t.ty = .WS ∨ t.ty = .TERMINATOR
    · -- a blank
      have hf : hd = true := hh ▸ tr.2.2.2.2.2.2.2.2.2 (by rw [hty]; rcases hws with h | h <;> rw [h] <;> decide)
      subst hf
      have hone : ∃ c ∈ blanks, t.text = [c] := by
        have hl := hcl.2.1
        have hcc : ∀ c : Char, (c.toNat = 9 ∨ c.toNat = 32 ∨ c.toNat = 10 ∨ c.toNat = 13) → c ∈ blanks := by
          intro c hc
          have e : ∀ d : Char, c.toNat = d.toNat → c = d := fun d => Char.toNat_inj.1
          rcases hc with h | h | h | h
          · rw [e '\t' h]; decide
          · rw [e ' ' h]; decide
          · rw [e '\n' h]; decide
          · rw [e '\r' h]; decide
        rcases hws with h | h
        · rw [tr.2.2.1 (hty.trans h)] at hl
          obtain ⟨c, he, hc⟩ := lang_cls.1 hl
          refine ⟨c, hcc c ?_, he⟩
          simp [inCls] at hc; omega
        · rw [tr.2.2.2.1 (hty.trans h)] at hl
          obtain ⟨c, he, hc⟩ := lang_cls.1 hl
          refine ⟨c, hcc c ?_, he⟩
          simp [inCls] at hc; omega
      obtain ⟨c, hc, he⟩ := hone
      rw [he, visible_cons]
      by_cases e : c = '\n'
      · subst e
        obtain ⟨u, hu, _⟩ := isNext_blank (c := '\n') (by decide) (crlf rest)
        obtain ⟨v, hv', _⟩ := isNext_blank (c := '\r') (by decide) ('\n' :: crlf rest)
        refine ⟨(v, true) :: (u, true) :: k, ?_, ?_⟩
        · rw [crlf_nl]
          exact .cons hv' (.cons hu hk)
        · rw [visible_cons, visible_cons]; simpa using hv
      · obtain ⟨u, hu, _⟩ := isNext_blank hc (crlf rest)
        refine ⟨(u, true) :: k, ?_, ?_⟩
        · rw [crlf_cons e]
          exact .cons hu hk
        · rw [visible_cons]; simpa using hv
    · -- other tokens
      have hf : hd = false := by
        have := tr.2.2.2.2.2.2.2.2
        rw [hh, hty] at this
        cases hd with
        | false => rfl
        | true =>
          have := this.1 rfl
          simp only [List.mem_cons, List.not_mem_nil, or_false] at this
          rcases this with h | h | h | h
          · exact absurd (.inl h) hws
          · exact absurd (.inr h) hws
          · exact absurd h hb
          · exact absurd h hlc
      subst hf
      have hnl := hn.no_nl hsql (h3 (t, false) (by simp)) rfl
      rw [crlf_same hnl]
      refine ⟨(t, false) :: k, .cons (hn.reline hsql (h1 (t, false) (by simp)) hlc ?_ ?_) hk, ?_⟩
      · intro hdiv
        have htext : t.text = ['/'] := by
          have hl := hcl.2.1
          rwa [tr.2.2.2.2.2.2.1 (hty.trans hdiv), lang_ch] at hl
        constructor
        · intro hstar
          have hs := crlf_head hstar (by decide)
          cases ht with
          | nil => cases hs
          | @cons _ rest' u hu l hn' ht' =>
            obtain ⟨r', hr', hty', _, hcl'⟩ := hn'.rule
            have hx := hn'.1
            have hne := hn'.2.1
            obtain ⟨a, x, hax⟩ := List.exists_cons_of_ne_nil hne
            rw [hx, hax] at hs
            simp at hs
            subst hs
            have hl' := hcl'.2.1
            rw [hax] at hl'
            have hst := star_start r' hr' hl'.starts
            refine h2 ⟨[], l.map (·.1.ty), ?_⟩
            simp [hdiv, ← hty', hst]
        · intro hsl
          have hs := crlf_head hsl (by decide)
          cases rest with
          | nil => cases hs
          | cons d z =>
            simp at hs
            subst hs
            have hl' : Lang lineRule.re (['/', '/']) := line_iff.2 ⟨[], rfl, by simp, by simp⟩
            have := hn.maximal comment_start.2.1 rfl ⟨z, by rw [htext]; rfl⟩ hl'
            rw [htext] at this
            simp at this
      · intro v hv hvs
        exact crlf_prefix hv hvs
      · rw [visible_cons, visible_cons]
        simp [hv, Tok.crlf, crlf_same hnl]

end Verif
