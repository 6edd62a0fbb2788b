import Verif.Proof.Lexer
/-!
# Token boundaries

When the text after a token changes, the token stays the same unless some rule
can run over the boundary.
-/

namespace Verif

/-! Syntactic facts about languages -/

/-- Can a match contain the character? -/
def RE.canContain (c : Char) : RE → Bool
  | .none => false
  | .eps => false
  | .cls neg rs => inCls neg rs c
  | .seq a b => a.canContain c || b.canContain c
  | .alt a b => a.canContain c || b.canContain c
  | .star a => a.canContain c

theorem Lang.canContain {r : RE} {x : Str} (h : Lang r x) {c : Char} (hc : c ∈ x) :
    r.canContain c = true := by
  induction h with
  | eps => simp at hc
  | @cls neg rs d h => simp at hc; subst hc; exact (inCls_iff _ _ _).2 h
  | seq _ _ ih₁ ih₂ =>
    simp only [RE.canContain, Bool.or_eq_true]
    rcases List.mem_append.1 hc with h | h
    · exact .inl (ih₁ h)
    · exact .inr (ih₂ h)
  | altL _ ih => simp only [RE.canContain, Bool.or_eq_true]; exact .inl (ih hc)
  | altR _ ih => simp only [RE.canContain, Bool.or_eq_true]; exact .inr (ih hc)
  | starNil => simp at hc
  | starCons _ _ ih₁ ih₂ =>
    rcases List.mem_append.1 hc with h | h
    · exact ih₁ h
    · exact ih₂ h

/-- Letters, digits and underscore. -/
def isWord (c : Char) : Bool := inCls false [(48, 57), (65, 90), (95, 95), (97, 122)] c

/-- Only letters, digits and underscores can occur. -/
def RE.wordy : RE → Bool
  | .none => true
  | .eps => true
  | .cls neg rs => !neg && rs.all fun r =>
      [(48, 57), (65, 90), (95, 95), (97, 122)].any fun (q : Nat × Nat) => q.1 ≤ r.1 && r.2 ≤ q.2
  | .seq a b => a.wordy && b.wordy
  | .alt a b => a.wordy && b.wordy
  | .star a => a.wordy

theorem Lang.wordy {r : RE} {x : Str} (h : Lang r x) (hw : r.wordy = true) :
    ∀ c ∈ x, isWord c = true := by
  induction h with
  | eps => simp
  | @cls neg rs d h =>
    have h := (inCls_iff _ _ _).2 h
    simp only [RE.wordy, Bool.and_eq_true, Bool.not_eq_true'] at hw
    obtain ⟨hn, hw⟩ := hw
    subst hn
    intro c hc
    simp at hc; subst hc
    simp [inCls] at h
    obtain ⟨a, b, hab, h1, h2⟩ := h
    have := List.all_eq_true.1 hw (a, b) hab
    simp at this
    simp [isWord, inCls]
    omega
  | seq _ _ ih₁ ih₂ =>
    simp only [RE.wordy, Bool.and_eq_true] at hw
    intro c hc
    rcases List.mem_append.1 hc with h | h
    · exact ih₁ hw.1 c h
    · exact ih₂ hw.2 c h
  | altL _ ih => simp only [RE.wordy, Bool.and_eq_true] at hw; exact ih hw.1
  | altR _ ih => simp only [RE.wordy, Bool.and_eq_true] at hw; exact ih hw.2
  | starNil => simp
  | starCons _ _ ih₁ ih₂ =>
    intro c hc
    rcases List.mem_append.1 hc with h | h
    · exact ih₁ hw c h
    · exact ih₂ hw c h

theorem Lang.starts {r : RE} {c : Char} {x : Str} (h : Lang r (c :: x)) : r.deriv c ≠ .none := by
  intro h0
  have := (deriv_iff c r x).2 h
  rw [h0] at this
  exact lang_none this

/-! Facts about the rule table, checked by evaluation -/

/-- Characters that layout begins with. -/
def seps : List Char := [' ', '\t', '\n', '\r', '/']

theorem blank_sep {c : Char} (h : c ∈ blanks) : c ∈ seps := by
  revert h; revert c; decide

theorem rules_blank : ∀ c ∈ seps, ∀ r ∈ lexRules, r.re.canContain c = true →
    r.ty ∈ [TT.STRING_LITERAL, .SQL_STMT, .WS, .TERMINATOR, .BLOCK_COMMENT, .LINE_COMMENT,
      .DIV] := by
  decide +kernel

theorem rules_quote : ∀ r ∈ lexRules, r.re.deriv '\'' ≠ .none → r.ty = .STRING_LITERAL := by
  decide +kernel

theorem rules_slash : ∀ r ∈ lexRules, r.re.deriv '/' ≠ .none →
    r.ty ∈ [TT.DIV, .BLOCK_COMMENT, .LINE_COMMENT] := by
  decide +kernel

/-- Initial letters of the SQL verbs. -/
def verbInitials : List Char := "siudwSIUDW".toList

theorem rules_verb : ∀ r ∈ lexRules, r.ty = .SQL_STMT ∨ r.re.wordy = true ∨
    ∀ c ∈ verbInitials, r.re.deriv c = .none := by
  decide +kernel

theorem rules_by_ty : ∀ r ∈ lexRules,
    (r.ty = .STRING_LITERAL → r.re = Lx.string) ∧ (r.ty = .SQL_STMT → r.re = Lx.sqlStmt) ∧
    (r.ty = .WS → r.re = .cls false [(9, 9), (32, 32)]) ∧
    (r.ty = .TERMINATOR → r.re = .cls false [(10, 10), (13, 13)]) ∧
    (r.ty = .BLOCK_COMMENT → r.re = Lx.blockComment) ∧
    (r.ty = .LINE_COMMENT → r.re = Lx.lineComment) ∧
    (r.ty = .DIV → r.re = Lx.ch '/') ∧
    (r.lazy = true ↔ r.ty = .BLOCK_COMMENT) ∧
    (r.hidden = true ↔ r.ty ∈ [TT.WS, .TERMINATOR, .BLOCK_COMMENT, .LINE_COMMENT]) := by
  decide +kernel

theorem lang_ch {c : Char} {x : Str} : Lang (Lx.ch c) x ↔ x = [c] := by
  unfold Lx.ch
  rw [lang_cls]
  constructor
  · rintro ⟨d, rfl, h⟩
    simp [inCls] at h
    have : d.toNat = c.toNat := by omega
    rw [Char.toNat_inj] at this
    rw [this]
  · rintro rfl
    exact ⟨c, rfl, by simp [inCls]⟩

/-! String literals are prefix free -/

/-- What follows the opening quote. -/
def stringTail : RE := .seq (.star Lx.stringChar) (Lx.ch '\'')

theorem stringTail_quote (x : Str) : Lang stringTail ('\'' :: x) ↔ x = [] := by
  rw [← deriv_iff]
  rw [show stringTail.deriv '\'' = .eps by decide +kernel]
  simp

theorem stringTail_backslash (x : Str) :
    Lang stringTail ('\\' :: x) ↔ ∃ d y, x = d :: y ∧ Lang stringTail y := by
  rw [← deriv_iff]
  rw [show stringTail.deriv '\\' =
    .seq (.seq (.cls true []) (.star Lx.stringChar)) (Lx.ch '\'') by decide +kernel]
  constructor
  · intro h
    obtain ⟨a, b, rfl, ha, hb⟩ := lang_seq.1 h
    obtain ⟨a1, a2, rfl, h1, h2⟩ := lang_seq.1 ha
    obtain ⟨d, rfl, _⟩ := lang_cls.1 h1
    exact ⟨d, a2 ++ b, by simp, .seq h2 hb⟩
  · rintro ⟨d, y, rfl, hy⟩
    obtain ⟨a, b, rfl, ha, hb⟩ := lang_seq.1 hy
    have : Lang (.seq (.cls true []) (.star Lx.stringChar)) (d :: a) :=
      lang_seq.2 ⟨[d], a, rfl, lang_cls.2 ⟨d, rfl, by simp [inCls]⟩, ha⟩
    exact lang_seq.2 ⟨d :: a, b, rfl, this, hb⟩

theorem stringTail_other {c : Char} (h1 : c ≠ '\'') (h2 : c ≠ '\\') (x : Str) :
    Lang stringTail (c :: x) → c ≠ '\n' ∧ c ≠ '\r' ∧ Lang stringTail x := by
  intro h
  have hne : ∀ d : Char, c ≠ d → c.toNat ≠ d.toNat := fun d hd he => hd (Char.toNat_inj.1 he)
  obtain ⟨a, b, hab, ha, hb⟩ := lang_seq.1 h
  rw [lang_ch] at hb
  subst hb
  cases a with
  | nil => simp at hab; exact absurd hab.1 h1
  | cons d a =>
    simp at hab
    obtain ⟨rfl, rfl⟩ := hab
    obtain ⟨u, v, rfl, hu, hv⟩ := lang_star_cons ha
    rcases lang_alt.1 hu with hu | hu
    · obtain ⟨d, hd, hc⟩ := lang_cls.1 hu
      simp at hd
      obtain ⟨rfl, rfl⟩ := hd
      simp [inCls] at hc
      refine ⟨?_, ?_, .seq hv (lang_ch.2 rfl)⟩
      · rintro rfl; simp at hc
      · rintro rfl; simp at hc
    · obtain ⟨p, q, hpq, hp, hq⟩ := lang_seq.1 hu
      rw [lang_ch] at hp
      subst hp
      simp at hpq
      exact absurd hpq.1 h2

theorem stringTail_prefix : ∀ (n : Nat) (x : Str), x.length ≤ n → ∀ v, Lang stringTail x →
    Lang stringTail (x ++ v) → v = [] := by
  intro n
  induction n with
  | zero =>
    intro x hx v h _
    have : x = [] := List.eq_nil_of_length_eq_zero (by omega)
    subst this
    exact absurd ((nullable_iff _).2 h) (by decide +kernel)
  | succ n ih =>
    intro x hx v h h'
    cases x with
    | nil => exact absurd ((nullable_iff _).2 h) (by decide +kernel)
    | cons c x =>
      by_cases h1 : c = '\''
      · subst h1
        rw [stringTail_quote] at h
        subst h
        simpa using (stringTail_quote _).1 h'
      · by_cases h2 : c = '\\'
        · subst h2
          obtain ⟨d, y, rfl, hy⟩ := (stringTail_backslash _).1 h
          obtain ⟨d', y', he, hy'⟩ := (stringTail_backslash _).1 h'
          simp at he
          obtain ⟨rfl, rfl⟩ := he
          exact ih y (by simp at hx; omega) v hy hy'
        · have a := (stringTail_other h1 h2 x h).2.2
          have b := (stringTail_other h1 h2 (x ++ v) h').2.2
          exact ih x (by simp at hx; omega) v a b

theorem string_tail {x : Str} : Lang Lx.string x ↔ ∃ y, x = '\'' :: y ∧ Lang stringTail y := by
  constructor
  · intro h
    obtain ⟨a, b, rfl, ha, hb⟩ := lang_seq.1 h
    rw [lang_ch] at ha
    subst ha
    exact ⟨b, rfl, hb⟩
  · rintro ⟨y, rfl, h⟩
    exact lang_seq.2 ⟨['\''], y, rfl, lang_ch.2 rfl, h⟩

theorem string_prefix {x v : Str} (h : Lang Lx.string x) (h' : Lang Lx.string (x ++ v)) :
    v = [] := by
  obtain ⟨y, rfl, hy⟩ := string_tail.1 h
  obtain ⟨y', he, hy'⟩ := string_tail.1 h'
  simp at he
  subst he
  exact stringTail_prefix _ y (Nat.le_refl _) v hy hy'

/-! Comments -/

theorem line_iff {x : Str} : Lang Lx.lineComment x ↔
    ∃ b, x = ['/', '/'] ++ b ∧ '\n' ∉ b ∧ '\r' ∉ b := by
  constructor
  · intro h
    obtain ⟨a, b, rfl, ha, hb⟩ := lang_seq.1 h
    obtain ⟨c, d, rfl, hc, hd⟩ := lang_seq.1 hb
    rw [lang_ch] at ha hc
    subst ha hc
    refine ⟨d, rfl, ?_, ?_⟩
    · intro hm; exact absurd (hd.canContain hm) (by decide)
    · intro hm; exact absurd (hd.canContain hm) (by decide)
  · rintro ⟨b, rfl, h1, h2⟩
    refine lang_seq.2 ⟨['/'], '/' :: b, rfl, lang_ch.2 rfl, lang_seq.2 ⟨['/'], b, rfl, lang_ch.2 rfl, ?_⟩⟩
    induction b with
    | nil => exact .starNil
    | cons c b ih =>
      simp at h1 h2
      refine Lang.starCons (x := [c]) (lang_cls.2 ⟨c, rfl, ?_⟩) (ih h1.2 h2.2)
      have e1 : c.toNat ≠ 10 := fun h => h1.1 (Char.toNat_inj.1 (by rw [h]; rfl))
      have e2 : c.toNat ≠ 13 := fun h => h2.1 (Char.toNat_inj.1 (by rw [h]; rfl))
      simp [inCls]
      omega

theorem lang_star_any (x : Str) : Lang (.star (.cls true [])) x := by
  induction x with
  | nil => exact .starNil
  | cons c x ih => exact Lang.starCons (x := [c]) (lang_cls.2 ⟨c, rfl, by simp [inCls]⟩) ih

theorem block_iff {x : Str} : Lang Lx.blockComment x ↔
    ∃ b, x = ['/', '*'] ++ b ++ ['*', '/'] := by
  constructor
  · intro h
    obtain ⟨a, b, rfl, ha, hb⟩ := lang_seq.1 h
    obtain ⟨c, d, rfl, hc, hd⟩ := lang_seq.1 hb
    obtain ⟨e, f, rfl, _, hf⟩ := lang_seq.1 hd
    obtain ⟨g, k, rfl, hg, hk⟩ := lang_seq.1 hf
    rw [lang_ch] at ha hc hg hk
    subst ha hc hg hk
    exact ⟨e, by simp⟩
  · rintro ⟨b, rfl⟩
    have := lang_star_any b
    exact lang_seq.2 ⟨['/'], '*' :: (b ++ ['*', '/']), by simp, lang_ch.2 rfl,
      lang_seq.2 ⟨['*'], b ++ ['*', '/'], by simp, lang_ch.2 rfl,
      lang_seq.2 ⟨b, ['*', '/'], rfl, this,
      lang_seq.2 ⟨['*'], ['/'], rfl, lang_ch.2 rfl, lang_ch.2 rfl⟩⟩⟩⟩

/-! SQL statements -/

theorem sqlKw_wordy : Lx.sqlKeywords.wordy = true := by decide +kernel

/-- Can a match start with the character? -/
theorem sqlKw_start {c : Char} {x : Str} (h : Lang Lx.sqlKeywords (c :: x)) :
    c ∈ verbInitials := by
  have key : ∀ (r : RE) (cs : Str), r = Lx.litCI cs → ∀ a, cs.head? = some a →
      32 ≤ a.toNat → Lang r (c :: x) → c.toNat = a.toNat ∨ c.toNat = a.toNat - 32 := by
    rintro r cs rfl a ha h32 hl
    cases cs with
    | nil => simp at ha
    | cons b cs =>
      simp at ha
      subst ha
      have : ∃ y z, c :: x = y ++ z ∧ Lang (Lx.ci b) y := by
        cases cs with
        | nil => exact ⟨c :: x, [], by simp, hl⟩
        | cons d cs =>
          obtain ⟨y, z, he, hy, _⟩ := lang_seq.1 hl
          exact ⟨y, z, he, hy⟩
      obtain ⟨y, z, he, hy⟩ := this
      obtain ⟨d, rfl, hd⟩ := lang_cls.1 hy
      simp at he
      obtain ⟨rfl, _⟩ := he
      simp [inCls] at hd
      omega
  have fin : ∀ a : Char, (c.toNat = a.toNat ∨ c.toNat = a.toNat - 32) →
      c = a ∨ c.toNat = a.toNat - 32 := fun a h => h.imp (Char.toNat_inj.1) id
  have up : ∀ d : Char, c.toNat = d.toNat → c = d := fun d h => Char.toNat_inj.1 h
  simp only [Lx.sqlKeywords, lang_alt] at h
  rcases h with h | h | h | h | h
  · rcases key _ _ rfl 's' rfl (by decide) h with h | h
    · rw [up 's' h]; decide
    · rw [up 'S' h]; decide
  · rcases key _ _ rfl 'i' rfl (by decide) h with h | h
    · rw [up 'i' h]; decide
    · rw [up 'I' h]; decide
  · rcases key _ _ rfl 'u' rfl (by decide) h with h | h
    · rw [up 'u' h]; decide
    · rw [up 'U' h]; decide
  · rcases key _ _ rfl 'd' rfl (by decide) h with h | h
    · rw [up 'd' h]; decide
    · rw [up 'D' h]; decide
  · rcases key _ _ rfl 'w' rfl (by decide) h with h | h
    · rw [up 'w' h]; decide
    · rw [up 'W' h]; decide

theorem sqlKw_ne : ¬ Lang Lx.sqlKeywords [] := by
  rw [← nullable_iff]; decide +kernel

theorem wsnl_iff {x : Str} : Lang Lx.wsnl x ↔ ∃ c ∈ blanks, x = [c] := by
  unfold Lx.wsnl
  rw [lang_cls]
  constructor
  · rintro ⟨c, rfl, h⟩
    refine ⟨c, ?_, rfl⟩
    have up : ∀ d : Char, c.toNat = d.toNat → c = d := fun d h => Char.toNat_inj.1 h
    simp [inCls] at h
    have : c.toNat = 32 ∨ c.toNat = 9 ∨ c.toNat = 10 ∨ c.toNat = 13 := by omega
    rcases this with h | h | h | h
    · rw [up ' ' h]; decide
    · rw [up '\t' h]; decide
    · rw [up '\n' h]; decide
    · rw [up '\r' h]; decide
  · rintro ⟨c, hc, rfl⟩
    exact ⟨c, rfl, (by decide : ∀ c ∈ blanks, inCls false [(9, 10), (13, 13), (32, 32)] c = true) c hc⟩

/-- An SQL statement: a verb, a blank, more text without `;` and `}`. -/
theorem sqlStmt_split {x : Str} (h : Lang Lx.sqlStmt x) :
    ∃ k c z, x = k ++ c :: z ∧ Lang Lx.sqlKeywords k ∧ c ∈ blanks ∧ z ≠ [] ∧
      ';' ∉ x ∧ '}' ∉ x := by
  have h1 : ';' ∉ x := fun hm => absurd (h.canContain hm) (by decide +kernel)
  have h2 : '}' ∉ x := fun hm => absurd (h.canContain hm) (by decide +kernel)
  obtain ⟨k, y, rfl, hk, hy⟩ := lang_seq.1 h
  obtain ⟨w, z, rfl, hw, hz⟩ := lang_seq.1 hy
  obtain ⟨a, b, rfl, ha, hb⟩ := lang_seq.1 hw
  obtain ⟨c, hc, rfl⟩ := wsnl_iff.1 ha
  refine ⟨k, c, b ++ z, by simp, hk, hc, ?_, h1, h2⟩
  intro h0
  simp at h0
  obtain ⟨rfl, rfl⟩ := h0
  exact absurd ((nullable_iff _).2 hz) (by decide +kernel)

theorem blank_not_word {c : Char} (h : c ∈ blanks) : isWord c = false := by
  revert h; revert c; decide

/-- Two words followed by a non-word character agree if the texts agree. -/
theorem word_split {x y u v : Str} {c : Char} (hx : ∀ d ∈ x, isWord d = true)
    (hy : ∀ d ∈ y, isWord d = true) (hc : isWord c = false)
    (h : x ++ v = y ++ c :: u) : x <+: y := by
  induction x generalizing y with
  | nil => simp
  | cons a x ih =>
    cases y with
    | nil =>
      simp at h
      have := hx a (by simp)
      rw [h.1, hc] at this
      cases this
    | cons b y =>
      simp at h
      obtain ⟨rfl, h⟩ := h
      have := ih (fun d hd => hx d (List.mem_cons_of_mem _ hd))
        (fun d hd => hy d (List.mem_cons_of_mem _ hd)) h
      simpa using this

/-! Who can run over a boundary -/

/-- If a rule matches a token's text `x` and further text `v` that contains a
blank or a slash, it is one of three cases. -/
theorem extend_cases {r r' : LexRule} {x v : Str} (hr : r ∈ lexRules) (hr' : r' ∈ lexRules)
    (hx : Lang r.re x) (hne : x ≠ []) (hv : ∃ c ∈ v, c ∈ seps)
    (hxv : Lang r'.re (x ++ v)) :
    (r'.ty = .SQL_STMT ∧ (r.ty = .SQL_STMT ∨
      ∃ k, Lang Lx.sqlKeywords k ∧ x <+: k ∧ (∃ c z, x ++ v = k ++ c :: z ∧ c ∈ blanks))) ∨
    (r'.ty = .BLOCK_COMMENT ∧ (r.ty = .BLOCK_COMMENT ∨ (r.ty = .DIV ∧ v.head? = some '*'))) ∨
    (r'.ty = .LINE_COMMENT ∧ (r.ty = .LINE_COMMENT ∨ (r.ty = .DIV ∧ v.head? = some '/'))) := by
  obtain ⟨b, hbv, hb⟩ := hv
  have hvne : v ≠ [] := by rintro rfl; simp at hbv
  have hty := rules_blank b hb r' hr' (hxv.canContain (List.mem_append.2 (.inr hbv)))
  have tr := rules_by_ty r hr
  have tr' := rules_by_ty r' hr'
  obtain ⟨a, x', rfl⟩ := List.exists_cons_of_ne_nil hne
  have slash : a = '/' → r.ty = .DIV ∨ r.ty = .BLOCK_COMMENT ∨ r.ty = .LINE_COMMENT := by
    rintro rfl
    simpa using rules_slash r hr hx.starts
  have one : ∀ neg rs, r'.re = .cls neg rs → False := by
    intro neg rs he
    rw [he] at hxv
    obtain ⟨d, hd, _⟩ := lang_cls.1 hxv
    simp at hd
    exact hvne hd.2.2
  simp only [List.mem_cons, List.not_mem_nil, or_false] at hty
  rcases hty with h | h | h | h | h | h | h
  · exfalso
    rw [tr'.1 h] at hxv
    obtain ⟨y, he, hy⟩ := string_tail.1 hxv
    simp at he
    obtain ⟨rfl, rfl⟩ := he
    have := rules_quote r hr hx.starts
    rw [tr.1 this] at hx
    obtain ⟨y, he, hy'⟩ := string_tail.1 hx
    simp at he
    subst he
    exact hvne (stringTail_prefix _ x' (Nat.le_refl _) v hy' hy)
  · left
    refine ⟨h, ?_⟩
    rw [tr'.2.1 h] at hxv
    obtain ⟨k, c, z, he, hk, hc, _⟩ := sqlStmt_split hxv
    rcases rules_verb r hr with h' | h' | h'
    · exact .inl h'
    · right
      have hw := hx.wordy h'
      exact ⟨k, hk, word_split hw (hk.wordy sqlKw_wordy) (blank_not_word hc) he, c, z, he, hc⟩
    · exfalso
      cases k with
      | nil => exact sqlKw_ne hk
      | cons d k =>
        simp at he
        obtain ⟨rfl, _⟩ := he
        exact hx.starts (h' a (sqlKw_start hk))
  · exact (one _ _ (tr'.2.2.1 h)).elim
  · exact (one _ _ (tr'.2.2.2.1 h)).elim
  · right; left
    refine ⟨h, ?_⟩
    rw [tr'.2.2.2.2.1 h] at hxv
    obtain ⟨bd, he⟩ := block_iff.1 hxv
    simp at he
    obtain ⟨rfl, he⟩ := he
    rcases slash rfl with h' | h' | h'
    · right
      refine ⟨h', ?_⟩
      rw [tr.2.2.2.2.2.2.1 h', lang_ch] at hx
      simp at hx
      subst hx
      simp at he
      simp [he]
    · exact .inl h'
    · exfalso
      rw [tr.2.2.2.2.2.1 h'] at hx
      obtain ⟨b, hb, _⟩ := line_iff.1 hx
      simp at hb
      subst hb
      simp at he
  · right; right
    refine ⟨h, ?_⟩
    rw [tr'.2.2.2.2.2.1 h] at hxv
    obtain ⟨bd, he, _⟩ := line_iff.1 hxv
    simp at he
    obtain ⟨rfl, he⟩ := he
    rcases slash rfl with h' | h' | h'
    · right
      refine ⟨h', ?_⟩
      rw [tr.2.2.2.2.2.2.1 h', lang_ch] at hx
      simp at hx
      subst hx
      simp at he
      simp [he]
    · exfalso
      rw [tr.2.2.2.2.1 h'] at hx
      obtain ⟨b, hb⟩ := block_iff.1 hx
      simp at hb
      subst hb
      simp at he
    · exact .inl h'
  · exact (one _ _ (tr'.2.2.2.2.2.2.1 h)).elim

/-! Changing the text after a token -/

theorem claims_exists {r : LexRule} {y s : Str} (hy : y <+: s) (hl : Lang r.re y) :
    ∃ z, Claims r z s := by
  by_cases hz : r.lazy = true
  · have : ∃ n, r.re.shortest s = some n := by
      clear hz
      generalize r.re = q at hl
      induction s generalizing y q with
      | nil => simp at hy; subst hy; exact ⟨0, by simp [RE.shortest, (nullable_iff q).2 hl]⟩
      | cons c s ih =>
        by_cases hn : q.nullable = true
        · exact ⟨0, by simp [RE.shortest, hn]⟩
        · cases y with
          | nil => exact absurd ((nullable_iff q).2 hl) hn
          | cons d y =>
            simp at hy
            obtain ⟨rfl, hy⟩ := hy
            obtain ⟨n, h⟩ := ih hy (q.deriv d) ((deriv_iff _ _ _).2 hl)
            have hne : q ≠ .none := by rintro rfl; simp at hl
            exact ⟨n + 1, by simp [RE.shortest, hn, hne, h]⟩
    obtain ⟨n, hn⟩ := this
    exact ⟨s.take n, ((cand_iff r s n).1 (by simp [LexRule.cand, hz, hn])).2⟩
  · obtain ⟨n, hn⟩ := longest_exists s r.re y hy hl
    exact ⟨s.take n, ((cand_iff r s n).1 (by simp [LexRule.cand, hz, hn])).2⟩

theorem claims_longest {r : LexRule} {y z s : Str} (hz : r.lazy = false) (hc : Claims r z s)
    (hy : y <+: s) (hl : Lang r.re y) : y.length ≤ z.length := by
  have := hc.2.2 y hy hl
  simpa [hz] using this

theorem prefix_of_le {x y s : Str} (hx : x <+: s) (hy : y <+: s) (h : x.length ≤ y.length) :
    x <+: y := List.prefix_of_prefix_length_le hx hy h

/-- A token is not affected by replacing the text after it if no rule's new
claim runs past what the old text had. -/
theorem IsNext.transfer {t : Tok} {h : Bool} {o n : Str} (hn : IsNext (t.text ++ o) t h o)
    (hlook : ∀ r' ∈ lexRules, ∀ y, Claims r' y (t.text ++ n) → t.text.length < y.length →
      (r'.lazy = true ∧ r'.ty = t.ty) ∨ y <+: t.text ++ o) :
    IsNext (t.text ++ n) t h n := by
  obtain ⟨_, hne, b, r, a, he, hty, hh, hc, h2, h3⟩ := hn
  have hmem : ∀ r', r' ∈ b ∨ r' = r ∨ r' ∈ a → r' ∈ lexRules := by
    intro r' h; rw [he]; rcases h with h | rfl | h <;> simp [*]
  have hself : Claims r t.text (t.text ++ n) := by
    refine ⟨List.prefix_append _ _, hc.2.1, ?_⟩
    intro y hy hl
    by_cases hz : r.lazy = true
    · simp only [hz, if_true]
      by_cases hlt : y.length < t.text.length
      · have : y <+: t.text := prefix_of_le hy (List.prefix_append _ _) (by omega)
        have := hc.2.2 y (this.trans (List.prefix_append _ _)) hl
        simpa [hz] using this
      · omega
    · have hz : r.lazy = false := by simpa using hz
      simp only [hz, Bool.false_eq_true, if_false]
      obtain ⟨z, hcz⟩ := claims_exists hy hl
      have h1 := claims_longest hz hcz hy hl
      by_cases hlt : t.text.length < z.length
      · rcases hlook r (hmem r (by simp)) z hcz hlt with ⟨hl', _⟩ | hp
        · rw [hz] at hl'; cases hl'
        · have := claims_longest hz hc hp hcz.2.1
          omega
      · omega
  -- an old claim at least as long as a new claim
  have old : ∀ r' ∈ lexRules, r' ≠ r → ∀ y, Claims r' y (t.text ++ n) →
      ∃ z, Claims r' z (t.text ++ o) ∧ y.length ≤ z.length := by
    intro r' hr' hrr y hcy
    have hp : y <+: t.text ++ o := by
      by_cases hlt : t.text.length < y.length
      · rcases hlook r' hr' y hcy hlt with ⟨_, hty'⟩ | hp
        · exfalso
          apply hrr
          have hnd := lexRules_nodup
          have hr : r ∈ lexRules := hmem r (by simp)
          rw [← hty] at hty'
          have : ∀ (l : List LexRule), (l.map (·.ty)).Nodup → r' ∈ l → r ∈ l → r' = r := by
            intro l hl
            induction l with
            | nil => simp
            | cons q l ih =>
              simp only [List.map_cons, List.nodup_cons] at hl
              intro h1 h2
              rcases List.mem_cons.1 h1 with k1 | k1
              · rcases List.mem_cons.1 h2 with k2 | k2
                · rw [k1, k2]
                · exfalso; subst k1
                  exact hl.1 (List.mem_map.2 ⟨r, k2, hty'.symm⟩)
              · rcases List.mem_cons.1 h2 with k2 | k2
                · exfalso; subst k2
                  exact hl.1 (List.mem_map.2 ⟨r', k1, hty'⟩)
                · exact ih hl.2 k1 k2
          exact this lexRules hnd hr' hr
        · exact hp
      · exact (prefix_of_le hcy.1 (List.prefix_append _ _) (by omega)).trans
          (List.prefix_append _ _)
    obtain ⟨z, hz⟩ := claims_exists hp hcy.2.1
    refine ⟨z, hz, ?_⟩
    by_cases hlz : r'.lazy = true
    · -- the new claim is also the shortest in the old text
      by_cases hlt : z.length < y.length
      · have : z <+: y := prefix_of_le hz.1 hp (by omega)
        have := hcy.2.2 z (this.trans hcy.1) hz.2.1
        simp [hlz] at this
        exact this
      · omega
    · exact claims_longest (by simpa using hlz) hz hp hcy.2.1
  have hne' : ∀ r', r' ∈ b ∨ r' ∈ a → r' ≠ r := by
    intro r' hm hrr
    have hnd := lexRules_nodup
    subst hrr
    rw [he] at hnd
    simp only [List.map_append, List.map_cons] at hnd
    rw [List.nodup_append] at hnd
    rcases hm with hm | hm
    · exact hnd.2.2 _ (List.mem_map.2 ⟨_, hm, rfl⟩) _ (by simp) rfl
    · have := hnd.2.1
      rw [List.nodup_cons] at this
      exact this.1 (List.mem_map.2 ⟨_, hm, rfl⟩)
  refine ⟨rfl, hne, b, r, a, he, hty, hh, hself, ?_, ?_⟩
  · intro r' hr' y hcy
    obtain ⟨z, hz, hle⟩ := old r' (hmem r' (.inl hr')) (hne' r' (.inl hr')) y hcy
    have := h2 r' hr' z hz
    omega
  · intro r' hr' y hcy
    obtain ⟨z, hz, hle⟩ := old r' (hmem r' (.inr (.inr hr'))) (hne' r' (.inr hr')) y hcy
    have := h3 r' hr' z hz
    omega

end Verif
