import Verif.Proof.Layout
import Verif.Spec.Words
/-!
# Words are keywords or identifiers
-/

namespace Verif

theorem letter_iff {c : Char} : inCls false [(65, 90), (97, 122)] c = true ↔ IsLetter c := by
  unfold IsLetter inCls
  simp only [Char.le_def, UInt32.le_iff_toNat_le]
  simp

theorem isWord_iff {c : Char} : isWord c = true ↔ IsWordChar c := by
  unfold IsWordChar IsLetter isWord inCls
  have : c = '_' ↔ c.toNat = 95 := by
    constructor
    · rintro rfl; rfl
    · intro h; exact Char.toNat_inj.1 h
  simp only [Char.le_def, UInt32.le_iff_toNat_le, this]
  simp
  omega

theorem isName_iff {x : Str} : IsName x ↔ Lang Lx.ident x := by
  rw [ident_iff]
  cases x with
  | nil => simp [IsName]
  | cons c x =>
    simp only [IsName]
    constructor
    · rintro ⟨h₁, h₂⟩
      exact ⟨c, x, rfl, letter_iff.2 h₁, fun d hd => isWord_iff.2 (h₂ d hd)⟩
    · rintro ⟨c', x', he, h₁, h₂⟩
      cases he
      exact ⟨letter_iff.1 h₁, fun d hd => isWord_iff.1 (h₂ d hd)⟩

/-- Lower-case letters. -/
def isLow (c : Char) : Bool := 97 ≤ c.toNat && c.toNat ≤ 122

theorem lang_ci {c : Char} (hc : isLow c = true) {x : Str} :
    Lang (Lx.ci c) x ↔ ∃ d, x = [d] ∧ lowerChar d = c := by
  unfold Lx.ci
  rw [lang_cls]
  have key : ∀ d : Char, inCls false [(c.toNat - 32, c.toNat - 32), (c.toNat, c.toNat)] d = true ↔
      lowerChar d = c := by
    intro d
    simp only [isLow, Bool.and_eq_true, decide_eq_true_eq] at hc
    rw [← Char.toNat_inj]
    unfold lowerChar inCls
    simp only [Char.le_def, UInt32.le_iff_toNat_le]
    have h1 : d.val.toNat = d.toNat := rfl
    have hA : ('A').val.toNat = 65 := rfl
    have hZ : ('Z').val.toNat = 90 := rfl
    rw [h1, hA, hZ]
    by_cases h : 65 ≤ d.toNat ∧ d.toNat ≤ 90
    · rw [if_pos h]
      have hv : (Char.ofNat (d.toNat + 32)).toNat = d.toNat + 32 := by
        have hvalid : (d.toNat + 32).isValidChar := by left; omega
        simp only [Char.ofNat, hvalid, dif_pos, Char.ofNatAux]
        show (UInt32.ofNatLT _ _).toNat = _
        simp
        omega
      rw [hv]
      simp
      omega
    · rw [if_neg h]
      simp
      omega
  constructor
  · rintro ⟨d, rfl, h⟩; exact ⟨d, rfl, (key d).1 h⟩
  · rintro ⟨d, rfl, h⟩; exact ⟨d, rfl, (key d).2 h⟩

theorem lang_litCI {w : Str} (hw : ∀ c ∈ w, isLow c = true) {x : Str} :
    Lang (Lx.litCI w) x ↔ lower x = w := by
  induction w generalizing x with
  | nil => simp [Lx.litCI, lower]
  | cons c w ih =>
    have hc := hw c (by simp)
    cases w with
    | nil =>
      simp only [Lx.litCI, lang_ci hc]
      constructor
      · rintro ⟨d, rfl, h⟩; simp [lower, h]
      · intro h
        unfold lower at h
        obtain ⟨d, hd, he⟩ : ∃ d, x = [d] ∧ lowerChar d = c := by
          match x, h with
          | [d], h => simp at h; exact ⟨d, rfl, h⟩
          | [], h => simp at h
          | _ :: _ :: _, h => simp at h
        exact ⟨d, hd, he⟩
    | cons d w =>
      simp only [Lx.litCI]
      rw [lang_seq]
      constructor
      · rintro ⟨a, b, rfl, ha, hb⟩
        obtain ⟨e, rfl, he⟩ := (lang_ci hc).1 ha
        have := (ih fun c hc => hw c (by simp only [List.mem_cons] at hc ⊢; exact .inr hc)).1 hb
        simp only [lower] at this ⊢
        simp [he, this]
      · intro h
        cases x with
        | nil => simp [lower] at h
        | cons e x =>
          simp only [lower, List.map_cons, List.cons.injEq] at h
          refine ⟨[e], x, rfl, (lang_ci hc).2 ⟨e, rfl, h.1⟩, ?_⟩
          refine (ih fun c hc => hw c (by simp only [List.mem_cons] at hc ⊢; exact .inr hc)).2 ?_
          simp [lower, h.2]

theorem sqlKw_iff {x : Str} : Lang Lx.sqlKeywords x ↔ lower x ∈ verbs.map (·.1) := by
  simp only [Lx.sqlKeywords, lang_alt]
  rw [lang_litCI (by decide), lang_litCI (by decide), lang_litCI (by decide),
    lang_litCI (by decide), lang_litCI (by decide)]
  simp [verbs]


/-- The first rule that matches `x` wins if nothing matches more. -/
theorem IsNext.of_first {x rest : Str} (hne : x ≠ []) {before after : List LexRule} {r : LexRule}
    (he : lexRules = before ++ r :: after) (hz : r.lazy = false) (hl : Lang r.re x)
    (hmax : ∀ r' ∈ lexRules, ∀ y, y <+: x ++ rest → Lang r'.re y → y.length ≤ x.length)
    (hfirst : ∀ r' ∈ before, ¬ Lang r'.re x) :
    IsNext (x ++ rest) ⟨r.ty, x⟩ r.hidden rest := by
  refine ⟨rfl, hne, before, r, after, he, rfl, rfl, ?_, ?_, ?_⟩
  · refine ⟨List.prefix_append _ _, hl, ?_⟩
    intro y hy hly
    simp only [hz, Bool.false_eq_true, if_false]
    exact hmax r (by rw [he]; simp) y hy hly
  · intro r' hr' y hy
    have hle := hmax r' (by rw [he]; simp [hr']) y hy.1 hy.2.1
    rcases Nat.lt_or_ge y.length x.length with h | h
    · exact h
    · exfalso
      have heq : y = x := by
        have hp := prefix_of_le hy.1 (List.prefix_append x rest) hle
        exact hp.eq_of_length (by omega)
      exact hfirst r' hr' (heq ▸ hy.2.1)
  · intro r' hr' y hy
    exact hmax r' (by rw [he]; simp [hr']) y hy.1 hy.2.1

def letters : List Char := "abcdefghijklmnopqrstuvwxyzABCDEFGHIJKLMNOPQRSTUVWXYZ".toList

theorem mem_letters {c : Char} (h : IsLetter c) : c ∈ letters := by
  have h' := letter_iff.2 h
  simp only [inCls] at h'
  have hn : (65 ≤ c.toNat ∧ c.toNat ≤ 90) ∨ (97 ≤ c.toNat ∧ c.toNat ≤ 122) := by
    simp at h'; omega
  have hc : c = Char.ofNat c.toNat := (Char.ofNat_toNat c).symm
  have key : ∀ n : Fin 128, ((65 ≤ n.val ∧ n.val ≤ 90) ∨ (97 ≤ n.val ∧ n.val ≤ 122)) →
      Char.ofNat n.val ∈ letters := by decide
  rw [hc]
  exact key ⟨c.toNat, by omega⟩ hn

theorem rules_letter : ∀ r ∈ lexRules, r.ty = .SQL_STMT ∨ r.re.wordy = true ∨
    ∀ c ∈ letters, r.re.deriv c = .none := by
  decide +kernel

/-- The text after a verb makes it an SQL statement: a blank and one more
character that is not `;` or `}`. -/
def SqlTail (rest : Str) : Prop :=
  ∃ b c r, rest = b :: c :: r ∧ b ∈ blanks ∧ c ≠ ';' ∧ c ≠ '}'

/-- No rule matches more than the word. -/
theorem word_max {w rest : Str} (hw : IsName w)
    (hr : ∀ c, rest.head? = some c → ¬ IsWordChar c)
    (hv : lower w ∈ verbs.map (·.1) → ¬ SqlTail rest) :
    ∀ r' ∈ lexRules, ∀ y, y <+: w ++ rest → Lang r'.re y → y.length ≤ w.length := by
  intro r' hr' y hy hl
  refine Classical.byContradiction fun hnle => ?_
  have hlt : w.length < y.length := by omega
  obtain ⟨z, hz⟩ := prefix_of_le (List.prefix_append w rest) hy (by omega)
  subst hz
  have hzr : z <+: rest := by simpa using hy
  cases z with
  | nil => simp at hlt
  | cons d z =>
    obtain ⟨z', hz'⟩ := hzr
    have hd : isWord d = false := by
      have := hr d (by rw [← hz']; rfl)
      rw [← isWord_iff] at this
      simpa using this
    rcases rules_letter r' hr' with h | h | h
    · rw [(rules_by_ty r' hr').2.1 h] at hl
      obtain ⟨k, c, u, hu, hk, hc, hne, h1, h2⟩ := sqlStmt_split hl
      have hkw := hk.wordy sqlKw_wordy
      have hww : ∀ e ∈ w, isWord e = true := by
        have := isName_iff.1 hw
        exact this.wordy (by decide +kernel)
      have p1 := word_split hww hkw (blank_not_word hc) hu
      have p2 := word_split hkw hww hd hu.symm
      have heq : w = k := p1.eq_of_length (Nat.le_antisymm p1.length_le p2.length_le)
      subst heq
      simp at hu
      obtain ⟨rfl, rfl⟩ := hu
      cases z with
      | nil => exact hne rfl
      | cons e z =>
        refine hv (sqlKw_iff.1 hk) ⟨d, e, z ++ z', by rw [← hz']; simp, hc, ?_, ?_⟩
        · rintro rfl; exact h1 (by simp)
        · rintro rfl; exact h2 (by simp)
    · have := hl.wordy h d (by simp)
      rw [hd] at this; cases this
    · cases w with
      | nil => exact hw
      | cons c w =>
        exact Lang.starts hl (h c (mem_letters hw.1))

theorem takeWhile_ty (l : List LexRule) (h : (l.map (·.ty)).Nodup) (b a : List LexRule)
    (r : LexRule) (he : l = b ++ r :: a) : b = l.takeWhile (fun q => q.ty != r.ty) := by
  subst he
  induction b with
  | nil => simp
  | cons q b ih =>
    simp only [List.cons_append, List.map_cons, List.nodup_cons] at h
    have hq : q.ty ≠ r.ty := by
      intro hqr
      exact h.1 (by simp [hqr])
    simp only [List.cons_append, List.takeWhile_cons, bne_iff_ne, ne_eq, hq, not_false_eq_true,
      if_true]
    rw [← ih h.2]

theorem kw_facts :
    (∀ p ∈ punctTable, ∀ c ∈ letters, (Lx.lit p.2.toList).deriv c = .none) ∧
    (∀ p ∈ kwTable, wordType p.2.toList = p.1) ∧
    (∀ p ∈ opKwTable, wordType p.2.toList = p.1) ∧
    (∀ k ∈ keywords, lower k.1 ∉ verbs.map (·.1)) ∧
    (∀ q ∈ sqlKwTable, verbs.lookup q.2.toList = some q.1 ∧ ∀ c ∈ q.2.toList, isLow c = true) ∧
    (∀ k ∈ keywords, ∃ r ∈ lexRules.takeWhile (fun q => q.ty != .IDENTIFIER), r.re = Lx.lit k.1) ∧
    (∀ v ∈ verbs, ∃ r ∈ lexRules.takeWhile (fun q => q.ty != .IDENTIFIER),
      r.re = Lx.litCI v.1 ∧ ∀ c ∈ v.1, isLow c = true) := by
  decide +kernel

theorem lookup_none {α : Type} {l : List (Str × α)} {k : Str} :
    l.lookup k = none ↔ k ∉ l.map (·.1) := by
  induction l with
  | nil => simp
  | cons p l ih =>
    obtain ⟨a, b⟩ := p
    rw [List.lookup_cons]
    by_cases h : k = a
    · subst h; simp
    · have : (k == a) = false := by simpa using h
      simp [this, ih, h]

/-- The first rule that matches a word. -/
theorem word_rule {w : Str} (hw : IsName w) :
    ∃ before r after, lexRules = before ++ r :: after ∧ r.ty = wordType w ∧ r.lazy = false ∧
      r.hidden = false ∧ Lang r.re w ∧ ∀ r' ∈ before, ¬ Lang r'.re w := by
  -- the first rule that matches
  have hex : ∃ r ∈ lexRules, Lang r.re w := ⟨_, rule_mem_ident, isName_iff.1 hw⟩
  have hfind : ∀ l : List LexRule, (∃ r ∈ l, Lang r.re w) →
      ∃ before r after, l = before ++ r :: after ∧ Lang r.re w ∧
        ∀ r' ∈ before, ¬ Lang r'.re w := by
    intro l
    induction l with
    | nil => simp
    | cons q l ih =>
      intro h
      by_cases hq : Lang q.re w
      · exact ⟨[], q, l, rfl, hq, by simp⟩
      · obtain ⟨b, r, a, he, h1, h2⟩ := ih (by
          obtain ⟨r, hr, hl⟩ := h
          rcases List.mem_cons.1 hr with rfl | hr
          · exact absurd hl hq
          · exact ⟨r, hr, hl⟩)
        exact ⟨q :: b, r, a, by simp [he], h1, by
          intro r' hr'
          rcases List.mem_cons.1 hr' with rfl | hr'
          · exact hq
          · exact h2 r' hr'⟩
  obtain ⟨b, r, a, he, hl, hb⟩ := hfind lexRules hex
  have hbt := takeWhile_ty lexRules lexRules_nodup b a r he
  have hr : r ∈ lexRules := by rw [he]; simp
  suffices h : r.ty = wordType w ∧ r.lazy = false ∧ r.hidden = false from
    ⟨b, r, a, he, h.1, h.2.1, h.2.2, hl, hb⟩
  obtain ⟨f1, f2, f3, f4, f5, f6, f7⟩ := kw_facts
  unfold lexRules at hr
  simp only [List.mem_append, List.mem_map] at hr
  rcases hr with (((⟨p, hp, rfl⟩ | ⟨p, hp, rfl⟩) | ⟨p, hp, rfl⟩) | ⟨p, hp, rfl⟩) | hr
  · exfalso
    cases w with
    | nil => exact hw
    | cons c w => exact Lang.starts hl (f1 p hp c (mem_letters hw.1))
  · have := lang_lit.1 hl
    subst this
    exact ⟨(f2 p hp).symm, rfl, rfl⟩
  · have hlow := (lang_litCI (f5 p hp).2).1 hl
    refine ⟨?_, rfl, rfl⟩
    unfold wordType
    have hnone : keywords.lookup w = none := by
      rw [lookup_none]
      intro hm
      obtain ⟨k, hk, rfl⟩ := List.mem_map.1 hm
      refine f4 k hk ?_
      rw [hlow]
      refine Classical.byContradiction fun hc => ?_
      have := (f5 p hp).1
      rw [lookup_none.2 hc] at this
      cases this
    rw [hnone, hlow, (f5 p hp).1]
  · have := lang_lit.1 hl
    subst this
    exact ⟨(f3 p hp).symm, rfl, rfl⟩
  · rcases List.mem_cons.1 hr with rfl | hr
    · refine ⟨?_, rfl, rfl⟩
      unfold wordType
      have h1 : keywords.lookup w = none := by
        rw [lookup_none]
        intro hm
        obtain ⟨k, hk, rfl⟩ := List.mem_map.1 hm
        obtain ⟨r', hr', hre⟩ := f6 k hk
        rw [← hbt] at hr'
        exact hb r' hr' (hre ▸ lang_lit.2 rfl)
      have h2 : verbs.lookup (lower w) = none := by
        rw [lookup_none]
        intro hm
        obtain ⟨k, hk, hkw⟩ := List.mem_map.1 hm
        obtain ⟨r', hr', hre, hlow⟩ := f7 k hk
        rw [← hbt] at hr'
        exact hb r' hr' (hre ▸ (lang_litCI hlow).2 hkw.symm)
      rw [h1, h2]
    · exfalso
      have : ∀ r ∈ lexRules.drop 73, ({ ty := .IDENTIFIER, re := Lx.ident } : LexRule) ∈
          lexRules.takeWhile (fun q => q.ty != r.ty) := by decide +kernel
      have hr' : r ∈ lexRules.drop 73 := hr
      have := this r hr'
      rw [← hbt] at this
      exact hb _ this (isName_iff.1 hw)

/-- A word, in a text where it cannot be continued and where a verb does not
start an SQL statement, is a token of the type that `wordType` says. -/
theorem word_next {w rest : Str} (hw : IsName w)
    (hr : ∀ c, rest.head? = some c → ¬ IsWordChar c)
    (hv : lower w ∈ verbs.map (·.1) → ¬ SqlTail rest) :
    IsNext (w ++ rest) ⟨wordType w, w⟩ false rest := by
  obtain ⟨b, r, a, he, hty, hz, hh, hl, hb⟩ := word_rule hw
  have hne : w ≠ [] := by rintro rfl; exact hw
  have := IsNext.of_first hne he hz hl (word_max hw hr hv) hb
  rwa [hty, hh] at this

theorem wordType_ident {w : Str} : wordType w = .IDENTIFIER ↔ ¬ Reserved w := by
  have f : (∀ k ∈ keywords, k.2 ≠ .IDENTIFIER) ∧ (∀ k ∈ verbs, k.2 ≠ .IDENTIFIER) := by decide
  have hmem : ∀ {l : List (Str × TT)} {k : Str} {ty : TT}, l.lookup k = some ty → (k, ty) ∈ l := by
    intro l k ty h
    induction l with
    | nil => simp at h
    | cons p l ih =>
      obtain ⟨a, b⟩ := p
      rw [List.lookup_cons] at h
      by_cases hk : k = a
      · subst hk; simp at h; simp [h]
      · have : (k == a) = false := by simpa using hk
        rw [this] at h
        simp [ih h]
  unfold wordType Reserved
  cases h1 : keywords.lookup w with
  | some ty =>
    have hm := hmem h1
    simp only
    constructor
    · intro h; exact absurd h (f.1 _ hm)
    · intro h; exact absurd (.inl (List.mem_map.2 ⟨_, hm, rfl⟩)) h
  | none =>
    cases h2 : verbs.lookup (lower w) with
    | some ty =>
      have hm := hmem h2
      simp only
      constructor
      · intro h; exact absurd h (f.2 _ hm)
      · intro h; exact absurd (.inr (List.mem_map.2 ⟨_, hm, rfl⟩)) h
    | none =>
      simp only [true_iff]
      rw [lookup_none] at h1 h2
      exact not_or.2 ⟨h1, h2⟩

/-- Identifiers are the names that are not reserved. -/
theorem lexeme_ident {x : Str} :
    Lexeme ⟨.IDENTIFIER, x⟩ false ↔ IsName x ∧ ¬ Reserved x := by
  have key : IsName x → Lexeme ⟨wordType x, x⟩ false := by
    intro hx
    have := word_next hx (rest := []) (by simp) (by
      rintro _ ⟨b, c, r, h, _⟩; simp at h)
    simpa [Lexeme] using this
  constructor
  · intro h
    have hx : IsName x := by
      obtain ⟨r, hr, hty, hh, hcl⟩ := IsNext.rule h
      have : r.re = Lx.ident :=
        (by decide +kernel : ∀ r ∈ lexRules, r.ty = .IDENTIFIER → r.re = Lx.ident) r hr hty
      rw [isName_iff, ← this]
      exact hcl.2.1
    refine ⟨hx, ?_⟩
    have := (IsNext.unique h (key hx)).1
    simp at this
    exact wordType_ident.1 this.symm
  · rintro ⟨hx, hr⟩
    have := key hx
    rwa [wordType_ident.2 hr] at this

end Verif
