import Verif.Proof.Utf8
import Verif.Proof.Meaning
import Verif.Props.SampleText
/-!
# C47: malformed UTF-8

`ParseKF` gets bytes; the other properties speak of characters.
-/

namespace Verif

/-- C47. Every byte sequence is decoded, in exactly one way: encoded characters
stand for themselves, and each byte at which no encoded character starts stands
for U+FFFD. -/
theorem C47_decoding (bs : List UInt8) (s : Str) : Decodes bs s ↔ decode bs = s := by
  have h := decodes_decodeN bs.length bs (Nat.le_refl _)
  constructor
  · intro hs; exact decodes_unique h hs
  · rintro rfl; exact h

/-- C47. Well-formed UTF-8 is decoded to the characters it encodes, so that the
properties of `ParseKF` on texts hold for it as they are. -/
theorem C47_valid (w : World) (s : Str) (l : Option ErrorList) (mode : Nat) :
    parseKFBytes w (encode s) l mode = parseKF w s l mode := by
  unfold parseKFBytes
  rw [(C47_decoding _ _).1 (decodes_encode s)]

/-- Classes with no character outside ASCII. -/
def RE.ascii : RE → Bool
  | .none => true
  | .eps => true
  | .cls neg rs => !neg && rs.all fun r => r.2 < 128
  | .seq a b => a.ascii && b.ascii
  | .alt a b => a.ascii && b.ascii
  | .star a => a.ascii

theorem ascii_lang {r : RE} {x : Str} (hl : Lang r x) (h : r.ascii = true) : ∀ c ∈ x, c.toNat < 128 := by
  induction hl with
  | eps => simp
  | @cls neg rs c hc =>
    intro d hd
    simp at hd
    subst hd
    simp only [RE.ascii, Bool.and_eq_true, Bool.not_eq_true', List.all_eq_true, decide_eq_true_eq] at h
    obtain ⟨r, hr, h1, h2⟩ := hc.2 h.1
    have := h.2 r hr
    omega
  | seq _ _ iha ihb =>
    simp only [RE.ascii, Bool.and_eq_true] at h
    intro c hc
    rcases List.mem_append.1 hc with hc | hc
    · exact iha h.1 c hc
    · exact ihb h.2 c hc
  | altL _ ih =>
    simp only [RE.ascii, Bool.and_eq_true] at h
    exact ih h.1
  | altR _ ih =>
    simp only [RE.ascii, Bool.and_eq_true] at h
    exact ih h.2
  | starNil => simp
  | starCons _ _ iha ihb =>
    intro c hc
    rcases List.mem_append.1 hc with hc | hc
    · exact iha h c hc
    · exact ihb h c hc

/-- The tokens that can contain any character. -/
def freeTypes : List TT := [.STRING_LITERAL, .SQL_STMT, .BLOCK_COMMENT, .LINE_COMMENT]

/-- C47. In a text that splits into tokens, characters outside ASCII, U+FFFD
among them, occur only in comments, string literals and SQL statements. -/
theorem C47_contained (s : Str) (toks : List (Tok × Bool)) (h : Tokenises s toks)
    (t : Tok) (hid : Bool) (ht : (t, hid) ∈ toks) (c : Char) (hc : c ∈ t.text)
    (hn : 128 ≤ c.toNat) : t.ty ∈ freeTypes := by
  obtain ⟨r, hr, hty, _, _, hl, _⟩ := (h.lexemes _ ht).rule
  have key : ∀ r ∈ lexRules, r.ty ∈ freeTypes ∨ r.re.ascii = true := by decide +kernel
  rw [← hty]
  rcases key r hr with h | h
  · exact h
  · have := ascii_lang hl h c hc
    omega

/-- C47. Of bytes that `ParseKF` accepts, those that are not UTF-8 are inside
comments, string literals and SQL statements; other bytes are rejected, with
an error and without a crash. -/
theorem C47_accepted (w : World) (bs : List UInt8) (l : Option ErrorList) (mode : Nat)
    (h : (parseKFBytes w bs l mode).result ≠ none) :
    ∃ s toks, Decodes bs s ∧ Tokenises s toks ∧ s = toks.flatMap (fun p => p.1.text) ∧
      ∀ p ∈ toks, Char.ofNat 0xFFFD ∈ p.1.text → p.1.ty ∈ freeTypes := by
  refine ⟨decode bs, ?_⟩
  have hw : ∃ p, Writes (decode bs) p := by
    apply Classical.byContradiction
    intro hn
    apply h
    unfold parseKFBytes
    rw [parseKF_bad hn]
    rfl
  obtain ⟨p, toks, ht, _⟩ := hw
  refine ⟨toks, (C47_decoding _ _).2 rfl, ht, ?_, ?_⟩
  · have : ∀ {s l}, Tokenises s l → s = l.flatMap (fun p => p.1.text) := by
      intro s l h
      induction h with
      | nil => rfl
      | cons hn _ ih => rw [List.flatMap_cons, ← ih]; exact hn.1
    exact this ht
  · intro q hq hc
    exact C47_contained _ _ ht q.1 q.2 hq _ hc (by decide)

/-- Classes that no text beginning with a character outside ASCII is in. -/
def RE.asciiFirst : RE → Bool
  | .none => true
  | .eps => true
  | .cls neg rs => !neg && rs.all fun r => r.2 < 128
  | .seq a b => a.asciiFirst && (!a.nullable || b.asciiFirst)
  | .alt a b => a.asciiFirst && b.asciiFirst
  | .star a => a.asciiFirst

theorem ascii_first {r : RE} {x : Str} (hl : Lang r x) (h : r.asciiFirst = true) :
    ∀ c y, x = c :: y → c.toNat < 128 := by
  induction hl with
  | eps => intro c y e; cases e
  | @cls neg rs c hc =>
    intro d y e
    cases e
    simp only [RE.asciiFirst, Bool.and_eq_true, Bool.not_eq_true', List.all_eq_true,
      decide_eq_true_eq] at h
    obtain ⟨r, hr, h1, h2⟩ := hc.2 h.1
    have := h.2 r hr
    omega
  | @seq a b x z hx _ iha ihb =>
    simp only [RE.asciiFirst, Bool.and_eq_true, Bool.or_eq_true, Bool.not_eq_true'] at h
    intro c y e
    cases x with
    | nil =>
      rcases h.2 with hb | hb
      · rw [(nullable_iff a).2 hx] at hb; cases hb
      · exact ihb hb c y e
    | cons d x =>
      cases e
      exact iha h.1 _ _ rfl
  | altL _ ih =>
    simp only [RE.asciiFirst, Bool.and_eq_true] at h
    exact ih h.1
  | altR _ ih =>
    simp only [RE.asciiFirst, Bool.and_eq_true] at h
    exact ih h.2
  | starNil => intro c y e; cases e
  | @starCons a x z _ _ iha ihb =>
    intro c y e
    cases x with
    | nil => exact ihb h c y e
    | cons d x =>
      cases e
      exact iha h _ _ rfl

/-- C47. A text that begins with a character outside ASCII, a byte order mark
say, is never accepted, whatever follows; there is an error. -/
theorem C47_first (w : World) (c : Char) (s : Str) (hc : 128 ≤ c.toNat)
    (l : Option ErrorList) (mode : Nat) :
    (parseKF w (c :: s) l mode).result = none ∧ (parseKF w (c :: s) l mode).err ≠ none := by
  have hn : ¬ ∃ p, Writes (c :: s) p := by
    rintro ⟨p, toks, ht, hg⟩
    cases ht with
    | @cons _ rest t h l hx ht =>
      obtain ⟨e, hne, b, r, a, hr, _, _, hcl, _⟩ := hx
      have key : ∀ r ∈ lexRules, r.re.asciiFirst = true := by decide +kernel
      have hm : r ∈ lexRules := by rw [hr]; simp
      cases htx : t.text with
      | nil => exact hne htx
      | cons d y =>
        rw [htx] at e
        injection e with e1 e2
        have := ascii_first hcl.2.1 (key r hm) d y htx
        rw [e1] at hc
        omega
  rw [parseKF_bad hn]
  simp [Outcome.err, ErrorList.isErr]

/-- C47. In terms of bytes: input whose first byte is not ASCII (a file saved with
a byte order mark, or as UTF-16) is rejected. -/
theorem C47_first_byte (w : World) (b : UInt8) (bs : List UInt8) (hb : 128 ≤ b.toNat)
    (l : Option ErrorList) (mode : Nat) :
    (parseKFBytes w (b :: bs) l mode).result = none ∧
    (parseKFBytes w (b :: bs) l mode).err ≠ none := by
  have : ∃ c s, decode (b :: bs) = c :: s ∧ 128 ≤ c.toNat := by
    have hd := (C47_decoding (b :: bs) _).2 rfl
    generalize decode (b :: bs) = x at hd ⊢
    generalize hy : b :: bs = y at hd
    cases hd with
    | nil => cases hy
    | @char c rest s _ =>
      refine ⟨c, s, rfl, ?_⟩
      apply Classical.byContradiction
      intro hlt
      have hv : c.val.toNat ≤ 127 := by have : c.toNat = c.val.toNat := rfl; omega
      simp only [String.utf8EncodeChar, hv, if_true] at hy
      injection hy with h1 _
      rw [h1] at hb
      simp only [UInt8.toNat_ofNat'] at hb
      omega
    | bad _ _ => exact ⟨_, _, rfl, by decide⟩
  obtain ⟨c, s, e, hc⟩ := this
  unfold parseKFBytes
  rw [e]
  exact C47_first w c s hc l mode

/-- A byte order mark before a text that is accepted without it. -/
example : (∃ p, Writes (decode (encode "database d;".toList)) p) ∧
    (parseKFBytes Sample.world ([0xEF, 0xBB, 0xBF] ++ encode "database d;".toList) none 0).result = none :=
  ⟨⟨⟨"d".toList, [], []⟩, writes_iff.2 (by decide +kernel)⟩,
    (C47_first_byte _ 0xEF _ (by decide) _ _).1⟩

/-- C47. On any bytes `ParseKF` returns a schema or an error. -/
theorem C47_total (w : World) (bs : List UInt8) (l : Option ErrorList) (mode : Nat) :
    (∃ sch, (parseKFBytes w bs l mode).result = some sch) ∨
    (parseKFBytes w bs l mode).err ≠ none := by
  unfold parseKFBytes
  cases hr : (parseKF w (decode bs) l mode).result with
  | some sch => exact .inl ⟨sch, rfl⟩
  | none =>
    refine .inr ?_
    by_cases hw : ∃ p, Writes (decode bs) p
    · obtain ⟨p, hp⟩ := hw
      rw [hp.parseKF] at hr ⊢
      revert hr
      split
      · simp [Outcome.err, ErrorList.isErr]
      · cases p.fault with
        | some e => simp [Outcome.err, ErrorList.isErr]
        | none =>
          cases validate w.toEnv p.denote with
          | none => simp
          | some f => cases f <;> simp
    · rw [parseKF_bad hw]
      simp [Outcome.err, ErrorList.isErr]

/-- Truncated and overlong sequences, a surrogate, a stray continuation byte. -/
example : decode [0x61, 0xC3, 0xA9, 0xE2, 0x82, 0x62, 0xC0, 0x80, 0xED, 0xA0, 0x80, 0xF0, 0x9F, 0x98, 0x80, 0x80] =
    ['a', 'é', Char.ofNat 0xFFFD, Char.ofNat 0xFFFD, 'b', Char.ofNat 0xFFFD, Char.ofNat 0xFFFD,
      Char.ofNat 0xFFFD, Char.ofNat 0xFFFD, Char.ofNat 0xFFFD, Char.ofNat 0x1F600,
      Char.ofNat 0xFFFD] := by decide +kernel

/-- An accepted text with a malformed byte, in a comment. -/
example : (parseKFBytes Sample.world (encode "database d; //".toList ++ [0xFF]) none 0).err = none := by
  have hw : Writes (decode (encode "database d; //".toList ++ [0xFF])) ⟨"d".toList, [], []⟩ :=
    writes_iff.2 (by decide +kernel)
  unfold parseKFBytes
  have h2 : validate Sample.world.toEnv (Program.denote ⟨"d".toList, [], []⟩) = none := by decide +kernel
  rw [hw.parseKF, show Program.fault ⟨"d".toList, [], []⟩ = none from rfl, h2]
  simp [Outcome.err, ErrorList.isErr]

end Verif
