import Verif.Proof.Truncate
import Verif.Props.Utf8
/-!
# Byte sequences that break off

A prefix of a byte sequence stands for a prefix of its characters, followed by
U+FFFD for the bytes of a character that is not complete.
-/

namespace Verif

/-- The bytes of an incomplete character stand for U+FFFD each. -/
theorem decodes_incomplete {c : Char} {y z : List UInt8} (h : y ++ z = String.utf8EncodeChar c)
    (hz : z ≠ []) : ∃ k, Decodes y (List.replicate k runeError) := by
  suffices hd : ∃ k, decode y = List.replicate k runeError by
    obtain ⟨k, hk⟩ := hd
    exact ⟨k, hk ▸ (C47_decoding _ _).2 rfl⟩
  have hv := char_valid c
  have hcv : c.val.toNat = c.toNat := rfl
  unfold String.utf8EncodeChar at h
  simp only [] at h
  rw [hcv] at h
  have run : ∀ {n : Nat} {b : UInt8} {s : List UInt8}, decodeRune b s = (runeError, s) →
      decodeN (n + 1) (b :: s) = runeError :: decodeN n s := by
    intro n b s h
    rw [decodeN, h]
  have big : ∀ (n : Nat) (s : List UInt8), 0x80 ≤ n → n < 256 → 
      (n < 0xC0 ∨ (n < 0xE0 ∧ s = []) ∨ (0xE0 ≤ n ∧ n < 0xF0 ∧ s.length < 2) ∨
        (0xF0 ≤ n ∧ n < 0xF8 ∧ s.length < 3)) →
      decodeRune (UInt8.ofNat n) s = (runeError, s) := by
    intro n s h1 h2 h3
    have e := toNat_ofNat8 h2
    unfold decodeRune
    simp only [e]
    rw [if_neg (by omega)]
    split
    · rename_i h4
      rcases h3 with h | ⟨_, h⟩ | ⟨h, _⟩ | ⟨h, _⟩
      · omega
      · subst h; rfl
      · omega
      · omega
    · split
      · rename_i h5
        match s, h3 with
        | [], _ => rfl
        | [_], _ => rfl
        | _ :: _ :: _, h3 => exfalso; simp at h3; omega
      · split
        · match s, h3 with
          | [], _ => rfl
          | [_], _ => rfl
          | [_, _], _ => rfl
          | _ :: _ :: _ :: _, h3 => exfalso; simp at h3; omega
        · rfl
  split at h
  · have : y = [] := by
      cases y with
      | nil => rfl
      | cons a y => cases z with
        | nil => exact absurd rfl hz
        | cons b z => simp at h
    subst this
    exact ⟨0, rfl⟩
  · split at h
    · match y, h with
      | [], _ => exact ⟨0, rfl⟩
      | [a], h =>
        simp only [List.cons_append, List.cons.injEq, List.nil_append] at h
        refine ⟨1, ?_⟩
        simp only [decode, List.length_singleton]
        rw [h.1, run (big _ _ (by omega) (by omega) (by simp; omega))]
        rfl
      | a :: b :: y, h =>
        exfalso
        cases z with
        | nil => exact absurd rfl hz
        | cons d z => simp at h
    · split at h
      · match y, h with
        | [], _ => exact ⟨0, rfl⟩
        | [a], h =>
          simp only [List.cons_append, List.cons.injEq, List.nil_append] at h
          refine ⟨1, ?_⟩
          simp only [decode, List.length_singleton]
          rw [h.1, run (big _ _ (by omega) (by omega) (by simp; omega))]
          rfl
        | [a, b], h =>
          simp only [List.cons_append, List.cons.injEq, List.nil_append] at h
          refine ⟨2, ?_⟩
          simp only [decode, List.length_cons, List.length_nil]
          rw [h.1, run (big _ _ (by omega) (by omega) (by simp; omega)), h.2.1,
            run (big _ _ (by omega) (by omega) (by omega))]
          rfl
        | a :: b :: c :: y, h =>
          exfalso
          cases z with
          | nil => exact absurd rfl hz
          | cons d z => simp at h
      · match y, h with
        | [], _ => exact ⟨0, rfl⟩
        | [a], h =>
          simp only [List.cons_append, List.cons.injEq, List.nil_append] at h
          refine ⟨1, ?_⟩
          simp only [decode, List.length_singleton]
          rw [h.1, run (big _ _ (by omega) (by omega) (by simp; omega))]
          rfl
        | [a, b], h =>
          simp only [List.cons_append, List.cons.injEq, List.nil_append] at h
          refine ⟨2, ?_⟩
          simp only [decode, List.length_cons, List.length_nil]
          rw [h.1, run (big _ _ (by omega) (by omega) (by simp; omega)), h.2.1,
            run (big _ _ (by omega) (by omega) (by omega))]
          rfl
        | [a, b, d], h =>
          simp only [List.cons_append, List.cons.injEq, List.nil_append] at h
          refine ⟨3, ?_⟩
          simp only [decode, List.length_cons, List.length_nil]
          rw [h.1, run (big _ _ (by omega) (by omega) (by simp; omega)), h.2.1,
            run (big _ _ (by omega) (by omega) (by omega)), h.2.2.1,
            run (big _ _ (by omega) (by omega) (by omega))]
          rfl
        | a :: b :: c :: d :: y, h =>
          exfalso
          cases z with
          | nil => exact absurd rfl hz
          | cons d z => simp at h

/-- A prefix of the bytes stands for a prefix of the characters and U+FFFD for
what is left of an incomplete character. -/
theorem decodes_prefix {bs : List UInt8} {s : Str} (h : Decodes bs s) :
    ∀ {b : List UInt8} {u : Str}, b <+: bs → Decodes b u →
      ∃ x k, u = x ++ List.replicate k runeError ∧ x <+: s := by
  induction h with
  | nil =>
    intro b u hb hu
    have : b = [] := by simpa using hb
    subst this
    have := decodes_unique hu .nil
    exact ⟨[], 0, by simpa using this, List.nil_prefix⟩
  | @char c rest s hr ih =>
    intro b u hb hu
    by_cases hlt : b.length < (String.utf8EncodeChar c).length
    · obtain ⟨z, hz⟩ : b <+: String.utf8EncodeChar c :=
        List.prefix_of_prefix_length_le hb (List.prefix_append _ _) (by omega)
      have hzne : z ≠ [] := by
        rintro rfl
        simp at hz
        rw [hz] at hlt
        omega
      obtain ⟨k, hk⟩ := decodes_incomplete hz hzne
      exact ⟨[], k, by simpa using decodes_unique hu hk, List.nil_prefix⟩
    · obtain ⟨n, rfl⟩ := List.prefix_of_prefix_length_le
        (List.prefix_append (String.utf8EncodeChar c) rest) hb (by omega)
      have hp : n <+: rest := (List.prefix_append_right_inj _).1 hb
      have hn : Decodes n (decode n) := (C47_decoding _ _).2 rfl
      obtain ⟨x, k, h1, h2⟩ := ih hp hn
      refine ⟨c :: x, k, ?_, by simpa using h2⟩
      rw [decodes_unique hu (.char hn), h1]
      rfl
  | @bad b0 rest s hbad hr ih =>
    intro b u hb hu
    cases b with
    | nil => exact ⟨[], 0, by simpa using decodes_unique hu .nil, List.nil_prefix⟩
    | cons b1 n =>
      have hp : n <+: rest := by
        obtain ⟨z, hz⟩ := hb
        simp at hz
        exact ⟨z, hz.2⟩
      have e : b1 = b0 := by
        obtain ⟨z, hz⟩ := hb
        simp at hz
        exact hz.1
      subst e
      have hn : Decodes n (decode n) := (C47_decoding _ _).2 rfl
      obtain ⟨x, k, h1, h2⟩ := ih hp hn
      refine ⟨runeError :: x, k, ?_, by simpa [runeError] using h2⟩
      rw [decodes_unique hu (.bad (fun c hc => hbad c (hc.trans hb)) hn), h1]
      rfl

/-- The tokens of a text that breaks off after some tokens. -/
theorem Tokenises.cut {l₁ : List (Tok × Bool)} :
    ∀ {s : Str} {l₂ : List (Tok × Bool)}, Tokenises s (l₁ ++ l₂) → ∀ {y : Str} {k : List (Tok × Bool)},
      y <+: l₂.flatMap (·.1.text) → Tokenises y k → Tokenises (l₁.flatMap (·.1.text) ++ y) (l₁ ++ k) := by
  induction l₁ with
  | nil => intro s l₂ _ y k _ hk; simpa using hk
  | cons p l₁ ih =>
    intro s l₂ h y k hy hk
    obtain ⟨rest, hn, hr⟩ := h.cons_inv
    have := ih hr hy hk
    have hs := hn.1
    subst hs
    have hc := hn.cut (n := l₁.flatMap (·.1.text) ++ y) (by
      have hr : Tokenises rest (l₁ ++ l₂) := hr
      rw [← hr.text, List.flatMap_append]
      exact (List.prefix_append_right_inj _).2 hy)
    have := Tokenises.cons hc this
    simpa using this

theorem isNext_line_end {body : Str} (h1 : '\n' ∉ body) (h2 : '\r' ∉ body) :
    Tokenises (['/', '/'] ++ body) [(⟨.LINE_COMMENT, ['/', '/'] ++ body⟩, true)] := by
  have h0 := isNext_line h1 h2 []
  have := IsNext.cut (t := ⟨.LINE_COMMENT, ['/', '/'] ++ body⟩) h0 (n := []) List.nil_prefix
  refine .cons (rest := []) ?_ .nil
  simpa using this

/-- Characters outside ASCII at the end of a program can only be in a comment
that is not closed by the end of a line, and can be left off. -/
theorem writes_drop {u : Str} {c : Char} (hc : 128 ≤ c.toNat) {q : Program} (h : Writes (u ++ [c]) q) :
    Writes u q := by
  obtain ⟨l, hl, hv⟩ := h
  rcases List.eq_nil_or_concat l with rfl | ⟨l₀, p, rfl⟩
  · have := hl.text
    simp at this
  obtain ⟨t, hd⟩ := p
  rw [List.concat_eq_append] at hl hv
  have ht : Lexeme t hd := hl.lexemes (t, hd) (by simp)
  have htext := hl.text
  simp only [List.flatMap_append, List.flatMap_cons, List.flatMap_nil, List.append_nil] at htext
  have hne : t.text ≠ [] := ht.2.1
  obtain ⟨v, d, hvd⟩ : ∃ v d, t.text = v ++ [d] := by
    rcases List.eq_nil_or_concat t.text with h | ⟨v, d, h⟩
    · exact absurd h hne
    · exact ⟨v, d, by rw [h, List.concat_eq_append]⟩
  rw [hvd, ← List.append_assoc] at htext
  have hd' : d = c := by
    have := List.append_inj_right' htext rfl
    simpa using this
  have hu : l₀.flatMap (·.1.text) ++ v = u := List.append_inj_left' htext rfl
  subst hd'
  have hfree := C47_contained _ _ hl t hd (by simp) d (by rw [hvd]; simp) hc
  obtain ⟨r, hr, hty, hh, hrc⟩ := ht.rule
  have tr := rules_by_ty r hr
  cases hd with
  | false =>
    exfalso
    have hlast : visible (l₀ ++ [(t, false)]) = visible l₀ ++ [t] := by simp [visible]
    obtain ⟨a, e, ha, hcl⟩ := q.toks_last
    rw [hlast, ha] at hv
    have he : t = e := by
      have := List.append_inj_right' hv rfl
      simpa using this
    subst he
    have : d = ';' ∨ d = '}' := by
      rcases hcl with h | h
      · have h0 : t.text = [';'] := by rw [h]; rfl
        rw [hvd] at h0
        have := List.append_inj_right' (t₁ := [d]) (s₂ := []) h0 rfl
        simp at this
        exact .inl this
      · have h0 : t.text = ['}'] := by rw [h]; rfl
        rw [hvd] at h0
        have := List.append_inj_right' (t₁ := [d]) (s₂ := []) h0 rfl
        simp at this
        exact .inr this
    rcases this with rfl | rfl <;> revert hc <;> decide
  | true =>
    have hhid := tr.2.2.2.2.2.2.2.2.1 hh
    rw [hty] at hhid
    have hcase : t.ty = .BLOCK_COMMENT ∨ t.ty = .LINE_COMMENT := by
      revert hfree hhid
      generalize t.ty = ty
      cases ty <;> simp [freeTypes]
    rcases hcase with h | h
    · exfalso
      have hl' := hrc.2.1
      rw [tr.2.2.2.2.1 (hty.trans h)] at hl'
      obtain ⟨b, hb⟩ := block_iff.1 hl'
      rw [hvd] at hb
      have : v ++ [d] = (['/', '*'] ++ b ++ ['*']) ++ ['/'] := by rw [hb]; simp
      have := List.append_inj_right' this rfl
      simp at this
      subst this
      revert hc; decide
    · have hl' := hrc.2.1
      rw [tr.2.2.2.2.2.1 (hty.trans h)] at hl'
      obtain ⟨b, hb, n1, n2⟩ := line_iff.1 hl'
      rcases List.eq_nil_or_concat b with rfl | ⟨b', e, rfl⟩
      · exfalso
        rw [hvd] at hb
        have : v ++ [d] = ['/'] ++ ['/'] := by rw [hb]; rfl
        have := List.append_inj_right' this rfl
        simp at this
        subst this
        revert hc; decide
      · have e1 : v ++ [d] = (['/', '/'] ++ b') ++ [e] := by rw [← hvd, hb]; simp
        have hv' : v = ['/', '/'] ++ b' := List.append_inj_left' e1 rfl
        simp at n1 n2
        have hk := isNext_line_end n1.1 n2.1
        refine ⟨l₀ ++ [(⟨.LINE_COMMENT, v⟩, true)], ?_, ?_⟩
        · rw [← hu, hv']
          refine Tokenises.cut hl ?_ hk
          simp [hb]
        · rw [← hv]
          simp [visible]

theorem writes_drops {u : Str} {k : Nat} {q : Program} (h : Writes (u ++ List.replicate k runeError) q) :
    Writes u q := by
  induction k with
  | zero => simpa using h
  | succ k ih =>
    rw [List.replicate_succ', ← List.append_assoc] at h
    exact ih (writes_drop (by decide) h)

end Verif
