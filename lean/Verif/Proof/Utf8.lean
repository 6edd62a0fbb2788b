import Verif.Model.Utf8
import Verif.Spec.Utf8
/-!
# UTF-8
-/

namespace Verif

theorem ofNat_valid {n : Nat} (h : n < 0xD800 ∨ (0xDFFF < n ∧ n < 0x110000)) :
    (Char.ofNat n).toNat = n := by
  have hv : n.isValidChar := h
  unfold Char.ofNat
  rw [dif_pos hv]
  rfl

theorem char_valid (c : Char) : c.toNat < 0xD800 ∨ (0xDFFF < c.toNat ∧ c.toNat < 0x110000) := c.valid

theorem toNat_ofNat8 {n : Nat} (h : n < 256) : (UInt8.ofNat n).toNat = n := by
  simp; omega

theorem eq_ofNat8 {b : UInt8} {n : Nat} (h : b.toNat = n) : b = UInt8.ofNat n := by
  rw [← h]; simp

theorem decodeRune_encode (c : Char) (rest : List UInt8) :
    ∃ b s, String.utf8EncodeChar c ++ rest = b :: s ∧ decodeRune b s = (c, rest) := by
  have hv := char_valid c
  have hcv : c.val.toNat = c.toNat := rfl
  unfold String.utf8EncodeChar
  simp only [hcv]
  split
  · rename_i h
    refine ⟨_, _, List.cons_append, ?_⟩
    unfold decodeRune
    simp only [toNat_ofNat8 (show c.toNat < 256 by omega)]
    rw [if_pos (by omega), Char.ofNat_toNat]; rfl
  split
  · rename_i h1 h2
    refine ⟨_, _, List.cons_append, ?_⟩
    unfold decodeRune
    simp only [List.cons_append, List.nil_append, isCont,
      toNat_ofNat8 (show c.toNat / 64 % 32 + 192 < 256 by omega),
      toNat_ofNat8 (show c.toNat % 64 + 128 < 256 by omega)]
    rw [if_neg (by omega), if_pos (by omega)]
    have : (c.toNat / 64 % 32 + 192) % 32 * 64 + (c.toNat % 64 + 128) % 64 = c.toNat := by omega
    rw [this, if_pos, Char.ofNat_toNat]
    simp only [Bool.and_eq_true, decide_eq_true_eq]; omega
  split
  · rename_i h1 h2 h3
    refine ⟨_, _, List.cons_append, ?_⟩
    unfold decodeRune
    simp only [List.cons_append, List.nil_append, isCont,
      toNat_ofNat8 (show c.toNat / 4096 % 16 + 224 < 256 by omega),
      toNat_ofNat8 (show c.toNat / 64 % 64 + 128 < 256 by omega),
      toNat_ofNat8 (show c.toNat % 64 + 128 < 256 by omega)]
    rw [if_neg (by omega), if_neg (by omega), if_pos (by omega)]
    have : (c.toNat / 4096 % 16 + 224) % 16 * 4096 + (c.toNat / 64 % 64 + 128) % 64 * 64 +
      (c.toNat % 64 + 128) % 64 = c.toNat := by omega
    rw [this, if_pos, Char.ofNat_toNat]
    simp only [Bool.and_eq_true, decide_eq_true_eq, Bool.not_eq_true', Bool.and_eq_false_iff,
      decide_eq_false_iff_not]; omega
  · rename_i h1 h2 h3
    refine ⟨_, _, List.cons_append, ?_⟩
    unfold decodeRune
    simp only [List.cons_append, List.nil_append, isCont,
      toNat_ofNat8 (show c.toNat / 262144 % 8 + 240 < 256 by omega),
      toNat_ofNat8 (show c.toNat / 4096 % 64 + 128 < 256 by omega),
      toNat_ofNat8 (show c.toNat / 64 % 64 + 128 < 256 by omega),
      toNat_ofNat8 (show c.toNat % 64 + 128 < 256 by omega)]
    rw [if_neg (by omega), if_neg (by omega), if_neg (by omega), if_pos (by omega)]
    have : (c.toNat / 262144 % 8 + 240) % 8 * 262144 + (c.toNat / 4096 % 64 + 128) % 64 * 4096 +
      (c.toNat / 64 % 64 + 128) % 64 * 64 + (c.toNat % 64 + 128) % 64 = c.toNat := by omega
    rw [this, if_pos, Char.ofNat_toNat]
    simp only [Bool.and_eq_true, decide_eq_true_eq]; omega

/-- Either an encoded character is taken, or one byte. -/
theorem decodeRune_cases (b : UInt8) (s : List UInt8) :
    b :: s = String.utf8EncodeChar (decodeRune b s).1 ++ (decodeRune b s).2 ∨
    decodeRune b s = (runeError, s) := by
  unfold decodeRune
  simp only []
  split
  · rename_i h
    refine .inl ?_
    have hc := ofNat_valid (n := b.toNat) (by omega)
    unfold String.utf8EncodeChar
    simp only [show (Char.ofNat b.toNat).val.toNat = _ from hc]
    rw [if_pos (by omega)]
    simp
  split
  · rename_i h0 h
    cases s with
    | nil => exact .inr rfl
    | cons b1 t =>
      simp only []
      split
      · rename_i hc
        simp only [isCont, Bool.and_eq_true, decide_eq_true_eq] at hc
        refine .inl ?_
        have hv := ofNat_valid (n := b.toNat % 32 * 64 + b1.toNat % 64) (by omega)
        unfold String.utf8EncodeChar
        simp only [show (Char.ofNat _).val.toNat = _ from hv]
        rw [if_neg (by omega), if_pos (by omega)]
        simp only [List.cons_append, List.nil_append, List.cons.injEq, and_true]
        exact ⟨eq_ofNat8 (by omega), eq_ofNat8 (by omega)⟩
      · exact .inr rfl
  split
  · rename_i h0 h1 h
    match s with
    | [] => exact .inr rfl
    | [_] => exact .inr rfl
    | b1 :: b2 :: t =>
      simp only []
      split
      · rename_i hc
        simp only [isCont, Bool.and_eq_true, decide_eq_true_eq, Bool.not_eq_true', Bool.and_eq_false_iff,
          decide_eq_false_iff_not] at hc
        refine .inl ?_
        have hv := ofNat_valid (n := b.toNat % 16 * 4096 + b1.toNat % 64 * 64 + b2.toNat % 64) (by omega)
        unfold String.utf8EncodeChar
        simp only [show (Char.ofNat _).val.toNat = _ from hv]
        rw [if_neg (by omega), if_neg (by omega), if_pos (by omega)]
        simp only [List.cons_append, List.nil_append, List.cons.injEq, and_true]
        exact ⟨eq_ofNat8 (by omega), eq_ofNat8 (by omega), eq_ofNat8 (by omega)⟩
      · exact .inr rfl
  split
  · rename_i h0 h1 h2 h
    match s with
    | [] => exact .inr rfl
    | [_] => exact .inr rfl
    | [_, _] => exact .inr rfl
    | b1 :: b2 :: b3 :: t =>
      simp only []
      split
      · rename_i hc
        simp only [isCont, Bool.and_eq_true, decide_eq_true_eq] at hc
        refine .inl ?_
        have hv := ofNat_valid (n := b.toNat % 8 * 262144 + b1.toNat % 64 * 4096 + b2.toNat % 64 * 64 +
          b3.toNat % 64) (by omega)
        unfold String.utf8EncodeChar
        simp only [show (Char.ofNat _).val.toNat = _ from hv]
        rw [if_neg (by omega), if_neg (by omega), if_neg (by omega)]
        simp only [List.cons_append, List.nil_append, List.cons.injEq, and_true]
        exact ⟨eq_ofNat8 (by omega), eq_ofNat8 (by omega), eq_ofNat8 (by omega), eq_ofNat8 (by omega)⟩
      · exact .inr rfl
  · exact .inr rfl

theorem encode_length (c : Char) : 1 ≤ (String.utf8EncodeChar c).length := by
  unfold String.utf8EncodeChar
  simp only []
  split
  · simp
  split
  · simp
  split
  · simp
  · simp

theorem runeError_length : (String.utf8EncodeChar runeError).length = 3 := by decide

/-- The byte that is taken alone starts no encoded character. -/
theorem decodeRune_bad {b : UInt8} {s : List UInt8} (h : decodeRune b s = (runeError, s)) (c : Char) :
    ¬ String.utf8EncodeChar c <+: b :: s := by
  rintro ⟨r, hr⟩
  obtain ⟨b', s', e, hd⟩ := decodeRune_encode c r
  rw [hr] at e
  injection e with e1 e2
  subst e1 e2
  rw [h] at hd
  injection hd with h1 h2
  subst h1 h2
  have := congrArg List.length hr
  rw [List.length_append, runeError_length, List.length_cons] at this
  omega

theorem decodeRune_length (b : UInt8) (s : List UInt8) : (decodeRune b s).2.length ≤ s.length := by
  rcases decodeRune_cases b s with h | h
  · have := congrArg List.length h
    have h1 := encode_length (decodeRune b s).1
    rw [List.length_append, List.length_cons] at this; omega
  · rw [h]; exact Nat.le_refl _

theorem decodes_decodeN (n : Nat) (bs : List UInt8) (h : bs.length ≤ n) : Decodes bs (decodeN n bs) := by
  induction n generalizing bs with
  | zero =>
    cases bs with
    | nil => exact .nil
    | cons _ _ => simp at h
  | succ n ih =>
    cases bs with
    | nil => exact .nil
    | cons b s =>
      have hl := decodeRune_length b s
      have hr := ih (decodeRune b s).2 (by simp at h; omega)
      rw [decodeN]
      rcases decodeRune_cases b s with e | e
      · have := Decodes.char (c := (decodeRune b s).1) hr
        rw [← e] at this
        exact this
      · rw [e] at hr ⊢
        exact .bad (decodeRune_bad e) hr

theorem decodes_unique {bs : List UInt8} {s t : Str} (hs : Decodes bs s) (ht : Decodes bs t) : s = t := by
  induction hs generalizing t with
  | nil =>
    generalize hb : ([] : List UInt8) = bs at ht
    cases ht with
    | nil => rfl
    | @char c rest s h =>
      have := congrArg List.length hb
      have := encode_length c
      rw [List.length_append, List.length_nil] at *; omega
    | bad => cases hb
  | @char c rest s hr ih =>
    generalize hb : String.utf8EncodeChar c ++ rest = bs at ht
    obtain ⟨b, u, e, hd⟩ := decodeRune_encode c rest
    cases ht with
    | nil =>
      have := congrArg List.length hb
      have := encode_length c
      rw [List.length_append, List.length_nil] at *; omega
    | @char c' rest' s' h' =>
      obtain ⟨b', u', e', hd'⟩ := decodeRune_encode c' rest'
      rw [e, e'] at hb
      injection hb with h1 h2
      subst h1 h2
      rw [hd] at hd'
      injection hd' with h1 h2
      subst h1 h2
      rw [ih h']
    | bad hn _ => exact absurd ⟨rest, hb⟩ (hn c)
  | @bad b rest s hn hr ih =>
    generalize hb : b :: rest = bs at ht
    cases ht with
    | nil => cases hb
    | @char c' rest' s' h' => exact absurd ⟨rest', hb.symm⟩ (hn c')
    | bad _ h' =>
      injection hb with h1 h2
      subst h2
      rw [ih h']

theorem decodes_encode (s : Str) : Decodes (encode s) s := by
  induction s with
  | nil => exact .nil
  | cons c s ih => exact .char ih

end Verif
