import Verif.Spec.Json
/-!
# JSON output
-/

namespace Verif

mutual
/-- Indented JSON, written directly. -/
def J.pretty (sh : Bool) (d : Nat) : J → Str
  | .null => "null".toList
  | .bool true => "true".toList
  | .bool false => "false".toList
  | .num t => t
  | .str s => quote sh s
  | .arr [] => ['[', ']']
  | .arr (x :: xs) =>
      '[' :: (newline (d + 1) ++ (x.pretty sh (d + 1) ++ (J.prettyRest sh (d + 1) xs ++
        (newline d ++ [']']))))
  | .obj [] => ['{', '}']
  | .obj ((k, x) :: xs) =>
      '{' :: (newline (d + 1) ++ (quote sh k ++ ':' :: ' ' :: (x.pretty sh (d + 1) ++
        (J.prettyMembers sh (d + 1) xs ++ (newline d ++ ['}'])))))
def J.prettyRest (sh : Bool) (d : Nat) : List J → Str
  | [] => []
  | x :: xs => ',' :: (newline d ++ (x.pretty sh d ++ J.prettyRest sh d xs))
def J.prettyMembers (sh : Bool) (d : Nat) : List (Str × J) → Str
  | [] => []
  | (k, x) :: xs =>
      ',' :: (newline d ++ (quote sh k ++ ':' :: ' ' :: (x.pretty sh d ++ J.prettyMembers sh d xs)))
end

mutual
/-- No numbers. -/
def J.noNum : J → Prop
  | .num _ => False
  | .arr l => J.noNumList l
  | .obj l => J.noNumMembers l
  | _ => True
def J.noNumList : List J → Prop
  | [] => True
  | x :: xs => x.noNum ∧ J.noNumList xs
def J.noNumMembers : List (Str × J) → Prop
  | [] => True
  | (_, x) :: xs => x.noNum ∧ J.noNumMembers xs
end

/-! ## `Indent` on compact text -/

/-- Outside strings, without a delayed newline. -/
def atDepth (d : Nat) : Ind := { depth := d }
/-- After an opening bracket. -/
def opened (d : Nat) : Ind := { need := true, depth := d }
/-- Inside a string. -/
def inString (d : Nat) : Ind := { inStr := true, depth := d }

theorem run_append_of {st st' : Ind} {c : Char} {out : Str} (h : st.step c = (st', out)) (r : Str) :
    st.run (c :: r) = out ++ st'.run r := by rw [Ind.run, h]

/-- Characters other than quote, backslash. -/
theorem run_plain {d : Nat} {c : Char} (h1 : c ≠ '"') (h2 : c ≠ '\\') (r : Str) :
    (inString d).run (c :: r) = c :: (inString d).run r := by
  rw [run_append_of (st' := inString d) (out := [c])]
  · rfl
  · simp [Ind.step, inString, h1, h2]

theorem run_escaped {d : Nat} (c : Char) (r : Str) :
    (inString d).run ('\\' :: c :: r) = '\\' :: c :: (inString d).run r := by
  rw [run_append_of (st' := { inStr := true, esc := true, depth := d }) (out := ['\\'])]
  · rw [run_append_of (st' := inString d) (out := [c])]
    · rfl
    · simp [Ind.step, inString]
  · simp [Ind.step, inString]

theorem hexDigit_facts : ∀ n, n < 16 → hexDigit n ≠ '"' ∧ hexDigit n ≠ '\\' ∧
    hexVal (hexDigit n) = some n ∧ 32 ≤ (hexDigit n).toNat ∧ (hexDigit n).toNat < 127 ∧
    hexDigit n ≠ '<' ∧ hexDigit n ≠ '>' ∧ hexDigit n ≠ '&' := by
  intro n hn
  have : ∀ n : Fin 16, hexDigit n ≠ '"' ∧ hexDigit n ≠ '\\' ∧
    hexVal (hexDigit n) = some n.1 ∧ 32 ≤ (hexDigit n).toNat ∧ (hexDigit n).toNat < 127 ∧
    hexDigit n ≠ '<' ∧ hexDigit n ≠ '>' ∧ hexDigit n ≠ '&' := by decide
  exact this ⟨n, hn⟩

theorem run_hex4 {d n : Nat} (r : Str) :
    (inString d).run (hex4 n ++ r) = hex4 n ++ (inString d).run r := by
  have f := fun m => hexDigit_facts (m % 16) (Nat.mod_lt _ (by omega))
  simp only [hex4, List.cons_append, List.nil_append]
  rw [run_plain (f _).1 (f _).2.1, run_plain (f _).1 (f _).2.1, run_plain (f _).1 (f _).2.1,
    run_plain (f _).1 (f _).2.1]

theorem run_escChar {d : Nat} (sh : Bool) (c : Char) (r : Str) :
    (inString d).run (escChar sh c ++ r) = escChar sh c ++ (inString d).run r := by
  unfold escChar
  split
  · exact run_escaped _ _
  split
  · exact run_escaped _ _
  split
  · exact run_escaped _ _
  split
  · exact run_escaped _ _
  split
  · exact run_escaped _ _
  split
  · exact run_escaped _ _
  split
  · exact run_escaped _ _
  split
  · rw [List.append_assoc, List.append_assoc]
    show (inString d).run ('\\' :: 'u' :: (hex4 c.toNat ++ r)) = _
    rw [run_escaped, run_hex4]
    rfl
  · rename_i h1 h2 _ _ _ _ _ _
    exact run_plain h1 h2 _

theorem run_body {d : Nat} (sh : Bool) (s : Str) (r : Str) :
    (inString d).run (s.flatMap (escChar sh) ++ r) =
      s.flatMap (escChar sh) ++ (inString d).run r := by
  induction s with
  | nil => rfl
  | cons c s ih =>
    rw [List.flatMap_cons, List.append_assoc, run_escChar, ih, List.append_assoc]

theorem run_quote {d : Nat} (sh : Bool) (s : Str) (r : Str) :
    (atDepth d).run (quote sh s ++ r) = quote sh s ++ (atDepth d).run r := by
  unfold quote
  rw [List.cons_append, run_append_of (st' := inString d) (out := ['"'])]
  · rw [List.append_assoc, run_body]
    have : ∀ r, (inString d).run ('"' :: r) = '"' :: (atDepth d).run r := by
      intro r
      rw [run_append_of (st' := atDepth d) (out := ['"'])]
      · rfl
      · simp [Ind.step, inString, atDepth]
    show '"' :: (_ ++ (inString d).run ('"' :: r)) = _
    rw [this]
    simp
  · simp [Ind.step, inString, atDepth]

/-- After an opening bracket something other than a closing one comes. -/
theorem run_opened {d : Nat} {c : Char} (h1 : c ≠ '}') (h2 : c ≠ ']') (h3 : isJsonWs c = false)
    (r : Str) : (opened d).run (c :: r) = newline (d + 1) ++ (atDepth (d + 1)).run (c :: r) := by
  simp only [isJsonWs, Bool.or_eq_false_iff, decide_eq_false_iff_not] at h3
  obtain ⟨⟨⟨a, b⟩, e⟩, f⟩ := h3
  simp only [Ind.run, Ind.step, opened, atDepth, h1, h2, a, b, e, f]
  by_cases g1 : c = '{' <;> by_cases g2 : c = '[' <;> by_cases g3 : c = ',' <;>
    by_cases g4 : c = ':' <;> by_cases g5 : c = '"' <;> simp [g1, g2, g3, g4, g5, h1, h2]

theorem run_char {d : Nat} {c : Char} (h : ∀ x ∈ [' ', '\t', '\n', '\r', '{', '[', ',', ':', '}', ']', '"'], c ≠ x)
    (r : Str) : (atDepth d).run (c :: r) = c :: (atDepth d).run r := by
  simp only [List.mem_cons, List.not_mem_nil, or_false, forall_eq_or_imp, forall_eq] at h
  obtain ⟨a, b, e, f, g, i, j, k, l, m, n⟩ := h
  simp [Ind.run, Ind.step, atDepth, a, b, e, f, g, i, j, k, l, m, n]

theorem run_open {d : Nat} {c : Char} (h : c = '{' ∨ c = '[') (r : Str) :
    (atDepth d).run (c :: r) = c :: (opened d).run r := by
  rcases h with rfl | rfl <;> simp [Ind.run, Ind.step, atDepth, opened]

theorem run_close {d : Nat} {c : Char} (h : c = '}' ∨ c = ']') (r : Str) :
    (atDepth (d + 1)).run (c :: r) = newline d ++ c :: (atDepth d).run r := by
  rcases h with rfl | rfl <;> simp [Ind.run, Ind.step, atDepth]

theorem run_empty {d : Nat} {c : Char} (h : c = '}' ∨ c = ']') (r : Str) :
    (opened d).run (c :: r) = c :: (atDepth d).run r := by
  rcases h with rfl | rfl <;> simp [Ind.run, Ind.step, atDepth, opened]

theorem run_comma {d : Nat} (r : Str) :
    (atDepth d).run (',' :: r) = ',' :: (newline d ++ (atDepth d).run r) := by
  simp [Ind.run, Ind.step, atDepth]

theorem run_colon {d : Nat} (r : Str) :
    (atDepth d).run (':' :: r) = ':' :: ' ' :: (atDepth d).run r := by
  simp [Ind.run, Ind.step, atDepth]

/-- A value starts with a character that is neither white space nor a closing
bracket. -/
theorem compact_start (sh : Bool) (j : J) (h : j.noNum) :
    ∃ c r, j.compact sh = c :: r ∧ c ≠ '}' ∧ c ≠ ']' ∧ isJsonWs c = false := by
  cases j with
  | null => exact ⟨'n', _, rfl, by decide, by decide, by decide⟩
  | bool b => cases b <;> exact ⟨_, _, rfl, by decide, by decide, by decide⟩
  | num t => exact h.elim
  | str s => exact ⟨'"', _, rfl, by decide, by decide, by decide⟩
  | arr l =>
    cases l with
    | nil => exact ⟨'[', _, rfl, by decide, by decide, by decide⟩
    | cons x xs => exact ⟨'[', _, by rw [J.compact], by decide, by decide, by decide⟩
  | obj l =>
    cases l with
    | nil => exact ⟨'{', _, rfl, by decide, by decide, by decide⟩
    | cons x xs => obtain ⟨k, x⟩ := x; exact ⟨'{', _, by rw [J.compact], by decide, by decide, by decide⟩

mutual
theorem run_compact (sh : Bool) (d : Nat) (j : J) (h : j.noNum) (r : Str) :
    (atDepth d).run (j.compact sh ++ r) = j.pretty sh d ++ (atDepth d).run r := by
  match j with
  | .null =>
    show (atDepth d).run ('n' :: 'u' :: 'l' :: 'l' :: r) = 'n' :: 'u' :: 'l' :: 'l' :: (atDepth d).run r
    rw [run_char (by decide), run_char (by decide), run_char (by decide), run_char (by decide)]
  | .bool true =>
    show (atDepth d).run ('t' :: 'r' :: 'u' :: 'e' :: r) = 't' :: 'r' :: 'u' :: 'e' :: (atDepth d).run r
    rw [run_char (by decide), run_char (by decide), run_char (by decide), run_char (by decide)]
  | .bool false =>
    show (atDepth d).run ('f' :: 'a' :: 'l' :: 's' :: 'e' :: r) =
      'f' :: 'a' :: 'l' :: 's' :: 'e' :: (atDepth d).run r
    rw [run_char (by decide), run_char (by decide), run_char (by decide), run_char (by decide),
      run_char (by decide)]
  | .num t => exact h.elim
  | .str s => exact run_quote sh s r
  | .arr [] =>
    show (atDepth d).run ('[' :: ']' :: r) = '[' :: ']' :: (atDepth d).run r
    rw [run_open (.inr rfl), run_empty (.inr rfl)]
  | .arr (x :: xs) =>
    rw [J.compact, J.pretty]
    have hx : x.noNum := h.1
    have hxs : J.noNumList xs := h.2
    obtain ⟨c, z, hc, h1, h2, h3⟩ := compact_start sh x hx
    have hq : ∀ r, (opened d).run (x.compact sh ++ r) =
        newline (d + 1) ++ (atDepth (d + 1)).run (x.compact sh ++ r) :=
      fun r => by rw [hc]; exact run_opened h1 h2 h3 _
    simp only [List.cons_append, List.append_assoc, List.nil_append]
    rw [run_open (.inr rfl), hq, run_compact sh (d + 1) x hx, run_rest sh (d + 1) xs hxs,
      run_close (.inr rfl)]
  | .obj [] =>
    show (atDepth d).run ('{' :: '}' :: r) = '{' :: '}' :: (atDepth d).run r
    rw [run_open (.inl rfl), run_empty (.inl rfl)]
  | .obj ((k, x) :: xs) =>
    rw [J.compact, J.pretty]
    have hx : x.noNum := h.1
    have hxs : J.noNumMembers xs := h.2
    have hq : ∀ r, (opened d).run (quote sh k ++ r) =
        newline (d + 1) ++ (atDepth (d + 1)).run (quote sh k ++ r) :=
      fun r => run_opened (by decide) (by decide) (by decide) _
    simp only [List.cons_append, List.append_assoc, List.nil_append]
    rw [run_open (.inl rfl), hq, run_quote, run_colon, run_compact sh (d + 1) x hx,
      run_members sh (d + 1) xs hxs, run_close (.inl rfl)]
theorem run_rest (sh : Bool) (d : Nat) (l : List J) (h : J.noNumList l) (r : Str) :
    (atDepth d).run (J.compactRest sh l ++ r) = J.prettyRest sh d l ++ (atDepth d).run r := by
  match l with
  | [] => rfl
  | x :: xs =>
    rw [J.compactRest, J.prettyRest]
    simp only [List.cons_append, List.append_assoc]
    rw [run_comma, run_compact sh d x h.1, run_rest sh d xs h.2]
theorem run_members (sh : Bool) (d : Nat) (l : List (Str × J)) (h : J.noNumMembers l) (r : Str) :
    (atDepth d).run (J.compactMembers sh l ++ r) = J.prettyMembers sh d l ++ (atDepth d).run r := by
  match l with
  | [] => rfl
  | (k, x) :: xs =>
    rw [J.compactMembers, J.prettyMembers]
    simp only [List.cons_append, List.append_assoc]
    rw [run_comma, run_quote, run_colon, run_compact sh d x h.1, run_members sh d xs h.2]
end

/-! ## Reading it back -/

theorem readString_hex {n : Nat} (h : n < 0xD800) (r : Str) :
    readString ('\\' :: 'u' :: (hex4 n ++ r)) =
      (readString r).map fun p => (Char.ofNat n :: p.1, p.2) := by
  have f := fun m => (hexDigit_facts (m % 16) (Nat.mod_lt _ (by omega))).2.2.1
  have hv : hexVal4 (hexDigit (n / 4096 % 16)) (hexDigit (n / 256 % 16)) (hexDigit (n / 16 % 16))
      (hexDigit (n % 16)) = some n := by
    simp only [hexVal4, f]
    simp
    omega
  simp only [hex4, List.cons_append, List.nil_append, readString, hv]
  rw [if_neg (by omega), if_neg (by omega)]

theorem readString_short {e c : Char} (he : shortEscape e = some c) (hu : e ≠ 'u') (r : Str) :
    readString ('\\' :: e :: r) = (readString r).map fun p => (c :: p.1, p.2) := by
  rw [readString]
  · rw [he]
  · intro a b c d r' h1; exact absurd h1 hu

theorem readString_plain {c : Char} (h1 : c ≠ '"') (h2 : c ≠ '\\') (h3 : 32 ≤ c.toNat) (r : Str) :
    readString (c :: r) = (readString r).map fun p => (c :: p.1, p.2) := by
  rw [readString]
  · rw [if_neg (by simp [h2]; omega)]
  · exact h1
  · intro a b e d r' h; exact absurd h h2
  · intro a b h; exact absurd h h2

theorem readString_esc (sh : Bool) (c : Char) (r : Str) :
    readString (escChar sh c ++ r) = (readString r).map fun p => (c :: p.1, p.2) := by
  unfold escChar
  split
  · rename_i h; subst h; exact readString_short rfl (by decide) r
  split
  · rename_i h; subst h; exact readString_short rfl (by decide) r
  split
  · rename_i h; subst h; exact readString_short rfl (by decide) r
  split
  · rename_i h; subst h; exact readString_short rfl (by decide) r
  split
  · rename_i h; subst h; exact readString_short rfl (by decide) r
  split
  · rename_i h
    have : c = Char.ofNat 8 := by
      simp at h; exact Char.toNat_inj.1 (by rw [h.2]; rfl)
    subst this; exact readString_short rfl (by decide) r
  split
  · rename_i h
    have : c = Char.ofNat 12 := by
      simp at h; exact Char.toNat_inj.1 (by rw [h.2]; rfl)
    subst this; exact readString_short rfl (by decide) r
  split
  · rename_i h
    have hlt : c.toNat < 0xD800 := by
      simp only [Bool.or_eq_true, decide_eq_true_eq] at h
      rcases h with ((((h | rfl) | rfl) | rfl) | h) | h
      · omega
      · decide
      · decide
      · decide
      · omega
      · omega
    have := readString_hex hlt r
    rw [Char.ofNat_toNat] at this
    exact this
  · rename_i h1 h2 _ _ _ _ _ h3
    simp only [Bool.or_eq_true, decide_eq_true_eq, not_or] at h3
    exact readString_plain h1 h2 (by omega) r

theorem readString_body (sh : Bool) (s r : Str) :
    readString (s.flatMap (escChar sh) ++ '"' :: r) = some (s, r) := by
  induction s with
  | nil => rfl
  | cons c s ih => rw [List.flatMap_cons, List.append_assoc, readString_esc, ih]; rfl

theorem skipWs_newline (d : Nat) (s : Str) : skipWs (newline d ++ s) = skipWs s := by
  unfold newline skipWs
  rw [List.cons_append, List.dropWhile_cons_of_pos (by decide)]
  generalize 2 * d = n
  induction n with
  | zero => rfl
  | succ n ih => rw [List.replicate_succ, List.cons_append, List.dropWhile_cons_of_pos (by decide), ih]

theorem skipWs_of {c : Char} (h : isJsonWs c = false) (s : Str) : skipWs (c :: s) = c :: s := by
  unfold skipWs
  rw [List.dropWhile_cons_of_neg (by simp [h])]

theorem readValue_ws (n : Nat) {s t : Str} (h : skipWs s = skipWs t) :
    readValue n s = readValue n t := by
  cases n with
  | zero => rfl
  | succ n => rw [readValue, readValue, h]

theorem readElems_ws (n : Nat) {s t : Str} (h : skipWs s = skipWs t) :
    readElems n s = readElems n t := by
  cases n with
  | zero => rfl
  | succ n => rw [readElems, readElems, readValue_ws n h]

theorem readMembers_ws (n : Nat) {s t : Str} (h : skipWs s = skipWs t) :
    readMembers n s = readMembers n t := by
  cases n with
  | zero => rfl
  | succ n => rw [readMembers, readMembers, h]

theorem pretty_start (sh : Bool) (d : Nat) (j : J) (h : j.noNum) :
    ∃ c r, j.pretty sh d = c :: r ∧ c ≠ '}' ∧ c ≠ ']' ∧ isJsonWs c = false := by
  cases j with
  | null => exact ⟨'n', _, rfl, by decide, by decide, by decide⟩
  | bool b => cases b <;> exact ⟨_, _, rfl, by decide, by decide, by decide⟩
  | num t => exact h.elim
  | str s => exact ⟨'"', _, rfl, by decide, by decide, by decide⟩
  | arr l =>
    cases l with
    | nil => exact ⟨'[', _, rfl, by decide, by decide, by decide⟩
    | cons x xs => exact ⟨'[', _, by rw [J.pretty], by decide, by decide, by decide⟩
  | obj l =>
    cases l with
    | nil => exact ⟨'{', _, rfl, by decide, by decide, by decide⟩
    | cons x xs => obtain ⟨k, x⟩ := x; exact ⟨'{', _, by rw [J.pretty], by decide, by decide, by decide⟩

/-- Text after the opening bracket of a non-empty array or object. -/
theorem skip_pretty (sh : Bool) (d : Nat) (j : J) (h : j.noNum) (r : Str) :
    skipWs (newline d ++ (j.pretty sh d ++ r)) = j.pretty sh d ++ r := by
  obtain ⟨c, z, hc, _, _, hw⟩ := pretty_start sh d j h
  rw [skipWs_newline, hc, List.cons_append, skipWs_of hw]

mutual
/-- The number of nested calls needed to read a value. -/
def J.cost : J → Nat
  | .arr l => J.costList l + 1
  | .obj l => J.costMembers l + 1
  | _ => 1
def J.costList : List J → Nat
  | [] => 0
  | x :: xs => x.cost + J.costList xs + 1
def J.costMembers : List (Str × J) → Nat
  | [] => 0
  | (_, x) :: xs => x.cost + J.costMembers xs + 1
end

mutual
theorem readValue_pretty (sh : Bool) (d : Nat) (j : J) (h : j.noNum) (r : Str) (n : Nat)
    (hn : j.cost ≤ n) : readValue n (j.pretty sh d ++ r) = some (j, r) := by
  cases n with
  | zero => exfalso; cases j <;> simp [J.cost] at hn
  | succ n =>
  match j with
  | .null => rfl
  | .bool true => rfl
  | .bool false => rfl
  | .num t => exact h.elim
  | .str s =>
    rw [readValue, J.pretty, quote, List.cons_append, skipWs_of (by decide)]
    simp [readString_body]
  | .arr [] => rfl
  | .arr (x :: xs) =>
    have hx : x.noNum := h.1
    have hxs : J.noNumList xs := h.2
    have hc : x.cost + J.costList xs + 1 ≤ n := by
      simp only [J.cost, J.costList] at hn; omega
    rw [J.pretty]
    simp only [List.cons_append, List.append_assoc, List.nil_append]
    rw [readValue, skipWs_of (by decide)]
    simp only [skip_pretty sh (d + 1) x hx]
    have hel := readElems_pretty sh (d + 1) d x xs hx hxs r n hc
    rw [readElems_ws n (t := newline (d + 1) ++ _) (by rw [skipWs_newline])] at hel
    obtain ⟨c, z, hz, h1, h2, h3⟩ := pretty_start sh (d + 1) x hx
    rw [hz, List.cons_append]
    rw [hz, List.cons_append] at hel
    rw [hel]
    split
    · rename_i he; simp at he; exact absurd he.1 h2
    · rfl
  | .obj [] => rfl
  | .obj ((k, x) :: xs) =>
    have hx : x.noNum := h.1
    have hxs : J.noNumMembers xs := h.2
    have hc : x.cost + J.costMembers xs + 1 ≤ n := by
      simp only [J.cost, J.costMembers] at hn; omega
    rw [J.pretty]
    simp only [List.cons_append, List.append_assoc, List.nil_append]
    rw [readValue, skipWs_of (by decide)]
    have hel := readMembers_pretty sh (d + 1) d k x xs hx hxs r n hc
    rw [readMembers_ws n (t := newline (d + 1) ++ _) (by rw [skipWs_newline])] at hel
    simp only [skipWs_newline]
    rw [quote, List.cons_append, skipWs_of (by decide)]
    rw [quote, List.cons_append] at hel
    simp only [hel]
    rfl
  termination_by n
theorem readElems_pretty (sh : Bool) (d e : Nat) (x : J) (xs : List J) (hx : x.noNum)
    (hxs : J.noNumList xs) (r : Str) (n : Nat) (hn : x.cost + J.costList xs + 1 ≤ n) :
    readElems n (x.pretty sh d ++ (J.prettyRest sh d xs ++ (newline e ++ ']' :: r))) =
      some (x :: xs, r) := by
  cases n with
  | zero => omega
  | succ n =>
    rw [readElems, readValue_pretty sh d x hx _ n (by omega)]
    match xs with
    | [] =>
      simp only [J.prettyRest, List.nil_append]
      rw [skipWs_newline, skipWs_of (by decide)]
      rfl
    | y :: ys =>
      have hc : y.cost + J.costList ys + 1 ≤ n := by
        simp only [J.costList] at hn; omega
      simp only [J.prettyRest, List.cons_append, List.append_assoc]
      rw [skipWs_of (by decide)]
      simp only
      rw [readElems_ws n (skipWs_newline _ _), readElems_pretty sh d e y ys hxs.1 hxs.2 r n hc]
      rfl
  termination_by n
theorem readMembers_pretty (sh : Bool) (d e : Nat) (k : Str) (x : J) (xs : List (Str × J))
    (hx : x.noNum) (hxs : J.noNumMembers xs) (r : Str) (n : Nat)
    (hn : x.cost + J.costMembers xs + 1 ≤ n) :
    readMembers n (quote sh k ++ ':' :: ' ' :: (x.pretty sh d ++
      (J.prettyMembers sh d xs ++ (newline e ++ '}' :: r)))) = some ((k, x) :: xs, r) := by
  cases n with
  | zero => omega
  | succ n =>
    rw [readMembers, quote, List.cons_append, skipWs_of (by decide)]
    simp only [List.append_assoc, List.cons_append, List.nil_append, readString_body]
    rw [skipWs_of (by decide)]
    simp only
    rw [readValue_ws n (t := x.pretty sh d ++ _) (by
      show skipWs (' ' :: _) = _
      unfold skipWs
      rw [List.dropWhile_cons_of_pos (by decide)]), readValue_pretty sh d x hx _ n (by omega)]
    match xs with
    | [] =>
      simp only [J.prettyMembers, List.nil_append]
      rw [skipWs_newline, skipWs_of (by decide)]
      rfl
    | (l, y) :: ys =>
      have hc : y.cost + J.costMembers ys + 1 ≤ n := by
        simp only [J.costMembers] at hn; omega
      simp only [J.prettyMembers, List.cons_append, List.append_assoc]
      rw [skipWs_of (by decide)]
      simp only
      rw [readMembers_ws n (skipWs_newline _ _), readMembers_pretty sh d e l y ys hxs.1 hxs.2 r n hc]
      rfl
  termination_by n
end

mutual
theorem cost_le (sh : Bool) (d : Nat) (j : J) (h : j.noNum) : j.cost ≤ (j.pretty sh d).length := by
  match j with
  | .null => exact (by decide : 1 ≤ 4)
  | .bool true => exact (by decide : 1 ≤ 4)
  | .bool false => exact (by decide : 1 ≤ 5)
  | .num t => exact h.elim
  | .str s => simp [J.cost, J.pretty, quote]
  | .arr [] => exact (by decide : 1 ≤ 2)
  | .arr (x :: xs) =>
    have h1 := cost_le sh (d + 1) x h.1
    have h2 := costList_le sh (d + 1) xs h.2
    simp only [J.cost, J.costList, J.pretty, List.length_cons, List.length_append, List.length_nil]
    omega
  | .obj [] => exact (by decide : 1 ≤ 2)
  | .obj ((k, x) :: xs) =>
    have h1 := cost_le sh (d + 1) x h.1
    have h2 := costMembers_le sh (d + 1) xs h.2
    simp only [J.cost, J.costMembers, J.pretty, List.length_cons, List.length_append, List.length_nil]
    omega
theorem costList_le (sh : Bool) (d : Nat) (l : List J) (h : J.noNumList l) :
    J.costList l ≤ (J.prettyRest sh d l).length := by
  match l with
  | [] => exact Nat.le_refl _
  | x :: xs =>
    have h1 := cost_le sh d x h.1
    have h2 := costList_le sh d xs h.2
    simp only [J.costList, J.prettyRest, List.length_cons, List.length_append]
    omega
theorem costMembers_le (sh : Bool) (d : Nat) (l : List (Str × J)) (h : J.noNumMembers l) :
    J.costMembers l ≤ (J.prettyMembers sh d l).length := by
  match l with
  | [] => exact Nat.le_refl _
  | (k, x) :: xs =>
    have h1 := cost_le sh d x h.1
    have h2 := costMembers_le sh d xs h.2
    simp only [J.costMembers, J.prettyMembers, List.length_cons, List.length_append]
    omega
end

/-- `MarshalIndent`, then reading. -/
theorem marshal_pretty (sh : Bool) (j : J) (h : j.noNum) :
    marshalIndent sh j = j.pretty sh 0 := by
  have := run_compact sh 0 j h []
  rw [List.append_nil, Ind.run, List.append_nil] at this
  exact this

theorem readJson_marshal (sh : Bool) (j : J) (h : j.noNum) :
    readJson (marshalIndent sh j) = some j := by
  rw [marshal_pretty sh j h, readJson]
  have := readValue_pretty sh 0 j h [] ((j.pretty sh 0).length + 1)
    (Nat.le_succ_of_le (cost_le sh 0 j h))
  rw [List.append_nil] at this
  rw [this]
  rfl

/-! ## Schema values -/

theorem noNumList_iff (l : List J) : J.noNumList l ↔ ∀ x ∈ l, x.noNum := by
  induction l with
  | nil => simp [J.noNumList]
  | cons x l ih => simp [J.noNumList, ih]

theorem noNumMembers_iff (l : List (Str × J)) : J.noNumMembers l ↔ ∀ x ∈ l, x.2.noNum := by
  induction l with
  | nil => simp [J.noNumMembers]
  | cons x l ih => obtain ⟨k, x⟩ := x; simp [J.noNumMembers, ih]

theorem noNum_arr {l : List J} : (J.arr l).noNum ↔ ∀ x ∈ l, x.noNum := by
  rw [J.noNum, noNumList_iff]

theorem noNum_obj {l : List (Str × J)} : (J.obj l).noNum ↔ ∀ x ∈ l, x.2.noNum := by
  rw [J.noNum, noNumMembers_iff]

theorem noNum_slice {α : Type} {f : α → J} (hf : ∀ a, (f a).noNum) (s : Slice α) :
    (s.toJ f).noNum := by
  cases s with
  | none => simp [Slice.toJ, J.noNum]
  | some l => rw [Slice.toJ, noNum_arr]; intro x hx; obtain ⟨a, _, rfl⟩ := List.mem_map.1 hx; exact hf a

theorem noNum_member {α : Type} {f : α → J} (hf : ∀ a, (f a).noNum) (key : String) (s : Slice α) :
    ∀ x ∈ s.member key f, x.2.noNum := by
  intro x hx
  unfold Slice.member at hx
  split at hx
  · simp at hx
  · simp at hx; subst hx; exact noNum_slice hf s

theorem noNum_str (s : Str) : (J.str s).noNum := trivial

theorem noNum_strMember (k : String) (s : Str) : (strMember k s).2.noNum := trivial

theorem noNum_config (c : ExtConfig) : c.toJ.noNum := by
  rw [ExtConfig.toJ, noNum_obj]; simp [noNum_strMember]

theorem noNum_ext (c : Extension) : c.toJ.noNum := by
  rw [Extension.toJ, noNum_obj]; simp [noNum_strMember, noNum_slice noNum_config]

theorem noNum_attr (c : Attribute) : c.toJ.noNum := by
  rw [Attribute.toJ, noNum_obj]
  cases c.value <;> simp [noNum_strMember]

theorem noNum_column (c : Column) : c.toJ.noNum := by
  rw [Column.toJ, noNum_obj]
  intro x hx
  simp only [List.cons_append, List.nil_append, List.mem_cons] at hx
  rcases hx with rfl | rfl | hx
  · trivial
  · trivial
  · exact noNum_member noNum_attr _ _ x hx

theorem noNum_index (c : Index) : c.toJ.noNum := by
  rw [Index.toJ, noNum_obj]
  intro x hx
  simp only [List.cons_append, List.nil_append, List.mem_cons] at hx
  rcases hx with rfl | rfl | hx
  · trivial
  · exact noNum_slice noNum_str _
  · split at hx
    · simp at hx
    · simp at hx; subst hx; trivial

theorem noNum_fkAction (c : FKAction) : c.toJ.noNum := by
  rw [FKAction.toJ, noNum_obj]; simp [noNum_strMember]

theorem noNum_fk (c : ForeignKey) : c.toJ.noNum := by
  rw [ForeignKey.toJ, noNum_obj]
  simp [noNum_strMember, noNum_slice noNum_str, noNum_slice noNum_fkAction]

theorem noNum_table (c : Table) : c.toJ.noNum := by
  rw [Table.toJ, noNum_obj]
  intro x hx
  simp only [List.cons_append, List.mem_append, List.mem_cons] at hx
  rcases hx with rfl | (hx | hx) | hx
  · trivial
  · exact noNum_member noNum_column _ _ x hx
  · exact noNum_member noNum_index _ _ x hx
  · exact noNum_member noNum_fk _ _ x hx

theorem noNum_action (c : Action) : c.toJ.noNum := by
  rw [Action.toJ, noNum_obj]
  intro x hx
  simp only [List.cons_append, List.nil_append, List.append_assoc, List.mem_append, List.mem_cons] at hx
  rcases hx with rfl | hx | rfl | rfl | rfl | rfl | hx
  · trivial
  · exact noNum_member noNum_str _ _ x hx
  · exact noNum_slice noNum_str _
  · trivial
  · trivial
  · exact noNum_slice noNum_str _
  · exact noNum_member noNum_str _ _ x hx

theorem noNum_schema (c : Schema) : c.toJ.noNum := by
  rw [Schema.toJ, noNum_obj]
  intro x hx
  simp only [List.cons_append, List.nil_append, List.mem_append, List.mem_cons] at hx
  rcases hx with rfl | rfl | (hx | hx) | hx
  · trivial
  · trivial
  · exact noNum_member noNum_table _ _ x hx
  · exact noNum_member noNum_action _ _ x hx
  · exact noNum_member noNum_ext _ _ x hx

/-! Reading schema values -/

theorem sequence_map {α β : Type} {f : α → J} {g : J → Option β} {h : α → β}
    (hfg : ∀ a, g (f a) = some (h a)) (l : List α) : sequence g (l.map f) = some (l.map h) := by
  induction l with
  | nil => rfl
  | cons a l ih => simp [sequence, hfg, ih]

/-- What reading makes of a slice. -/
theorem read_toJ {α β : Type} {f : α → J} {g : J → Option β} {h : α → β}
    (hfg : ∀ a, g (f a) = some (h a)) (key : String) (j : J) (s : Slice α)
    (hk : j.get key = some (s.toJ f)) : j.getSlice key g = some (s.map (·.map h)) := by
  cases s with
  | none => simp [J.getSlice, hk, Slice.toJ]
  | some l => simp [J.getSlice, hk, Slice.toJ, sequence_map hfg]

theorem read_member {α β : Type} {f : α → J} {g : J → Option β} {h : α → β}
    (hfg : ∀ a, g (f a) = some (h a)) (key : String) (j : J) (s : Slice α)
    (hk : j.get key = (s.member key f).lookup key.toList) :
    j.getSlice key g = some (Slice.noEmpty (s.map (·.map h))) := by
  unfold Slice.member at hk
  cases s with
  | none => simp [J.getSlice, hk, Slice.noEmpty, Slice.elems]
  | some l =>
    cases l with
    | nil => simp [J.getSlice, hk, Slice.noEmpty, Slice.elems]
    | cons a l =>
      simp [J.getSlice, hk, Slice.toJ, Slice.elems, Slice.noEmpty]
      simpa using sequence_map hfg (a :: l)

theorem member_other {α : Type} {f : α → J} {key key' : String} (h : key ≠ key') (s : Slice α) :
    (s.member key f).lookup key'.toList = none := by
  unfold Slice.member
  split
  · rfl
  · rw [List.lookup_cons]
    have : (key'.toList == key.toList) = false := by
      simp
      exact fun e => h (String.toList_inj.1 e).symm
    rw [this]; rfl

theorem member_same {α : Type} {f : α → J} {key : String} (s : Slice α) (rest : List (Str × J))
    (hr : rest.lookup key.toList = none) :
    (s.member key f ++ rest).lookup key.toList = (s.member key f).lookup key.toList := by
  unfold Slice.member
  split
  · simpa using hr
  · simp

theorem lookup_skip {k k' : String} {v : J} (h : k ≠ k') (rest : List (Str × J)) :
    ((k.toList, v) :: rest).lookup k'.toList = rest.lookup k'.toList := by
  rw [List.lookup_cons]
  have : (k'.toList == k.toList) = false := by
    simp
    exact fun e => h (String.toList_inj.1 e).symm
  rw [this]

theorem member_skip {α : Type} {f : α → J} {key key' : String} (h : key ≠ key') (s : Slice α)
    (rest : List (Str × J)) :
    (s.member key f ++ rest).lookup key'.toList = rest.lookup key'.toList := by
  unfold Slice.member
  split
  · rfl
  · exact lookup_skip h rest

theorem lookup_here {k : String} {v : J} (rest : List (Str × J)) :
    ((k.toList, v) :: rest).lookup k.toList = some v := by
  rw [List.lookup_cons]; simp

theorem getStr_of {key : String} {j : J} {s : Str} (h : j.get key = some (.str s)) :
    j.getStr key = some s := by simp [J.getStr, h]

theorem getBool_of {key : String} {j : J} {s : Bool} (h : j.get key = some (.bool s)) :
    j.getBool key = some s := by simp [J.getBool, h]

theorem map_id_slice {α : Type} (s : Slice α) : s.map (·.map id) = s := by
  cases s <;> simp

theorem read_config (c : ExtConfig) : readExtConfig c.toJ = some (id c) := by
  have h1 : c.toJ.getStr "argument" = some c.argument := rfl
  have h2 : c.toJ.getStr "value" = some c.value := rfl
  simp [readExtConfig, h1, h2]

theorem read_ext (e : Extension) : readExtension e.toJ = some (id e) := by
  have h1 : e.toJ.getStr "name" = some e.name := rfl
  have h2 : e.toJ.getStr "alias" = some e.alias := rfl
  have h3 : e.toJ.getSlice "config" readExtConfig = some (e.config.map (·.map id)) :=
    read_toJ read_config "config" _ _ rfl
  rw [map_id_slice] at h3
  simp [readExtension, h1, h2, h3]

theorem read_attr (a : Attribute) : readAttribute a.toJ = some (id a) := by
  have h1 : a.toJ.getStr "type" = some a.type := rfl
  obtain ⟨t, v⟩ := a
  cases v with
  | none => rfl
  | some v => rfl

theorem read_column (c : Column) : readColumn c.toJ = some c.norm := by
  have h1 : c.toJ.getStr "name" = some c.name := rfl
  have h2 : c.toJ.getStr "type" = some c.type := rfl
  have h3 : c.toJ.getSlice "attributes" readAttribute =
      some (Slice.noEmpty (c.attributes.map (·.map id))) := by
    apply read_member read_attr "attributes"
    simp only [Column.toJ, J.get, List.cons_append, List.nil_append, strMember]
    rw [lookup_skip (by decide), lookup_skip (by decide)]
  rw [map_id_slice] at h3
  simp [readColumn, h1, h2, h3, Column.norm]

theorem read_strs (s : Str) : J.asStr (.str s) = some (id s) := rfl

theorem read_index (i : Index) : readIndex i.toJ = some (id i) := by
  have h1 : i.toJ.getStr "name" = some i.name := rfl
  have h2 : i.toJ.getStr "type" = some i.type := by
    unfold J.getStr
    simp only [Index.toJ, J.get, List.cons_append, List.nil_append, strMember]
    rw [lookup_skip (by decide), lookup_skip (by decide)]
    cases i.type with
    | nil => rfl
    | cons c t => rfl
  have h3 : i.toJ.getSlice "columns" J.asStr = some (i.columns.map (·.map id)) :=
    read_toJ read_strs "columns" _ _ rfl
  rw [map_id_slice] at h3
  simp [readIndex, h1, h2, h3]

theorem read_fkAction (a : FKAction) : readFKAction a.toJ = some (id a) := by
  have h1 : a.toJ.getStr "on" = some a.on := rfl
  have h2 : a.toJ.getStr "do" = some a.doo := rfl
  simp [readFKAction, h1, h2]

theorem read_fk (f : ForeignKey) : readForeignKey f.toJ = some (id f) := by
  have h1 : f.toJ.getSlice "child_keys" J.asStr = some (f.childKeys.map (·.map id)) :=
    read_toJ read_strs "child_keys" _ _ rfl
  have h2 : f.toJ.getSlice "parent_keys" J.asStr = some (f.parentKeys.map (·.map id)) :=
    read_toJ read_strs "parent_keys" _ _ rfl
  have h3 : f.toJ.getStr "parent_table" = some f.parentTable := rfl
  have h4 : f.toJ.getSlice "actions" readFKAction = some (f.actions.map (·.map id)) :=
    read_toJ read_fkAction "actions" _ _ rfl
  rw [map_id_slice] at h1 h2 h4
  simp [readForeignKey, h1, h2, h3, h4]

theorem read_table (t : Table) : readTable t.toJ = some t.norm := by
  have h1 : t.toJ.getStr "name" = some t.name := rfl
  have h2 : t.toJ.getSlice "columns" readColumn =
      some (Slice.noEmpty (t.columns.map (·.map Column.norm))) := by
    apply read_member read_column "columns"
    simp only [Table.toJ, J.get, List.cons_append, strMember, List.append_assoc]
    rw [lookup_skip (by decide), member_same]
    rw [member_skip (by decide), member_other (by decide)]
  have h3 : t.toJ.getSlice "indexes" readIndex =
      some (Slice.noEmpty (t.indexes.map (·.map id))) := by
    apply read_member read_index "indexes"
    simp only [Table.toJ, J.get, List.cons_append, strMember, List.append_assoc]
    rw [lookup_skip (by decide), member_skip (by decide), member_same]
    rw [member_other (by decide)]
  have h4 : t.toJ.getSlice "foreign_keys" readForeignKey =
      some (Slice.noEmpty (t.foreignKeys.map (·.map id))) := by
    apply read_member read_fk "foreign_keys"
    simp only [Table.toJ, J.get, List.cons_append, strMember, List.append_assoc]
    rw [lookup_skip (by decide), member_skip (by decide), member_skip (by decide)]
  rw [map_id_slice] at h3 h4
  simp [readTable, h1, h2, h3, h4, Table.norm]

theorem read_action (a : Action) : readAction a.toJ = some a.norm := by
  have h1 : a.toJ.getStr "name" = some a.name := rfl
  have h2 : a.toJ.getSlice "annotations" J.asStr =
      some (Slice.noEmpty (a.annotations.map (·.map id))) := by
    apply read_member read_strs "annotations"
    simp only [Action.toJ, J.get, List.cons_append, List.nil_append, strMember, List.append_assoc]
    rw [lookup_skip (by decide), member_same]
    rw [lookup_skip (by decide), lookup_skip (by decide), lookup_skip (by decide),
      lookup_skip (by decide), member_other (by decide)]
  have h3 : a.toJ.getSlice "inputs" J.asStr = some (a.inputs.map (·.map id)) := by
    apply read_toJ read_strs "inputs"
    simp only [Action.toJ, J.get, List.cons_append, List.nil_append, strMember, List.append_assoc]
    rw [lookup_skip (by decide), member_skip (by decide), lookup_here]
  have h4 : a.toJ.getBool "public" = some a.pub := by
    apply getBool_of
    simp only [Action.toJ, J.get, List.cons_append, List.nil_append, strMember, List.append_assoc]
    rw [lookup_skip (by decide), member_skip (by decide), lookup_skip (by decide), lookup_here]
  have h5 : a.toJ.getStr "mutability" = some a.mutability := by
    apply getStr_of
    simp only [Action.toJ, J.get, List.cons_append, List.nil_append, strMember, List.append_assoc]
    rw [lookup_skip (by decide), member_skip (by decide), lookup_skip (by decide),
      lookup_skip (by decide), lookup_here]
  have h6 : a.toJ.getSlice "auxiliaries" J.asStr = some (a.auxiliaries.map (·.map id)) := by
    apply read_toJ read_strs "auxiliaries"
    simp only [Action.toJ, J.get, List.cons_append, List.nil_append, strMember, List.append_assoc]
    rw [lookup_skip (by decide), member_skip (by decide), lookup_skip (by decide),
      lookup_skip (by decide), lookup_skip (by decide), lookup_here]
  have h7 : a.toJ.getSlice "statements" J.asStr =
      some (Slice.noEmpty (a.statements.map (·.map id))) := by
    apply read_member read_strs "statements"
    simp only [Action.toJ, J.get, List.cons_append, List.nil_append, strMember, List.append_assoc]
    rw [lookup_skip (by decide), member_skip (by decide), lookup_skip (by decide),
      lookup_skip (by decide), lookup_skip (by decide), lookup_skip (by decide)]
  rw [map_id_slice] at h2 h3 h6 h7
  simp [readAction, h1, h2, h3, h4, h5, h6, h7, Action.norm]

theorem read_schema (s : Schema) : readSchema s.toJ = some s.norm := by
  have h1 : s.toJ.getStr "owner" = some s.owner := rfl
  have h2 : s.toJ.getStr "name" = some s.name := rfl
  have h3 : s.toJ.getSlice "tables" readTable =
      some (Slice.noEmpty (s.tables.map (·.map Table.norm))) := by
    apply read_member read_table "tables"
    simp only [Schema.toJ, J.get, List.cons_append, List.nil_append, strMember, List.append_assoc]
    rw [lookup_skip (by decide), lookup_skip (by decide), member_same]
    rw [member_skip (by decide), member_other (by decide)]
  have h4 : s.toJ.getSlice "actions" readAction =
      some (Slice.noEmpty (s.actions.map (·.map Action.norm))) := by
    apply read_member read_action "actions"
    simp only [Schema.toJ, J.get, List.cons_append, List.nil_append, strMember, List.append_assoc]
    rw [lookup_skip (by decide), lookup_skip (by decide), member_skip (by decide), member_same]
    rw [member_other (by decide)]
  have h5 : s.toJ.getSlice "extensions" readExtension =
      some (Slice.noEmpty (s.extensions.map (·.map id))) := by
    apply read_member read_ext "extensions"
    simp only [Schema.toJ, J.get, List.cons_append, List.nil_append, strMember, List.append_assoc]
    rw [lookup_skip (by decide), lookup_skip (by decide), member_skip (by decide),
      member_skip (by decide)]
  rw [map_id_slice] at h5
  simp [readSchema, h1, h2, h3, h4, h5, Schema.norm]

end Verif
