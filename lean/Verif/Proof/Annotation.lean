import Verif.Spec.Annotation
/-!
# ParseAnnotation
-/

namespace Verif

/-! ## Character classes -/

theorem annWord_iff {c : Char} : annWord c = true ↔ IsWordChar c := by
  unfold annWord IsWordChar IsLetter
  simp only [Bool.or_eq_true, Bool.and_eq_true, decide_eq_true_eq, Char.le_def, UInt32.le_iff_toNat_le]
  show _ ↔ _
  have : ∀ d : Char, d.val.toNat = d.toNat := fun _ => rfl
  simp only [this]
  have h1 : ('A' : Char).toNat = 65 := rfl
  have h2 : ('Z' : Char).toNat = 90 := rfl
  have h3 : ('a' : Char).toNat = 97 := rfl
  have h4 : ('z' : Char).toNat = 122 := rfl
  have h5 : ('0' : Char).toNat = 48 := rfl
  have h6 : ('9' : Char).toNat = 57 := rfl
  rw [h1, h2, h3, h4, h5, h6]
  constructor
  · rintro (((h | h) | h) | h)
    · exact .inl (.inr h)
    · exact .inl (.inl h)
    · exact .inr (.inl h)
    · exact .inr (.inr h)
  · rintro ((h | h) | h | h)
    · exact .inl (.inl (.inr h))
    · exact .inl (.inl (.inl h))
    · exact .inl (.inr h)
    · exact .inr h

theorem annSpace_iff {c : Char} : annSpace c = true ↔ IsBlank c := by
  unfold annSpace IsBlank
  simp only [Bool.or_eq_true, decide_eq_true_eq]
  have : c.toNat = 12 ↔ c = Char.ofNat 12 := by
    constructor
    · intro h; rw [← h, Char.ofNat_toNat]
    · rintro rfl; rfl
  rw [this]
  constructor
  · rintro ((((h | h) | h) | h) | h)
    · exact .inl h
    · exact .inr (.inl h)
    · exact .inr (.inr (.inl h))
    · exact .inr (.inr (.inr (.inl h)))
    · exact .inr (.inr (.inr (.inr h)))
  · rintro (h | h | h | h | h)
    · exact .inl (.inl (.inl (.inl h)))
    · exact .inl (.inl (.inl (.inr h)))
    · exact .inl (.inl (.inr h))
    · exact .inl (.inr h)
    · exact .inr h

theorem annDigit_iff {c : Char} : annDigit c = true ↔ '0' ≤ c ∧ c ≤ '9' := by
  unfold annDigit
  simp only [Bool.and_eq_true, decide_eq_true_eq, Char.le_def, UInt32.le_iff_toNat_le]
  exact Iff.rfl

theorem annDot_iff {c : Char} : annDot c = true ↔ c ≠ '\n' := by
  unfold annDot; simp

/-! ## Repetition -/

theorem repeats_mem (g : Bool) (p : Char → Bool) (s r : Str) :
    r ∈ repeats g p s ↔ ∃ x, s = x ++ r ∧ ∀ c ∈ x, p c = true := by
  induction s with
  | nil =>
    simp only [repeats, List.mem_singleton]
    constructor
    · rintro rfl; exact ⟨[], rfl, by simp⟩
    · rintro ⟨x, hx, _⟩; simp at hx; exact hx.2
  | cons c s ih =>
    unfold repeats
    split
    · rename_i hc
      have key : r = c :: s ∨ r ∈ repeats g p s ↔ ∃ x, c :: s = x ++ r ∧ ∀ c ∈ x, p c = true := by
        rw [ih]
        constructor
        · rintro (rfl | ⟨x, rfl, hx⟩)
          · exact ⟨[], rfl, by simp⟩
          · refine ⟨c :: x, rfl, ?_⟩
            intro d hd
            rcases List.mem_cons.1 hd with rfl | hd
            · exact hc
            · exact hx d hd
        · rintro ⟨x, hx, hp⟩
          cases x with
          | nil => exact .inl hx.symm
          | cons d x =>
            injection hx with h1 h2
            exact .inr ⟨x, h2, fun e he => hp e (by simp [he])⟩
      split
      · rw [List.mem_append, List.mem_singleton, Or.comm]; exact key
      · rw [List.mem_cons]; exact key
    · rename_i hc
      rw [List.mem_singleton]
      constructor
      · rintro rfl; exact ⟨[], rfl, by simp⟩
      · rintro ⟨x, hx, hp⟩
        cases x with
        | nil => exact hx.symm
        | cons d x =>
          injection hx with h1 h2
          exact absurd (hp d (by simp)) (by rw [← h1]; exact hc)

/-- `r` does not start with a character of the class. -/
def NotStart (p : Char → Bool) (r : Str) : Prop := ∀ c t, r = c :: t → p c = false

theorem repeats_greedy {p : Char → Bool} {x r : Str} (hx : ∀ c ∈ x, p c = true)
    (hr : NotStart p r) : (repeats true p (x ++ r)).head? = some r := by
  induction x with
  | nil =>
    cases r with
    | nil => rfl
    | cons c t => simp [repeats, hr c t rfl]
  | cons c x ih =>
    have ih := ih fun d hd => hx d (by simp [hd])
    have hc := hx c (by simp)
    rw [List.cons_append, repeats, if_pos hc, if_pos rfl, List.head?_append, ih]
    rfl

theorem head_flatMap {α β : Type} {l : List α} {f : α → List β} {a : α} {b : β}
    (h : l.head? = some a) (hf : (f a).head? = some b) : (l.flatMap f).head? = some b := by
  cases l with
  | nil => cases h
  | cons c l =>
    obtain rfl : c = a := Option.some.inj h
    rw [List.flatMap_cons, List.head?_append, hf]; rfl

theorem head_map {α β : Type} {l : List α} {f : α → β} {a : α}
    (h : l.head? = some a) : (l.map f).head? = some (f a) := by
  rw [List.head?_map, h]; rfl

theorem run_cls {p : Char → Bool} {c : Char} {s : Str} (h : p c = true) :
    ((PRE.cls p).run (c :: s)).head? = some ([], s) := by simp [PRE.run, h]

theorem run_star {p : Char → Bool} {x r : Str} (hx : ∀ c ∈ x, p c = true) (hr : NotStart p r) :
    ((PRE.star true p).run (x ++ r)).head? = some ([], r) := by
  rw [PRE.run]; exact head_map (repeats_greedy hx hr)

theorem run_seq {a b : PRE} {s r t : Str} {c d : List Str} (ha : (a.run s).head? = some (c, r))
    (hb : (b.run r).head? = some (d, t)) : ((PRE.seq a b).run s).head? = some (c ++ d, t) := by
  rw [PRE.run]
  exact head_flatMap ha (head_map (f := fun y => (c ++ y.1, y.2)) hb)

theorem run_cap {a : PRE} {x r : Str} {c : List Str} (ha : (a.run (x ++ r)).head? = some (c, r)) :
    ((PRE.cap a).run (x ++ r)).head? = some (x :: c, r) := by
  rw [PRE.run, head_map ha]
  simp

theorem run_plus {p : Char → Bool} {x r : Str} (hne : x ≠ []) (hx : ∀ c ∈ x, p c = true)
    (hr : NotStart p r) : ((PRE.plus p).run (x ++ r)).head? = some ([], r) := by
  cases x with
  | nil => exact absurd rfl hne
  | cons c x =>
    exact run_seq (c := []) (d := []) (run_cls (hx c (by simp)))
      (run_star (fun d hd => hx d (by simp [hd])) hr)

/-- The lazy repetition up to the first quote. -/
theorem run_lazy {p : Char → Bool} {q : Char} {x r : Str} (hx : ∀ c ∈ x, p c = true)
    (hq : q ∉ x) :
    ((PRE.seq (.star false p) (.ch q)).run (x ++ q :: r)).head? = some ([], r) := by
  rw [PRE.run, PRE.run]
  induction x with
  | nil =>
    rw [List.nil_append]
    unfold repeats
    split
    · simp [PRE.run, PRE.ch]
    · simp [PRE.run, PRE.ch]
  | cons c x ih =>
    have ih := ih (fun d hd => hx d (by simp [hd])) (by simp at hq; exact hq.2)
    have hc := hx c (by simp)
    have hcq : c ≠ q := by rintro rfl; exact hq (by simp)
    rw [List.cons_append, repeats, if_pos hc, if_neg (by simp), List.map_cons, List.flatMap_cons]
    simp only [PRE.run, PRE.ch, hcq, decide_false, Bool.false_eq_true, if_false, List.map_nil,
      List.nil_append]
    exact ih

/-! ## The expression -/

/-- A digit string not followed by a digit, or a quoted text. -/
def ValueEnds (v rest : Str) : Prop :=
  (∀ c ∈ v, '0' ≤ c ∧ c ≤ '9') → NotStart annDigit rest

theorem notStart_cons {p : Char → Bool} {c : Char} {t : Str} (h : p c = false) :
    NotStart p (c :: t) := by
  intro d u e; injection e with e1 e2; rw [← e1]; exact h

theorem notStart_append {p : Char → Bool} {x t : Str} (hx : x ≠ []) (h : ∀ c ∈ x, p c = false) :
    NotStart p (x ++ t) := by
  cases x with
  | nil => exact absurd rfl hx
  | cons c x => exact notStart_cons (h c (by simp))

theorem blank_not_annWord {c : Char} (h : IsBlank c) : annWord c = false := by
  rcases h with rfl | rfl | rfl | rfl | rfl <;> decide

theorem digit_not_space {c : Char} (h : '0' ≤ c ∧ c ≤ '9') : annSpace c = false := by
  cases hs : annSpace c
  · rfl
  · rw [annSpace_iff] at hs
    rcases hs with rfl | rfl | rfl | rfl | rfl <;> revert h <;> decide

theorem run_value {v rest : Str} (hv : IsAttrValue v) (he : ValueEnds v rest) :
    ((PRE.alt (.plus annDigit) (.seq (.ch '\'') (.seq (.star false annDot) (.ch '\'')))).run
      (v ++ rest)).head? = some ([], rest) := by
  rw [PRE.run, List.head?_append]
  rcases hv with ⟨hne, hd⟩ | ⟨b, rfl, hb, hn⟩
  · rw [run_plus hne (fun c hc => annDigit_iff.2 (hd c hc)) (he hd)]; rfl
  · have h1 : (PRE.plus annDigit).run ('\'' :: (b ++ ['\'']) ++ rest) = [] := by
      simp [PRE.plus, PRE.run, annDigit]
    rw [h1]
    have h2 : '\'' :: (b ++ ['\'']) ++ rest = '\'' :: (b ++ '\'' :: rest) := by simp
    rw [h2]
    have h3 := run_seq (c := []) (d := []) (run_cls (p := (· = '\'')) (c := '\'') (s := b ++ '\'' :: rest) (by decide))
      (run_lazy (p := annDot) (fun c hc => annDot_iff.2 (by rintro rfl; exact hn hc)) hb)
    unfold PRE.ch
    unfold PRE.ch at h3
    rw [h3]; rfl

theorem attr_head {n v x rest : Str} (h : IsAttr n v x) (he : ValueEnds v rest) :
    (annotationRegex.run (x ++ rest)).head? = some ([n, v], rest) := by
  obtain ⟨hn, hw, hv, w, w', hb, hb', rfl⟩ := h
  have e1 : n ++ w ++ '=' :: w' ++ v ++ rest = n ++ (w ++ ('=' :: (w' ++ (v ++ rest)))) := by simp
  rw [e1]
  have hvne : v ≠ [] := by
    rcases hv with h | ⟨b, rfl, _⟩
    · exact h.1
    · simp
  have s5 : ((PRE.cap (.alt (.plus annDigit) (.seq (.ch '\'') (.seq (.star false annDot)
      (.ch '\''))))).run (v ++ rest)).head? = some ([v], rest) := run_cap (run_value hv he)
  have s4 := run_seq (c := []) (run_star (p := annSpace) (x := w') (r := v ++ rest)
    (fun c hc => annSpace_iff.2 (hb' c hc)) (by
      rcases hv with ⟨_, hd⟩ | ⟨b, rfl, _⟩
      · exact notStart_append hvne fun c hc => digit_not_space (hd c hc)
      · exact notStart_cons (by decide))) s5
  have s3 := run_seq (c := []) (run_cls (p := (· = '=')) (c := '=') (by decide)) s4
  have s2 := run_seq (c := []) (run_star (p := annSpace) (x := w) (r := '=' :: (w' ++ (v ++ rest)))
    (fun c hc => annSpace_iff.2 (hb c hc)) (notStart_cons (by decide))) s3
  have s1 := run_seq (c := [n]) (run_cap (x := n) (run_plus hn (fun c hc => annWord_iff.2 (hw c hc)) (by
      cases w with
      | nil => exact notStart_cons (by decide)
      | cons c w => exact notStart_cons (blank_not_annWord (hb c (by simp)))))) s2
  exact s1

/-! Every match gives an attribute. -/

theorem run_plus_mem {p : Char → Bool} {s r : Str} {c : List Str} (h : (c, r) ∈ (PRE.plus p).run s) :
    ∃ x, s = x ++ r ∧ x ≠ [] ∧ (∀ d ∈ x, p d = true) ∧ c = [] := by
  cases s with
  | nil => simp [PRE.plus, PRE.run] at h
  | cons d s =>
    simp only [PRE.plus, PRE.run] at h
    split at h
    · rename_i hd
      simp only [List.flatMap_cons, List.flatMap_nil, List.append_nil, List.map_map, List.mem_map,
        Function.comp_def, Prod.mk.injEq] at h
      obtain ⟨r', hr', rfl, rfl⟩ := h
      obtain ⟨x, rfl, hx⟩ := (repeats_mem true p s r').1 hr'
      refine ⟨d :: x, rfl, by simp, ?_, rfl⟩
      intro e he
      rcases List.mem_cons.1 he with rfl | he
      · exact hd
      · exact hx e he
    · simp at h

theorem run_star_mem {g : Bool} {p : Char → Bool} {s r : Str} {c : List Str}
    (h : (c, r) ∈ (PRE.star g p).run s) : ∃ x, s = x ++ r ∧ (∀ d ∈ x, p d = true) ∧ c = [] := by
  simp only [PRE.run, List.mem_map, Prod.mk.injEq] at h
  obtain ⟨r', hr', rfl, rfl⟩ := h
  obtain ⟨x, rfl, hx⟩ := (repeats_mem g p s r').1 hr'
  exact ⟨x, rfl, hx, rfl⟩

theorem run_ch_mem {q : Char} {s r : Str} {c : List Str} (h : (c, r) ∈ (PRE.ch q).run s) :
    s = q :: r ∧ c = [] := by
  cases s with
  | nil => simp [PRE.ch, PRE.run] at h
  | cons d s =>
    simp only [PRE.ch, PRE.run, decide_eq_true_eq] at h
    split at h
    · rename_i hd
      simp at h
      exact ⟨by rw [hd, h.2], h.1⟩
    · simp at h

theorem run_seq_mem {a b : PRE} {s r : Str} {c : List Str} (h : (c, r) ∈ (PRE.seq a b).run s) :
    ∃ c₁ r₁ c₂, (c₁, r₁) ∈ a.run s ∧ (c₂, r) ∈ b.run r₁ ∧ c = c₁ ++ c₂ := by
  simp only [PRE.run, List.mem_flatMap, List.mem_map, Prod.mk.injEq] at h
  obtain ⟨⟨c₁, r₁⟩, h1, ⟨c₂, r₂⟩, h2, h3, rfl⟩ := h
  exact ⟨c₁, r₁, c₂, h1, h2, h3.symm⟩

theorem run_cap_mem {a : PRE} {s r : Str} {c : List Str} (h : (c, r) ∈ (PRE.cap a).run s) :
    ∃ c₁, (c₁, r) ∈ a.run s := by
  simp only [PRE.run, List.mem_map, Prod.mk.injEq] at h
  obtain ⟨⟨c₁, r₁⟩, h1, _, rfl⟩ := h
  exact ⟨c₁, h1⟩

/-- A prefix of the class, as long as possible. -/
theorem split_while (p : Char → Bool) (s : Str) :
    ∃ x r, s = x ++ r ∧ (∀ c ∈ x, p c = true) ∧ NotStart p r := by
  induction s with
  | nil => exact ⟨[], [], rfl, by simp, by intro c t h; cases h⟩
  | cons c s ih =>
    cases hc : p c
    · exact ⟨[], c :: s, rfl, by simp, notStart_cons hc⟩
    · obtain ⟨x, r, rfl, hx, hr⟩ := ih
      refine ⟨c :: x, r, rfl, ?_, hr⟩
      intro d hd
      rcases List.mem_cons.1 hd with rfl | hd
      · exact hc
      · exact hx d hd

theorem not_digit_quote {b : Str} : ¬ ∀ c ∈ '\'' :: (b ++ ['\'']), '0' ≤ c ∧ c ≤ '9' := by
  intro h
  exact absurd (h '\'' (by simp)) (by decide)

/-- If there is any match, there is an attribute that ends well. -/
theorem run_attr {s : Str} (h : annotationRegex.run s ≠ []) :
    ∃ n v x rest, s = x ++ rest ∧ IsAttr n v x ∧ ValueEnds v rest := by
  obtain ⟨⟨c, r⟩, m0⟩ := List.exists_mem_of_ne_nil _ h
  clear h
  obtain ⟨_, r₁, _, h1, m1, _⟩ := run_seq_mem m0
  clear m0
  obtain ⟨_, h1'⟩ := run_cap_mem h1
  clear h1
  obtain ⟨n, rfl, hn, hw, _⟩ := run_plus_mem h1'
  obtain ⟨_, r₂, _, h2, m2, _⟩ := run_seq_mem m1
  obtain ⟨w, rfl, hb, _⟩ := run_star_mem h2
  obtain ⟨_, r₃, _, h3, m3, _⟩ := run_seq_mem m2
  obtain ⟨rfl, _⟩ := run_ch_mem h3
  obtain ⟨_, r₄, _, h4, m4, _⟩ := run_seq_mem m3
  obtain ⟨w', rfl, hb', _⟩ := run_star_mem h4
  obtain ⟨_, hm⟩ := run_cap_mem m4
  have fin : ∃ v rest, r₄ = v ++ rest ∧ IsAttrValue v ∧ ValueEnds v rest := by
    rw [PRE.run] at hm
    rcases List.mem_append.1 hm with hm | hm
    · obtain ⟨v, rfl, hv, hd, _⟩ := run_plus_mem hm
      obtain ⟨x, r', rfl, hx, hr⟩ := split_while annDigit r
      refine ⟨v ++ x, r', by simp, .inl ⟨by simp [hv], ?_⟩, fun _ => hr⟩
      intro c hc
      rcases List.mem_append.1 hc with hc | hc
      · exact annDigit_iff.1 (hd c hc)
      · exact annDigit_iff.1 (hx c hc)
    · obtain ⟨_, r₅, _, h5, m5, _⟩ := run_seq_mem hm
      clear hm
      obtain ⟨rfl, _⟩ := run_ch_mem h5
      obtain ⟨_, r₆, _, h6, m6, _⟩ := run_seq_mem m5
      obtain ⟨y, rfl, hy, _⟩ := run_star_mem h6
      obtain ⟨rfl, _⟩ := run_ch_mem m6
      obtain ⟨x, r', e, hx, hr⟩ := split_while (· != '\'') (y ++ '\'' :: r)
      -- `x` ends at the first quote
      have hpre : x <+: y ∨ y <+: x := by
        apply List.prefix_or_prefix_of_prefix (l₃ := y ++ '\'' :: r)
        · exact ⟨r', e.symm⟩
        · exact ⟨_, rfl⟩
      have hxy : x <+: y := by
        rcases hpre with h | ⟨z, rfl⟩
        · exact h
        · rw [List.append_assoc] at e
          have e := List.append_cancel_left e
          cases z with
          | nil => simp
          | cons d z =>
            injection e with e1 e2
            have := hx d (by simp)
            rw [← e1] at this; exact absurd this (by decide)
      have hr' : ∃ t, r' = '\'' :: t := by
        cases r' with
        | nil =>
          have : '\'' ∈ x := by rw [List.append_nil] at e; rw [← e]; simp
          have := hx _ this
          exact absurd this (by decide)
        | cons d t =>
          have := hr d t rfl
          simp at this
          exact ⟨t, by rw [this]⟩
      obtain ⟨t, rfl⟩ := hr'
      refine ⟨'\'' :: (x ++ ['\'']), t, by simp [e], .inr ⟨x, rfl, ?_, ?_⟩, ?_⟩
      · intro hq; exact absurd (hx _ hq) (by decide)
      · intro hq; exact absurd (hy _ (hxy.subset hq)) (by decide)
      · intro hd; exact absurd hd not_digit_quote
  obtain ⟨v, rest, rfl, hv, he⟩ := fin
  refine ⟨n, v, n ++ w ++ '=' :: w' ++ v, rest, by simp, ⟨hn, fun c hc => annWord_iff.1 (hw c hc), hv, w, w',
    fun c hc => annSpace_iff.1 (hb c hc), fun c hc => annSpace_iff.1 (hb' c hc), rfl⟩, he⟩

/-- An attribute extends to one that ends well. -/
theorem attr_extend {n v x rest : Str} (h : IsAttr n v x) :
    ∃ y v' x' rest', x' = x ++ y ∧ rest = y ++ rest' ∧ IsAttr n v' x' ∧ ValueEnds v' rest' := by
  obtain ⟨hn, hw, hv, w, w', hb, hb', rfl⟩ := h
  rcases hv with ⟨hne, hd⟩ | ⟨b, rfl, hb1, hn1⟩
  · obtain ⟨y, r', rfl, hy, hr⟩ := split_while annDigit rest
    refine ⟨y, v ++ y, _, r', rfl, rfl, ⟨hn, hw, .inl ⟨by simp [hne], ?_⟩, w, w', hb, hb', by simp⟩, fun _ => hr⟩
    intro c hc
    rcases List.mem_append.1 hc with hc | hc
    · exact hd c hc
    · exact annDigit_iff.1 (hy c hc)
  · exact ⟨[], '\'' :: (b ++ ['\'']), _, rest, by simp, rfl, ⟨hn, hw, .inr ⟨b, rfl, hb1, hn1⟩, w, w', hb, hb', rfl⟩,
      fun hd => absurd hd not_digit_quote⟩

/-- A match at the start exists iff some prefix is an attribute. -/
theorem run_ne_nil {s : Str} : annotationRegex.run s ≠ [] ↔ ∃ y n v, y <+: s ∧ IsAttr n v y := by
  constructor
  · intro h
    obtain ⟨n, v, x, rest, rfl, ha, _⟩ := run_attr h
    exact ⟨x, n, v, ⟨rest, rfl⟩, ha⟩
  · rintro ⟨y, n, v, ⟨rest, rfl⟩, ha⟩
    obtain ⟨z, v', x', rest', rfl, rfl, h1, h2⟩ := attr_extend (rest := rest) ha
    have := attr_head h1 h2
    rw [List.append_assoc] at this
    intro h0; rw [h0] at this; cases this

/-- An attribute that ends well is the longest one. -/
theorem attr_longest {n v x rest : Str} (h : IsAttr n v x) (he : ValueEnds v rest) (y n' v' : Str)
    (hy : y <+: x ++ rest) (ha : IsAttr n' v' y) : y.length ≤ x.length := by
  obtain ⟨r, hr⟩ := hy
  obtain ⟨z, v'', x', rest', rfl, rfl, h1, h2⟩ := attr_extend (rest := r) ha
  have e1 := attr_head h he
  have e2 := attr_head h1 h2
  rw [List.append_assoc, hr, e1] at e2
  have e3 : rest = rest' := by
    have := Option.some.inj e2
    exact (Prod.mk.inj this).2
  subst e3
  have := congrArg List.length hr
  simp at this
  omega

theorem attr_ne_nil {n v x : Str} (h : IsAttr n v x) : x ≠ [] := by
  obtain ⟨hn, _, _, w, w', _, _, rfl⟩ := h
  simp [hn]

/-! ## Finding -/

theorem find_some {s : Str} {caps : List Str} {rest : Str}
    (h : annotationRegex.find s = some (caps, rest)) :
    ∃ g n v x, s = g ++ x ++ rest ∧ caps = [n, v] ∧ IsAttr n v x ∧ ValueEnds v rest ∧
      ∀ a b y n' v', g = a ++ b → b ≠ [] → y <+: b ++ x ++ rest → ¬ IsAttr n' v' y := by
  induction s with
  | nil =>
    rw [PRE.find] at h
    have hne : annotationRegex.run [] ≠ [] := by intro h0; rw [h0] at h; cases h
    obtain ⟨n, v, x, rest', e, ha, _⟩ := run_attr hne
    have := attr_ne_nil ha
    simp at e; exact absurd e.1 this
  | cons c s ih =>
    rw [PRE.find] at h
    by_cases hne : annotationRegex.run (c :: s) = []
    · rw [hne] at h
      obtain ⟨g, n, v, x, e, hc, ha, he, hg⟩ := ih (by simpa using h)
      refine ⟨c :: g, n, v, x, by rw [e]; rfl, hc, ha, he, ?_⟩
      intro a b y n' v' hab hb hy ha'
      cases a with
      | nil =>
        simp at hab; subst hab
        have : annotationRegex.run (c :: s) ≠ [] := run_ne_nil.2 ⟨y, n', v', by rw [e]; exact hy, ha'⟩
        exact this hne
      | cons d a =>
        injection hab with h1 h2
        exact hg a b y n' v' h2 hb hy ha'
    · obtain ⟨n, v, x, rest', e, ha, he⟩ := run_attr hne
      rw [e, attr_head ha he] at h
      injection h with h; injection h with h1 h2
      subst h1 h2
      refine ⟨[], n, v, x, e, rfl, ha, he, ?_⟩
      intro a b y n' v' hab hb
      simp at hab; exact absurd hab.2 hb

theorem find_none {s : Str} (h : annotationRegex.find s = none) (a x b n v : Str)
    (e : s = a ++ x ++ b) : ¬ IsAttr n v x := by
  induction s generalizing a with
  | nil =>
    intro ha
    have := attr_ne_nil ha
    simp at e; exact this e.2.1
  | cons c s ih =>
    rw [PRE.find] at h
    by_cases hne : annotationRegex.run (c :: s) = []
    · rw [hne] at h
      cases a with
      | nil =>
        intro ha
        exact run_ne_nil.2 ⟨x, n, v, by rw [e]; exact ⟨b, rfl⟩, ha⟩ hne
      | cons d a =>
        injection e with e1 e2
        exact ih (by simpa using h) a e2
    · obtain ⟨n, v, x, rest', e, ha, he⟩ := run_attr hne
      rw [e, attr_head ha he] at h
      cases h

theorem findAll_reads (k : Nat) (s : Str) (h : s.length < k) :
    ∃ l, (annotationRegex.findAll k s).mapM annAttr = some l ∧ ReadsAttrs s l := by
  induction k generalizing s with
  | zero => omega
  | succ k ih =>
    rw [PRE.findAll]
    cases hf : annotationRegex.find s with
    | none => exact ⟨[], rfl, .done fun a x b n v e => find_none hf a x b n v e⟩
    | some m =>
      obtain ⟨caps, rest⟩ := m
      obtain ⟨g, n, v, x, rfl, rfl, ha, he, hg⟩ := find_some hf
      have hx := List.length_pos_iff.2 (attr_ne_nil ha)
      obtain ⟨l, h1, h2⟩ := ih rest (by simp at h; omega)
      refine ⟨⟨n, v⟩ :: l, ?_, .next ha hg (fun y n' v' hy ha' => attr_longest ha he y n' v' hy ha') h2⟩
      simp [List.mapM_cons, annAttr, h1]

/-! ## Splitting -/

theorem splitParen_append {t r : Str} (h : '(' ∉ t) : splitParen (t ++ '(' :: r) = [t, r] := by
  unfold splitParen
  have h1 : (t ++ '(' :: r).dropWhile (· != '(') = '(' :: r := by
    rw [List.dropWhile_append_of_pos]
    · simp
    · intro c hc; simp; rintro rfl; exact h hc
  have h2 : (t ++ '(' :: r).takeWhile (· != '(') = t := by
    rw [List.takeWhile_append_of_pos]
    · simp
    · intro c hc; simp; rintro rfl; exact h hc
  rw [h1, h2]

theorem exists_first {c : Char} {s : Str} (h : c ∈ s) : ∃ t r, s = t ++ c :: r ∧ c ∉ t := by
  induction s with
  | nil => cases h
  | cons d s ih =>
    by_cases hd : c = d
    · exact ⟨[], s, by rw [hd]; rfl, by simp⟩
    · rcases List.mem_cons.1 h with h | h
      · exact absurd h hd
      · obtain ⟨t, r, rfl, hr⟩ := ih h
        exact ⟨d :: t, r, rfl, by simp [hd, hr]⟩

theorem byteLen_append (a b : Str) : byteLen (a ++ b) = byteLen a + byteLen b := by
  simp [byteLen]

theorem byteLen_one (s : Str) (h : s ≠ []) : 1 ≤ byteLen s := by
  cases s with
  | nil => exact absurd rfl h
  | cons c s => have := c.utf8Size_pos; simp [byteLen]; omega

/-- A text `target(body)` with a name or a body. -/
theorem parse_shape {t b : Str} (h : '(' ∉ t) (hl : t ≠ [] ∨ b ≠ []) :
    ∃ l, parseAnnotation (t ++ '(' :: (b ++ [')'])) = .ok ⟨t, l⟩ ∧
      (annotationRegex.findAll (b.length + 1) b).mapM annAttr = some l ∧ ReadsAttrs b l := by
  obtain ⟨l, h1, h2⟩ := findAll_reads (b.length + 1) b (by omega)
  refine ⟨l, ?_, h1, h2⟩
  unfold parseAnnotation
  have hlen : ¬ byteLen (t ++ '(' :: (b ++ [')'])) < 3 := by
    have e : t ++ '(' :: (b ++ [')']) = t ++ (['('] ++ (b ++ [')'])) := rfl
    rw [e, byteLen_append, byteLen_append, byteLen_append]
    have h3 : byteLen ['('] = 1 := by decide
    have h4 : byteLen [')'] = 1 := by decide
    rcases hl with hl | hl
    · have := byteLen_one t hl; omega
    · have := byteLen_one b hl; omega
  have hlast : (t ++ '(' :: (b ++ [')'])).getLast? = some ')' := by
    have e : t ++ '(' :: (b ++ [')']) = (t ++ '(' :: b) ++ [')'] := by simp
    rw [e, List.getLast?_append]; rfl
  have hcont : (t ++ '(' :: (b ++ [')'])).contains '(' = true := by simp
  rw [if_neg (by simp [hlen, hlast])]
  rw [splitParen_append h]
  simp only [List.dropLast_concat, h1]
  rw [if_neg (by simp)]

/-- Texts that pass the check. -/
theorem check_shape {s : Str} (h : ¬ (byteLen s < 3 ∨ '(' ∉ s ∨ s.getLast? ≠ some ')')) :
    ∃ t b, s = t ++ '(' :: (b ++ [')']) ∧ '(' ∉ t ∧ (t ≠ [] ∨ b ≠ []) := by
  simp only [not_or, Classical.not_not] at h
  obtain ⟨h1, h2, h3⟩ := h
  obtain ⟨t, r, rfl, ht⟩ := exists_first h2
  have hr : r ≠ [] := by
    rintro rfl
    rw [List.getLast?_append] at h3
    simp at h3
  obtain ⟨b, c, rfl⟩ : ∃ b c, r = b ++ [c] := ⟨_, _, (List.dropLast_concat_getLast hr).symm⟩
  have hc : c = ')' := by
    have e : t ++ '(' :: (b ++ [c]) = (t ++ '(' :: b) ++ [c] := by simp
    rw [e, List.getLast?_append] at h3
    simpa using h3
  subst hc
  refine ⟨t, b, rfl, ht, ?_⟩
  cases t with
  | cons _ _ => exact .inl (by simp)
  | nil =>
    cases b with
    | cons _ _ => exact .inr (by simp)
    | nil => exact absurd (by decide) h1

end Verif
