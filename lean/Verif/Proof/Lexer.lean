import Verif.Proof.Regex
/-!
# The lexer computes the maximal-munch tokenisation
-/

namespace Verif

theorem cand_iff (r : LexRule) (s : Str) (n : Nat) :
    r.cand s = some n ↔ n ≤ s.length ∧ Claims r (s.take n) s := by
  unfold LexRule.cand Claims
  by_cases hz : r.lazy = true
  · simp only [hz, if_true, shortest_some]
    constructor
    · rintro ⟨h1, h2, h3⟩
      exact ⟨h1, List.take_prefix _ _, h2, fun y hy hl => by
        have := h3 y hy hl
        simp; omega⟩
    · rintro ⟨h1, _, h2, h3⟩
      exact ⟨h1, h2, fun y hy hl => by
        have := h3 y hy hl
        simp at this; omega⟩
  · simp only [hz, Bool.false_eq_true, if_false, longest_some]
    constructor
    · rintro ⟨h1, h2, h3⟩
      exact ⟨h1, List.take_prefix _ _, h2, fun y hy hl => by
        have := h3 y hy hl
        simp; omega⟩
    · rintro ⟨h1, _, h2, h3⟩
      exact ⟨h1, h2, fun y hy hl => by
        have := h3 y hy hl
        simp at this; omega⟩

theorem claims_cand {r : LexRule} {x s : Str} (h : Claims r x s) : r.cand s = some x.length := by
  rw [cand_iff]
  obtain ⟨t, rfl⟩ := h.1
  exact ⟨by simp, by simpa using h⟩

theorem bestMatch_iff (rs : List LexRule) (s : Str) (n : Nat) (r : LexRule) :
    bestMatch rs s = some (n, r) ↔
    ∃ before after, rs = before ++ r :: after ∧ r.cand s = some n ∧
      (∀ r' ∈ before, ∀ m, r'.cand s = some m → m < n) ∧
      (∀ r' ∈ after, ∀ m, r'.cand s = some m → m ≤ n) := by
  have max : ∀ (rs : List LexRule) n r, bestMatch rs s = some (n, r) →
      r ∈ rs ∧ r.cand s = some n ∧ ∀ r' ∈ rs, ∀ m, r'.cand s = some m → m ≤ n := by
    intro rs
    induction rs with
    | nil => intro n r h; simp [bestMatch] at h
    | cons q rs ih =>
      intro n r h
      unfold bestMatch at h
      cases hq : q.cand s with
      | none =>
        simp [hq, better] at h
        obtain ⟨h1, h2, h3⟩ := ih n r h
        refine ⟨List.mem_cons_of_mem _ h1, h2, ?_⟩
        intro r' hr' m hm
        rcases List.mem_cons.1 hr' with rfl | hr'
        · rw [hq] at hm; cases hm
        · exact h3 r' hr' m hm
      | some k =>
        cases hb : bestMatch rs s with
        | none =>
          simp [hq, hb, better] at h
          obtain ⟨rfl, rfl⟩ := h
          refine ⟨List.mem_cons_self, hq, ?_⟩
          intro r' hr' m hm
          rcases List.mem_cons.1 hr' with rfl | hr'
          · rw [hq] at hm; cases hm; exact Nat.le_refl _
          · exfalso
            have : ∀ (rs : List LexRule), r' ∈ rs → bestMatch rs s ≠ none := by
              intro rs
              induction rs with
              | nil => simp
              | cons a as ih =>
                intro hmem hno
                unfold bestMatch at hno
                rcases List.mem_cons.1 hmem with rfl | hmem
                · rw [hm] at hno
                  cases hx : bestMatch as s <;> simp [hx, better] at hno
                  split at hno <;> cases hno
                · have := ih hmem
                  cases hx : bestMatch as s with
                  | none => exact this hx
                  | some v =>
                    cases ha : a.cand s <;> simp [hx, ha, better] at hno
                    split at hno <;> cases hno
            exact this rs hr' hb
        | some v =>
          obtain ⟨k', q'⟩ := v
          obtain ⟨h1, h2, h3⟩ := ih k' q' hb
          simp [hq, hb, better] at h
          split at h
          · simp at h; obtain ⟨rfl, rfl⟩ := h
            refine ⟨List.mem_cons_of_mem _ h1, h2, ?_⟩
            intro r' hr' m hm
            rcases List.mem_cons.1 hr' with rfl | hr'
            · rw [hq] at hm; cases hm; omega
            · exact h3 r' hr' m hm
          · simp at h; obtain ⟨rfl, rfl⟩ := h
            refine ⟨List.mem_cons_self, hq, ?_⟩
            intro r' hr' m hm
            rcases List.mem_cons.1 hr' with rfl | hr'
            · rw [hq] at hm; cases hm; exact Nat.le_refl _
            · have := h3 r' hr' m hm; omega
  have noneLem : ∀ (rs : List LexRule), bestMatch rs s = none →
      ∀ r' ∈ rs, r'.cand s = none := by
    intro rs
    induction rs with
    | nil => simp
    | cons a as ih =>
      intro hno
      unfold bestMatch at hno
      cases ha : a.cand s with
      | none =>
        simp [ha, better] at hno
        intro r' hr'
        rcases List.mem_cons.1 hr' with rfl | hr'
        · exact ha
        · exact ih hno r' hr'
      | some v =>
        cases hx : bestMatch as s <;> simp [hx, ha, better] at hno
        split at hno <;> cases hno
  induction rs generalizing n r with
  | nil => simp [bestMatch]
  | cons q rs ih =>
    constructor
    · intro h
      have hm := max _ _ _ h
      unfold bestMatch at h
      by_cases hqr : q = r ∧ q.cand s = some n
      · obtain ⟨rfl, hq⟩ := hqr
        exact ⟨[], rs, rfl, hq, by simp, fun r' hr' => hm.2.2 r' (List.mem_cons_of_mem _ hr')⟩
      · cases hq : q.cand s with
        | none =>
          simp [hq, better] at h
          obtain ⟨b, a, rfl, h1, h2, h3⟩ := (ih n r).1 h
          refine ⟨q :: b, a, rfl, h1, ?_, h3⟩
          intro r' hr' m hm'
          rcases List.mem_cons.1 hr' with rfl | hr'
          · rw [hq] at hm'; cases hm'
          · exact h2 r' hr' m hm'
        | some k =>
          cases hb : bestMatch rs s with
          | none =>
            simp [hq, hb, better] at h
            obtain ⟨rfl, rfl⟩ := h
            exact absurd ⟨rfl, hq⟩ hqr
          | some v =>
            obtain ⟨k', q'⟩ := v
            simp [hq, hb, better] at h
            split at h
            · simp at h; obtain ⟨rfl, rfl⟩ := h
              obtain ⟨b, a, rfl, h1, h2, h3⟩ := (ih _ _).1 hb
              refine ⟨q :: b, a, rfl, h1, ?_, h3⟩
              intro r' hr' m hm'
              rcases List.mem_cons.1 hr' with rfl | hr'
              · rw [hq] at hm'; cases hm'; omega
              · exact h2 r' hr' m hm'
            · simp at h; obtain ⟨rfl, rfl⟩ := h
              exact absurd ⟨rfl, hq⟩ hqr
    · rintro ⟨b, a, hba, h1, h2, h3⟩
      unfold bestMatch
      cases b with
      | nil =>
        simp at hba; obtain ⟨rfl, rfl⟩ := hba
        rw [h1]
        cases hb : bestMatch rs s with
        | none => simp [better]
        | some v =>
          obtain ⟨k', q'⟩ := v
          have := max _ _ _ hb
          have := h3 q' this.1 k' this.2.1
          simp [better]; omega
      | cons q' b =>
        simp at hba; obtain ⟨rfl, rfl⟩ := hba
        have hb := (ih n r).2 ⟨b, a, rfl, h1, fun r' hr' => h2 r' (List.mem_cons_of_mem _ hr'), h3⟩
        rw [hb]
        cases hq : q.cand s with
        | none => simp [better]
        | some k =>
          have := h2 q List.mem_cons_self k hq
          simp [better, this]

theorem lexRules_nodup : (lexRules.map (·.ty)).Nodup := by decide +kernel

theorem lexRules_nullable : ∀ r ∈ lexRules, r.re.nullable = false := by decide +kernel

theorem lexOne_iff (s : Str) (t : Tok) (h : Bool) (rest : Str) :
    lexOne s = some (t, h, rest) ↔ IsNext s t h rest := by
  constructor
  · intro hl
    unfold lexOne at hl
    split at hl
    · rename_i n r hb
      simp at hl
      obtain ⟨rfl, rfl, rfl⟩ := hl
      obtain ⟨b, a, he, h1, h2, h3⟩ := (bestMatch_iff _ _ _ _).1 hb
      have hc := (cand_iff _ _ _).1 h1
      have hlen : (s.take (n + 1)).length = n + 1 := by simp; omega
      refine ⟨(List.take_append_drop _ _).symm, ?_, b, r, a, he, rfl, rfl, hc.2, ?_, ?_⟩
      · intro h0; simp only at h0; rw [h0] at hlen; simp at hlen
      · intro r' hr' y hy
        simp only [hlen]
        exact h2 r' hr' _ (claims_cand hy)
      · intro r' hr' y hy
        simp only [hlen]
        exact h3 r' hr' _ (claims_cand hy)
    · cases hl
  · rintro ⟨rfl, hne, b, r, a, he, hty, hh, hc, h2, h3⟩
    have hb := (bestMatch_iff lexRules (t.text ++ rest) t.text.length r).2
      ⟨b, a, he, claims_cand hc, fun r' hr' m hm => by
        obtain ⟨h1, h4⟩ := (cand_iff _ _ _).1 hm
        have := h2 r' hr' _ h4
        rwa [List.length_take, Nat.min_eq_left h1] at this, fun r' hr' m hm => by
        obtain ⟨h1, h4⟩ := (cand_iff _ _ _).1 hm
        have := h3 r' hr' _ h4
        rwa [List.length_take, Nat.min_eq_left h1] at this⟩
    unfold lexOne
    rw [hb]
    obtain ⟨ty, text⟩ := t
    cases text with
    | nil => exact absurd rfl hne
    | cons c text =>
      simp at hty hh
      simp [hty, hh]

theorem IsNext.length {s t h rest} (hn : IsNext s t h rest) : rest.length < s.length := by
  obtain ⟨rfl, hne, _⟩ := hn
  have := List.length_pos_iff.2 hne
  simp; omega

theorem IsNext.unique {s t h rest t' h' rest'} (h₁ : IsNext s t h rest)
    (h₂ : IsNext s t' h' rest') : t = t' ∧ h = h' ∧ rest = rest' := by
  have a := (lexOne_iff _ _ _ _).2 h₁
  have b := (lexOne_iff _ _ _ _).2 h₂
  rw [a] at b
  simpa using b

theorem lexRaw_iff : ∀ (n : Nat) (s : Str) (l : List (Tok × Bool)), s.length ≤ n →
    (lexRaw n s = some l ↔ Tokenises s l) := by
  intro n
  induction n with
  | zero =>
    intro s l hn
    have : s = [] := List.eq_nil_of_length_eq_zero (by omega)
    subst this
    simp only [lexRaw, Option.some.injEq]
    constructor
    · rintro rfl; exact .nil
    · intro h; cases h with
      | nil => rfl
      | cons h _ => exact absurd h.length (by simp)
  | succ n ih =>
    intro s l hn
    cases s with
    | nil =>
      simp only [lexRaw, Option.some.injEq]
      constructor
      · rintro rfl; exact .nil
      · intro h; cases h with
        | nil => rfl
        | cons h _ => exact absurd h.length (by simp)
    | cons c s =>
      constructor
      · intro h
        unfold lexRaw at h
        split at h
        · cases h
        · rename_i t hd rest ho
          have hi := (lexOne_iff _ _ _ _).1 ho
          have hlen := hi.length
          cases hr : lexRaw n rest with
          | none => simp [hr] at h
          | some l' =>
            simp [hr] at h
            subst h
            exact .cons hi ((ih rest l' (by simp at hn hlen; omega)).1 hr)
      · intro h
        cases h with
        | @cons _ rest t hd l' hi ht =>
          unfold lexRaw
          rw [(lexOne_iff _ _ _ _).2 hi]
          have hlen := hi.length
          simp only [(ih rest l' (by simp at hn hlen; omega)).2 ht, Option.map_some]

/-- The lexer finds exactly the maximal-munch tokenisation. -/
theorem lexAllRaw_iff (s : Str) (l : List (Tok × Bool)) :
    lexAllRaw s = some l ↔ Tokenises s l := lexRaw_iff _ _ _ (Nat.le_refl _)

theorem Tokenises.text {s l} (h : Tokenises s l) : l.flatMap (·.1.text) = s := by
  induction h with
  | nil => rfl
  | cons h _ ih => simp [ih, h.1]

theorem lexAll_iff (s : Str) (ts : List Tok) :
    lexAll s = some ts ↔ ∃ l, Tokenises s l ∧ visible l = ts := by
  unfold lexAll
  constructor
  · intro h
    cases hl : lexAllRaw s with
    | none => simp [hl] at h
    | some l =>
      simp [hl] at h
      exact ⟨l, (lexAllRaw_iff _ _).1 hl, by simpa [visible] using h⟩
  · rintro ⟨l, hl, rfl⟩
    rw [(lexAllRaw_iff _ _).2 hl]
    rfl

end Verif
