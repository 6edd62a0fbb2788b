import Verif.Spec.Lexical
/-!
# The derivative matcher is correct
-/

namespace Verif

theorem inCls_iff (neg : Bool) (rs : List (Nat × Nat)) (c : Char) :
    inCls neg rs c = true ↔ InClass neg rs c := by
  have h : (rs.any (fun r => r.1 ≤ c.toNat && c.toNat ≤ r.2) = true) ↔
      (∃ r ∈ rs, r.1 ≤ c.toNat ∧ c.toNat ≤ r.2) := by
    simp
  unfold inCls InClass
  rw [← h]
  generalize rs.any (fun r => r.1 ≤ c.toNat && c.toNat ≤ r.2) = b
  cases b <;> cases neg <;> simp

/-! Inversion -/

@[simp] theorem lang_none {s} : ¬ Lang .none s := by intro h; cases h

@[simp] theorem lang_eps {s} : Lang .eps s ↔ s = [] := by
  constructor
  · intro h; cases h; rfl
  · rintro rfl; exact .eps

theorem lang_cls {neg rs s} : Lang (.cls neg rs) s ↔ ∃ c, s = [c] ∧ inCls neg rs c = true := by
  constructor
  · intro h; cases h with
    | cls h => exact ⟨_, rfl, (inCls_iff _ _ _).2 h⟩
  · rintro ⟨c, rfl, h⟩; exact .cls ((inCls_iff _ _ _).1 h)

theorem lang_seq {a b s} : Lang (.seq a b) s ↔ ∃ x y, s = x ++ y ∧ Lang a x ∧ Lang b y := by
  constructor
  · intro h; cases h with
    | seq h₁ h₂ => exact ⟨_, _, rfl, h₁, h₂⟩
  · rintro ⟨x, y, rfl, h₁, h₂⟩; exact .seq h₁ h₂

theorem lang_alt {a b s} : Lang (.alt a b) s ↔ Lang a s ∨ Lang b s := by
  constructor
  · intro h; cases h with
    | altL h => exact .inl h
    | altR h => exact .inr h
  · rintro (h | h)
    · exact .altL h
    · exact .altR h

theorem lang_star_cons {a c s} (h : Lang (.star a) (c :: s)) :
    ∃ x y, s = x ++ y ∧ Lang a (c :: x) ∧ Lang (.star a) y := by
  generalize hr : RE.star a = r at h
  generalize hs : c :: s = t at h
  induction h with
  | starNil => cases hs
  | @starCons a' x y hx hy _ ih =>
    cases hr
    cases x with
    | nil => exact ih rfl (by simpa using hs)
    | cons d x =>
      simp at hs
      obtain ⟨rfl, rfl⟩ := hs
      exact ⟨x, y, rfl, hx, hy⟩
  | _ => cases hr

theorem nullable_iff (r : RE) : r.nullable = true ↔ Lang r [] := by
  induction r with
  | none => simp [RE.nullable]
  | eps => simp [RE.nullable]
  | cls neg rs => simp [RE.nullable, lang_cls]
  | seq a b iha ihb =>
    simp only [RE.nullable, Bool.and_eq_true, iha, ihb, lang_seq]
    constructor
    · rintro ⟨h₁, h₂⟩; exact ⟨[], [], rfl, h₁, h₂⟩
    · rintro ⟨x, y, h, h₁, h₂⟩
      obtain ⟨rfl, rfl⟩ := List.append_eq_nil_iff.1 h.symm
      exact ⟨h₁, h₂⟩
  | alt a b iha ihb => simp only [RE.nullable, Bool.or_eq_true, iha, ihb, lang_alt]
  | star a _ => simp only [RE.nullable, true_iff]; exact .starNil

theorem lang_mkSeq {a b s} : Lang (.mkSeq a b) s ↔ Lang (.seq a b) s := by
  unfold RE.mkSeq
  split
  · simp [lang_seq]
  · simp only [lang_seq, lang_eps]
    constructor
    · intro h; exact ⟨[], s, rfl, rfl, h⟩
    · rintro ⟨x, y, rfl, rfl, h⟩; exact h
  · rfl

theorem lang_mkAlt {a b s} : Lang (.mkAlt a b) s ↔ Lang (.alt a b) s := by
  unfold RE.mkAlt
  split <;> simp [lang_alt]

theorem deriv_iff (c : Char) (r : RE) : ∀ s, Lang (r.deriv c) s ↔ Lang r (c :: s) := by
  induction r with
  | none => simp [RE.deriv]
  | eps => simp [RE.deriv]
  | cls neg rs =>
    intro s
    simp only [RE.deriv]
    split
    · rename_i h
      simp only [lang_eps, lang_cls]
      constructor
      · rintro rfl; exact ⟨c, rfl, h⟩
      · rintro ⟨d, hd, _⟩; simp at hd; exact hd.2
    · rename_i h
      simp only [lang_none, lang_cls, false_iff]
      rintro ⟨d, hd, hc⟩
      simp at hd
      exact h (hd.1 ▸ hc)
  | seq a b iha ihb =>
    intro s
    have main : Lang (.seq a b) (c :: s) ↔
        (∃ x y, s = x ++ y ∧ Lang a (c :: x) ∧ Lang b y) ∨ (Lang a [] ∧ Lang b (c :: s)) := by
      rw [lang_seq]
      constructor
      · rintro ⟨x, y, h, h₁, h₂⟩
        cases x with
        | nil => right; simp at h; exact ⟨h₁, h ▸ h₂⟩
        | cons d x => left; simp at h; obtain ⟨rfl, rfl⟩ := h; exact ⟨x, y, rfl, h₁, h₂⟩
      · rintro (⟨x, y, rfl, h₁, h₂⟩ | ⟨h₁, h₂⟩)
        · exact ⟨c :: x, y, rfl, h₁, h₂⟩
        · exact ⟨[], c :: s, rfl, h₁, h₂⟩
    have one : Lang (.mkSeq (a.deriv c) b) s ↔
        ∃ x y, s = x ++ y ∧ Lang a (c :: x) ∧ Lang b y := by
      rw [lang_mkSeq, lang_seq]
      simp only [iha]
    rw [main]
    simp only [RE.deriv]
    split
    · rename_i h
      rw [lang_mkAlt, lang_alt, one, ihb]
      simp [(nullable_iff a).1 h]
    · rename_i h
      rw [one]
      have : ¬ Lang a [] := fun h' => h ((nullable_iff a).2 h')
      simp [this]
  | alt a b iha ihb =>
    intro s
    simp only [RE.deriv]
    rw [lang_mkAlt, lang_alt, lang_alt, iha, ihb]
  | star a iha =>
    intro s
    simp only [RE.deriv]
    rw [lang_mkSeq, lang_seq]
    constructor
    · rintro ⟨x, y, rfl, h₁, h₂⟩
      exact .starCons ((iha x).1 h₁) h₂
    · intro h
      obtain ⟨x, y, rfl, h₁, h₂⟩ := lang_star_cons h
      exact ⟨x, y, rfl, (iha x).2 h₁, h₂⟩

/-! Longest and shortest matches -/

theorem longest_none (s : Str) : RE.none.longest s = none := by
  cases s <;> simp [RE.longest, RE.nullable]

theorem longest_exists : ∀ (s : Str) (r : RE) (y : Str), y <+: s → Lang r y →
    ∃ n, r.longest s = some n := by
  intro s
  induction s with
  | nil =>
    intro r y hy hl
    simp at hy
    subst hy
    exact ⟨0, by simp [RE.longest, (nullable_iff r).2 hl]⟩
  | cons c s ih =>
    intro r y hy hl
    have hne : r ≠ .none := by rintro rfl; simp at hl
    simp only [RE.longest, if_neg hne]
    cases y with
    | nil =>
      rw [(nullable_iff r).2 hl]
      split <;> simp
    | cons d y =>
      simp at hy
      obtain ⟨rfl, hy⟩ := hy
      obtain ⟨n, hn⟩ := ih (r.deriv d) y hy ((deriv_iff _ _ _).2 hl)
      exact ⟨n + 1, by simp [hn]⟩

theorem longest_some : ∀ (s : Str) (r : RE) (n : Nat), r.longest s = some n ↔
    n ≤ s.length ∧ Lang r (s.take n) ∧ ∀ y, y <+: s → Lang r y → y.length ≤ n := by
  intro s
  induction s with
  | nil =>
    intro r n
    simp only [RE.longest]
    split
    · rename_i h
      simp only [Option.some.injEq, List.length_nil, Nat.le_zero]
      constructor
      · rintro rfl; exact ⟨rfl, by simpa using (nullable_iff r).1 h, by
          intro y hy _; simp at hy; simp [hy]⟩
      · rintro ⟨rfl, _⟩; rfl
    · rename_i h
      simp only [reduceCtorEq, false_iff]
      rintro ⟨hn, hl, _⟩
      exact h ((nullable_iff r).2 (by simpa using hl))
  | cons c s ih =>
    intro r n
    simp only [RE.longest]
    split
    · rename_i h; subst h; simp
    · split
      · rename_i m hm
        have := (ih (r.deriv c) m).1 hm
        obtain ⟨h1, h2, h3⟩ := this
        rw [deriv_iff] at h2
        constructor
        · intro h
          simp at h
          subst h
          refine ⟨by simp; omega, by simpa using h2, ?_⟩
          intro y hy hl
          cases y with
          | nil => simp
          | cons d y =>
            simp at hy
            obtain ⟨rfl, hy⟩ := hy
            have := h3 y hy ((deriv_iff _ _ _).2 hl)
            simp; omega
        · rintro ⟨hn, hl, hmax⟩
          have a1 := hmax (c :: s.take m) (by simp [List.take_prefix]) (by simpa using h2)
          simp at a1
          have a2 : m ≤ s.length := h1
          cases n with
          | zero => omega
          | succ n =>
            have a3 := h3 (s.take n) (List.take_prefix _ _)
              ((deriv_iff _ _ _).2 (by simpa using hl))
            simp at a3 hn
            congr 1
            omega
      · rename_i hnone
        have hno : ∀ y, y <+: s → ¬ Lang r (c :: y) := by
          intro y hy hl
          have hl' := (deriv_iff c r y).2 hl
          obtain ⟨n, hn⟩ := longest_exists s (r.deriv c) y hy hl'
          rw [hnone] at hn; cases hn
        split
        · rename_i hnull
          constructor
          · intro h; simp at h; subst h
            refine ⟨by simp, by simpa using (nullable_iff r).1 hnull, ?_⟩
            intro y hy hl
            cases y with
            | nil => simp
            | cons d y =>
              simp at hy
              obtain ⟨rfl, hy⟩ := hy
              exact absurd hl (hno y hy)
          · rintro ⟨hn, hl, hmax⟩
            cases n with
            | zero => rfl
            | succ n => exact absurd (by simpa using hl) (hno (s.take n) (List.take_prefix _ _))
        · rename_i hnull
          simp only [reduceCtorEq, false_iff]
          rintro ⟨hn, hl, hmax⟩
          cases n with
          | zero => exact hnull ((nullable_iff r).2 (by simpa using hl))
          | succ n => exact absurd (by simpa using hl) (hno (s.take n) (List.take_prefix _ _))

theorem shortest_some : ∀ (s : Str) (r : RE) (n : Nat), r.shortest s = some n ↔
    n ≤ s.length ∧ Lang r (s.take n) ∧ ∀ y, y <+: s → Lang r y → n ≤ y.length := by
  intro s
  induction s with
  | nil =>
    intro r n
    simp only [RE.shortest]
    split
    · rename_i h
      simp only [Option.some.injEq, List.length_nil, Nat.le_zero]
      constructor
      · rintro rfl; exact ⟨rfl, by simpa using (nullable_iff r).1 h, by simp⟩
      · rintro ⟨rfl, _⟩; rfl
    · rename_i h
      simp only [reduceCtorEq, false_iff]
      rintro ⟨hn, hl, _⟩
      exact h ((nullable_iff r).2 (by simpa using hl))
  | cons c s ih =>
    intro r n
    simp only [RE.shortest]
    split
    · rename_i h
      have h0 := (nullable_iff r).1 h
      simp only [Option.some.injEq]
      constructor
      · rintro rfl; exact ⟨by simp, by simpa using h0, by simp⟩
      · rintro ⟨_, _, hm⟩
        have := hm [] (by simp) h0
        simp at this; exact this.symm
    · rename_i h0
      have hnn : ¬ Lang r [] := fun h => h0 ((nullable_iff r).2 h)
      split
      · rename_i h; subst h; simp
      · split
        · rename_i m hm
          obtain ⟨h1, h2, h3⟩ := (ih (r.deriv c) m).1 hm
          rw [deriv_iff] at h2
          constructor
          · intro h
            simp at h
            subst h
            refine ⟨by simp; omega, by simpa using h2, ?_⟩
            intro y hy hl
            cases y with
            | nil => exact absurd hl hnn
            | cons d y =>
              simp at hy
              obtain ⟨rfl, hy⟩ := hy
              have := h3 y hy ((deriv_iff _ _ _).2 hl)
              simp; omega
          · rintro ⟨hn, hl, hmin⟩
            have a1 := hmin (c :: s.take m) (by simp [List.take_prefix]) (by simpa using h2)
            simp at a1
            cases n with
            | zero => exact absurd (by simpa using hl) hnn
            | succ n =>
              have a3 := h3 (s.take n) (List.take_prefix _ _)
                ((deriv_iff _ _ _).2 (by simpa using hl))
              simp at a3 hn
              congr 1
              omega
        · rename_i hnone
          simp only [reduceCtorEq, false_iff]
          rintro ⟨hn, hl, hmin⟩
          cases n with
          | zero => exact hnn (by simpa using hl)
          | succ n =>
            have : (r.deriv c).shortest s = some n := by
              rw [ih]
              refine ⟨by simpa using hn, (deriv_iff _ _ _).2 (by simpa using hl), ?_⟩
              intro y hy hl'
              have := hmin (c :: y) (by simpa using hy) ((deriv_iff _ _ _).1 hl')
              simpa using this
            rw [hnone] at this; cases this

end Verif
