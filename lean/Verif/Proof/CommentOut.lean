import Verif.Spec.CommentOut
import Verif.Spec.Source
import Verif.Proof.Insert
import Verif.Proof.Truncate
import Verif.Proof.TruncateBytes
import Verif.Proof.LineEnds
import Verif.Proof.Canonical
/-!
# Commenting out declarations
-/

namespace Verif

set_option Elab.async false

/-- Putting layout and another text after tokens. -/
theorem put_layout {c : Char} {sep s₂ s₃ : Str} (hsep : Layout (c :: sep))
    {l₂ l₃ : List (Tok × Bool)} (h₃ : Tokenises s₃ l₃) :
    ∀ (l₁ : List (Tok × Bool)) (s₁ : Str),
    Tokenises (s₁ ++ s₂) (l₁ ++ l₂) → l₁.flatMap (·.1.text) = s₁ →
    (∀ p, l₁.getLast? = some p → p.1.ty ≠ .SQL_STMT ∧ p.1.ty ≠ .LINE_COMMENT ∧
      (c = '/' → p.1.ty ≠ .DIV)) →
    (∀ p ∈ l₁, p.1.ty ∉ verbTypes) →
    ¬ [TT.DIV, .STAR] <:+: l₁.map (·.1.ty) →
    ∃ k, Tokenises (s₁ ++ (c :: sep ++ s₃)) (l₁ ++ k ++ l₃) ∧ visible k = [] := by
  have hc := layout_start hsep
  intro l₁
  induction l₁ with
  | nil =>
    rintro s₁ ht rfl _ _ _
    obtain ⟨k, hk, hv⟩ := layout_hidden hsep h₃
    exact ⟨k, hk, hv⟩
  | cons p l₁ ih =>
    obtain ⟨t, h⟩ := p
    rintro s₁ ht rfl hlast hverb hds
    simp only [List.flatMap_cons] at ht ⊢
    generalize hs' : l₁.flatMap (·.1.text) = s' at ht ih ⊢
    have hcase : ∃ rest, IsNext (t.text ++ s' ++ s₂) t h rest ∧ Tokenises rest (l₁ ++ l₂) := by
      exact ht.cons_inv
    obtain ⟨rest, hn, ht⟩ := hcase
    have hrest : rest = s' ++ s₂ := by
      have := hn.1
      rw [List.append_assoc] at this
      exact (List.append_cancel_left this).symm
    subst hrest
    rw [List.append_assoc] at hn
    obtain ⟨k, hk, hv⟩ := ih s' ht rfl
      (fun p hp => hlast p (by
        cases l₁ with
        | nil => simp at hp
        | cons q l => rw [List.getLast?_cons_cons]; exact hp))
      (fun p hp => hverb p (List.mem_cons_of_mem _ hp))
      (fun hi => hds (by
        simp only [List.map_cons]
        exact hi.trans (List.suffix_cons _ _).isInfix))
    refine ⟨k, ?_, hv⟩
    rw [List.append_assoc t.text s', List.cons_append, List.cons_append]
    refine .cons ?_ hk
    clear hk
    obtain ⟨r, hr, hty, hh, hcl⟩ := hn.rule
    -- if the first remaining token is the last of `l₁`
    have hs'nil : s' = [] → l₁ = [] := by
      intro h0
      cases l₁ with
      | nil => rfl
      | cons q l₁ =>
        exfalso
        have : q.1.text ≠ [] := by
          obtain ⟨_, hn, _⟩ := ht.cons_inv
          exact hn.2.1
        rw [h0] at hs'
        simp at hs'
        exact this hs'.1
    apply hn.transfer
    intro r' hr' y hy hlt
    obtain ⟨v, rfl⟩ := prefix_of_le (List.prefix_append t.text _) hy.1 (by omega)
    have hvp : v <+: s' ++ (c :: sep ++ s₃) := by
      have := hy.1
      rwa [List.prefix_append_right_inj] at this
    by_cases hvs : v.length ≤ s'.length
    · right
      rw [List.prefix_append_right_inj]
      exact (prefix_of_le hvp (List.prefix_append _ _) hvs).trans (List.prefix_append _ _)
    obtain ⟨w, rfl⟩ := prefix_of_le (List.prefix_append s' _) hvp (by omega)
    rw [List.prefix_append_right_inj] at hvp
    cases w with
    | nil => simp at hvs
    | cons d w =>
      simp at hvp
      obtain ⟨rfl, -⟩ := hvp
      have hnw : isWord d = false := sep_not_word hc
      have hr't := rules_by_ty r' hr'
      have hrt := rules_by_ty r hr
      have hhead : ∀ e, (s' ++ d :: w).head? = some e → s' = [] ∧ d = e ∨ ∃ s'', s' = e :: s'' := by
        intro e he
        cases s' with
        | nil => simp at he; exact .inl ⟨rfl, he⟩
        | cons f s'' => simp at he; subst he; exact .inr ⟨_, rfl⟩
      rcases extend_cases hr hr' hcl.2.1 hn.2.1 ⟨d, by simp, hc⟩ hy.2.1 with
        ⟨h', h | ⟨k, hk, hp, c', z', he, hc'⟩⟩ | ⟨h', h | ⟨hdiv, h⟩⟩ | ⟨h', h | ⟨hdiv, h⟩⟩
      · -- an SQL statement stops at `;` or `}`
        exfalso
        cases s' with
        | nil =>
          have := hs'nil rfl
          subst this
          exact (hlast (t, _) rfl).1 (hty ▸ h)
        | cons e s'' =>
          have hsql := hcl.2.1
          rw [hrt.2.1 h] at hsql
          have hy' := hy.2.1
          rw [hr't.2.1 h'] at hy'
          obtain ⟨_, _, _, _, _, _, _, n1, n2⟩ := sqlStmt_split hy'
          have := hn.maximal sqlRule_mem rfl (y := t.text ++ [e]) (by simp)
            (sqlStmt_extend hsql (fun h => n1 (by simp [h])) (fun h => n2 (by simp [h])))
          simp at this; omega
      · exfalso
        have hwordx : ∀ d ∈ t.text, isWord d = true := fun d hd =>
          hk.wordy sqlKw_wordy d (hp.subset hd)
        obtain ⟨m, rfl⟩ := hp
        cases m with
        | nil =>
          simp at hk
          exact hverb (t, h) (by simp) (verb_ty hn hk)
        | cons e m =>
          rw [List.append_assoc] at he
          have he := List.append_cancel_left he
          simp at he
          have hew : isWord e = true := hk.wordy sqlKw_wordy e (by simp)
          rcases hhead e (by rw [he]; simp) with ⟨_, rfl⟩ | ⟨s'', rfl⟩
          · rw [hnw] at hew; cases hew
          · have : Lang Lx.ident (t.text ++ [e]) := by
              rw [ident_iff]
              have hne := hn.2.1
              obtain ⟨a, x', hx⟩ := List.exists_cons_of_ne_nil hne
              refine ⟨a, x' ++ [e], by simp [hx], ?_, ?_⟩
              · apply verbInitials_letter
                rw [hx] at hk
                exact sqlKw_start (x := x' ++ e :: m) (by simpa using hk)
              · intro d hd
                rcases List.mem_append.1 hd with hd | hd
                · exact hwordx d (by simp [hx, hd])
                · simp at hd; subst hd; exact hew
            have := hn.maximal rule_mem_ident rfl (y := t.text ++ [e]) (by simp) this
            simp at this; omega
      · left
        exact ⟨hr't.2.2.2.2.2.2.2.1.2 h', by rw [h', ← hty, h]⟩
      · exfalso
        rcases hhead '*' h with ⟨_, rfl⟩ | ⟨s'', rfl⟩
        · revert hc; decide
        · cases l₁ with
          | nil => simp at hs'
          | cons q l₁ =>
            apply hds
            obtain ⟨rest, hn', _⟩ := ht.cons_inv
            · obtain ⟨t', h''⟩ := q
              simp only at hn'
              have : t'.ty = .STAR := by
                obtain ⟨r1, hr1, hty1, _, hcl1⟩ := hn'.rule
                rw [← hty1]
                apply star_start r1 hr1
                have h1 := hn'.1
                have h2 := hn'.2.1
                cases hx : t'.text with
                | nil => exact absurd hx h2
                | cons f x =>
                  rw [hx] at h1
                  simp at h1
                  obtain ⟨rfl, _⟩ := h1
                  have := hcl1.2.1
                  rw [hx] at this
                  exact this.starts
              exact ⟨[], l₁.map (·.1.ty), by simp [this, ← hty, hdiv]⟩
      · exfalso
        cases s' with
        | nil =>
          have := hs'nil rfl
          subst this
          exact (hlast (t, _) rfl).2.1 (hty ▸ h)
        | cons e s'' =>
          have hline := hcl.2.1
          rw [hrt.2.2.2.2.2.1 h] at hline
          have hy' := hy.2.1
          rw [hr't.2.2.2.2.2.1 h'] at hy'
          obtain ⟨b, hb, n1, n2⟩ := line_iff.1 hy'
          obtain ⟨b1, hb1, n3, n4⟩ := line_iff.1 hline
          rw [hb1] at hb
          simp at hb
          subst hb
          simp at n1 n2
          have := hn.maximal comment_start.2.1 rfl (y := t.text ++ [e]) (by simp)
            (line_iff.2 ⟨b1 ++ [e], by simp [hb1],
              by simp; exact ⟨n3, fun h => n1.2.1 h⟩,
              by simp; exact ⟨n4, fun h => n2.2.1 h⟩⟩)
          simp at this; omega
      · exfalso
        rcases hhead '/' h with ⟨h0, rfl⟩ | ⟨s'', rfl⟩
        · have := hs'nil h0
          subst this
          exact (hlast (t, _) rfl).2.2 rfl (hty ▸ hdiv)
        · have hx := hcl.2.1
          rw [hrt.2.2.2.2.2.2.1 hdiv, lang_ch] at hx
          have := hn.maximal comment_start.2.1 rfl (y := t.text ++ ['/']) (by simp)
            (line_iff.2 ⟨[], by simp [hx], by simp, by simp⟩)
          simp at this; omega


theorem Without.toks {p q : Program} {bs ys as : List Tok} (h : Without p q bs ys as) :
    p.toks = bs ++ ys ++ as ∧ q.toks = bs ++ as := by
  cases h <;> simp [Program.toks]

theorem Without.ends {p q : Program} {bs ys as : List Tok} (h : Without p q bs ys as) :
    ∃ l c, bs = l ++ [c] ∧ (c = kw .SCOL ∨ c = kw .R_BRACE) := by
  cases h <;> exact Program.toks_last _

theorem tokenises_drop {l₁ : List (Tok × Bool)} : ∀ {s : Str} {l₂ : List (Tok × Bool)},
    Tokenises s (l₁ ++ l₂) → Tokenises (l₂.flatMap (·.1.text)) l₂ := by
  induction l₁ with
  | nil => intro s l₂ h; have := h.text; simp only [List.nil_append] at h this; rw [this]; exact h
  | cons p l₁ ih =>
    intro s l₂ h
    obtain ⟨rest, _, hr⟩ := h.cons_inv
    exact ih hr

theorem visible_start : ∀ r ∈ lexRules, r.hidden = false →
    r.re.deriv '\n' = .none ∧ r.re.deriv '\r' = .none := by decide +kernel

/-- Before a token there is no line comment that could go on, and no open
statement. -/
theorem last_calm {la : List (Tok × Bool)} {u : Tok} : ∀ {s : Str} {l : List (Tok × Bool)},
    Tokenises s (la ++ (u, false) :: l) → ∀ p, la.getLast? = some p → p.1.ty ≠ .LINE_COMMENT := by
  intro s l h p hp hty
  obtain ⟨m, rfl⟩ : ∃ m, la = m ++ [p] := List.getLast?_eq_some_iff.1 hp
  have h := tokenises_drop (l₁ := m) (l₂ := p :: (u, false) :: l) (by simpa using h)
  obtain ⟨rest, hn, hr⟩ := h.cons_inv
  obtain ⟨rest', hn', _⟩ := hr.cons_inv
  have hs := hn.1
  rw [hs] at hn
  obtain ⟨r, hrm, _, hh, hcl⟩ := hn'.rule
  have hu := hn'.1
  cases hx : u.text with
  | nil => exact absurd hx hn'.2.1
  | cons e x =>
    rw [hx] at hu
    have he := hn.line_end hty (c := e) (by rw [hu]; rfl)
    have hst := hcl.2.1
    simp only at hst
    rw [hx] at hst
    have hst := hst.starts
    have := visible_start r hrm hh
    rcases he with rfl | rfl
    · exact hst this.1
    · exact hst this.2

/-- The text with layout in the place of a declaration. -/
theorem writes_without {a d b : Str} {p q : Program} {bs ys as : List Tok} (hw : Without p q bs ys as)
    (hp : Parts a d b bs ys as) {c : Char} {sep : Str} (hsep : Layout (c :: sep)) {b' : Str}
    (hb : b = b' ∨ b = '\n' :: b') : Writes (a ++ (c :: sep) ++ b') q := by
  obtain ⟨la, ld, lb, ht, ha, hd, h1, h2, h3, hf⟩ := hp.split
  obtain ⟨ep, eq⟩ := hw.toks
  have hv : visible (la ++ ld ++ lb) = p.toks := by rw [visible_append, visible_append, h1, h2, h3, ep]
  obtain ⟨hverb, hds⟩ := sentence_calm ht (by rw [hv]; exact p.sentence)
  have hlb : ∃ lb', Tokenises b' lb' ∧ visible lb' = as := by
    have := tokenises_drop ht
    have htx := ht.text
    simp only [List.flatMap_append, ha, hd] at htx
    rw [List.append_cancel_left htx] at this
    rcases hb with rfl | rfl
    · exact ⟨lb, this, h3⟩
    · cases this with
      | @cons _ rest t h l hn hr =>
        obtain ⟨t', hn', _⟩ := isNext_blank (c := '\n') (by decide) b'
        obtain ⟨_, rfl, rfl⟩ := hn.unique hn'
        exact ⟨l, hr, by simpa [visible] using h3⟩
  obtain ⟨lb', hlb', hvb⟩ := hlb
  cases ld with
  | nil => simp at hf
  | cons u ld =>
  obtain ⟨u, hu⟩ := u
  simp only [List.head?_cons, Option.map_some, Option.some.injEq] at hf
  subst hf
  have hlast : ∀ p, la.getLast? = some p → p.1.ty ≠ .SQL_STMT ∧ p.1.ty ≠ .LINE_COMMENT ∧
      (c = '/' → p.1.ty ≠ .DIV) := by
    intro x hx
    have hline := last_calm (la := la) (u := u) (l := ld ++ lb) (by simpa using ht) x hx
    have hmem : x ∈ la := List.mem_of_getLast? hx
    have hcases : x.1.ty ∈ [TT.WS, .TERMINATOR, .BLOCK_COMMENT, .LINE_COMMENT] ∨ x.1.ty = .SCOL ∨
        x.1.ty = .R_BRACE := by
      cases hxb : x.2 with
      | true => exact .inl ((ht.hidden x (by simp [hmem])).1 hxb)
      | false =>
        right
        obtain ⟨l, z, hz, hzc⟩ := hw.ends
        obtain ⟨m, rfl⟩ : ∃ m, la = m ++ [x] := List.getLast?_eq_some_iff.1 hx
        have : visible [x] = [x.1] := by simp [visible, hxb]
        rw [visible_append, this, hz] at h1
        have := (List.append_inj' h1 rfl).2
        simp only [List.cons.injEq, and_true] at this
        rw [this]
        rcases hzc with rfl | rfl
        · exact .inl rfl
        · exact .inr rfl
    refine ⟨?_, hline, fun _ => ?_⟩ <;>
    · intro e
      rw [e] at hcases
      revert hcases
      decide
  obtain ⟨k, hk, hvk⟩ := put_layout (s₂ := d ++ b) (l₂ := (u, false) :: ld ++ lb) hsep hlb' la a
    (by simpa using ht) ha hlast (fun p hp => hverb p (by simp [hp]))
    (fun hi => hds (hi.trans (by
      rw [List.append_assoc, List.map_append]
      exact (List.prefix_append _ _).isInfix)))
  refine ⟨la ++ k ++ lb', by simpa using hk, ?_⟩
  rw [visible_append, visible_append, h1, hvk, hvb, eq, List.append_nil]

theorem layout_block {d : Str} (h : ¬ ['*', '/'] <:+: d) :
    Layout ('/' :: ('*' :: d ++ "*/".toList)) := by
  have hb : ¬ ['*', '/'] <:+: d ++ ['*'] := by
    rintro ⟨u, v, e⟩
    rcases List.eq_nil_or_concat v with rfl | ⟨v, z, rfl⟩
    · have := (List.append_inj' (s₁ := u ++ ['*']) (t₁ := ['/']) (s₂ := d) (t₂ := ['*'])
        (by simpa using e) rfl).2
      simp at this
    · rw [List.concat_eq_append, ← List.append_assoc] at e
      exact h ⟨u, v, (List.append_inj' e rfl).1⟩
  have := Layout.block hb .nil
  simpa using this

theorem layout_lines (d : Str) : ∀ body : Str, '\n' ∉ body → '\r' ∉ body → '\r' ∉ d →
    Layout ("//".toList ++ body ++ (d.flatMap fun c => if c = '\n' then "\n//".toList else [c]) ++ ['\n']) := by
  induction d with
  | nil =>
    intro body h1 h2 _
    simpa using Layout.line h1 h2 .nil
  | cons c d ih =>
    intro body h1 h2 h3
    simp only [List.mem_cons, not_or] at h3
    by_cases hc : c = '\n'
    · subst hc
      have := Layout.line h1 h2 (ih [] (by simp) (by simp) h3.2)
      simpa using this
    · have := ih (body ++ [c]) (by simp [h1, Ne.symm hc]) (by simp [h2, h3.1]) h3.2
      simpa [hc] using this

/-- Every declaration has a place in the text. -/
theorem parts_exist {s : Str} {p q : Program} {bs ys as : List Tok} (hp : Writes s p)
    (hw : Without p q bs ys as) (hne : ys ≠ []) : ∃ a d b, s = a ++ d ++ b ∧ Parts a d b bs ys as := by
  have cut : ∀ {l : List (Tok × Bool)} {A B : List Tok}, visible l = A ++ B →
      ∃ l₁ l₂, l = l₁ ++ l₂ ∧ visible l₁ = A ∧ visible l₂ = B ∧
        (B ≠ [] → l₂.head?.map (·.2) = some false) := by
    intro l
    induction l with
    | nil =>
      intro A B h
      have h := h.symm
      simp only [visible, List.filter_nil, List.map_nil, List.append_eq_nil_iff] at h
      exact ⟨[], [], rfl, h.1.symm, h.2.symm, fun hB => absurd h.2 hB⟩
    | cons x l ih =>
      intro A B h
      obtain ⟨t, hd⟩ := x
      cases hd with
      | true =>
        have e : visible ((t, true) :: l) = visible l := rfl
        rw [e] at h
        obtain ⟨l₁, l₂, rfl, h1, h2, h3⟩ := ih h
        exact ⟨(t, true) :: l₁, l₂, rfl, h1, h2, h3⟩
      | false =>
        have e : visible ((t, false) :: l) = t :: visible l := rfl
        cases A with
        | nil => exact ⟨[], (t, false) :: l, rfl, rfl, h, fun _ => rfl⟩
        | cons u A =>
          rw [e, List.cons_append] at h
          injection h with h0 h
          subst h0
          obtain ⟨l₁, l₂, rfl, h1, h2, h3⟩ := ih h
          exact ⟨(t, false) :: l₁, l₂, rfl, by rw [← h1]; rfl, h2, h3⟩
  obtain ⟨l, ht, hv⟩ := hp
  rw [hw.toks.1, List.append_assoc] at hv
  obtain ⟨l₁, l₂, rfl, h1, h2, hf⟩ := cut hv
  have hf := hf (by simp [hne])
  obtain ⟨l₃, l₄, rfl, h3, h4, _⟩ := cut h2
  have hl₃ : l₃ ≠ [] := by rintro rfl; exact hne h3.symm
  have htx := ht.text
  simp only [List.flatMap_append] at htx
  refine ⟨_, _, _, (by simpa using htx.symm), ⟨l₁, l₃, l₄, ?_, rfl, rfl, h1, h3, h4, ?_⟩⟩
  · have : l₁.flatMap (·.1.text) ++ l₃.flatMap (·.1.text) ++ l₄.flatMap (·.1.text) = s := by simpa using htx
    rw [this]
    simpa using ht
  · cases l₃ with
    | nil => exact absurd rfl hl₃
    | cons x l₃ => simpa using hf

end Verif
