import Verif.Proof.ParseKF
import Verif.Proof.Insert
import Verif.Spec.Truncate
/-!
# Texts that break off

The tokens of a prefix of a text, and the declarations among the tokens of a
prefix of a program's tokens.
-/

namespace Verif

/-! ## Tokens of a prefix -/

/-- A token does not depend on how far the text after it goes on. -/
theorem IsNext.cut {t : Tok} {h : Bool} {o n : Str} (hn : IsNext (t.text ++ o) t h o)
    (hp : n <+: o) : IsNext (t.text ++ n) t h n :=
  hn.transfer fun _ _ _ hy _ => .inr (hy.1.trans ((List.prefix_append_right_inj _).2 hp))

theorem isNext_nil {t : Tok} {h : Bool} {rest : Str} : ¬ IsNext [] t h rest := by
  intro hn
  have := hn.length
  simp at this

/-- The tokens of a prefix are those of the text that lie inside, and those of
what is left of the token the prefix ends in. -/
theorem tokenises_prefix {s : Str} {l : List (Tok × Bool)} (h : Tokenises s l) :
    ∀ {x : Str} {m : List (Tok × Bool)}, x <+: s → Tokenises x m →
      m <+: l ∨ ∃ l₁ t hd l₂ y k, l = l₁ ++ (t, hd) :: l₂ ∧ m = l₁ ++ k ∧ y <+: t.text ∧
        y ≠ [] ∧ y ≠ t.text ∧ Tokenises y k := by
  induction h with
  | nil =>
    intro x m hx hm
    have : x = [] := by simpa using hx
    subst this
    cases hm with
    | nil => exact .inl (List.prefix_refl _)
    | cons hn _ => exact absurd hn isNext_nil
  | @cons s rest t hd l hn ht ih =>
    intro x m hx hm
    have hs := hn.1
    subst hs
    by_cases hlt : x.length < t.text.length
    · have hy : x <+: t.text := prefix_of_le hx (List.prefix_append _ _) (by omega)
      cases hm with
      | nil => exact .inl (List.nil_prefix)
      | @cons _ rest' u hu l' hn' ht' =>
        right
        refine ⟨[], t, hd, l, x, _, rfl, rfl, hy, ?_, ?_, .cons hn' ht'⟩
        · rintro rfl; exact isNext_nil hn'
        · rintro rfl; omega
    · obtain ⟨n, rfl⟩ := prefix_of_le (List.prefix_append t.text rest) hx (by omega)
      have hp : n <+: rest := (List.prefix_append_right_inj _).1 hx
      have hc := hn.cut hp
      generalize hz : t.text ++ n = z at hm hc
      cases hm with
      | nil => exact absurd hc isNext_nil
      | @cons _ rest' u hu l' hn' ht' =>
        obtain ⟨rfl, rfl, rfl⟩ := hn'.unique hc
        rcases ih hp ht' with hm | ⟨l₁, t', hd', l₂, y, k, rfl, rfl, h1, h2, h3, h4⟩
        · exact .inl (by simpa using hm)
        · exact .inr ⟨(u, hu) :: l₁, t', hd', l₂, y, k, rfl, rfl, h1, h2, h3, h4⟩

/-! ## The token that is cut -/

theorem rules_closing : ∀ r ∈ lexRules,
    (r.re.canContain ';' = true ∨ r.re.canContain '}' = true) →
    (r.ty = .SCOL ∧ r.re = Lx.ch ';') ∨ (r.ty = .R_BRACE ∧ r.re = Lx.ch '}') ∨
    r.ty ∈ [TT.STRING_LITERAL, .BLOCK_COMMENT, .LINE_COMMENT] := by decide +kernel

theorem rules_star : ∀ r ∈ lexRules, r.re.deriv '*' ≠ .none → r.ty = .STAR ∧ r.re = Lx.ch '*' ∧
    r.hidden = false := by
  decide +kernel

theorem closing_text {t : Tok} (h : t.ty = .SCOL ∨ t.ty = .R_BRACE) (hl : Lexeme t false) :
    t.text = [';'] ∨ t.text = ['}'] := by
  rcases h with h | h
  · exact .inl (IsNext.form hl |>.1 _ (by rw [h]; rfl))
  · exact .inr (IsNext.form hl |>.1 _ (by rw [h]; rfl))

theorem visible_mem {l : List (Tok × Bool)} {t : Tok} (h : t ∈ visible l) : (t, false) ∈ l := by
  simp only [visible, List.mem_map, List.mem_filter] at h
  obtain ⟨⟨u, b⟩, ⟨h1, h2⟩, rfl⟩ := h
  simp at h2
  subst h2
  exact h1

/-- What is left of a cut token has no visible token, or begins like a comment
that is not closed, unless it lacks a semicolon and a brace. -/
theorem cut_token {t : Tok} {hd : Bool} (ht : Lexeme t hd) {y : Str} {k : List (Tok × Bool)}
    (hy : y <+: t.text) (hne : y ≠ t.text) (hk : Tokenises y k)
    {c : Tok} (hc : c ∈ visible k) (hcl : c.text = [';'] ∨ c.text = ['}']) :
    ∃ a b k', k = (⟨.DIV, a⟩, false) :: (⟨.STAR, b⟩, false) :: k' := by
  have hmem : ∀ d ∈ c.text, d ∈ y := by
    intro d hd
    rw [← hk.text, List.mem_flatMap]
    exact ⟨_, visible_mem hc, hd⟩
  obtain ⟨r, hr, hty, hh, hrc⟩ := ht.rule
  obtain ⟨v, hv⟩ := hy
  have hvne : v ≠ [] := by rintro rfl; simp at hv; exact hne hv
  have hl := hrc.2.1
  have hcan : r.re.canContain ';' = true ∨ r.re.canContain '}' = true := by
    rcases hcl with h | h
    · exact .inl (hl.canContain (by rw [← hv]; exact List.mem_append_left _ (hmem _ (by simp [h]))))
    · exact .inr (hl.canContain (by rw [← hv]; exact List.mem_append_left _ (hmem _ (by simp [h]))))
  have hcc : ';' ∈ y ∨ '}' ∈ y := by
    rcases hcl with h | h
    · exact .inl (hmem _ (by simp [h]))
    · exact .inr (hmem _ (by simp [h]))
  have hyne : y ≠ [] := by rintro rfl; simp at hcc
  have one : ∀ a : Char, t.text ≠ [a] := by
    intro a ha
    rw [ha] at hv
    cases y with
    | nil => exact hyne rfl
    | cons b y =>
      cases v with
      | nil => exact hvne rfl
      | cons d v => simp at hv
  cases hk with
  | nil => exact absurd rfl hyne
  | @cons _ rest u hu k hn hk =>
  obtain ⟨r', hr', hty', hh', hrc'⟩ := hn.rule
  rcases rules_closing r hr hcan with ⟨_, he⟩ | ⟨_, he⟩ | hmemty
  · rw [he, lang_ch] at hl; exact absurd hl (one _)
  · rw [he, lang_ch] at hl; exact absurd hl (one _)
  simp only [List.mem_cons, List.not_mem_nil, or_false] at hmemty
  have tr := rules_by_ty r hr
  rcases hmemty with h | h | h
  · -- a string
    exfalso
    rw [tr.1 h] at hl
    obtain ⟨z, hz, _⟩ := string_tail.1 hl
    have hu0 : ∃ w, u.text = '\'' :: w := by
      have h1 := hn.1
      have h2 := hn.2.1
      cases hu : u.text with
      | nil => exact absurd hu h2
      | cons a w =>
        rw [hu] at h1
        rw [h1, hz] at hv
        simp at hv
        exact ⟨w, by rw [hv.1]⟩
    obtain ⟨w, hw⟩ := hu0
    have hl' := hrc'.2.1
    have hs := rules_quote r' hr' (by rw [hw] at hl'; exact hl'.starts)
    rw [(rules_by_ty r' hr').1 hs] at hl'
    have h1 := hn.1
    rw [← hv, h1, List.append_assoc] at hl
    have := string_prefix hl' hl
    simp at this
    exact hvne this.2
  · -- a block comment
    rw [tr.2.2.2.2.1 h] at hl
    obtain ⟨b, hb⟩ := block_iff.1 hl
    have hlazy := tr.2.2.2.2.2.2.2.1.2 h
    have short : ∀ y', y' <+: y → ¬ Lang Lx.blockComment y' := by
      intro y' hp hy'
      have := hrc.2.2 y' (hp.trans ⟨v, hv⟩) (by rw [tr.2.2.2.2.1 h]; exact hy')
      simp only [hlazy, if_true] at this
      have h2 := hp.length_le
      have h3 := congrArg List.length hv
      have := List.length_pos_iff.2 hvne
      simp at h3
      omega
    -- the first two characters
    have h0 : ∃ y', y = '/' :: '*' :: y' := by
      match y, hv with
      | [], _ => exact absurd rfl hyne
      | [a], hv =>
        rw [hb] at hv
        simp at hv
        obtain ⟨rfl, _⟩ := hv
        exact absurd hcc (by decide)
      | a :: d :: y', hv =>
        rw [hb] at hv
        simp at hv
        obtain ⟨rfl, rfl, _⟩ := hv
        exact ⟨y', rfl⟩
    obtain ⟨y', rfl⟩ := h0
    have hu1 : u = ⟨.DIV, ['/']⟩ ∧ hu = false := by
      have h1 := hn.1
      have h2 := hn.2.1
      obtain ⟨ty, txt⟩ := u
      cases txt with
      | nil => exact absurd rfl h2
      | cons a w =>
        simp at h1
        obtain ⟨rfl, h1⟩ := h1
        have hl' := hrc'.2.1
        simp only at hl' hty' hrc'
        have hs := rules_slash r' hr' hl'.starts
        have tr' := rules_by_ty r' hr'
        simp only [List.mem_cons, List.not_mem_nil, or_false] at hs
        rcases hs with hs | hs | hs
        · rw [tr'.2.2.2.2.2.2.1 hs, lang_ch] at hl'
          simp at hl'
          subst hl'
          refine ⟨by rw [← hty', hs], ?_⟩
          rw [← hh']
          cases hb' : r'.hidden with
          | false => rfl
          | true => have := tr'.2.2.2.2.2.2.2.2.1 hb'; rw [hs] at this; simp at this
        · rw [tr'.2.2.2.2.1 hs] at hl'
          exact absurd hl' (short _ hrc'.1)
        · rw [tr'.2.2.2.2.2.1 hs] at hl'
          obtain ⟨b', hb', _⟩ := line_iff.1 hl'
          simp at hb'
          rw [hb'] at h1
          simp at h1
    obtain ⟨rfl, rfl⟩ := hu1
    have hrest : rest = '*' :: y' := by
      have := hn.1
      simp at this
      exact this.symm
    subst hrest
    cases hk with
    | @cons _ rest2 u2 hu2 k2 hn2 hk2 =>
      obtain ⟨r2, hr2, hty2, hh2, hrc2⟩ := hn2.rule
      have h1 := hn2.1
      have h2 := hn2.2.1
      obtain ⟨ty, txt⟩ := u2
      cases txt with
      | nil => exact absurd rfl h2
      | cons a w =>
        simp at h1
        obtain ⟨rfl, _⟩ := h1
        obtain ⟨g1, _, g3⟩ := rules_star r2 hr2 hrc2.2.1.starts
        refine ⟨['/'], '*' :: w, k2, ?_⟩
        rw [← hh2, g3]
        simp only at hty2
        rw [← hty2, g1]
  · -- a line comment
    exfalso
    rw [tr.2.2.2.2.2.1 h] at hl
    obtain ⟨b, hb, n1, n2⟩ := line_iff.1 hl
    have hline : Lang Lx.lineComment y := by
      match y, hv with
      | [], _ => exact absurd rfl hyne
      | [a], hv =>
        rw [hb] at hv
        simp at hv
        obtain ⟨rfl, _⟩ := hv
        exact absurd hcc (by decide)
      | a :: d :: y', hv =>
        rw [hb] at hv
        simp at hv
        obtain ⟨rfl, rfl, hv⟩ := hv
        subst hv
        simp at n1 n2
        exact line_iff.2 ⟨y', rfl, n1.1, n2.1⟩
    have hmax := hn.maximal hr (by
      cases hz : r.lazy with
      | false => rfl
      | true => have := tr.2.2.2.2.2.2.2.1.1 hz; rw [h] at this; cases this) (List.prefix_refl y)
      (by rw [tr.2.2.2.2.2.1 h]; exact hline)
    have hrest : rest = [] := by
      have := congrArg List.length hn.1
      simp at this
      exact List.eq_nil_of_length_eq_zero (by omega)
    subst hrest
    cases hk with
    | cons hn' _ => exact absurd hn' isNext_nil
    | nil =>
      have hcu : c = u := by
        have := visible_mem hc
        simp at this
        exact this.1
      subst hcu
      have h1 := hn.1
      simp at h1
      obtain ⟨b', hb', _⟩ := line_iff.1 hline
      rw [h1] at hb'
      rcases hcl with h | h <;> simp [h] at hb'

/-! ## Declarations among the tokens -/

/-- The tokens of one declaration: up to the first semicolon if it begins with
`use`, otherwise up to the first closing brace. -/
def Whole (u : List Tok) : Prop :=
  (∃ a, u = kw .USE_ :: a ++ [kw .SCOL] ∧ ∀ t ∈ a, t.ty ≠ .SCOL) ∨
  (∃ b a, u = b :: a ++ [kw .R_BRACE] ∧ b.ty ≠ .USE_ ∧ ∀ t ∈ b :: a, t.ty ≠ .R_BRACE)

theorem split_first {a b x y : List Tok} {c : Tok} (ha : ∀ t ∈ a, t.ty ≠ c.ty)
    (hb : ∀ t ∈ b, t.ty ≠ c.ty) (h : a ++ [c] ++ x = b ++ [c] ++ y) : a = b ∧ x = y := by
  induction a generalizing b with
  | nil =>
    cases b with
    | nil => simpa using h
    | cons d b =>
      simp at h
      exact absurd (by rw [h.1]) (hb d (by simp))
  | cons e a ih =>
    cases b with
    | nil =>
      simp at h
      exact absurd (by rw [h.1]) (ha e (by simp))
    | cons d b =>
      simp only [List.cons_append, List.cons.injEq] at h
      obtain ⟨rfl, h⟩ := h
      obtain ⟨rfl, h2⟩ := ih (fun t ht => ha t (by simp [ht])) (fun t ht => hb t (by simp [ht])) h
      exact ⟨rfl, h2⟩

theorem Whole.unique {u v x y : List Tok} (hu : Whole u) (hv : Whole v) (h : u ++ x = v ++ y) :
    u = v ∧ x = y := by
  rcases hu with ⟨a, rfl, ha⟩ | ⟨b, a, rfl, hb, ha⟩ <;> rcases hv with ⟨a', rfl, ha'⟩ | ⟨b', a', rfl, hb', ha'⟩
  · simp only [List.cons_append, List.cons.injEq, true_and] at h
    obtain ⟨rfl, rfl⟩ := split_first ha ha' h
    exact ⟨rfl, rfl⟩
  · simp only [List.cons_append, List.cons.injEq] at h
    exact absurd (by rw [← h.1]; rfl) hb'
  · simp only [List.cons_append, List.cons.injEq] at h
    exact absurd (by rw [h.1]; rfl) hb
  · obtain ⟨h1, rfl⟩ := split_first ha ha' h
    rw [h1]
    exact ⟨rfl, rfl⟩

theorem Whole.ne_nil {u : List Tok} (hu : Whole u) : u ≠ [] := by
  rcases hu with ⟨a, rfl, _⟩ | ⟨b, a, rfl, _⟩ <;> simp

theorem flatten_prefix {us vs : List (List Tok)} (hu : ∀ u ∈ us, Whole u) (hv : ∀ v ∈ vs, Whole v)
    (h : us.flatten <+: vs.flatten) : us <+: vs := by
  induction us generalizing vs with
  | nil => exact List.nil_prefix
  | cons u us ih =>
    obtain ⟨z, hz⟩ := h
    cases vs with
    | nil =>
      simp at hz
      exact absurd hz.1 (hu u (by simp)).ne_nil
    | cons v vs =>
      simp only [List.flatten_cons, List.append_assoc] at hz
      obtain ⟨rfl, h2⟩ := (hu u (by simp)).unique (hv v (by simp)) hz
      have := ih (fun u h => hu u (by simp [h])) (fun u h => hv u (by simp [h])) ⟨z, h2⟩
      simpa using this

/-- The declarations of a program, as tokens. -/
def Program.units (p : Program) : List (List Tok) := p.exts.map ExtDecl.toks ++ p.decls.map Decl.toks

theorem Program.toks_units (p : Program) :
    p.toks = [kw .DATABASE_, idTok p.name, kw .SCOL] ++ p.units.flatten := by
  simp [Program.toks, Program.units, List.flatMap_def]

theorem Program.units_take (p : Program) (n : Nat) : (p.take n).units = p.units.take n := by
  simp [Program.units, Program.take, List.take_append, List.map_take]

theorem lit_plain (l : Lit) : l.tok.ty ∉ [TT.SCOL, .R_BRACE, .SQL_STMT] := by
  cases l <;> simp [Lit.tok, numTok]

theorem ne_toks {α : Type} {f : α → List Tok} {x : NE α} {t : Tok} (h : t ∈ x.toks f) :
    t = kw .COMMA ∨ ∃ y ∈ x.list, t ∈ f y := by
  simp only [NE.toks, List.mem_append, List.mem_flatMap, List.mem_cons] at h
  rcases h with h | ⟨y, hy, rfl | h⟩
  · exact .inr ⟨_, by simp [NE.list], h⟩
  · exact .inl rfl
  · exact .inr ⟨y, by simp [NE.list, hy], h⟩

theorem commaList_toks {α : Type} {f : α → List Tok} {x : CommaList α} {t : Tok} (h : t ∈ x.toks f) :
    t = kw .COMMA ∨ ∃ y, t ∈ f y := by
  simp only [CommaList.toks, List.mem_append, List.mem_flatMap, List.mem_cons] at h
  rcases h with ⟨y, _, h⟩ | ⟨y, hy, rfl | h⟩
  · exact .inr ⟨_, h⟩
  · exact .inl rfl
  · exact .inr ⟨y, h⟩

theorem pair_plain {sep : TT} (hs : sep ∈ [TT.COL, .ASSIGN]) {p : Pair} {t : Tok} (h : t ∈ p.toks sep) :
    t.ty ∉ [TT.SCOL, .R_BRACE, .SQL_STMT] := by
  simp only [Pair.toks, List.mem_cons, List.not_mem_nil, or_false] at h
  rcases h with rfl | rfl | rfl
  · simp [idTok]
  · simp at hs; rcases hs with rfl | rfl <;> decide
  · exact lit_plain _

theorem col_plain {c : ColDecl} {t : Tok} (h : t ∈ c.toks) : t.ty ∉ [TT.SCOL, .R_BRACE, .SQL_STMT] := by
  simp only [ColDecl.toks, List.mem_append, List.mem_cons, List.mem_flatMap, List.not_mem_nil,
    or_false] at h
  rcases h with (rfl | rfl) | ⟨k, _, h⟩
  · simp [idTok]
  · cases c.type <;> decide
  · cases k <;> simp only [Constraint.toks, List.mem_cons, List.not_mem_nil, or_false] at h
    case default l => rcases h with rfl | rfl | rfl | rfl <;> first | decide | exact lit_plain _
    all_goals first
      | (rcases h with rfl | rfl | rfl | rfl <;> simp [kw, numTok])
      | (subst h; decide)

theorem names_plain {x : NE Str} {t : Tok} (h : t ∈ parenNames x) : t.ty ∉ [TT.SCOL, .R_BRACE, .SQL_STMT] := by
  simp only [parenNames, List.mem_append, List.mem_cons, List.not_mem_nil, or_false] at h
  rcases h with (rfl | h) | rfl
  · decide
  · rcases ne_toks h with rfl | ⟨y, _, h⟩
    · decide
    · simp at h; subst h; simp [idTok]
  · decide

theorem item_plain {i : TableItem} {t : Tok} (h : t ∈ i.toks) : t.ty ∉ [TT.SCOL, .R_BRACE, .SQL_STMT] := by
  cases i with
  | index i =>
    simp only [TableItem.toks, IdxDecl.toks, List.mem_append, List.mem_cons, List.not_mem_nil,
      or_false] at h
    rcases h with (rfl | rfl) | h
    · simp
    · cases i.kind <;> decide
    · exact names_plain h
  | fk f =>
    simp only [TableItem.toks, FkDecl.toks, List.mem_append, List.mem_cons, List.not_mem_nil,
      or_false, List.mem_flatMap] at h
    rcases h with (((rfl | h) | rfl | rfl) | h) | ⟨a, _, h⟩
    · cases f.short <;> decide
    · exact names_plain h
    · cases f.shortRef <;> decide
    · simp [idTok]
    · exact names_plain h
    · obtain ⟨on, wd, act⟩ := a
      cases on <;> cases wd <;> cases act <;> simp [FkAct.toks, kw, FkOn.tok, FkDo.tok] at h <;> 
        first
        | (rcases h with rfl | rfl | rfl <;> decide)
        | (rcases h with rfl | rfl <;> decide)

theorem expr_plain {b : Bool} {e : Expr b} {t : Tok} (h : t ∈ e.toks) : t.ty ∉ [TT.SCOL, .R_BRACE, .SQL_STMT] := by
  induction e with
  | lit l => simp [Expr.toks] at h; subst h; exact lit_plain _
  | var s => simp [Expr.toks] at h; subst h; simp [varTok]
  | block s => simp [Expr.toks] at h; subst h; simp
  | paren e ih =>
    simp only [Expr.toks, List.mem_append, List.mem_singleton] at h
    rcases h with (rfl | h) | rfl
    · decide
    · exact ih h
    · decide
  | un o e ih =>
    simp only [Expr.toks, List.mem_cons] at h
    rcases h with rfl | h
    · cases o <;> decide
    · exact ih h
  | not e ih =>
    simp only [Expr.toks, List.mem_cons] at h
    rcases h with rfl | h
    · decide
    · exact ih h
  | fn0 n =>
    simp only [Expr.toks, List.mem_cons, List.not_mem_nil, or_false] at h
    rcases h with rfl | rfl | rfl <;> simp [idTok, kw]
  | fnStar n =>
    simp only [Expr.toks, List.mem_cons, List.not_mem_nil, or_false] at h
    rcases h with rfl | rfl | rfl | rfl <;> simp [idTok, kw]
  | fn n as ih =>
    simp only [Expr.toks, List.mem_append, List.mem_cons, List.not_mem_nil, or_false] at h
    rcases h with ((rfl | rfl) | h) | rfl
    · simp [idTok]
    · decide
    · exact ih h
    · decide
  | bin l o r ih1 ih2 =>
    simp only [Expr.toks, List.mem_append, List.mem_singleton] at h
    rcases h with (h | rfl) | h
    · exact ih1 h
    · cases o <;> decide
    · exact ih2 h
  | one e ih => exact ih h
  | more e es ih1 ih2 =>
    simp only [Expr.toks, List.mem_append, List.mem_singleton] at h
    rcases h with (h | rfl) | h
    · exact ih1 h
    · decide
    · exact ih2 h

theorem stmt_plain {s : Stmt} {t : Tok} (h : t ∈ s.toks) : t.ty ≠ .R_BRACE := by
  cases s with
  | sql text =>
    simp only [Stmt.toks, List.mem_cons, List.not_mem_nil, or_false] at h
    rcases h with rfl | rfl
    · simp
    · decide
  | call rs ext m args =>
    simp only [Stmt.toks, List.mem_append, List.mem_cons, List.not_mem_nil, or_false] at h
    rcases h with (((h | h) | rfl | rfl) | h) | rfl | rfl
    · cases rs with
      | none => simp at h
      | some rs =>
        simp only [List.mem_append, List.mem_cons, List.not_mem_nil, or_false] at h
        rcases h with h | rfl
        · rcases ne_toks h with rfl | ⟨y, _, h⟩
          · decide
          · simp at h; subst h; simp [varTok]
        · decide
    · cases ext with
      | none => simp at h
      | some e =>
        simp only [List.mem_cons, List.not_mem_nil, or_false] at h
        rcases h with rfl | rfl
        · simp [idTok]
        · decide
    · simp [idTok]
    · decide
    · rcases commaList_toks h with rfl | ⟨e, h⟩
      · decide
      · have := expr_plain h
        simp at this
        exact this.2.1
    · decide
    · decide

theorem stmts_plain {b : NE Stmt} {t : Tok} (h : t ∈ b.list.flatMap Stmt.toks) : t.ty ≠ .R_BRACE := by
  obtain ⟨s, _, h⟩ := List.mem_flatMap.1 h
  exact stmt_plain h

theorem ext_whole (e : ExtDecl) : Whole e.toks := by
  left
  refine ⟨idTok e.name :: (match e.config with
    | none => []
    | some c => [kw .L_BRACE] ++ c.toks (Pair.toks .COL) ++ [kw .R_BRACE]) ++
      [kw .AS_, idTok e.alias], by unfold ExtDecl.toks; cases e.config <;> simp, ?_⟩
  intro t ht
  simp only [List.mem_append, List.mem_cons, List.not_mem_nil, or_false] at ht
  rcases ht with (rfl | h) | rfl | rfl
  · simp [idTok]
  · cases hc : e.config with
    | none => rw [hc] at h; simp at h
    | some c =>
      rw [hc] at h
      simp only [List.mem_append, List.mem_cons, List.not_mem_nil, or_false] at h
      rcases h with (rfl | h) | rfl
      · decide
      · rcases ne_toks h with rfl | ⟨y, _, h⟩
        · decide
        · have := pair_plain (by simp) h
          simp at this
          exact this.1
      · decide
  · decide
  · simp [idTok]

theorem decl_whole (d : Decl) : Whole d.toks := by
  right
  cases d with
  | table t =>
    refine ⟨kw .TABLE_, [idTok t.name, kw .L_BRACE] ++ t.columns.toks ColDecl.toks ++
      t.items.flatMap (fun i => kw .COMMA :: i.toks) ++ (if t.trailingComma then [kw .COMMA] else []),
      by simp [Decl.toks, TableDecl.toks], by decide, ?_⟩
    intro u hu
    simp only [List.mem_append, List.mem_cons, List.not_mem_nil, or_false, List.mem_flatMap] at hu
    rcases hu with rfl | (((rfl | rfl) | h) | ⟨i, _, rfl | h⟩) | h
    · decide
    · simp [idTok]
    · decide
    · rcases ne_toks h with rfl | ⟨y, _, h⟩
      · decide
      · have := col_plain h
        simp at this
        exact this.2.1
    · decide
    · have := item_plain h
      simp at this
      exact this.2.1
    · cases ht : t.trailingComma <;> rw [ht] at h
      · simp at h
      · simp at h; subst h; decide
  | init b =>
    refine ⟨kw .INIT_, [kw .L_PAREN, kw .R_PAREN, kw .L_BRACE] ++ b.list.flatMap Stmt.toks,
      by simp [Decl.toks, bodyToks], by decide, ?_⟩
    intro u hu
    simp only [List.mem_append, List.mem_cons, List.not_mem_nil, or_false] at hu
    rcases hu with rfl | (rfl | rfl | rfl) | h
    · decide
    · decide
    · decide
    · decide
    · exact stmts_plain h
  | action a =>
    have h1 : a.toks = (a.annotations.flatMap Annot.toks ++ [kw .ACTION_, idTok a.name, kw .L_PAREN] ++
        a.params.toks (fun s => [varTok s]) ++ [kw .R_PAREN] ++ a.modifiers.map Modifier.tok ++
        [kw .L_BRACE] ++ a.body.list.flatMap Stmt.toks) ++ [kw .R_BRACE] := by
      simp [ActionDecl.toks, bodyToks]
    have key : ∃ b c, b.ty ≠ .USE_ ∧
        b :: c = a.annotations.flatMap Annot.toks ++ [kw .ACTION_, idTok a.name, kw .L_PAREN] ++
        a.params.toks (fun s => [varTok s]) ++ [kw .R_PAREN] ++ a.modifiers.map Modifier.tok ++
        [kw .L_BRACE] ++ a.body.list.flatMap Stmt.toks := by
      cases a.annotations with
      | nil => exact ⟨kw .ACTION_, _, by decide, rfl⟩
      | cons n ns => exact ⟨⟨.BLOCK_VAR_OR_ANNOTATION, '@' :: n.target⟩, _, by simp, rfl⟩
    obtain ⟨b, c, h2, h3⟩ := key
    rw [← h3] at h1
    refine ⟨b, c, h1, h2, ?_⟩
    intro u hu
    rw [h3] at hu
    simp only [List.mem_append, List.mem_cons, List.not_mem_nil, or_false, List.mem_flatMap,
      List.mem_map] at hu
    rcases hu with (((((⟨n, _, h⟩ | rfl | rfl | rfl) | h) | rfl) | ⟨m, _, rfl⟩) | rfl) | h
    · simp only [Annot.toks, List.mem_append, List.mem_cons, List.not_mem_nil, or_false] at h
      rcases h with ((rfl | rfl) | h) | rfl
      · simp
      · decide
      · rcases ne_toks h with rfl | ⟨y, _, h⟩
        · decide
        · have := pair_plain (by simp) h
          simp at this
          exact this.2.1
      · decide
    · decide
    · simp [idTok]
    · decide
    · rcases commaList_toks h with rfl | ⟨y, h⟩
      · decide
      · simp at h; subst h; simp [varTok]
    · decide
    · cases m <;> decide
    · decide
    · exact stmts_plain (List.mem_flatMap.2 h)

theorem Program.units_whole (p : Program) : ∀ u ∈ p.units, Whole u := by
  intro u hu
  simp only [Program.units, List.mem_append, List.mem_map] at hu
  rcases hu with ⟨e, _, rfl⟩ | ⟨d, _, rfl⟩
  · exact ext_whole e
  · exact decl_whole d

/-- A program whose tokens are the first tokens of another has its first
declarations. -/
theorem toks_prefix {p q : Program} (h : q.toks <+: p.toks) : ∃ n, q.toks = (p.take n).toks := by
  rw [q.toks_units, p.toks_units] at h
  obtain ⟨z, hz⟩ := h
  simp at hz
  obtain ⟨h1, h2⟩ := hz
  have := flatten_prefix q.units_whole p.units_whole ⟨z, h2⟩
  refine ⟨q.units.length, ?_⟩
  rw [q.toks_units, Program.toks_units, Program.units_take, ← List.prefix_iff_eq_take.1 this, h1]
  rfl

/-- The last token closes a declaration. -/
theorem Program.toks_last (p : Program) : ∃ a c, p.toks = a ++ [c] ∧ (c = kw .SCOL ∨ c = kw .R_BRACE) := by
  rw [p.toks_units]
  rcases List.eq_nil_or_concat p.units with h | ⟨us, u, h⟩
  · rw [h]; exact ⟨[kw .DATABASE_, idTok p.name], _, rfl, .inl rfl⟩
  · rw [h]
    have hu := p.units_whole u (by rw [h]; simp)
    simp only [List.concat_eq_append, List.flatten_append, List.flatten_cons, List.flatten_nil,
      List.append_nil]
    rcases hu with ⟨a, rfl, _⟩ | ⟨b, a, rfl, _⟩
    · exact ⟨_, _, by rw [← List.append_assoc, ← List.append_assoc], .inl rfl⟩
    · exact ⟨_, _, by rw [← List.append_assoc, ← List.append_assoc], .inr rfl⟩

/-- A program written by a prefix of a text has the first declarations of the
program the text writes. -/
theorem writes_prefix {s x : Str} {p q : Program} (hp : Writes s p) (hx : x <+: s)
    (hq : Writes x q) : ∃ n, Writes x (p.take n) := by
  obtain ⟨l, hl, hv⟩ := hp
  obtain ⟨m, hm, hw⟩ := hq
  suffices h : q.toks <+: p.toks by
    obtain ⟨n, hn⟩ := toks_prefix h
    exact ⟨n, m, hm, by rw [hw, hn]⟩
  rcases tokenises_prefix hl hx hm with h | ⟨l₁, t, hd, l₂, y, k, rfl, rfl, h1, h2, h3, h4⟩
  · obtain ⟨z, rfl⟩ := h
    rw [visible_append] at hv
    rw [← hw, ← hv]
    exact List.prefix_append _ _
  · rw [visible_append] at hv hw
    by_cases hk : visible k = []
    · rw [hk, List.append_nil] at hw
      rw [← hw, ← hv]
      exact List.prefix_append _ _
    · exfalso
      obtain ⟨a, c, hc, hcc⟩ := q.toks_last
      have hmem : c ∈ visible k := by
        rcases List.eq_nil_or_concat (visible k) with h | ⟨k', d, h⟩
        · exact absurd h hk
        · rw [h, hc, List.concat_eq_append, ← List.append_assoc] at hw
          have := List.append_inj_right' hw rfl
          simp at this
          rw [h, ← this]
          simp
      have ht : Lexeme t hd := hl.lexemes (t, hd) (by simp)
      obtain ⟨a, b, k', rfl⟩ := cut_token ht h1 h3 h4 hmem (by
        rcases hcc with rfl | rfl
        · exact .inl rfl
        · exact .inr rfl)
      have hs : Sentence (visible (l₁ ++ (⟨.DIV, a⟩, false) :: (⟨.STAR, b⟩, false) :: k')) :=
        (sentence_iff hm).2 ⟨q, by rw [visible_append]; exact hw⟩
      have := sentence_pairs hs
      rw [visible_append] at this
      exact absurd (chain_infix this) (by simp [sentencePair])

end Verif
