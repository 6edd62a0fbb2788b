import Verif.Proof.GoLocal
import Verif.Proof.LexRun
import Verif.Proof.Canonical
import Verif.Proof.Digram
import Verif.Model.Report
import Verif.Spec.Position
/-!
# Lines, columns, and texts that start with given tokens
-/

namespace Verif

/-! ## Positions -/

theorem advance_foldl (x : Str) : x.foldl advance (1, 0) = (lineAfter x, columnAfter x) := by
  obtain ⟨y, rfl⟩ : ∃ y, x = y.reverse := ⟨x.reverse, by simp⟩
  induction y with
  | nil => rfl
  | cons c y ih =>
    rw [List.reverse_cons, List.foldl_append, ih]
    simp only [List.foldl_cons, List.foldl_nil, advance]
    by_cases hc : c = '\n'
    · subst hc
      simp [lineAfter, columnAfter]
      omega
    · have : (c != '\n') = true := by simpa using hc
      simp [lineAfter, columnAfter, hc, this, List.count_append]

theorem visible_cons (t : Tok) (h : Bool) (l : List (Tok × Bool)) :
    visible ((t, h) :: l) = if h then visible l else t :: visible l := by
  cases h <;> simp [visible]

theorem place_split : ∀ (l : List (Tok × Bool)) (p : Nat × Nat) (good rest : List Tok) (bad : Tok),
    visible l ++ [Tok.eof] = good ++ bad :: rest →
    ∃ before after, l = before ++ after ∧ visible before = good ∧
      ((∃ more, after = (bad, false) :: more) ∨ after = [] ∧ bad = Tok.eof) ∧
      (place p l)[good.length]? = some (bad, (before.flatMap (·.1.text)).foldl advance p) := by
  intro l
  induction l with
  | nil =>
    intro p good rest bad h
    cases good with
    | nil =>
      simp [visible] at h
      obtain ⟨rfl, rfl⟩ := h
      exact ⟨[], [], rfl, rfl, .inr ⟨rfl, rfl⟩, rfl⟩
    | cons x xs => simp [visible] at h
  | cons q l ih =>
    obtain ⟨t, hid⟩ := q
    intro p good rest bad h
    rw [visible_cons] at h
    cases hid with
    | true =>
      simp only [if_true] at h
      obtain ⟨before, after, rfl, hb, ha, hp⟩ := ih (t.text.foldl advance p) good rest bad h
      refine ⟨(t, true) :: before, after, rfl, ?_, ha, ?_⟩
      · rw [visible_cons]; exact hb
      · simp only [place, if_true, List.flatMap_cons, List.foldl_append]; exact hp
    | false =>
      simp only [Bool.false_eq_true, if_false] at h
      cases good with
      | nil =>
        simp only [List.cons_append, List.nil_append, List.cons.injEq] at h
        obtain ⟨rfl, _⟩ := h
        exact ⟨[], (t, false) :: l, rfl, rfl, .inl ⟨_, rfl⟩, rfl⟩
      | cons x xs =>
        simp only [List.cons_append, List.cons.injEq] at h
        obtain ⟨rfl, h⟩ := h
        obtain ⟨before, after, rfl, hb, ha, hp⟩ := ih (t.text.foldl advance p) xs rest bad h
        refine ⟨(t, false) :: before, after, rfl, ?_, ha, ?_⟩
        · rw [visible_cons]; simp [hb]
        · simp only [place, Bool.false_eq_true, if_false, List.length_cons, List.getElem?_cons_succ,
            List.flatMap_cons, List.foldl_append]
          exact hp

/-! ## Spelling -/

/-- Derivations depend on the types of the tokens only. -/
theorem gen_respell {g : G} {ts : List Tok} {ks : List Tree} (h : Gen g ts ks) :
    ∀ ts' : List Tok, ts'.map (·.ty) = ts.map (·.ty) → ∃ ks', Gen g ts' ks' := by
  induction h with
  | eps => intro ts' e; simp at e; subst e; exact ⟨_, .eps⟩
  | @tok t s ht =>
    intro ts' e
    cases ts' with
    | nil => simp at e
    | cons x xs =>
      simp at e
      obtain ⟨e, rfl⟩ := e
      exact ⟨_, .tok (by rw [e]; exact ht)⟩
  | call _ ih => intro ts' e; obtain ⟨_, ih⟩ := ih ts' e; exact ⟨_, .call ih⟩
  | pred => intro ts' e; simp at e; subst e; exact ⟨_, .pred⟩
  | seq _ _ ih₁ ih₂ =>
    intro ts' e
    rw [List.map_append, List.map_eq_append_iff] at e
    obtain ⟨a, b, rfl, ha, hb⟩ := e
    obtain ⟨_, h₁⟩ := ih₁ _ ha
    obtain ⟨_, h₂⟩ := ih₂ _ hb
    exact ⟨_, .seq h₁ h₂⟩
  | altL _ ih => intro ts' e; obtain ⟨_, ih⟩ := ih ts' e; exact ⟨_, .altL ih⟩
  | altR _ ih => intro ts' e; obtain ⟨_, ih⟩ := ih ts' e; exact ⟨_, .altR ih⟩
  | starNil => intro ts' e; simp at e; subst e; exact ⟨_, .starNil⟩
  | starCons _ _ ih₁ ih₂ =>
    intro ts' e
    rw [List.map_append, List.map_eq_append_iff] at e
    obtain ⟨a, b, rfl, ha, hb⟩ := e
    obtain ⟨_, h₁⟩ := ih₁ _ ha
    obtain ⟨_, h₂⟩ := ih₂ _ hb
    exact ⟨_, .starCons h₁ h₂⟩

/-- An end-of-file token comes last. -/
theorem gen_eof {w : List Tok} {ks : List Tree} (h : Gen (.call .source_unit 0) w ks) :
    Chain (fun a _ => a != .EOF) w := by
  have hR : ∀ r ∈ Rule.all,
      (grammar r).okPairs ruleInfo Rule.all sentenceTypes.contains (fun a _ => a != .EOF) = true := by
    decide +kernel
  exact (gen_described hR h (by decide)).pairs

/-- What `source_unit` derives ends with an end-of-file token. -/
theorem gen_source_last {ts : List Tok} {ks : List Tree} (h : Gen (grammar .source_unit) ts ks) :
    ∃ front t, ts = front ++ [t] ∧ t.ty = .EOF := by
  simp only [grammar, G.c, G.t] at h
  obtain ⟨t₁, _, u₁, _, _, h₁, rfl, _⟩ := gen_seq.1 h
  obtain ⟨t₂, _, u₂, _, _, h₂, rfl, _⟩ := gen_seq.1 h₁
  obtain ⟨t₃, _, u₃, _, _, h₃, rfl, _⟩ := gen_seq.1 h₂
  obtain ⟨t₄, _, u₄, _, _, h₄, rfl, _⟩ := gen_seq.1 h₃
  obtain ⟨t, ht, rfl, _⟩ := gen_tok.1 h₄
  exact ⟨t₁ ++ (t₂ ++ (t₃ ++ t₄)), t, by simp, by simpa using ht⟩

theorem Lexeme.ne_eof {t : Tok} {h : Bool} (hl : Lexeme t h) : t.ty ≠ .EOF := by
  obtain ⟨_, _, before, r, after, hl, hty, _⟩ := hl
  rw [← hty]
  exact (by decide +kernel : ∀ r ∈ lexRules, r.ty ≠ .EOF) r (by simp [hl])

theorem visible_lexeme {l : List (Tok × Bool)} (h : ∀ p ∈ l, Lexeme p.1 p.2) :
    ∀ t ∈ visible l, Lexeme t false := by
  intro t ht
  simp only [visible, List.mem_map, List.mem_filter] at ht
  obtain ⟨p, ⟨hp, hh⟩, rfl⟩ := ht
  have := h p hp
  simp at hh
  rw [hh] at this
  exact this

/-- Tokens of a text are never end-of-file tokens. -/
theorem tokenises_ne_eof {s : Str} {toks : List (Tok × Bool)} (h : Tokenises s toks) :
    ∀ t ∈ visible toks, t.ty ≠ .EOF :=
  fun t ht => (visible_lexeme h.lexemes t ht).ne_eof

/-- A text for every type of token in sentences. -/
def spell (t : TT) : Str :=
  match t with
  | .IDENTIFIER => ['a']
  | .INDEX_NAME => ['#', 'a']
  | .PARAM_OR_VAR => ['$', 'a']
  | .BLOCK_VAR_OR_ANNOTATION => ['@', 'a']
  | .UNSIGNED_NUMBER_LITERAL => ['1']
  | .STRING_LITERAL => ['\'', '\'']
  | .SQL_STMT => ['s', 'e', 'l', 'e', 'c', 't', ' ', '1']
  | ty => ty.fixed.getD []

theorem spell_lex : ∀ ty ∈ sentenceTypes, ty ≠ .EOF → lexOne (spell ty) = some (⟨ty, spell ty⟩, false, []) := by
  decide +kernel

theorem spell_ok {ty : TT} (h : ty ∈ sentenceTypes) (he : ty ≠ .EOF) : WellSpelt ⟨ty, spell ty⟩ :=
  Lexeme.wellSpelt ((lexOne_iff _ _ _ _).1 (spell_lex ty h he)) h

theorem chain_eof : ∀ {w : List Tok}, Chain (fun a _ => a != .EOF) w → ∀ {front t},
    w = front ++ [t] → ∀ x ∈ front, x.ty ≠ .EOF := by
  intro w h front t e x hx he
  subst e
  obtain ⟨a, b, rfl⟩ := List.append_of_mem hx
  rw [List.append_assoc, chain_append] at h
  have := h.2.1.1
  cases b with
  | nil => have := this t rfl; simp [he] at this
  | cons y ys => have := this y rfl; simp [he] at this

/-- If a derivation starts with tokens of some text, there is a text without
syntax errors that starts with them and goes on with tokens of the same types. -/
theorem starts_text_types {good u : List Tok} {ks : List Tree} (hlex : ∀ t ∈ good, Lexeme t false)
    (h : Gen (.call .source_unit 0) (good ++ u) ks) :
    ∃ s l more, Tokenises s l ∧ Sentence (visible l) ∧ visible l = good ++ more ∧
      more.map (·.ty) ++ [.EOF] = u.map (·.ty) := by
  have hne : ∀ t ∈ good, t.ty ≠ .EOF := fun t h => (hlex t h).ne_eof
  have hchain := gen_eof h
  obtain ⟨front, t, hfr, hty⟩ : ∃ front t, good ++ u = front ++ [t] ∧ t.ty = .EOF := by
    cases h with
    | call h => exact gen_source_last h
  obtain ⟨v, rfl⟩ : ∃ v, u = v ++ [t] := by
    rcases List.eq_nil_or_concat u with rfl | ⟨v, x, rfl⟩
    · rw [List.append_nil] at hfr
      exact absurd hty (hne t (by rw [hfr]; simp))
    · rw [List.concat_eq_append, ← List.append_assoc] at hfr
      obtain ⟨_, e⟩ := List.append_inj' hfr rfl
      simp at e
      exact ⟨v, by rw [e, List.concat_eq_append]⟩
  have htE : t.ty = .EOF := hty
  have hfr : front = good ++ v := by
    rw [← List.append_assoc] at hfr
    exact (List.append_inj' hfr rfl).1.symm
  subst hfr
  have hv := chain_eof hchain (front := good ++ v) (t := t) (by simp)
  let v' : List Tok := v.map fun x => ⟨x.ty, spell x.ty⟩
  obtain ⟨ks', h'⟩ := gen_respell h (good ++ v' ++ [Tok.eof]) (by simp [v', Tok.eof, hty, Function.comp_def])
  have hs : Sentence (good ++ v') := by
    cases h' with
    | call h' => exact ⟨_, .call h'⟩
  have hd := sentence_described hs
  have hty := sentence_types hs
  obtain ⟨l, hl, hvis⟩ := spaced_writes (ts := good ++ v') (by
    intro x hx
    rcases List.mem_append.1 hx with h | h
    · exact (hlex x h).wellSpelt (hty x hx)
    · have h1 := hty x hx
      obtain ⟨y, hy, rfl⟩ := List.mem_map.1 h
      exact spell_ok h1 (hv y (by simp [hy]))) hty hd.pairs
  exact ⟨_, l, v', hl, by rw [hvis]; exact hs, hvis, by
    simp [v', Function.comp_def, htE]⟩

/-- If a derivation starts with tokens of some text, there is a text without
syntax errors that starts with them. -/
theorem starts_text {good u : List Tok} {ks : List Tree} (hlex : ∀ t ∈ good, Lexeme t false)
    (h : Gen (.call .source_unit 0) (good ++ u) ks) :
    Begins good := by
  obtain ⟨s, l, more, h₁, h₂, h₃, _⟩ := starts_text_types hlex h
  exact ⟨s, l, more, h₁, h₂, h₃⟩

/-! ## Reading tokens as far as possible -/

theorem no_next_nil {t : Tok} {h : Bool} {rest : Str} : ¬ IsNext [] t h rest := by
  intro hn
  obtain ⟨e, hne, _⟩ := hn
  exact hne (List.append_eq_nil_iff.1 e.symm).1

theorem reads_nil {s : Str} {l : List (Tok × Bool)} : Reads s l [] ↔ Tokenises s l := by
  constructor
  · intro h
    generalize hr : ([] : Str) = r at h
    induction h with
    | stop h => subst hr; exact .nil
    | cons hn _ ih => exact .cons hn (ih hr)
  · intro h
    induction h with
    | nil => exact .stop fun _ _ _ => no_next_nil
    | cons hn _ ih => exact .cons hn ih

theorem reads_unique {s : Str} {l l' : List (Tok × Bool)} {r r' : Str} (h : Reads s l r)
    (h' : Reads s l' r') : l = l' ∧ r = r' := by
  induction h generalizing l' r' with
  | stop hs =>
    cases h' with
    | stop _ => exact ⟨rfl, rfl⟩
    | cons hn _ => exact absurd hn (hs _ _ _)
  | cons hn _ ih =>
    cases h' with
    | stop hs => exact absurd hn (hs _ _ _)
    | cons hn' h' =>
      obtain ⟨rfl, rfl, rfl⟩ := hn.unique hn'
      obtain ⟨rfl, rfl⟩ := ih h'
      exact ⟨rfl, rfl⟩

theorem tablePart_reads : ∀ (n : Nat) (s : Str), s.length ≤ n →
    Reads s (tablePart n s).1 (tablePart n s).2 := by
  intro n
  induction n with
  | zero =>
    intro s h
    obtain rfl : s = [] := List.length_eq_zero_iff.1 (by omega)
    exact .stop fun _ _ _ => no_next_nil
  | succ n ih =>
    intro s h
    simp only [tablePart]
    cases ho : tableOne s with
    | none =>
      refine .stop fun t h rest hn => ?_
      rw [tableOne_eq, (lexOne_iff _ _ _ _).2 hn] at ho
      cases ho
    | some r =>
      obtain ⟨t, hid, s'⟩ := r
      rw [tableOne_eq, lexOne_iff] at ho
      refine .cons ho (ih s' ?_)
      obtain ⟨e, hne, _⟩ := ho
      have := List.length_pos_iff.2 hne
      rw [e, List.length_append] at h
      omega

theorem tablePart_iff {s : Str} {l : List (Tok × Bool)} {r : Str} :
    tablePart s.length s = (l, r) ↔ Reads s l r := by
  have h := tablePart_reads s.length s (Nat.le_refl _)
  constructor
  · intro e; rw [e] at h; exact h
  · intro h'
    obtain ⟨h1, h2⟩ := reads_unique h h'
    exact Prod.ext h1 h2

theorem Reads.lexemes {s l r} (h : Reads s l r) : ∀ p ∈ l, Lexeme p.1 p.2 := by
  induction h with
  | stop _ => simp
  | cons hn _ ih =>
    intro p hp
    rcases List.mem_cons.1 hp with rfl | hp
    · exact hn.lexeme
    · exact ih p hp

end Verif
