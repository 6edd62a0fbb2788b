import Verif.Proof.Names
import Verif.Proof.Digram
/-!
# Tokens written without anything between them
-/

namespace Verif

/-- Derivative by a text. -/
def RE.derivs : Str → RE → RE
  | [], r => r
  | c :: cs, r => RE.derivs cs (r.deriv c)

theorem derivs_iff (x : Str) (r : RE) (y : Str) : Lang (r.derivs x) y ↔ Lang r (x ++ y) := by
  induction x generalizing r with
  | nil => rfl
  | cons c x ih => rw [RE.derivs, ih, deriv_iff]; rfl

/-- If no rule can match past the token, the token is found. -/
theorem IsNext.stop {t : Tok} (hl : Lexeme t false) {n : Str}
    (h : ∀ r ∈ lexRules, ∀ d z, n = d :: z → ∀ z', ¬ Lang r.re (t.text ++ d :: z')) :
    IsNext (t.text ++ n) t false n := by
  have hn : IsNext (t.text ++ []) t false [] := by simpa [Lexeme] using hl
  apply hn.transfer
  intro r' hr' y hy hlt
  exfalso
  obtain ⟨v, rfl⟩ := prefix_of_le (List.prefix_append t.text _) hy.1 (by omega)
  have hv := hy.1
  rw [List.prefix_append_right_inj] at hv
  cases v with
  | nil => simp at hlt
  | cons d v =>
    cases n with
    | nil => simp at hv
    | cons e n =>
      simp at hv
      obtain ⟨rfl, _⟩ := hv
      exact h r' hr' d n rfl v hy.2.1

/-- Token types in call statements. -/
def callTypes : List TT :=
  [.SCOL, .L_PAREN, .R_PAREN, .COMMA, .PERIOD, .ASSIGN, .PLUS, .MINUS, .STAR, .DIV, .MOD, .TILDE,
   .PIPE2, .LT2, .GT2, .AMP, .PIPE, .EQ, .LT, .LT_EQ, .GT, .GT_EQ, .SQL_NOT_EQ1, .SQL_NOT_EQ2,
   .NOT_, .AND_, .OR_, .IDENTIFIER, .PARAM_OR_VAR, .BLOCK_VAR_OR_ANNOTATION,
   .UNSIGNED_NUMBER_LITERAL, .STRING_LITERAL]

/-- The word operators. -/
def wordOps : List TT := [.NOT_, .AND_, .OR_]

/-- Types whose texts end in word characters and can be continued by them. -/
def endsWord (a : TT) : Bool :=
  [TT.NOT_, .AND_, .OR_, .IDENTIFIER, .PARAM_OR_VAR, .BLOCK_VAR_OR_ANNOTATION].contains a

/-- Types whose texts start with a word character. -/
def startsWord (a : TT) : Bool :=
  [TT.NOT_, .AND_, .OR_, .IDENTIFIER, .UNSIGNED_NUMBER_LITERAL].contains a

/-- Punctuation. -/
def isPunct (a : TT) : Bool := (callTypes.take 24).contains a

/-- The ten digits. -/
def digits : List Char := ['0', '1', '2', '3', '4', '5', '6', '7', '8', '9']

/-- The characters a token of the type can start with. -/
def firstChars (a : TT) : List Char :=
  match a with
  | .IDENTIFIER => letters
  | .PARAM_OR_VAR => ['$']
  | .BLOCK_VAR_OR_ANNOTATION => ['@']
  | .UNSIGNED_NUMBER_LITERAL => digits
  | .STRING_LITERAL => ['\'']
  | a => (a.fixed.getD []).take 1

/-- No rule matches the text and then the character. -/
def stops (w : Str) (d : Char) : Bool :=
  lexRules.all fun r => (r.re.derivs w).deriv d = .none

/-- Pairs that can be adjacent in a call statement. -/
def callPair (a b : TT) : Bool :=
  callTypes.contains b &&
  (!isPunct a || (firstChars b).all (stops (a.fixed.getD []))) &&
  (a != .UNSIGNED_NUMBER_LITERAL || b != .UNSIGNED_NUMBER_LITERAL) &&
  (!endsWord a || !startsWord b || wordOps.contains a || wordOps.contains b)

/-- The rules used in call statements. -/
def callRules : List Rule :=
  [.literal_value, .action_name, .call_stmt, .call_receivers, .call_body, .variable, .block_var,
   .extension_call_name, .fn_name, .sfn_name, .fn_arg_list, .fn_arg_expr]

theorem callRules_ok : ∀ r ∈ callRules,
    (grammar r).okPairs ruleInfo callRules callTypes.contains callPair = true := by
  decide +kernel

theorem call_described (rs : Option (NE Str)) (ext : Option Str) (m : Str)
    (args : CommaList (Expr false)) :
    Described ⟨false, [.PARAM_OR_VAR, .IDENTIFIER], [.SCOL]⟩ callTypes.contains callPair
      (Stmt.call rs ext m args).toks := by
  have h := (rep_call_stmt (n := 0)).bwd (rs, ext, m, args)
  exact gen_described callRules_ok h (by decide)

/-! Texts of the tokens -/

theorem firstChars_word : ∀ b ∈ callTypes, ∀ d ∈ firstChars b,
    (IsWordChar d ↔ startsWord b = true) ∧ (d ∈ digits → b = .UNSIGNED_NUMBER_LITERAL) := by
  decide +kernel

theorem call_fixed : ∀ a ∈ callTypes,
    (a = .IDENTIFIER ∨ a = .PARAM_OR_VAR ∨ a = .BLOCK_VAR_OR_ANNOTATION ∨
      a = .UNSIGNED_NUMBER_LITERAL ∨ a = .STRING_LITERAL) ∨
    (a ∈ wordOps ∧ IsName (a.fixed.getD []) ∧ wordType (a.fixed.getD []) = a ∧
      a.fixed = some (a.fixed.getD []) ∧ lower (a.fixed.getD []) ∉ verbs.map (·.1)) ∨
    (isPunct a = true ∧ a.fixed = some (a.fixed.getD []) ∧ endsWord a = false ∧
      firstChars a = (a.fixed.getD []).take 1 ∧ a.fixed.getD [] ≠ [] ∧
      ∀ c, (a.fixed.getD []).getLast? = some c → ¬ IsWordChar c) := by
  decide +kernel

theorem digits_plus {x : Str} : Lang (Lx.plus Lx.digit) x ↔ x ≠ [] ∧ ∀ c ∈ x, c ∈ digits := by
  have hd : ∀ c : Char, inCls false [(48, 57)] c = true ↔ c ∈ digits := by
    intro c
    have up : ∀ d : Char, c = d ↔ c.toNat = d.toNat := fun d => Char.toNat_inj.symm
    have e0 : '0'.toNat = 48 := rfl
    have e1 : '1'.toNat = 49 := rfl
    have e2 : '2'.toNat = 50 := rfl
    have e3 : '3'.toNat = 51 := rfl
    have e4 : '4'.toNat = 52 := rfl
    have e5 : '5'.toNat = 53 := rfl
    have e6 : '6'.toNat = 54 := rfl
    have e7 : '7'.toNat = 55 := rfl
    have e8 : '8'.toNat = 56 := rfl
    have e9 : '9'.toNat = 57 := rfl
    simp only [inCls, digits, List.any_cons, List.any_nil, List.mem_cons, List.not_mem_nil,
      or_false, up, e0, e1, e2, e3, e4, e5, e6, e7, e8, e9]
    simp
    omega
  have star : ∀ y, Lang (.star Lx.digit) y ↔ ∀ c ∈ y, c ∈ digits := by
    intro y
    constructor
    · intro h
      generalize hq : RE.star Lx.digit = q at h
      induction h with
      | starNil => simp
      | starCons h1 h2 _ ih =>
        cases hq
        obtain ⟨c, rfl, hc⟩ := lang_cls.1 h1
        intro e he
        rcases List.mem_append.1 he with he | he
        · simp at he; subst he; exact (hd _).1 hc
        · exact ih rfl e he
      | _ => cases hq
    · intro h
      induction y with
      | nil => exact .starNil
      | cons c y ih =>
        exact Lang.starCons (x := [c]) (lang_cls.2 ⟨c, rfl, (hd c).2 (h c (by simp))⟩)
          (ih fun e he => h e (by simp [he]))
  unfold Lx.plus
  rw [lang_seq]
  constructor
  · rintro ⟨a, b, rfl, ha, hb⟩
    obtain ⟨c, rfl, hc⟩ := lang_cls.1 ha
    refine ⟨by simp, ?_⟩
    intro e he
    rcases List.mem_append.1 he with he | he
    · simp at he; subst he; exact (hd _).1 hc
    · exact (star b).1 hb e he
  · rintro ⟨hne, h⟩
    obtain ⟨c, y, rfl⟩ := List.exists_cons_of_ne_nil hne
    exact ⟨[c], y, rfl, lang_cls.2 ⟨c, rfl, (hd c).2 (h c (by simp))⟩,
      (star y).2 fun e he => h e (by simp [he])⟩

theorem lexeme_first {u : Tok} (hl : Lexeme u false) (hu : u.ty ∈ callTypes) :
    ∃ d z, u.text = d :: z ∧ d ∈ firstChars u.ty := by
  have f := hl.form
  rcases call_fixed _ hu with (h | h | h | h | h) | ⟨h, hn, _, hf, _⟩ | ⟨h, hf, _, hfc, hne, _⟩
  · have := isName_iff.2 (f.2.1 h)
    rw [h]
    cases hx : u.text with
    | nil => rw [hx] at this; exact this.elim
    | cons d z => rw [hx] at this; exact ⟨d, z, rfl, mem_letters this.1⟩
  · obtain ⟨y, hy, _⟩ := f.2.2.2.1 h
    exact ⟨_, y, hy, by rw [h]; simp [firstChars]⟩
  · obtain ⟨y, hy, _⟩ := f.2.2.2.2.1 h
    exact ⟨_, y, hy, by rw [h]; simp [firstChars]⟩
  · obtain ⟨hne, hd⟩ := digits_plus.1 (f.2.2.2.2.2.1 h)
    obtain ⟨c, y, hx⟩ := List.exists_cons_of_ne_nil hne
    exact ⟨c, y, hx, by rw [h]; exact hd c (by simp [hx])⟩
  · obtain ⟨y, hy, _⟩ := string_tail.1 (f.2.2.2.2.2.2.1 h)
    exact ⟨_, y, hy, by rw [h]; simp [firstChars]⟩
  · have ht := f.1 _ hf
    have hfc : firstChars u.ty = (u.ty.fixed.getD []).take 1 := by
      revert h
      generalize u.ty = ty
      revert ty
      decide
    rw [hfc, ht]
    cases hx : u.ty.fixed.getD [] with
    | nil => rw [hx] at hn; exact hn.elim
    | cons d z => exact ⟨d, z, rfl, by simp⟩
  · have ht := f.1 _ hf
    rw [hfc, ht]
    cases hx : u.ty.fixed.getD [] with
    | nil => exact absurd hx hne
    | cons d z => exact ⟨d, z, rfl, by simp⟩

/-- Rules by first character. -/
theorem rules_dollar : ∀ r ∈ lexRules,
    r.re.deriv '$' = .none ∨ r.re.deriv '$' = .eps ∨ r.re.deriv '$' = Lx.ident := by
  decide +kernel

theorem rules_at : ∀ r ∈ lexRules,
    r.re.deriv '@' = .none ∨ r.re.deriv '@' = .eps ∨ r.re.deriv '@' = Lx.ident := by
  decide +kernel

theorem rules_digit : ∀ c ∈ digits, ∀ r ∈ lexRules,
    r.re.deriv c = .none ∨ r.re = Lx.plus Lx.digit := by
  decide +kernel

/-- After `$` or `@` come only word characters. -/
theorem sigil_stop {a : Char} (ha : ∀ r ∈ lexRules,
    r.re.deriv a = .none ∨ r.re.deriv a = .eps ∨ r.re.deriv a = Lx.ident) {y : Str} {d : Char}
    (hd : ¬ IsWordChar d) (r : LexRule) (hr : r ∈ lexRules) (z : Str) :
    ¬ Lang r.re (a :: y ++ d :: z) := by
  intro h
  rw [List.cons_append, ← deriv_iff] at h
  rcases ha r hr with e | e | e
  · rw [e] at h; exact lang_none h
  · rw [e] at h; simp at h
  · rw [e] at h
    obtain ⟨c, x, hx, hc, hw⟩ := ident_iff.1 h
    have : isWord d = true := by
      cases y with
      | nil => simp at hx; rw [hx.1]; exact isWord_letter hc
      | cons e y => simp at hx; rw [← hx.2] at hw; exact hw d (by simp)
    exact hd (isWord_iff.1 this)

/-- A token of a call statement, followed by another one that does not continue
it, is found. -/
theorem follow {t u : Tok} (ht : Lexeme t false) (hu : Lexeme u false) (htc : t.ty ∈ callTypes)
    (hp : callPair t.ty u.ty = true) (hn : ¬ (endsWord t.ty = true ∧ startsWord u.ty = true))
    (s : Str) : IsNext (t.text ++ (u.text ++ s)) t false (u.text ++ s) := by
  have huc : u.ty ∈ callTypes := by
    simp [callPair] at hp; exact hp.1.1.1
  obtain ⟨d, z, hd, hdf⟩ := lexeme_first hu huc
  have hdw := firstChars_word _ huc d hdf
  have f := ht.form
  have word : IsName t.text → wordType t.text = t.ty → lower t.text ∉ verbs.map (·.1) →
      endsWord t.ty = true → IsNext (t.text ++ (u.text ++ s)) t false (u.text ++ s) := by
    intro h1 h2 h3 h4
    have := word_next (rest := u.text ++ s) h1 (by
      intro c hc
      rw [hd] at hc
      simp at hc
      subst hc
      exact fun hw => hn ⟨h4, hdw.1.1 hw⟩) (fun h => absurd h h3)
    rwa [h2] at this
  rcases call_fixed _ htc with (h | h | h | h | h) | ⟨h, hname, hwt, hf, hv⟩ | ⟨h, hf, _⟩
  · have hi := lexeme_ident.1 (show Lexeme ⟨.IDENTIFIER, t.text⟩ false by rw [← h]; exact ht)
    refine word hi.1 ?_ ?_ ?_
    · rw [h]; exact wordType_ident.2 hi.2
    · intro hv; exact hi.2 (.inr hv)
    · rw [h]; rfl
  · apply IsNext.stop ht
    intro r hr e z' he z''
    obtain ⟨y, hy, _⟩ := f.2.2.2.1 h
    rw [hd] at he
    simp at he
    rw [hy, ← he.1]
    exact sigil_stop rules_dollar (fun hw => hn ⟨by rw [h]; rfl, hdw.1.1 hw⟩) r hr z''
  · apply IsNext.stop ht
    intro r hr e z' he z''
    obtain ⟨y, hy, _⟩ := f.2.2.2.2.1 h
    rw [hd] at he
    simp at he
    rw [hy, ← he.1]
    exact sigil_stop rules_at (fun hw => hn ⟨by rw [h]; rfl, hdw.1.1 hw⟩) r hr z''
  · apply IsNext.stop ht
    intro r hr e z' he z'' hl
    rw [hd] at he
    simp at he
    obtain ⟨hne, hdig⟩ := digits_plus.1 (f.2.2.2.2.2.1 h)
    obtain ⟨c, y, hx⟩ := List.exists_cons_of_ne_nil hne
    rw [← he.1] at hl
    rcases rules_digit c (hdig c (by simp [hx])) r hr with e' | e'
    · rw [hx, List.cons_append, ← deriv_iff, e'] at hl
      exact lang_none hl
    · rw [e'] at hl
      have := (digits_plus.1 hl).2 d (by simp)
      have := hdw.2 this
      simp [callPair, h, this] at hp
  · apply IsNext.stop ht
    intro r hr e z' he z'' hl
    have hx := f.2.2.2.2.2.2.1 h
    obtain ⟨y, hy, _⟩ := string_tail.1 hx
    have hl' := hl
    rw [hy, List.cons_append] at hl'
    have := rules_quote r hr hl'.starts
    rw [(rules_by_ty r hr).1 this] at hl
    have := string_prefix hx hl
    simp at this
  · have hx := f.1 _ hf
    rw [← hx] at hname hwt hv
    refine word hname hwt hv ?_
    revert h
    generalize t.ty = ty
    revert ty
    decide
  · apply IsNext.stop ht
    intro r hr e z' he z'' hl
    rw [hd] at he
    simp at he
    have hx := f.1 _ hf
    have hst : stops (t.ty.fixed.getD []) d = true := by
      simp only [callPair, h, Bool.and_eq_true, Bool.not_true, Bool.false_or] at hp
      exact List.all_eq_true.1 hp.1.1.2 d hdf
    have := List.all_eq_true.1 hst r hr
    simp at this
    rw [← he.1, ← derivs_iff, ← deriv_iff, hx, this] at hl
    exact lang_none hl

/-- Two tokens that would run together if written side by side: the first ends
and the second starts with a letter, digit or underscore (a number can be
followed by a word without harm). -/
def Touch (t u : Tok) : Prop :=
  t.ty ≠ .UNSIGNED_NUMBER_LITERAL ∧ (∃ c, t.text.getLast? = some c ∧ IsWordChar c) ∧
  ∃ d, u.text.head? = some d ∧ IsWordChar d

theorem isName_last {x : Str} (h : IsName x) : ∃ c, x.getLast? = some c ∧ IsWordChar c := by
  cases x with
  | nil => exact h.elim
  | cons a x =>
    have hall : ∀ c ∈ a :: x, IsWordChar c := by
      intro c hc
      rcases List.mem_cons.1 hc with rfl | hc
      · exact .inl h.1
      · exact h.2 c hc
    refine ⟨(a :: x).getLast (by simp), List.getLast?_eq_some_getLast _, ?_⟩
    exact hall _ (List.getLast_mem _)

theorem string_last {x : Str} (h : Lang Lx.string x) : x.getLast? = some '\'' := by
  obtain ⟨a, b, rfl, _, hb⟩ := lang_seq.1 h
  obtain ⟨c, e, rfl, _, he⟩ := lang_seq.1 hb
  rw [lang_ch] at he
  subst he
  simp [← List.append_assoc]

theorem touch_iff {t u : Tok} (ht : Lexeme t false) (hu : Lexeme u false) (htc : t.ty ∈ callTypes)
    (huc : u.ty ∈ callTypes) : Touch t u ↔ endsWord t.ty = true ∧ startsWord u.ty = true := by
  obtain ⟨d, z, hd, hdf⟩ := lexeme_first hu huc
  have hdw := (firstChars_word _ huc d hdf).1
  have hu' : (∃ d, u.text.head? = some d ∧ IsWordChar d) ↔ startsWord u.ty = true := by
    rw [← hdw, hd]; simp
  have f := ht.form
  have hne : ∀ (y : Str) (a : Char), (a :: y).getLast? = some ((a :: y).getLast (by simp)) :=
    fun y a => List.getLast?_eq_some_getLast _
  have ht' : (t.ty ≠ .UNSIGNED_NUMBER_LITERAL ∧ ∃ c, t.text.getLast? = some c ∧ IsWordChar c) ↔
      endsWord t.ty = true := by
    rcases call_fixed _ htc with (h | h | h | h | h) | ⟨h, hname, _, hf, _⟩ | ⟨h, hf, he, _, hne, hl⟩
    · have hi := isName_last (isName_iff.2 (f.2.1 h))
      rw [h]; simp [hi]; rfl
    · obtain ⟨y, hy, hi⟩ := f.2.2.2.1 h
      obtain ⟨c, hc, hw⟩ := isName_last (isName_iff.2 hi)
      rw [h, hy]; simp only [ne_eq, reduceCtorEq, not_false_eq_true, true_and]
      refine ⟨fun _ => rfl, fun _ => ⟨c, ?_, hw⟩⟩
      cases y with
      | nil => simp at hc
      | cons b y => rw [List.getLast?_cons_cons]; exact hc
    · obtain ⟨y, hy, hi⟩ := f.2.2.2.2.1 h
      obtain ⟨c, hc, hw⟩ := isName_last (isName_iff.2 hi)
      rw [h, hy]; simp only [ne_eq, reduceCtorEq, not_false_eq_true, true_and]
      refine ⟨fun _ => rfl, fun _ => ⟨c, ?_, hw⟩⟩
      cases y with
      | nil => simp at hc
      | cons b y => rw [List.getLast?_cons_cons]; exact hc
    · rw [h]; simp; rfl
    · have := string_last (f.2.2.2.2.2.2.1 h)
      rw [h, this]; simp
      constructor
      · intro hw; exact absurd hw (by decide)
      · intro hw; exact absurd hw (by decide)
    · rw [f.1 _ hf]
      have hi := isName_last hname
      have : endsWord t.ty = true ∧ t.ty ≠ .UNSIGNED_NUMBER_LITERAL := by
        revert h; generalize t.ty = ty; revert ty; decide
      exact ⟨fun _ => this.1, fun _ => ⟨this.2, hi⟩⟩
    · rw [f.1 _ hf, he]
      simp only [Bool.false_eq_true, iff_false, not_and, not_exists]
      intro _ c hc
      exact hl c hc
  unfold Touch
  rw [← and_assoc, ht', hu']

/-- A word, or a name after a sigil, would be longer if a word character
followed. -/
theorem touch_breaks {t : Tok} (ht : Lexeme t false) (htc : t.ty ∈ callTypes)
    (he : endsWord t.ty = true) {d : Char} {s rest : Str} (hd : IsWordChar d) {h : Bool} :
    ¬ IsNext (t.text ++ d :: s) t h rest := by
  intro hn
  have f := ht.form
  have hlong : ∀ r ∈ lexRules, r.lazy = false → ¬ Lang r.re (t.text ++ [d]) := by
    intro r hr hz hl
    have := hn.maximal hr hz (y := t.text ++ [d]) ⟨s, by simp⟩ hl
    simp at this
    omega
  have ext : ∀ y : Str, IsName y → IsName (y ++ [d]) := by
    intro y hy
    cases y with
    | nil => exact hy.elim
    | cons a y =>
      refine ⟨hy.1, ?_⟩
      intro c hc
      rcases List.mem_append.1 hc with hc | hc
      · exact hy.2 c hc
      · simp at hc; subst hc; exact hd
  have hname : IsName t.text → False := fun hi =>
    hlong _ rule_mem_ident rfl (isName_iff.1 (ext _ hi))
  rcases call_fixed _ htc with (h | h | h | h | h) | ⟨h, hi, _, hf, _⟩ | ⟨h, hf, he', _⟩
  · exact hname (isName_iff.2 (f.2.1 h))
  · obtain ⟨y, hy, hi⟩ := f.2.2.2.1 h
    refine hlong { ty := .PARAM_OR_VAR, re := .seq (Lx.ch '$') Lx.ident } (by decide +kernel) rfl ?_
    rw [hy]
    exact lang_prefix.2 ⟨y ++ [d], rfl, isName_iff.1 (ext _ (isName_iff.2 hi))⟩
  · obtain ⟨y, hy, hi⟩ := f.2.2.2.2.1 h
    refine hlong { ty := .BLOCK_VAR_OR_ANNOTATION, re := .seq (Lx.ch '@') Lx.ident }
      (by decide +kernel) rfl ?_
    rw [hy]
    exact lang_prefix.2 ⟨y ++ [d], rfl, isName_iff.1 (ext _ (isName_iff.2 hi))⟩
  · rw [h] at he; exact absurd he (by decide)
  · rw [h] at he; exact absurd he (by decide)
  · apply hname; rw [f.1 _ hf]; exact hi
  · rw [he'] at he; cases he

/-- When the tokens of a call statement, written without anything between them,
are read back. -/
theorem glued_iff {ts : List Tok} (hl : ∀ t ∈ ts, Lexeme t false) (hc : ∀ t ∈ ts, t.ty ∈ callTypes)
    (hp : Chain callPair ts) :
    Tokenises (glued ts) (ts.map fun t => (t, false)) ↔
      ∀ t u, [t, u] <:+: ts → ¬ Touch t u := by
  induction ts with
  | nil =>
    constructor
    · rintro _ t u ⟨a, b, h⟩; simp at h
    · intro _; exact .nil
  | cons t ts ih =>
    have hlt := hl t (by simp)
    have hct := hc t (by simp)
    have ih := ih (fun x hx => hl x (by simp [hx])) (fun x hx => hc x (by simp [hx])) hp.2
    cases ts with
    | nil =>
      constructor
      · rintro _ x y ⟨a, b, h⟩
        have := congrArg List.length h
        simp at this; omega
      · intro _
        have : IsNext (glued [t]) t false [] := by simpa [glued, Lexeme] using hlt
        exact .cons this .nil
    | cons u ts =>
      have hlu := hl u (by simp)
      have hcu := hc u (by simp)
      have hg : glued (t :: u :: ts) = t.text ++ (u.text ++ glued ts) := by simp [glued]
      have hpair := hp.1 u rfl
      rw [hg]
      constructor
      · intro h x y hxy
        obtain ⟨rest, hn, hrest⟩ := h.cons_inv
        have hr : rest = u.text ++ glued ts := List.append_cancel_left hn.1.symm
        obtain ⟨a, b, hab⟩ := hxy
        cases a with
        | nil =>
          simp at hab
          obtain ⟨rfl, rfl, rfl⟩ := hab
          intro ht
          obtain ⟨d, hd, hw⟩ := ht.2.2
          obtain ⟨d', z, hd', _⟩ := lexeme_first hlu hcu
          rw [hd'] at hd hn
          simp at hd
          subst hd
          exact touch_breaks hlt hct ((touch_iff hlt hlu hct hcu).1 ht).1 hw hn
        | cons c a =>
          simp at hab
          rw [hr] at hrest
          refine ih.1 (by simpa [glued] using hrest) x y ⟨a, b, by simpa using hab.2⟩
      · intro h
        refine .cons (follow hlt hlu hct hpair ?_ _) ?_
        · intro hw
          exact h t u ⟨[], ts, by simp⟩ ((touch_iff hlt hlu hct hcu).2 hw)
        · have := ih.2 (fun x y hxy => h x y (hxy.trans (List.suffix_cons _ _).isInfix))
          simpa [glued] using this

end Verif
