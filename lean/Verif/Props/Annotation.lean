import Verif.Proof.Annotation
import Verif.Proof.Names
import Verif.Proof.Glue
import Verif.Props.SampleText
/-!
# C29, C30: ParseAnnotation

`ReadsAttrs body l`: reading `body` from left to right, taking at each point
the first and longest piece of the form `name = value`, gives the list `l`
(Spec/Annotation.lean).
-/

namespace Verif

/-- C30. `ParseAnnotation` never panics, and fails exactly for texts shorter
than three bytes, without `(` or not ending in `)`. -/
theorem C30_total (s : Str) :
    parseAnnotation s ≠ .panic ∧
    ((∃ msg, parseAnnotation s = .error msg) ↔
      byteLen s < 3 ∨ '(' ∉ s ∨ s.getLast? ≠ some ')') ∧
    (∀ msg, parseAnnotation s = .error msg → msg = "invalid annotation: ".toList ++ s) := by
  by_cases h : byteLen s < 3 ∨ '(' ∉ s ∨ s.getLast? ≠ some ')'
  · have e : parseAnnotation s = .error ("invalid annotation: ".toList ++ s) := by
      unfold parseAnnotation
      rw [if_pos]
      simp only [Bool.or_eq_true, decide_eq_true_eq, Bool.not_eq_true', bne_iff_ne]
      rcases h with h | h | h
      · exact .inl (.inl h)
      · refine .inl (.inr ?_)
        cases hc : s.contains '('
        · rfl
        · exact absurd (List.contains_iff_mem.1 hc) h
      · exact .inr h
    rw [e]
    refine ⟨by simp, ⟨fun _ => h, fun _ => ⟨_, rfl⟩⟩, ?_⟩
    intro msg hm; exact (AnnResult.error.inj hm).symm
  · obtain ⟨t, b, rfl, ht, hl⟩ := check_shape h
    obtain ⟨l, e, _, _⟩ := parse_shape ht hl
    rw [e]
    refine ⟨by simp, ⟨?_, fun h' => absurd h' h⟩, ?_⟩
    · rintro ⟨_, h'⟩; cases h'
    · intro msg hm; cases hm

/-- C30. What a successful call returns: the target is what comes before the
first `(`, and the attributes are the pieces `name = value` found from left to
right between it and the final `)`. -/
theorem C30_result (s : Str) (a : Annotation) (h : parseAnnotation s = .ok a) :
    ∃ body, s = a.target ++ '(' :: (body ++ [')']) ∧ '(' ∉ a.target ∧
      ReadsAttrs body a.attributes := by
  have hn := (C30_total s).2.1
  by_cases hc : byteLen s < 3 ∨ '(' ∉ s ∨ s.getLast? ≠ some ')'
  · obtain ⟨m, hm⟩ := hn.2 hc
    rw [h] at hm; cases hm
  · obtain ⟨t, b, rfl, ht, hl⟩ := check_shape hc
    obtain ⟨l, e, _, hr⟩ := parse_shape ht hl
    rw [e] at h
    obtain rfl := AnnResult.ok.inj h
    exact ⟨b, rfl, ht, hr⟩

/-- Disjoint pieces of a text, in order. -/
inductive PiecesOf : Str → List Str → Prop where
  | nil {s : Str} : PiecesOf s []
  | cons {g x rest : Str} {l : List Str} : PiecesOf rest l → PiecesOf (g ++ x ++ rest) (x :: l)

/-- C30. Names are non-empty words, values are digit strings or single-quoted
texts without quotes inside, and all of them are disjoint pieces of the input,
in order. -/
theorem C30_well_typed (s : Str) (a : Annotation) (h : parseAnnotation s = .ok a) :
    (∀ x ∈ a.attributes, x.name ≠ [] ∧ (∀ c ∈ x.name, IsWordChar c) ∧ IsAttrValue x.value) ∧
    PiecesOf s (a.target :: a.attributes.flatMap fun x => [x.name, x.value]) := by
  obtain ⟨b, rfl, _, hr⟩ := C30_result s a h
  have key : ∀ tail, (∀ x ∈ a.attributes, x.name ≠ [] ∧ (∀ c ∈ x.name, IsWordChar c) ∧
      IsAttrValue x.value) ∧ PiecesOf (b ++ tail) (a.attributes.flatMap fun x => [x.name, x.value]) := by
    intro tail
    clear h
    generalize a.attributes = as at hr ⊢
    induction hr with
    | done => exact ⟨by simp, .nil⟩
    | @next g x n v rest l ha _ _ _ ih =>
      constructor
      · intro y hy
        rcases List.mem_cons.1 hy with rfl | hy
        · exact ⟨ha.1, ha.2.1, ha.2.2.1⟩
        · exact ih.1 y hy
      · obtain ⟨_, _, _, w, w', _, _, rfl⟩ := ha
        have := PiecesOf.cons (g := g) (x := n) (PiecesOf.cons (g := w ++ '=' :: w') (x := v) ih.2)
        simpa using this
  refine ⟨(key []).1, ?_⟩
  have h0 : ∀ {x t : Str} {l : List Str}, PiecesOf t l → PiecesOf (x ++ t) l := by
    intro x t l h
    cases h with
    | nil => exact .nil
    | @cons g y r l h =>
      have := PiecesOf.cons (g := x ++ g) (x := y) h
      simpa using this
  have := PiecesOf.cons (g := []) (x := a.target) (h0 (x := ['(']) (key [')']).2)
  simpa using this

/-- A successful call. -/
example : parseAnnotation "t(a=1,b = 'x, y=3',c=323)".toList =
    .ok ⟨"t".toList, [⟨"a".toList, "1".toList⟩, ⟨"b".toList, "'x, y=3'".toList⟩,
      ⟨"c".toList, "323".toList⟩]⟩ := by decide +kernel

/-- Failing calls. -/
example : parseAnnotation "()".toList = .error "invalid annotation: ()".toList ∧
    parseAnnotation "t)".toList = .error "invalid annotation: t)".toList ∧
    parseAnnotation "t(a=1".toList = .error "invalid annotation: t(a=1".toList := by decide +kernel

/-! ## C29 -/

/-- A literal that has no quote inside its quotes and no newline. -/
def Lit.Plain : Lit → Prop
  | .num _ => True
  | .str s => '\'' ∉ s.tail.dropLast ∧ '\n' ∉ s

instance (l : Lit) : Decidable l.Plain := by cases l <;> unfold Lit.Plain <;> infer_instance

/-- The attributes of an annotation as written. -/
def Annot.written (a : Annot) : List AnnotationAttribute :=
  a.attrs.list.map fun x => ⟨x.name, x.value.text⟩

theorem string_quotes {s : Str} (h : Lang Lx.string s) : ∃ b, s = '\'' :: (b ++ ['\'']) := by
  obtain ⟨y, rfl, hy⟩ := lang_prefix.1 h
  obtain ⟨b, q, rfl, _, hq⟩ := lang_seq.1 hy
  rw [lang_ch] at hq
  exact ⟨b, by rw [hq]⟩

theorem lit_value {l : Lit} (h : Lexeme l.tok false) : IsAttrValue l.text ↔ l.Plain := by
  cases l with
  | num s =>
    obtain ⟨hne, hd⟩ := digits_plus.1 (h.form.2.2.2.2.2.1 rfl)
    refine ⟨fun _ => trivial, fun _ => .inl ⟨hne, ?_⟩⟩
    intro c hc
    have : ∀ c ∈ digits, '0' ≤ c ∧ c ≤ '9' := by decide
    exact this c (hd c hc)
  | str s =>
    obtain ⟨b, hb⟩ := string_quotes (h.form.2.2.2.2.2.2.1 rfl)
    have hb : s = '\'' :: (b ++ ['\'']) := hb
    subst hb
    constructor
    · rintro (⟨_, hd⟩ | ⟨b', e, h1, h2⟩)
      · exact absurd (hd '\'' (by simp [Lit.text])) (by decide)
      · simp only [Lit.text, List.cons.injEq, true_and] at e
        have := List.append_cancel_right e
        subst this
        exact ⟨by simpa using h1, by simpa using h2⟩
    · rintro ⟨h1, h2⟩
      exact .inr ⟨b, rfl, by simpa using h1, by simpa using h2⟩

/-- The text of one attribute. -/
theorem attr_text {x : Pair} (hn : IsName x.name) (hv : IsAttrValue x.value.text) :
    IsAttr x.name x.value.text (glued (Pair.toks .ASSIGN x)) := by
  cases hx : x.name with
  | nil => rw [hx] at hn; exact hn.elim
  | cons c s =>
    rw [hx] at hn
    refine ⟨by simp, ?_, hv, [], [], by simp, by simp, ?_⟩
    · intro d hd
      rcases List.mem_cons.1 hd with rfl | hd
      · exact .inl hn.1
      · exact hn.2 d hd
    · have : x.value.tok.text = x.value.text := by cases x.value <;> rfl
      simp [glued, Pair.toks, idTok, kw, TT.fixed, hx, this]

theorem glued_append (a b : List Tok) : glued (a ++ b) = glued a ++ glued b := by simp [glued]

theorem findAll_tail (l : List Pair) (k : Nat) (hk : l.length ≤ k) (h : ∀ x ∈ l, IsName x.name ∧ IsAttrValue x.value.text) :
    annotationRegex.findAll (k + 1) (l.flatMap fun y => ',' :: glued (Pair.toks .ASSIGN y)) =
      l.map fun x => [x.name, x.value.text] := by
  induction l generalizing k with
  | nil =>
    rw [PRE.findAll]
    have : annotationRegex.find [] = none := by decide
    simp [this]
  | cons x l ih =>
    obtain ⟨k, rfl⟩ : ∃ j, k = j + 1 := ⟨k - 1, by simp at hk; omega⟩
    have ih := ih k (by simpa using hk) (fun y hy => h y (by simp [hy]))
    have ha := attr_text (h x (by simp)).1 (h x (by simp)).2
    rw [List.flatMap_cons, PRE.findAll, List.cons_append, PRE.find]
    have h0 : ∀ s, annotationRegex.run (',' :: s) = [] := by
      intro s
      simp [annotationRegex, PRE.plus, PRE.run, annWord]
    have h1 : annotationRegex.find (glued (Pair.toks .ASSIGN x) ++
        l.flatMap fun y => ',' :: glued (Pair.toks .ASSIGN y)) =
        some ([x.name, x.value.text], l.flatMap fun y => ',' :: glued (Pair.toks .ASSIGN y)) := by
      have := attr_head (rest := l.flatMap fun y => ',' :: glued (Pair.toks .ASSIGN y)) ha (by
        intro _
        cases l with
        | nil => intro c t e; simp at e
        | cons y l => exact notStart_cons (by decide))
      cases hg : glued (Pair.toks .ASSIGN x) with
      | nil => exact absurd hg (attr_ne_nil ha)
      | cons c t =>
        rw [hg] at this
        rw [List.cons_append] at this ⊢
        rw [PRE.find, this]; rfl
    rw [h0, h1]
    simp [ih]

/-- The text of an annotation, parsed. -/
theorem annot_parse {a : Annot} (ht : IsName a.target)
    (h : ∀ x ∈ a.attrs.list, IsName x.name ∧ IsAttrValue x.value.text) :
    parseAnnotation a.denote = .ok ⟨a.target, a.written⟩ := by
  obtain ⟨x, l, hl⟩ : ∃ x l, a.attrs = ⟨x, l⟩ := ⟨_, _, rfl⟩
  rw [hl] at h
  have hpar : '(' ∉ a.target := by
    intro hm
    cases hx : a.target with
    | nil => rw [hx] at hm; cases hm
    | cons c s =>
      rw [hx] at ht hm
      rcases List.mem_cons.1 hm with rfl | hm
      · exact absurd ht.1 (by decide)
      · exact absurd (ht.2 _ hm) (by decide)
  have hne : a.target ≠ [] := by intro h0; rw [h0] at ht; exact ht
  obtain ⟨res, hp, hm, _⟩ := parse_shape (b := glued (a.attrs.toks (Pair.toks .ASSIGN))) hpar (.inl hne)
  have hb : glued (a.attrs.toks (Pair.toks .ASSIGN)) =
      glued (Pair.toks .ASSIGN x) ++ l.flatMap fun y => ',' :: glued (Pair.toks .ASSIGN y) := by
    rw [hl, NE.toks, glued_append]
    congr 1
    clear h hl
    induction l with
    | nil => rfl
    | cons y l ih =>
      simp only [List.flatMap_cons, glued_append, ih]
      simp [glued, kw, TT.fixed]
  have e : a.denote = a.target ++ '(' :: (glued (a.attrs.toks (Pair.toks .ASSIGN)) ++ [')']) := by
    simp [Annot.denote]
  rw [e, hp]
  congr 2
  have ha := attr_text (h x (by simp [NE.list])).1 (h x (by simp [NE.list])).2
  have hall : annotationRegex.findAll ((glued (a.attrs.toks (Pair.toks .ASSIGN))).length + 1)
      (glued (a.attrs.toks (Pair.toks .ASSIGN))) =
      a.attrs.list.map fun x => [x.name, x.value.text] := by
    rw [hb, PRE.findAll]
    have h1 : annotationRegex.find (glued (Pair.toks .ASSIGN x) ++
        l.flatMap fun y => ',' :: glued (Pair.toks .ASSIGN y)) =
        some ([x.name, x.value.text], l.flatMap fun y => ',' :: glued (Pair.toks .ASSIGN y)) := by
      have := attr_head (rest := l.flatMap fun y => ',' :: glued (Pair.toks .ASSIGN y)) ha (by
        intro _
        cases l with
        | nil => intro c t e; simp at e
        | cons y l => exact notStart_cons (by decide))
      cases hg : glued (Pair.toks .ASSIGN x) with
      | nil => exact absurd hg (attr_ne_nil ha)
      | cons c t =>
        rw [hg] at this
        rw [List.cons_append] at this ⊢
        rw [PRE.find, this]; rfl
    rw [h1]
    have hlen : l.length ≤ (l.flatMap fun y => ',' :: glued (Pair.toks .ASSIGN y)).length := by
      clear h hl hb h1
      induction l with
      | nil => simp
      | cons y l ih => simp only [List.flatMap_cons, List.length_append, List.length_cons]; omega
    have hpos := List.length_pos_iff.2 (attr_ne_nil ha)
    have hk : ∃ k, (glued (Pair.toks .ASSIGN x) ++
        l.flatMap fun y => ',' :: glued (Pair.toks .ASSIGN y)).length = k + 1 ∧ l.length ≤ k :=
      ⟨(glued (Pair.toks .ASSIGN x)).length +
        (l.flatMap fun y => ',' :: glued (Pair.toks .ASSIGN y)).length - 1,
        by rw [List.length_append]; omega, by omega⟩
    obtain ⟨k, hk, hk'⟩ := hk
    rw [hk]
    show _ :: annotationRegex.findAll (k + 1) _ = _
    rw [findAll_tail l k hk' (fun y hy => h y (by simp [NE.list, hy]))]
    rw [hl]; rfl
  rw [hall] at hm
  have : ∀ m : List Pair, (m.map fun x => [x.name, x.value.text]).mapM annAttr =
      some (m.map fun x => ⟨x.name, x.value.text⟩) := by
    intro m
    induction m with
    | nil => rfl
    | cons y m ih => simp [List.mapM_cons, ih]; rfl
  rw [this] at hm
  exact (Option.some.inj hm).symm

/-- C29, as far as it holds: for an annotation of an accepted text,
`ParseAnnotation` of the stored string succeeds with the target that is
written, and returns the attributes that are written, in order, exactly if no
string literal among them contains a quote (`\'`) or a newline (`\` and end of
line).  Missing: annotations with such literals, see `C29_violated`. -/
theorem C29_annotations_partial (w : World) (s : Str) (sch : Schema) (h : Accepts w s sch)
    (p : Program) (hp : Writes s p) (i k : Nat) (d : ActionDecl) (a : Annot) (act : Action)
    (text : Str) (hd : p.actions[i]? = some d) (ha : d.annotations[k]? = some a)
    (hact : sch.actions.elems[i]? = some act) (ht : act.annotations.elems[k]? = some text) :
    (∃ l, parseAnnotation text = .ok ⟨a.target, l⟩) ∧
    (parseAnnotation text =
        .ok ⟨a.target, a.attrs.list.map fun x => ⟨x.name, x.value.text⟩⟩ ↔
      ∀ x ∈ a.attrs.list, x.value.Plain) := by
  obtain ⟨hf, rfl, _⟩ := h.program hp
  have hi : i < p.actions.length := by
    rcases Nat.lt_or_ge i p.actions.length with h | h
    · exact h
    · rw [List.getElem?_eq_none h] at hd; cases hd
  rw [p.denote_actions, List.getElem?_append_left (by simpa using hi), List.getElem?_map, hd] at hact
  obtain rfl := Option.some.inj hact
  rw [show (ActionDecl.denote d).annotations.elems = _ from listed_elems _, List.getElem?_map, ha] at ht
  obtain rfl := Option.some.inj ht
  have hda : a ∈ d.annotations := List.mem_of_getElem? ha
  have sub : a.toks ⊆ p.toks := by
    intro x hx
    apply action_toks_sub (List.mem_of_getElem? hd)
    simp only [ActionDecl.toks, List.mem_append, List.mem_flatMap]
    exact .inl (.inl (.inl (.inl (.inl ⟨a, hda, hx⟩))))
  have htgt : IsName a.target := by
    obtain ⟨y, hy, hn⟩ := lexeme_block (hp.lexemes ⟨.BLOCK_VAR_OR_ANNOTATION, '@' :: a.target⟩
      (sub (by simp [Annot.toks])))
    simp at hy
    subst hy
    exact hn
  have hattr : ∀ x ∈ a.attrs.list, IsName x.name ∧ Lexeme x.value.tok false := by
    intro x hx
    have : ∀ t ∈ Pair.toks .ASSIGN x, t ∈ p.toks := by
      intro t ht
      apply sub
      simp only [Annot.toks, List.mem_append]
      exact .inl (.inr (NE.mem_toks (f := Pair.toks .ASSIGN) hx ht))
    exact ⟨(hp.ident (this _ (by simp [Pair.toks]))).1, hp.lexemes _ (this _ (by simp [Pair.toks]))⟩
  have hpar : '(' ∉ a.target := by
    intro hm
    cases hx : a.target with
    | nil => rw [hx] at hm; cases hm
    | cons c s =>
      rw [hx] at htgt hm
      rcases List.mem_cons.1 hm with rfl | hm
      · exact absurd htgt.1 (by decide)
      · exact absurd (htgt.2 _ hm) (by decide)
  have hne : a.target ≠ [] := by intro h0; rw [h0] at htgt; exact htgt
  have e : a.denote = a.target ++ '(' :: (glued (a.attrs.toks (Pair.toks .ASSIGN)) ++ [')']) := by
    simp [Annot.denote]
  refine ⟨?_, ?_, ?_⟩
  · obtain ⟨l, hl, _⟩ := parse_shape (b := glued (a.attrs.toks (Pair.toks .ASSIGN))) hpar (.inl hne)
    exact ⟨l, by rw [e]; exact hl⟩
  · intro hr x hx
    have := (C30_well_typed _ _ hr).1 ⟨x.name, x.value.text⟩ (List.mem_map.2 ⟨x, hx, rfl⟩)
    exact (lit_value (hattr x hx).2).1 this.2.2
  · intro hpl
    exact annot_parse htgt fun x hx => ⟨(hattr x hx).1, (lit_value (hattr x hx).2).2 (hpl x hx)⟩

/-- The sample text has an annotation with a plain literal. -/
example : parseAnnotation "kgw(authn='true')".toList =
    .ok ⟨"kgw".toList, [⟨"authn".toList, "'true'".toList⟩]⟩ := by
  refine ((C29_annotations_partial Sample.world Sample.text _ Sample.accepts Sample.prog
    Sample.writes 1 0 _ _ _ _ rfl rfl rfl (by rfl)).2.2 ?_)
  decide

/-- C29 does not hold: a text is accepted whose annotation has the attribute
`a='it\'s=3'`; its consumer gets `a='it\'` and `s=3`. -/
theorem C29_violated : ∃ w s sch act text p d a,
    Accepts w s sch ∧ Writes s p ∧ p.actions[0]? = some d ∧ d.annotations[0]? = some a ∧
    sch.actions.elems[0]? = some act ∧ act.annotations.elems[0]? = some text ∧
    a.attrs.list.map (fun x => (x.name, x.value.text)) = [("a".toList, "'it\\'s=3'".toList)] ∧
    parseAnnotation text = .ok ⟨"t".toList,
      [⟨"a".toList, "'it\\'".toList⟩, ⟨"s".toList, "3".toList⟩]⟩ := by
  let w : World := {
    actParse := fun _ => .ok .dml, sqlCheck := fun _ => none
    report := fun _ => ((1, 0, []), []), crash := fun _ => none }
  let a : Annot := ⟨"t".toList, ⟨⟨"a".toList, .str "'it\\'s=3'".toList⟩, []⟩⟩
  let d : ActionDecl := ⟨[a], "x".toList, ⟨none, []⟩, [.pub], ⟨.sql "select 1".toList, []⟩⟩
  let p : Program := ⟨"d".toList, [], [.action d]⟩
  have hw : Writes "database d; @t(a = 'it\\'s=3') action x() public {select 1;}".toList p :=
    writes_lit _ rfl (by decide +kernel)
  refine ⟨w, _, p.denote, d.denote, a.denote, p, d, a, ?_, hw, rfl, rfl, rfl, rfl, rfl, ?_⟩
  · have h1 : p.fault = none := by decide +kernel
    have h2 : validate w.toEnv p.denote = none := by decide +kernel
    rw [Accepts, parse, hw.parseKF, h1, h2]
    simp [Outcome.err, ErrorList.isErr]
  · decide +kernel

end Verif
