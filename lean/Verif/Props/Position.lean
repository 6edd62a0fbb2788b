import Verif.Props.Predict
import Verif.Props.Outcome
import Verif.Proof.Position
/-!
# Theorems about the place of the first syntax error (C68)
-/

namespace Verif

/-- What the run reports: the first token with which no sentence goes on. -/
theorem exec_first {ts : List Tok} (hlex : ∀ t ∈ ts, Lexeme t false) {n : Nat} {r : List Tok}
    (hns : ¬ Sentence ts) (h : execSource simRuntime n ts = .err r) :
    ∃ good bad rest, r = bad :: rest ∧ ts ++ [Tok.eof] = good ++ bad :: rest ∧ Begins good ∧
      (∀ s' l more, Tokenises s' l → visible l ++ [Tok.eof] = good ++ bad :: more →
        ¬ Sentence (visible l)) := by
  have h : exec simRuntime n [] 0 (goCode .source_unit) (ts ++ [Tok.eof]) = .err r := by
    unfold execSource at h
    split at h
    · cases h
    · exact h
  obtain ⟨pre, hpre, hv⟩ := exec_viable _ _ _ _ _ _ (goCode_wf _) (goCode_alive _) h
  obtain ⟨u, ks, hg⟩ := hv (by simp [goCode])
  rw [goCode_g] at hg
  cases r with
  | nil =>
    exfalso
    rw [List.append_nil] at hpre
    subst hpre
    have hchain := gen_eof (.call (k := 0) hg)
    rcases List.eq_nil_or_concat u with rfl | ⟨v, x, rfl⟩
    · rw [List.append_nil] at hg
      exact hns ⟨_, .call hg⟩
    · rw [List.concat_eq_append] at hchain
      exact chain_eof hchain (front := ts ++ [Tok.eof] ++ v) (t := x)
        (by simp) Tok.eof (by simp) rfl
  | cons bad rest =>
    refine ⟨pre, bad, rest, rfl, hpre, ?_, ?_⟩
    · refine starts_text ?_ (.call (k := 0) hg)
      intro t hmem
      obtain ⟨m, x, hm⟩ : ∃ m x, bad :: rest = m ++ [x] :=
        ⟨(bad :: rest).dropLast, (bad :: rest).getLast (by simp),
          (List.dropLast_concat_getLast (by simp)).symm⟩
      rw [hm, ← List.append_assoc] at hpre
      refine hlex t ?_
      rw [(List.append_inj' hpre rfl).1]
      exact List.mem_append_left _ hmem
    · intro s' l more _ hl hs
      obtain ⟨tree, hs⟩ := hs
      cases hs with
      | call hs =>
        obtain ⟨N, hN⟩ := exec_source sim_right hs
        rw [hpre] at h
        have he := exec_err_source (rest' := bad :: more) h rfl
        rw [← hl] at he
        have h1 := exec_mono N [] 0 (goCode .source_unit) (visible l ++ [Tok.eof])
          (by rw [hN]; simp) (max n N) (Nat.le_max_right _ _)
        have h2 := exec_mono n [] 0 (goCode .source_unit) (visible l ++ [Tok.eof])
          (by rw [he]; simp) (max n N) (Nat.le_max_left _ _)
        rw [hN] at h1
        rw [he, h1] at h2
        cases h2

theorem place_length : ∀ (l : List (Tok × Bool)) (p : Nat × Nat),
    (place p l)[(visible l).length]? =
      some (Tok.eof, (l.flatMap (·.1.text)).foldl advance p) := by
  intro l
  induction l with
  | nil => intro p; rfl
  | cons q l ih =>
    obtain ⟨t, hid⟩ := q
    intro p
    rw [visible_cons]
    cases hid with
    | true =>
      simp only [if_true, place, List.flatMap_cons, List.foldl_append]
      exact ih _
    | false =>
      simp only [Bool.false_eq_true, if_false, place, List.flatMap_cons, List.foldl_append,
        List.length_cons, List.getElem?_cons_succ]
      exact ih _

/-- A text that is no sentence: the run and the places. -/
theorem places_err {s : Str} {l : List (Tok × Bool)} {rest : Str} (hr : Reads s l rest)
    (hns : ¬ Sentence (visible l)) :
    ∃ before after good bad more, l = before ++ after ∧ visible before = good ∧
      ((∃ more, after = (bad, false) :: more) ∨ after = [] ∧ bad = Tok.eof) ∧
      visible l ++ [Tok.eof] = good ++ bad :: more ∧ Begins good ∧
      (∀ s' l more, Tokenises s' l → visible l ++ [Tok.eof] = good ++ bad :: more →
        ¬ Sentence (visible l)) ∧
      firstPlaces s = placeAfter (before.flatMap (·.1.text)) ::
        (if rest ≠ [] ∧ more.length = 1 then [placeAfter (l.flatMap (·.1.text))] else []) := by
  have hlex := visible_lexeme hr.lexemes
  obtain ⟨r, he⟩ := (exec_exact sim_inRange sim_right (fun t ht => (hlex t ht).ne_eof)
    (Nat.le_refl (30 * ((visible l).length + 2)))).2 hns
  obtain ⟨good, bad, more, rfl, hts, hst, hen⟩ := exec_first hlex hns he
  obtain ⟨before, after, hl, hb, ha, hp⟩ := place_split l (1, 0) good more bad hts
  refine ⟨before, after, good, bad, more, hl, hb, ha, hts, hst, hen, ?_⟩
  have hlen : (visible l).length + 1 - (bad :: more).length = good.length := by
    have := congrArg List.length hts
    simp only [List.length_append, List.length_cons, List.length_nil] at this ⊢
    omega
  unfold firstPlaces
  rw [tablePart_iff.2 hr]
  simp only
  rw [show (l.filter (fun p => !p.2)).map (·.1) = visible l from rfl, he]
  simp only [hlen]
  simp only [place_length, List.getElem?_map, hp, Option.map_some, Option.toList_some,
    List.length_cons, advance_foldl, List.singleton_append, Nat.reduceEqDiff, placeAfter]

/-- C68. A text that consists of tokens, but is no sentence: the first error is
reported at the first token with which no text without syntax errors goes on,
or at the end of the text if that comes too early. -/
theorem C68_position (s : Str) (toks : List (Tok × Bool)) (ht : Tokenises s toks)
    (hns : ¬ Sentence (visible toks)) :
    ∃ x good bad, FirstError s x good bad ∧ firstPlaces s = [placeAfter x] := by
  have hr := reads_nil.2 ht
  obtain ⟨before, after, good, bad, more, rfl, hb, ha, hts, hst, hen, hp⟩ := places_err hr hns
  refine ⟨_, good, bad, ⟨⟨before, after, [], hr, rfl, hb, ?_⟩, hst, hen⟩, by simpa using hp⟩
  rcases ha with ha | ⟨ha, rfl⟩
  · exact .inl ha
  · exact .inr ⟨ha, rfl, rfl⟩

/-- C68. A text with an error of the lexer, and nothing wrong before it: the
first error is reported at the place where no token starts. -/
theorem C68_lexical (s : Str) (l : List (Tok × Bool)) (rest : Str) (hr : Reads s l rest)
    (hne : rest ≠ []) (hb : Begins (visible l)) :
    firstPlaces s = [placeAfter (l.flatMap (·.1.text))] := by
  by_cases hs : Sentence (visible l)
  · have hlex := visible_lexeme hr.lexemes
    obtain ⟨tree, hs⟩ := hs
    have he := (exec_exact sim_inRange sim_right (fun t ht => (hlex t ht).ne_eof)
      (Nat.le_refl (30 * ((visible l).length + 2)))).1 tree hs
    unfold firstPlaces
    rw [tablePart_iff.2 hr]
    simp only
    rw [show (l.filter (fun p => !p.2)).map (·.1) = visible l from rfl, he]
    simp only [hne, if_false, place_length, List.getElem?_map, Option.map_some,
      Option.toList_some, advance_foldl, placeAfter]
  · obtain ⟨before, after, good, bad, more, rfl, hbe, ha, hts, hst, hen, hp⟩ := places_err hr hs
    rcases ha with ⟨more', rfl⟩ | ⟨rfl, rfl⟩
    · exfalso
      obtain ⟨s', l', m, hl', hs', hv⟩ := hb
      refine hen s' l' (visible more' ++ m ++ [Tok.eof]) hl' ?_ hs'
      rw [hv, ← hbe]
      simp [visible]
    · have : more = [] := by
        rw [List.append_nil, hbe] at hts
        have := List.append_cancel_left hts
        simpa using this.symm
      subst this
      simpa using hp

/-- C68. A text with an error of the lexer and something wrong before it: the
first error is reported at the first token with which no text without syntax
errors goes on; only if this is the last one before the place where no token
starts, it may be reported there instead. -/
theorem C68_before_lexical (s : Str) (l : List (Tok × Bool)) (rest : Str) (hr : Reads s l rest)
    (hne : rest ≠ []) (hb : ¬ Begins (visible l)) :
    ∃ x good bad more, FirstError s x good bad ∧ visible l = good ++ bad :: more ∧
      firstPlaces s = placeAfter x ::
        if more = [] then [placeAfter (l.flatMap (·.1.text))] else [] := by
  have hs : ¬ Sentence (visible l) := fun ⟨tree, hs⟩ =>
    hb (starts_text (visible_lexeme hr.lexemes) (u := [Tok.eof]) hs)
  obtain ⟨before, after, good, bad, more, rfl, hbe, ha, hts, hst, hen, hp⟩ := places_err hr hs
  rcases ha with ⟨more', rfl⟩ | ⟨rfl, rfl⟩
  · have hvis : visible (before ++ (bad, false) :: more') = good ++ bad :: visible more' := by
      rw [← hbe]; simp [visible]
    refine ⟨_, good, bad, visible more',
      ⟨⟨before, _, rest, hr, rfl, hbe, .inl ⟨_, rfl⟩⟩, hst, hen⟩, hvis, ?_⟩
    have hmore : more = visible more' ++ [Tok.eof] := by
      rw [hvis] at hts
      have := List.append_cancel_left (as := good) (by simpa using hts)
      simpa using this.symm
    rw [hp, hmore]
    by_cases hv : visible more' = []
    · simp [hv, hne]
    · have : (visible more').length ≠ 0 := by simpa using hv
      have h2 : ¬ ((visible more' ++ [Tok.eof]).length = 1) := by simp; omega
      simp only [hv, if_false, h2, and_false]
  · exfalso
    rw [List.append_nil, hbe] at hb
    exact hb hst

theorem firstError_lt {s x x' : Str} {good good' : List Tok} {bad bad' : Tok}
    (h : FirstError s x good bad) (h' : FirstError s x' good' bad')
    {before before' m : List (Tok × Bool)}
    (hb : visible before = good) (hb' : visible before' = good')
    (e : before' = before ++ (bad, false) :: m) : False := by
  obtain ⟨s', l, more', hl, hs, hv⟩ := h'.starts
  refine h.ends s' l (visible m ++ more' ++ [Tok.eof]) hl ?_ hs
  rw [hv, ← hb', e]
  simp [visible, ← hb]

/-- C68. There is only one such place. -/
theorem C68_unique (s x x' : Str) (good good' : List Tok) (bad bad' : Tok)
    (h : FirstError s x good bad) (h' : FirstError s x' good' bad') :
    x = x' ∧ good = good' ∧ bad = bad' := by
  obtain ⟨before, after, rest, ht, rfl, hb, ha⟩ := h.place
  obtain ⟨before', after', rest', ht', rfl, hb', ha'⟩ := h'.place
  obtain ⟨e, rfl⟩ := reads_unique ht ht'
  have same : before = before' → after = after' →
      before.flatMap (·.1.text) = before'.flatMap (·.1.text) ∧ good = good' ∧ bad = bad' := by
    intro e₁ e₂
    subst e₁ e₂
    refine ⟨rfl, by rw [← hb, hb'], ?_⟩
    rcases ha with ⟨m, ha⟩ | ⟨ha, _, ha₂⟩ <;> rcases ha' with ⟨m', ha'⟩ | ⟨ha', _, ha₂'⟩
    · rw [ha] at ha'; simpa using (List.cons.inj ha').1
    · rw [ha] at ha'; cases ha'
    · rw [ha] at ha'; cases ha'
    · rw [ha₂, ha₂']
  rcases List.append_eq_append_iff.1 e with ⟨m, e₁, e₂⟩ | ⟨m, e₁, e₂⟩
  · cases m with
    | nil => exact same (by simpa using e₁.symm) (by simpa using e₂)
    | cons c m =>
      rcases ha with ⟨k, ha⟩ | ⟨ha, _⟩
      · rw [ha] at e₂
        obtain ⟨rfl, _⟩ := List.cons.inj e₂
        exact (firstError_lt h h' hb hb' e₁).elim
      · rw [ha] at e₂; cases e₂
  · cases m with
    | nil => exact same (by simpa using e₁) (by simpa using e₂.symm)
    | cons c m =>
      rcases ha' with ⟨k, ha'⟩ | ⟨ha', _⟩
      · rw [ha'] at e₂
        obtain ⟨rfl, _⟩ := List.cons.inj e₂
        exact (firstError_lt h' h hb' hb e₁).elim
      · rw [ha'] at e₂; cases e₂

/-- What is assumed of the lines and columns that the ANTLR runtime reports:
the first report names a place that the model of the lexer and the generated
parser allows. -/
def World.Points (w : World) : Prop :=
  ∀ s, firstPlaces s ≠ [] → ((w.report s).1.1, (w.report s).1.2.1) ∈ firstPlaces s

/-- The error list starts with an error about the given place:
`syntax error: line L:C ` and a message. -/
def ReportsAt (l : ErrorList) (p : Nat × Nat) : Prop :=
  ∃ e msg, l.head? = some (.real e) ∧
    e.text = "syntax error: line ".toList ++ (toString p.1).toList ++ ":".toList ++
      (toString p.2).toList ++ " ".toList ++ msg

theorem reportsAt {w : World} (hw : w.Points) {s : Str} (hs : syntaxTree s = none)
    {ps : List (Nat × Nat)} (hp : firstPlaces s = ps) (hne : ps ≠ []) :
    ∃ p ∈ ps, ReportsAt (parse w s).errors p := by
  subst hp
  refine ⟨_, hw s hne, syntaxErr (w.report s).1, (w.report s).1.2.2, ?_, ?_⟩
  · unfold parse parseKF syntaxErrors
    rw [hs]
    simp only
    cases w.crash s <;> simp [finish]
  · unfold syntaxErr Sent.with Err.text Err.text Sent.text
    simp only [List.append_assoc]
    rfl

theorem syntaxTree_of {s : Str} {toks : List (Tok × Bool)} (ht : Tokenises s toks)
    (hns : ¬ Sentence (visible toks)) : syntaxTree s = none := by
  unfold syntaxTree
  rw [lexAll_of ht]
  simp only [Option.bind_some]
  cases hp : parseTokens (visible toks) with
  | none => rfl
  | some tree => exact absurd ⟨tree, (parseTokens_iff _ _).1 hp⟩ hns

/-- C68. The error that `Parse` returns names the place of the first syntax
error. -/
theorem C68_message (w : World) (hw : w.Points) (s x : Str) (toks : List (Tok × Bool))
    (ht : Tokenises s toks) (good : List Tok) (bad : Tok) (h : FirstError s x good bad) :
    ReportsAt (parse w s).errors (placeAfter x) := by
  have hns : ¬ Sentence (visible toks) := by
    obtain ⟨before, after, rest, hr, _, hb, ha⟩ := h.place
    obtain ⟨rfl, rfl⟩ := reads_unique hr (reads_nil.2 ht)
    rcases ha with ⟨m, rfl⟩ | ⟨rfl, _, rfl⟩
    · exact h.ends s _ (visible m ++ [Tok.eof]) ht (by rw [← hb]; simp [visible])
    · exact h.ends s _ [] ht (by rw [← hb]; simp)
  obtain ⟨x', good', bad', h', hp⟩ := C68_position s toks ht hns
  obtain ⟨rfl, _, _⟩ := C68_unique _ _ _ _ _ _ _ h h'
  obtain ⟨p, hp, hr⟩ := reportsAt hw (syntaxTree_of ht hns) hp (by simp)
  rw [List.mem_singleton.1 hp] at hr
  exact hr

/-- C68. The same for an error of the lexer. -/
theorem C68_message_lexical (w : World) (hw : w.Points) (s : Str) (l : List (Tok × Bool))
    (rest : Str) (hr : Reads s l rest) (hne : rest ≠ []) (hb : Begins (visible l)) :
    ReportsAt (parse w s).errors (placeAfter (l.flatMap (·.1.text))) := by
  have hs : syntaxTree s = none := by
    unfold syntaxTree
    cases hl : lexAll s with
    | none => rfl
    | some ts =>
      obtain ⟨l', hl', _⟩ := (lexAll_iff _ _).1 hl
      exact absurd (reads_unique hr (reads_nil.2 hl')).2 hne
  obtain ⟨p, hp, h⟩ := reportsAt hw hs (C68_lexical s l rest hr hne hb) (by simp)
  rw [List.mem_singleton.1 hp] at h
  exact h

/-! ## Examples -/

namespace Sample

/-- A second semicolon, in line 2. -/
def semi : Str := "database d;\n;".toList

/-- Something that is no token, in line 2. -/
def bang : Str := "database d;\n!".toList

/-- The tokens of `database d;`, a line feed, and what follows. -/
def semiToks : List (Tok × Bool) :=
  [(⟨.DATABASE_, "database".toList⟩, false), (⟨.WS, " ".toList⟩, true),
    (⟨.IDENTIFIER, "d".toList⟩, false), (⟨.SCOL, ";".toList⟩, false),
    (⟨.TERMINATOR, "\n".toList⟩, true)]

theorem semi_tokens : Tokenises semi (semiToks ++ [(⟨.SCOL, ";".toList⟩, false)]) :=
  (lexAllRaw_iff _ _).1 (by decide +kernel)

theorem semi_begins : Begins (visible semiToks) := by
  obtain ⟨l, hl, hs⟩ : ∃ l, lexAllRaw "database d;".toList = some l ∧
      (parseTokens (visible l)).isSome = true ∧ visible l = visible semiToks :=
    ⟨_, rfl, by decide +kernel⟩
  obtain ⟨tree, ht⟩ := Option.isSome_iff_exists.1 hs.1
  exact ⟨_, l, [], (lexAllRaw_iff _ _).1 hl, ⟨tree, (parseTokens_iff _ _).1 ht⟩, by simp [hs.2]⟩

/-- After a semicolon there is never another one. -/
theorem semi_pairs {w : List Tok} {ks : List Tree} (h : Gen (.call .source_unit 0) w ks) :
    Chain (fun a b => a != .SCOL || b != .SCOL) w := by
  have hR : ∀ r ∈ Rule.all, (grammar r).okPairs ruleInfo Rule.all sentenceTypes.contains
      (fun a b => a != .SCOL || b != .SCOL) = true := by decide +kernel
  exact (gen_described hR h (by decide)).pairs

theorem semi_error : FirstError semi "database d;\n".toList (visible semiToks)
    ⟨.SCOL, ";".toList⟩ where
  place := ⟨semiToks, [(⟨.SCOL, ";".toList⟩, false)], [], reads_nil.2 semi_tokens, rfl, rfl,
    .inl ⟨[], rfl⟩⟩
  starts := semi_begins
  ends := by
    intro s' l more _ hl hs
    obtain ⟨tree, hs⟩ := hs
    rw [hl] at hs
    have := semi_pairs hs
    have := (chain_append.1 this).2.2 ⟨.SCOL, ";".toList⟩ ⟨.SCOL, ";".toList⟩ rfl rfl
    simp at this

theorem bang_reads : Reads bang semiToks "!".toList := by
  refine .cons ((lexOne_iff _ _ _ _).1 (by decide +kernel : lexOne bang =
    some (_, _, " d;\n!".toList))) ?_
  refine .cons ((lexOne_iff _ _ _ _).1 (by decide +kernel : lexOne " d;\n!".toList =
    some (_, _, "d;\n!".toList))) ?_
  refine .cons ((lexOne_iff _ _ _ _).1 (by decide +kernel : lexOne "d;\n!".toList =
    some (_, _, ";\n!".toList))) ?_
  refine .cons ((lexOne_iff _ _ _ _).1 (by decide +kernel : lexOne ";\n!".toList =
    some (_, _, "\n!".toList))) ?_
  refine .cons ((lexOne_iff _ _ _ _).1 (by decide +kernel : lexOne "\n!".toList =
    some (_, _, "!".toList))) ?_
  refine .stop fun t h rest hn => ?_
  have h1 := (lexOne_iff _ _ _ _).2 hn
  rw [show lexOne "!".toList = none by decide +kernel] at h1
  cases h1

/-- A world whose reports name the right places. -/
noncomputable def pointing : World :=
  { Sample.world with
    report := fun s =>
      ((((firstPlaces s).headD (0, 0)).1, ((firstPlaces s).headD (0, 0)).2, []), []) }

theorem pointing_points : pointing.Points := by
  intro s h
  show (((firstPlaces s).headD (0, 0)).1, ((firstPlaces s).headD (0, 0)).2) ∈ firstPlaces s
  cases hp : firstPlaces s with
  | nil => exact absurd hp h
  | cons p ps => simp

/-- The second semicolon is reported in line 2, column 0. -/
example : ReportsAt (parse pointing semi).errors (2, 0) := by
  have h := C68_message pointing pointing_points semi _ _ semi_tokens _ _ semi_error
  rwa [show placeAfter "database d;\n".toList = (2, 0) by decide] at h

/-- What is no token is reported in line 2, column 0. -/
example : ReportsAt (parse pointing bang).errors (2, 0) := by
  have h := C68_message_lexical pointing pointing_points bang _ _ bang_reads (by decide)
    semi_begins
  rwa [show placeAfter (semiToks.flatMap (·.1.text)) = (2, 0) by decide] at h

/-- The first place of `C68_position`, computed by its uniqueness. -/
example : firstPlaces semi = [(2, 0)] := by
  have hns : ¬ Sentence (visible (semiToks ++ [(⟨.SCOL, ";".toList⟩, false)])) :=
    semi_error.ends semi _ [Tok.eof] semi_tokens rfl
  obtain ⟨x, good, bad, h, hp⟩ := C68_position semi _ semi_tokens hns
  obtain ⟨rfl, _, _⟩ := C68_unique _ _ _ _ _ _ _ h semi_error
  rwa [show placeAfter "database d;\n".toList = (2, 0) by decide] at hp

end Sample

end Verif
