import Verif.Spec.Expected
import Verif.Proof.Expected
import Verif.Props.Position
/-!
# C75: what a syntax error says is expected
-/

namespace Verif

theorem mayFollow_of {good u : List Tok} {t : TT} {ks : List Tree}
    (hlex : ∀ x ∈ good, Lexeme x false)
    (h : Gen (.call .source_unit 0) (good ++ ⟨t, []⟩ :: u) ks) : MayFollow good t := by
  obtain ⟨s, l, more, h₁, h₂, h₃, h₄⟩ := starts_text_types hlex h
  cases more with
  | nil =>
    simp only [List.map_nil, List.nil_append, List.map_cons, List.cons.injEq] at h₄
    refine .inl ⟨h₄.1.symm, ?_⟩
    rw [h₃, List.append_nil] at h₂
    exact h₂
  | cons x more =>
    simp only [List.map_cons, List.cons_append, List.cons.injEq] at h₄
    refine .inr ⟨x, h₄.1, s, l, more, h₁, h₂, ?_⟩
    rw [h₃]; simp

theorem FirstError.split {s x : Str} {good : List Tok} {bad : Tok} (h : FirstError s x good bad) :
    ∃ l rest more, Reads s l rest ∧ ¬ Sentence (visible l) ∧
      visible l ++ [Tok.eof] = good ++ bad :: more := by
  obtain ⟨before, after, rest, hr, _, hb, ha⟩ := h.place
  rcases ha with ⟨m, rfl⟩ | ⟨rfl, rfl, rfl⟩
  · refine ⟨_, rest, visible m ++ [Tok.eof], hr, ?_, by rw [← hb]; simp [visible]⟩
    rintro ⟨tree, hs⟩
    obtain ⟨s', l', more, hl', hs', hv⟩ :=
      starts_text (visible_lexeme hr.lexemes) (u := [Tok.eof]) hs
    refine h.ends s' l' (visible m ++ more ++ [Tok.eof]) hl' ?_ hs'
    rw [hv, ← hb]
    simp [visible]
  · exact ⟨_, [], [], hr, h.ends s _ [] (reads_nil.1 hr) (by rw [← hb]; simp),
      by rw [← hb]; simp⟩

/-- The same tokens are split in only one way. -/
theorem split_unique {w good good' more more' : List Tok} {bad bad' : Tok}
    (h : w = good ++ bad :: more) (h' : w = good' ++ bad' :: more')
    (hb : Begins good) (hb' : Begins good')
    (he : ∀ s' l more, Tokenises s' l → visible l ++ [Tok.eof] = good ++ bad :: more →
      ¬ Sentence (visible l))
    (he' : ∀ s' l more, Tokenises s' l → visible l ++ [Tok.eof] = good' ++ bad' :: more →
      ¬ Sentence (visible l)) : good = good' ∧ bad = bad' ∧ more = more' := by
  have longer : ∀ {g g' : List Tok} {b : Tok} {m}, g' = g ++ b :: m → Begins g' →
      (∀ s' l more, Tokenises s' l → visible l ++ [Tok.eof] = g ++ b :: more →
        ¬ Sentence (visible l)) → False := by
    intro g g' b m hg ⟨s', l', more, hl, hs, hv⟩ hen
    exact hen s' l' (m ++ more ++ [Tok.eof]) hl (by rw [hv, hg]; simp) hs
  rw [h] at h'
  rcases List.append_eq_append_iff.1 h' with ⟨m, e₁, e₂⟩ | ⟨m, e₁, e₂⟩
  · cases m with
    | nil =>
      simp only [List.append_nil] at e₁
      simp only [List.nil_append, List.cons.injEq] at e₂
      exact ⟨e₁.symm, e₂.1, e₂.2⟩
    | cons c m =>
      obtain ⟨rfl, _⟩ := List.cons.inj e₂
      exact (longer e₁ hb' he).elim
  · cases m with
    | nil =>
      simp only [List.append_nil] at e₁
      simp only [List.nil_append, List.cons.injEq] at e₂
      exact ⟨e₁, e₂.1.symm, e₂.2.symm⟩
    | cons c m =>
      obtain ⟨rfl, _⟩ := List.cons.inj e₂
      exact (longer e₁ hb he').elim

/-- C75. If the message about the first syntax error says what is expected,
then something is, every expected token would be right in this place, and the
one that is there is not expected. -/
theorem C75_truthful (s x : Str) (good : List Tok) (bad : Tok) (h : FirstError s x good bad)
    (E : TT → Prop) (hE : expectedAt s = some E) :
    (∃ t, E t) ∧ (∀ t, E t → MayFollow good t) ∧ ¬ E bad.ty := by
  obtain ⟨l, rest, more, hr, hns, hsp⟩ := h.split
  have hlex := visible_lexeme hr.lexemes
  obtain ⟨r, he⟩ := (exec_exact sim_inRange sim_right (fun t ht => (hlex t ht).ne_eof)
    (Nat.le_refl (30 * ((visible l).length + 2)))).2 hns
  obtain ⟨good', bad', more', rfl, hts', hst', hen'⟩ := exec_first hlex hns he
  obtain ⟨rfl, rfl, rfl⟩ := split_unique hsp hts' h.starts hst' h.ends hen'
  have he : exec simRuntime (30 * ((visible l).length + 2)) [] 0 (goCode .source_unit)
      (visible l ++ [Tok.eof]) = .err (bad :: more) := by
    unfold execSource at he
    split at he
    · cases he
    · exact he
  have hE : wanted simRuntime (30 * ((visible l).length + 2)) [] 0 (goCode .source_unit)
      (visible l ++ [Tok.eof]) = some E := by
    unfold expectedAt at hE
    rw [tablePart_iff.2 hr] at hE
    exact hE
  obtain ⟨hne, pre, hpre, hv⟩ := wanted_viable _ _ _ _ [] _ _ _ (goCode_wf _) (goCode_alive _)
    (goCode_chk _) ⟨_, .nil⟩ he hE
  obtain rfl : good = pre := List.append_cancel_right (hsp.symm.trans hpre)
  have hgood : ∀ t ∈ good, Lexeme t false := by
    intro t ht
    have hlast : ∃ m z, bad :: more = m ++ [z] :=
      ⟨(bad :: more).dropLast, (bad :: more).getLast (by simp),
        (List.dropLast_concat_getLast (by simp)).symm⟩
    obtain ⟨m, z, hm⟩ := hlast
    rw [hm, ← List.append_assoc] at hsp
    refine hlex t ?_
    rw [(List.append_inj' hsp rfl).1]
    exact List.mem_append_left _ ht
  have hgen : ∀ t, E t → ∃ u ks, Gen (.call .source_unit 0) (good ++ ⟨t, []⟩ :: u) ks := by
    intro t ht
    obtain ⟨u, t₁, t₂, ks, e, g₁, g₂⟩ := hv t ht
    cases g₂
    rw [goCode_g] at g₁
    rw [List.append_nil] at e
    rw [← e] at g₁
    exact ⟨u, _, .call g₁⟩
  refine ⟨hne, fun t ht => ?_, fun hbad => ?_⟩
  · obtain ⟨u, ks, hg⟩ := hgen t ht
    exact mayFollow_of hgood hg
  · obtain ⟨u, ks, hg⟩ := hgen _ hbad
    by_cases hbe : bad.ty = .EOF
    · rcases mayFollow_of hgood hg with ⟨_, hs⟩ | ⟨tok, htok, s', l', more', hl', hs', hv'⟩
      · obtain ⟨s', l', more', hl', hs', hv'⟩ := h.starts
        obtain ⟨tree, hs⟩ := hs
        obtain ⟨s'', l'', more'', h1, h2, h3, h4⟩ := starts_text_types hgood (u := [Tok.eof]) hs
        have : more'' = [] := by
          cases more'' with
          | nil => rfl
          | cons a b => simp at h4
        subst this
        have hbeof : bad = Tok.eof := by
          rcases List.eq_nil_or_concat more with rfl | ⟨m, z, rfl⟩
          · have := (List.append_inj' (hsp.trans (by simp : good ++ [bad] = good ++ [bad])) rfl).2
            simpa using this.symm
          · exfalso
            rw [List.concat_eq_append] at hsp
            have hv2 : visible l = good ++ bad :: m :=
              (List.append_inj' (hsp.trans (by simp : _ = (good ++ bad :: m) ++ [z])) rfl).1
            exact (hlex bad (by rw [hv2]; simp)).ne_eof hbe
        refine h.ends s'' l'' [] h1 ?_ h2
        rw [h3, hbeof]; simp
      · have := visible_lexeme hl'.lexemes
        exact (this tok (by rw [hv']; simp)).ne_eof (htok.trans hbe)
    · have hbl : Lexeme bad false := by
        refine hlex bad ?_
        have hmem : bad ∈ visible l ++ [Tok.eof] := by rw [hsp]; simp
        rcases List.mem_append.1 hmem with hm | hm
        · exact hm
        · simp only [List.mem_singleton] at hm
          subst hm
          exact absurd rfl hbe
      obtain ⟨ks', hg'⟩ := gen_respell hg (good ++ [bad] ++ u) (by simp)
      obtain ⟨s', l', more', hl', hs', hv'⟩ := starts_text (good := good ++ [bad])
        (by
          intro t ht
          rcases List.mem_append.1 ht with ht | ht
          · exact hgood t ht
          · simp only [List.mem_singleton] at ht; subst ht; exact hbl) hg'
      exact h.ends s' l' (more' ++ [Tok.eof]) hl' (by rw [hv']; simp) hs'

/-! ## The states before a token -/

/-- The sets of tokens that the code asks for with `Match` or with a test. -/
def Go.leaves : Go → List (List TT)
  | .tok t => [[t]]
  | .set c => [sorted c.toks]
  | .seq a b => a.leaves ++ b.leaves
  | .ifLA _ a b => a.leaves ++ b.leaves
  | .whileLA _ a => a.leaves
  | .whileAP _ a => a.leaves
  | .switchAP _ x => x.leaves
  | .case _ _ a b => a.leaves ++ b.leaves
  | _ => []

/-- The tokens that lead on from a state, if it has one transition, with
tokens. -/
def stateSet (st : Nat) : Option (List TT) :=
  match parserAtn.out st with
  | [e] => if e.silent || e.ty == 3 || e.ty == 10 || (parserAtn.st st).ty == 7 then none
      else some (TT.all.filter (parserAtn.eats e))
  | _ => none

theorem match_states_all : Rule.all.all (fun r =>
    (matchStates r).map stateSet |>.all (fun x => (goCode r).leaves.map some |>.contains x)) = true ∧
    Rule.all.all (fun r => (goCode r).leaves.all fun x =>
      ((matchStates r).map stateSet).contains (some x)) = true := by
  constructor <;> decide +kernel

theorem stateSet_looks {st : Nat} {l : List TT} (h : stateSet st = some l) (x : Option TT) :
    parserAtn.Looks st [] x ↔ ∃ t ∈ l, x = some t := by
  unfold stateSet at h
  split at h
  · rename_i e he
    split at h
    · cases h
    · rename_i hs
      simp only [Bool.or_eq_true, beq_iff_eq, not_or, Bool.not_eq_true] at hs
      obtain ⟨⟨⟨hsil, h3⟩, h10⟩, h7⟩ := hs
      cases h
      constructor
      · intro hl
        cases hl with
        | stop h => exact absurd h h7
        | silent hm hor _ =>
          cases out_mem_single he hm
          rcases hor with h | h
          · rw [hsil] at h; cases h
          · exact absurd h h10
        | call hr _ =>
          obtain ⟨hm, h⟩ := ruleEdge_mem hr
          cases out_mem_single he hm
          exact absurd h h3
        | @token _ _ _ t hm heat =>
          cases out_mem_single he hm
          exact ⟨_, List.mem_filter.2 ⟨by cases t <;> decide, heat⟩, rfl⟩
      · rintro ⟨t, ht, rfl⟩
        exact .token (e := e) (by rw [he]; simp) (List.mem_filter.1 ht).2
  · cases h

/-- C75. What `Match` and the tests of the generated code ask for is what the
tables expect in the state set before: for every such state the code of its
rule asks for a set of tokens, and for every set there is a state, such that
the tables look for exactly these tokens. -/
theorem C75_match_states (r : Rule) :
    (∀ st ∈ matchStates r, ∃ l ∈ (goCode r).leaves,
      ∀ x, parserAtn.Looks st [] x ↔ ∃ t ∈ l, x = some t) ∧
    (∀ l ∈ (goCode r).leaves, ∃ st ∈ matchStates r,
      ∀ x, parserAtn.Looks st [] x ↔ ∃ t ∈ l, x = some t) := by
  have hr : r ∈ Rule.all := by cases r <;> decide
  constructor
  · intro st hst
    have h := List.all_eq_true.1 match_states_all.1 r hr
    have h := List.all_eq_true.1 h (stateSet st) (List.mem_map_of_mem hst)
    rw [List.contains_iff_mem, List.mem_map] at h
    obtain ⟨l, hl, e⟩ := h
    exact ⟨l, hl, stateSet_looks e.symm⟩
  · intro l hl
    have h := List.all_eq_true.1 match_states_all.2 r hr
    have h := List.all_eq_true.1 h l hl
    rw [List.contains_iff_mem, List.mem_map] at h
    obtain ⟨st, hst, e⟩ := h
    exact ⟨st, hst, stateSet_looks e⟩

/-! ## Names -/

theorem names_all : (TT.all.map tokenName).Nodup ∧
    TT.all.all (fun t => (tokenName t).toList.head? != some '\'' ||
      lexAllRaw (((tokenName t).toList.drop 1).dropLast) ==
        some [(⟨t, ((tokenName t).toList.drop 1).dropLast⟩, false)]) = true := by
  constructor <;> decide +kernel

theorem names_inj {α β : Type} {f : α → β} : ∀ {l : List α}, (l.map f).Nodup →
    ∀ {a b : α}, a ∈ l → b ∈ l → f a = f b → a = b := by
  intro l
  induction l with
  | nil => intro _ a b ha; simp at ha
  | cons x l ih =>
    intro h a b ha hb he
    simp only [List.map_cons, List.nodup_cons, List.mem_map, not_exists, not_and] at h
    rcases List.mem_cons.1 ha with rfl | ha <;> rcases List.mem_cons.1 hb with rfl | hb
    · rfl
    · exact absurd he.symm (h.1 b hb)
    · exact absurd he (h.1 a (by assumption))
    · exact ih h.2 ha hb he

/-- C75. Different tokens have different names, and a name in quotes is the
text of the token. -/
theorem C75_names :
    (∀ t u, tokenName t = tokenName u → t = u) ∧
    ∀ t x, (tokenName t).toList = '\'' :: x ++ ['\''] → IsWord t x := by
  constructor
  · intro t u h
    exact names_inj names_all.1 (by cases t <;> decide) (by cases u <;> decide) h
  · intro t x h
    have := List.all_eq_true.1 names_all.2 t (by cases t <;> decide)
    rw [h] at this
    simp at this
    exact (lexAllRaw_iff _ _).1 this

/-- C75. Writing the expected tokens into the message does not panic. -/
theorem C75_listed (s x : Str) (good : List Tok) (bad : Tok) (h : FirstError s x good bad)
    (E : TT → Prop) (hE : expectedAt s = some E) :
    ∃ l names, l ≠ [] ∧ (∀ t, t ∈ l ↔ E t) ∧ tokenString l = some names ∧
      tokenString (members E) = some names := by
  obtain ⟨⟨t, ht⟩, _⟩ := C75_truthful s x good bad h E hE
  have hm : ∀ t, t ∈ members E ↔ E t := by
    intro t
    have : t ∈ TT.all := by cases t <;> decide
    simp [members, this]
  have hne : members E ≠ [] := by
    intro he
    have := (hm t).2 ht
    rw [he] at this
    simp at this
  obtain ⟨names, hn⟩ : ∃ names, tokenString (members E) = some names := by
    cases hl : members E with
    | nil => exact absurd hl hne
    | cons a l => cases l <;> exact ⟨_, rfl⟩
  exact ⟨_, names, hne, hm, hn, hn⟩

/-- What is assumed of the messages that the ANTLR runtime writes: if the first
error of a text is one about unexpected tokens, the message has one of the
three forms of `DefaultErrorStrategy`, with the names of the expected tokens. -/
def World.Names (w : World) : Prop :=
  ∀ s E, lexAll s ≠ none → expectedAt s = some E → ∃ names input,
    tokenString (members E) = some names ∧
    ((w.report s).1.2.2 = "mismatched input ".toList ++ input ++ " expecting ".toList ++ names ∨
      (w.report s).1.2.2 = "extraneous input ".toList ++ input ++ " expecting ".toList ++ names ∨
      (w.report s).1.2.2 = "missing ".toList ++ names ++ " at ".toList ++ input)

/-- C75. The tokens named in the first error that `Parse` returns would be right
at the place it is about. -/
theorem C75_message (w : World) (hw : w.Points) (hn : w.Names) (s x : Str)
    (toks : List (Tok × Bool)) (ht : Tokenises s toks) (good : List Tok) (bad : Tok)
    (h : FirstError s x good bad) (E : TT → Prop) (hE : expectedAt s = some E) :
    ∃ e l names input msg, (parse w s).errors.head? = some (.real e) ∧
      e.text = "syntax error: line ".toList ++ (toString (placeAfter x).1).toList ++ ":".toList ++
        (toString (placeAfter x).2).toList ++ " ".toList ++ msg ∧
      (msg = "mismatched input ".toList ++ input ++ " expecting ".toList ++ names ∨
        msg = "extraneous input ".toList ++ input ++ " expecting ".toList ++ names ∨
        msg = "missing ".toList ++ names ++ " at ".toList ++ input) ∧
      tokenString l = some names ∧ l ≠ [] ∧ ∀ t ∈ l, MayFollow good t := by
  obtain ⟨hne, hall, _⟩ := C75_truthful s x good bad h E hE
  obtain ⟨l, names, hl, hm, hs, hs'⟩ := C75_listed s x good bad h E hE
  obtain ⟨names', input, hs2, hmsg⟩ := hn s E (by rw [lexAll_of ht]; simp) hE
  obtain rfl : names = names' := by rw [hs'] at hs2; exact Option.some.inj hs2
  have hns : ¬ Sentence (visible toks) := by
    obtain ⟨before, after, rest, hr, _, hb, ha⟩ := h.place
    obtain ⟨rfl, rfl⟩ := reads_unique hr (reads_nil.2 ht)
    rcases ha with ⟨m, rfl⟩ | ⟨rfl, _, rfl⟩
    · exact h.ends s _ (visible m ++ [Tok.eof]) ht (by rw [← hb]; simp [visible])
    · exact h.ends s _ [] ht (by rw [← hb]; simp)
  obtain ⟨x', good', bad', h', hp⟩ := C68_position s toks ht hns
  obtain ⟨rfl, _, _⟩ := C68_unique _ _ _ _ _ _ _ h h'
  have hpl := hw s (by rw [hp]; simp)
  rw [hp, List.mem_singleton] at hpl
  refine ⟨syntaxErr (w.report s).1, l, names, input, _, ?_, ?_, hmsg, hs, hl,
    fun t ht => hall t ((hm t).1 ht)⟩
  · unfold parse parseKF syntaxErrors
    rw [syntaxTree_of ht hns]
    simp only
    cases w.crash s <;> simp [finish]
  · rw [← hpl]
    unfold syntaxErr Sent.with Err.text Err.text Sent.text
    simp only [List.append_assoc]
    rfl

/-! ## Examples -/

namespace Sample

/-- A database without a name. -/
def nameless : Str := "database;".toList

def namelessToks : List (Tok × Bool) :=
  [(⟨.DATABASE_, "database".toList⟩, false), (⟨.SCOL, ";".toList⟩, false)]

theorem nameless_tokens : Tokenises nameless namelessToks :=
  (lexAllRaw_iff _ _).1 (by decide +kernel)

/-- `database;` is an error at the semicolon. -/
theorem nameless_error : FirstError nameless "database".toList
    [⟨.DATABASE_, "database".toList⟩] ⟨.SCOL, ";".toList⟩ where
  place := ⟨[(⟨.DATABASE_, "database".toList⟩, false)], [(⟨.SCOL, ";".toList⟩, false)], [],
    reads_nil.2 nameless_tokens, rfl, rfl, .inl ⟨[], rfl⟩⟩
  starts := by
    obtain ⟨s, l, more, h1, h2, h3⟩ := semi_begins
    exact ⟨s, l, _, h1, h2, h3⟩
  ends := by
    intro s' l more _ hl ⟨tree, hs⟩
    rw [hl] at hs
    have hR : ∀ r ∈ Rule.all, (grammar r).okPairs ruleInfo Rule.all sentenceTypes.contains
        (fun a b => a != .DATABASE_ || b != .SCOL) = true := by decide +kernel
    have := (gen_described hR hs (by decide)).pairs
    have := (chain_append.1 this).2.2 ⟨.DATABASE_, "database".toList⟩ ⟨.SCOL, ";".toList⟩ rfl rfl
    simp at this

/-- A name is expected. -/
theorem nameless_expected : expectedAt nameless = some fun t => t = .IDENTIFIER := by
  unfold expectedAt
  rw [tablePart_iff.2 (reads_nil.2 nameless_tokens)]
  show wanted simRuntime (114 + 6) [] 0 _ [⟨.DATABASE_, "database".toList⟩, ⟨.SCOL, ";".toList⟩, Tok.eof] = _
  generalize 114 = n
  unfold goCode
  simp only [wanted, exec, goCode]
  simp [Res.andThen]

end Sample

/-- What the theorem says about `database;`: a name may follow `database`. -/
example : MayFollow [⟨.DATABASE_, "database".toList⟩] .IDENTIFIER :=
  (C75_truthful _ _ _ _ Sample.nameless_error _ Sample.nameless_expected).2.1 _ rfl

example : tokenString [.IDENTIFIER] = some "IDENTIFIER".toList ∧
    tokenString [.USE_, .TABLE_] = some "{'use', 'table'}".toList := by decide

example : IsWord .TABLE_ "table".toList := C75_names.2 .TABLE_ "table".toList (by decide)

end Verif
