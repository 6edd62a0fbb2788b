import Verif.Spec.Derivation
import Verif.Proof.Sound
/-!
# Which tokens can follow each other

A static analysis of the grammar: first and last tokens, and adjacent pairs.
-/

namespace Verif

/-- Can be empty; possible first and last token types. -/
structure Info where
  nul : Bool
  first : List TT
  last : List TT
  deriving DecidableEq, Repr

/-- The analysis of a right-hand side, given that of the rules. -/
def G.info (T : Rule → Info) : G → Info
  | .eps => ⟨true, [], []⟩
  | .tok s => ⟨false, s, s⟩
  | .call r _ => T r
  | .pred _ => ⟨true, [], []⟩
  | .seq a b =>
      ⟨(a.info T).nul && (b.info T).nul,
        (a.info T).first ++ (if (a.info T).nul then (b.info T).first else []),
        (b.info T).last ++ (if (b.info T).nul then (a.info T).last else [])⟩
  | .alt _ a b =>
      ⟨(a.info T).nul || (b.info T).nul, (a.info T).first ++ (b.info T).first,
        (a.info T).last ++ (b.info T).last⟩
  | .star _ a => ⟨true, (a.info T).first, (a.info T).last⟩

/-- All tokens are allowed, all adjacent pairs are allowed, and only rules in
`R` are called. -/
def G.okPairs (T : Rule → Info) (R : List Rule) (ok1 : TT → Bool) (ok2 : TT → TT → Bool) :
    G → Bool
  | .eps => true
  | .tok s => s.all ok1
  | .call r _ => R.contains r
  | .pred _ => true
  | .seq a b => a.okPairs T R ok1 ok2 && b.okPairs T R ok1 ok2 &&
      (a.info T).last.all fun x => (b.info T).first.all fun y => ok2 x y
  | .alt _ a b => a.okPairs T R ok1 ok2 && b.okPairs T R ok1 ok2
  | .star _ a => a.okPairs T R ok1 ok2 &&
      (a.info T).last.all fun x => (a.info T).first.all fun y => ok2 x y

/-- The table of the rules (a fixed point, see `ruleInfo_ok`). -/
def ruleInfo : Rule → Info
  | .source_unit => ⟨false, [.DATABASE_], [.EOF]⟩
  | .database_directive => ⟨false, [.DATABASE_], [.IDENTIFIER]⟩
  | .extension_directive => ⟨false, [.USE_], [.SCOL]⟩
  | .ext_config_list => ⟨false, [.IDENTIFIER], [.UNSIGNED_NUMBER_LITERAL, .STRING_LITERAL]⟩
  | .ext_config => ⟨false, [.IDENTIFIER], [.UNSIGNED_NUMBER_LITERAL, .STRING_LITERAL]⟩
  | .annotation_decl => ⟨false, [.BLOCK_VAR_OR_ANNOTATION], [.R_PAREN]⟩
  | .annotation_attr_list => ⟨false, [.IDENTIFIER], [.UNSIGNED_NUMBER_LITERAL, .STRING_LITERAL]⟩
  | .annotation_attr => ⟨false, [.IDENTIFIER], [.UNSIGNED_NUMBER_LITERAL, .STRING_LITERAL]⟩
  | .table_decl => ⟨false, [.TABLE_], [.R_BRACE]⟩
    | .column_def => ⟨false, [.IDENTIFIER], [.PRIMARY_, .NOT_NULL_, .UNIQUE_, .R_PAREN, .INT_,
      .TEXT_, .BLOB_]⟩
    | .column_def_list => ⟨false, [.IDENTIFIER], [.PRIMARY_, .NOT_NULL_, .UNIQUE_, .R_PAREN,
      .INT_, .TEXT_, .BLOB_]⟩
  | .column_type => ⟨false, [.INT_, .TEXT_, .BLOB_], [.INT_, .TEXT_, .BLOB_]⟩
    | .column_constraint => ⟨false, [.PRIMARY_, .NOT_NULL_, .UNIQUE_, .DEFAULT_, .MIN_, .MAX_,
      .MIN_LEN_, .MAX_LEN_], [.PRIMARY_, .NOT_NULL_, .UNIQUE_, .R_PAREN]⟩
    | .literal_value => ⟨false, [.UNSIGNED_NUMBER_LITERAL, .STRING_LITERAL],
      [.UNSIGNED_NUMBER_LITERAL, .STRING_LITERAL]⟩
  | .number_value => ⟨false, [.UNSIGNED_NUMBER_LITERAL], [.UNSIGNED_NUMBER_LITERAL]⟩
  | .index_def => ⟨false, [.INDEX_NAME], [.R_PAREN]⟩
    | .foreign_key_action => ⟨false, [.ACTION_ON_UPDATE_, .ACTION_ON_DELETE_],
      [.ACTION_DO_NO_ACTION_, .ACTION_DO_CASCADE_, .ACTION_DO_SET_NULL_,
      .ACTION_DO_SET_DEFAULT_, .ACTION_DO_RESTRICT_]⟩
    | .foreign_key_def => ⟨false, [.FOREIGN_KEY_, .FOREIGN_KEY_ABBR_], [.ACTION_DO_NO_ACTION_,
      .ACTION_DO_CASCADE_, .ACTION_DO_SET_NULL_, .ACTION_DO_SET_DEFAULT_, .ACTION_DO_RESTRICT_,
      .R_PAREN]⟩
  | .action_visibility => ⟨false, [.PUBLIC_, .PRIVATE_], [.PUBLIC_, .PRIVATE_]⟩
  | .action_mutability => ⟨false, [.VIEW_], [.VIEW_]⟩
  | .action_auxiliary => ⟨false, [.OWNER_], [.OWNER_]⟩
    | .action_attr_list => ⟨true, [.PUBLIC_, .PRIVATE_, .VIEW_, .OWNER_], [.PUBLIC_, .PRIVATE_,
      .VIEW_, .OWNER_]⟩
  | .action_decl => ⟨false, [.BLOCK_VAR_OR_ANNOTATION, .ACTION_], [.R_BRACE]⟩
  | .param_list => ⟨true, [.PARAM_OR_VAR, .COMMA], [.PARAM_OR_VAR]⟩
  | .parameter => ⟨false, [.PARAM_OR_VAR], [.PARAM_OR_VAR]⟩
  | .database_name => ⟨false, [.IDENTIFIER], [.IDENTIFIER]⟩
  | .extension_name => ⟨false, [.IDENTIFIER], [.IDENTIFIER]⟩
  | .ext_config_name => ⟨false, [.IDENTIFIER], [.IDENTIFIER]⟩
  | .table_name => ⟨false, [.IDENTIFIER], [.IDENTIFIER]⟩
  | .action_name => ⟨false, [.IDENTIFIER], [.IDENTIFIER]⟩
  | .column_name => ⟨false, [.IDENTIFIER], [.IDENTIFIER]⟩
  | .column_name_list => ⟨false, [.IDENTIFIER], [.IDENTIFIER]⟩
  | .index_name => ⟨false, [.INDEX_NAME], [.INDEX_NAME]⟩
  | .annotation_target_name => ⟨false, [.BLOCK_VAR_OR_ANNOTATION], [.BLOCK_VAR_OR_ANNOTATION]⟩
  | .annotation_attr_name => ⟨false, [.IDENTIFIER], [.IDENTIFIER]⟩
    | .annotation_attr_value => ⟨false, [.UNSIGNED_NUMBER_LITERAL, .STRING_LITERAL],
      [.UNSIGNED_NUMBER_LITERAL, .STRING_LITERAL]⟩
    | .ext_config_value => ⟨false, [.UNSIGNED_NUMBER_LITERAL, .STRING_LITERAL],
      [.UNSIGNED_NUMBER_LITERAL, .STRING_LITERAL]⟩
  | .init_decl => ⟨false, [.INIT_], [.R_BRACE]⟩
  | .action_stmt_list => ⟨false, [.SQL_STMT, .PARAM_OR_VAR, .IDENTIFIER], [.SCOL]⟩
  | .action_stmt => ⟨false, [.SQL_STMT, .PARAM_OR_VAR, .IDENTIFIER], [.SCOL]⟩
  | .sql_stmt => ⟨false, [.SQL_STMT], [.SCOL]⟩
  | .call_stmt => ⟨false, [.PARAM_OR_VAR, .IDENTIFIER], [.SCOL]⟩
  | .call_receivers => ⟨false, [.PARAM_OR_VAR], [.PARAM_OR_VAR]⟩
  | .call_body => ⟨false, [.IDENTIFIER], [.R_PAREN]⟩
  | .variable => ⟨false, [.PARAM_OR_VAR], [.PARAM_OR_VAR]⟩
  | .block_var => ⟨false, [.BLOCK_VAR_OR_ANNOTATION], [.BLOCK_VAR_OR_ANNOTATION]⟩
  | .extension_call_name => ⟨false, [.IDENTIFIER], [.IDENTIFIER]⟩
  | .fn_name => ⟨false, [.IDENTIFIER], [.IDENTIFIER]⟩
  | .sfn_name => ⟨false, [.IDENTIFIER], [.IDENTIFIER]⟩
    | .fn_arg_list => ⟨true, [.UNSIGNED_NUMBER_LITERAL, .STRING_LITERAL, .PARAM_OR_VAR,
      .BLOCK_VAR_OR_ANNOTATION, .L_PAREN, .PLUS, .MINUS, .TILDE, .NOT_, .IDENTIFIER, .COMMA],
      [.R_PAREN, .UNSIGNED_NUMBER_LITERAL, .STRING_LITERAL, .PARAM_OR_VAR,
      .BLOCK_VAR_OR_ANNOTATION]⟩
    | .fn_arg_expr => ⟨false, [.UNSIGNED_NUMBER_LITERAL, .STRING_LITERAL, .PARAM_OR_VAR,
      .BLOCK_VAR_OR_ANNOTATION, .L_PAREN, .PLUS, .MINUS, .TILDE, .NOT_, .IDENTIFIER], [.R_PAREN,
      .UNSIGNED_NUMBER_LITERAL, .STRING_LITERAL, .PARAM_OR_VAR, .BLOCK_VAR_OR_ANNOTATION]⟩

theorem Rule.mem_all (r : Rule) : r ∈ Rule.all := by cases r <;> decide

/-- Is the first analysis covered by the second? -/
def Info.sub (a b : Info) : Bool :=
  (!a.nul || b.nul) && a.first.all b.first.contains && a.last.all b.last.contains

theorem ruleInfo_ok : ∀ r ∈ Rule.all, ((grammar r).info ruleInfo).sub (ruleInfo r) = true := by
  decide +kernel

/-- Adjacent elements are related. -/
def Chain (R : TT → TT → Bool) : List Tok → Prop
  | [] => True
  | t :: ts => (∀ u, ts.head? = some u → R t.ty u.ty = true) ∧ Chain R ts

theorem chain_append {R : TT → TT → Bool} {a b : List Tok} :
    Chain R (a ++ b) ↔ Chain R a ∧ Chain R b ∧
      ∀ x y, a.getLast? = some x → b.head? = some y → R x.ty y.ty = true := by
  induction a with
  | nil => simp [Chain]
  | cons t a ih =>
    cases a with
    | nil =>
      simp only [List.cons_append, List.nil_append, Chain, List.head?_nil, List.getLast?_singleton]
      simp
      constructor
      · rintro ⟨h1, h2⟩; exact ⟨h2, fun x y hx => hx ▸ h1 y⟩
      · rintro ⟨h1, h2⟩; exact ⟨fun y => h2 t y rfl, h1⟩
    | cons u a =>
      have e : (t :: u :: a).getLast? = (u :: a).getLast? := List.getLast?_cons_cons
      rw [e]
      simp only [List.cons_append, Chain, List.head?_cons] at ih ⊢
      constructor
      · rintro ⟨h1, h2⟩
        obtain ⟨h3, h4, h5⟩ := ih.1 h2
        exact ⟨⟨h1, h3⟩, h4, h5⟩
      · rintro ⟨⟨h1, h3⟩, h4, h5⟩
        exact ⟨h1, ih.2 ⟨h3, h4, h5⟩⟩

/-- What the analysis says of a derived token list. -/
structure Described (i : Info) (ok1 : TT → Bool) (ok2 : TT → TT → Bool) (ts : List Tok) : Prop where
  nul : ts = [] → i.nul = true
  first : ∀ t, ts.head? = some t → t.ty ∈ i.first
  last : ∀ t, ts.getLast? = some t → t.ty ∈ i.last
  each : ∀ t ∈ ts, ok1 t.ty = true
  pairs : Chain ok2 ts

theorem Described.mono {i j ok1 ok2 ts} (h : Described i ok1 ok2 ts) (hs : i.sub j = true) :
    Described j ok1 ok2 ts := by
  simp [Info.sub] at hs
  obtain ⟨⟨h1, h2⟩, h3⟩ := hs
  refine ⟨fun h0 => ?_, fun t ht => h2 _ (h.first t ht), fun t ht => h3 _ (h.last t ht),
    h.each, h.pairs⟩
  rcases h1 with h1 | h1
  · rw [h.nul h0] at h1; cases h1
  · exact h1

/-- The analysis is sound. -/
theorem gen_described {R : List Rule} {ok1 : TT → Bool} {ok2 : TT → TT → Bool}
    (hR : ∀ r ∈ R, (grammar r).okPairs ruleInfo R ok1 ok2 = true)
    {g : G} {ts : List Tok} {ks : List Tree} (h : Gen g ts ks)
    (hg : g.okPairs ruleInfo R ok1 ok2 = true) : Described (g.info ruleInfo) ok1 ok2 ts := by
  have glue : ∀ {a b : Info} {x y : List Tok}, Described a ok1 ok2 x → Described b ok1 ok2 y →
      (a.last.all fun p => b.first.all fun q => ok2 p q) = true → Chain ok2 (x ++ y) := by
    intro a b x y hx hy hc
    rw [chain_append]
    refine ⟨hx.pairs, hy.pairs, ?_⟩
    intro u v hu hv
    simp at hc
    exact hc _ (hx.last u hu) _ (hy.first v hv)
  induction h with
  | eps => exact ⟨fun _ => rfl, by simp, by simp, by simp, trivial⟩
  | @tok s t h =>
    simp [G.okPairs] at hg
    exact ⟨by simp, by simp [G.info, h], by simp [G.info, h], by simpa using hg _ h, by simp [Chain]⟩
  | @call r k ts ks _ ih =>
    simp [G.okPairs] at hg
    exact (ih (hR r hg)).mono (ruleInfo_ok r r.mem_all)
  | pred => exact ⟨fun _ => rfl, by simp, by simp, by simp, trivial⟩
  | @seq a b t₁ t₂ k₁ k₂ _ _ ih₁ ih₂ =>
    simp only [G.okPairs, Bool.and_eq_true] at hg
    have d₁ := ih₁ hg.1.1
    have d₂ := ih₂ hg.1.2
    refine ⟨?_, ?_, ?_, ?_, glue d₁ d₂ hg.2⟩
    · intro h0
      simp at h0
      simp [G.info, d₁.nul h0.1, d₂.nul h0.2]
    · intro t ht
      simp only [G.info, List.mem_append]
      cases t₁ with
      | nil => right; rw [if_pos (d₁.nul rfl)]; exact d₂.first t ht
      | cons u t₁ => left; exact d₁.first t ht
    · intro t ht
      simp only [G.info, List.mem_append]
      cases t₂ with
      | nil => right; rw [if_pos (d₂.nul rfl)]; exact d₁.last t (by simpa using ht)
      | cons u t₂ => left; exact d₂.last t (by simpa [List.getLast?_append] using ht)
    · intro t ht
      rcases List.mem_append.1 ht with h | h
      · exact d₁.each t h
      · exact d₂.each t h
  | altL _ ih =>
    simp only [G.okPairs, Bool.and_eq_true] at hg
    have d := ih hg.1
    exact ⟨fun h => by simp [G.info, d.nul h], fun t ht => by simp [G.info, d.first t ht],
      fun t ht => by simp [G.info, d.last t ht], d.each, d.pairs⟩
  | altR _ ih =>
    simp only [G.okPairs, Bool.and_eq_true] at hg
    have d := ih hg.2
    exact ⟨fun h => by simp [G.info, d.nul h], fun t ht => by simp [G.info, d.first t ht],
      fun t ht => by simp [G.info, d.last t ht], d.each, d.pairs⟩
  | starNil => exact ⟨fun _ => rfl, by simp, by simp, by simp, trivial⟩
  | @starCons gd a t₁ t₂ k₁ k₂ _ _ ih₁ ih₂ =>
    have d₂ := ih₂ hg
    simp only [G.okPairs, Bool.and_eq_true] at hg
    have d₁ := ih₁ hg.1
    refine ⟨fun _ => rfl, ?_, ?_, ?_, glue d₁ d₂ hg.2⟩
    · intro t ht
      cases t₁ with
      | nil => exact d₂.first t ht
      | cons u t₁ => exact d₁.first t ht
    · intro t ht
      cases t₂ with
      | nil => exact d₁.last t (by simpa using ht)
      | cons u t₂ => exact d₂.last t (by simpa [List.getLast?_append] using ht)
    · intro t ht
      rcases List.mem_append.1 ht with h | h
      · exact d₁.each t h
      · exact d₂.each t h

/-! Sentences -/

/-- Token types that occur in sentences. -/
def sentenceTypes : List TT := TT.all.filter fun t =>
  ![TT.DOLLAR, .HASH, .AT, .SELECT_, .INSERT_, .UPDATE_, .DELETE_, .WITH_, .SQL_KEYWORDS,
    .WS, .TERMINATOR, .BLOCK_COMMENT, .LINE_COMMENT].contains t

/-- Facts about adjacent tokens used later: `/` is not followed by `*`, an SQL
statement is followed by `;`. -/
def sentencePair (a b : TT) : Bool :=
  !(a == .DIV && b == .STAR) && (a != .SQL_STMT || b == .SCOL)

theorem sentence_described {ts : List Tok} (h : Sentence ts) :
    Described ⟨false, [.DATABASE_], [.EOF]⟩ sentenceTypes.contains sentencePair (ts ++ [Tok.eof]) := by
  obtain ⟨tree, h⟩ := h
  have hR : ∀ r ∈ Rule.all,
      (grammar r).okPairs ruleInfo Rule.all sentenceTypes.contains sentencePair = true := by
    decide +kernel
  exact gen_described hR h (by decide)

theorem sentence_types {ts : List Tok} (h : Sentence ts) : ∀ t ∈ ts, t.ty ∈ sentenceTypes := by
  intro t ht
  have := (sentence_described h).each t (by simp [ht])
  simpa using this

theorem sentence_pairs {ts : List Tok} (h : Sentence ts) : Chain sentencePair ts :=
  (chain_append.1 (sentence_described h).pairs).1

end Verif
