import Verif.Proof.Sound
/-!
# Argument expressions

`fn_arg_expr` is the only recursive rule, and the only one that is ambiguous
when precedences are ignored.  Its language is shown to be the flat language
"operand (operator operand)*", and the parser to consume all of it.
-/

namespace Verif

/-- Precedence of a binary operator token. -/
def opPrec (t : TT) : Option Nat :=
  (opTable.find? (fun e => e.2.1.contains t)).map (·.1)

/-- The three syntactic kinds of the flat language. -/
inductive FK where
  | unit | flat | args

/-- Operands, operator chains, and argument lists. -/
inductive Fl : FK → List Tok → Prop where
  | atom {t : Tok} : t.ty ∈ [TT.UNSIGNED_NUMBER_LITERAL, .STRING_LITERAL, .PARAM_OR_VAR,
      .BLOCK_VAR_OR_ANNOTATION] → Fl .unit [t]
  | paren {l r : Tok} {w : List Tok} : l.ty = .L_PAREN → Fl .flat w → r.ty = .R_PAREN →
      Fl .unit (l :: (w ++ [r]))
  | pre {t : Tok} {w : List Tok} : t.ty ∈ [TT.PLUS, .MINUS, .TILDE, .NOT_] → Fl .unit w →
      Fl .unit (t :: w)
  | call {i l r : Tok} {w : List Tok} : i.ty = .IDENTIFIER → l.ty = .L_PAREN → Fl .args w →
      r.ty = .R_PAREN → Fl .unit (i :: l :: (w ++ [r]))
  | callStar {i l s r : Tok} : i.ty = .IDENTIFIER → l.ty = .L_PAREN → s.ty = .STAR →
      r.ty = .R_PAREN → Fl .unit [i, l, s, r]
  | callNil {i l r : Tok} : i.ty = .IDENTIFIER → l.ty = .L_PAREN →
      r.ty = .R_PAREN → Fl .unit [i, l, r]
  | one {w : List Tok} : Fl .unit w → Fl .flat w
  | op {u v : List Tok} {o : Tok} : Fl .unit u → (opPrec o.ty).isSome → Fl .flat v →
      Fl .flat (u ++ o :: v)
  | argOne {w : List Tok} : Fl .flat w → Fl .args w
  | argCons {w v : List Tok} {c : Tok} : Fl .flat w → c.ty = .COMMA → Fl .args v →
      Fl .args (w ++ c :: v)

/-- What can follow an operand: nothing, or an operator and an expression. -/
def Tail (w : List Tok) : Prop :=
  w = [] ∨ ∃ o v, w = o :: v ∧ (opPrec o.ty).isSome ∧ Fl .flat v

theorem Fl.split {w : List Tok} (h : Fl .flat w) : ∃ u t, w = u ++ t ∧ Fl .unit u ∧ Tail t := by
  cases h with
  | one h => exact ⟨w, [], by simp, h, .inl rfl⟩
  | op hu ho hv => exact ⟨_, _, rfl, hu, .inr ⟨_, _, rfl, ho, hv⟩⟩

theorem Fl.join {u t : List Tok} (hu : Fl .unit u) (ht : Tail t) : Fl .flat (u ++ t) := by
  rcases ht with rfl | ⟨o, v, rfl, ho, hv⟩
  · simpa using Fl.one hu
  · exact .op hu ho hv

theorem Fl.ne_nil {k : FK} {w : List Tok} (h : Fl k w) : w ≠ [] := by
  induction h <;> simp_all

theorem Fl.append {w : List Tok} (h : Fl .flat w) : ∀ t, Tail t → Fl .flat (w ++ t) := by
  generalize hk : FK.flat = k at h
  induction h with
  | one h => intro t ht; exact h.join ht
  | op hu ho hv _ ih =>
    intro t ht
    have := ih rfl t ht
    rw [List.append_assoc, List.cons_append]
    exact .op hu ho this
  | _ => cases hk

theorem Fl.tail_append {w t : List Tok} (h : Tail w) (ht : Tail t) : Tail (w ++ t) := by
  rcases h with rfl | ⟨o, v, rfl, ho, hv⟩
  · simpa using ht
  · exact .inr ⟨o, v ++ t, by simp, ho, hv.append t ht⟩

/-! ## Derivations are flat -/

theorem gen_t {x : TT} {ts ks} :
    Gen (G.t x) ts ks ↔ ∃ t, t.ty = x ∧ ts = [t] ∧ ks = [.leaf t] := by
  simp [G.t]

theorem gen_call_tok {r : Rule} {k : Nat} {s : List TT} {ts ks} (h : Gen (.call r k) ts ks)
    (hr : grammar r = .tok s) : ∃ t, t.ty ∈ s ∧ ts = [t] ∧ ks = [mkNode r [.leaf t]] := by
  rw [gen_call, hr] at h
  obtain ⟨ks', h, rfl⟩ := h
  obtain ⟨t, ht, rfl, rfl⟩ := gen_tok.1 h
  exact ⟨t, ht, rfl, rfl⟩

theorem gen_opAlts {es : List (Nat × List TT × Nat)} {ts ks} (hne : es ≠ [])
    (h : Gen (opAlts es) ts ks) :
    ∃ e ∈ es, ∃ o v kv, o.ty ∈ e.2.1 ∧ ts = o :: v ∧ Gen (.call .fn_arg_expr e.2.2) v kv := by
  induction es with
  | nil => exact absurd rfl hne
  | cons e es ih =>
    have base : Gen (opAlt e) ts ks → ∃ o v kv, o.ty ∈ e.2.1 ∧ ts = o :: v ∧
        Gen (.call .fn_arg_expr e.2.2) v kv := by
      intro h
      simp only [opAlt, gen_seq, gen_pred, gen_tok] at h
      obtain ⟨_, _, _, _, ⟨rfl, rfl⟩, ⟨_, _, v, kv, ⟨o, ho, rfl, rfl⟩, hv, rfl, rfl⟩, rfl, rfl⟩ := h
      exact ⟨o, v, kv, ho, by simp, hv⟩
    cases es with
    | nil =>
      obtain ⟨o, v, kv, h₁, h₂, h₃⟩ := base h
      exact ⟨e, by simp, o, v, kv, h₁, h₂, h₃⟩
    | cons e' es' =>
      rw [opAlts, gen_alt] at h
      · rcases h with h | h
        · obtain ⟨o, v, kv, h₁, h₂, h₃⟩ := base h
          exact ⟨e, by simp, o, v, kv, h₁, h₂, h₃⟩
        · obtain ⟨e'', he, r⟩ := ih (by simp) h
          exact ⟨e'', by simp only [List.mem_cons] at he ⊢; exact .inr he, r⟩
      · simp

theorem opPrec_of_mem {e : Nat × List TT × Nat} (he : e ∈ opTable) {t : TT} (ht : t ∈ e.2.1) :
    (opPrec t).isSome := by
  simp only [opPrec, Option.isSome_map, List.find?_isSome]
  exact ⟨e, he, by simpa using ht⟩

/-- Derivations of `fn_arg_expr` are flat. -/
theorem gen_flat : ∀ (m : Nat) (ts : List Tok) (k : Nat) (ks : List Tree), ts.length ≤ m →
    Gen (.call .fn_arg_expr k) ts ks → Fl .flat ts := by
  intro m
  induction m with
  | zero =>
    intro ts k ks hm h
    have hnil : ts = [] := List.eq_nil_of_length_eq_zero (by omega)
    subst hnil
    rw [gen_call] at h
    obtain ⟨ks', h, rfl⟩ := h
    exfalso
    simp only [grammar, gen_seq] at h
    obtain ⟨t₁, k₁, t₂, k₂, h₁, h₂, he, rfl⟩ := h
    have ⟨h1, h2⟩ := List.append_eq_nil_iff.1 he.symm
    subst h1
    simp only [gen_alt, gen_seq, gen_t, gen_tok] at h₁
    rcases h₁ with h | h | h | h | h | h | h
    · obtain ⟨t, _, h, _⟩ := gen_call_tok h rfl; cases h
    · obtain ⟨t, _, h, _⟩ := gen_call_tok h rfl; cases h
    · obtain ⟨t, _, h, _⟩ := gen_call_tok h rfl; cases h
    · obtain ⟨_, _, _, _, ⟨_, _, rfl, _⟩, _, h, _⟩ := h; simp at h
    · obtain ⟨_, _, _, _, ⟨_, _, rfl, _⟩, _, h, _⟩ := h; simp at h
    · obtain ⟨_, _, _, _, ⟨_, _, rfl, _⟩, _, h, _⟩ := h; simp at h
    · obtain ⟨_, _, _, _, h₁, _, h, _⟩ := h
      obtain ⟨t, _, rfl, _⟩ := gen_call_tok h₁ rfl; simp at h
  | succ m ih =>
    intro ts k ks hm h
    rw [gen_call] at h
    obtain ⟨ks', h, rfl⟩ := h
    simp only [grammar, gen_seq] at h
    obtain ⟨t₁, k₁, t₂, k₂, h₁, h₂, rfl, rfl⟩ := h
    -- the loop
    have loop : ∀ (g : Guard) (t : List Tok) (ks : List Tree), t.length ≤ m + 1 →
        Gen (.star g (opAlts opTable)) t ks → Tail t := by
      intro g t ks hl h
      generalize hg : G.star g (opAlts opTable) = gg at h
      induction h with
      | starNil => exact .inl rfl
      | starCons ha _ _ ih₂ =>
        cases hg
        obtain ⟨e, he, o, v, kv, ho, rfl, hv⟩ := gen_opAlts (by simp [opTable]) ha
        have hfl := ih v _ _ (by simp at hl; omega) hv
        exact Fl.tail_append (.inr ⟨o, v, rfl, opPrec_of_mem he ho, hfl⟩)
          (ih₂ (by simp at hl ⊢; omega) rfl)
      | _ => cases hg
    simp only [List.length_append] at hm
    -- the first operand; it may swallow operators when it starts with a prefix
    have goal : t₁ ≠ [] → (Fl .flat t₁) := by
      intro hne
      simp only [gen_alt] at h₁
      rcases h₁ with h | h | h | h | h | h | h
      · obtain ⟨t, ht, rfl, _⟩ := gen_call_tok h rfl
        exact .one (.atom (by simp at ht ⊢; rcases ht with h | h <;> simp [h]))
      · obtain ⟨t, ht, rfl, _⟩ := gen_call_tok h rfl
        exact .one (.atom (by simp at ht ⊢; simp [ht]))
      · obtain ⟨t, ht, rfl, _⟩ := gen_call_tok h rfl
        exact .one (.atom (by simp at ht ⊢; simp [ht]))
      · simp only [gen_seq, gen_t] at h
        obtain ⟨_, _, _, _, ⟨l, hl, rfl, _⟩, ⟨w, kw, _, _, hw, ⟨r, hr, rfl, _⟩, rfl, _⟩, rfl, _⟩ := h
        exact .one (.paren hl (ih w _ _ (by simp at hm; omega) hw) hr)
      · simp only [gen_seq, gen_tok] at h
        obtain ⟨_, _, w, kw, ⟨t, ht, rfl, _⟩, hw, rfl, _⟩ := h
        obtain ⟨u, tl, rfl, hu, htl⟩ := (ih w _ _ (by simp at hm ⊢; omega) hw).split
        have : Fl .unit (t :: u) := .pre (by simp at ht ⊢; rcases ht with h | h | h <;> simp [h]) hu
        simpa using this.join htl
      · simp only [gen_seq, gen_t] at h
        obtain ⟨_, _, w, kw, ⟨t, ht, rfl, _⟩, hw, rfl, _⟩ := h
        obtain ⟨u, tl, rfl, hu, htl⟩ := (ih w _ _ (by simp at hm ⊢; omega) hw).split
        have : Fl .unit (t :: u) := .pre (by simp [ht]) hu
        simpa using this.join htl
      · simp only [gen_seq, gen_alt, gen_t, gen_eps] at h
        obtain ⟨_, _, _, _, h₁, ⟨_, _, _, _, ⟨l, hl, rfl, _⟩,
          ⟨w, kw, _, _, hw, ⟨r, hr, rfl, _⟩, rfl, _⟩, rfl, _⟩, rfl, _⟩ := h
        obtain ⟨i, hi, rfl, _⟩ := gen_call_tok h₁ rfl
        simp at hi
        simp at hm
        rcases hw with hw | ⟨s, hs, rfl, _⟩ | ⟨rfl, _⟩
        · refine .one (.call hi hl ?_ hr)
          simp only [G.sep, gen_seq] at hw
          obtain ⟨a, ka, b, kb, ha, hb, rfl, _⟩ := hw
          simp at hm
          have ha := ih a _ _ (by omega) ha
          have more : ∀ (g : Guard) (a t : List Tok) (ks : List Tree), t.length ≤ m →
              Fl .flat a →
              Gen (.star g (.seq (G.t .COMMA) (G.c .fn_arg_expr))) t ks → Fl .args (a ++ t) := by
            intro g a t ks hl hfa h
            generalize hg : G.star g _ = gg at h
            induction h generalizing a with
            | starNil => simpa using Fl.argOne hfa
            | starCons ha _ _ ih₂ =>
              cases hg
              simp only [gen_seq, gen_t] at ha
              obtain ⟨_, _, v, kv, ⟨c, hc, rfl, _⟩, hv, rfl, _⟩ := ha
              simp at hl
              have hv := ih v _ _ (by omega) hv
              have := ih₂ v (by omega) hv rfl
              simpa using Fl.argCons hfa hc this
            | _ => cases hg
          exact more _ a b kb (by omega) ha hb
        · exact .one (.callStar hi hl hs hr)
        · exact .one (.callNil hi hl hr)
    have hne : t₁ ≠ [] := by
      intro h0; subst h0
      simp only [gen_alt, gen_seq, gen_t, gen_tok] at h₁
      rcases h₁ with h | h | h | h | h | h | h
      · obtain ⟨t, _, h, _⟩ := gen_call_tok h rfl; cases h
      · obtain ⟨t, _, h, _⟩ := gen_call_tok h rfl; cases h
      · obtain ⟨t, _, h, _⟩ := gen_call_tok h rfl; cases h
      · obtain ⟨_, _, _, _, ⟨_, _, rfl, _⟩, _, h, _⟩ := h; simp at h
      · obtain ⟨_, _, _, _, ⟨_, _, rfl, _⟩, _, h, _⟩ := h; simp at h
      · obtain ⟨_, _, _, _, ⟨_, _, rfl, _⟩, _, h, _⟩ := h; simp at h
      · obtain ⟨_, _, _, _, h₁, _, h, _⟩ := h
        obtain ⟨t, _, rfl, _⟩ := gen_call_tok h₁ rfl; simp at h
    exact (goal hne).append _ (loop _ _ _ (by omega) h₂)

/-! ## The parser consumes a flat expression -/

/-- The loop of `fn_arg_expr`. -/
def exprLoop : G := .star (opTable.map opLook) (opAlts opTable)

theorem ops_ok (p : Nat) (o : Tok) (ts : List Tok) :
    Guard.ok p (opTable.map opLook) (o :: ts) = true ↔ ∃ k, opPrec o.ty = some k ∧ p ≤ k := by
  rcases o with ⟨ty, tx⟩
  cases ty <;>
    simp [Guard.ok, Look.ok, laOk, opTable, opLook, opPrec, List.find?]

/-- Entering the loop at an operator of sufficient precedence `k` parses the
right operand with precedence `k + 1`. -/
theorem run_opAlts (n p k : Nat) (o : Tok) (ts rest : List Tok) (ks : List Tree)
    (h : opPrec o.ty = some k) (hk : p ≤ k)
    (hr : run n (k + 1) (grammar .fn_arg_expr) ts = some (ks, rest)) :
    run (n + 11) p (opAlts opTable) (o :: ts) =
      some ([.leaf o, mkNode .fn_arg_expr ks], rest) := by
  rcases o with ⟨ty, tx⟩
  have up : ∀ j, run (n + j) (k + 1) (grammar .fn_arg_expr) ts = some (ks, rest) :=
    fun j => run_mono _ _ _ _ _ hr _ (by omega)
  cases ty <;> simp [opPrec, opTable, List.find?] at h
  all_goals
    subst h
    simp [opAlts, opTable, opAlt, opLook, run, Guard.ok, Look.ok, laOk, hk, up]

/-- What may follow an expression: a token that is no operator. -/
def NoOp (rest : List Tok) : Prop := ∃ t r, rest = t :: r ∧ opPrec t.ty = none

/-- What is left unread by `fn_arg_expr` at precedence `p`: nothing, or a part
starting with an operator of lower precedence. -/
def Left (p : Nat) (w : List Tok) : Prop :=
  w = [] ∨ ∃ o v k, w = o :: v ∧ opPrec o.ty = some k ∧ k < p ∧ Fl .flat v

theorem Left.tail {p w} (h : Left p w) : Tail w := by
  rcases h with rfl | ⟨o, v, k, rfl, ho, _, hv⟩
  · exact .inl rfl
  · exact .inr ⟨o, v, rfl, by simp [ho], hv⟩

theorem Left.zero {w} (h : Left 0 w) : w = [] := by
  rcases h with rfl | ⟨_, _, _, _, _, h, _⟩
  · rfl
  · omega

/-- Steps per token. -/
abbrev eC : Nat := 30

/-- The statement proved by induction: on a flat expression followed by a
non-operator, `fn_arg_expr` at any precedence succeeds and leaves only
operators of lower precedence. -/
def ExprOk (w : List Tok) : Prop :=
  ∀ p rest, NoOp rest → ∃ ks w₂, Left p w₂ ∧ w₂.length < w.length ∧
    run (eC * w.length) p (grammar .fn_arg_expr) (w ++ rest) = some (ks, w₂ ++ rest)

theorem run_loop (m : Nat) (ih : ∀ w, w.length ≤ m → Fl .flat w → ExprOk w) :
    ∀ (l : Nat) (w : List Tok), w.length ≤ l → w.length ≤ m + 1 → Tail w → ∀ p rest, NoOp rest →
      ∃ ks w₂, Left p w₂ ∧ w₂.length ≤ w.length ∧
        run (eC * w.length + 5) p exprLoop (w ++ rest) = some (ks, w₂ ++ rest) := by
  intro l
  induction l with
  | zero =>
    intro w hl _ ht p rest hno
    obtain rfl : w = [] := List.eq_nil_of_length_eq_zero (by omega)
    obtain ⟨t, r, rfl, hn⟩ := hno
    refine ⟨[], [], .inl rfl, by simp, ?_⟩
    have : ¬ Guard.ok p (opTable.map opLook) (t :: r) = true := by
      rw [ops_ok]; simp [hn]
    simp [exprLoop, run, this]
  | succ l ihl =>
    intro w hl hm ht p rest hno
    rcases ht with rfl | ⟨o, v, rfl, ho, hv⟩
    · exact ihl [] (by simp) (by simp) (.inl rfl) p rest hno
    · obtain ⟨k, hk⟩ := Option.isSome_iff_exists.1 ho
      by_cases hp : p ≤ k
      · obtain ⟨ks, w₂, hleft, hlen, hrun⟩ := ih v (by simp at hm; omega) hv (k + 1) rest hno
        have hstep := run_opAlts _ p k o _ _ _ hk hp hrun
        simp at hl
        obtain ⟨ks', w₃, hleft', hlen', hrun'⟩ :=
          ihl w₂ (by omega) (by simp at hm; omega) hleft.tail p rest hno
        refine ⟨[.leaf o, mkNode .fn_arg_expr ks] ++ ks', w₃, hleft', by simp; omega, ?_⟩
        have h₁ := run_mono _ _ _ _ _ hstep (eC * (o :: v).length + 4)
          (by simp [eC]; omega)
        have h₂ := run_mono _ _ _ _ _ hrun' (eC * (o :: v).length + 4)
          (by simp [eC]; omega)
        have hg : Guard.ok p (opTable.map opLook) (o :: (v ++ rest)) = true :=
          (ops_ok _ _ _).2 ⟨k, hk, hp⟩
        exact run_star_ok hg h₁ h₂
      · refine ⟨[], o :: v, .inr ⟨o, v, k, rfl, hk, by omega, hv⟩, by simp, ?_⟩
        have : ¬ Guard.ok p (opTable.map opLook) (o :: (v ++ rest)) = true := by
          rw [ops_ok]; simp [hk]; omega
        simp [exprLoop, run, this]

open G in
/-- The operand part of `fn_arg_expr`. -/
def exprPrim : G :=
  .alt (la1 [.UNSIGNED_NUMBER_LITERAL, .STRING_LITERAL]) (c .literal_value) <|
  .alt (la1 [.PARAM_OR_VAR]) (c .variable) <|
  .alt (la1 [.BLOCK_VAR_OR_ANNOTATION]) (c .block_var) <|
  .alt (la1 [.L_PAREN]) (t .L_PAREN ⬝ c .fn_arg_expr ⬝ t .R_PAREN) <|
  .alt (la1 [.PLUS, .MINUS, .TILDE])
    (.seq (.tok [.PLUS, .MINUS, .TILDE]) (.call .fn_arg_expr 11)) <|
  .alt (la1 [.NOT_]) (.seq (t .NOT_) (.call .fn_arg_expr 4))
    (c .sfn_name ⬝ t .L_PAREN ⬝
      .alt (la1 exprFirst) (sep (c .fn_arg_expr))
        (.alt (la1 [.STAR]) (t .STAR) .eps) ⬝
      t .R_PAREN)

theorem g_literal : grammar .literal_value =
    .tok [.UNSIGNED_NUMBER_LITERAL, .STRING_LITERAL] := rfl
theorem g_variable : grammar .variable = .tok [.PARAM_OR_VAR] := rfl
theorem g_block_var : grammar .block_var = .tok [.BLOCK_VAR_OR_ANNOTATION] := rfl
theorem g_sfn : grammar .sfn_name = .tok [.IDENTIFIER] := rfl

theorem grammar_expr : grammar .fn_arg_expr = .seq exprPrim exprLoop := rfl

theorem Fl.first {k : FK} {w : List Tok} (h : Fl k w) :
    ∃ t r, w = t :: r ∧ t.ty ∈ exprFirst := by
  induction h with
  | atom h =>
    refine ⟨_, _, rfl, ?_⟩
    simp at h
    rcases h with h | h | h | h <;> simp [h, exprFirst]
  | paren h _ _ => exact ⟨_, _, rfl, by simp [h, exprFirst]⟩
  | pre h _ =>
    refine ⟨_, _, rfl, ?_⟩
    simp at h
    rcases h with h | h | h | h <;> simp [h, exprFirst]
  | call h => exact ⟨_, _, rfl, by simp [h, exprFirst]⟩
  | callStar h => exact ⟨_, _, rfl, by simp [h, exprFirst]⟩
  | callNil h => exact ⟨_, _, rfl, by simp [h, exprFirst]⟩
  | one _ ih => exact ih
  | op _ _ _ ih => obtain ⟨t, r, rfl, h⟩ := ih; exact ⟨_, _, rfl, h⟩
  | argOne _ ih => exact ih
  | argCons _ _ _ ih => obtain ⟨t, r, rfl, h⟩ := ih; exact ⟨_, _, rfl, h⟩

theorem prim_atom (n p : Nat) (t : Tok) (ts : List Tok)
    (h : t.ty ∈ [TT.UNSIGNED_NUMBER_LITERAL, .STRING_LITERAL, .PARAM_OR_VAR,
      .BLOCK_VAR_OR_ANNOTATION]) : ∃ ks, run (n + 10) p exprPrim (t :: ts) = some (ks, ts) := by
  rcases t with ⟨ty, tx⟩
  simp at h
  rcases h with rfl | rfl | rfl | rfl <;>
    simp [exprPrim, g_literal, g_variable, g_block_var, run, Guard.ok, Look.ok, laOk, G.la1,
      G.c, G.t]

theorem prim_pre (n p : Nat) (t : Tok) (ts rest : List Tok) (ks : List Tree) (q : Nat)
    (h : (t.ty ∈ [TT.PLUS, .MINUS, .TILDE] ∧ q = 11) ∨ (t.ty = .NOT_ ∧ q = 4))
    (hr : run n q (grammar .fn_arg_expr) ts = some (ks, rest)) :
    ∃ ks, run (n + 10) p exprPrim (t :: ts) = some (ks, rest) := by
  rcases t with ⟨ty, tx⟩
  have up : ∀ j, run (n + j) q (grammar .fn_arg_expr) ts = some (ks, rest) :=
    fun j => run_mono _ _ _ _ _ hr _ (by omega)
  simp at h
  rcases h with ⟨rfl | rfl | rfl, rfl⟩ | ⟨rfl, rfl⟩ <;>
    simp [exprPrim, run, Guard.ok, Look.ok, laOk, G.la1, G.c, G.t, up]

theorem prim_paren (n p : Nat) (l r : Tok) (ts rest : List Tok) (ks : List Tree)
    (hl : l.ty = .L_PAREN) (hr : r.ty = .R_PAREN)
    (h : run n 0 (grammar .fn_arg_expr) ts = some (ks, r :: rest)) :
    ∃ ks, run (n + 10) p exprPrim (l :: ts) = some (ks, rest) := by
  have up : ∀ j, run (n + j) 0 (grammar .fn_arg_expr) ts = some (ks, r :: rest) :=
    fun j => run_mono _ _ _ _ _ h _ (by omega)
  simp [exprPrim, run, Guard.ok, Look.ok, laOk, G.la1, G.c, G.t, up, hl, hr]

theorem prim_call (n p : Nat) (i l r : Tok) (ts rest : List Tok) (ks : List Tree)
    (hi : i.ty = .IDENTIFIER) (hl : l.ty = .L_PAREN) (hr : r.ty = .R_PAREN)
    (h : run n p (.alt (G.la1 exprFirst) (G.sep (G.c .fn_arg_expr))
        (.alt (G.la1 [.STAR]) (G.t .STAR) .eps)) ts = some (ks, r :: rest)) :
    ∃ ks, run (n + 10) p exprPrim (i :: l :: ts) = some (ks, rest) := by
  unfold exprPrim
  generalize G.alt (G.la1 exprFirst) (G.sep (G.c .fn_arg_expr))
        (.alt (G.la1 [.STAR]) (G.t .STAR) .eps) = gg at h ⊢
  have up : ∀ j, run (n + j) p gg ts = some (ks, r :: rest) :=
    fun j => run_mono _ _ _ _ _ h _ (by omega)
  simp [run, Guard.ok, Look.ok, laOk, G.la1, G.c, G.t, g_sfn, up, hi, hl, hr]

theorem sep_to_star (n p : Nat) (x : G) (c : Tok) (ts r : List Tok) (ks : List Tree)
    (hc : c.ty = .COMMA) (h : run (n + 2) p (G.sep x) ts = some (ks, r)) :
    run (n + 3) p (.star (G.la1 [.COMMA]) (.seq (G.t .COMMA) x)) (c :: ts) =
      some (.leaf c :: ks, r) := by
  obtain ⟨k₁, t₁, k₂, h₁, h₂, rfl⟩ := run_seq_inv h
  have hg : Guard.ok p (G.la1 [.COMMA]) (c :: ts) = true := by
    simp [Guard.ok, Look.ok, laOk, G.la1, hc]
  have hcomma : run (n + 1) p (G.t .COMMA) (c :: ts) = some ([.leaf c], ts) := by
    simp [run, G.t, hc]
  have := run_star_ok hg (run_seq_ok hcomma h₁) (run_mono _ _ _ _ _ h₂ (n + 2) (by omega))
  simpa using this

theorem run_args {w : List Tok} (h : Fl .args w) :
    ∀ (ih : ∀ v, v.length ≤ w.length → Fl .flat v → ExprOk v) (p : Nat) (r : Tok)
      (rest : List Tok), r.ty = .R_PAREN →
      ∃ ks, run (eC * w.length + 5) p (G.sep (G.c .fn_arg_expr)) (w ++ r :: rest) =
        some (ks, r :: rest) := by
  generalize hk : FK.args = k at h
  induction h with
  | @argOne w h _ =>
    intro ih p r rest hr
    obtain ⟨ks, w₂, hl, _, hrun⟩ := ih w (by omega) h 0 (r :: rest)
      ⟨r, rest, rfl, by rw [hr]; rfl⟩
    obtain rfl := hl.zero
    have up : ∀ j, run (eC * w.length + j) 0 (grammar .fn_arg_expr) (w ++ r :: rest) =
        some (ks, r :: rest) := fun j => run_mono _ _ _ _ _ hrun _ (by omega)
    exact ⟨[mkNode .fn_arg_expr ks], by
      simp [G.sep, run, G.c, up, Guard.ok, Look.ok, laOk, G.la1, hr]⟩
  | @argCons w v c hw hc hv _ ihv =>
    intro ih p r rest hr
    obtain ⟨kv, hv'⟩ := ihv rfl (fun x hx => ih x (by simp; omega)) p r rest hr
    obtain ⟨ks, w₂, hl, _, hrun⟩ := ih w (by simp) hw 0 (c :: (v ++ r :: rest))
      ⟨c, _, rfl, by rw [hc]; rfl⟩
    obtain rfl := hl.zero
    have hs := sep_to_star (eC * v.length + 3) p _ c _ _ _ hc hv'
    have hx : run (eC * (w ++ c :: v).length + 4) p (G.c .fn_arg_expr)
        (w ++ c :: (v ++ r :: rest)) =
        some ([mkNode .fn_arg_expr ks], c :: (v ++ r :: rest)) := by
      have := run_mono _ _ _ _ _ hrun (eC * (w ++ c :: v).length + 3)
        (by simp [eC]; omega)
      simp only [G.c, run, this]
      rfl
    have := run_seq_ok hx (run_mono _ _ _ _ _ hs (eC * (w ++ c :: v).length + 4)
      (by simp [eC]; omega))
    exact ⟨_, by simpa [G.sep] using this⟩
  | _ => cases hk

/-- Every flat expression is consumed. -/
theorem exprOk : ∀ (m : Nat) (w : List Tok), w.length ≤ m → Fl .flat w → ExprOk w := by
  intro m
  induction m with
  | zero =>
    intro w hm h
    exact absurd (List.eq_nil_of_length_eq_zero (by omega)) h.ne_nil
  | succ m ih =>
    intro w hm h p rest hno
    obtain ⟨u, t, rfl, hu, ht⟩ := h.split
    -- it suffices to run the operand
    have fin : ∀ (t' x y : List Tok) (n : Nat) (ks : List Tree), Tail t' →
        run n p exprPrim x = some (ks, y) → x = u ++ t ++ rest → y = t' ++ rest →
        t'.length < (u ++ t).length → n + 1 ≤ eC * (u ++ t).length →
        ∃ ks w₂, Left p w₂ ∧ w₂.length < (u ++ t).length ∧
          run (eC * (u ++ t).length) p (grammar .fn_arg_expr) (u ++ t ++ rest) =
            some (ks, w₂ ++ rest) := by
      intro t' x y n ks ht' hrun hx hy hlen hn
      subst hx hy
      obtain ⟨ks', w₂, hleft, hlen', hrun'⟩ :=
        run_loop m ih _ t' (Nat.le_refl _) (by omega) ht' p rest hno
      refine ⟨ks ++ ks', w₂, hleft, by omega, ?_⟩
      obtain ⟨N, hN⟩ : ∃ N, eC * (u ++ t).length = N + 1 := ⟨eC * (u ++ t).length - 1, by
        simp [eC] at hn ⊢; omega⟩
      rw [hN, grammar_expr, run, run_mono _ _ _ _ _ hrun N (by omega)]
      simp only
      rw [run_mono _ _ _ _ _ hrun' N (by simp [eC] at hN hlen ⊢; omega)]
    generalize hk : FK.unit = k at hu
    cases hu with
    | @atom a ha =>
      obtain ⟨ks, hr⟩ := prim_atom 0 p a (t ++ rest) ha
      exact fin t _ _ _ ks ht hr (by simp) rfl (by simp <;> omega) (by simp [eC] <;> omega)
    | @paren l r w hl hw hr =>
      simp at hm
      obtain ⟨ks, w₂, hleft, _, hrun⟩ := ih w (by omega) hw 0 (r :: (t ++ rest))
        ⟨r, _, rfl, by rw [hr]; rfl⟩
      obtain rfl := hleft.zero
      obtain ⟨ks, hp⟩ := prim_paren _ p l r _ _ _ hl hr (by simpa using hrun)
      exact fin t _ _ _ ks ht hp (by simp) rfl (by simp <;> omega) (by simp [eC] <;> omega)
    | @pre a w ha hw =>
      simp at hm
      have hfl : Fl .flat (w ++ t) := hw.join ht
      have key : ∀ q, ((a.ty ∈ [TT.PLUS, .MINUS, .TILDE] ∧ q = 11) ∨ (a.ty = .NOT_ ∧ q = 4)) →
          ∃ ks w₂, Left p w₂ ∧ w₂.length < (a :: w ++ t).length ∧
          run (eC * (a :: w ++ t).length) p (grammar .fn_arg_expr) (a :: w ++ t ++ rest) =
            some (ks, w₂ ++ rest) := by
        intro q hq
        obtain ⟨ks, w₂, hleft, hlen, hrun⟩ := ih (w ++ t) (by simp; omega) hfl q rest hno
        obtain ⟨ks, hp⟩ := prim_pre _ p a _ _ _ q hq hrun
        exact fin w₂ _ _ _ ks hleft.tail hp (by simp) rfl (by simp at hlen ⊢; omega)
          (by simp [eC]; omega)
      simp at ha
      rcases ha with h | h | h | h
      · exact key 11 (.inl ⟨by simp [h], rfl⟩)
      · exact key 11 (.inl ⟨by simp [h], rfl⟩)
      · exact key 11 (.inl ⟨by simp [h], rfl⟩)
      · exact key 4 (.inr ⟨h, rfl⟩)
    | @call i l r w hi hl hw hr =>
      simp at hm
      obtain ⟨ks, hrun⟩ := run_args hw (fun v hv => ih v (by omega)) p r (t ++ rest) hr
      obtain ⟨a, b, rfl, hab⟩ := hw.first
      have hg : Guard.ok p (G.la1 exprFirst) (a :: b ++ r :: (t ++ rest)) = true := by
        simpa [Guard.ok, Look.ok, laOk, G.la1] using hab
      obtain ⟨ks, hp⟩ := prim_call (eC * (a :: b).length + 6) p i l r
        (a :: b ++ r :: (t ++ rest)) (t ++ rest) ks hi hl hr (by
          rw [show eC * (a :: b).length + 6 = (eC * (a :: b).length + 5) + 1 from rfl, run,
            if_pos hg]
          exact hrun)
      exact fin t _ _ _ ks ht hp (by simp) rfl (by simp <;> omega) (by simp [eC] <;> omega)
    | @callStar i l s r hi hl hs hr =>
      obtain ⟨ks, hp⟩ := prim_call 5 p i l r (s :: r :: (t ++ rest)) (t ++ rest) [.leaf s] hi hl
        hr (by simp [run, Guard.ok, Look.ok, laOk, G.la1, G.t, hs, exprFirst])
      exact fin t _ _ _ ks ht hp (by simp) rfl (by simp <;> omega) (by simp [eC] <;> omega)
    | @callNil i l r hi hl hr =>
      obtain ⟨ks, hp⟩ := prim_call 5 p i l r (r :: (t ++ rest)) (t ++ rest) [] hi hl
        hr (by simp [run, Guard.ok, Look.ok, laOk, G.la1, hr, exprFirst])
      exact fin t _ _ _ ks ht hp (by simp) rfl (by simp <;> omega) (by simp [eC] <;> omega)
    | _ => cases hk

/-- Completeness of the parser for argument expressions. -/
theorem expr_complete {ts : List Tok} {k : Nat} {ks : List Tree}
    (h : Gen (.call .fn_arg_expr k) ts ks) (rest : List Tok) (hno : NoOp rest) :
    run (eC * ts.length + 1) 0 (.call .fn_arg_expr 0) (ts ++ rest) = some (ks, rest) := by
  have hfl := gen_flat _ ts k ks (Nat.le_refl _) h
  obtain ⟨ks', w₂, hleft, _, hrun⟩ := exprOk _ ts (Nat.le_refl _) hfl 0 rest hno
  obtain rfl := hleft.zero
  obtain ⟨pre, hpre, hgen⟩ := run_sound _ _ _ _ _ _ hrun
  have hpre : pre = ts := by simpa using hpre.symm
  subst hpre
  have hl := hgen.leaves
  rw [gen_call] at h
  obtain ⟨k0, h0, rfl⟩ := h
  have hl0 := h0.leaves
  simp only [run, hrun]
  simp [mkNode, hl, hl0]

theorem gen_expr_first {ts : List Tok} {k : Nat} {ks : List Tree}
    (h : Gen (.call .fn_arg_expr k) ts ks) : ∃ t r, ts = t :: r ∧ t.ty ∈ exprFirst :=
  (gen_flat _ ts k ks (Nat.le_refl _) h).first

end Verif
