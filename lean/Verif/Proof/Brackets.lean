import Verif.Spec.Brackets
import Verif.Proof.CommentOut
/-!
# Brackets
-/

namespace Verif

set_option Elab.async false

theorem Nested.append {a b : List TT} (ha : Nested a) (hb : Nested b) : Nested (a ++ b) := by
  induction ha with
  | nil => exact hb
  | other h _ ih => exact .other h ih
  | paren h _ _ ih => simpa using Nested.paren h ih
  | brace h _ _ ih => simpa using Nested.brace h ih

/-- Tokens that are well nested. -/
def NestedToks (l : List Tok) : Prop := Nested (l.map (·.ty))

theorem NestedToks.nil : NestedToks [] := Nested.nil

theorem NestedToks.append {a b : List Tok} (ha : NestedToks a) (hb : NestedToks b) : NestedToks (a ++ b) := by
  unfold NestedToks
  rw [List.map_append]
  exact Nested.append ha hb

theorem NestedToks.cons {t : Tok} {l : List Tok} (h : t.ty.isBracket = false) (hl : NestedToks l) :
    NestedToks (t :: l) := .other h hl

theorem NestedToks.paren {a : List Tok} (ha : NestedToks a) : NestedToks ([kw .L_PAREN] ++ a ++ [kw .R_PAREN]) := by
  have := Nested.paren ha .nil
  simpa [NestedToks, kw] using this

theorem NestedToks.brace {a : List Tok} (ha : NestedToks a) : NestedToks ([kw .L_BRACE] ++ a ++ [kw .R_BRACE]) := by
  have := Nested.brace ha .nil
  simpa [NestedToks, kw] using this

theorem NestedToks.flatMap {α : Type} {f : α → List Tok} {l : List α} (h : ∀ x ∈ l, NestedToks (f x)) :
    NestedToks (l.flatMap f) := by
  induction l with
  | nil => exact .nil
  | cons x l ih =>
    rw [List.flatMap_cons]
    exact (h x (by simp)).append (ih fun y hy => h y (by simp [hy]))

theorem nested_ne {α : Type} {f : α → List Tok} {x : NE α} (h : ∀ y, NestedToks (f y)) : NestedToks (x.toks f) :=
  (h _).append (.flatMap fun y _ => .cons rfl (h y))

theorem nested_comma {α : Type} {f : α → List Tok} {x : CommaList α} (h : ∀ y, NestedToks (f y)) :
    NestedToks (x.toks f) := by
  refine NestedToks.append (.flatMap fun y _ => h y) (.flatMap fun y _ => .cons rfl (h y))

theorem nested_one {t : Tok} (h : t.ty.isBracket = false) : NestedToks [t] := .cons h .nil

theorem nested_lit (l : Lit) : l.tok.ty.isBracket = false := by cases l <;> rfl

theorem nested_pair {sep : TT} (hs : sep.isBracket = false) (p : Pair) : NestedToks (p.toks sep) :=
  .cons rfl (.cons hs (nested_one (nested_lit _)))

theorem nested_ext (e : ExtDecl) : NestedToks e.toks := by
  unfold ExtDecl.toks
  refine .append (.append (.cons rfl (.cons rfl .nil)) ?_) (.cons rfl (.cons rfl (.cons rfl .nil)))
  cases e.config with
  | none => exact .nil
  | some c => exact .brace (nested_ne fun p => nested_pair rfl p)

theorem nested_names (x : NE Str) : NestedToks (parenNames x) := .paren (nested_ne fun _ => nested_one rfl)

theorem nested_table (t : TableDecl) : NestedToks t.toks := by
  have hcol : ∀ c : ColDecl, NestedToks c.toks := by
    intro c
    refine .append (.cons rfl (.cons (by cases c.type <;> rfl) .nil)) (.flatMap fun k _ => ?_)
    cases k with
    | primary => exact nested_one rfl
    | notNull => exact nested_one rfl
    | unique => exact nested_one rfl
    | default l => exact .cons rfl (.paren (nested_one (nested_lit l)))
    | min n => exact .cons rfl (.paren (a := [numTok n]) (nested_one rfl))
    | max n => exact .cons rfl (.paren (a := [numTok n]) (nested_one rfl))
    | minLen n => exact .cons rfl (.paren (a := [numTok n]) (nested_one rfl))
    | maxLen n => exact .cons rfl (.paren (a := [numTok n]) (nested_one rfl))
  have hitem : ∀ i : TableItem, NestedToks i.toks := by
    intro i
    cases i with
    | index i => exact .append (.cons rfl (.cons (by cases i.kind <;> rfl) .nil)) (nested_names _)
    | fk f =>
      refine .append (.append (.append (.append (nested_one (by cases f.short <;> rfl)) (nested_names _))
        (.cons (by cases f.shortRef <;> rfl) (.cons rfl .nil))) (nested_names _)) (.flatMap fun a _ => ?_)
      refine .append (.append (nested_one (by cases a.on <;> rfl)) ?_) (nested_one (by cases a.act <;> rfl))
      split
      · exact nested_one rfl
      · exact .nil
  have : t.toks = [kw .TABLE_, idTok t.name] ++ ([kw .L_BRACE] ++ (t.columns.toks ColDecl.toks ++
      t.items.flatMap (fun i => kw .COMMA :: i.toks) ++ (if t.trailingComma then [kw .COMMA] else [])) ++
      [kw .R_BRACE]) := by simp [TableDecl.toks]
  rw [this]
  refine .append (.cons rfl (.cons rfl .nil)) (.brace (.append (.append (nested_ne hcol)
    (.flatMap fun i _ => .cons rfl (hitem i))) ?_))
  split
  · exact nested_one rfl
  · exact .nil

theorem nested_expr {b : Bool} (e : Expr b) : NestedToks e.toks := by
  induction e with
  | lit l => exact nested_one (nested_lit l)
  | var s => exact nested_one rfl
  | block s => exact nested_one rfl
  | paren e ih => exact .paren ih
  | un o e ih => exact .cons (by cases o <;> rfl) ih
  | not e ih => exact .cons rfl ih
  | fn0 n => exact .cons rfl (.paren .nil)
  | fnStar n => exact .cons rfl (.paren (a := [kw .STAR]) (nested_one rfl))
  | fn n as ih => exact .cons rfl (.paren ih)
  | bin l o r ih₁ ih₂ => exact .append (.append ih₁ (nested_one (by cases o <;> rfl))) ih₂
  | one e ih => exact ih
  | more e es ih₁ ih₂ => exact .append (.append ih₁ (nested_one rfl)) ih₂

theorem nested_stmt (s : Stmt) : NestedToks s.toks := by
  cases s with
  | sql t => exact .cons rfl (nested_one rfl)
  | call rs ext m args =>
    have : (Stmt.call rs ext m args).toks = (match rs with
        | none => []
        | some rs => rs.toks (fun s => [varTok s]) ++ [kw .ASSIGN]) ++
      (match ext with
        | none => []
        | some e => [idTok e, kw .PERIOD]) ++
      [idTok m] ++ ([kw .L_PAREN] ++ args.toks Expr.toks ++ [kw .R_PAREN]) ++ [kw .SCOL] := by
      cases rs <;> cases ext <;> simp [Stmt.toks]
    rw [this]
    refine .append (.append (.append (.append ?_ ?_) (nested_one rfl))
      (.paren (nested_comma fun e => nested_expr e))) (nested_one rfl)
    · cases rs with
      | none => exact .nil
      | some rs => exact .append (nested_ne fun _ => nested_one rfl) (nested_one rfl)
    · cases ext with
      | none => exact .nil
      | some e => exact .cons rfl (nested_one rfl)

theorem nested_body (b : NE Stmt) : NestedToks (bodyToks b) := .brace (.flatMap fun s _ => nested_stmt s)

theorem nested_program (p : Program) : NestedToks p.toks := by
  refine .append (.append (.cons rfl (.cons rfl (.cons rfl .nil))) (.flatMap fun e _ => nested_ext e))
    (.flatMap fun d _ => ?_)
  cases d with
  | table t => exact nested_table t
  | action a =>
    have : (Decl.action a).toks = a.annotations.flatMap Annot.toks ++ [kw .ACTION_, idTok a.name] ++
        ([kw .L_PAREN] ++ a.params.toks (fun s => [varTok s]) ++ [kw .R_PAREN]) ++
        a.modifiers.map Modifier.tok ++ bodyToks a.body := by simp [Decl.toks, ActionDecl.toks]
    rw [this]
    refine .append (.append (.append (.append (.flatMap fun an _ => ?_) (.cons rfl (nested_one rfl)))
      (.paren (nested_comma fun _ => nested_one rfl))) ?_) (nested_body _)
    · have : an.toks = [⟨.BLOCK_VAR_OR_ANNOTATION, '@' :: an.target⟩] ++
          ([kw .L_PAREN] ++ an.attrs.toks (Pair.toks .ASSIGN) ++ [kw .R_PAREN]) := by simp [Annot.toks]
      rw [this]
      exact .append (nested_one rfl) (.paren (nested_ne fun p => nested_pair rfl p))
    · induction a.modifiers with
      | nil => exact .nil
      | cons m l ih => exact .cons (by cases m <;> rfl) ih
  | init b =>
    have : (Decl.init b).toks = [kw .INIT_] ++ ([kw .L_PAREN] ++ [] ++ [kw .R_PAREN]) ++ bodyToks b := by
      simp [Decl.toks]
    rw [this]
    exact .append (.append (nested_one rfl) (.paren .nil)) (nested_body _)

theorem Nested.counts {l : List TT} (h : Nested l) :
    l.count .L_PAREN = l.count .R_PAREN ∧ l.count .L_BRACE = l.count .R_BRACE := by
  induction h with
  | nil => exact ⟨rfl, rfl⟩
  | @other t l h _ ih =>
    have : ∀ u : TT, u.isBracket = true → (t :: l).count u = l.count u := by
      intro u hu
      rw [List.count_cons_of_ne]
      rintro rfl
      rw [h] at hu
      cases hu
    rw [this _ rfl, this _ rfl, this _ rfl, this _ rfl]
    exact ih
  | paren _ _ ih₁ ih₂ => simp [List.count_append, List.count_cons]; omega
  | brace _ _ ih₁ ih₂ => simp [List.count_append, List.count_cons]; omega

/-- One bracket less or more. -/
theorem not_nested {a b : List TT} {x : TT} (hx : x.isBracket = true) (h : Nested (a ++ x :: b)) :
    ¬ Nested (a ++ b) := by
  intro h'
  have h := h.counts
  have h' := h'.counts
  cases x <;> cases hx <;>
    (simp [List.count_append, List.count_cons] at h h'; omega)

/-- In a sentence a bracket does not follow an SQL statement. -/
theorem sql_bracket {s : Str} {m k : List (Tok × Bool)} {p : Tok × Bool} {x : Tok} (ht : Tokenises s (m ++ p :: (x, false) :: k))
    (hs : Sentence (visible (m ++ p :: (x, false) :: k))) (hx : x.ty.isBracket = true) : p.1.ty ≠ .SQL_STMT := by
  intro hp
  have h2 : p.2 = false := by
    have := ht.hidden p (by simp)
    cases h : p.2 with
    | false => rfl
    | true => have := this.1 h; rw [hp] at this; revert this; decide
  have hv : visible (m ++ p :: (x, false) :: k) = visible m ++ p.1 :: x :: visible k := by
    obtain ⟨t, h⟩ := p
    simp only at h2
    subst h2
    rw [visible_append]
    rfl
  have hc := sentence_pairs hs
  rw [hv] at hc
  have := chain_infix hc
  rw [hp] at this
  revert this hx
  generalize x.ty = ty
  cases ty <;> decide

theorem bracket_word : ∀ x ∈ bracketText, lexAllRaw x.1 = some [(⟨x.2, x.1⟩, false)] := by decide +kernel

theorem bracket_fixed : ∀ x ∈ bracketText, x.2.isBracket = true := by decide

end Verif
