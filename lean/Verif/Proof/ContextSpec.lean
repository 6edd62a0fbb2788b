import Verif.Proof.Contexts
import Verif.Proof.Dispatch
import Verif.Spec.Contexts
/-!
# Getters do what their names say
-/

namespace Verif

set_option Elab.async false

/-- All kinds. -/
def Kind.all : List Kind := Rule.all.map .rule ++ TT.all.map .token

theorem kind_mem (x : Kind) : x ∈ Kind.all := by
  cases x with
  | rule r => exact List.mem_append_left _ (List.mem_map_of_mem (rule_mem r))
  | token ty => exact List.mem_append_right _ (List.mem_map_of_mem (by cases ty <;> decide))

theorem goName_table : (Kind.all.map Kind.goName).Nodup := by decide +kernel

theorem all_table : ∀ x ∈ Kind.all, ("All".toList ++ x.goName) ∉ Kind.all.map Kind.goName := by decide +kernel

theorem nodup_inj {α β : Type} {f : α → β} {l : List α} (h : (l.map f).Nodup) {x y : α} (hx : x ∈ l)
    (hy : y ∈ l) (e : f x = f y) : x = y := by
  induction l with
  | nil => cases hx
  | cons a l ih =>
    rw [List.map_cons, List.nodup_cons] at h
    rcases List.mem_cons.1 hx with rfl | hx' <;> rcases List.mem_cons.1 hy with rfl | hy'
    · rfl
    · exact absurd (e ▸ List.mem_map_of_mem hy') h.1
    · exact absurd (e ▸ List.mem_map_of_mem hx') h.1
    · exact ih h.2 hx' hy'

theorem goName_inj {x y : Kind} (e : x.goName = y.goName) : x = y :=
  nodup_inj goName_table (kind_mem x) (kind_mem y) e

theorem goName_all (x y : Kind) : "All".toList ++ x.goName ≠ y.goName := fun e =>
  all_table x (kind_mem x) (e ▸ List.mem_map_of_mem (kind_mem y))

theorem expects_unique {ks : List Tree} {n : Str} {b : Bool} {k : Int} {v v' : GetVal}
    (h : Expects ks n b k v) (h' : Expects ks n b k v') : v = v' := by
  generalize hn : n = m at h'
  generalize hb : b = c at h'
  generalize hk : k = j at h'
  cases h <;> cases h' <;> first
    | (cases hb; done)
    | (rw [goName_inj hn]; done)
    | (rw [goName_inj hn, Int.ofNat.inj hk]; done)
    | (exfalso; omega)
    | (subst hk; rw [goName_inj (List.append_cancel_left hn)])
    | exact absurd hn (goName_all _ _)
    | exact absurd hn.symm (goName_all _ _)
    | rfl

/-! ## The table -/

/-- The parts of a getter fit together. -/
def Getter.fits (g : Getter) : Bool :=
  match g.body, g.sig.ret with
  | .first a b, .ctx c => a == b && a == c && g.sig.name == a.goName && !g.sig.indexed
  | .all a b c, .ctxs d => a == b && a == c && a == d && g.sig.name == "All".toList ++ a.goName && !g.sig.indexed
  | .nth a b, .ctx c => a == b && a == c && g.sig.name == a.goName && g.sig.indexed
  | .token a, .term => g.sig.name == a.goName && !g.sig.indexed
  | .tokenNth a, .term => g.sig.name == a.goName && g.sig.indexed
  | .tokens a, .terms => g.sig.name == "All".toList ++ a.goName && !g.sig.indexed
  | _, _ => false

theorem getters_fit : ∀ r ∈ Rule.all, ∀ g ∈ getters r, g.fits = true := by decide +kernel

theorem getters_find : ∀ r ∈ Rule.all, ∀ g ∈ getters r,
    (getters r).find? (·.sig.name == g.sig.name) = some g := by decide +kernel

theorem call_own {r : Rule} {g : Getter} (h : g ∈ getters r) (k : Int) (ks : List Tree) :
    callGetter g.sig.name k (.node r ks) = g.body.run ks k := by
  rw [callGetter, newContext_eq]
  show (match (getters r).find? _ with | some g => _ | none => _) = _
  rw [getters_find r (rule_mem r) g h]

theorem among_rule (r : Rule) (ks : List Tree) :
    ks.filter (fun x : Tree => x.isRule r) = (Kind.rule r).among ks := by
  unfold Kind.among
  congr 1
  funext x
  cases x <;> rfl

theorem among_token (ty : TT) (ks : List Tree) :
    ks.filter (fun x : Tree => x.isTok ty) = (Kind.token ty).among ks := by
  unfold Kind.among
  congr 1
  funext x
  cases x <;> rfl

theorem rules_shape (r : Rule) (ks : List Tree) :
    ∃ l : List (List Tree), (Kind.rule r).among ks = l.map fun ks => .node r ks := by
  induction ks with
  | nil => exact ⟨[], rfl⟩
  | cons c cs ih =>
    obtain ⟨l, hl⟩ := ih
    unfold Kind.among at hl ⊢
    by_cases h : (Kind.rule r).has c = true
    · cases c with
      | leaf t => cases h
      | node r' ls =>
        have e : r = r' := by simpa [Kind.has] using h
        subst e
        exact ⟨ls :: l, by rw [List.filter_cons_of_pos h, hl]; rfl⟩
    · exact ⟨l, by rw [List.filter_cons_of_neg h, hl]⟩

theorem tokens_shape (ty : TT) (ks : List Tree) :
    ∃ l : List Tok, (Kind.token ty).among ks = l.map .leaf := by
  induction ks with
  | nil => exact ⟨[], rfl⟩
  | cons c cs ih =>
    obtain ⟨l, hl⟩ := ih
    unfold Kind.among at hl ⊢
    by_cases h : (Kind.token ty).has c = true
    · cases c with
      | node r ls => cases h
      | leaf t => exact ⟨t :: l, by rw [List.filter_cons_of_pos h, hl]; rfl⟩
    · exact ⟨l, by rw [List.filter_cons_of_neg h, hl]⟩

theorem ctx_typed {r : Rule} {ks : List Tree} {x : Option Tree}
    (h : ∀ t, x = some t → t ∈ (Kind.rule r).among ks) : HasType (.node x) (.ctx r) := by
  cases x with
  | none => exact .noContext r
  | some t =>
    obtain ⟨l, hl⟩ := rules_shape r ks
    have := h t rfl
    rw [hl] at this
    obtain ⟨ls, _, rfl⟩ := List.mem_map.1 this
    exact .context r ls

theorem term_typed {ty : TT} {ks : List Tree} {x : Option Tree}
    (h : ∀ t, x = some t → t ∈ (Kind.token ty).among ks) : HasType (.node x) .term := by
  cases x with
  | none => exact .noTerminal
  | some t =>
    obtain ⟨l, hl⟩ := tokens_shape ty ks
    have := h t rfl
    rw [hl] at this
    obtain ⟨ls, _, rfl⟩ := List.mem_map.1 this
    exact .terminal ls

theorem item_expects (ks : List Tree) (x : Kind) (k : Int) :
    Expects ks x.goName true k (.node (if 0 ≤ k then (x.among ks)[k.toNat]? else none)) := by
  by_cases h : 0 ≤ k
  · rw [if_pos h]
    have := Expects.item (ks := ks) x k.toNat
    rwa [Int.toNat_of_nonneg h] at this
  · rw [if_neg h]
    exact .outside x k (by omega)

theorem item_mem {l : List Tree} {k : Int} {t : Tree} (h : (if 0 ≤ k then l[k.toNat]? else none) = some t) :
    t ∈ l := by
  split at h
  · exact List.mem_of_getElem? h
  · cases h

theorem getter_run {g : Getter} (h : g.fits = true) (ks : List Tree) (k : Int) :
    ∃ v, g.body.run ks k = .ok v ∧ Expects ks g.sig.name g.sig.indexed k v ∧ HasType v g.sig.ret := by
  obtain ⟨⟨n, ix, ret⟩, b⟩ := g
  unfold Getter.fits at h
  simp only at h ⊢
  split at h
  · simp only [Bool.and_eq_true, beq_iff_eq, Bool.not_eq_true'] at h
    obtain ⟨⟨⟨rfl, rfl⟩, rfl⟩, rfl⟩ := h
    exact ⟨_, by rw [run_first, among_rule], .single (.rule _) k, ctx_typed fun t ht => List.mem_of_mem_head? ht⟩
  · simp only [Bool.and_eq_true, beq_iff_eq, Bool.not_eq_true'] at h
    obtain ⟨⟨⟨⟨rfl, rfl⟩, rfl⟩, rfl⟩, rfl⟩ := h
    refine ⟨_, by rw [run_all, among_rule], .every (.rule _) k, ?_⟩
    obtain ⟨l, hl⟩ := rules_shape _ ks
    rw [hl, List.map_map]
    exact .contexts _ l
  · simp only [Bool.and_eq_true, beq_iff_eq] at h
    obtain ⟨⟨⟨rfl, rfl⟩, rfl⟩, rfl⟩ := h
    exact ⟨_, by rw [run_nth, among_rule], item_expects ks (.rule _) k, ctx_typed fun t ht => item_mem ht⟩
  · simp only [Bool.and_eq_true, beq_iff_eq, Bool.not_eq_true'] at h
    obtain ⟨rfl, rfl⟩ := h
    refine ⟨_, by rw [GetBody.run, getToken_eq, among_token, if_pos (Int.le_refl 0), Int.toNat_zero, ← List.head?_eq_getElem?], .single (.token _) k, term_typed fun t ht => List.mem_of_mem_head? ht⟩
  · simp only [Bool.and_eq_true, beq_iff_eq] at h
    obtain ⟨rfl, rfl⟩ := h
    exact ⟨_, by rw [GetBody.run, getToken_eq, among_token], item_expects ks (.token _) k, term_typed fun t ht => item_mem ht⟩
  · simp only [Bool.and_eq_true, beq_iff_eq, Bool.not_eq_true'] at h
    obtain ⟨rfl, rfl⟩ := h
    refine ⟨_, by rw [GetBody.run, getTokens_eq, among_token], .every (.token _) k, ?_⟩
    obtain ⟨l, hl⟩ := tokens_shape _ ks
    rw [hl, List.map_map]
    exact .terminals l
  · cases h

/-! ## No child is hidden -/

/-- A bound on the number of children of a kind; 2 stands for more. -/
def G.most (x : Kind) : G → Nat
  | .eps => 0
  | .tok s => match x with | .token ty => if s.contains ty then 1 else 0 | .rule _ => 0
  | .call r _ => if x = .rule r then 1 else 0
  | .pred _ => 0
  | .seq a b => a.most x + b.most x
  | .alt _ a b => max (a.most x) (b.most x)
  | .star _ a => if a.most x = 0 then 0 else 2

theorem mkNode_node (r : Rule) (ks : List Tree) : ∃ l, mkNode r ks = .node r l := by
  unfold mkNode
  split <;> exact ⟨_, rfl⟩

theorem most_bound {g : G} {ts : List Tok} {ks : List Tree} (h : Gen g ts ks) (x : Kind) :
    (x.among ks).length ≤ g.most x ∨ 2 ≤ g.most x := by
  induction h with
  | eps => exact .inl (Nat.le_refl _)
  | @tok s t ht =>
    left
    cases x with
    | rule r => exact Nat.le_refl _
    | token ty =>
      show (List.filter _ _).length ≤ if s.contains ty then 1 else 0
      by_cases e : t.ty = ty
      · rw [if_pos (by simpa [e] using ht)]
        exact List.length_filter_le _ _
      · rw [List.filter_cons_of_neg (by simpa [Kind.has] using e)]
        exact Nat.zero_le _
  | @call r k ts ks _ _ =>
    left
    obtain ⟨l, hl⟩ := mkNode_node r ks
    rw [hl]
    show (List.filter _ _).length ≤ if x = .rule r then 1 else 0
    by_cases e : x = .rule r
    · rw [if_pos e]; exact List.length_filter_le _ _
    · rw [if_neg e, List.filter_cons_of_neg]
      · exact Nat.le_refl _
      · cases x with
        | token ty => simp [Kind.has]
        | rule r' =>
          intro h
          exact e (by rw [show r' = r by simpa [Kind.has] using h])
  | pred => exact .inl (Nat.zero_le _)
  | seq _ _ iha ihb =>
    unfold Kind.among at *
    rw [List.filter_append, List.length_append]
    simp only [G.most]
    omega
  | altL _ ih => simp only [G.most]; omega
  | altR _ ih => simp only [G.most]; omega
  | starNil => exact .inl (Nat.zero_le _)
  | starCons _ _ iha ihb =>
    unfold Kind.among at *
    rw [List.filter_append, List.length_append]
    simp only [G.most] at ihb ⊢
    split <;> simp_all

/-- The table has a getter for the kind that hides nothing. -/
def shown (r : Rule) (g : G) (x : Kind) : Bool :=
  g.most x == 0 || (getters r).any fun e =>
    (match x, e.body with
     | .rule a, .all b _ _ => a == b
     | .rule a, .first b _ => a == b && g.most x == 1
     | .token a, .tokens b => a == b
     | .token a, .token b => a == b && g.most x == 1
     | _, _ => false)

theorem shown_table : ∀ r ∈ Rule.all, r ≠ .fn_arg_expr → ∀ x ∈ Kind.all, shown r (grammar r) x = true := by
  decide +kernel

theorem shown_operand : ∀ x ∈ Kind.all, shown .fn_arg_expr operand x = true := by decide +kernel

theorem shown_binary : ∀ x ∈ Kind.all, shown .fn_arg_expr (.seq (.call .fn_arg_expr 0) operator) x = true := by
  decide +kernel

theorem kind_has (t : Tree) : t.kind.has t = true := by
  cases t <;> simp [Tree.kind, Kind.has]

theorem shows_all {r : Rule} {rhs : G} {ks : List Tree} (hsh : ∀ x ∈ Kind.all, shown r rhs x = true)
    (h : ∀ x : Kind, (x.among ks).length ≤ rhs.most x ∨ 2 ≤ rhs.most x) {c : Tree} (hc : c ∈ ks) :
    ∃ g ∈ getters r, ∃ v, callGetter g.sig.name 0 (.node r ks) = .ok v ∧ v.Shows (c.kind.among ks) := by
  have hm : c ∈ c.kind.among ks := List.mem_filter.2 ⟨hc, kind_has c⟩
  have hlen := List.length_pos_of_mem hm
  have hb := h c.kind
  have hs := hsh c.kind (kind_mem _)
  unfold shown at hs
  rw [Bool.or_eq_true] at hs
  rcases hs with hs | hs
  · have := beq_iff_eq.1 hs
    omega
  · obtain ⟨g, hg, hs⟩ := List.any_eq_true.1 hs
    obtain ⟨hf, hcall⟩ : g.fits = true ∧ _ := ⟨getters_fit r (rule_mem r) g hg, call_own hg 0 ks⟩
    have one : rhs.most c.kind = 1 → ∃ t, c.kind.among ks = [t] := fun e =>
      List.length_eq_one_iff.1 (by omega)
    refine ⟨g, hg, ?_⟩
    obtain ⟨⟨n, ix, ret⟩, b⟩ := g
    simp only at hs hcall ⊢
    rw [hcall]
    unfold Getter.fits at hf
    split at hs
    · rename_i b1 b2 b3 a ek
      simp only at hf
      have e := beq_iff_eq.1 hs; subst e
      cases ret <;> simp only [Bool.false_eq_true, Bool.and_eq_true, beq_iff_eq] at hf
      obtain ⟨⟨⟨⟨rfl, rfl⟩, _⟩, _⟩, _⟩ := hf
      exact ⟨_, run_all _ _ _, .inl (by rw [among_rule, ek])⟩
    · rename_i b1 b2 a ek
      simp only at hf
      obtain ⟨e, h1⟩ := Bool.and_eq_true_iff.1 hs
      have e := beq_iff_eq.1 e; subst e
      cases ret <;> simp only [Bool.false_eq_true, Bool.and_eq_true, beq_iff_eq] at hf
      obtain ⟨⟨⟨rfl, _⟩, _⟩, _⟩ := hf
      obtain ⟨t, ht⟩ := one (beq_iff_eq.1 h1)
      exact ⟨_, run_first _ _ _, .inr ⟨t, ht, by rw [among_rule, ← ek, ht]; rfl⟩⟩
    · rename_i b1 a ek
      have e := beq_iff_eq.1 hs; subst e
      exact ⟨_, by rw [GetBody.run, getTokens_eq], .inl (by rw [among_token, ek])⟩
    · rename_i b1 a ek
      obtain ⟨e, h1⟩ := Bool.and_eq_true_iff.1 hs
      have e := beq_iff_eq.1 e; subst e
      obtain ⟨t, ht⟩ := one (beq_iff_eq.1 h1)
      exact ⟨_, by rw [GetBody.run, getToken_eq], .inr ⟨t, ht, by rw [among_token, ← ek, ht]; rfl⟩⟩
    · cases hs

theorem expr_shown {ks : List Tree} (h : ExprNode ks) {c : Tree} (hc : c ∈ ks) :
    ∃ g ∈ getters .fn_arg_expr, ∃ v, callGetter g.sig.name 0 (.node .fn_arg_expr ks) = .ok v ∧
      v.Shows (c.kind.among ks) := by
  cases h with
  | operand h => exact shows_all shown_operand (most_bound h) hc
  | @binary l ks _ _ h =>
    refine shows_all shown_binary (fun x => ?_) hc
    have hb := most_bound h x
    simp only [G.most]
    by_cases e : x = .rule .fn_arg_expr
    · subst e
      unfold Kind.among at *
      rw [List.filter_cons_of_pos (show (Kind.rule .fn_arg_expr).has _ = true from rfl), if_pos rfl, List.length_cons]
      omega
    · have : ¬ x.has (.node .fn_arg_expr l) = true := fun h => by
        cases x with
        | token ty => cases h
        | rule r' => exact e (by rw [show r' = .fn_arg_expr by simpa [Kind.has] using h])
      unfold Kind.among at *
      rw [List.filter_cons_of_neg this, if_neg e]
      omega

end Verif
