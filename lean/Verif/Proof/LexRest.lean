import Verif.Model.LexSim
import Verif.Model.LexRules
import Verif.Proof.Regex
/-!
# What can follow a state of the lexer ATN

Every state `s` gets the list of expressions that can still follow in its rule;
local checks on all states show that these lists fit the transitions.
-/

namespace Verif

/-- The language of a sequence. -/
def LangL : List RE → Str → Prop
  | [], s => s = []
  | r :: L, s => ∃ x y, s = x ++ y ∧ Lang r x ∧ LangL L y

/-- The elements of a sequence. -/
def RE.flat : RE → List RE
  | .eps => []
  | .seq a b => a.flat ++ b.flat
  | r => [r]

def RE.ofList : List RE → RE
  | [] => .eps
  | [a] => a
  | a :: l => .seq a (ofList l)

def RE.ofAlts : List RE → RE
  | [] => .none
  | [a] => a
  | a :: l => .alt a (ofAlts l)

def RE.alts : RE → List RE
  | .alt a b => a :: b.alts
  | r => [r]

theorem langL_append {A B : List RE} {s : Str} :
    LangL (A ++ B) s ↔ ∃ x y, s = x ++ y ∧ LangL A x ∧ LangL B y := by
  induction A generalizing s with
  | nil =>
    constructor
    · intro h; exact ⟨[], s, rfl, rfl, h⟩
    · rintro ⟨x, y, rfl, rfl, h⟩; exact h
  | cons r A ih =>
    constructor
    · rintro ⟨x, y, rfl, hx, hy⟩
      obtain ⟨u, v, rfl, hu, hv⟩ := ih.1 hy
      exact ⟨x ++ u, v, by simp, ⟨x, u, rfl, hx, hu⟩, hv⟩
    · rintro ⟨x, y, rfl, ⟨u, v, rfl, hu, hv⟩, hy⟩
      exact ⟨u, v ++ y, by simp, hu, ih.2 ⟨v, y, rfl, hv, hy⟩⟩

theorem langL_one {r : RE} {s : Str} : LangL [r] s ↔ Lang r s := by
  constructor
  · rintro ⟨x, y, rfl, hx, rfl⟩; simpa using hx
  · intro h; exact ⟨s, [], by simp, h, rfl⟩

theorem langL_flat {r : RE} {s : Str} : LangL r.flat s ↔ Lang r s := by
  induction r generalizing s with
  | eps =>
    constructor
    · intro h; cases h; exact .eps
    · intro h; cases h; rfl
  | seq a b iha ihb =>
    rw [RE.flat, langL_append, lang_seq]
    simp only [iha, ihb]
  | none => exact langL_one
  | cls => exact langL_one
  | alt => exact langL_one
  | star => exact langL_one

theorem langL_flat_append {r : RE} {L : List RE} {s : Str} : LangL (r.flat ++ L) s ↔ LangL (r :: L) s := by
  rw [langL_append]; simp only [langL_flat]; rfl

theorem langL_congr_append {A A' L : List RE} (h : ∀ s, LangL A s ↔ LangL A' s) (s : Str) :
    LangL (A ++ L) s ↔ LangL (A' ++ L) s := by
  simp only [langL_append, h]

theorem lang_star_unfold {r : RE} {s : Str} : Lang (.star r) s ↔ s = [] ∨ LangL [r, .star r] s := by
  constructor
  · intro h
    cases h with
    | starNil => exact .inl rfl
    | starCons h1 h2 => exact .inr ⟨_, _, rfl, h1, langL_one.2 h2⟩
  · rintro (rfl | ⟨x, y, rfl, hx, hy⟩)
    · exact .starNil
    · exact .starCons hx (langL_one.1 hy)

theorem langL_star {r : RE} {L : List RE} {s : Str} :
    LangL (.star r :: L) s ↔ LangL L s ∨ LangL (r.flat ++ .star r :: L) s := by
  rw [langL_flat_append]
  constructor
  · rintro ⟨x, y, rfl, hx, hy⟩
    rcases lang_star_unfold.1 hx with rfl | ⟨u, v, rfl, hu, hv⟩
    · exact .inl hy
    · exact .inr ⟨u, v ++ y, by simp, hu, v, y, rfl, langL_one.1 hv, hy⟩
  · rintro (h | ⟨u, _, rfl, hu, v, y, rfl, hv, hy⟩)
    · exact ⟨[], s, rfl, .starNil, h⟩
    · exact ⟨u ++ v, y, by simp, .starCons hu hv, hy⟩

theorem lang_alts {r : RE} {s : Str} : Lang r s ↔ ∃ g ∈ r.alts, Lang g s := by
  induction r generalizing s with
  | alt a b _ ihb =>
    rw [lang_alt, RE.alts, ihb]
    simp
  | _ => simp [RE.alts]

theorem langL_alts {r : RE} {L : List RE} {s : Str} :
    LangL (r :: L) s ↔ ∃ g ∈ r.alts, LangL (g.flat ++ L) s := by
  constructor
  · rintro ⟨x, y, rfl, hx, hy⟩
    obtain ⟨g, hg, hx⟩ := lang_alts.1 hx
    exact ⟨g, hg, langL_flat_append.2 ⟨x, y, rfl, hx, hy⟩⟩
  · rintro ⟨g, hg, h⟩
    obtain ⟨x, y, rfl, hx, hy⟩ := langL_flat_append.1 h
    exact ⟨x, y, rfl, lang_alts.2 ⟨g, hg, hx⟩, hy⟩

theorem langL_cls {neg : Bool} {rs : List (Nat × Nat)} {L : List RE} {s : Str} :
    LangL (.cls neg rs :: L) s ↔ ∃ c y, s = c :: y ∧ inCls neg rs c = true ∧ LangL L y := by
  constructor
  · rintro ⟨x, y, rfl, hx, hy⟩
    obtain ⟨c, rfl, hc⟩ := lang_cls.1 hx
    exact ⟨c, y, rfl, hc, hy⟩
  · rintro ⟨c, y, rfl, hc, hy⟩
    exact ⟨[c], y, rfl, lang_cls.2 ⟨c, rfl, hc⟩, hy⟩

namespace Atn

/-- The class of characters on a transition. -/
def T.classOf (a : T) (e : Edge) : Option (Bool × List (Nat × Nat)) :=
  match e.ty with
  | 2 => some (false, [(e.a1, e.a2)])
  | 5 => if e.a3 == 0 then some (false, [(e.a1, e.a1)]) else none
  | 7 => some (false, (a.sets[e.a1]?).getD [])
  | 8 => some (true, (a.sets[e.a1]?).getD [])
  | 9 => some (true, [])
  | _ => none

theorem matchesChar_class {a : T} {e : Edge} {neg rs} (h : a.classOf e = some (neg, rs)) (c : Char) :
    a.matchesChar e c = inCls neg rs c := by
  unfold T.classOf at h
  unfold T.matchesChar inCls
  split at h
  · rename_i he; cases h; simp [he]
  · rename_i he
    split at h
    · rename_i h3
      cases h
      simp only [he, h3]
      simp only [List.any_cons, List.any_nil, Bool.or_false, Bool.true_and]
      rw [Bool.eq_iff_iff]
      simp
      omega
    · simp at h
  · rename_i he; cases h; simp [he]
  · rename_i he; cases h; simp [he]
  · rename_i he; cases h; simp [he]
  · simp at h

/-- What can follow state `s` up to the state `stop` or to the end of the rule;
called rules are inserted. -/
def T.restL (a : T) : Nat → Nat → Nat → Option (List RE)
  | 0, _, _ => none
  | n + 1, stop, s =>
    if s == stop then some [] else
    let st := a.st s
    let block (b : Nat) : Option RE := do
      let l ← (a.out b).mapM fun e => a.restL n (a.st b).arg e.trg
      return RE.ofAlts (l.map RE.ofList)
    if st.ty == 7 then some []
    else if st.ty == 3 || st.ty == 4 || st.ty == 5 then do
      let g ← block s
      let r ← a.restL n stop st.arg
      return g.flat ++ r
    else match a.out s with
      | [e] =>
        if e.ty == 1 || e.ty == 6 then a.restL n stop e.trg
        else if e.ty == 3 then do
          let c ← a.restL n 1000000 e.a1
          let r ← a.restL n stop e.trg
          return c ++ r
        else do
          let c ← a.classOf e
          let r ← a.restL n stop e.trg
          return .cls c.1 c.2 :: r
      | [e, f] =>
        let back := (a.st e.trg).ty == 5 || (a.st e.trg).ty == 4
        let b := if back then e.trg else f.trg
        let x := if back then f.trg else e.trg
        do
          let g ← block b
          let r ← a.restL n stop x
          return .star g :: r
      | _ => none

/-- Bound on the number of steps of `closure` inside a rule. -/
def T.rank (a : T) : Nat → Nat → Nat
  | 0, _ => 0
  | n + 1, s =>
    if (a.st s).ty == 7 then 0
    else (a.out s).foldl (fun m e => max m
      (if e.ty == 1 || e.ty == 6 then 1 + a.rank n e.trg
       else if e.ty == 3 then 1 + a.rank n e.a1
       else 0)) 0

/-- The actions from a state to the end of its rule. -/
def T.actsFrom (a : T) : Nat → Nat → List Nat
  | 0, _ => []
  | n + 1, s =>
    if (a.st s).ty == 7 then []
    else match (a.out s).find? (fun e => (a.st e.trg).ty == 12) <|> (a.out s).head? with
      | none => []
      | some e => if e.ty == 6 then e.a2 :: a.actsFrom n e.trg
        else a.actsFrom n e.trg

/-- Annotations of states: what can follow, the two above, and how deep the
rule can call other rules. -/
structure Notes where
  X : Nat → List RE
  D : Nat → Nat
  A : Nat → List Nat
  L : Nat → Nat

/-- The end of the rule can be reached without a character. -/
def Notes.null (N : Notes) (s : Nat) : Bool := (N.X s).all RE.nullable

/-- What follows a transition. -/
def Notes.after (N : Notes) (e : Edge) : List RE := if e.ty == 3 then N.X e.a1 ++ N.X e.trg else N.X e.trg

/-- The target of a transition in the same rule; states are numbered from 1 to
`m`, the tokens start state aside. -/
structure Same (a : T) (N : Notes) (m s t : Nat) : Prop where
  range : 0 < t ∧ t ≤ m
  rule : (a.st t).rule = (a.st s).rule
  level : N.L t = N.L s

instance (a : T) (N : Notes) (m s t : Nat) : Decidable (Same a N m s t) :=
  if h : (0 < t ∧ t ≤ m) ∧ (a.st t).rule = (a.st s).rule ∧ N.L t = N.L s then
    .isTrue ⟨h.1, h.2.1, h.2.2⟩ else .isFalse fun ⟨a, b, c⟩ => h ⟨a, b, c⟩

/-- Checks of a transition without a character; `z` is the rule with the
non-greedy loop. -/
inductive EpsEdge (a : T) (N : Notes) (m z s : Nat) (e : Edge) : Prop where
  | eps : e.ty = 1 → N.D e.trg < N.D s → (N.null e.trg = true → N.null s = true) → N.A s = N.A e.trg → EpsEdge a N m z s e
  | act : e.ty = 6 → N.D e.trg < N.D s → (N.null e.trg = true → N.null s = true) → N.A s = e.a2 :: N.A e.trg →
      EpsEdge a N m z s e
  | call : e.ty = 3 → N.D e.a1 < N.D s → N.null e.a1 = false → N.A s = N.A e.trg → N.L e.a1 < N.L s →
      (0 < e.a1 ∧ e.a1 ≤ m) → (a.st e.a1).rule ≠ z → EpsEdge a N m z s e

def T.okEps (a : T) (N : Notes) (m z s : Nat) (e : Edge) : Bool :=
  decide (Same a N m s e.trg) &&
  if e.ty == 1 then
    decide (N.D e.trg < N.D s) && (!N.null e.trg || N.null s) && N.A s == N.A e.trg
  else if e.ty == 6 then
    decide (N.D e.trg < N.D s) && (!N.null e.trg || N.null s) && N.A s == e.a2 :: N.A e.trg
  else if e.ty == 3 then
    decide (N.D e.a1 < N.D s) && !N.null e.a1 && N.A s == N.A e.trg && decide (N.L e.a1 < N.L s) &&
      decide (0 < e.a1 ∧ e.a1 ≤ m) && (a.st e.a1).rule != z
  else false

/-- The local check at one state. -/
def T.okLex (a : T) (N : Notes) (m z s : Nat) : Bool :=
  decide (N.D s ≤ 20) && decide (N.L s ≤ 3) &&
  if (a.st s).ty == 7 then N.X s == [] && (a.out s).isEmpty && N.A s == []
  else
    let es := a.out s
    let eps : Bool := !es.isEmpty && es.all (a.okEps N m z s) &&
      let T := es.map N.after
      T == [N.X s] ||
      match N.X s with
      | .star g :: L => T.contains L && T.contains (g.flat ++ N.X s) && T.all fun x => x == L || x == g.flat ++ N.X s
      | r :: L =>
        let A := r.alts.map fun g => g.flat ++ L
        A.all T.contains && T.all A.contains
      | _ => false
    match es with
    | [e] => match a.classOf e with
      | some (neg, rs) => N.X s == .cls neg rs :: N.X e.trg && decide (Same a N m s e.trg) && N.A s == N.A e.trg
      | none => eps
    | _ => eps

/-- The shapes of a checked state. -/
inductive LShape (a : T) (N : Notes) (m z s : Nat) : Prop where
  | stop : (a.st s).ty = 7 → N.X s = [] → a.out s = [] → N.A s = [] → LShape a N m z s
  | char (e : Edge) (neg : Bool) (rs : List (Nat × Nat)) : (a.st s).ty ≠ 7 → a.out s = [e] →
      a.classOf e = some (neg, rs) → N.X s = .cls neg rs :: N.X e.trg → Same a N m s e.trg →
      N.A s = N.A e.trg → LShape a N m z s
  | eps : (a.st s).ty ≠ 7 → a.out s ≠ [] → (∀ e ∈ a.out s, Same a N m s e.trg ∧ EpsEdge a N m z s e) →
      (∀ L y, LangL (N.X s ++ L) y ↔ ∃ e ∈ a.out s, LangL (N.after e ++ L) y) → LShape a N m z s

theorem okEps_spec {a : T} {N : Notes} {m z s : Nat} {e : Edge} (h : a.okEps N m z s e = true) :
    Same a N m s e.trg ∧ EpsEdge a N m z s e := by
  unfold T.okEps at h
  simp only [Bool.and_eq_true, decide_eq_true_eq] at h
  refine ⟨h.1, ?_⟩
  have h := h.2
  split at h
  · rename_i he
    simp only [Bool.and_eq_true, decide_eq_true_eq, Bool.or_eq_true, Bool.not_eq_true', beq_iff_eq] at h he
    exact .eps he h.1.1 (fun hn => by rcases h.1.2 with h' | h'; simp [h'] at hn; exact h') h.2
  · split at h
    · rename_i he
      simp only [Bool.and_eq_true, decide_eq_true_eq, Bool.or_eq_true, Bool.not_eq_true', beq_iff_eq] at h he
      exact .act he h.1.1 (fun hn => by rcases h.1.2 with h' | h'; simp [h'] at hn; exact h') h.2
    · split at h
      · rename_i he
        simp only [Bool.and_eq_true, decide_eq_true_eq, Bool.not_eq_true', beq_iff_eq, bne_iff_ne] at h he
        exact .call he h.1.1.1.1.1 h.1.1.1.1.2 h.1.1.1.2 h.1.1.2 h.1.2 h.2
      · simp at h

theorem okLex_spec {a : T} {N : Notes} {m z s : Nat} (h : a.okLex N m z s = true) :
    LShape a N m z s ∧ N.D s ≤ 20 ∧ N.L s ≤ 3 := by
  unfold T.okLex at h
  simp only [Bool.and_eq_true, decide_eq_true_eq] at h
  refine ⟨?_, h.1⟩
  have h := h.2
  split at h
  · rename_i h7
    simp at h h7
    exact .stop h7 h.1.1 h.1.2 h.2
  · rename_i h7
    have h7 : (a.st s).ty ≠ 7 := by simpa using h7
    have eps : (!(a.out s).isEmpty && (a.out s).all (a.okEps N m z s) &&
        ((a.out s).map N.after == [N.X s] ||
        match N.X s with
        | .star g :: L => ((a.out s).map N.after).contains L && ((a.out s).map N.after).contains (g.flat ++ N.X s) &&
            ((a.out s).map N.after).all fun x => x == L || x == g.flat ++ N.X s
        | r :: L => (r.alts.map fun g => g.flat ++ L).all ((a.out s).map N.after).contains &&
            ((a.out s).map N.after).all (r.alts.map fun g => g.flat ++ L).contains
        | _ => false)) = true → LShape a N m z s := by
      intro h
      simp only [Bool.and_eq_true] at h
      obtain ⟨⟨hne, hes⟩, h⟩ := h
      rw [List.all_eq_true] at hes
      refine .eps h7 (by simpa using hne) (fun e he => okEps_spec (hes e he)) ?_
      intro R y
      rw [Bool.or_eq_true] at h
      rcases h with h | h
      · simp only [beq_iff_eq] at h
        have : ∃ e, a.out s = [e] ∧ N.after e = N.X s := by
          obtain ⟨e, l, he, h1, h2⟩ := List.map_eq_cons_iff.1 h
          have : l = [] := by simpa using h2
          exact ⟨e, by rw [he, this], h1⟩
        obtain ⟨e, he, hx⟩ := this
        rw [he]
        simp [hx]
      · split at h
        · rename_i g L hX
          simp only [Bool.and_eq_true, List.contains_iff_mem, List.mem_map, List.all_eq_true,
            Bool.or_eq_true, beq_iff_eq, forall_exists_index, and_imp, forall_apply_eq_imp_iff₂] at h
          rw [show N.X s ++ R = .star g :: (L ++ R) by rw [hX]; rfl, langL_star]
          constructor
          · rintro (hy | hy)
            · obtain ⟨e, he, hx⟩ := h.1.1
              exact ⟨e, he, by rw [hx]; exact hy⟩
            · obtain ⟨e, he, hx⟩ := h.1.2
              exact ⟨e, he, by rw [hx, hX]; simpa using hy⟩
          · rintro ⟨e, he, hy⟩
            rcases h.2 e he with hx | hx
            · rw [hx] at hy; exact .inl hy
            · rw [hx, hX] at hy; exact .inr (by simpa using hy)
        · rename_i r L _ hX
          simp only [Bool.and_eq_true, List.contains_iff_mem, List.mem_map, List.all_eq_true,
            forall_exists_index, and_imp, forall_apply_eq_imp_iff₂] at h
          rw [show N.X s ++ R = r :: (L ++ R) by rw [hX]; rfl, langL_alts]
          constructor
          · rintro ⟨g, hg, hy⟩
            obtain ⟨e, he, hx⟩ := h.1 g hg
            exact ⟨e, he, by rw [hx]; simpa using hy⟩
          · rintro ⟨e, he, hy⟩
            obtain ⟨g, hg, hx⟩ := h.2 e he
            refine ⟨g, hg, ?_⟩
            rw [← hx] at hy; simpa using hy
        · simp at h
    split at h
    · rename_i e he
      split at h
      · rename_i neg rs hc
        simp only [Bool.and_eq_true, decide_eq_true_eq, beq_iff_eq] at h
        exact .char e neg rs h7 he hc h.1.1 h.1.2 h.2
      · exact eps h
    · exact eps h

end Atn

end Verif
