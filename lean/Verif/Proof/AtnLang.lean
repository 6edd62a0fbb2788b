import Verif.Spec.Predict
import Verif.Proof.Complete
/-!
# The language of the parser ATN

Paths through the parser ATN are derivations of the grammar: every state `s`
is given the list of grammar symbols that can still follow in its rule
(a list `X s`), and local checks on all states show that the ATN consumes from
`s` exactly what these symbols derive.
-/

namespace Verif

/-- Token sets in the order of the token numbers. -/
def sorted (s : List TT) : List TT := TT.all.filter s.contains

theorem mem_sorted {s : List TT} {t : TT} : t ∈ sorted s ↔ t ∈ s := by
  have : t ∈ TT.all := by cases t <;> decide
  simp [sorted, this]

/-- A right-hand side without its lookahead tests. -/
def G.bare : G → G
  | .eps => .eps
  | .tok s => .tok (sorted s)
  | .call r k => .call r k
  | .pred k => .pred k
  | .seq a b => .seq a.bare b.bare
  | .alt _ a b => .alt [] a.bare b.bare
  | .star _ a => .star [] a.bare

/-- The elements of a sequence. -/
def G.flat : G → List G
  | .eps => []
  | .seq a b => a.flat ++ b.flat
  | g => [g]

/-- The sequence of elements. -/
def G.ofList : List G → G
  | [] => .eps
  | [a] => a
  | a :: l => .seq a (ofList l)

/-- The right-hand side of a rule as a list. -/
def rhs (r : Rule) : List G := (grammar r).bare.flat

/-- Right-nested alternatives. -/
def G.ofAlts : List G → G
  | [] => .eps
  | [a] => a
  | a :: l => .alt [] a (ofAlts l)

/-- The alternatives of a block. -/
def G.alts : G → List G
  | .alt _ a b => a :: b.alts
  | g => [g]

/-- Derivations with the pending parts of the calling rules on a stack, and
with a size.  `lead` is as in `Atn.T.Path`. -/
inductive Der : Nat → Option Nat → List G → List (List G) → List Tok → Prop where
  | done {lead} : Der 0 lead [] [] []
  | ret {n lead L stk ts} : Der n none L stk ts → Der (n + 1) lead [] (L :: stk) ts
  | tok {n lead s L stk t ts} : t.ty ∈ s → Der n none L stk ts →
      Der (n + 1) lead (.tok s :: L) stk (t :: ts)
  | call {n lead r k L stk ts} : Der n none (rhs r) (L :: stk) ts →
      Der (n + 1) lead (.call r k :: L) stk ts
  | pred {n lead k L stk ts} : (∀ p, lead = some p → p ≤ k) → Der n lead L stk ts →
      Der (n + 1) lead (.pred k :: L) stk ts
  | altL {n lead g a b L stk ts} : Der n lead (a.flat ++ L) stk ts →
      Der (n + 1) lead (.alt g a b :: L) stk ts
  | altR {n lead g a b L stk ts} : Der n lead (b.flat ++ L) stk ts →
      Der (n + 1) lead (.alt g a b :: L) stk ts
  | starNil {n lead g a L stk ts} : Der n lead L stk ts → Der (n + 1) lead (.star g a :: L) stk ts
  | starCons {n lead g a L stk ts} : Der n lead (a.flat ++ .star g a :: L) stk ts →
      Der (n + 1) lead (.star g a :: L) stk ts

/-- Some derivation. -/
def Ders (lead : Option Nat) (L : List G) (stk : List (List G)) (ts : List Tok) : Prop :=
  ∃ n, Der n lead L stk ts

theorem Der.weaken {n lead L stk ts} (h : Der n lead L stk ts) : Der n none L stk ts := by
  induction h with
  | done => exact .done
  | ret h _ => exact .ret h
  | tok ht h _ => exact .tok ht h
  | call h _ => exact .call h
  | pred _ _ ih => exact .pred (by simp) ih
  | altL _ ih => exact .altL ih
  | altR _ ih => exact .altR ih
  | starNil _ ih => exact .starNil ih
  | starCons _ ih => exact .starCons ih

theorem Ders.weaken {lead L stk ts} (h : Ders lead L stk ts) : Ders none L stk ts :=
  let ⟨n, h⟩ := h; ⟨n, h.weaken⟩

namespace Atn

/-- The symbol on a transition. -/
def T.symbol (a : T) (e : Edge) : List G :=
  if e.silent then []
  else if e.ty == 3 then [.call (Rule.all.getD e.a2 .source_unit) e.a3]
  else if e.ty == 10 then [.pred e.a1]
  else [.tok (TT.all.filter (a.eats e))]

/-- What can follow state `s` up to the state `stop` or to the end of the
rule; `none` if the graph is not structured. -/
def T.rest (a : T) : Nat → Nat → Nat → Option (List G)
  | 0, _, _ => none
  | n + 1, stop, s =>
    if s == stop then some [] else
    let st := a.st s
    let block (b : Nat) : Option G := do
      let l ← (a.out b).mapM fun e => a.rest n (a.st b).arg e.trg
      return G.ofAlts (l.map G.ofList)
    if st.ty == 7 then some []
    else if st.ty == 3 || st.ty == 4 || st.ty == 5 then do
      let g ← block s
      let r ← a.rest n stop st.arg
      return g.flat ++ r
    else match a.out s with
      | [e] => do
        let r ← a.rest n stop e.trg
        return a.symbol e ++ r
      | [e, f] => do
        let g ← block e.trg
        let r ← a.rest n stop f.trg
        return .star [] g :: r
      | _ => none

/-- The length of the chain of silent single transitions from a state. -/
def T.chain (a : T) : Nat → Nat → Nat
  | 0, _ => 0
  | n + 1, s => match a.out s with
    | [e] => if e.silent then 1 + a.chain n e.trg else 0
    | _ => 0

/-- The local check at one state.  456 is the number of states, without an
isolated last one. -/
def T.okState (a : T) (X : Nat → List G) (s : Nat) : Bool :=
  if (a.st s).ty == 7 then X s == [] && (a.out s).isEmpty
  else match a.out s with
    | [e] => decide (e.trg < 456) &&
      if e.silent then X s == X e.trg && decide (a.chain 20 e.trg < a.chain 20 s)
      else if e.ty == 10 then X s == .pred e.a1 :: X e.trg
      else if e.ty == 3 then decide (e.a1 < 456) &&
        match X s with
        | .call r _ :: L => L == X e.trg && X e.a1 == rhs r
        | _ => false
      else match X s with
        | .tok l :: L => L == X e.trg && TT.all.all fun t => l.contains t == a.eats e t
        | _ => false
    | es => es.all (fun e => e.silent && decide (e.trg < 456)) &&
      let T := es.map fun e => X e.trg
      match X s with
      | .star _ g :: L =>
          T.contains L && T.contains (g.flat ++ X s) && T.all fun x => x == L || x == g.flat ++ X s
      | .alt h b c :: L =>
          let A := (G.alts (.alt h b c)).map fun g => g.flat ++ L
          A.all T.contains && T.all A.contains
      | _ => false

end Atn

/-- The framesOf a X of a stack of invoking states. -/
def framesOf (a : Atn.T) (X : Nat → List G) (stack : List Nat) : List (List G) :=
  stack.map fun i => X (a.follow i)

theorem out_mem_single {a : Atn.T} {s : Nat} {e f : Atn.Edge} (h : a.out s = [f])
    (he : e ∈ a.out s) : e = f := by
  rw [h] at he; simpa using he

theorem ruleEdge_mem {a : Atn.T} {s : Nat} {e : Atn.Edge} (h : a.ruleEdge s = some e) :
    e ∈ a.out s ∧ e.ty = 3 := by
  unfold Atn.T.ruleEdge at h
  exact ⟨List.mem_of_find?_eq_some h, by simpa using List.find?_some h⟩

/-- The shapes of a checked state. -/
inductive Shape (a : Atn.T) (X : Nat → List G) (s : Nat) : Prop where
  | stop : (a.st s).ty = 7 → X s = [] → a.out s = [] → Shape a X s
  | silent (e : Atn.Edge) : (a.st s).ty ≠ 7 → a.out s = [e] → e.silent = true → e.trg < 456 →
      X s = X e.trg → a.chain 20 e.trg < a.chain 20 s → Shape a X s
  | pred (e : Atn.Edge) : (a.st s).ty ≠ 7 → a.out s = [e] → e.silent = false → e.ty = 10 →
      e.trg < 456 → X s = .pred e.a1 :: X e.trg → Shape a X s
  | call (e : Atn.Edge) (r : Rule) (k : Nat) : (a.st s).ty ≠ 7 → a.out s = [e] →
      e.silent = false → e.ty = 3 → e.trg < 456 → e.a1 < 456 →
      X s = .call r k :: X e.trg → X e.a1 = rhs r → Shape a X s
  | tok (e : Atn.Edge) (l : List TT) : (a.st s).ty ≠ 7 → a.out s = [e] →
      e.silent = false → e.ty ≠ 10 → e.ty ≠ 3 → e.trg < 456 →
      X s = .tok l :: X e.trg → (∀ t, t ∈ l ↔ a.eats e t = true) → Shape a X s
  | star (h : Guard) (g : G) (L : List G) : (a.st s).ty ≠ 7 →
      (∀ e ∈ a.out s, e.silent = true ∧ e.trg < 456) → X s = .star h g :: L →
      (∃ e ∈ a.out s, X e.trg = L) → (∃ e ∈ a.out s, X e.trg = g.flat ++ X s) →
      (∀ e ∈ a.out s, X e.trg = L ∨ X e.trg = g.flat ++ X s) → Shape a X s
  | alt (h : Guard) (b c : G) (L : List G) : (a.st s).ty ≠ 7 →
      (∀ e ∈ a.out s, e.silent = true ∧ e.trg < 456) → X s = .alt h b c :: L →
      (∀ g ∈ G.alts (.alt h b c), ∃ e ∈ a.out s, X e.trg = g.flat ++ L) →
      (∀ e ∈ a.out s, ∃ g ∈ G.alts (.alt h b c), X e.trg = g.flat ++ L) → Shape a X s

theorem shape_of_ok {a : Atn.T} {X : Nat → List G} {s : Nat} (h : a.okState X s = true) :
    Shape a X s := by
  unfold Atn.T.okState at h
  split at h
  · rename_i h7
    simp at h h7
    exact .stop h7 h.1 h.2
  · rename_i h7
    have h7 : (a.st s).ty ≠ 7 := by simpa using h7
    split at h
    · rename_i e he
      simp only [Bool.and_eq_true, decide_eq_true_eq] at h
      obtain ⟨hlt, h⟩ := h
      split at h
      · rename_i hs
        simp at h
        exact .silent e h7 he hs hlt h.1 h.2
      · rename_i hs
        have hs : e.silent = false := by simpa using hs
        split at h
        · rename_i h10
          exact .pred e h7 he hs (by simpa using h10) hlt (by simpa using h)
        · rename_i h10
          split at h
          · rename_i h3
            simp only [Bool.and_eq_true, decide_eq_true_eq] at h
            obtain ⟨ha, h⟩ := h
            split at h
            · rename_i r k L hX
              simp at h
              exact .call e r k h7 he hs (by simpa using h3) hlt ha (by rw [hX, h.1]) h.2
            · simp at h
          · rename_i h3
            split at h
            · rename_i l L hX
              simp only [Bool.and_eq_true, beq_iff_eq, List.all_eq_true] at h
              refine .tok e l h7 he hs (by simpa using h10) (by simpa using h3) hlt
                (by rw [hX, h.1]) ?_
              intro t
              have := h.2 t (by cases t <;> decide)
              rw [← this]; simp
            · simp at h
    · rename_i es
      simp only [Bool.and_eq_true, List.all_eq_true, decide_eq_true_eq] at h
      obtain ⟨hes, h⟩ := h
      split at h
      · rename_i hd g L hX
        simp only [Bool.and_eq_true, List.contains_iff_mem, List.mem_map, List.all_eq_true,
          Bool.or_eq_true, beq_iff_eq, forall_exists_index, and_imp,
          forall_apply_eq_imp_iff₂] at h
        exact .star hd g L h7 hes hX h.1.1 h.1.2 h.2
      · rename_i hd b c L hX
        simp only [Bool.and_eq_true, List.contains_iff_mem, List.mem_map, List.all_eq_true,
          forall_exists_index, and_imp, forall_apply_eq_imp_iff₂] at h
        refine .alt hd b c L h7 hes hX h.1 ?_
        intro e he
        obtain ⟨g, hg, hh⟩ := h.2 e he
        exact ⟨g, hg, hh.symm⟩
      · simp at h

theorem ders_alts {lead stk ts} {L : List G} : ∀ {x g : G}, x ∈ g.alts → 
    Ders lead (x.flat ++ L) stk ts → Ders lead (g.flat ++ L) stk ts := by
  intro x g
  induction g with
  | alt h a b _ ih =>
    intro hx hd
    simp only [G.alts, List.mem_cons] at hx
    rcases hx with rfl | hx
    · obtain ⟨n, hd⟩ := hd; exact ⟨n + 1, .altL hd⟩
    · obtain ⟨n, hd⟩ := ih hx hd; exact ⟨n + 1, .altR hd⟩
  | _ => intro hx hd; simp only [G.alts, List.mem_singleton] at hx; subst hx; exact hd

theorem alts_ders {lead stk ts} {L : List G} : ∀ {g : G} {n}, Der n lead (g.flat ++ L) stk ts →
    ∃ x ∈ g.alts, ∃ m, m ≤ n ∧ Der m lead (x.flat ++ L) stk ts := by
  intro g
  induction g with
  | alt h a b _ ih =>
    intro n hd
    cases hd with
    | altL hd => exact ⟨a, by simp [G.alts], _, by omega, hd⟩
    | altR hd =>
      obtain ⟨x, hx, m, hm, hd⟩ := ih hd
      exact ⟨x, by simp [G.alts, hx], m, by omega, hd⟩
  | _ => intro n hd; exact ⟨_, by simp [G.alts], n, Nat.le_refl _, hd⟩

section
variable {a : Atn.T} {X : Nat → List G} (hok : ∀ s, s < 456 → Shape a X s)
  (hf : ∀ i, a.follow i < 456)
include hok hf

/-- Paths are derivations. -/
theorem path_ders_of {lead s stack ts} (h : a.Path lead s stack ts) : s < 456 →
    Ders lead (X s) (framesOf a X stack) ts := by
  induction h with
  | stop h7 =>
    intro hs
    cases hok _ hs with
    | stop _ hX _ => rw [hX]; exact ⟨_, .done⟩
    | _ => contradiction
  | @ret lead s i stack ts h7 hp ih =>
    intro hs
    cases hok _ hs with
    | stop _ hX _ =>
      rw [hX]
      obtain ⟨n, h⟩ := ih (hf i)
      exact ⟨_, .ret h⟩
    | _ => contradiction
  | @silent lead s e stack ts he hsil hp ih =>
    intro hs
    cases hok _ hs with
    | stop _ _ ho => rw [ho] at he; simp at he
    | silent f _ ho hf hlt hX _ =>
      cases out_mem_single ho he; rw [hX]; exact ih hlt
    | pred f _ ho hf => cases out_mem_single ho he; rw [hf] at hsil; cases hsil
    | call f _ _ _ ho hf => cases out_mem_single ho he; rw [hf] at hsil; cases hsil
    | tok f _ _ ho hf => cases out_mem_single ho he; rw [hf] at hsil; cases hsil
    | star g x L _ hes hX _ _ hall =>
      have ih := ih (hes e he).2
      rcases hall e he with hx | hx
      · rw [hx] at ih; rw [hX]; obtain ⟨n, ih⟩ := ih; exact ⟨n + 1, .starNil ih⟩
      · rw [hx, hX] at ih; rw [hX]; obtain ⟨n, ih⟩ := ih; exact ⟨n + 1, .starCons ih⟩
    | alt g b c L _ hes hX _ hall =>
      have ih := ih (hes e he).2
      obtain ⟨x, hx, hh⟩ := hall e he
      rw [hh] at ih
      rw [hX]
      exact ders_alts hx ih
  | @pred lead s e stack ts he h10 hp _ ih =>
    intro hs
    have hsil : e.silent = false := by simp [Atn.Edge.silent, h10]
    cases hok _ hs with
    | stop _ _ ho => rw [ho] at he; simp at he
    | silent f _ ho hf => cases out_mem_single ho he; rw [hf] at hsil; cases hsil
    | pred f _ ho hf _ hlt hX =>
      cases out_mem_single ho he; rw [hX]; obtain ⟨n, ih⟩ := ih hlt; exact ⟨_, .pred hp ih⟩
    | call f _ _ _ ho hf h3 => cases out_mem_single ho he; omega
    | tok f _ _ ho hf h10' => cases out_mem_single ho he; contradiction
    | star g x L _ hes => rw [(hes e he).1] at hsil; cases hsil
    | alt g b c L _ hes => rw [(hes e he).1] at hsil; cases hsil
  | @call lead s e stack ts hr _ ih =>
    intro hs
    obtain ⟨he, h3⟩ := ruleEdge_mem hr
    have hsil : e.silent = false := by simp [Atn.Edge.silent, h3]
    cases hok _ hs with
    | stop _ _ ho => rw [ho] at he; simp at he
    | silent f _ ho hf => cases out_mem_single ho he; rw [hf] at hsil; cases hsil
    | pred f _ ho hf h10 => cases out_mem_single ho he; omega
    | call f r k _ ho hf _ hlt ha hX hR =>
      cases out_mem_single ho he
      obtain ⟨n, ih⟩ := ih ha
      rw [hR] at ih
      rw [hX]
      refine ⟨_, .call (n := n) ?_⟩
      have : framesOf a X (s :: stack) = X e.trg :: framesOf a X stack := by
        simp [framesOf, Atn.T.follow, hr]
      rw [this] at ih; exact ih
    | tok f _ _ ho hf _ h3' => cases out_mem_single ho he; contradiction
    | star g x L _ hes => rw [(hes e he).1] at hsil; cases hsil
    | alt g b c L _ hes => rw [(hes e he).1] at hsil; cases hsil
  | @token lead s e stack t ts he heat _ ih =>
    intro hs
    have hty : e.silent = false ∧ e.ty ≠ 10 ∧ e.ty ≠ 3 := by
      unfold Atn.T.eats at heat
      split at heat <;> simp_all [Atn.Edge.silent]
    cases hok _ hs with
    | stop _ _ ho => rw [ho] at he; simp at he
    | silent f _ ho hf => cases out_mem_single ho he; rw [hf] at hty; cases hty.1
    | pred f _ ho hf h10 => cases out_mem_single ho he; exact absurd h10 hty.2.1
    | call f _ _ _ ho hf h3 => cases out_mem_single ho he; exact absurd h3 hty.2.2
    | tok f l _ ho hf _ _ hlt hX hl =>
      cases out_mem_single ho he
      obtain ⟨n, ih⟩ := ih hlt
      rw [hX]
      exact ⟨_, .tok ((hl _).2 heat) ih⟩
    | star g x L _ hes => rw [(hes e he).1] at hty; cases hty.1
    | alt g b c L _ hes => rw [(hes e he).1] at hty; cases hty.1

/-- Derivations are paths. -/
theorem der_path_of : ∀ (n m : Nat) {lead s stack ts}, s < 456 → a.chain 20 s = m →
    Der n lead (X s) (framesOf a X stack) ts → a.Path lead s stack ts := by
  intro n
  induction n using Nat.strongRecOn with
  | _ n ihn =>
  intro m
  induction m using Nat.strongRecOn with
  | _ m ihm =>
  intro lead s stack ts hs hm h
  cases hok _ hs with
  | stop h7 hX _ =>
    rw [hX] at h
    cases stack with
    | nil => cases h; exact .stop h7
    | cons i stack =>
      cases h with
      | ret h => exact .ret h7 (ihn _ (by omega) _ (hf i) rfl h)
  | silent e _ ho he hlt hX hc =>
    rw [hX] at h
    exact .silent (e := e) (by simp [ho]) he (ihm _ (by omega) hlt rfl h)
  | pred e _ ho _ h10 hlt hX =>
    rw [hX] at h
    cases h with
    | pred hp h => exact .pred (e := e) (by simp [ho]) h10 hp (ihn _ (by omega) _ hlt rfl h)
  | call e r k _ ho _ h3 hlt ha hX hR =>
    rw [hX] at h
    have hr : a.ruleEdge s = some e := by simp [Atn.T.ruleEdge, ho, h3]
    cases h with
    | call h =>
      refine .call hr (ihn _ (Nat.lt_succ_self _) _ ha rfl ?_)
      rw [hR]
      have : framesOf a X (s :: stack) = X e.trg :: framesOf a X stack := by
        simp [framesOf, Atn.T.follow, hr]
      rw [this]; exact h
  | tok e l _ ho _ _ _ hlt hX hl =>
    rw [hX] at h
    cases h with
    | tok ht h => exact .token (e := e) (by simp [ho]) ((hl _).1 ht) (ihn _ (by omega) _ hlt rfl h)
  | star g x L _ hes hX h₁ h₂ _ =>
    rw [hX] at h
    cases h with
    | starNil h =>
      obtain ⟨e, he, hh⟩ := h₁
      rw [← hh] at h
      exact .silent he (hes e he).1 (ihn _ (by omega) _ (hes e he).2 rfl h)
    | starCons h =>
      obtain ⟨e, he, hh⟩ := h₂
      rw [← hX, ← hh] at h
      exact .silent he (hes e he).1 (ihn _ (by omega) _ (hes e he).2 rfl h)
  | alt g b c L _ hes hX hall _ =>
    rw [hX] at h
    have : ∃ x ∈ G.alts (.alt g b c), ∃ k, k < n ∧ Der k lead (x.flat ++ L) (framesOf a X stack) ts := by
      cases h with
      | altL h => exact ⟨b, by simp [G.alts], _, by omega, h⟩
      | altR h =>
        obtain ⟨x, hx, k, hk, h⟩ := alts_ders h
        exact ⟨x, by simp [G.alts, hx], k, by omega, h⟩
    obtain ⟨x, hx, k, hk, h⟩ := this
    obtain ⟨e, he, hh⟩ := hall x hx
    rw [← hh] at h
    exact .silent he (hes e he).1 (ihn _ hk _ (hes e he).2 rfl h)

theorem ders_path_of {lead s stack ts} (hs : s < 456)
    (h : Ders lead (X s) (framesOf a X stack) ts) : a.Path lead s stack ts :=
  let ⟨n, h⟩ := h; der_path_of hok hf n _ hs rfl h

end

/-- If the ATN can go on with the remaining tokens, `Sync` reports nothing. -/
theorem path_looks {a : Atn.T} {lead s stack ts} (h : a.Path lead s stack ts) :
    ∀ pre post, stack = pre ++ post → a.Looks s pre none ∨ a.Looks s pre (some (la ts)) := by
  induction h with
  | stop h7 =>
    intro pre post hp
    obtain ⟨rfl, rfl⟩ : pre = [] ∧ post = [] := by simpa using hp.symm
    exact .inl (.stop h7)
  | @ret lead s i stack ts h7 _ ih =>
    intro pre post hp
    cases pre with
    | nil => exact .inl (.stop h7)
    | cons j pre =>
      simp only [List.cons_append, List.cons.injEq] at hp
      obtain ⟨rfl, hp⟩ := hp
      rcases ih pre post hp with h | h
      · exact .inl (.ret h7 h)
      · exact .inr (.ret h7 h)
  | silent he hsil _ ih =>
    intro pre post hp
    rcases ih pre post hp with h | h
    · exact .inl (.silent he (.inl hsil) h)
    · exact .inr (.silent he (.inl hsil) h)
  | pred he h10 _ _ ih =>
    intro pre post hp
    rcases ih pre post hp with h | h
    · exact .inl (.silent he (.inr h10) h)
    · exact .inr (.silent he (.inr h10) h)
  | @call lead s e stack ts hr _ ih =>
    intro pre post hp
    rcases ih (s :: pre) post (by simp [hp]) with h | h
    · exact .inl (.call hr h)
    · exact .inr (.call hr h)
  | token he heat _ _ =>
    intro pre post hp
    exact .inr (.token he heat)

theorem path_sync {lead s stack ts} (h : parserAtn.Path lead s stack ts) : SyncOk s (la ts) := by
  rcases path_looks h [] stack rfl with h | h
  · exact .inl h
  · exact .inr (.inl h)

end Verif
