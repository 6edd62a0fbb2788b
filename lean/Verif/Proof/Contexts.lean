import Verif.Model.Contexts
/-!
# Getters and dynamic dispatch
-/

namespace Verif

set_option Elab.async false

/-! ## Type assertions -/

theorem rule_mem (r : Rule) : r ∈ Rule.all := by cases r <;> decide

theorem implements_table : ∀ r ∈ Rule.all, ∀ i ∈ Rule.all,
    (ifaceMethods i).all (methodSet (.ctx (newContext r).1)).contains = (i == r) := by decide +kernel

theorem leaf_table : ∀ i ∈ Rule.all, (ifaceMethods i).all (methodSet .terminal).contains = false := by
  decide +kernel

/-- A node satisfies the interface of a rule exactly if it is a node of that
rule. -/
theorem implements_eq (t : Tree) (i : Rule) : t.implements i = t.isRule i := by
  cases t with
  | leaf t => exact leaf_table i (rule_mem i)
  | node r ks => exact implements_table r (rule_mem r) i (rule_mem i)

theorem newContext_eq (r : Rule) : newContext r = (r, r) := by cases r <;> rfl

theorem assertContext_rule {t : Tree} {r : Rule} (h : t.isRule r = true) : assertContext t = .ok t := by
  cases t with
  | leaf t => cases h
  | node r ks => rfl

theorem assertTo_rule {t : Tree} {r : Rule} (h : t.isRule r = true) : assertTo r t = .ok t := by
  rw [assertTo, implements_eq, if_pos h]

/-! ## The bodies of getters -/

theorem firstLoop_eq (i : Rule) (ks : List Tree) : firstLoop i ks = .ok (ks.filter (fun x : Tree => x.isRule i)).head? := by
  induction ks with
  | nil => rfl
  | cons c cs ih =>
    rw [firstLoop, implements_eq]
    by_cases h : c.isRule i = true
    · rw [if_pos h, List.filter_cons_of_pos h, assertContext_rule h]; rfl
    · rw [if_neg h, List.filter_cons_of_neg h, ih]

theorem nthLoop_eq (i : Rule) (k : Int) (ks : List Tree) (j : Int) :
    nthLoop i k ks j = .ok (if j ≤ k then (ks.filter (fun x : Tree => x.isRule i))[(k - j).toNat]? else none) := by
  induction ks generalizing j with
  | nil => simp [nthLoop]
  | cons c cs ih =>
    rw [nthLoop, implements_eq]
    by_cases h : c.isRule i = true
    · rw [if_pos h, List.filter_cons_of_pos h, assertContext_rule h, ih]
      by_cases hj : j = k
      · subst hj; simp; rfl
      · rw [if_neg hj]
        by_cases hk : j ≤ k
        · have h1 : j + 1 ≤ k := by omega
          have h2 : (k - j).toNat = (k - (j + 1)).toNat + 1 := by omega
          rw [if_pos hk, if_pos h1, h2, List.getElem?_cons_succ]
        · rw [if_neg hk, if_neg (by omega)]
    · rw [if_neg h, List.filter_cons_of_neg h, ih]

theorem asserted_rule {r : Rule} {x : Option Tree} (h : ∀ t, x = some t → t.isRule r = true) :
    asserted r x = .ok x := by
  cases x with
  | none => rfl
  | some t => rw [asserted, assertTo_rule (h t rfl)]; rfl

theorem countLoop_eq (i : Rule) (ks : List Tree) (n : Nat) :
    countLoop i ks n = n + (ks.filter (fun x : Tree => x.isRule i)).length := by
  induction ks generalizing n with
  | nil => rfl
  | cons c cs ih =>
    rw [countLoop, implements_eq, ih]
    by_cases h : c.isRule i = true
    · rw [if_pos h, List.filter_cons_of_pos h, List.length_cons]
      show n + 1 + (cs.filter (fun x : Tree => x.isRule i)).length = _
      show _ = n + ((cs.filter (fun x : Tree => x.isRule i)).length + 1)
      omega
    · rw [if_neg h, List.filter_cons_of_neg h]

theorem fillLoop_eq (i : Rule) (ks : List Tree) (pre : List (Option Tree)) (m : Nat)
    (hm : m = (ks.filter (fun x : Tree => x.isRule i)).length) :
    fillLoop i i ks pre.length (pre ++ List.replicate m none) =
      .ok (pre ++ (ks.filter (fun x : Tree => x.isRule i)).map some) := by
  induction ks generalizing pre m with
  | nil => subst hm; simp [fillLoop]
  | cons c cs ih =>
    rw [fillLoop, implements_eq]
    by_cases h : c.isRule i = true
    · rw [List.filter_cons_of_pos h] at hm ⊢
      subst hm
      rw [if_pos h, assertTo_rule h, List.length_cons]
      have hl : pre.length < (pre ++ List.replicate ((cs.filter (fun x : Tree => x.isRule i)).length + 1) none).length := by
        simp
      have he : (pre ++ List.replicate ((cs.filter (fun x : Tree => x.isRule i)).length + 1) none).set pre.length (some c) =
          (pre ++ [some c]) ++ List.replicate (cs.filter (fun x : Tree => x.isRule i)).length none := by
        rw [List.replicate_succ, List.set_append_right _ _ (Nat.le_refl _)]
        simp
      have hp := ih (pre ++ [some c]) _ rfl
      rw [List.length_append, List.length_cons, List.length_nil] at hp
      simp only [bind, Except.bind]
      rw [if_pos hl, he, hp]
      simp
    · rw [if_neg h]
      rw [List.filter_cons_of_neg h] at hm ⊢
      exact ih pre m hm

theorem getToken_eq (ty : TT) (ks : List Tree) (k : Int) :
    getToken ty ks k = if 0 ≤ k then (ks.filter (fun x : Tree => x.isTok ty))[k.toNat]? else none := by
  induction ks generalizing k with
  | nil => simp [getToken]
  | cons c cs ih =>
    cases c with
    | node r l =>
      rw [getToken, ih, List.filter_cons_of_neg (by simp [Tree.isTok])]
    | leaf t =>
      rw [getToken]
      by_cases h : t.ty = ty
      · rw [if_pos h, List.filter_cons_of_pos (by simp [Tree.isTok, h]), ih]
        by_cases hk : k = 0
        · subst hk; simp
        · rw [if_neg hk]
          by_cases h0 : 0 ≤ k
          · have h2 : k.toNat = (k - 1).toNat + 1 := by omega
            rw [if_pos (by omega), if_pos h0, h2, List.getElem?_cons_succ]
          · rw [if_neg (by omega), if_neg h0]
      · rw [if_neg h, List.filter_cons_of_neg (by simpa [Tree.isTok] using h), ih]

theorem getTokens_eq (ty : TT) (ks : List Tree) :
    getTokens ty ks = (ks.filter (fun x : Tree => x.isTok ty)).map some := by
  induction ks with
  | nil => rfl
  | cons c cs ih =>
    cases c with
    | node r l => rw [getTokens, ih, List.filter_cons_of_neg (by simp [Tree.isTok])]
    | leaf t =>
      rw [getTokens]
      by_cases h : t.ty = ty
      · rw [if_pos h, List.filter_cons_of_pos (by simp [Tree.isTok, h]), ih]; rfl
      · rw [if_neg h, List.filter_cons_of_neg (by simpa [Tree.isTok] using h), ih]

theorem run_first (r : Rule) (ks : List Tree) (k : Int) :
    (GetBody.first r r).run ks k = .ok (.node (ks.filter (fun x : Tree => x.isRule r)).head?) := by
  rw [GetBody.run, firstLoop_eq]
  simp only [bind, Except.bind]
  rw [asserted_rule]
  · rfl
  · intro t h
    exact (List.mem_filter.1 (List.mem_of_mem_head? h)).2

theorem run_nth (r : Rule) (ks : List Tree) (k : Int) :
    (GetBody.nth r r).run ks k =
      .ok (.node (if 0 ≤ k then (ks.filter (fun x : Tree => x.isRule r))[k.toNat]? else none)) := by
  rw [GetBody.run, nthLoop_eq, Int.sub_zero]
  simp only [bind, Except.bind]
  rw [asserted_rule]
  · rfl
  · intro t h
    split at h
    · exact (List.mem_filter.1 (List.mem_of_getElem? h)).2
    · cases h

theorem run_all (r : Rule) (ks : List Tree) (k : Int) :
    (GetBody.all r r r).run ks k = .ok (.nodes ((ks.filter (fun x : Tree => x.isRule r)).map some)) := by
  rw [GetBody.run, countLoop_eq, Nat.zero_add]
  have := fillLoop_eq r ks [] _ rfl
  rw [List.length_nil, List.nil_append, List.nil_append] at this
  rw [this]
  rfl

end Verif
