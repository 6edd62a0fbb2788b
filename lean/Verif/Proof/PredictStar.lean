import Verif.Proof.PredictRight
/-!
# The tables predict the first viable alternative
-/

namespace Verif

set_option Elab.async false

open Atn

/-- The words that can start what a list of symbols derives, followed by `F`. -/
def firstF (L : List G) (F : Words) : Words := L.foldr (fun g F => first2 100 g F) F

/-- The transitions that call rule `r`. -/
def callers (r : Nat) : List Edge := parserAtn.edges.filter fun e => e.ty == 3 && e.a2 == r

/-- The words that can follow rule `r`, going up at most `n` calls. -/
def after : Nat → Nat → Words
  | 0, _ => [[]]
  | n + 1, r => if r = 0 then [[]] else
      (callers r).flatMap fun e => firstF (restAt e.trg) (after n (parserAtn.st e.src).rule)

/-- What follows an operand in an expression. -/
def loopG : List G := restAt 452

/-- Every way to start the list is a precedence predicate and operators of that
level. -/
def leadLevel : Nat → List G → Bool
  | 0, _ => false
  | n + 1, L => match L with
    | .pred k :: .tok s :: _ => s.all fun t => (opLevel t).any fun x => x.2 == k
    | .alt _ a b :: L => leadLevel n (a.flat ++ L) && leadLevel n (b.flat ++ L)
    | _ => false

/-- A call of an expression: another operator can follow, or no operator. -/
def callerOk (e : Edge) : Bool :=
  ((parserAtn.st e.src).rule == 50 && restAt e.trg == loopG) ||
  mustNot (opTable.map opLook) (firstF (restAt e.trg) (after 1 (parserAtn.st e.src).rule))

theorem callers50 : (callers 50).all callerOk = true := by decide +kernel

theorem loop_shape : (match loopG with
    | [.star _ x] => restAt 451 == x.flat ++ loopG
    | _ => false) = true := by decide +kernel

theorem lead451 : leadLevel 20 (restAt 451) = true := by decide +kernel

theorem leads31 : leadsTo 31 1 (restAt 451) = true ∧ leadsTo 31 2 [] = true := by decide +kernel

theorem leads10 : leadsTo 10 2 [] = true := by decide +kernel

theorem leads24 : leadsTo 24 2 [.call .action_name 0] = true := by decide +kernel

theorem rhs_name : rhs .action_name = [.tok [.IDENTIFIER]] := by decide +kernel

theorem after10 : mustNot (guardOf 10 1) (after 1 10) = true := by decide +kernel

theorem after24 : mustNot (G.la1 [.PERIOD]) (after 1 47) = true := by decide +kernel

theorem rules_asked : parserAtn.ruleOf 10 = 10 ∧ parserAtn.ruleOf 24 = 47 ∧
    parserAtn.ruleOf 31 = 50 := by decide +kernel

attribute [local irreducible] parserAtn restAt leadsTo sure

theorem genL_satF {L pre} {F : Words} {rest : List Tok} (h : GenL L pre) (hr : Sat F rest) :
    Sat (firstF L F) (pre ++ rest) := by
  induction h with
  | nil => exact hr
  | cons hg _ ih =>
    rw [List.append_assoc]
    exact first2_sound _ _ _ _ _ _ hg ih

theorem caller_mem {i : Nat} {e : Edge} (h : parserAtn.ruleEdge i = some e) :
    e ∈ callers e.a2 ∧ e.src = i ∧ parserAtn.follow i = e.trg := by
  obtain ⟨hm, ht⟩ := ruleEdge_mem h
  have hm := List.mem_filter.1 (show e ∈ parserAtn.edges.filter _ from hm)
  refine ⟨List.mem_filter.2 ⟨hm.1, by simp [ht]⟩, by simpa using hm.2, ?_⟩
  simp [T.follow, h]

theorem frames_cons (i : Nat) (ctx : List Nat) :
    frames (i :: ctx) = restAt (parserAtn.follow i) :: frames ctx := rfl

theorem chain_sat : ∀ (n : Nat) {r : Nat} {ctx : List Nat} {ts : List Tok},
    parserAtn.Chain r ctx → Ders none [] (frames ctx) ts → Sat (after n r) ts := by
  intro n
  induction n with
  | zero => intro r ctx ts _ _; exact Sat.any
  | succ n ih =>
    intro r ctx ts hc hd
    unfold after
    split
    · exact Sat.any
    · rename_i hr
      cases hc with
      | start => exact absurd rfl hr
      | @call i e ctx he hc =>
        obtain ⟨hm, rfl, hf⟩ := caller_mem he
        rw [frames_cons, hf] at hd
        obtain ⟨m, hd⟩ := hd
        cases hd with
        | ret hd =>
          obtain ⟨pre, rest, m', rfl, hg, _, hd'⟩ := der_genL _ hd
          obtain ⟨w, hw, hp⟩ := genL_satF hg (ih hc ⟨_, hd'⟩)
          exact ⟨w, List.mem_flatMap.2 ⟨e, hm, hw⟩, hp⟩

/-- A stack of symbol lists with `T` and `base` put below. -/
def below (T : List G) (base : List (List G)) : List G → List (List G) → List G × List (List G)
  | L, [] => (L ++ T, base)
  | L, M :: S => (L, (below T base M S).1 :: (below T base M S).2)

theorem below_append (T : List G) (base : List (List G)) (X L : List G) (S : List (List G)) :
    below T base (X ++ L) S = (X ++ (below T base L S).1, (below T base L S).2) := by
  cases S <;> simp [below]

/-- What a derivation ends with can be replaced. -/
theorem der_below {T T' : List G} {base base' : List (List G)}
    (h : ∀ lead ts, Ders lead T base ts → Ders lead T' base' ts) :
    ∀ (n : Nat) {lead : Option Nat} {L : List G} {S : List (List G)} {ts : List Tok},
    Der n lead (below T base L S).1 (below T base L S).2 ts →
    Ders lead (below T' base' L S).1 (below T' base' L S).2 ts := by
  intro n
  induction n using Nat.strongRecOn with
  | _ n ih =>
  intro lead L S ts hd
  cases L with
  | nil =>
    cases S with
    | nil => exact h _ _ ⟨n, hd⟩
    | cons M S =>
      simp only [below] at hd ⊢
      cases hd with
      | ret hd =>
        obtain ⟨m, hd⟩ := ih _ (Nat.lt_succ_self _) hd
        exact ⟨_, .ret hd⟩
  | cons g L =>
    have hc := fun (T : List G) (base : List (List G)) => below_append T base [g] L S
    simp only [List.singleton_append] at hc
    rw [hc] at hd ⊢
    simp only at hd ⊢
    have app := fun (T : List G) (base : List (List G)) (X : List G) => below_append T base X L S
    have appd : ∀ {m : Nat} {lead : Option Nat} {X : List G} {ts : List Tok}, m < n →
        Der m lead (X ++ (below T base L S).1) (below T base L S).2 ts →
        Ders lead (X ++ (below T' base' L S).1) (below T' base' L S).2 ts := by
      intro m lead X ts hm hd
      have := ih m hm (L := X ++ L) (S := S) (lead := lead) (ts := ts) (by rw [app]; exact hd)
      rw [app] at this
      exact this
    cases hd with
    | tok ht hd =>
      obtain ⟨m, hd⟩ := appd (X := []) (Nat.lt_succ_self _) hd
      exact ⟨_, .tok ht hd⟩
    | @call n _ r k _ _ _ hd =>
      have := ih _ (Nat.lt_succ_self _) (L := rhs r) (S := L :: S) (by simpa only [below] using hd)
      simp only [below] at this
      obtain ⟨m, hd⟩ := this
      exact ⟨_, .call hd⟩
    | pred hp hd =>
      obtain ⟨m, hd⟩ := appd (X := []) (Nat.lt_succ_self _) hd
      exact ⟨_, .pred hp hd⟩
    | altL hd =>
      obtain ⟨m, hd⟩ := appd (Nat.lt_succ_self _) hd
      exact ⟨_, .altL hd⟩
    | altR hd =>
      obtain ⟨m, hd⟩ := appd (Nat.lt_succ_self _) hd
      exact ⟨_, .altR hd⟩
    | starNil hd =>
      obtain ⟨m, hd⟩ := appd (X := []) (Nat.lt_succ_self _) hd
      exact ⟨_, .starNil hd⟩
    | @starCons _ _ g a _ _ _ hd =>
      obtain ⟨m, hd⟩ := appd (X := a.flat ++ [.star g a]) (Nat.lt_succ_self _) (by simpa using hd)
      exact ⟨_, .starCons (by simpa using hd)⟩

/-- A derivation that starts with an operator of a level that binds tightly
enough. -/
theorem lead_up : ∀ (n : Nat) (L : List G) (m : Nat) {p : Nat} {stk ts} {x : Nat × Nat},
    leadLevel n L = true → Der m none L stk ts → opLevel (la ts) = some x → p ≤ x.2 →
    Der m (some p) L stk ts := by
  intro n
  induction n with
  | zero => intro L m p stk ts x h; simp [leadLevel] at h
  | succ n ih =>
    intro L m p stk ts x h hd hx hp
    simp only [leadLevel] at h
    split at h
    · rename_i k s L'
      cases hd with
      | pred _ hd =>
        cases hd with
        | tok ht hd =>
          have := List.all_eq_true.1 h _ ht
          simp only [la] at hx
          rw [hx] at this
          have : x.2 = k := by simpa using this
          exact .pred (fun q hq => by cases hq; omega) (.tok ht hd)
    · simp only [Bool.and_eq_true] at h
      cases hd with
      | altL hd => exact .altL (ih _ _ h.1 hd hx hp)
      | altR hd => exact .altR (ih _ _ h.2 hd hx hp)
    · cases h

/-- If an operator follows an expression, the expression can also go on with
it. -/
theorem exit_op {p i k : Nat} (hp : p ≤ k) : ∀ (ctx : List Nat) {ts : List Tok},
    parserAtn.Chain 50 ctx → Ders none [] (frames ctx) ts → opLevel (la ts) = some (i, k) →
    Ders (some p) (restAt 451) (frames ctx) ts := by
  intro ctx
  induction ctx with
  | nil =>
    intro ts hc
    generalize hr : 50 = r at hc
    cases hc
    omega
  | cons c ctx ih =>
    intro ts hc hd hx
    generalize hr : 50 = r at hc
    cases hc with
    | @call _ e _ he hc =>
      obtain ⟨hm, rfl, hf⟩ := caller_mem he
      rw [← hr] at hm
      have hok := List.all_eq_true.1 callers50 e hm
      rw [frames_cons, hf] at hd ⊢
      obtain ⟨m, hd⟩ := hd
      cases hd with
      | @ret m _ _ _ _ hd =>
      unfold callerOk at hok
      simp only [Bool.or_eq_true, Bool.and_eq_true, beq_iff_eq] at hok
      rcases hok with ⟨h50, hloop⟩ | hnot
      · rw [hloop] at hd ⊢
        rw [h50] at hc
        have hs := loop_shape
        cases hL : loopG with
        | nil => rw [hL] at hs; simp at hs
        | cons g L =>
          rw [hL] at hs hd
          cases g <;> cases L <;> simp only [Bool.false_eq_true] at hs
          rename_i gd x
          have hs : restAt 451 = x.flat ++ [.star gd x] := by simpa using hs
          have hin : Ders (some p) (restAt 451) (frames ctx) ts := by
            cases hd with
            | starNil hd => exact ih hc ⟨_, hd⟩ hx
            | starCons hd =>
              have hd : Ders none (restAt 451) (frames ctx) ts := by rw [hs]; exact ⟨_, hd⟩
              obtain ⟨m, hd⟩ := hd
              exact ⟨m, lead_up 20 _ m lead451 hd hx hp⟩
          rw [hs] at hin ⊢
          obtain ⟨m, hin⟩ := hin
          refine der_below (T := [.star gd x]) (base := frames ctx) (T' := [.star gd x])
            (base' := [.star gd x] :: frames ctx) ?_ m (L := x.flat) (S := []) hin
          rintro lead ts ⟨m, h⟩
          exact ⟨_, .starNil (.ret h.weaken)⟩
      · exfalso
        obtain ⟨pre, rest, m', rfl, hg, _, hd'⟩ := der_genL _ hd
        have := mustNot_ok p hnot (genL_satF hg (chain_sat 1 hc ⟨_, hd'⟩))
        rw [opGuard_iff.2 ⟨_, hx, hp⟩] at this
        cases this

/-- The answer of the tables is the first viable alternative, for every chain
of rule calls. -/
theorem first_viable {d : Nat} (hd : d ∈ asked) {p : Nat} {ctx : List Nat} {ts : List Tok} {j : Nat}
    (hc : parserAtn.Chain (parserAtn.ruleOf d) ctx) (hv : Viable d p ctx ts j)
    (hmin : ∀ k, Viable d p ctx ts k → j ≤ k) :
    byTwo d p (la ts) (la ts.tail) = j := by
  obtain ⟨e, h0, he, _⟩ := id hv
  have hl := leadsTo_self he
  have hM := (leadsTo_viable h0 hl).1 hv
  have hlt := leadsTo_lt hl
  obtain ⟨h7, h10, h24, h30, h31⟩ := choices_length
  obtain ⟨r10, r24, r31⟩ := rules_asked
  rw [← sim_eq hd p ctx ts]
  refine sim_right d hd p ctx ts j _ h0 hl hM fun k hk0 hk => ?_
  refine Bool.eq_false_iff.2 fun hg => ?_
  simp only [asked, List.mem_cons, List.not_mem_nil, or_false] at hd
  rcases hd with rfl | rfl | rfl | rfl | rfl
  · rw [h7] at hlt
    obtain rfl : k = 1 := by omega
    obtain rfl : j = 2 := by omega
    have hg := (la2_iff (p := p) (by decide) (by decide)).1 hg
    have := sureAlt_ok sure7 hv
    simp only [Guard.ok, List.any_append, Bool.or_eq_true] at this
    simp only [List.mem_cons, List.not_mem_nil, or_false] at hg
    rcases this with h | h
    · have := la1_ok (p := p) h
      simp [hg.1] at this
    · have := (la2_iff (p := p) (by decide) (by decide)).1 h
      simp only [List.mem_cons, List.not_mem_nil, or_false] at this
      rw [this.2] at hg
      simp at hg
  · rw [h10] at hlt
    obtain rfl : k = 1 := by omega
    obtain rfl : j = 2 := by omega
    have hM := ((leadsTo_viable h0 leads10).1 hv).weaken
    rw [r10] at hc
    rw [mustNot_ok p after10 (chain_sat 1 hc hM)] at hg
    cases hg
  · rw [h24] at hlt
    obtain rfl : k = 1 := by omega
    obtain rfl : j = 2 := by omega
    have hM := ((leadsTo_viable h0 leads24).1 hv).weaken
    rw [r24] at hc
    obtain ⟨m, hM⟩ := hM
    cases hM with
    | call hN =>
      rw [rhs_name] at hN
      cases hN with
      | tok hty hN =>
        rename_i ts _
        cases hN with
        | ret hN =>
          have := mustNot_ok p after24 (chain_sat 1 hc ⟨_, hN⟩)
          have hg : la ts ∈ [TT.PERIOD] := ((la2_iff (p := p) (by decide) (by decide)).1 hg).2
          cases ts with
          | nil => simp [la] at hg
          | cons u ts =>
            simp only [la, List.mem_cons, List.not_mem_nil, or_false] at hg
            simp [Guard.ok, G.la1, Look.ok, laOk, hg] at this
  · rw [h30] at hlt
    have hokj : Guard.ok p (guardOf 30 j) ts = true := by
      by_cases h8 : j = 8
      · subst h8; exact sureAlt_ok sure30 hv
      · exact viable_guard (by decide) hv (by omega)
    have lev : ∀ i, 0 < i → i ≤ 8 → Guard.ok p (guardOf 30 i) ts = true →
        ∃ k, opLevel (la ts) = some (i, k) := by
      intro i hi0 hi hok
      have hlen : opTable.length = 8 := rfl
      have hge : opTable[i - 1]? = some (opTable[i - 1]'(by omega)) := List.getElem?_eq_getElem _
      rw [show guardOf 30 i = ((opTable[i - 1]?).map opLook).toList from rfl, hge] at hok
      simp only [Option.map_some, Option.toList_some, Guard.ok, List.any_cons, List.any_nil,
        Bool.or_false] at hok
      rw [opLook_iff (opTable_eof _ (List.getElem_mem _))] at hok
      have := (opTable_level _ (TT.mem_all' (la ts)) (i - 1) (List.mem_range.2 (by omega)) _ hge).1 hok.2
      rw [show i - 1 + 1 = i from by omega] at this
      exact ⟨_, this⟩
    obtain ⟨a, ha⟩ := lev j (by omega) (by omega) hokj
    obtain ⟨b, hb⟩ := lev k (by omega) (by omega) hg
    rw [ha] at hb
    simp at hb
    omega
  · rw [h31] at hlt
    obtain rfl : k = 1 := by omega
    obtain rfl : j = 2 := by omega
    have hM := ((leadsTo_viable h0 leads31.2).1 hv).weaken
    rw [r31] at hc
    obtain ⟨⟨i, k⟩, hx, hp⟩ := opGuard_iff.1 hg
    have hv1 := (leadsTo_viable (by omega) leads31.1).2 (exit_op hp ctx hc hM hx)
    have := hmin 1 hv1
    omega

end Verif
