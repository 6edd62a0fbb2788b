import Verif.Proof.GoCompile
/-!
# The generated code accepts every sentence

If `AdaptivePredict` chooses right (`Runtime.Right`), a run of the interpreter of the
grammar (`run`) that is part of a whole derivation is also a run of the
generated code: `Sync` stays quiet and every prediction is the decision that
the interpreter makes.
-/

namespace Verif

/-- What a list of symbols derives. -/
inductive GenL : List G → List Tok → Prop where
  | nil : GenL [] []
  | cons {g L t₁ t₂ ks} : Gen g t₁ ks → GenL L t₂ → GenL (g :: L) (t₁ ++ t₂)

theorem GenL.split : ∀ {L M ts}, GenL (L ++ M) ts → ∃ t₁ t₂, ts = t₁ ++ t₂ ∧ GenL L t₁ ∧ GenL M t₂ := by
  intro L
  induction L with
  | nil => intro M ts h; exact ⟨[], ts, rfl, .nil, h⟩
  | cons g L ih =>
    intro M ts h
    cases h with
    | cons hg h =>
      obtain ⟨t₁, t₂, rfl, h₁, h₂⟩ := ih h
      exact ⟨_, t₂, (List.append_assoc _ _ _).symm, .cons hg h₁, h₂⟩

theorem GenL.ofFlat : ∀ {g : G} {ts}, GenL g.flat ts → ∃ ks, Gen g ts ks := by
  intro g
  induction g with
  | eps => intro ts h; cases h; exact ⟨_, .eps⟩
  | seq a b iha ihb =>
    intro ts h
    obtain ⟨t₁, t₂, rfl, h₁, h₂⟩ := GenL.split h
    obtain ⟨_, g₁⟩ := iha h₁
    obtain ⟨_, g₂⟩ := ihb h₂
    exact ⟨_, .seq g₁ g₂⟩
  | _ =>
    intro ts h
    cases h with
    | cons hg h => cases h; rw [List.append_nil]; exact ⟨_, hg⟩

theorem gen_of_bare : ∀ {g : G} {ts ks}, Gen g.bare ts ks → Gen g ts ks := by
  intro g
  induction g with
  | eps => intro ts ks h; exact h
  | tok s =>
    intro ts ks h
    simp only [G.bare, gen_tok, mem_sorted] at h
    exact gen_tok.2 h
  | call r k => intro ts ks h; exact h
  | pred k => intro ts ks h; exact h
  | seq a b iha ihb =>
    intro ts ks h
    simp only [G.bare] at h
    cases h with
    | seq h₁ h₂ => exact .seq (iha h₁) (ihb h₂)
  | alt g a b iha ihb =>
    intro ts ks h
    simp only [G.bare] at h
    cases h with
    | altL h => exact .altL (iha h)
    | altR h => exact .altR (ihb h)
  | star g a iha =>
    intro ts ks h
    simp only [G.bare] at h
    generalize hx : G.star [] a.bare = x at h
    induction h with
    | starNil => exact .starNil
    | starCons h₁ _ _ ih₂ => cases hx; exact .starCons (iha h₁) (ih₂ rfl)
    | _ => cases hx

theorem der_genL : ∀ (n : Nat) {lead L stk ts}, Der n lead L stk ts →
    ∃ pre rest m, ts = pre ++ rest ∧ GenL L pre ∧ m ≤ n ∧ Der m none [] stk rest := by
  intro n
  induction n using Nat.strongRecOn with
  | _ n ih =>
  intro lead L stk ts h
  cases h with
  | done => exact ⟨[], [], 0, rfl, .nil, Nat.le_refl _, .done⟩
  | @ret n _ L stk _ h => exact ⟨[], ts, n + 1, rfl, .nil, Nat.le_refl _, .ret h⟩
  | @tok n _ s L _ t ts ht h =>
    obtain ⟨pre, rest, m, rfl, hg, hm, hd⟩ := ih _ (Nat.lt_succ_self _) h
    exact ⟨t :: pre, rest, m, rfl, .cons (.tok ht) hg, by omega, hd⟩
  | @call n _ r k L _ _ h =>
    obtain ⟨pre, rest, m, rfl, hg, hm, hd⟩ := ih _ (Nat.lt_succ_self _) h
    cases hd with
    | @ret m _ _ _ _ hd =>
      obtain ⟨pre₂, rest, m', rfl, hg₂, hm', hd⟩ := ih m (by omega) hd
      obtain ⟨ks, hg⟩ := GenL.ofFlat hg
      exact ⟨pre ++ pre₂, rest, m', by simp, .cons (.call (gen_of_bare hg)) hg₂, by omega, hd⟩
  | @pred n _ k L _ _ hp h =>
    obtain ⟨pre, rest, m, rfl, hg, hm, hd⟩ := ih _ (Nat.lt_succ_self _) h
    exact ⟨pre, rest, m, rfl, .cons .pred hg, by omega, hd⟩
  | @altL n _ g a b L _ _ h =>
    obtain ⟨pre, rest, m, rfl, hg, hm, hd⟩ := ih _ (Nat.lt_succ_self _) h
    obtain ⟨t₁, t₂, rfl, h₁, h₂⟩ := hg.split
    obtain ⟨ks, h₁⟩ := GenL.ofFlat h₁
    exact ⟨_, rest, m, rfl, .cons (.altL h₁) h₂, by omega, hd⟩
  | @altR n _ g a b L _ _ h =>
    obtain ⟨pre, rest, m, rfl, hg, hm, hd⟩ := ih _ (Nat.lt_succ_self _) h
    obtain ⟨t₁, t₂, rfl, h₁, h₂⟩ := hg.split
    obtain ⟨ks, h₁⟩ := GenL.ofFlat h₁
    exact ⟨_, rest, m, rfl, .cons (.altR h₁) h₂, by omega, hd⟩
  | @starNil n _ g a L _ _ h =>
    obtain ⟨pre, rest, m, rfl, hg, hm, hd⟩ := ih _ (Nat.lt_succ_self _) h
    exact ⟨pre, rest, m, rfl, .cons .starNil hg, by omega, hd⟩
  | @starCons n _ g a L _ _ h =>
    obtain ⟨pre, rest, m, rfl, hg, hm, hd⟩ := ih _ (Nat.lt_succ_self _) h
    obtain ⟨t₁, t₂, rfl, h₁, h₂⟩ := hg.split
    obtain ⟨ks, h₁⟩ := GenL.ofFlat h₁
    cases h₂ with
    | cons hs h₂ =>
      refine ⟨_, rest, m, rfl, ?_, by omega, hd⟩
      rw [← List.append_assoc]
      exact .cons (.starCons h₁ hs) h₂

/-- The words that can start what a list of symbols derives. -/
def firstL (L : List G) : Words := L.foldr (fun g F => first2 100 g F) [[]]

theorem genL_sat : ∀ {L pre} (rest : List Tok), GenL L pre → Sat (firstL L) (pre ++ rest) := by
  intro L pre rest h
  induction h with
  | nil => exact Sat.any
  | cons hg _ ih =>
    rw [List.append_assoc]
    exact first2_sound _ _ _ _ _ _ hg ih

theorem ders_sat {lead L stk ts} (h : Ders lead L stk ts) : Sat (firstL L) ts := by
  obtain ⟨n, h⟩ := h
  obtain ⟨pre, rest, _, rfl, hg, _⟩ := der_genL n h
  exact genL_sat rest hg

/-- A run of the interpreter, with a derivation of what follows, is a
derivation. -/
theorem run_ders : ∀ (m p : Nat) (g : G) (ts : List Tok) (ks : List Tree) (rest : List Tok),
    run m p g ts = some (ks, rest) → ∀ {L stk}, Ders (some p) L stk rest →
    Ders (some p) (g.bare.flat ++ L) stk ts := by
  intro m
  induction m with
  | zero => intro p g ts ks rest h; simp [run] at h
  | succ m ih =>
    intro p g ts ks rest h L stk hd
    cases g with
    | eps => simp [run] at h; obtain ⟨rfl, rfl⟩ := h; exact hd
    | tok s =>
      cases ts with
      | nil => simp [run] at h
      | cons t ts =>
        simp [run] at h
        obtain ⟨hs, rfl, rfl⟩ := h
        obtain ⟨n, hd⟩ := hd
        exact ⟨_, .tok (mem_sorted.2 (by simpa using hs)) hd.weaken⟩
    | call r k =>
      simp only [run] at h
      split at h
      · cases h
      · rename_i ks' ts' h'
        simp at h
        obtain ⟨rfl, rfl⟩ := h
        obtain ⟨n, hd⟩ := hd
        have := ih _ _ _ _ _ h' (L := []) (stk := L :: stk) ⟨_, .ret hd.weaken⟩
        obtain ⟨n, hd⟩ := this.weaken
        rw [List.append_nil] at hd
        exact ⟨_, .call hd⟩
    | pred k =>
      simp [run] at h
      obtain ⟨hp, rfl, rfl⟩ := h
      obtain ⟨n, hd⟩ := hd
      exact ⟨_, .pred (by simpa using hp) hd⟩
    | seq a b =>
      obtain ⟨k₁, t₁, k₂, h₁, h₂, rfl⟩ := run_seq_inv h
      have := ih _ _ _ _ _ h₁ (ih _ _ _ _ _ h₂ hd)
      simpa [G.bare, G.flat] using this
    | alt g a b =>
      simp only [run] at h
      split at h
      · obtain ⟨n, h⟩ := ih _ _ _ _ _ h hd
        exact ⟨_, .altL h⟩
      · obtain ⟨n, h⟩ := ih _ _ _ _ _ h hd
        exact ⟨_, .altR h⟩
    | star g a =>
      simp only [run] at h
      split at h
      · split at h
        · cases h
        · rename_i k₁ t₁ h₁
          split at h
          · cases h
          · rename_i k₂ t₂ h₂
            simp at h
            obtain ⟨rfl, rfl⟩ := h
            obtain ⟨n, h⟩ := ih _ _ _ _ _ h₁ (ih _ _ _ _ _ h₂ hd)
            exact ⟨_, .starCons h⟩
      · simp at h
        obtain ⟨rfl, rfl⟩ := h
        obtain ⟨n, hd⟩ := hd
        exact ⟨_, .starNil hd⟩

/-- Every way to start the list is a precedence predicate and a token for
which the test `g` is made. -/
def leadOk : Nat → Guard → List G → Bool
  | 0, _, _ => false
  | n + 1, g, L => match L with
    | .pred k :: .tok s :: _ =>
      g.any fun l => l.prec == some k && match l.la with
        | [s'] => s.all s'.contains
        | _ => false
    | .alt _ a b :: L => leadOk n g (a.flat ++ L) && leadOk n g (b.flat ++ L)
    | _ => false

theorem leadOk_ok : ∀ (n : Nat) (g : Guard) (L : List G) (m p : Nat) (stk ts),
    leadOk n g L = true → Der m (some p) L stk ts → Guard.ok p g ts = true := by
  intro n
  induction n with
  | zero => intro g L m p stk ts h; simp [leadOk] at h
  | succ n ih =>
    intro g L m p stk ts h hd
    simp only [leadOk] at h
    split at h
    · rename_i k s L'
      cases hd with
      | pred hp hd =>
        cases hd with
        | tok ht hd =>
          simp only [List.any_eq_true, Bool.and_eq_true, beq_iff_eq] at h
          obtain ⟨l, hl, hk, hs⟩ := h
          simp only [Guard.ok, List.any_eq_true]
          refine ⟨l, hl, ?_⟩
          have := hp p rfl
          split at hs
          · rename_i s' hla
            simp only [List.all_eq_true] at hs
            simp only [Look.ok, hk, hla, laOk, Bool.and_true, Bool.and_eq_true, decide_eq_true_eq]
            exact ⟨this, hs _ ht⟩
          · cases hs
    · simp only [Bool.and_eq_true] at h
      cases hd with
      | altL hd => exact ih _ _ _ _ _ _ h.1 hd
      | altR hd => exact ih _ _ _ _ _ _ h.2 hd
    · cases h

/-- Whenever the list can be derived, the test `g` succeeds. -/
def sure (g : Guard) (L : List G) : Bool := must g (firstL L) || leadOk 20 g L

theorem sure_ok {g : Guard} {L : List G} {p : Nat} {stk ts} (h : sure g L = true)
    (hd : Ders (some p) L stk ts) : Guard.ok p g ts = true := by
  simp only [sure, Bool.or_eq_true] at h
  rcases h with h | h
  · exact must_ok p h (ders_sat hd)
  · obtain ⟨n, hd⟩ := hd
    exact leadOk_ok _ _ _ _ _ _ _ h hd

/-- Alternative `i` of decision `d` leads to the symbols `L`. -/
def leadsTo (d i : Nat) (L : List G) : Bool :=
  match (parserAtn.choices d)[i - 1]? with
  | some e => restAt e.trg == L
  | none => false

/-- `AdaptivePredict` chooses right: if alternative `j` leads to symbols that,
with what follows them, derive the remaining tokens, and the tests that stand
in the grammar of the model for the alternatives before it fail, the answer is
`j`. -/
def Runtime.Right (rt : Runtime) : Prop :=
  ∀ d ∈ asked, ∀ (p : Nat) (ctx : List Nat) (ts : List Tok) (j : Nat) (M : List G), 0 < j →
    leadsTo d j M = true → Ders (some p) M (frames ctx) ts →
    (∀ k, 0 < k → k < j → Guard.ok p (guardOf d k) ts = false) → rt.predict d p ctx ts = j

/-- An error branch needs the check `x`, another branch the check `y`. -/
def elseOk (b : Go) (x y : Bool) : Bool :=
  match b with
  | .fail => x
  | _ => y

/-- What follows a case: another case of the same decision, or nothing. -/
def caseOk (d : Nat) (b : Go) : Bool :=
  match b with
  | .case d' _ _ _ => d' == d
  | .skip => true
  | _ => false

/-- A case of decision `d`. -/
def isCase (d : Nat) (x : Go) : Bool :=
  match x with
  | .case d' _ _ _ => d' == d
  | _ => false

/-- The static check of a piece of code that is followed, in its rule, by the
symbols `L`: the state numbers set before `Sync` and before rule calls are
states of the ATN where exactly these symbols follow, alternatives of
`AdaptivePredict` are the ones in the code, branches that raise an error are
never taken. -/
def chk : Go → List G → Bool
  | .fail, _ => false
  | .seq a b, L => chk a (b.g.bare.flat ++ L) && chk b L
  | .call st _ _, L => restAt (parserAtn.follow st) == L
  | .sync st, L => decide (st < 456) && restAt st == L
  | .ifLA c a b, L => !c.toks.contains .EOF && chk a L &&
      elseOk b (must (G.la1 c.toks) (firstL (a.g.bare.flat ++ L))) (chk b L)
  | .whileLA c a, L => !c.toks.contains .EOF && chk a ((Go.whileLA c a).g.bare.flat ++ L)
  | .whileAP d a, L =>
      let L' := a.g.bare.flat ++ ((Go.whileAP d a).g.bare.flat ++ L)
      leadsTo d 1 L' && leadsTo d 2 L && chk a ((Go.whileAP d a).g.bare.flat ++ L)
  | .switchAP d x, L => isCase d x && chk x L
  | .case d i a b, L =>
      leadsTo d i (a.g.bare.flat ++ L) && chk a L && chk b L && caseOk d b
  | _, _ => true

end Verif
