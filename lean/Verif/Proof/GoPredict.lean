import Verif.Proof.GoRun
/-!
# Predictions that look at two tokens are right
-/

namespace Verif

set_option Elab.async false

/-- In every alternative of decision `d` but the last, the test that stands for
it in the grammar of the model succeeds whenever what the alternative leads to
can be derived, and looks at no more than two tokens. -/
def sureAlts (d : Nat) : Bool :=
  (parserAtn.choices d).zipIdx.all fun x =>
    (guardOf d (x.2 + 1)).all (fun l => decide (l.la.length ≤ 2)) &&
    (decide (x.2 + 1 = (parserAtn.choices d).length) || sure (guardOf d (x.2 + 1)) (restAt x.1.trg))

theorem sureAlts_asked : asked.all sureAlts = true := by decide +kernel

attribute [local irreducible] parserAtn restAt leadsTo sure

theorem laOk_congr : ∀ (n : Nat) (ss : List (List TT)) (ts ts' : List Tok), ss.length ≤ n →
    (ts'.take n).map (·.ty) = (ts.take n).map (·.ty) → laOk ss ts' = laOk ss ts := by
  intro n
  induction n with
  | zero =>
    intro ss ts ts' h _
    obtain rfl : ss = [] := List.length_eq_zero_iff.1 (by omega)
    rfl
  | succ n ih =>
    intro ss ts ts' h he
    cases ss with
    | nil => rfl
    | cons s ss =>
      cases ts with
      | nil =>
        cases ts' with
        | nil => rfl
        | cons t' ts' => simp at he
      | cons t ts =>
        cases ts' with
        | nil => simp at he
        | cons t' ts' =>
          simp only [List.take_succ_cons, List.map_cons, List.cons.injEq] at he
          simp only [laOk, he.1]
          rw [ih ss ts ts' (by simpa using h) he.2]

theorem guard_congr {g : Guard} {p : Nat} {ts ts' : List Tok}
    (h : g.all (fun l => decide (l.la.length ≤ 2)) = true)
    (he : (ts'.take 2).map (·.ty) = (ts.take 2).map (·.ty)) :
    Guard.ok p g ts' = Guard.ok p g ts := by
  unfold Guard.ok
  induction g with
  | nil => rfl
  | cons l g ih =>
    simp only [List.all_cons, Bool.and_eq_true, decide_eq_true_eq] at h
    have hl : Look.ok p l ts' = Look.ok p l ts := by
      simp only [Look.ok, laOk_congr 2 _ _ _ h.1 he]
    rw [List.any_cons, List.any_cons, hl, ih h.2]

theorem leadsTo_lt {d i : Nat} {L : List G} (h : leadsTo d i L = true) :
    i - 1 < (parserAtn.choices d).length := by
  unfold leadsTo at h
  split at h
  · rename_i e he
    exact (List.getElem?_eq_some_iff.1 he).1
  · cases h

theorem leadsTo_self {d i : Nat} {e : Atn.Edge} (h : (parserAtn.choices d)[i - 1]? = some e) :
    leadsTo d i (restAt e.trg) = true := by
  unfold leadsTo
  rw [h]
  simp

/-- A viable alternative that is not the last one passes its test. -/
theorem viable_guard {d p k : Nat} {ctx : List Nat} {ts : List Tok} (hd : d ∈ asked)
    (hv : Viable d p ctx ts k) (hk : k < (parserAtn.choices d).length) :
    Guard.ok p (guardOf d k) ts = true := by
  have hs := List.all_eq_true.1 sureAlts_asked d hd
  obtain ⟨e, h0, he, _⟩ := id hv
  unfold sureAlts at hs
  rw [List.all_eq_true] at hs
  have := hs (e, k - 1) (List.mk_mem_zipIdx_iff_getElem?.2 he)
  simp only [Bool.and_eq_true, Bool.or_eq_true, decide_eq_true_eq,
    show k - 1 + 1 = k from by omega] at this
  rcases this.2 with h | h
  · omega
  · exact sure_ok h ((leadsTo_viable h0 (leadsTo_self he)).1 hv)

/-- The tests look at no more than two tokens. -/
theorem guard_two {d k : Nat} (hd : d ∈ asked) (h0 : 0 < k)
    (hk : k ≤ (parserAtn.choices d).length) :
    (guardOf d k).all (fun l => decide (l.la.length ≤ 2)) = true := by
  have hs := List.all_eq_true.1 sureAlts_asked d hd
  unfold sureAlts at hs
  rw [List.all_eq_true] at hs
  have := hs ((parserAtn.choices d)[k - 1]'(by omega), k - 1)
    (List.mk_mem_zipIdx_iff_getElem?.2 (List.getElem?_eq_getElem _))
  simp only [Bool.and_eq_true, show k - 1 + 1 = k from by omega] at this
  exact this.1

/-- The weak contract is enough. -/
theorem Runtime.TwoTokens.right {rt : Runtime} (h : rt.TwoTokens) : rt.Right := by
  intro d hd p ctx ts j M hj hl hM hlow
  refine h.2 d hd p ctx ts j ((leadsTo_viable hj hl).2 hM) fun k hk ctx' ts' he hv => ?_
  have hlt := leadsTo_lt hl
  have h0 : 0 < k := by obtain ⟨_, h, _⟩ := hv; exact h
  have := viable_guard hd hv (by omega)
  rw [guard_congr (guard_two hd h0 (by omega)) he, hlow k h0 hk] at this
  cases this

end Verif
