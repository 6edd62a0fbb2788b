import Verif.Proof.PredictCheck
import Verif.Proof.GoPredict
/-!
# The tables predict by the next two tokens
-/

namespace Verif

set_option Elab.async false

open Atn

def set7b : List PConfig := [⟨324, 1, [236, 172], none, 0, false⟩, ⟨247, 1, [172], none, 0, false⟩,
  ⟨181, 2, [], none, 0, false⟩]
def set10b : List PConfig := [⟨314, 1, [184, 195], none, 0, false⟩,
  ⟨324, 2, [236, 172], none, 1, false⟩, ⟨247, 2, [172], none, 1, false⟩, ⟨181, 2, [], none, 1, false⟩]
def set24b : List PConfig := [⟨379, 1, [385], none, 0, false⟩, ⟨370, 2, [], none, 1, false⟩]

theorem next7 : next1 parserAtn none set7 .COMMA = some set7b := by decide +kernel
theorem next10 : next1 parserAtn none set10 .COMMA = some set10b := by decide +kernel
theorem next24 : next1 parserAtn none set24 .IDENTIFIER = some set24b := by decide +kernel

/-- The answers for decision `d` after a token that decides. -/
def checkOne (d p : Nat) (prec : Option Nat) (S : List PConfig) (skip : List TT) : Bool :=
  TT.all.all fun t => skip.contains t || decide1 parserAtn prec S t == some (byTwo d p t .EOF)

/-- The answers for decision `d` after a second token. -/
def checkTwo (d : Nat) (S : List PConfig) (t : TT) : Bool :=
  TT.all.all fun u => decide1 parserAtn none S u == some (byTwo d 0 t u)

theorem one7 : checkOne 7 0 none set7 [.COMMA] = true := by decide +kernel
theorem one10 : checkOne 10 0 none set10 [.COMMA] = true := by decide +kernel
theorem one24 : checkOne 24 0 none set24 [.IDENTIFIER] = true := by decide +kernel
theorem two7 : checkTwo 7 set7b .COMMA = true := by decide +kernel
theorem two10 : checkTwo 10 set10b .COMMA = true := by decide +kernel
theorem two24 : checkTwo 24 set24b .IDENTIFIER = true := by decide +kernel

theorem one30 : (TT.all.all fun t => decideP parserAtn none set30 t == some (opLevel t)) = true := by
  decide +kernel

/-- The answers for decision 31 in a rule invoked with precedence `p`. -/
def check31 (p : Nat) : Bool :=
  match filterP p set31 with
  | none => false
  | some S => checkOne 31 p (some 50) S []

theorem one31a : (List.range 4).all check31 = true := by decide +kernel
theorem one31b : ([4, 5, 6, 7].all check31) = true := by decide +kernel
theorem one31c : ([8, 9, 10, 11].all check31) = true := by decide +kernel

theorem one31 {p : Nat} (hp : p < 12) : check31 p = true := by
  have ha := List.all_eq_true.1 one31a
  have hb := List.all_eq_true.1 one31b
  have hc := List.all_eq_true.1 one31c
  by_cases h : p < 4
  · exact ha p (List.mem_range.2 h)
  · by_cases h : p < 8
    · exact hb p (by simp; omega)
    · exact hc p (by simp; omega)

attribute [local irreducible] parserAtn

theorem TT.mem_all' (t : TT) : t ∈ TT.all := by cases t <;> decide

theorem checkOne_ok {d p : Nat} {prec : Option Nat} {S : List PConfig} {skip : List TT}
    (h : checkOne d p prec S skip = true) (t : TT) (ht : t ∉ skip) :
    decide1 parserAtn prec S t = some (byTwo d p t .EOF) := by
  have := List.all_eq_true.1 h t (TT.mem_all' t)
  simp only [Bool.or_eq_true, List.contains_iff_mem, beq_iff_eq] at this
  exact this.resolve_left ht

theorem checkTwo_ok {d : Nat} {S : List PConfig} {t : TT} (h : checkTwo d S t = true) (u : TT) :
    decide1 parserAtn none S u = some (byTwo d 0 t u) := by
  have := List.all_eq_true.1 h u (TT.mem_all' u)
  simpa only [beq_iff_eq] using this

/-- Decisions that are made with one or two tokens, without predicates. -/
theorem predict_two {d : Nat} {S S' : List PConfig} {c : TT} (hs : parserAtn.startP d = some S)
    (hp : parserAtn.precOf d = none) (h1 : checkOne d 0 none S [c] = true)
    (hn : next1 parserAtn none S c = some S') (h2 : checkTwo d S' c = true)
    (hind : ∀ p t u, byTwo d p t u = byTwo d 0 t u)
    (hone : ∀ t u, t ≠ c → byTwo d 0 t u = byTwo d 0 t .EOF)
    (hpass : ∀ t, passed d t = if t = c then 1 else 0) (p : Nat) (ts : List Tok) :
    parserAtn.adaptivePredict d p ts = some (byTwo d p (la ts) (la ts.tail), passed d (la ts)) := by
  simp only [T.adaptivePredict, T.initial, hs, hp, Option.bind_some, Option.isSome_none,
    Bool.false_eq_true, if_false, depthP]
  rw [hind]
  by_cases hc : la ts = c
  · rw [show ts.length + 1000 = (ts.length + 998 + 1) + 1 from by omega,
      next1_ok (ks' := S') (by rw [hc]; exact hn), decide1_ok (checkTwo_ok h2 _), hc, hpass, if_pos rfl]
  · rw [show ts.length + 1000 = (ts.length + 999) + 1 from by omega,
      decide1_ok (checkOne_ok h1 (la ts) (by simpa using hc)), hone _ (la ts.tail) hc, hpass,
      if_neg hc]

theorem filterMap_congr {α β : Type} {f g : α → Option β} {l : List α} (h : ∀ a ∈ l, f a = g a) :
    l.filterMap f = l.filterMap g := by
  induction l with
  | nil => rfl
  | cons a l ih =>
    rw [List.filterMap_cons, List.filterMap_cons, h a List.mem_cons_self,
      ih fun b hb => h b (List.mem_cons_of_mem _ hb)]

theorem filterP_min {ks : List PConfig} {m p : Nat}
    (h : ks.all (fun k => k.sem.all (fun j => decide (j < m))) = true) :
    filterP p ks = filterP (min p m) ks := by
  have h := List.all_eq_true.1 h
  have : ks.filterMap (PConfig.keep p) = ks.filterMap (PConfig.keep (min p m)) := by
    refine filterMap_congr fun k hk => ?_
    have hk := h k hk
    unfold PConfig.keep
    cases hs : k.sem with
    | none => rfl
    | some j =>
      rw [hs] at hk
      have hk : j < m := by simpa using hk
      have : (p ≤ j) ↔ (min p m ≤ j) := by omega
      simp only [this]
  unfold filterP
  rw [this]

theorem byTwo31_min (p : Nat) (t u v : TT) : byTwo 31 p t u = byTwo 31 (min p 11) t v := by
  have h : ∀ k, k < 11 → ((p ≤ k) ↔ (min p 11 ≤ k)) := fun k hk => by omega
  have hlt : ∀ t ∈ TT.all, ∀ x ∈ opLevel t, x.2 < 11 := by decide +kernel
  show (match opLevel t with
    | some (_, k) => if p ≤ k then 1 else 2
    | none => 2) = match opLevel t with
    | some (_, k) => if min p 11 ≤ k then 1 else 2
    | none => 2
  cases ho : opLevel t with
  | none => rfl
  | some x =>
    obtain ⟨i, k⟩ := x
    have := h k (hlt t (TT.mem_all' t) (i, k) ho)
    simp only [this]

/-- What the modelled prediction answers. -/
theorem adaptivePredict_eq {d : Nat} (hd : d ∈ asked) (p : Nat) (ts : List Tok) :
    parserAtn.adaptivePredict d p ts = some (byTwo d p (la ts) (la ts.tail), passed d (la ts)) := by
  simp only [asked, List.mem_cons, List.not_mem_nil, or_false] at hd
  rcases hd with rfl | rfl | rfl | rfl | rfl
  · refine predict_two start7 prec_none.1 one7 next7 two7 (fun _ _ _ => rfl) (fun t u ht => ?_)
      (fun t => rfl) p ts
    cases t <;> first | rfl | exact absurd rfl ht
  · refine predict_two start10 prec_none.2.1 one10 next10 two10 (fun _ _ _ => rfl) (fun t u ht => ?_)
      (fun t => rfl) p ts
    simp [byTwo, ht]
  · refine predict_two start24 prec_none.2.2.1 one24 next24 two24 (fun _ _ _ => rfl)
      (fun t u ht => ?_)
      (fun t => rfl) p ts
    simp [byTwo, ht]
  · simp only [T.adaptivePredict, T.initial, start30, prec_none.2.2.2, Option.bind_some,
      Option.isSome_none, Bool.false_eq_true, if_false, depthP]
    have h := List.all_eq_true.1 one30 (la ts) (TT.mem_all' _)
    rw [show ts.length + 1000 = (ts.length + 999) + 1 from by omega,
      decideP_ok (by simpa only [beq_iff_eq] using h)]
    show some (answerP p (opLevel (la ts)), 0) = some (match opLevel (la ts) with
      | some (i, k) => if p ≤ k then i else 0
      | none => 0, 0)
    cases opLevel (la ts) <;> rfl
  · simp only [T.adaptivePredict, T.initial, start31, prec31, Option.bind_some, Option.isSome_some,
      if_true, depthP]
    have h := one31 (p := min p 11) (by omega)
    unfold check31 at h
    rw [filterP_min (m := 11) (by decide)]
    split at h
    · cases h
    · rename_i S hS
      rw [hS, Option.bind_some, show ts.length + 1000 = (ts.length + 999) + 1 from by omega,
        decide1_ok (checkOne_ok h (la ts) (by simp)), byTwo31_min p _ _ .EOF]
      rfl

end Verif
