import Verif.Props.Syntax
import Verif.Props.SampleText
import Verif.Proof.GoHalt
import Verif.Proof.GoPredict
import Verif.Proof.Position
/-!
# Theorems about the generated parser code (C01, C02, C20, C60)

These are about the statements of the generated rule functions (`goCode`),
run on an ANTLR runtime whose prediction service is a parameter.
-/

namespace Verif

theorem exec_gen {rt : Runtime} (hrt : rt.InRange) {n : Nat} {ts : List Tok}
    (hne : ∀ t ∈ ts, t.ty ≠ .EOF) {kids : List Tree} {rest : List Tok}
    (h : execSource rt n ts = .ok kids rest) :
    ∃ tree, kids = [tree] ∧ Gen (.call .source_unit 0) (ts ++ [Tok.eof]) [tree] := by
  unfold execSource at h
  split at h
  · rename_i ks rest' he
    simp only [Res.ok.injEq] at h
    obtain ⟨rfl, _⟩ := h
    obtain ⟨pre, hp, hg⟩ := exec_sound hrt _ _ _ _ _ _ _ (goCode_wf _) he
    rw [goCode_g] at hg
    obtain ⟨front, t, rfl, hty⟩ := gen_source_last hg
    have hrest : rest' = [] := by
      refine Classical.byContradiction fun hne' => ?_
      obtain ⟨l, x, hlx⟩ : ∃ l x, rest' = l ++ [x] :=
        ⟨rest'.dropLast, rest'.getLast hne', (List.dropLast_concat_getLast hne').symm⟩
      subst hlx
      have : ts = front ++ [t] ++ l := by
        have h2 : ts ++ [Tok.eof] = (front ++ [t] ++ l) ++ [x] := by
          rw [hp]; simp
        exact (List.append_inj' h2 rfl).1
      exact hne t (by rw [this]; simp) hty
    subst hrest
    rw [List.append_nil] at hp
    refine ⟨_, rfl, ?_⟩
    rw [hp]
    exact .call hg
  · rename_i hne
    exact absurd h (hne _ _)

/-- C01. The generated code, run on the tokens of a text, never gets through
without an error unless they are a sentence, whatever `AdaptivePredict`
answers; and the tree it then returns is the parse tree of the whole text. -/
theorem C01_generated_code (rt : Runtime) (hrt : rt.InRange) (n : Nat) (s : Str)
    (toks : List (Tok × Bool)) (ht : Tokenises s toks) (kids : List Tree) (rest : List Tok)
    (h : execSource rt n (visible toks) = .ok kids rest) :
    ∃ tree, kids = [tree] ∧ Gen (.call .source_unit 0) (visible toks ++ [Tok.eof]) [tree] :=
  exec_gen hrt (tokenises_ne_eof ht) h

theorem exec_sentence {rt : Runtime} (hrt : rt.Right) {ts : List Tok} {tree : Tree}
    (h : Gen (.call .source_unit 0) (ts ++ [Tok.eof]) [tree]) :
    ∃ N, ∀ n, N ≤ n → execSource rt n ts = .ok [tree] [] := by
  cases h with
  | call h =>
    obtain ⟨N, hN⟩ := exec_source hrt h
    refine ⟨N, fun n hn => ?_⟩
    unfold execSource
    rw [exec_mono N _ _ _ _ (by simp [hN]) n hn, hN]

/-- C02. On every sentence the generated code, with a prediction that is right
where two tokens are enough to tell, gets through without an error and returns
the parse tree. -/
theorem C02_generated_code (rt : Runtime) (hrt : rt.TwoTokens) (ts : List Tok) (tree : Tree)
    (h : Gen (.call .source_unit 0) (ts ++ [Tok.eof]) [tree]) :
    ∃ N, ∀ n, N ≤ n → execSource rt n ts = .ok [tree] [] :=
  exec_sentence hrt.right h

/-- C20. Up to the first error the generated code comes to an end on every
token list, whatever `AdaptivePredict` answers, in at most 30 steps of depth
for every token. -/
theorem C20_generated_halts (rt : Runtime) (hrt : rt.InRange) (ts : List Tok) (n : Nat)
    (hn : 30 * (ts.length + 2) ≤ n) : execSource rt n ts ≠ .stuck := by
  have := exec_halts hrt n [] 0 (goCode .source_unit) (ts ++ [Tok.eof]) (goCode_wf _)
    (goCode_bounded _).1 (by
      have h1 := (goCode_bounded .source_unit).2
      have h2 : rank .source_unit = 4 := rfl
      simp only [List.length_append, List.length_singleton]
      omega)
  unfold execSource
  split
  · simp
  · exact this

theorem exec_exact {rt : Runtime} (hin : rt.InRange) (hrt : rt.Right) {ts : List Tok}
    (hne : ∀ t ∈ ts, t.ty ≠ .EOF) {n : Nat}
    (hn : 30 * (ts.length + 2) ≤ n) :
    (∀ tree, Gen (.call .source_unit 0) (ts ++ [Tok.eof]) [tree] →
      execSource rt n ts = .ok [tree] []) ∧
    (¬ Sentence ts → ∃ bad, execSource rt n ts = .err bad) := by
  have hh := C20_generated_halts rt hin ts n hn
  constructor
  · intro tree hg
    obtain ⟨N, hN⟩ := exec_sentence hrt hg
    have hb := hN (max n N) (Nat.le_max_right _ _)
    cases he : execSource rt n ts with
    | stuck => exact absurd he hh
    | ok ks rest =>
      have hm : execSource rt (max n N) ts = execSource rt n ts := by
        unfold execSource
        unfold execSource at hh
        rw [exec_mono n _ _ _ _ ?_ _ (Nat.le_max_left _ _)]
        intro hs
        rw [hs] at hh
        exact hh rfl
      rw [hm, he] at hb
      exact hb
    | err bad =>
      have hm : execSource rt (max n N) ts = execSource rt n ts := by
        unfold execSource
        unfold execSource at hh
        rw [exec_mono n _ _ _ _ ?_ _ (Nat.le_max_left _ _)]
        intro hs
        rw [hs] at hh
        exact hh rfl
      rw [hm, he] at hb
      cases hb
  · intro hns
    cases he : execSource rt n ts with
    | stuck => exact absurd he hh
    | err bad => exact ⟨bad, rfl⟩
    | ok ks rest =>
      obtain ⟨tree, _, hg⟩ := exec_gen hin hne he
      exact absurd ⟨tree, hg⟩ hns

theorem exec_model {rt : Runtime} (hin : rt.InRange) (hrt : rt.Right) {s : Str}
    {toks : List (Tok × Bool)} (ht : Tokenises s toks) {n : Nat}
    (hn : 30 * ((visible toks).length + 2) ≤ n) :
    (∀ tree, parseTokens (visible toks) = some tree →
      execSource rt n (visible toks) = .ok [tree] []) ∧
    (parseTokens (visible toks) = none → ∃ bad, execSource rt n (visible toks) = .err bad) := by
  obtain ⟨h₁, h₂⟩ := exec_exact hin hrt (tokenises_ne_eof ht) hn
  refine ⟨fun tree hp => h₁ tree ((parseTokens_iff _ _).1 hp), fun hp => h₂ fun hs => ?_⟩
  obtain ⟨tree, hg⟩ := hs
  rw [(parseTokens_iff _ _).2 hg] at hp
  cases hp

/-- C60. The generated code and the tables it hands to the runtime implement
the same language: with a prediction that is right where two tokens are enough
to tell, the code returns the parse tree of a sentence, and reports an error on
everything else. -/
theorem C60_generated_parser (rt : Runtime) (hrt : rt.TwoTokens) (s : Str)
    (toks : List (Tok × Bool)) (ht : Tokenises s toks) (n : Nat)
    (hn : 30 * ((visible toks).length + 2) ≤ n) :
    (∀ tree, Gen (.call .source_unit 0) (visible toks ++ [Tok.eof]) [tree] →
      execSource rt n (visible toks) = .ok [tree] []) ∧
    (¬ Sentence (visible toks) → ∃ bad, execSource rt n (visible toks) = .err bad) :=
  exec_exact hrt.1 hrt.right (tokenises_ne_eof ht) hn

/-- C60. So the code does what the interpreter of the grammar in the model
(`parseTokens`) does. -/
theorem C60_model_parser (rt : Runtime) (hrt : rt.TwoTokens) (s : Str)
    (toks : List (Tok × Bool)) (ht : Tokenises s toks) (n : Nat)
    (hn : 30 * ((visible toks).length + 2) ≤ n) :
    (∀ tree, parseTokens (visible toks) = some tree →
      execSource rt n (visible toks) = .ok [tree] []) ∧
    (parseTokens (visible toks) = none → ∃ bad, execSource rt n (visible toks) = .err bad) :=
  exec_model hrt.1 hrt.right ht hn

open Classical in
/-- A prediction service that keeps the contract: it answers with the first
viable alternative. -/
noncomputable def idealRuntime : Runtime where
  predict d p ctx ts :=
    if h : ∃ i, Viable d p ctx ts i ∧ ∀ j, Viable d p ctx ts j → i ≤ j then choose h else 0
  dead _ _ _ _ := 0

/-- The contract, even of full ALL(*) prediction, can be kept. -/
theorem ideal_allStar : idealRuntime.AllStar := by
  constructor
  · intro d _ p ctx ts
    simp only [idealRuntime]
    split
    · rename_i h
      obtain ⟨e, h0, he, _⟩ := (Classical.choose_spec h).1
      have := (List.getElem?_eq_some_iff.1 he).1
      omega
    · omega
  · intro d _ p ctx ts i hi hmin
    have h : ∃ i, Viable d p ctx ts i ∧ ∀ j, Viable d p ctx ts j → i ≤ j := ⟨i, hi, hmin⟩
    simp only [idealRuntime, h, dif_pos]
    have hs := Classical.choose_spec h
    exact Nat.le_antisymm (hs.2 i hi) (hmin _ hs.1)

/-- Non-vacuity: on the sample text the code returns the tree. -/
example : ∃ toks tree, Tokenises Sample.text toks ∧
    execSource idealRuntime (30 * ((visible toks).length + 2)) (visible toks) = .ok [tree] [] := by
  obtain ⟨toks, ht, tree, hg⟩ := writes_of_sentence.1 ⟨_, Sample.writes⟩
  exact ⟨toks, tree, ht, (C60_generated_parser _ ideal_allStar.twoTokens _ toks ht _ (Nat.le_refl _)).1 tree hg⟩

end Verif
