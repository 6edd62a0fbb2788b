import Verif.Proof.LexBlock
import Verif.Proof.LexCheck
/-!
# The lexer tables give the maximal munch
-/

namespace Verif

set_option Elab.async false

open Atn

/-! ## The token rules -/

/-- Rule number `i`. -/
def ruleNo (i : Nat) : LexRule := lexRules.getD i default

/-- Its start state. -/
def startNo (i : Nat) : Nat := (tokenStarts.getD i default).trg

/-- The texts that end in an accepting state of rule `i`: those it matches, the
shortest ones for block comments. -/
def LexAccepts (i : Nat) (x : Str) : Prop := if i = 82 then BC.run x = .done else Lang (ruleNo i).re x

theorem lex_checked : Checked lexerAtn lexNotes 614 82 where
  shape _ h0 h := lex_shape h0 h
  D _ h0 h := lex_D h0 h
  L _ h0 h := lex_L h0 h
  lazy s hs := by
    have := lex_lazy
    rw [List.all_eq_true] at this
    simpa using this s hs

theorem okStart_no {i : Nat} (h : i < 84) : okStart ((ruleNo i, tokenStarts.getD i default), i) = true := by
  have := starts_ok
  rw [List.all_eq_true] at this
  refine this _ (List.mem_zipIdx_iff_getElem?.2 ?_)
  have h1 : i < tokenStarts.length := by rw [starts_length.1]; exact h
  have h2 : i < lexRules.length := by rw [starts_length.2]; exact h
  simp [ruleNo, List.getElem?_zip_eq_some, h1, h2]

/-- What the table says about rule `i`. -/
structure RuleOk (i : Nat) : Prop where
  range : 0 < startNo i ∧ startNo i ≤ 614
  rule : (lexerAtn.st (startNo i)).rule = i
  lang : lexNotes.X (startNo i) = (ruleNo i).re.flat
  ty : TT.all[(lexerAtn.rules.getD i default).2]? = some (ruleNo i).ty
  hidden : (lexerAtn.channel (lexNotes.A (startNo i)) != 0) = (ruleNo i).hidden
  lazy : (ruleNo i).lazy = (i == 82)

theorem rule_ok {i : Nat} (h : i < 84) : RuleOk i := by
  have := okStart_no h
  unfold okStart at this
  simp only [Bool.and_eq_true, decide_eq_true_eq, beq_iff_eq] at this
  obtain ⟨⟨⟨⟨⟨⟨_, h1⟩, h2⟩, h3⟩, h4⟩, h5⟩, h6⟩ := this
  exact ⟨h1, h2, h3, h4, h5, h6⟩

theorem rule_block : (ruleNo 82).re = Lx.blockComment := by decide +kernel

/-! ## The invariant -/

/-- The configurations after reading `x`. -/
structure LexInv (C : List Config) (x : Str) : Prop where
  of : ∀ k ∈ C, Of lexerAtn lexNotes 614 82 84 startNo (fun i y => Lang (ruleNo i).re (x ++ y)) k
  sorted : C.Pairwise (·.alt ≤ ·.alt)
  complete : ∀ i < 84, i ≠ 82 → ∀ y, Lang (ruleNo i).re (x ++ y) → ∃ k ∈ C, k.alt = i + 1 ∧ LangL (k.rest lexNotes) y
  block : C.filter (·.alt == 83) = (BC.run x).configs

theorem lexInv_start : ∃ C, lexerAtn.start = some C ∧ LexInv C [] := by
  have hs : ∀ p ∈ (lexerAtn.out (lexerAtn.modes.getD 0 0)).zipIdx,
      Starts lexerAtn lexNotes 614 84 startNo (fun i y => Lang (ruleNo i).re ([] ++ y)) p := by
    rintro ⟨e, i⟩ hp
    have hp' : tokenStarts[i]? = some e := by
      have := List.mem_zipIdx_iff_getElem?.1 hp
      simpa [tokenStarts] using this
    have hi : i < 84 := by
      rw [← starts_length.1]
      exact (List.getElem?_eq_some_iff.1 hp').1
    have he : startNo i = e.trg := by simp [startNo, List.getD, hp']
    have hr := rule_ok hi
    refine ⟨he, by rw [← he]; exact hr.range, by rw [← he]; exact hr.rule, hi, fun y => ?_⟩
    show LangL (lexNotes.X e.trg) y ↔ Lang (ruleNo i).re y
    rw [← he, hr.lang, langL_flat]
  obtain ⟨C, hC, h1, h2⟩ := start_spec lex_checked hs
  refine ⟨C, hC, h1, ?_, ?_, ?_⟩
  · have := BC.at_start
    rw [hC] at this
    simp only [Option.map_some, Option.some.injEq, Prod.mk.injEq, decide_eq_true_eq] at this
    exact List.pairwise_map.1 this.1
  · intro i hi hz y hy
    have hp : (tokenStarts.getD i default, i) ∈ (lexerAtn.out (lexerAtn.modes.getD 0 0)).zipIdx := by
      refine List.mem_zipIdx_iff_getElem?.2 ?_
      have : i < tokenStarts.length := by rw [starts_length.1]; exact hi
      show tokenStarts[i]? = _
      simp [this]
    exact h2 _ hp hz y hy
  · have := BC.at_start
    rw [hC] at this
    simp only [Option.map_some, Option.some.injEq, Prod.mk.injEq] at this
    exact this.2

theorem LexInv.step {C : List Config} {x : Str} (h : LexInv C x) (c : Char) :
    ∃ C', lexerAtn.reach C c = some C' ∧ LexInv C' (x ++ [c]) := by
  obtain ⟨C', hC⟩ := reach_total lex_checked h.of c
  refine ⟨C', hC, ?_, reach_sorted lex_checked h.of hC h.sorted, ?_, ?_⟩
  · intro k hk
    have := reach_spec lex_checked h.of hC k hk
    simpa using this
  · intro i hi hz y hy
    exact reach_complete lex_checked h.of hC hz (h.complete i hi hz (c :: y) (by simpa using hy))
  · have := reach_filter lex_checked h.of hC h.sorted (A := 83) (by omega)
    rw [h.block, BC.reach, Option.some.injEq] at this
    rw [BC.run_snoc]
    exact this.symm

/-! ## Accepting -/

theorem LexInv.accepts {C : List Config} {x : Str} (h : LexInv C x) {i : Nat} (hi : i < 84) :
    LexAccepts i x ↔ ∃ k ∈ C, k.alt = i + 1 ∧ (lexerAtn.st k.state).ty = 7 := by
  unfold LexAccepts
  by_cases hz : i = 82
  · subst hz
    rw [if_pos rfl]
    constructor
    · intro hd
      have := h.block
      rw [hd] at this
      have hk : (⟨166, 83, [], [0], true⟩ : Config) ∈ C.filter (·.alt == 83) := by
        rw [this]; simp [BC.configs]
      exact ⟨_, (List.mem_filter.1 hk).1, rfl, BC.stop_done⟩
    · rintro ⟨k, hk, ha, h7⟩
      have hk : k ∈ C.filter (·.alt == 83) := List.mem_filter.2 ⟨hk, by simp [ha]⟩
      rw [h.block] at hk
      have := BC.stops
      rw [List.all_eq_true] at this
      have := this _ (BC.mem_all (BC.run x))
      rw [List.all_eq_true] at this
      have := this k hk
      simpa [h7] using this
  · rw [if_neg hz]
    constructor
    · intro hl
      obtain ⟨k, hk, ha, hl⟩ := h.complete i hi hz [] (by simpa using hl)
      refine ⟨k, hk, ha, ?_⟩
      rcases (h.of k hk).final with ⟨h7, _⟩ | ⟨e, neg, rs, _, _, _, hX, _, _⟩
      · exact h7
      · unfold Config.rest at hl
        rw [hX, List.cons_append, langL_cls] at hl
        obtain ⟨c, y, he, _⟩ := hl
        cases he
    · rintro ⟨k, hk, ha, h7⟩
      obtain ⟨j, hj, hg, hl⟩ := (h.of k hk).out
      have : j = i := by have := hg.alt; omega
      subst this
      have := hl [] (by
        rcases (h.of k hk).final with ⟨_, hs⟩ | ⟨e, neg, rs, h7', _⟩
        · unfold Config.rest
          rw [(Final.stop lex_checked hg h7).2.1, hs]
          rfl
        · exact absurd h7 h7')
      simpa using this

/-- The token type and the actions of rule `i`. -/
def verdict (i : Nat) : Nat × List Nat := ((lexerAtn.rules.getD i default).2, lexNotes.A (startNo i))

theorem LexInv.accepting {C : List Config} {x : Str} (h : LexInv C x) :
    (lexerAtn.accepting C = none ∧ ∀ i < 84, ¬ LexAccepts i x) ∨
    ∃ i < 84, lexerAtn.accepting C = some (verdict i) ∧ LexAccepts i x ∧ ∀ j < i, ¬ LexAccepts j x := by
  unfold T.accepting
  cases hf : C.find? fun k => (lexerAtn.st k.state).ty == 7 with
  | none =>
    left
    refine ⟨rfl, fun i hi ha => ?_⟩
    obtain ⟨k, hk, _, h7⟩ := (h.accepts hi).1 ha
    have := List.find?_eq_none.1 hf k hk
    simp [h7] at this
  | some k =>
    right
    obtain ⟨h7, l, r, hC, hl⟩ := List.find?_eq_some_iff_append.1 hf
    have h7 : (lexerAtn.st k.state).ty = 7 := by simpa using h7
    have hk : k ∈ C := by rw [hC]; simp
    obtain ⟨i, hi, hg, _⟩ := (h.of k hk).out
    have hs : k.stack = [] := by
      rcases (h.of k hk).final with ⟨_, hs⟩ | ⟨e, neg, rs, h7', _⟩
      · exact hs
      · exact absurd h7 h7'
    refine ⟨i, hi, ?_, (h.accepts hi).2 ⟨k, hk, hg.alt, h7⟩, ?_⟩
    · have h1 := hg.rule
      have h2 := hg.acts
      rw [hs] at h1 h2
      simp only [base] at h1 h2
      rw [(Final.stop lex_checked hg h7).2.2, List.append_nil] at h2
      simp only [Option.map_some, verdict, h1, h2]
    · intro j hj ha
      obtain ⟨k', hk', ha', h7'⟩ := (h.accepts (by omega)).1 ha
      have hlt : k'.alt < k.alt := by rw [ha', hg.alt]; omega
      have ho := h.sorted
      rw [hC] at hk' ho
      rcases List.mem_append.1 hk' with hk' | hk'
      · have := hl k' hk'
        simp [h7'] at this
      · rw [List.pairwise_append, List.pairwise_cons] at ho
        rcases List.mem_cons.1 hk' with rfl | hk'
        · omega
        · have := ho.2.1.1 k' hk'
          omega

/-- No configuration left: no longer text is accepted. -/
theorem LexInv.dead {x : Str} (h : LexInv [] x) {i : Nat} (hi : i < 84) (y : Str) : ¬ LexAccepts i (x ++ y) := by
  unfold LexAccepts
  split
  · intro hd
    have hb := h.block
    have : BC.run x = .dead := by
      cases hr : BC.run x <;> rw [hr] at hb <;> simp [BC.configs] at hb
    unfold BC.run at this hd
    rw [List.foldl_append, this, BC.foldl_dead] at hd
    cases hd
  · rename_i hz
    intro hl
    obtain ⟨k, hk, _⟩ := h.complete i hi hz y hl
    cases hk

/-! ## The whole run -/

namespace Atn

variable {a : T} {C : List Config} {c : Char} {s : Str}

theorem exec_nil (h : a.reach C c = some []) (n : Nat) (prev) : a.exec C n prev (c :: s) = some prev := by
  rw [T.exec, h]

theorem exec_cons {k ks} (h : a.reach C c = some (k :: ks)) (n : Nat) (prev) :
    a.exec C n prev (c :: s) = a.exec (k :: ks) (n + 1) (a.capture (k :: ks) (n + 1) prev) s := by
  rw [T.exec, h]

theorem match_start (h : a.start = some C) : a.matchToken s = a.exec C 0 (a.capture C 0 none) s := by
  rw [T.matchToken, h]

theorem capture_none {n prev} (h : a.accepting C = none) : a.capture C n prev = prev := by rw [T.capture, h]
theorem capture_some {n prev r} (h : a.accepting C = some r) : a.capture C n prev = some (n, r) := by rw [T.capture, h]

theorem one_none (h : a.matchToken s = some none) : a.one s = none := by rw [T.one, h]
theorem one_some {n ty acts t} (h : a.matchToken s = some (some (n, ty, acts))) (hn : n ≠ 0)
    (ht : TT.all[ty]? = some t) : a.one s = some (⟨t, s.take n⟩, a.channel acts != 0, s.drop n) := by
  cases n with
  | zero => exact absurd rfl hn
  | succ n => simp only [T.one, h, ht, Option.map_some]

end Atn

/-- The longest prefix that some rule accepts, and the first such rule. -/
inductive Best (x : Str) : Option (Nat × Nat × List Nat) → Prop where
  | absent : (∀ p, p <+: x → ∀ i < 84, ¬ LexAccepts i p) → Best x none
  | found (p : Str) (i : Nat) : p <+: x → i < 84 → LexAccepts i p → (∀ j < i, ¬ LexAccepts j p) →
      (∀ q, q <+: x → p.length < q.length → ∀ j < 84, ¬ LexAccepts j q) → Best x (some (p.length, verdict i))

theorem prefix_snoc {p x : Str} {c : Char} (h : p <+: x ++ [c]) : p <+: x ∨ p = x ++ [c] := by
  rw [List.prefix_concat_iff] at h
  exact h.symm

theorem Best.snoc {x : Str} {prev} (h : Best x prev) {C : List Config} {c : Char} (hi : LexInv C (x ++ [c])) :
    Best (x ++ [c]) (lexerAtn.capture C (x.length + 1) prev) := by
  rcases hi.accepting with ⟨h1, h2⟩ | ⟨i, hlt, h1, h2, h3⟩
  · rw [capture_none h1]
    cases h with
    | absent hn =>
      refine .absent fun p hp i hi => ?_
      rcases prefix_snoc hp with hp | rfl
      · exact hn p hp i hi
      · exact h2 i hi
    | found p i hp hi ha hj hl =>
      refine .found p i (hp.trans (List.prefix_append _ _)) hi ha hj fun q hq hlt j hj' => ?_
      rcases prefix_snoc hq with hq | rfl
      · exact hl q hq hlt j hj'
      · exact h2 j hj'
  · rw [capture_some h1]
    have := Best.found (x := x ++ [c]) (x ++ [c]) i (List.prefix_refl _) hlt h2 h3 (fun q hq hl => by
      have := hq.length_le; omega)
    simpa using this

theorem exec_spec (s : Str) : ∀ {C : List Config} {x : Str} {prev}, LexInv C x → Best x prev →
    ∃ res, lexerAtn.exec C x.length prev s = some res ∧ Best (x ++ s) res := by
  induction s with
  | nil => intro C x prev _ hb; exact ⟨prev, by rw [T.exec], by simpa using hb⟩
  | cons c s ih =>
    intro C x prev hi hb
    obtain ⟨C', hC, hi'⟩ := hi.step c
    cases C' with
    | nil =>
      rw [exec_nil hC]
      refine ⟨prev, rfl, ?_⟩
      have long : ∀ q, q <+: x ++ c :: s → x.length < q.length → ∀ j < 84, ¬ LexAccepts j q := by
        intro q hq hl j hj
        have : x ++ [c] <+: q := prefix_of_le (s := x ++ c :: s) ⟨s, by simp⟩ hq (by simp; omega)
        obtain ⟨y, rfl⟩ := this
        exact hi'.dead hj y
      have short : ∀ q, q <+: x ++ c :: s → q.length ≤ x.length → q <+: x := by
        intro q hq hl
        exact prefix_of_le hq (List.prefix_append _ _) hl
      cases hb with
      | absent hn =>
        refine .absent fun p hp i hi => ?_
        by_cases hl : x.length < p.length
        · exact long p hp hl i hi
        · exact hn p (short p hp (by omega)) i hi
      | found p i hp hlt ha hj hl =>
        refine .found p i (hp.trans (List.prefix_append _ _)) hlt ha hj fun q hq hlen j hj' => ?_
        by_cases hl' : x.length < q.length
        · exact long q hq hl' j hj'
        · exact hl q (short q hq (by omega)) hlen j hj'
    | cons k ks =>
      rw [exec_cons hC]
      have := ih hi' (hb.snoc hi')
      simpa using this

theorem matchToken_spec (s : Str) : ∃ res, lexerAtn.matchToken s = some res ∧ Best s res := by
  obtain ⟨C, hC, hi⟩ := lexInv_start
  rw [match_start hC]
  have hb : Best [] (lexerAtn.capture C 0 none) := by
    rcases hi.accepting with ⟨h1, h2⟩ | ⟨i, hlt, h1, h2, h3⟩
    · rw [capture_none h1]
      refine .absent fun p hp => ?_
      have : p = [] := by simpa using hp
      subst this
      exact h2
    · rw [capture_some h1]
      exact .found [] i (List.prefix_refl _) hlt h2 h3 (fun q hq hl => by
        have := hq.length_le; omega)
  exact exec_spec s hi hb

/-! ## The next token -/

theorem ruleNo_mem {i : Nat} (h : i < 84) : ruleNo i ∈ lexRules := by
  have : i < lexRules.length := by rw [starts_length.2]; exact h
  simp [ruleNo, this]

theorem accepts_lang {i : Nat} {x : Str} (h : LexAccepts i x) : Lang (ruleNo i).re x := by
  unfold LexAccepts at h
  split at h
  · rename_i hi
    subst hi
    rw [rule_block]
    exact ((BC.run_done x).1 h).1
  · exact h

theorem accepts_ne_nil {i : Nat} (hi : i < 84) {x : Str} (h : LexAccepts i x) : x ≠ [] := by
  rintro rfl
  have := (nullable_iff _).2 (accepts_lang h)
  rw [lexRules_nullable _ (ruleNo_mem hi)] at this
  cases this

/-- What a rule claims is accepted. -/
theorem claims_accepts {i : Nat} (hi : i < 84) {x s : Str} (h : Claims (ruleNo i) x s) : LexAccepts i x := by
  have hl := (rule_ok hi).lazy
  unfold LexAccepts
  split
  · rename_i hz
    subst hz
    have h2 := h.2
    rw [rule_block] at h2
    refine (BC.run_done x).2 ⟨h2.1, fun p hp hl' => ?_⟩
    have := h2.2 p (hp.trans h.1) hl'
    rw [hl] at this
    exact hp.eq_of_length_le this
  · exact h.2.1

theorem tableOne_sound {s rest : Str} {t : Tok} {h : Bool} (ht : tableOne s = some (t, h, rest)) : IsNext s t h rest := by
  obtain ⟨res, hm, hb⟩ := matchToken_spec s
  unfold tableOne at ht
  cases hb with
  | absent => rw [one_none hm] at ht; cases ht
  | found p i hp hi ha hj hl =>
    have hr := rule_ok hi
    have hne := accepts_ne_nil hi ha
    rw [one_some hm (fun h => hne (List.eq_nil_of_length_eq_zero h)) hr.ty, ← List.prefix_iff_eq_take.1 hp] at ht
    simp only [Option.some.injEq, Prod.mk.injEq] at ht
    obtain ⟨rfl, rfl, rfl⟩ := ht
    have hlen : i < lexRules.length := by rw [starts_length.2]; exact hi
    refine ⟨?_, hne, lexRules.take i, ruleNo i, lexRules.drop (i + 1), ?_, rfl, hr.hidden.symm, ?_, ?_, ?_⟩
    · obtain ⟨u, rfl⟩ := hp
      simp
    · simp [ruleNo, hlen]
    · refine ⟨hp, accepts_lang ha, fun y hy hly => ?_⟩
      rw [hr.lazy]
      by_cases hz : i = 82
      · subst hz
        simp only [beq_self_eq_true, if_true]
        rw [rule_block] at hly
        unfold LexAccepts at ha
        rw [if_pos rfl] at ha
        have := (BC.run_done p).1 ha
        by_cases hle : y.length ≤ p.length
        · rw [this.2 y (prefix_of_le hy hp hle) hly]; exact Nat.le_refl _
        · show p.length ≤ y.length
          omega
      · have : (i == 82) = false := by simpa using hz
        simp only [this, Bool.false_eq_true, if_false]
        refine Nat.le_of_not_lt fun hlt => hl y hy hlt i hi ?_
        unfold LexAccepts
        rw [if_neg hz]
        exact hly
    · intro r' hr' y hy
      obtain ⟨j, hj', he⟩ := List.mem_take_iff_getElem.1 hr'
      have hji : j < i := by omega
      have hrj : r' = ruleNo j := by
        have : j < lexRules.length := by omega
        simp [ruleNo, this, ← he]
      subst hrj
      have hay := claims_accepts (by omega) hy
      have h1 : ¬ p.length < y.length := fun hlt => hl y hy.1 hlt j (by omega) hay
      have h2 : y.length ≠ p.length := by
        intro he
        have : y = p := (prefix_of_le hy.1 hp (by omega)).eq_of_length he
        subst this
        exact hj j hji hay
      show y.length < p.length
      omega
    · intro r' hr' y hy
      obtain ⟨j, hj', he⟩ := List.mem_drop_iff_getElem.1 hr'
      have hrj : r' = ruleNo (i + 1 + j) := by
        have : i + 1 + j < lexRules.length := by omega
        simp [ruleNo, this, ← he]
      subst hrj
      have hlt : i + 1 + j < 84 := by rw [← starts_length.2]; omega
      exact Nat.le_of_not_lt fun hlt' => hl y hy.1 hlt' _ hlt (claims_accepts hlt hy)

theorem tableOne_iff (s : Str) (t : Tok) (h : Bool) (rest : Str) :
    tableOne s = some (t, h, rest) ↔ IsNext s t h rest := by
  refine ⟨tableOne_sound, fun hn => ?_⟩
  cases ht : tableOne s with
  | some r =>
    obtain ⟨t', h', rest'⟩ := r
    obtain ⟨rfl, rfl, rfl⟩ := (tableOne_sound ht).unique hn
    rfl
  | none =>
    exfalso
    obtain ⟨res, hm, hb⟩ := matchToken_spec s
    obtain ⟨h1, h2, before, r, after, hr, _, _, hc, _⟩ := hn
    have hi : before.length < 84 := by
      rw [← starts_length.2, hr]; simp
    have he : r = ruleNo before.length := by simp [ruleNo, hr]
    rw [he] at hc
    have ha := claims_accepts hi hc
    unfold tableOne at ht
    cases hb with
    | absent hno => exact hno _ hc.1 _ hi ha
    | found p i hp hi' ha' =>
      rw [one_some hm (fun h => accepts_ne_nil hi' ha' (List.eq_nil_of_length_eq_zero h)) (rule_ok hi').ty] at ht
      cases ht

theorem tableOne_eq (s : Str) : tableOne s = lexOne s := by
  cases h : lexOne s with
  | some r =>
    obtain ⟨t, h', rest⟩ := r
    exact (tableOne_iff _ _ _ _).2 ((lexOne_iff _ _ _ _).1 h)
  | none =>
    cases h' : tableOne s with
    | none => rfl
    | some r =>
      obtain ⟨t, h'', rest⟩ := r
      rw [(lexOne_iff _ _ _ _).2 ((tableOne_iff _ _ _ _).1 h')] at h
      cases h

theorem Atn.tokens_eq {a : T} (h : ∀ s, a.one s = lexOne s) (n : Nat) (s : Str) : a.tokens n s = lexRaw n s := by
  induction n generalizing s with
  | zero => cases s <;> simp only [T.tokens, lexRaw]
  | succ n ih =>
    cases s with
    | nil => simp only [T.tokens, lexRaw]
    | cons c s =>
      rw [T.tokens, h]
      simp only [lexRaw]
      cases lexOne (c :: s) with
      | none => rfl
      | some r => simp only [ih]

theorem tableRaw_eq (s : Str) : tableRaw s = lexAllRaw s := Atn.tokens_eq tableOne_eq _ s

end Verif
