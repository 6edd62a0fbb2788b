import Verif.Proof.RecoverHalt
/-!
# How many errors are reported, and which one is the first
-/

namespace Verif
open PState

/-! ## Pending errors -/

mutual
/-- After this code, if control goes on, there is an exception only if there
was one before. -/
def Go.keeps : Go → Bool
  | .set _ => false
  | .seq a b => (a.keeps && b.keeps) || b.clears
  | .ifLA _ a b => a.keeps && b.keeps
  | .whileLA _ a => a.keeps
  | .switchAP _ x => x.keepsArms
  | _ => true
/-- After this code, if control goes on, there is no exception. -/
def Go.clears : Go → Bool
  | .fail => true
  | .tok _ => true
  | .sync _ => true
  | .call _ _ _ => true
  | .whileAP _ _ => true
  | .seq a b => b.clears || (a.clears && b.keeps)
  | .ifLA _ a b => a.clears && b.clears
  | _ => false
/-- The same for the branches of a `switch`. -/
def Go.keepsArms : Go → Bool
  | .case _ _ a b => a.keeps && b.keepsArms
  | _ => true
end

theorem keepsArms_mem {x : Go} (h : x.keepsArms = true) : ∀ q ∈ x.arms, q.2.keeps = true := by
  induction x with
  | case d i a b _ ihb =>
    simp only [Go.keepsArms, Bool.and_eq_true] at h
    intro q hq
    rw [Go.arms, List.mem_cons] at hq
    rcases hq with rfl | hq
    · exact h.1
    · exact ihb h.2 q hq
  | _ => simp [Go.arms]

theorem armLookup_mem {l : List (Nat × Go)} {i : Nat} {a : Go} (h : l.lookup i = some a) :
    (i, a) ∈ l := by
  induction l with
  | nil => simp at h
  | cons q l ih =>
    obtain ⟨j, b⟩ := q
    simp only [List.lookup] at h
    split at h
    · rename_i hj
      simp only [beq_iff_eq] at hj
      simp only [Option.some.injEq] at h
      subst hj h
      simp
    · exact List.mem_cons_of_mem _ (ih h)

theorem leave_err (o : Strategy) (s : PState) : (s.leave o).err = none := by
  unfold leave; split
  · assumption
  · rfl

theorem execR_calm {rt : Runtime} {o : Strategy} : ∀ (F : Nat) (ctx : List Nat) (p : Nat) (c : Go)
    (s s' : PState), execR rt o F ctx p c s = some (false, s') →
    (c.keeps = true → s.err = none → s'.err = none) ∧ (c.clears = true → s'.err = none) := by
  intro F
  induction F with
  | zero => intro ctx p c s s' h; cases h
  | succ F ih =>
    intro ctx p c s s' h
    cases c with
    | skip => cases h; exact ⟨fun _ h => h, by simp [Go.clears]⟩
    | fail => cases h
    | seq a b =>
      simp only [execR] at h
      split at h
      · rename_i s₁ h₁
        have ha := ih _ _ _ _ _ h₁
        have hb := ih _ _ _ _ _ h
        constructor
        · intro hk he
          simp only [Go.keeps, Bool.or_eq_true, Bool.and_eq_true] at hk
          rcases hk with hk | hk
          · exact hb.1 hk.2 (ha.1 hk.1 he)
          · exact hb.2 hk
        · intro hk
          simp only [Go.clears, Bool.or_eq_true, Bool.and_eq_true] at hk
          rcases hk with hk | hk
          · exact hb.2 hk
          · exact hb.1 hk.2 (ha.2 hk.1)
      · rename_i hne
        exact absurd h (hne s')
    | tok x =>
      simp only [execR, Option.some.injEq, Prod.mk.injEq] at h
      obtain ⟨h1, h2⟩ := h
      rw [h2] at h1
      have : s'.err = none := by simpa using h1
      exact ⟨fun _ _ => this, fun _ => this⟩
    | set x => exact ⟨by simp [Go.keeps], by simp [Go.clears]⟩
    | call st r q =>
      simp only [execR] at h
      split at h
      · simp only [Option.some.injEq, Prod.mk.injEq, true_and] at h
        subst h
        exact ⟨fun _ _ => leave_err o _, fun _ => leave_err o _⟩
      · cases h
    | pred q =>
      simp only [execR] at h
      split at h
      · cases h; exact ⟨fun _ h => h, by simp [Go.clears]⟩
      · cases h
    | sync st =>
      simp only [execR, Option.some.injEq, Prod.mk.injEq] at h
      obtain ⟨h1, h2⟩ := h
      rw [h2] at h1
      have : s'.err = none := by simpa using h1
      exact ⟨fun _ _ => this, fun _ => this⟩
    | ifLA c a b =>
      simp only [execR] at h
      split at h
      · have ha := ih _ _ _ _ _ h
        constructor
        · intro hk he
          simp only [Go.keeps, Bool.and_eq_true] at hk
          exact ha.1 hk.1 he
        · intro hk
          simp only [Go.clears, Bool.and_eq_true] at hk
          exact ha.2 hk.1
      · have hb := ih _ _ _ _ _ h
        constructor
        · intro hk he
          simp only [Go.keeps, Bool.and_eq_true] at hk
          exact hb.1 hk.2 he
        · intro hk
          simp only [Go.clears, Bool.and_eq_true] at hk
          exact hb.2 hk.2
    | whileLA c a =>
      refine ⟨fun hk he => ?_, by simp [Go.clears]⟩
      simp only [execR] at h
      split at h
      · split at h
        · rename_i s₁ h₁
          exact (ih _ _ _ _ _ h).1 hk ((ih _ _ _ _ _ h₁).1 (by simpa [Go.keeps] using hk) he)
        · rename_i hne
          exact absurd h (hne s')
      · cases h; exact he
    | whileAP d a =>
      have key : s'.err = none := by
        simp only [execR] at h
        split at h
        · cases h
        · split at h
          · cases h
          · rename_i hne
            split at h
            · cases h; simpa using hne
            · split at h
              · split at h
                · exact (ih _ _ _ _ _ h).2 rfl
                · rename_i hne
                  exact absurd h (hne s')
              · exact (ih _ _ _ _ _ h).2 rfl
      exact ⟨fun _ _ => key, fun _ => key⟩
    | switchAP d x =>
      refine ⟨fun hk he => ?_, by simp [Go.clears]⟩
      simp only [Go.keeps] at hk
      simp only [execR] at h
      split at h
      · cases h
      · split at h
        · rename_i a hl
          exact (ih _ _ _ _ _ h).1 (keepsArms_mem hk _ (armLookup_mem hl)) he
        · cases h; exact he
    | case d i a b => cases h; exact ⟨fun _ h => h, by simp [Go.clears]⟩

/-! ## The number of reports -/

/-- Reports so far, and how many more there can be. -/
def PState.load (s : PState) : Nat :=
  s.places.length + s.rest.length + (if s.mode then 0 else 1)

/-- The last token is the end-of-file token. -/
def AtEnd (l : List Tok) : Prop := ∃ t, l.getLast? = some t ∧ t.ty = .EOF

theorem AtEnd.ne {l : List Tok} (h : AtEnd l) : l ≠ [] := by
  rintro rfl
  obtain ⟨t, h, _⟩ := h
  cases h

theorem AtEnd.tail {l : List Tok} (h : AtEnd l) (hne : la l ≠ .EOF) : AtEnd l.tail := by
  obtain ⟨t, h, ht⟩ := h
  cases l with
  | nil => cases h
  | cons x l =>
    cases l with
    | nil =>
      simp only [List.getLast?_singleton, Option.some.injEq] at h
      subst h
      exact absurd ht hne
    | cons y l => exact ⟨t, by simpa using h, ht⟩

theorem AtEnd.dropTo {stop : TT → Bool} : ∀ {l : List Tok}, AtEnd l → AtEnd (dropTo stop l) := by
  intro l
  induction l with
  | nil => intro h; exact h
  | cons t ts ih =>
    intro h
    unfold PState.dropTo
    split
    · exact h
    · rename_i hc
      simp only [Bool.or_eq_true, beq_iff_eq, not_or] at hc
      exact ih (h.tail hc.1)

/-- The tokens get fewer, but not past the end of file, and there are not more
reports than tokens for them. -/
structure Pays (s s' : PState) : Prop where
  suffix : s'.rest <:+ s.rest
  load : s'.load ≤ s.load
  atEnd : AtEnd s.rest → AtEnd s'.rest

theorem Pays.refl (s : PState) : Pays s s := ⟨List.suffix_refl _, Nat.le_refl _, id⟩

theorem Pays.trans {s₁ s₂ s₃ : PState} (h : Pays s₁ s₂) (h' : Pays s₂ s₃) : Pays s₁ s₃ :=
  ⟨h'.1.trans h.1, Nat.le_trans h'.2 h.2, fun x => h'.3 (h.3 x)⟩

theorem report_load (s : PState) (k : Nat) : (s.report k).load = s.load := by
  unfold report
  split
  · rfl
  · rename_i h
    simp only [Bool.not_eq_true] at h
    simp [load, h]
    omega

theorem report_pays (s : PState) (k : Nat) : Pays s (s.report k) :=
  ⟨by rw [(report_same s k).1]; exact List.suffix_refl _, Nat.le_of_eq (report_load s k),
    by rw [(report_same s k).1]; exact id⟩

theorem eat_load (s : PState) : s.eat.places = s.places ∧ s.eat.mode = s.mode ∧
    s.eat.err = s.err := by
  unfold eat; split <;> exact ⟨rfl, rfl, rfl⟩

theorem eat_atEnd {s : PState} (h : AtEnd s.rest) : AtEnd s.eat.rest := by
  unfold eat
  split
  · exact h
  · rename_i hne; exact h.tail hne

theorem eat_pays (s : PState) : Pays s s.eat := by
  have h := eat_rest s
  have h' := eat_load s
  refine ⟨h.1, ?_, eat_atEnd⟩
  unfold load
  rw [h'.1, h'.2.1]
  have := h.1.length_le
  omega

theorem matched_eat_pays {s : PState} (h : la s.rest ≠ .EOF) : Pays s s.matched.eat := by
  have h1 := eat_rest s.matched
  have h2 := h1.2 h
  have h3 := eat_load s.matched
  refine ⟨h1.1, ?_, fun h => eat_atEnd (s := s.matched) h⟩
  unfold load
  rw [h3.1, h3.2.1]
  simp only [matched, Bool.false_eq_true, if_false] at h2 ⊢
  omega

theorem consumeUntil_pays (o : Strategy) (s : PState) : Pays s (s.consumeUntil o) := by
  have hs : (s.consumeUntil o).rest <:+ s.rest := dropTo_suffix _ _
  refine ⟨hs, ?_, fun h => h.dropTo⟩
  have := hs.length_le
  have hm : (s.consumeUntil o).mode = s.mode := rfl
  have hp : (s.consumeUntil o).places = s.places := rfl
  unfold load
  rw [hm, hp]
  omega

theorem tick_report (s : PState) (k : Nat) : s.tick.report k = (s.report k).tick := by
  unfold report tick
  by_cases h : s.mode = true
  · simp only [h, if_true]
  · simp only [h, if_false, Bool.false_eq_true]

theorem delete_pays {o : Strategy} {s s' : PState} (he : Ended s.rest) (h : s.delete o = some s') :
    Pays s s' := by
  have hr := delete_rest he h
  unfold delete at h
  split at h
  · have h' := Option.some.inj h
    refine ⟨hr.1, ?_, fun ha => ?_⟩
    · have hp : s'.places.length ≤ s.places.length + (if s.mode then 0 else 1) := by
        rw [← h']
        simp only [matched, (eat_load _).1]
        unfold report
        split
        · rename_i hm; simp only [tick] at hm ⊢; simp [hm]
        · rename_i hm
          simp only [tick, Bool.not_eq_true] at hm ⊢
          simp [hm]
      have hm : s'.mode = false := by rw [← h']; rfl
      unfold load
      rw [hm]
      simp only [Bool.false_eq_true, if_false]
      omega
    · rw [← h']
      show AtEnd (s.tick.report s.here).eat.rest
      refine eat_atEnd ?_
      rw [(report_same _ _).1]
      exact ha
  · cases h

theorem recoverInline_pays {o : Strategy} {s : PState} (he : Ended s.rest) :
    Pays s (s.recoverInline o) := by
  unfold recoverInline
  split
  · rename_i s' h
    exact (delete_pays he h).trans (eat_pays s')
  · split
    · have := report_pays s.tick s.here
      exact ⟨this.1, this.2, this.3⟩
    · exact ⟨List.suffix_refl _, Nat.le_refl _, id⟩

theorem sync_pays {o : Strategy} {st : Nat} {s : PState} (he : Ended s.rest) :
    Pays s (s.sync o st) := by
  unfold sync
  split
  · exact Pays.refl s
  · split
    · exact (report_pays s s.here).trans (consumeUntil_pays o _)
    · split
      · rename_i s' h; exact delete_pays he h
      · exact ⟨List.suffix_refl _, Nat.le_refl _, id⟩

theorem recover_pays (o : Strategy) (s : PState) : Pays s (s.recover o) := by
  unfold recover
  simp only
  split
  · have h := eat_pays s
    refine Pays.trans ?_ (consumeUntil_pays o _)
    exact ⟨h.1, h.2, h.3⟩
  · refine Pays.trans ?_ (consumeUntil_pays o _)
    exact ⟨List.suffix_refl _, Nat.le_refl _, id⟩

theorem leave_pays (o : Strategy) (s : PState) : Pays s (s.leave o) := by
  unfold leave
  split
  · exact Pays.refl s
  · rename_i k h
    have := (report_pays s k).trans (recover_pays o _)
    exact ⟨this.1, this.2, this.3⟩

theorem setErr_pays (s : PState) : Pays s s.setErr := ⟨List.suffix_refl _, Nat.le_refl _, id⟩

theorem execR_pays {rt : Runtime} {o : Strategy} : ∀ (F : Nat) (ctx : List Nat) (p : Nat) (c : Go)
    (s s' : PState) (b : Bool), execR rt o F ctx p c s = some (b, s') → Ended s.rest →
    c.good = true → c.noEof = true → Pays s s' := by
  intro F
  induction F with
  | zero => intro ctx p c s s' b h; cases h
  | succ F ih =>
    intro ctx p c s s' b h he hg hn
    cases c with
    | skip => cases h; exact .refl _
    | fail => cases h; exact ⟨List.suffix_refl _, Nat.le_refl _, id⟩
    | seq x y =>
      simp only [Go.noEof, Bool.and_eq_true] at hn
      have hgx : x.good = true := Go.good.sub hg fun z hz => by simp [Go.subs, hz]
      have hgy : y.good = true := Go.good.sub hg fun z hz => by simp [Go.subs, hz]
      simp only [execR] at h
      split at h
      · rename_i s₁ h₁
        have hx := ih _ _ _ _ _ _ h₁ he hgx hn.1
        exact hx.trans (ih _ _ _ _ _ _ h (he.suffix hx.1) hgy hn.2)
      · exact ih _ _ _ _ _ _ h he hgx hn.1
    | tok x =>
      simp only [Go.noEof, bne_iff_ne, ne_eq] at hn
      simp only [execR, Option.some.injEq, Prod.mk.injEq] at h
      rw [← h.2]
      split
      · rename_i hla; exact matched_eat_pays (by rw [hla]; exact hn)
      · exact recoverInline_pays he
    | set x =>
      simp only [Go.noEof, Bool.not_eq_true'] at hn
      simp only [execR, Option.some.injEq, Prod.mk.injEq] at h
      rw [← h.2]
      split
      · rename_i hla
        refine matched_eat_pays fun h' => ?_
        rw [h', hn] at hla
        cases hla
      · exact recoverInline_pays he
    | call st r q =>
      simp only [Go.noEof] at hn
      simp only [execR] at h
      split at h
      · rename_i e s₁ h₁
        simp only [Option.some.injEq, Prod.mk.injEq] at h
        rw [← h.2]
        exact (ih _ _ _ _ _ _ h₁ he (goCode_good r) (goCode_noEof hn)).trans (leave_pays o s₁)
      · cases h
    | pred q =>
      simp only [execR] at h
      split at h
      · cases h; exact .refl _
      · cases h; exact ⟨List.suffix_refl _, Nat.le_refl _, id⟩
    | sync st =>
      simp only [execR, Option.some.injEq, Prod.mk.injEq] at h
      rw [← h.2]
      exact sync_pays he
    | ifLA c x y =>
      simp only [Go.noEof, Bool.and_eq_true] at hn
      have hgx : x.good = true := Go.good.sub hg fun z hz => by simp [Go.subs, hz]
      have hgy : y.good = true := Go.good.sub hg fun z hz => by simp [Go.subs, hz]
      simp only [execR] at h
      split at h
      · exact ih _ _ _ _ _ _ h he hgx hn.1
      · exact ih _ _ _ _ _ _ h he hgy hn.2
    | whileLA c x =>
      have hgx : x.good = true := Go.good.sub hg fun z hz => by simp [Go.subs, hz]
      have hn' : x.noEof = true := hn
      simp only [execR] at h
      split at h
      · split at h
        · rename_i s₁ h₁
          have hx := ih _ _ _ _ _ _ h₁ he hgx hn'
          exact hx.trans (ih _ _ _ _ _ _ h (he.suffix hx.1) hg hn)
        · exact ih _ _ _ _ _ _ h he hgx hn'
      · cases h; exact .refl _
    | whileAP d x =>
      have hgx : x.good = true := Go.good.sub hg fun z hz => by simp [Go.subs, hz]
      have hn' : x.noEof = true := hn
      simp only [execR] at h
      split at h
      · cases h; exact ⟨List.suffix_refl _, Nat.le_refl _, id⟩
      · split at h
        · cases h; exact .refl _
        · split at h
          · cases h; exact .refl _
          · split at h
            · split at h
              · rename_i s₁ h₁
                have hx := ih _ _ _ _ _ _ h₁ he hgx hn'
                exact hx.trans (ih _ _ _ _ _ _ h (he.suffix hx.1) hg hn)
              · exact ih _ _ _ _ _ _ h he hgx hn'
            · exact ih _ _ _ _ _ _ h he hg hn
    | switchAP d x =>
      simp only [execR] at h
      split at h
      · cases h; exact ⟨List.suffix_refl _, Nat.le_refl _, id⟩
      · split at h
        · rename_i a hl
          have hm := armLookup_mem hl
          exact ih _ _ _ _ _ _ h he
            (Go.good.sub hg fun y hy => by simp [Go.subs, arms_subs (_, a) hm y hy])
            (arms_noEof (x := x) hn (_, a) hm)
        · cases h; exact .refl _
    | case d i x y => cases h; exact .refl _

/-- The end-of-file token is matched at the very end only, and without an
exception. -/
def Go.endsEof : Go → Bool
  | .tok x => x == .EOF
  | .seq a b => a.noEof && a.keeps && b.endsEof
  | _ => false

theorem source_endsEof : (goCode .source_unit).endsEof = true := by decide +kernel

theorem execR_last {rt : Runtime} {o : Strategy} : ∀ (F : Nat) (ctx : List Nat) (p : Nat) (c : Go)
    (s s' : PState) (b : Bool), execR rt o F ctx p c s = some (b, s') → Ended s.rest →
    c.good = true → c.endsEof = true → s.err = none →
    Pays s s' ∨ (s'.load ≤ s.load + 1 ∧ s'.mode = false ∧ s'.err = none ∧
      (AtEnd s.rest → AtEnd s'.rest)) := by
  intro F
  induction F with
  | zero => intro ctx p c s s' b h; cases h
  | succ F ih =>
    intro ctx p c s s' b h he hg hl herr
    cases c with
    | seq x y =>
      simp only [Go.endsEof, Bool.and_eq_true] at hl
      have hgx : x.good = true := Go.good.sub hg fun z hz => by simp [Go.subs, hz]
      have hgy : y.good = true := Go.good.sub hg fun z hz => by simp [Go.subs, hz]
      simp only [execR] at h
      split at h
      · rename_i s₁ h₁
        have hx := execR_pays _ _ _ _ _ _ _ h₁ he hgx hl.1.1
        have hc := (execR_calm _ _ _ _ _ _ h₁).1 hl.1.2 herr
        rcases ih _ _ _ _ _ _ h (he.suffix hx.1) hgy hl.2 hc with h' | h'
        · exact .inl (hx.trans h')
        · exact .inr ⟨by have := hx.2; omega, h'.2.1, h'.2.2.1, fun h => h'.2.2.2 (hx.3 h)⟩
      · exact .inl (execR_pays _ _ _ _ _ _ _ h he hgx hl.1.1)
    | tok x =>
      simp only [Go.endsEof, beq_iff_eq] at hl
      subst hl
      simp only [execR, Option.some.injEq, Prod.mk.injEq] at h
      rw [← h.2]
      split
      · rename_i hla
        rw [eat_eof (s := s.matched) hla]
        refine .inr ⟨?_, rfl, herr, fun h => h⟩
        unfold load
        simp only [matched, Bool.false_eq_true, if_false]
        omega
      · exact .inl (recoverInline_pays he)
    | _ => simp [Go.endsEof] at hl

end Verif
