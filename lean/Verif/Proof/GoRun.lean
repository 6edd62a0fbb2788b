import Verif.Proof.GoCheck
/-!
# Runs of the interpreter are runs of the generated code
-/

namespace Verif

attribute [local irreducible] parserAtn restAt leadsTo sure

theorem exec_mono {rt : Runtime} : ∀ (n : Nat) (ctx : List Nat) (p : Nat) (c : Go) (ts : List Tok),
    exec rt n ctx p c ts ≠ .stuck → ∀ m, n ≤ m → exec rt m ctx p c ts = exec rt n ctx p c ts := by
  intro n
  induction n with
  | zero => intro ctx p c ts h; simp [exec] at h
  | succ n ih =>
    intro ctx p c ts h m hm
    obtain ⟨m, rfl⟩ : ∃ m', m = m' + 1 := ⟨m - 1, by omega⟩
    have hm : n ≤ m := by omega
    have seq : ∀ (a b : Go), ((exec rt n ctx p a ts).andThen fun ts => exec rt n ctx p b ts) ≠ .stuck →
        ((exec rt m ctx p a ts).andThen fun ts => exec rt m ctx p b ts) =
        ((exec rt n ctx p a ts).andThen fun ts => exec rt n ctx p b ts) := by
      intro a b h
      have ha : exec rt n ctx p a ts ≠ .stuck := by
        intro e; simp [Res.andThen, e] at h
      rw [ih _ _ _ _ ha m hm]
      cases e : exec rt n ctx p a ts with
      | ok ks t =>
        have hb : exec rt n ctx p b t ≠ .stuck := by
          intro e'; simp [Res.andThen, e, e'] at h
        simp only [Res.andThen, ih _ _ _ _ hb m hm]
      | err _ => rfl
      | stuck => rfl
    cases c with
    | skip => simp [exec]
    | fail => simp [exec]
    | seq a b => simp only [exec] at h ⊢; exact seq a b h
    | tok x => simp [exec]
    | set x => simp [exec]
    | call st r k =>
      simp only [exec] at h ⊢
      have : exec rt n (st :: ctx) k (goCode r) ts ≠ .stuck := by
        intro e; simp [e] at h
      rw [ih _ _ _ _ this m hm]
    | pred k => simp [exec]
    | sync st => simp [exec]
    | ifLA c a b =>
      simp only [exec] at h ⊢
      split at h
      · rename_i hc; simp only [hc, if_true]; exact ih _ _ _ _ h m hm
      · rename_i hc; simp only [hc]; exact ih _ _ _ _ h m hm
    | whileLA c a =>
      simp only [exec] at h ⊢
      split at h
      · rename_i hc; simp only [hc, if_true]; exact seq _ _ h
      · rename_i hc; simp [hc]
    | whileAP d a =>
      simp only [exec] at h ⊢
      split at h
      · rfl
      · exact seq _ _ h
      · rfl
      · exact ih _ _ _ _ h m hm
    | switchAP d x =>
      simp only [exec] at h ⊢
      split at h
      · rfl
      · split at h
        · exact ih _ _ _ _ h m hm
        · rfl
    | case d i a b => simp [exec]

/-- Some number of steps gives this result without an error. -/
def Execs (rt : Runtime) (ctx : List Nat) (p : Nat) (c : Go) (ts : List Tok) (ks : List Tree)
    (rest : List Tok) : Prop := ∃ n, exec rt n ctx p c ts = .ok ks rest

theorem Execs.seq {rt ctx p a b ts k₁ t₁ k₂ t₂} (ha : Execs rt ctx p a ts k₁ t₁)
    (hb : Execs rt ctx p b t₁ k₂ t₂) :
    ∃ n, ((exec rt n ctx p a ts).andThen fun ts => exec rt n ctx p b ts) = .ok (k₁ ++ k₂) t₂ := by
  obtain ⟨n, ha⟩ := ha
  obtain ⟨m, hb⟩ := hb
  refine ⟨max n m, ?_⟩
  rw [exec_mono n _ _ _ _ (by simp [ha]) _ (Nat.le_max_left _ _), ha]
  simp only [Res.andThen]
  rw [exec_mono m _ _ _ _ (by simp [hb]) _ (Nat.le_max_right _ _), hb]

theorem guard_la1 {p : Nat} {c : LaTest} {ts : List Tok} (h : c.toks.contains .EOF = false) :
    Guard.ok p (G.la1 c.toks) ts = c.ok (la ts) := by
  cases ts with
  | nil =>
    have : c.ok .EOF = false := by
      cases hc : c.ok .EOF with
      | false => rfl
      | true => rw [LaTest.ok_iff] at hc; simp [hc] at h
    simp [Guard.ok, G.la1, Look.ok, laOk, la, this]
  | cons t ts =>
    have : decide (t.ty ∈ c.toks) = c.ok t.ty := by
      rw [Bool.eq_iff_iff, LaTest.ok_iff]; simp
    simp [Guard.ok, G.la1, Look.ok, laOk, la, this]

theorem run_pos {m p g ts r} (h : run m p g ts = some r) : 0 < m := by
  cases m with
  | zero => simp [run] at h
  | succ m => omega

theorem run_seqG {m p ts ks rest} {a b : Go} (h : run m p (Go.seq a b).g ts = some (ks, rest)) :
    ∃ m₁ m₂ k₁ t₁ k₂, m₁ ≤ m ∧ m₂ ≤ m ∧ run m₁ p a.g ts = some (k₁, t₁) ∧
      run m₂ p b.g t₁ = some (k₂, rest) ∧ ks = k₁ ++ k₂ := by
  have hpos := run_pos h
  simp only [Go.g, seqG] at h
  split at h
  · exact ⟨1, m, [], ts, ks, by omega, Nat.le_refl _, by simp [Go.g, run], h, rfl⟩
  · exact ⟨m, 1, ks, rest, [], Nat.le_refl _, by omega, h, by simp [Go.g, run], by simp⟩
  · obtain ⟨m, rfl⟩ : ∃ m', m = m' + 1 := ⟨m - 1, by omega⟩
    obtain ⟨k₁, t₁, k₂, h₁, h₂, rfl⟩ := run_seq_inv h
    exact ⟨m, m, k₁, t₁, k₂, by omega, by omega, h₁, h₂, rfl⟩

theorem wfArms_le : ∀ (x : Go) (i n : Nat), x.wfArms i n = true → i ≤ n + 1 := by
  intro x
  induction x with
  | case d j a b _ ihb =>
    intro i n h
    simp only [Go.wfArms, Bool.and_eq_true] at h
    have := ihb _ _ h.2
    omega
  | skip => intro i n h; simp [Go.wfArms] at h; omega
  | _ => intro i n h; simp [Go.wfArms] at h

/-- The branch that the interpreter takes in a `switch`. -/
theorem run_arms {p ts r} {L : List G} {d : Nat} : ∀ (x : Go) (i n m : Nat),
    (∃ j a b, x = .case d j a b) → x.wfArms i n = true → chk x L = true →
    run m p x.g ts = some r →
    ∃ j a m', i ≤ j ∧ j ≤ n ∧ (j, a) ∈ x.arms ∧ x.arms.lookup j = some a ∧ a.wf = true ∧
      m' ≤ m ∧ run m' p a.g ts = some r ∧ chk a L = true ∧
      leadsTo d j (a.g.bare.flat ++ L) = true ∧
      ∀ k, i ≤ k → k < j → Guard.ok p (guardOf d k) ts = false := by
  intro x
  induction x with
  | case d' j a b _ ihb =>
    intro i n m hx hw hc hr
    obtain ⟨_, _, _, hx⟩ := hx
    simp only [Go.case.injEq] at hx
    obtain ⟨rfl, _, _, _⟩ := hx
    simp only [Go.wfArms, Bool.and_eq_true, beq_iff_eq] at hw
    obtain ⟨⟨rfl, hwa⟩, hwb⟩ := hw
    simp only [chk, Bool.and_eq_true] at hc
    obtain ⟨⟨⟨hlead, hca⟩, hcb⟩, hb⟩ := hc
    have hjn : j ≤ n := by
      have := wfArms_le _ _ _ hwb
      omega
    simp only [Go.g, caseG] at hr
    split at hr
    · exact ⟨j, a, m, Nat.le_refl _, hjn, by simp [Go.arms], by simp [Go.arms], hwa,
        Nat.le_refl _, hr, hca, hlead, fun k h₁ h₂ => by omega⟩
    · rename_i hns
      have hm := run_pos hr
      obtain ⟨m, rfl⟩ : ∃ m', m = m' + 1 := ⟨m - 1, by omega⟩
      simp only [run] at hr
      split at hr
      · exact ⟨j, a, m, Nat.le_refl _, hjn, by simp [Go.arms], by simp [Go.arms], hwa,
          by omega, hr, hca, hlead, fun k h₁ h₂ => by omega⟩
      · rename_i hg
        simp only [caseOk] at hb
        split at hb
        · simp only [beq_iff_eq] at hb
          subst hb
          obtain ⟨j', a', m', h₁, h₂, h₃, h₄, h₅, h₆, h₇, h₈, h₉, h₁₀⟩ :=
            ihb (j + 1) n m ⟨_, _, _, rfl⟩ hwb hcb hr
          refine ⟨j', a', m', by omega, h₂, List.mem_cons_of_mem _ h₃, ?_, h₅, by omega, h₇, h₈, h₉, ?_⟩
          · have : (j' == j) = false := by simp; omega
            rw [Go.arms, List.lookup, this]; exact h₄
          · intro k hk₁ hk₂
            by_cases hk : k = j
            · subst hk
              simpa using hg
            · exact h₁₀ k (by omega) hk₂
        · exact absurd rfl (hns)
        · cases hb
  | _ => intro i n m hx; obtain ⟨_, _, _, hx⟩ := hx; cases hx

theorem leadsTo_viable {d i p : Nat} {L : List G} {ctx ts} (hi : 0 < i)
    (hl : leadsTo d i L = true) : Viable d p ctx ts i ↔ Ders (some p) L (frames ctx) ts := by
  unfold leadsTo at hl
  split at hl
  · rename_i e he
    have hL : restAt e.trg = L := by simpa using hl
    have hlt : e.trg < 456 := edge_trg_lt (List.mem_of_getElem? he)
    subst hL
    constructor
    · rintro ⟨f, _, hf, hp⟩
      rw [he] at hf
      cases hf
      exact path_ders hlt hp
    · intro h
      exact ⟨e, hi, he, ders_path hlt h⟩
  · cases hl

/-- The statement to be proved for a piece of code: runs of the interpreter
with at most `m` steps, inside a whole derivation, are runs of the code. -/
def Follows (rt : Runtime) (m : Nat) (c : Go) : Prop :=
  ∀ m', m' ≤ m → ∀ (p : Nat) (ts : List Tok) (ks : List Tree) (rest : List Tok),
    run m' p c.g ts = some (ks, rest) → ∀ (L : List G) (ctx : List Nat), c.wf = true →
    chk c L = true → Ders (some p) L (frames ctx) rest → Execs rt ctx p c ts ks rest

theorem follows_step {rt : Runtime} (hrt : rt.Right) (m : Nat)
    (ih : ∀ m', m' < m → ∀ c, Follows rt m' c) :
    ∀ c : Go, Follows rt m c ∧ ∀ q ∈ c.arms, Follows rt m q.2 := by
  intro c
  induction c with
  | skip =>
    refine ⟨?_, by simp [Go.arms]⟩
    intro m' hm p ts ks rest hr L ctx _ _ _
    have := run_pos hr
    obtain ⟨m', rfl⟩ : ∃ k, m' = k + 1 := ⟨m' - 1, by omega⟩
    simp [Go.g, run] at hr
    obtain ⟨rfl, rfl⟩ := hr
    exact ⟨1, by simp [exec]⟩
  | fail =>
    refine ⟨?_, by simp [Go.arms]⟩
    intro m' hm p ts ks rest hr L ctx _ hc
    simp [chk] at hc
  | seq a b iha ihb =>
    refine ⟨?_, by simp [Go.arms]⟩
    intro m' hm p ts ks rest hr L ctx hw hc hd
    simp only [chk, Bool.and_eq_true] at hc
    simp only [Go.wf, Bool.and_eq_true] at hw
    obtain ⟨m₁, m₂, k₁, t₁, k₂, hm₁, hm₂, h₁, h₂, rfl⟩ := run_seqG hr
    have hd' := run_ders _ _ _ _ _ _ h₂ hd
    obtain ⟨n, h⟩ := (iha.1 m₁ (by omega) p ts k₁ t₁ h₁ _ ctx hw.1 hc.1 hd').seq
      (ihb.1 m₂ (by omega) p t₁ k₂ rest h₂ _ ctx hw.2 hc.2 hd)
    exact ⟨n + 1, by simp only [exec]; exact h⟩
  | tok x =>
    refine ⟨?_, by simp [Go.arms]⟩
    intro m' hm p ts ks rest hr L ctx _ _ _
    have := run_pos hr
    obtain ⟨m', rfl⟩ : ∃ k, m' = k + 1 := ⟨m' - 1, by omega⟩
    cases ts with
    | nil => simp [Go.g, run] at hr
    | cons t ts =>
      simp [Go.g, run] at hr
      obtain ⟨ht, rfl, rfl⟩ := hr
      exact ⟨1, by simp [exec, ht]⟩
  | set c =>
    refine ⟨?_, by simp [Go.arms]⟩
    intro m' hm p ts ks rest hr L ctx _ _ _
    have := run_pos hr
    obtain ⟨m', rfl⟩ : ∃ k, m' = k + 1 := ⟨m' - 1, by omega⟩
    cases ts with
    | nil => simp [Go.g, run] at hr
    | cons t ts =>
      simp [Go.g, run] at hr
      obtain ⟨ht, rfl, rfl⟩ := hr
      have := (LaTest.ok_iff t.ty c).2 ht
      exact ⟨1, by simp [exec, this]⟩
  | call st r k =>
    refine ⟨?_, by simp [Go.arms]⟩
    intro m' hm p ts ks rest hr L ctx _ hc hd
    have := run_pos hr
    obtain ⟨m', rfl⟩ : ∃ k, m' = k + 1 := ⟨m' - 1, by omega⟩
    simp only [Go.g, run] at hr
    split at hr
    · cases hr
    · rename_i ks' ts' h'
      simp at hr
      obtain ⟨rfl, rfl⟩ := hr
      simp only [chk, beq_iff_eq] at hc
      rw [← goCode_g] at h'
      obtain ⟨n, hd⟩ := hd
      obtain ⟨n, h⟩ := ih m' (by omega) (goCode r) m' (Nat.le_refl _) k ts ks' ts' h' []
        (st :: ctx) (goCode_wf r) (goCode_chk r) (by
          have : frames (st :: ctx) = L :: frames ctx := by
            rw [← hc]; rfl
          rw [this]
          exact ⟨_, .ret hd.weaken⟩)
      exact ⟨n + 1, by simp only [exec, h]⟩
  | pred k =>
    refine ⟨?_, by simp [Go.arms]⟩
    intro m' hm p ts ks rest hr L ctx _ _ _
    have := run_pos hr
    obtain ⟨m', rfl⟩ : ∃ k, m' = k + 1 := ⟨m' - 1, by omega⟩
    simp [Go.g, run] at hr
    obtain ⟨hp, rfl, rfl⟩ := hr
    exact ⟨1, by simp [exec, hp]⟩
  | sync st =>
    refine ⟨?_, by simp [Go.arms]⟩
    intro m' hm p ts ks rest hr L ctx _ hc hd
    have := run_pos hr
    obtain ⟨m', rfl⟩ : ∃ k, m' = k + 1 := ⟨m' - 1, by omega⟩
    simp [Go.g, run] at hr
    obtain ⟨rfl, rfl⟩ := hr
    simp only [chk, Bool.and_eq_true, decide_eq_true_eq, beq_iff_eq] at hc
    obtain ⟨hlt, rfl⟩ := hc
    have := path_sync (ders_path hlt hd)
    exact ⟨1, by simp [exec, this]⟩
  | ifLA c a b iha ihb =>
    refine ⟨?_, by simp [Go.arms]⟩
    intro m' hm p ts ks rest hr L ctx hw hc hd
    simp only [chk, Bool.and_eq_true] at hc
    obtain ⟨⟨heof, hca⟩, hcb⟩ := hc
    have heof : c.toks.contains .EOF = false := by simpa using heof
    simp only [Go.wf, Bool.and_eq_true] at hw
    simp only [Go.g, ifG] at hr
    split at hr
    · simp only [elseOk] at hcb
      have := must_ok p hcb (ders_sat (run_ders _ _ _ _ _ _ hr hd))
      rw [guard_la1 heof] at this
      obtain ⟨n, h⟩ := iha.1 m' hm p ts ks rest hr L ctx hw.1 hca hd
      exact ⟨n + 1, by simp only [exec, this, if_true]; exact h⟩
    · have := run_pos hr
      obtain ⟨m', rfl⟩ : ∃ k, m' = k + 1 := ⟨m' - 1, by omega⟩
      simp [run] at hr
      obtain ⟨rfl, rfl⟩ := hr
      exact ⟨2, by simp [exec]⟩
    · rename_i hnf _
      have hcb : chk b L = true := by
        unfold elseOk at hcb
        split at hcb
        · exact absurd rfl hnf
        · exact hcb
      have := run_pos hr
      obtain ⟨m', rfl⟩ : ∃ k, m' = k + 1 := ⟨m' - 1, by omega⟩
      simp only [run, guard_la1 heof] at hr
      split at hr
      · rename_i hg
        obtain ⟨n, h⟩ := iha.1 m' (by omega) p ts ks rest hr L ctx hw.1 hca hd
        exact ⟨n + 1, by simp only [exec, hg, if_true]; exact h⟩
      · rename_i hg
        obtain ⟨n, h⟩ := ihb.1 m' (by omega) p ts ks rest hr L ctx hw.2 hcb hd
        exact ⟨n + 1, by simp only [exec, hg]; exact h⟩
  | whileLA c a iha =>
    refine ⟨?_, by simp [Go.arms]⟩
    intro m' hm p ts ks rest hr L ctx hw hc hd
    have hc' := hc
    simp only [chk, Bool.and_eq_true] at hc
    obtain ⟨heof, hca⟩ := hc
    have heof : c.toks.contains .EOF = false := by simpa using heof
    have := run_pos hr
    obtain ⟨m', rfl⟩ : ∃ k, m' = k + 1 := ⟨m' - 1, by omega⟩
    simp only [Go.g, run, guard_la1 heof] at hr
    split at hr
    · rename_i hg
      split at hr
      · cases hr
      · rename_i k₁ t₁ h₁
        split at hr
        · cases hr
        · rename_i k₂ t₂ h₂
          simp at hr
          obtain ⟨rfl, rfl⟩ := hr
          have h₂ : run m' p (Go.whileLA c a).g t₁ = some (k₂, t₂) := h₂
          have hd' := run_ders _ _ _ _ _ _ h₂ hd
          obtain ⟨n, h⟩ := (iha.1 m' (by omega) p ts k₁ t₁ h₁ _ ctx hw hca hd').seq
            (ih m' (by omega) (.whileLA c a) m' (Nat.le_refl _) p t₁ k₂ t₂ h₂ L ctx hw hc' hd)
          exact ⟨n + 1, by simp only [exec, hg, if_true]; exact h⟩
    · rename_i hg
      simp at hr
      obtain ⟨rfl, rfl⟩ := hr
      exact ⟨1, by simp [exec, hg]⟩
  | whileAP d a iha =>
    refine ⟨?_, by simp [Go.arms]⟩
    intro m' hm p ts ks rest hr L ctx hw hc hd
    have hc' := hc
    have hw' := hw
    simp only [Go.wf, Bool.and_eq_true] at hw
    simp only [chk, Bool.and_eq_true] at hc
    obtain ⟨⟨h1, h2⟩, hca⟩ := hc
    have hask := List.contains_iff_mem.1 hw.1.1
    have := run_pos hr
    obtain ⟨m', rfl⟩ : ∃ k, m' = k + 1 := ⟨m' - 1, by omega⟩
    simp only [Go.g, run] at hr
    split at hr
    · rename_i hg
      split at hr
      · cases hr
      · rename_i k₁ t₁ h₁
        split at hr
        · cases hr
        · rename_i k₂ t₂ h₂
          simp at hr
          obtain ⟨rfl, rfl⟩ := hr
          have h₂ : run m' p (Go.whileAP d a).g t₁ = some (k₂, t₂) := h₂
          have hd' := run_ders _ _ _ _ _ _ h₂ hd
          have hp : rt.predict d p ctx ts = 1 :=
            hrt d hask p ctx ts 1 _ (by omega) h1 (run_ders _ _ _ _ _ _ h₁ hd')
              (fun j _ _ => by omega)
          obtain ⟨n, h⟩ := (iha.1 m' (by omega) p ts k₁ t₁ h₁ _ ctx hw.1.2 hca hd').seq
            (ih m' (by omega) (.whileAP d a) m' (Nat.le_refl _) p t₁ k₂ t₂ h₂ L ctx hw' hc' hd)
          exact ⟨n + 1, by simp only [exec, hp]; exact h⟩
    · rename_i hg
      simp at hr
      obtain ⟨rfl, rfl⟩ := hr
      have hp : rt.predict d p ctx ts = 2 := by
        refine hrt d hask p ctx ts 2 _ (by omega) h2 hd (fun j h0 hj => ?_)
        obtain rfl : j = 1 := by omega
        simpa using hg
      exact ⟨1, by simp [exec, hp]⟩
  | switchAP d x ihx =>
    refine ⟨?_, by simp [Go.arms]⟩
    intro m' hm p ts ks rest hr L ctx hw hc hd
    simp only [Go.wf, Bool.and_eq_true] at hw
    simp only [chk, Bool.and_eq_true] at hc
    obtain ⟨hx, hc⟩ := hc
    have hx : ∃ j a b, x = .case d j a b := by
      unfold isCase at hx
      split at hx
      · rename_i d' j a b
        have hx : d' = d := by simpa using hx
        subst hx
        exact ⟨j, a, b, rfl⟩
      · cases hx
    have hr : run m' p x.g ts = some (ks, rest) := hr
    obtain ⟨j, a, m₁, hj, _, hmem, hlook, hwa, hm₁, hra, hca, hlead, hless⟩ :=
      run_arms x 1 _ m' hx hw.2 hc hr
    have hp : rt.predict d p ctx ts = j := by
      exact hrt d (List.contains_iff_mem.1 hw.1) p ctx ts j _ (by omega) hlead
        (run_ders _ _ _ _ _ _ hra hd) (fun k hk hlt => hless k (by omega) hlt)
    obtain ⟨n, h⟩ := ihx.2 _ hmem m₁ (by omega) p ts ks rest hra L ctx hwa hca hd
    obtain ⟨j, rfl⟩ : ∃ k, j = k + 1 := ⟨j - 1, by omega⟩
    exact ⟨n + 1, by simp only [exec, hp, hlook]; exact h⟩
  | case d i a b iha ihb =>
    refine ⟨?_, ?_⟩
    · intro m' hm p ts ks rest hr L ctx hw
      simp [Go.wf] at hw
    · intro q hq
      rw [Go.arms, List.mem_cons] at hq
      rcases hq with rfl | hq
      · exact iha.1
      · exact ihb.2 q hq

theorem follows_all {rt : Runtime} (hrt : rt.Right) : ∀ (m : Nat) (c : Go), Follows rt m c := by
  intro m
  induction m using Nat.strongRecOn with
  | _ m ih => intro c; exact (follows_step hrt m ih c).1

/-- On every sentence the generated code runs through without an error and
builds the tree of the derivation. -/
theorem exec_source {rt : Runtime} (hrt : rt.Right) {ts : List Tok} {ks : List Tree}
    (h : Gen (grammar .source_unit) ts ks) :
    ∃ n, exec rt n [] 0 (goCode .source_unit) ts = .ok ks [] := by
  have hr := source_complete (.call (k := 0) h)
  have := run_pos hr
  obtain ⟨m, hm⟩ : ∃ k, fuelFor ts.length = k + 1 := ⟨fuelFor ts.length - 1, by omega⟩
  rw [hm] at hr
  simp only [run] at hr
  split at hr
  · cases hr
  · rename_i ks' ts' h'
    simp only [Option.some.injEq, Prod.mk.injEq, List.cons.injEq, and_true] at hr
    obtain ⟨hk, rfl⟩ := hr
    rw [← goCode_g] at h'
    have hks : ks' = ks := by simpa [mkNode] using hk
    subst hks
    exact follows_all hrt m (goCode .source_unit) m (Nat.le_refl _) 0 ts ks' [] h' [] []
      (goCode_wf _) (goCode_chk _) ⟨0, .done⟩

end Verif
