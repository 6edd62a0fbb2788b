import Verif.Proof.PredictRight
/-!
# Where the generated code reports its first error
-/

namespace Verif

/-! ## What has been read can be completed -/

/-- A short sentence of an expression: always the first alternative, no
repetition. -/
def small : Nat → G → Option (List TT)
  | 0, _ => none
  | _ + 1, .eps => some []
  | _ + 1, .tok s => s.head?.map ([·])
  | n + 1, .call r _ => small n (grammar r)
  | _ + 1, .pred _ => some []
  | n + 1, .seq a b => (small n a).bind fun x => (small n b).map (x ++ ·)
  | n + 1, .alt _ a _ => small n a
  | _ + 1, .star _ _ => some []

theorem small_gen : ∀ (n : Nat) (g : G) (l : List TT), small n g = some l →
    ∃ ks, Gen g (l.map fun t => ⟨t, []⟩) ks := by
  intro n
  induction n with
  | zero => intro g l h; simp [small] at h
  | succ n ih =>
    intro g l h
    cases g with
    | eps => simp [small] at h; subst h; exact ⟨_, .eps⟩
    | tok s =>
      simp only [small, Option.map_eq_some_iff] at h
      obtain ⟨t, ht, rfl⟩ := h
      exact ⟨_, .tok (List.mem_of_mem_head? (by simpa using ht))⟩
    | call r k =>
      obtain ⟨ks, h⟩ := ih _ _ h
      exact ⟨_, .call h⟩
    | pred k => simp [small] at h; subst h; exact ⟨_, .pred⟩
    | seq a b =>
      simp only [small, Option.bind_eq_some_iff, Option.map_eq_some_iff] at h
      obtain ⟨x, hx, y, hy, rfl⟩ := h
      obtain ⟨_, h₁⟩ := ih _ _ hx
      obtain ⟨_, h₂⟩ := ih _ _ hy
      rw [List.map_append]
      exact ⟨_, .seq h₁ h₂⟩
    | alt g a b =>
      obtain ⟨ks, h⟩ := ih _ _ h
      exact ⟨_, .altL h⟩
    | star g a => simp [small] at h; subst h; exact ⟨_, .starNil⟩

/-- Some sentence exists. -/
def G.fruit (g : G) : Bool := (small 60 g).isSome

theorem fruit_gen {g : G} (h : g.fruit = true) : ∃ u ks, Gen g u ks := by
  unfold G.fruit at h
  obtain ⟨l, hl⟩ := Option.isSome_iff_exists.1 h
  obtain ⟨ks, h⟩ := small_gen _ _ _ hl
  exact ⟨_, ks, h⟩

/-- Starts with this token. -/
def startsTok (t : TT) : Go → Bool
  | .seq (.tok x) _ => x == t
  | _ => false

/-- Every part can be completed, and the loop of decision 7 starts with a
comma. -/
def Go.alive : Go → Bool
  | .fail => true
  | .seq a b => a.alive && b.alive && a.g.fruit && b.g.fruit
  | .set c => (G.tok c.toks).fruit
  | .ifLA _ a b => a.alive && b.alive && a.g.fruit && (b matches .fail || b.g.fruit)
  | .whileLA _ a => a.alive && a.g.fruit
  | .whileAP d a => a.alive && a.g.fruit && (d != 7 || startsTok .COMMA a)
  | .switchAP d x => x.alive && x.g.fruit && d != 7
  | .case _ _ a b => a.alive && b.alive
  | .call _ r k => (G.call r k).fruit
  | _ => true

theorem goCode_alive_all : Rule.all.all (fun r => (goCode r).alive && (grammar r).fruit) = true := by decide +kernel

theorem goCode_alive (r : Rule) : (goCode r).alive = true := by
  have := goCode_alive_all
  rw [List.all_eq_true] at this
  have := this r (by cases r <;> decide)
  simp only [Bool.and_eq_true] at this
  exact this.1

theorem andThen_err {a : Res} {f : List Tok → Res} {rest} (h : a.andThen f = .err rest) :
    a = .err rest ∨ ∃ k₁ t₁, a = .ok k₁ t₁ ∧ f t₁ = .err rest := by
  unfold Res.andThen at h
  split at h
  · rename_i k₁ t₁
    split at h
    · cases h
    · rename_i t₂ h₂
      cases h
      exact .inr ⟨k₁, t₁, rfl, h₂⟩
    · cases h
  · cases h; exact .inl rfl
  · cases h

theorem arms_alive {x : Go} (h : x.alive = true) : ∀ q ∈ x.arms, q.2.alive = true := by
  induction x with
  | case d i a b _ ihb =>
    simp only [Go.alive, Bool.and_eq_true] at h
    intro q hq
    rw [Go.arms, List.mem_cons] at hq
    rcases hq with rfl | hq
    · exact h.1
    · exact ihb h.2 q hq
  | _ => simp [Go.arms]

theorem la_cons {ts : List Tok} {t : TT} (h : la ts = t) (ht : t ≠ .EOF) :
    ∃ x xs, ts = x :: xs ∧ x.ty = t := by
  cases ts with
  | nil => exact absurd h.symm ht
  | cons x xs => exact ⟨x, xs, rfl, h⟩

/-- An answer 0 after passing a token is given for decision 7 only, after a
comma. -/
theorem byTwo_zero {d p : Nat} {t u : TT} (hd : d ∈ asked) (h : byTwo d p t u = 0) :
    passed d t = 0 ∨ d = 7 ∧ t = .COMMA ∧ passed d t = 1 := by
  simp only [asked, List.mem_cons, List.not_mem_nil, or_false] at hd
  rcases hd with rfl | rfl | rfl | rfl | rfl
  · by_cases ht : t = .COMMA
    · exact .inr ⟨rfl, ht, by simp [passed, ht]⟩
    · exact .inl (by simp [passed, ht])
  · simp only [byTwo] at h; split at h <;> cases h
  · simp only [byTwo] at h
    split at h
    · split at h <;> cases h
    · rename_i ht; exact .inl (by simp [passed, ht])
  · exact .inl rfl
  · exact .inl rfl

theorem exec_fail {rt : Runtime} {n : Nat} {ctx : List Nat} {p : Nat} {pre rest : List Tok}
    (h : exec rt n ctx p .fail (pre ++ rest) = .err rest) : pre = [] := by
  cases n with
  | zero => simp [exec] at h
  | succ n => simpa [exec] using h

/-- When an error is reported, the tokens before the one it is about can be
completed. -/
theorem exec_viable : ∀ (n : Nat) (ctx : List Nat) (p : Nat) (c : Go) (ts rest : List Tok),
    c.wf = true → c.alive = true → exec simRuntime n ctx p c ts = .err rest →
    ∃ pre, ts = pre ++ rest ∧ (c ≠ .fail → ∃ u ks, Gen c.g (pre ++ u) ks) := by
  intro n
  induction n with
  | zero => intro ctx p c ts rest _ _ h; simp [exec] at h
  | succ n ih =>
    intro ctx p c ts rest hw hl h
    cases c with
    | skip => simp [exec] at h
    | fail => simp [exec] at h; exact ⟨[], h, by simp⟩
    | seq a b =>
      simp only [Go.wf, Bool.and_eq_true] at hw
      simp only [Go.alive, Bool.and_eq_true] at hl
      simp only [exec] at h
      obtain ⟨v, kv, hv⟩ := fruit_gen hl.2
      rcases andThen_err h with h | ⟨k₁, t₁, h₁, h₂⟩
      · obtain ⟨pre, rfl, hg⟩ := ih _ _ _ _ _ hw.1 hl.1.1.1 h
        refine ⟨pre, rfl, fun _ => ?_⟩
        by_cases ha : a = .fail
        · subst ha
          have hp : pre = [] := exec_fail h
          subst hp
          exact ⟨v, _, gen_seq_g (t₁ := []) .eps hv⟩
        · obtain ⟨u, ks, hg⟩ := hg ha
          exact ⟨u ++ v, _, by rw [← List.append_assoc]; exact gen_seq_g hg hv⟩
      · obtain ⟨p₁, rfl, g₁⟩ := exec_sound sim_inRange _ _ _ _ _ _ _ hw.1 h₁
        obtain ⟨p₂, rfl, hg⟩ := ih _ _ _ _ _ hw.2 hl.1.1.2 h₂
        refine ⟨p₁ ++ p₂, by simp, fun _ => ?_⟩
        by_cases hb : b = .fail
        · subst hb
          have hp : p₂ = [] := exec_fail h₂
          subst hp
          exact ⟨v, _, by rw [List.append_nil]; exact gen_seq_g g₁ hv⟩
        · obtain ⟨u, ks, hg⟩ := hg hb
          exact ⟨u, _, by rw [List.append_assoc]; exact gen_seq_g g₁ hg⟩
    | tok x =>
      have : ts = rest := by
        cases ts with
        | nil => simpa [exec] using h
        | cons t ts =>
          simp only [exec] at h
          split at h
          · cases h
          · simpa using h
      exact ⟨[], this, fun _ => ⟨[⟨x, []⟩], _, .tok (by simp)⟩⟩
    | set x =>
      have : ts = rest := by
        cases ts with
        | nil => simpa [exec] using h
        | cons t ts =>
          simp only [exec] at h
          split at h
          · cases h
          · simpa using h
      exact ⟨[], this, fun _ => fruit_gen hl⟩
    | call st r k =>
      simp only [exec] at h
      split at h
      · cases h
      · rename_i ts' h'
        cases h
        obtain ⟨pre, rfl, hg⟩ := ih _ _ _ _ _ (goCode_wf r) (goCode_alive r) h'
        refine ⟨pre, rfl, fun _ => ?_⟩
        obtain ⟨u, ks, hg⟩ := hg (by cases r <;> simp [goCode])
        rw [goCode_g] at hg
        exact ⟨u, _, .call hg⟩
      · cases h
    | pred k =>
      simp only [exec] at h
      split at h
      · cases h
      · exact ⟨[], by simpa using h, fun _ => ⟨[], _, .pred⟩⟩
    | sync st =>
      simp only [exec] at h
      split at h
      · cases h
      · exact ⟨[], by simpa using h, fun _ => ⟨[], _, .eps⟩⟩
    | ifLA c a b =>
      simp only [Go.wf, Bool.and_eq_true] at hw
      simp only [Go.alive, Bool.and_eq_true] at hl
      simp only [exec] at h
      simp only [Go.g, ifG]
      split at h
      · obtain ⟨pre, rfl, hg⟩ := ih _ _ _ _ _ hw.1 hl.1.1.1 h
        refine ⟨pre, rfl, fun _ => ?_⟩
        have hg : ∃ u ks, Gen a.g (pre ++ u) ks := by
          by_cases ha : a = .fail
          · subst ha
            have hp : pre = [] := exec_fail h
            subst hp
            exact ⟨[], _, .eps⟩
          · exact hg ha
        obtain ⟨u, ks, hg⟩ := hg
        refine ⟨u, ks, ?_⟩
        split
        · exact hg
        · exact hg
        · exact .altL hg
      · obtain ⟨pre, rfl, hg⟩ := ih _ _ _ _ _ hw.2 hl.1.1.2 h
        refine ⟨pre, rfl, fun _ => ?_⟩
        by_cases hb : b = .fail
        · subst hb
          have hp : pre = [] := exec_fail h
          subst hp
          exact fruit_gen hl.1.2
        · obtain ⟨u, ks, hg⟩ := hg hb
          refine ⟨u, ks, ?_⟩
          split
          · exact absurd rfl hb
          · exact hg
          · exact .altR hg
    | whileLA c a =>
      have hw' := hw
      have hl' := hl
      simp only [Go.wf] at hw
      simp only [Go.alive, Bool.and_eq_true] at hl
      simp only [exec] at h
      split at h
      · rcases andThen_err h with h | ⟨k₁, t₁, h₁, h₂⟩
        · obtain ⟨pre, rfl, hg⟩ := ih _ _ _ _ _ hw hl.1 h
          refine ⟨pre, rfl, fun _ => ?_⟩
          by_cases ha : a = .fail
          · subst ha
            have hp : pre = [] := exec_fail h
            subst hp
            exact ⟨[], _, .starNil⟩
          · obtain ⟨u, ks, hg⟩ := hg ha
            exact ⟨u, _, by have := Gen.starCons (g := G.la1 c.toks) hg .starNil; rw [List.append_nil] at this; exact this⟩
        · obtain ⟨p₁, rfl, g₁⟩ := exec_sound sim_inRange _ _ _ _ _ _ _ hw h₁
          obtain ⟨p₂, rfl, hg⟩ := ih _ _ _ _ _ hw' hl' h₂
          obtain ⟨u, ks, hg⟩ := hg (by simp)
          exact ⟨p₁ ++ p₂, by simp, fun _ => ⟨u, _, by rw [List.append_assoc]; exact .starCons g₁ hg⟩⟩
      · cases h
    | whileAP d a =>
      have hw' := hw
      have hl' := hl
      simp only [Go.wf, Bool.and_eq_true, beq_iff_eq] at hw
      simp only [Go.alive, Bool.and_eq_true, Bool.or_eq_true] at hl
      simp only [exec] at h
      have hd : d ∈ asked := List.contains_iff_mem.1 hw.1.1
      split at h
      · rename_i hz
        rw [sim_eq hd] at hz
        rw [sim_dead hd] at h
        rcases byTwo_zero hd hz with hp | ⟨rfl, ht, hp⟩
        · rw [hp] at h
          exact ⟨[], by simpa using h, fun _ => ⟨[], _, .starNil⟩⟩
        · rw [hp] at h
          obtain ⟨x, xs, rfl, hx⟩ := la_cons ht (by decide)
          simp only [List.drop_succ_cons, List.drop_zero, Res.err.injEq] at h
          subst h
          refine ⟨[x], rfl, fun _ => ?_⟩
          have hs : startsTok .COMMA a = true := by simpa using hl.2
          obtain ⟨v, kv, hv⟩ := fruit_gen hl.1.2
          unfold startsTok at hs
          split at hs
          · rename_i y b _
            have hy : y = TT.COMMA := by simpa using hs
            subst hy
            have hb := hl.1.1
            simp only [Go.alive, Bool.and_eq_true] at hb
            obtain ⟨u, ks, hu⟩ := fruit_gen hb.2
            have hb' : Gen (Go.seq (.tok .COMMA) b).g ([x] ++ u) _ := gen_seq_g (a := .tok .COMMA) (Gen.tok (by simp [hx])) hu
            exact ⟨u, _, by have := Gen.starCons (g := guardOf 7 1) hb' .starNil; rw [List.append_nil] at this; exact this⟩
          · cases hs
      · rcases andThen_err h with h | ⟨k₁, t₁, h₁, h₂⟩
        · obtain ⟨pre, rfl, hg⟩ := ih _ _ _ _ _ hw.1.2 hl.1.1 h
          refine ⟨pre, rfl, fun _ => ?_⟩
          by_cases ha : a = .fail
          · subst ha
            have hp : pre = [] := exec_fail h
            subst hp
            exact ⟨[], _, .starNil⟩
          · obtain ⟨u, ks, hg⟩ := hg ha
            exact ⟨u, _, by have := Gen.starCons (g := guardOf d 1) hg .starNil; rw [List.append_nil] at this; exact this⟩
        · obtain ⟨p₁, rfl, g₁⟩ := exec_sound sim_inRange _ _ _ _ _ _ _ hw.1.2 h₁
          obtain ⟨p₂, rfl, hg⟩ := ih _ _ _ _ _ hw' hl' h₂
          obtain ⟨u, ks, hg⟩ := hg (by simp)
          exact ⟨p₁ ++ p₂, by simp, fun _ => ⟨u, _, by rw [List.append_assoc]; exact .starCons g₁ hg⟩⟩
      · cases h
      · exact ih _ _ _ _ _ hw' hl' h
    | switchAP d x =>
      simp only [Go.wf, Bool.and_eq_true] at hw
      simp only [Go.alive, Bool.and_eq_true] at hl
      simp only [exec] at h
      have hd : d ∈ asked := List.contains_iff_mem.1 hw.1
      split at h
      · rename_i hz
        rw [sim_eq hd] at hz
        rw [sim_dead hd] at h
        rcases byTwo_zero hd hz with hp | ⟨rfl, ht, hp⟩
        · rw [hp] at h
          exact ⟨[], by simpa using h, fun _ => fruit_gen hl.1.2⟩
        · exact absurd hl.2 (by simp)
      · rename_i i hi
        have := sim_inRange d hd p ctx ts
        obtain ⟨a, hlk, hm, hwa⟩ := wfArms_lookup _ _ _ hw.2 (i + 1) (by omega) (by omega)
        rw [hlk] at h
        obtain ⟨pre, rfl, hg⟩ := ih _ _ _ _ _ hwa (arms_alive hl.1.1 _ hm) h
        refine ⟨pre, rfl, fun _ => ?_⟩
        by_cases ha : a = .fail
        · subst ha
          have hp : pre = [] := exec_fail h
          subst hp
          exact fruit_gen hl.1.2
        · obtain ⟨u, ks, hg⟩ := hg ha
          exact ⟨u, ks, arms_gen (x := x) hm hg⟩
    | case d i a b => simp [Go.wf] at hw

end Verif
