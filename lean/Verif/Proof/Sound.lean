import Verif.Spec.Derivation
/-!
# The parser only accepts sentences
-/

namespace Verif

@[simp] theorem Tree.leavesL_append (a b : List Tree) :
    Tree.leavesL (a ++ b) = Tree.leavesL a ++ Tree.leavesL b := by
  induction a with
  | nil => simp [Tree.leavesL]
  | cons k ks ih => simp [Tree.leavesL, ih]

@[simp] theorem Tree.leavesL_map_leaf (ts : List Tok) :
    Tree.leavesL (ts.map .leaf) = ts := by
  induction ts with
  | nil => simp [Tree.leavesL]
  | cons k ks ih => simp [Tree.leavesL, Tree.leaves, ih]

@[simp] theorem mkNode_leaves (r : Rule) (ks : List Tree) :
    (mkNode r ks).leaves = Tree.leavesL ks := by
  unfold mkNode; split <;> simp [Tree.leaves]

@[simp] theorem leavesL_singleton (k : Tree) : Tree.leavesL [k] = k.leaves := by
  simp [Tree.leavesL]

theorem run_sound : ∀ (n p : Nat) (g : G) (ts : List Tok) (ks : List Tree) (rest : List Tok),
    run n p g ts = some (ks, rest) → ∃ pre, ts = pre ++ rest ∧ Gen g pre ks := by
  intro n
  induction n with
  | zero => intro p g ts ks rest h; simp [run] at h
  | succ n ih =>
    intro p g ts ks rest h
    cases g with
    | eps => simp [run] at h; obtain ⟨rfl, rfl⟩ := h; exact ⟨[], rfl, .eps⟩
    | tok s =>
      cases ts with
      | nil => simp [run] at h
      | cons t ts =>
        simp [run] at h
        obtain ⟨hs, rfl, rfl⟩ := h
        exact ⟨[t], rfl, .tok (by simpa using hs)⟩
    | call r k =>
      simp only [run] at h
      split at h
      · cases h
      · rename_i ks' ts' h'
        simp at h
        obtain ⟨rfl, rfl⟩ := h
        obtain ⟨pre, rfl, hg⟩ := ih _ _ _ _ _ h'
        exact ⟨pre, rfl, .call hg⟩
    | pred k =>
      simp [run] at h
      obtain ⟨_, rfl, rfl⟩ := h
      exact ⟨[], rfl, .pred⟩
    | seq a b =>
      simp only [run] at h
      split at h
      · cases h
      · rename_i k₁ ts₁ h₁
        split at h
        · cases h
        · rename_i k₂ ts₂ h₂
          simp at h
          obtain ⟨rfl, rfl⟩ := h
          obtain ⟨p₁, rfl, g₁⟩ := ih _ _ _ _ _ h₁
          obtain ⟨p₂, rfl, g₂⟩ := ih _ _ _ _ _ h₂
          exact ⟨p₁ ++ p₂, by simp, .seq g₁ g₂⟩
    | alt g a b =>
      simp only [run] at h
      split at h
      · obtain ⟨pre, rfl, hg⟩ := ih _ _ _ _ _ h
        exact ⟨pre, rfl, .altL hg⟩
      · obtain ⟨pre, rfl, hg⟩ := ih _ _ _ _ _ h
        exact ⟨pre, rfl, .altR hg⟩
    | star g a =>
      simp only [run] at h
      split at h
      · split at h
        · cases h
        · rename_i k₁ ts₁ h₁
          split at h
          · cases h
          · rename_i k₂ ts₂ h₂
            simp at h
            obtain ⟨rfl, rfl⟩ := h
            obtain ⟨p₁, rfl, g₁⟩ := ih _ _ _ _ _ h₁
            obtain ⟨p₂, rfl, g₂⟩ := ih _ _ _ _ _ h₂
            exact ⟨p₁ ++ p₂, by simp, .starCons g₁ g₂⟩
      · simp at h
        obtain ⟨rfl, rfl⟩ := h
        exact ⟨[], rfl, .starNil⟩

/-- More steps do not change a result. -/
theorem run_mono : ∀ (n p : Nat) (g : G) (ts : List Tok) (r : List Tree × List Tok),
    run n p g ts = some r → ∀ m, n ≤ m → run m p g ts = some r := by
  intro n
  induction n with
  | zero => intro p g ts r h; simp [run] at h
  | succ n ih =>
    intro p g ts r h m hm
    obtain ⟨m, rfl⟩ : ∃ m', m = m' + 1 := ⟨m - 1, by omega⟩
    have hm : n ≤ m := by omega
    cases g with
    | eps => simpa [run] using h
    | tok s => simpa [run] using h
    | call r k =>
      simp only [run] at h ⊢
      split at h
      · cases h
      · rename_i h'; rw [ih _ _ _ _ h' m hm]; exact h
    | pred k => simpa [run] using h
    | seq a b =>
      simp only [run] at h ⊢
      split at h
      · cases h
      · rename_i h₁
        split at h
        · cases h
        · rename_i h₂
          rw [ih _ _ _ _ h₁ m hm]; simp only; rw [ih _ _ _ _ h₂ m hm]; exact h
    | alt g a b =>
      simp only [run] at h ⊢
      split at h
      · rename_i hg; rw [if_pos hg]; exact ih _ _ _ _ h m hm
      · rename_i hg; rw [if_neg hg]; exact ih _ _ _ _ h m hm
    | star g a =>
      simp only [run] at h ⊢
      split at h
      · rename_i hg; rw [if_pos hg]
        split at h
        · cases h
        · rename_i h₁
          split at h
          · cases h
          · rename_i h₂
            rw [ih _ _ _ _ h₁ m hm]; simp only; rw [ih _ _ _ _ h₂ m hm]; exact h
      · rename_i hg; rw [if_neg hg]; exact h

theorem run_seq_ok {n p a b ts k₁ t₁ k₂ t₂} (h₁ : run n p a ts = some (k₁, t₁))
    (h₂ : run n p b t₁ = some (k₂, t₂)) :
    run (n + 1) p (.seq a b) ts = some (k₁ ++ k₂, t₂) := by
  simp only [run, h₁, h₂]

theorem run_seq_inv {n p a b ts ks r} (h : run (n + 1) p (.seq a b) ts = some (ks, r)) :
    ∃ k₁ t₁ k₂, run n p a ts = some (k₁, t₁) ∧ run n p b t₁ = some (k₂, r) ∧ ks = k₁ ++ k₂ := by
  simp only [run] at h
  split at h
  · cases h
  · rename_i k₁ ts₁ h₁
    split at h
    · cases h
    · rename_i k₂ ts₂ h₂
      simp at h
      obtain ⟨rfl, rfl⟩ := h
      exact ⟨_, _, _, h₁, h₂, rfl⟩

theorem run_star_ok {n p g a ts k₁ t₁ k₂ t₂} (hg : Guard.ok p g ts = true)
    (h₁ : run n p a ts = some (k₁, t₁)) (h₂ : run n p (.star g a) t₁ = some (k₂, t₂)) :
    run (n + 1) p (.star g a) ts = some (k₁ ++ k₂, t₂) := by
  simp only [run, hg, if_true, h₁, h₂]

theorem run_star_stop {n p g a ts} (hg : Guard.ok p g ts = false) :
    run (n + 1) p (.star g a) ts = some ([], ts) := by
  simp [run, hg]

theorem run_call_ok {n p r k ts ks t} (h : run n k (grammar r) ts = some (ks, t)) :
    run (n + 1) p (.call r k) ts = some ([mkNode r ks], t) := by
  simp only [run, h]

theorem run_alt_left {n p g a b ts} (hg : Guard.ok p g ts = true) :
    run (n + 1) p (.alt g a b) ts = run n p a ts := by
  simp [run, hg]

theorem run_alt_right {n p g a b ts} (hg : Guard.ok p g ts = false) :
    run (n + 1) p (.alt g a b) ts = run n p b ts := by
  simp [run, hg]

/-- The tree of a derivation has the derived tokens as its leaves. -/
theorem Gen.leaves {g : G} {ts : List Tok} {ks : List Tree} (h : Gen g ts ks) :
    Tree.leavesL ks = ts := by
  induction h with
  | eps => rfl
  | tok _ => simp [Tree.leaves]
  | call _ ih => simpa using ih
  | pred => rfl
  | seq _ _ ih₁ ih₂ => simp [ih₁, ih₂]
  | altL _ ih => exact ih
  | altR _ ih => exact ih
  | starNil => rfl
  | starCons _ _ ih₁ ih₂ => simp [ih₁, ih₂]

/-! Inversion lemmas. -/

@[simp] theorem gen_eps {ts ks} : Gen .eps ts ks ↔ ts = [] ∧ ks = [] := by
  constructor
  · intro h; cases h; simp
  · rintro ⟨rfl, rfl⟩; exact .eps

@[simp] theorem gen_tok {s ts ks} :
    Gen (.tok s) ts ks ↔ ∃ t, t.ty ∈ s ∧ ts = [t] ∧ ks = [.leaf t] := by
  constructor
  · intro h; cases h with
    | tok h => exact ⟨_, h, rfl, rfl⟩
  · rintro ⟨t, h, rfl, rfl⟩; exact .tok h

theorem gen_call {r k ts ks} :
    Gen (.call r k) ts ks ↔ ∃ ks', Gen (grammar r) ts ks' ∧ ks = [mkNode r ks'] := by
  constructor
  · intro h; cases h with
    | call h => exact ⟨_, h, rfl⟩
  · rintro ⟨ks', h, rfl⟩; exact .call h

@[simp] theorem gen_pred {k ts ks} : Gen (.pred k) ts ks ↔ ts = [] ∧ ks = [] := by
  constructor
  · intro h; cases h; simp
  · rintro ⟨rfl, rfl⟩; exact .pred

theorem gen_seq {a b ts ks} :
    Gen (.seq a b) ts ks ↔ ∃ t₁ k₁ t₂ k₂, Gen a t₁ k₁ ∧ Gen b t₂ k₂ ∧
      ts = t₁ ++ t₂ ∧ ks = k₁ ++ k₂ := by
  constructor
  · intro h; cases h with
    | seq h₁ h₂ => exact ⟨_, _, _, _, h₁, h₂, rfl, rfl⟩
  · rintro ⟨_, _, _, _, h₁, h₂, rfl, rfl⟩; exact .seq h₁ h₂

theorem gen_alt {g a b ts ks} : Gen (.alt g a b) ts ks ↔ Gen a ts ks ∨ Gen b ts ks := by
  constructor
  · intro h; cases h with
    | altL h => exact .inl h
    | altR h => exact .inr h
  · rintro (h | h)
    · exact .altL h
    · exact .altR h

theorem gen_star {g a ts ks} :
    Gen (.star g a) ts ks ↔ (ts = [] ∧ ks = []) ∨ ∃ t₁ k₁ t₂ k₂, Gen a t₁ k₁ ∧
      Gen (.star g a) t₂ k₂ ∧ ts = t₁ ++ t₂ ∧ ks = k₁ ++ k₂ := by
  constructor
  · intro h; cases h with
    | starNil => exact .inl ⟨rfl, rfl⟩
    | starCons h₁ h₂ => exact .inr ⟨_, _, _, _, h₁, h₂, rfl, rfl⟩
  · rintro (⟨rfl, rfl⟩ | ⟨_, _, _, _, h₁, h₂, rfl, rfl⟩)
    · exact .starNil
    · exact .starCons h₁ h₂

end Verif
