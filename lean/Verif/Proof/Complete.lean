import Verif.Proof.Expr
/-!
# The parser accepts every sentence

A static analysis with two tokens of lookahead (`good`) is proved to imply
that the decisions of the generated parser never go wrong on a sentence, and
is then evaluated on the grammar.
-/

namespace Verif

/-- Lookahead words: prefixes, of length at most 2, of the remaining token
types. -/
abbrev Words := List (List TT)

/-- The remaining tokens start with one of the words. -/
def Sat (W : Words) (ts : List Tok) : Prop := ∃ w ∈ W, w <+: ts.map (·.ty)

/-- Every word of `X` extends a word of `Y`. -/
def cover (X Y : Words) : Bool := X.all fun w => Y.any fun v => v.isPrefixOf w

theorem Sat.mono {X Y : Words} {ts} (h : Sat X ts) (hc : cover X Y = true) : Sat Y ts := by
  obtain ⟨w, hw, hp⟩ := h
  simp only [cover, List.all_eq_true, List.any_eq_true, List.isPrefixOf_iff_prefix] at hc
  obtain ⟨v, hv, hvw⟩ := hc w hw
  exact ⟨v, hv, hvw.trans hp⟩

theorem Sat.left {X Y : Words} {ts} (h : Sat X ts) : Sat (X ++ Y) ts := by
  obtain ⟨w, hw, hp⟩ := h; exact ⟨w, by simp [hw], hp⟩

theorem Sat.right {X Y : Words} {ts} (h : Sat Y ts) : Sat (X ++ Y) ts := by
  obtain ⟨w, hw, hp⟩ := h; exact ⟨w, by simp [hw], hp⟩

theorem Sat.any {ts} : Sat [[]] ts := ⟨[], by simp, by simp⟩

/-- The words that can start what `g` derives when followed by `F`.  The first
argument bounds the depth; `[[]]` says nothing. -/
def first2 : Nat → G → Words → Words
  | 0, _, _ => [[]]
  | _ + 1, .eps, F => F
  | _ + 1, .tok s, F => s.flatMap fun t => ((F.map (List.take 1)).eraseDups).map (t :: ·)
  | n + 1, .call r _, F =>
      if r = .fn_arg_expr then exprFirst.map ([·]) else first2 n (grammar r) F
  | _ + 1, .pred _, F => F
  | n + 1, .seq a b, F => first2 n a (first2 n b F)
  | n + 1, .alt _ a b, F => first2 n a F ++ first2 n b F
  | n + 1, .star _ a, F =>
      let X := F ++ first2 n a (F ++ first2 n a F)
      if cover (first2 n a X) X then X else [[]]

theorem first2_sound : ∀ (n : Nat) (g : G) (F : Words) (ts rest : List Tok) (ks : List Tree),
    Gen g ts ks → Sat F rest → Sat (first2 n g F) (ts ++ rest) := by
  intro n
  induction n with
  | zero => intro g F ts rest ks _ _; exact Sat.any
  | succ n ih =>
    intro g F ts rest ks h hs
    cases g with
    | eps => simp at h; obtain ⟨rfl, rfl⟩ := h; simpa [first2] using hs
    | tok s =>
      simp at h
      obtain ⟨t, ht, rfl, rfl⟩ := h
      obtain ⟨w, hw, hp⟩ := hs
      refine ⟨t.ty :: w.take 1, ?_, ?_⟩
      · simp only [first2, List.mem_flatMap, List.mem_map, List.mem_eraseDups]
        exact ⟨t.ty, ht, w.take 1, ⟨w, hw, rfl⟩, rfl⟩
      · simp only [List.singleton_append, List.map_cons, List.cons_prefix_cons, true_and]
        exact (List.take_prefix 1 w).trans hp
    | call r k =>
      simp only [first2]
      split
      · rename_i hr
        subst hr
        obtain ⟨t, r, rfl, ht⟩ := gen_expr_first h
        exact ⟨[t.ty], by simpa using ht, by simp⟩
      · rw [gen_call] at h
        obtain ⟨ks', h, rfl⟩ := h
        exact ih _ _ _ _ _ h hs
    | pred k => simp at h; obtain ⟨rfl, rfl⟩ := h; simpa [first2] using hs
    | seq a b =>
      rw [gen_seq] at h
      obtain ⟨t₁, k₁, t₂, k₂, h₁, h₂, rfl, rfl⟩ := h
      rw [List.append_assoc]
      exact ih _ _ _ _ _ h₁ (ih _ _ _ _ _ h₂ hs)
    | alt g a b =>
      rw [gen_alt] at h
      rcases h with h | h
      · exact (ih _ _ _ _ _ h hs).left
      · exact (ih _ _ _ _ _ h hs).right
    | star g a =>
      simp only [first2]
      split
      · rename_i hc
        generalize hX : F ++ first2 n a (F ++ first2 n a F) = X at hc
        have hFX : Sat F rest → Sat X rest := by
          intro h; rw [← hX]; exact h.left
        generalize hg : G.star g a = gg at h
        induction h with
        | starNil => simpa using hFX hs
        | starCons h₁ _ _ ih₂ =>
          cases hg
          rw [List.append_assoc]
          exact (ih _ _ _ _ _ h₁ (ih₂ rfl)).mono hc
        | _ => cases hg
      · exact Sat.any

/-- A test that surely succeeds on inputs starting with the word. -/
def laMust : List (List TT) → List TT → Bool
  | [], _ => true
  | _ :: _, [] => false
  | s :: ss, t :: w => s.contains t && laMust ss w

/-- A test that surely fails on inputs starting with the word. -/
def laNot : List (List TT) → List TT → Bool
  | [], _ => false
  | _ :: _, [] => false
  | s :: ss, t :: w => !s.contains t || laNot ss w

/-- The decision is surely taken. -/
def must (g : Guard) (W : Words) : Bool :=
  W.all fun w => g.any fun l => l.prec.isNone && laMust l.la w

/-- The decision is surely not taken. -/
def mustNot (g : Guard) (W : Words) : Bool :=
  W.all fun w => g.all fun l => laNot l.la w

theorem laMust_ok : ∀ (ss : List (List TT)) (w : List TT) (ts : List Tok),
    laMust ss w = true → w <+: ts.map (·.ty) → laOk ss ts = true := by
  intro ss
  induction ss with
  | nil => intro w ts _ _; simp [laOk]
  | cons s ss ih =>
    intro w ts h hp
    cases w with
    | nil => simp [laMust] at h
    | cons t w =>
      cases ts with
      | nil => simp at hp
      | cons x xs =>
        simp only [List.map_cons, List.cons_prefix_cons] at hp
        simp only [laMust, Bool.and_eq_true] at h
        obtain ⟨rfl, hp⟩ := hp
        simp only [laOk, Bool.and_eq_true]
        exact ⟨h.1, ih _ _ h.2 hp⟩

theorem laNot_ok : ∀ (ss : List (List TT)) (w : List TT) (ts : List Tok),
    laNot ss w = true → w <+: ts.map (·.ty) → laOk ss ts = false := by
  intro ss
  induction ss with
  | nil => intro w ts h _; simp [laNot] at h
  | cons s ss ih =>
    intro w ts h hp
    cases w with
    | nil => simp [laNot] at h
    | cons t w =>
      cases ts with
      | nil => simp at hp
      | cons x xs =>
        simp only [List.map_cons, List.cons_prefix_cons] at hp
        obtain ⟨rfl, hp⟩ := hp
        simp only [laNot, Bool.or_eq_true, Bool.not_eq_true'] at h
        simp only [laOk, Bool.and_eq_false_iff]
        rcases h with h | h
        · exact .inl h
        · exact .inr (ih _ _ h hp)

theorem must_ok {g : Guard} {W : Words} {ts : List Tok} (p : Nat) (h : must g W = true)
    (hs : Sat W ts) : Guard.ok p g ts = true := by
  obtain ⟨w, hw, hp⟩ := hs
  simp only [must, List.all_eq_true, List.any_eq_true, Bool.and_eq_true,
    Option.isNone_iff_eq_none] at h
  obtain ⟨l, hl, hn, hm⟩ := h w hw
  simp only [Guard.ok, List.any_eq_true]
  exact ⟨l, hl, by simp [Look.ok, hn, laMust_ok _ _ _ hm hp]⟩

theorem mustNot_ok {g : Guard} {W : Words} {ts : List Tok} (p : Nat) (h : mustNot g W = true)
    (hs : Sat W ts) : Guard.ok p g ts = false := by
  obtain ⟨w, hw, hp⟩ := hs
  simp only [mustNot, List.all_eq_true] at h
  simp only [Guard.ok, List.any_eq_false]
  intro l hl
  simp [Look.ok, laNot_ok _ _ _ (h w hw l hl) hp]

/-- `g` derives no empty sequence. -/
def nonNull : Nat → G → Bool
  | 0, _ => false
  | _ + 1, .eps => false
  | _ + 1, .tok _ => true
  | n + 1, .call r _ => r == .fn_arg_expr || nonNull n (grammar r)
  | _ + 1, .pred _ => false
  | n + 1, .seq a b => nonNull n a || nonNull n b
  | n + 1, .alt _ a b => nonNull n a && nonNull n b
  | _ + 1, .star _ _ => false

theorem nonNull_ok : ∀ (n : Nat) (g : G) (ts : List Tok) (ks : List Tree),
    nonNull n g = true → Gen g ts ks → 0 < ts.length := by
  intro n
  induction n with
  | zero => intro g ts ks h; simp [nonNull] at h
  | succ n ih =>
    intro g ts ks h hg
    cases g with
    | eps => simp [nonNull] at h
    | tok s => simp at hg; obtain ⟨t, _, rfl, _⟩ := hg; simp
    | call r k =>
      simp only [nonNull, Bool.or_eq_true, beq_iff_eq] at h
      rcases h with rfl | h
      · obtain ⟨t, r, rfl, _⟩ := gen_expr_first hg; simp
      · rw [gen_call] at hg
        obtain ⟨ks', hg, _⟩ := hg
        exact ih _ _ _ h hg
    | pred k => simp [nonNull] at h
    | seq a b =>
      rw [gen_seq] at hg
      obtain ⟨t₁, k₁, t₂, k₂, h₁, h₂, rfl, rfl⟩ := hg
      simp only [nonNull, Bool.or_eq_true] at h
      rcases h with h | h
      · have := ih _ _ _ h h₁; simp; omega
      · have := ih _ _ _ h h₂; simp; omega
    | alt g a b =>
      rw [gen_alt] at hg
      simp only [nonNull, Bool.and_eq_true] at h
      rcases hg with hg | hg
      · exact ih _ _ _ h.1 hg
      · exact ih _ _ _ h.2 hg
    | star g a => simp [nonNull] at h

/-- The decisions in `g` are right when `g` is followed by `F`. -/
def good : Nat → G → Words → Bool
  | 0, _, _ => false
  | _ + 1, .eps, _ => true
  | _ + 1, .tok _, _ => true
  | n + 1, .call r k, F =>
      k == 0 && if r = .fn_arg_expr then
        decide (eC ≤ n) && F.all fun w => match w with
          | [] => false
          | t :: _ => (opPrec t).isNone
      else good n (grammar r) F
  | _ + 1, .pred _, _ => false
  | n + 1, .seq a b, F => good n a (first2 n b F) && good n b F
  | n + 1, .alt g a b, F =>
      must g (first2 n a F) && mustNot g (first2 n b F) && good n a F && good n b F
  | n + 1, .star g a, F =>
      let X := first2 (n + 1) (.star g a) F
      must g (first2 n a X) && mustNot g F && good n a X && nonNull n a

theorem good_complete : ∀ (n : Nat) (g : G) (F : Words) (ts rest : List Tok) (ks : List Tree),
    good n g F = true → Gen g ts ks → Sat F rest →
    ∀ m, n * (ts.length + 1) ≤ m → run m 0 g (ts ++ rest) = some (ks, rest) := by
  intro n
  induction n with
  | zero => intro g F ts rest ks h; simp [good] at h
  | succ n ih =>
    intro g F ts rest ks h hg hs m hm
    obtain ⟨m, rfl⟩ : ∃ m', m = m' + 1 := ⟨m - 1, by
      have : (n + 1) * (ts.length + 1) = n * (ts.length + 1) + (ts.length + 1) := Nat.succ_mul _ _
      omega⟩
    have hm' : n * (ts.length + 1) ≤ m := by
      have : (n + 1) * (ts.length + 1) = n * (ts.length + 1) + (ts.length + 1) := Nat.succ_mul _ _
      omega
    have mulle : ∀ {a b : Nat}, a ≤ b → n * (a + 1) ≤ n * (b + 1) :=
      fun h => Nat.mul_le_mul_left _ (by omega)
    cases g with
    | eps => simp at hg; obtain ⟨rfl, rfl⟩ := hg; simp [run]
    | tok s =>
      simp at hg; obtain ⟨t, ht, rfl, rfl⟩ := hg
      simp [run, ht]
    | call r k =>
      simp only [good, Bool.and_eq_true, beq_iff_eq] at h
      obtain ⟨rfl, h⟩ := h
      split at h
      · rename_i hr
        subst hr
        simp only [Bool.and_eq_true, decide_eq_true_eq, List.all_eq_true] at h
        obtain ⟨hn, h⟩ := h
        have hno : NoOp rest := by
          obtain ⟨w, hw, hp⟩ := hs
          have := h w hw
          cases w with
          | nil => simp at this
          | cons t w =>
            cases rest with
            | nil => simp at hp
            | cons x xs =>
              simp only [List.map_cons, List.cons_prefix_cons] at hp
              obtain ⟨rfl, _⟩ := hp
              exact ⟨x, xs, rfl, by simpa using this⟩
        refine run_mono _ _ _ _ _ (expr_complete hg rest hno) _ ?_
        have : eC * ts.length ≤ n * (ts.length + 1) := Nat.mul_le_mul hn (by omega)
        omega
      · rw [gen_call] at hg
        obtain ⟨ks', hg, rfl⟩ := hg
        exact run_call_ok (ih _ _ _ _ _ h hg hs m hm')
    | pred k => simp [good] at h
    | seq a b =>
      rw [gen_seq] at hg
      obtain ⟨t₁, k₁, t₂, k₂, h₁, h₂, rfl, rfl⟩ := hg
      simp only [good, Bool.and_eq_true] at h
      simp only [List.length_append] at hm'
      rw [List.append_assoc]
      refine run_seq_ok (ih _ _ _ _ _ h.1 h₁ (first2_sound _ _ _ _ _ _ h₂ hs) m ?_)
        (ih _ _ _ _ _ h.2 h₂ hs m ?_)
      · exact Nat.le_trans (mulle (by omega)) hm'
      · exact Nat.le_trans (mulle (by omega)) hm'
    | alt g a b =>
      rw [gen_alt] at hg
      simp only [good, Bool.and_eq_true] at h
      obtain ⟨⟨⟨hmust, hnot⟩, ha⟩, hb⟩ := h
      rcases hg with hg | hg
      · rw [run_alt_left (must_ok 0 hmust (first2_sound _ _ _ _ _ _ hg hs))]
        exact ih _ _ _ _ _ ha hg hs m hm'
      · rw [run_alt_right (mustNot_ok 0 hnot (first2_sound _ _ _ _ _ _ hg hs))]
        exact ih _ _ _ _ _ hb hg hs m hm'
    | star g a =>
      simp only [good, Bool.and_eq_true] at h
      obtain ⟨⟨⟨hmust, hnot⟩, ha⟩, hnn⟩ := h
      clear hm'
      generalize hgg : G.star g a = gg at hg
      induction hg generalizing m with
      | starNil => cases hgg; exact run_star_stop (mustNot_ok 0 hnot hs)
      | @starCons _ _ t₁ t₂ k₁ k₂ h₁ h₂ _ ih₂ =>
        cases hgg
        have hpos := nonNull_ok _ _ _ _ hnn h₁
        have hX := first2_sound (n + 1) _ F _ _ _ h₂ hs
        rw [List.append_assoc]
        simp only [List.length_append] at hm
        have e1 : (n + 1) * (t₁.length + t₂.length + 1) =
            n * (t₁.length + t₂.length + 1) + (t₁.length + t₂.length + 1) := Nat.succ_mul _ _
        obtain ⟨m, rfl⟩ : ∃ m', m = m' + 1 := ⟨m - 1, by
          rcases Nat.eq_zero_or_pos m with h0 | h0
          · omega
          · omega⟩
        refine run_star_ok (must_ok 0 hmust (first2_sound _ _ _ _ _ _ h₁ hX))
          (ih _ _ _ _ _ ha h₁ hX (m + 1) ?_) (ih₂ m ?_ rfl)
        · have := @mulle t₁.length (t₁.length + t₂.length) (by omega); omega
        · have : (n + 1) * (t₂.length + 1) ≤ (n + 1) * (t₁.length + t₂.length) :=
            Nat.mul_le_mul_left _ (by omega)
          have e2 : (n + 1) * (t₁.length + t₂.length) = n * (t₁.length + t₂.length) +
            (t₁.length + t₂.length) := Nat.succ_mul _ _
          have e3 : n * (t₁.length + t₂.length) ≤ n * (t₁.length + t₂.length + 1) :=
            Nat.mul_le_mul_left _ (by omega)
          omega
      | _ => cases hgg

/-- The analysis succeeds on the whole grammar. -/
theorem good_grammar : good 100 (.call .source_unit 0) [[]] = true := by decide +kernel

/-- Completeness for `source_unit`. -/
theorem source_complete {ts : List Tok} {ks : List Tree}
    (h : Gen (.call .source_unit 0) ts ks) :
    run (fuelFor ts.length) 0 (.call .source_unit 0) ts = some (ks, []) := by
  have := good_complete 100 _ _ ts [] ks good_grammar h Sat.any (fuelFor ts.length)
    (by simp [fuelFor]; omega)
  simpa using this

/-- `parseTokens` computes exactly the derivations of `source_unit`. -/
theorem parseTokens_iff (ts : List Tok) (tree : Tree) :
    parseTokens ts = some tree ↔ Gen (.call .source_unit 0) (ts ++ [Tok.eof]) [tree] := by
  constructor
  · intro h
    unfold parseTokens at h
    split at h
    · rename_i t heq
      simp at h
      subst h
      obtain ⟨pre, hp, hg⟩ := run_sound _ _ _ _ _ _ heq
      simp at hp
      rw [hp]
      exact hg
    · cases h
  · intro h
    have := source_complete h
    simp only [List.length_append, List.length_singleton] at this
    simp [parseTokens, this]

/-- Derivations of `source_unit` are unique. -/
theorem source_unique {ts : List Tok} {k₁ k₂ : List Tree}
    (h₁ : Gen (.call .source_unit 0) ts k₁) (h₂ : Gen (.call .source_unit 0) ts k₂) :
    k₁ = k₂ := by
  have e₁ := source_complete h₁
  have e₂ := source_complete h₂
  rw [e₁] at e₂
  simpa using e₂

end Verif
