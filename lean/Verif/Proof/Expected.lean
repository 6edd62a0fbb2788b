import Verif.Model.Expected
import Verif.Proof.GoLocal
import Verif.Proof.GoCheck
import Verif.Proof.Position
/-!
# The expected tokens can follow
-/

namespace Verif

theorem GenL.append : ∀ {L M t₁ t₂}, GenL L t₁ → GenL M t₂ → GenL (L ++ M) (t₁ ++ t₂) := by
  intro L M t₁ t₂ h₁ h₂
  induction h₁ with
  | nil => exact h₂
  | cons hg _ ih => rw [List.append_assoc]; exact .cons hg ih

theorem GenL.single {g ts ks} (h : Gen g ts ks) : GenL [g] ts := by
  have := GenL.cons h .nil
  rwa [List.append_nil] at this

theorem genL_flat : ∀ {g : G} {ts ks}, Gen g ts ks → GenL g.flat ts := by
  intro g
  induction g with
  | eps => intro ts ks h; cases h; exact .nil
  | seq a b iha ihb =>
    intro ts ks h
    cases h with
    | seq h₁ h₂ => exact (iha h₁).append (ihb h₂)
  | _ => intro ts ks h; exact .single h

theorem gen_bare : ∀ {g : G} {ts ks}, Gen g ts ks → Gen g.bare ts ks := by
  intro g
  induction g with
  | eps => intro ts ks h; exact h
  | tok s =>
    intro ts ks h
    simp only [G.bare, gen_tok, mem_sorted]
    exact gen_tok.1 h
  | call r k => intro ts ks h; exact h
  | pred k => intro ts ks h; exact h
  | seq a b iha ihb =>
    intro ts ks h
    cases h with
    | seq h₁ h₂ => exact .seq (iha h₁) (ihb h₂)
  | alt g a b iha ihb =>
    intro ts ks h
    cases h with
    | altL h => exact .altL (iha h)
    | altR h => exact .altR (ihb h)
  | star g a iha =>
    intro ts ks h
    generalize hx : G.star g a = x at h
    induction h with
    | starNil => exact .starNil
    | starCons h₁ _ _ ih₂ => cases hx; exact .starCons (iha h₁) (ih₂ rfl)
    | _ => cases hx

theorem genL_gen {g : G} {ts} (h : GenL g.bare.flat ts) : ∃ ks, Gen g ts ks := by
  obtain ⟨ks, h⟩ := h.ofFlat
  exact ⟨ks, gen_of_bare h⟩

/-! ## What follows a state can be completed -/

/-- Every symbol of the list derives something. -/
def Fruitful (L : List G) : Prop := ∀ g ∈ L, ∃ ts ks, Gen g ts ks

theorem Fruitful.genL {L : List G} (h : Fruitful L) : ∃ v, GenL L v := by
  induction L with
  | nil => exact ⟨_, .nil⟩
  | cons g L ih =>
    obtain ⟨t, ks, hg⟩ := h g (by simp)
    obtain ⟨v, hv⟩ := ih fun x hx => h x (List.mem_cons_of_mem _ hx)
    exact ⟨_, .cons hg hv⟩

theorem Fruitful.flat {g : G} (h : ∃ ts ks, Gen g ts ks) : Fruitful g.flat := by
  induction g with
  | eps => intro x hx; simp [G.flat] at hx
  | seq a b iha ihb =>
    obtain ⟨ts, ks, h⟩ := h
    cases h with
    | seq h₁ h₂ =>
      intro x hx
      rcases List.mem_append.1 hx with hx | hx
      · exact iha ⟨_, _, h₁⟩ x hx
      · exact ihb ⟨_, _, h₂⟩ x hx
  | _ => intro x hx; simp only [G.flat, List.mem_singleton] at hx; subst hx; exact h

theorem Fruitful.ofList {L : List G} (h : Fruitful L) : ∃ ts ks, Gen (G.ofList L) ts ks := by
  induction L with
  | nil => exact ⟨_, _, .eps⟩
  | cons g L ih =>
    obtain ⟨t, ks, hg⟩ := h g (by simp)
    cases L with
    | nil => exact ⟨t, ks, hg⟩
    | cons x L =>
      obtain ⟨v, kv, hv⟩ := ih fun x hx => h x (List.mem_cons_of_mem _ hx)
      exact ⟨_, _, .seq hg hv⟩

theorem Fruitful.ofAlts {L : List G} (h : Fruitful L) : ∃ ts ks, Gen (G.ofAlts L) ts ks := by
  cases L with
  | nil => exact ⟨_, _, .eps⟩
  | cons g L =>
    obtain ⟨t, ks, hg⟩ := h g (by simp)
    cases L with
    | nil => exact ⟨t, ks, hg⟩
    | cons x L => exact ⟨t, ks, .altL hg⟩

theorem rule_fruit (r : Rule) : ∃ ts ks, Gen (grammar r) ts ks := by
  have := goCode_alive_all
  rw [List.all_eq_true] at this
  have := this r (by cases r <;> decide)
  simp only [Bool.and_eq_true] at this
  exact fruit_gen this.2

/-- Every transition that needs a token has one. -/
theorem edges_eat : parserAtn.edges.all (fun e => e.silent || e.ty == 3 || e.ty == 10 ||
    !(TT.all.filter (parserAtn.eats e)).isEmpty) = true := by decide +kernel

theorem symbol_fruit {s : Nat} {e : Atn.Edge} (he : e ∈ parserAtn.out s) :
    Fruitful (parserAtn.symbol e) := by
  have h := List.all_eq_true.1 edges_eat e (List.mem_filter.1 he).1
  unfold Atn.T.symbol
  split
  · intro x hx; simp at hx
  · rename_i hs
    split
    · intro x hx
      simp only [List.mem_singleton] at hx
      subst hx
      obtain ⟨ts, ks, h⟩ := rule_fruit (Rule.all.getD e.a2 .source_unit)
      exact ⟨_, _, .call h⟩
    · rename_i h3
      split
      · intro x hx
        simp only [List.mem_singleton] at hx
        subst hx
        exact ⟨_, _, .pred⟩
      · rename_i h10
        intro x hx
        simp only [List.mem_singleton] at hx
        subst hx
        simp only [hs, h3, h10, Bool.false_or, Bool.or_false, Bool.not_eq_true'] at h
        cases hl : TT.all.filter (parserAtn.eats e) with
        | nil => rw [hl] at h; simp at h
        | cons t l => exact ⟨[⟨t, []⟩], _, .tok (by simp)⟩

theorem Fruitful.append {L M : List G} (h : Fruitful L) (h' : Fruitful M) : Fruitful (L ++ M) := by
  intro x hx
  rcases List.mem_append.1 hx with hx | hx
  · exact h x hx
  · exact h' x hx

theorem mapM_all {α β : Type} {f : α → Option β} {P : β → Prop} (hf : ∀ x y, f x = some y → P y) :
    ∀ {l : List α} {r : List β}, l.mapM f = some r → ∀ y ∈ r, P y := by
  intro l
  induction l with
  | nil => intro r h; simp at h; subst h; simp
  | cons x l ih =>
    intro r h
    simp only [List.mapM_cons, Option.pure_def, Option.bind_eq_bind, Option.bind_eq_some_iff,
      Option.some.injEq] at h
    obtain ⟨y, hy, r', hr, rfl⟩ := h
    intro z hz
    rcases List.mem_cons.1 hz with rfl | hz
    · exact hf _ _ hy
    · exact ih hr z hz

theorem rest_fruit : ∀ (n stop s : Nat) (L : List G), parserAtn.rest n stop s = some L →
    Fruitful L := by
  intro n
  induction n with
  | zero => intro stop s L h; simp [Atn.T.rest] at h
  | succ n ih =>
    intro stop s L h
    have hblock : ∀ b g, (do
        let l ← (parserAtn.out b).mapM fun e => parserAtn.rest n (parserAtn.st b).arg e.trg
        return G.ofAlts (l.map G.ofList) : Option G) = some g → ∃ ts ks, Gen g ts ks := by
      intro b g hg
      simp only [Option.pure_def, Option.bind_eq_bind, Option.bind_eq_some_iff,
        Option.some.injEq] at hg
      obtain ⟨l, hl, rfl⟩ := hg
      have := mapM_all (P := Fruitful) (fun e L h => ih _ _ _ h) hl
      refine Fruitful.ofAlts ?_
      intro x hx
      obtain ⟨y, hy, rfl⟩ := List.mem_map.1 hx
      exact (this y hy).ofList
    simp only [Atn.T.rest] at h
    split at h
    · cases h; intro x hx; simp at hx
    · split at h
      · cases h; intro x hx; simp at hx
      · split at h
        · rw [Option.bind_eq_bind, Option.bind_eq_some_iff] at h
          obtain ⟨g, hg, h⟩ := h
          simp only [Option.pure_def, Option.bind_eq_bind, Option.bind_eq_some_iff,
            Option.some.injEq] at h
          obtain ⟨r, hr, rfl⟩ := h
          exact (Fruitful.flat (hblock _ _ hg)).append (ih _ _ _ hr)
        · split at h
          · rename_i e he
            simp only [Option.pure_def, Option.bind_eq_bind, Option.bind_eq_some_iff,
              Option.some.injEq] at h
            obtain ⟨r, hr, rfl⟩ := h
            exact (symbol_fruit (s := s) (by rw [he]; simp)).append (ih _ _ _ hr)
          · rw [Option.bind_eq_bind, Option.bind_eq_some_iff] at h
            obtain ⟨g, hg, h⟩ := h
            simp only [Option.pure_def, Option.bind_eq_bind, Option.bind_eq_some_iff,
              Option.some.injEq] at h
            obtain ⟨r, hr, rfl⟩ := h
            intro x hx
            rcases List.mem_cons.1 hx with rfl | hx
            · exact ⟨_, _, .starNil⟩
            · exact ih _ _ _ hr x hx
          · cases h

theorem restAt_fruit (s : Nat) : Fruitful (restAt s) := by
  unfold restAt
  cases h : parserAtn.rest 60 1000000 s with
  | none => intro x hx; simp at hx
  | some L => exact rest_fruit _ _ _ _ h

/-- The symbols of a list are no sequences. -/
def Atomic (L : List G) : Prop := ∀ g ∈ L, g.flat = [g]

theorem flat_atomic (g : G) : Atomic g.flat := by
  induction g with
  | eps => intro x hx; simp [G.flat] at hx
  | seq a b iha ihb =>
    intro x hx
    rcases List.mem_append.1 hx with hx | hx
    · exact iha x hx
    · exact ihb x hx
  | _ => intro x hx; simp only [G.flat, List.mem_singleton] at hx; subst hx; rfl

theorem Atomic.append {L M : List G} (h : Atomic L) (h' : Atomic M) : Atomic (L ++ M) := by
  intro x hx
  rcases List.mem_append.1 hx with hx | hx
  · exact h x hx
  · exact h' x hx

theorem rest_atomic : ∀ (n stop s : Nat) (L : List G), parserAtn.rest n stop s = some L →
    Atomic L := by
  intro n
  induction n with
  | zero => intro stop s L h; simp [Atn.T.rest] at h
  | succ n ih =>
    intro stop s L h
    simp only [Atn.T.rest] at h
    split at h
    · cases h; intro x hx; simp at hx
    · split at h
      · cases h; intro x hx; simp at hx
      · split at h
        · rw [Option.bind_eq_bind, Option.bind_eq_some_iff] at h
          obtain ⟨g, hg, h⟩ := h
          simp only [Option.pure_def, Option.bind_eq_bind, Option.bind_eq_some_iff,
            Option.some.injEq] at h
          obtain ⟨r, hr, rfl⟩ := h
          exact (flat_atomic g).append (ih _ _ _ hr)
        · split at h
          · rename_i e he
            simp only [Option.pure_def, Option.bind_eq_bind, Option.bind_eq_some_iff,
              Option.some.injEq] at h
            obtain ⟨r, hr, rfl⟩ := h
            refine Atomic.append ?_ (ih _ _ _ hr)
            unfold Atn.T.symbol
            intro x hx
            split at hx
            · simp at hx
            · split at hx
              · simp only [List.mem_singleton] at hx; subst hx; rfl
              · split at hx <;> (simp only [List.mem_singleton] at hx; subst hx; rfl)
          · rw [Option.bind_eq_bind, Option.bind_eq_some_iff] at h
            obtain ⟨g, hg, h⟩ := h
            simp only [Option.pure_def, Option.bind_eq_bind, Option.bind_eq_some_iff,
              Option.some.injEq] at h
            obtain ⟨r, hr, rfl⟩ := h
            intro x hx
            rcases List.mem_cons.1 hx with rfl | hx
            · rfl
            · exact ih _ _ _ hr x hx
          · cases h

theorem restAt_atomic (s : Nat) : Atomic (restAt s) := by
  unfold restAt
  cases h : parserAtn.rest 60 1000000 s with
  | none => intro x hx; simp at hx
  | some L => exact rest_atomic _ _ _ _ h

attribute [local irreducible] parserAtn restAt leadsTo sure

/-! ## Tokens that the ATN looks for -/

theorem genL_alts {L : List G} {ts} : ∀ {x g : G}, x ∈ g.alts → GenL (x.flat ++ L) ts →
    GenL (g.flat ++ L) ts := by
  intro x g
  induction g with
  | alt h a b _ ih =>
    intro hx hd
    simp only [G.alts, List.mem_cons] at hx
    rcases hx with rfl | hx
    · obtain ⟨t₁, t₂, rfl, h₁, h₂⟩ := hd.split
      obtain ⟨ks, h₁⟩ := h₁.ofFlat
      exact .cons (.altL h₁) h₂
    · obtain ⟨t₁, t₂, rfl, h₁, h₂⟩ := (ih hx hd).split
      obtain ⟨ks, h₁⟩ := h₁.ofFlat
      exact .cons (.altR h₁) h₂
  | _ => intro hx hd; simp only [G.alts, List.mem_singleton] at hx; subst hx; exact hd

/-- A token that is looked for can come next. -/
theorem looks_genL {s : Nat} {stack : List Nat} {x : Option TT} (h : parserAtn.Looks s stack x) :
    s < 456 → ∀ t, x = some t →
      ∃ u, GenL (restAt s ++ (frames stack).flatten) (⟨t, []⟩ :: u) := by
  induction h with
  | stop _ => intro _ t ht; cases ht
  | @ret s i stack x h7 _ ih =>
    intro hs t ht
    cases shape_at s hs with
    | stop _ hX _ =>
      obtain ⟨u, h⟩ := ih (follow_lt i) t ht
      refine ⟨u, ?_⟩
      rw [hX]
      exact h
    | _ => contradiction
  | @silent s e stack x he hsil _ ih =>
    intro hs t ht
    cases shape_at s hs with
    | stop _ _ ho => rw [ho] at he; simp at he
    | silent f _ ho _ hlt hX _ =>
      cases out_mem_single ho he; rw [hX]; exact ih hlt t ht
    | pred f _ ho _ _ hlt hX =>
      cases out_mem_single ho he
      obtain ⟨u, h⟩ := ih hlt t ht
      rw [hX]
      exact ⟨u, .cons (t₁ := []) .pred h⟩
    | call f _ _ _ ho hf h3 =>
      cases out_mem_single ho he
      rcases hsil with h | h
      · rw [hf] at h; cases h
      · omega
    | tok f _ _ ho hf h10 =>
      cases out_mem_single ho he
      rcases hsil with h | h
      · rw [hf] at h; cases h
      · exact absurd h h10
    | star g y L _ hes hX _ _ hall =>
      obtain ⟨u, ih⟩ := ih (hes e he).2 t ht
      refine ⟨u, ?_⟩
      rcases hall e he with hx | hx
      · rw [hx] at ih; rw [hX]; exact .cons (t₁ := []) .starNil ih
      · rw [hx, hX, List.append_assoc] at ih
        rw [hX]
        obtain ⟨t₁, t₂, e₁, h₁, h₂⟩ := ih.split
        obtain ⟨ks, h₁⟩ := h₁.ofFlat
        rw [e₁]
        cases h₂ with
        | cons h₂ h₃ => rw [← List.append_assoc]; exact .cons (.starCons h₁ h₂) h₃
    | alt g b c L _ hes hX _ hall =>
      obtain ⟨u, ih⟩ := ih (hes e he).2 t ht
      obtain ⟨y, hy, hh⟩ := hall e he
      rw [hh, List.append_assoc] at ih
      rw [hX]
      exact ⟨u, genL_alts hy ih⟩
  | @call s e stack x hr _ ih =>
    intro hs t ht
    obtain ⟨he, h3⟩ := ruleEdge_mem hr
    have hsil : e.silent = false := by simp [Atn.Edge.silent, h3]
    cases shape_at s hs with
    | stop _ _ ho => rw [ho] at he; simp at he
    | silent f _ ho hf => cases out_mem_single ho he; rw [hf] at hsil; cases hsil
    | pred f _ ho hf h10 => cases out_mem_single ho he; omega
    | call f r k _ ho hf _ hlt ha hX hR =>
      cases out_mem_single ho he
      obtain ⟨u, ih⟩ := ih ha t ht
      have hfr : frames (s :: stack) = restAt e.trg :: frames stack := by
        simp [frames, framesOf, Atn.T.follow, hr]
      rw [hR, hfr, List.flatten_cons] at ih
      rw [hX]
      obtain ⟨t₁, t₂, e₁, h₁, h₂⟩ := ih.split
      obtain ⟨ks, h₁⟩ := genL_gen h₁
      refine ⟨u, ?_⟩
      rw [e₁]
      exact .cons (.call h₁) h₂
    | tok f _ _ ho hf _ h3' => cases out_mem_single ho he; contradiction
    | star g x L _ hes => rw [(hes e he).1] at hsil; cases hsil
    | alt g b c L _ hes => rw [(hes e he).1] at hsil; cases hsil
  | @token s e stack t' he heat =>
    intro hs t ht
    cases ht
    have hty : e.silent = false ∧ e.ty ≠ 10 ∧ e.ty ≠ 3 := by
      unfold Atn.T.eats at heat
      split at heat <;> simp_all [Atn.Edge.silent]
    cases shape_at s hs with
    | stop _ _ ho => rw [ho] at he; simp at he
    | silent f _ ho hf => cases out_mem_single ho he; rw [hf] at hty; cases hty.1
    | pred f _ ho hf h10 => cases out_mem_single ho he; exact absurd h10 hty.2.1
    | call f _ _ _ ho hf h3 => cases out_mem_single ho he; exact absurd h3 hty.2.2
    | tok f l _ ho hf _ _ hlt hX hl =>
      cases out_mem_single ho he
      have hfr : Fruitful (restAt e.trg ++ (frames stack).flatten) := by
        refine (restAt_fruit _).append ?_
        intro x hx
        obtain ⟨L, hL, hx⟩ := List.mem_flatten.1 hx
        obtain ⟨i, _, rfl⟩ := List.mem_map.1 hL
        exact restAt_fruit _ x hx
      obtain ⟨v, hv⟩ := hfr.genL
      rw [hX]
      exact ⟨v, .cons (t₁ := [⟨t', []⟩]) (.tok ((hl _).2 heat)) hv⟩
    | star g x L _ hes => rw [(hes e he).1] at hty; cases hty.1
    | alt g b c L _ hes => rw [(hes e he).1] at hty; cases hty.1

/-- Derivations, step by step. -/
theorem gen_ders {g : G} {ts : List Tok} {ks : List Tree} (h : Gen g ts ks) :
    ∀ L stk rest, Ders none L stk rest →
      Ders none (g.flat ++ L) stk (ts ++ rest) ∧ Ders none (g.bare.flat ++ L) stk (ts ++ rest) := by
  induction h with
  | eps => intro L stk rest hd; exact ⟨hd, hd⟩
  | tok ht =>
    intro L stk rest ⟨n, hd⟩
    exact ⟨⟨_, .tok ht hd⟩, ⟨_, .tok (mem_sorted.2 ht) hd⟩⟩
  | call _ ih =>
    intro L stk rest ⟨n, hd⟩
    obtain ⟨m, h⟩ := (ih [] (L :: stk) rest ⟨_, .ret hd⟩).2
    rw [List.append_nil] at h
    exact ⟨⟨_, .call h⟩, ⟨_, .call h⟩⟩
  | pred =>
    intro L stk rest ⟨n, hd⟩
    exact ⟨⟨_, .pred (by simp) hd⟩, ⟨_, .pred (by simp) hd⟩⟩
  | seq _ _ iha ihb =>
    intro L stk rest hd
    simp only [G.flat, G.bare, List.append_assoc]
    exact ⟨(iha _ _ _ (ihb _ _ _ hd).1).1, (iha _ _ _ (ihb _ _ _ hd).2).2⟩
  | altL _ ih =>
    intro L stk rest hd
    obtain ⟨⟨n, h₁⟩, ⟨m, h₂⟩⟩ := ih _ _ _ hd
    exact ⟨⟨_, .altL h₁⟩, ⟨_, .altL h₂⟩⟩
  | altR _ ih =>
    intro L stk rest hd
    obtain ⟨⟨n, h₁⟩, ⟨m, h₂⟩⟩ := ih _ _ _ hd
    exact ⟨⟨_, .altR h₁⟩, ⟨_, .altR h₂⟩⟩
  | starNil =>
    intro L stk rest ⟨n, hd⟩
    exact ⟨⟨_, .starNil hd⟩, ⟨_, .starNil hd⟩⟩
  | starCons _ _ iha ihb =>
    intro L stk rest hd
    obtain ⟨h₁, h₂⟩ := ihb _ _ _ hd
    rw [List.append_assoc]
    obtain ⟨n, h₁⟩ := (iha _ _ _ h₁).1
    obtain ⟨m, h₂⟩ := (iha _ _ _ h₂).2
    exact ⟨⟨_, .starCons h₁⟩, ⟨_, .starCons h₂⟩⟩

theorem genL_der {L : List G} {v : List Tok} (ha : Atomic L) (h : GenL L v) : Ders none L [] v := by
  induction h with
  | nil => exact ⟨_, .done⟩
  | @cons g L _ _ _ hg _ ih =>
    have := (gen_ders hg _ _ _ (ih fun x hx => ha x (List.mem_cons_of_mem _ hx))).1
    rwa [ha g (by simp)] at this

/-- If the rule cannot end, something is looked for. -/
theorem looks_some {s : Nat} (hs : s < 456) (h : ¬ parserAtn.Looks s [] none) :
    ∃ t, parserAtn.Looks s [] (some t) := by
  obtain ⟨v, hv⟩ := (restAt_fruit s).genL
  rcases path_looks (ders_path hs (stack := []) (genL_der (restAt_atomic s) hv)) [] [] rfl with h' | h'
  · exact absurd h' h
  · exact ⟨_, h'⟩

/-! ## The run -/

theorem arms_chk {x : Go} {L : List G} (h : chk x L = true) : ∀ q ∈ x.arms, chk q.2 L = true := by
  induction x with
  | case d i a b _ ihb =>
    simp only [chk, Bool.and_eq_true] at h
    intro q hq
    rw [Go.arms, List.mem_cons] at hq
    rcases hq with rfl | hq
    · exact h.1.1.2
    · exact ihb h.1.2 q hq
  | _ => simp [Go.arms]

/-- The expected tokens can follow what the code has read, and what comes after
the code can be added. -/
theorem wanted_viable : ∀ (n : Nat) (ctx : List Nat) (p : Nat) (c : Go) (L : List G)
    (ts rest : List Tok) (E : TT → Prop), c.wf = true → c.alive = true → chk c L = true →
    (∃ v, GenL L v) → exec simRuntime n ctx p c ts = .err rest →
    wanted simRuntime n ctx p c ts = some E →
    (∃ t, E t) ∧ ∃ pre, ts = pre ++ rest ∧ ∀ t, E t → ∃ u t₁ t₂ ks,
      pre ++ ⟨t, []⟩ :: u = t₁ ++ t₂ ∧ Gen c.g t₁ ks ∧ GenL L t₂ := by
  intro n
  induction n with
  | zero => intro ctx p c L ts rest E _ _ _ _ h; simp [exec] at h
  | succ n ih =>
    intro ctx p c L ts rest E hw hl hc hL h hE
    cases c with
    | skip => simp [exec] at h
    | fail => simp [wanted] at hE
    | pred k => simp [wanted] at hE
    | case d i a b => simp [Go.wf] at hw
    | seq a b =>
      simp only [Go.wf, Bool.and_eq_true] at hw
      simp only [Go.alive, Bool.and_eq_true] at hl
      simp only [chk, Bool.and_eq_true] at hc
      simp only [exec] at h
      simp only [wanted] at hE
      have hbL : ∃ v, GenL (b.g.bare.flat ++ L) v := by
        obtain ⟨u, ks, hu⟩ := fruit_gen hl.2
        obtain ⟨v, hv⟩ := hL
        exact ⟨_, (genL_flat (gen_bare hu)).append hv⟩
      rcases andThen_err h with h | ⟨k₁, t₁, h₁, h₂⟩
      · rw [h] at hE
        obtain ⟨hne, pre, rfl, hg⟩ := ih _ _ _ _ _ _ _ hw.1 hl.1.1.1 hc.1 hbL h hE
        refine ⟨hne, pre, rfl, fun t ht => ?_⟩
        obtain ⟨u, t₁, t₂, ks, e, g₁, g₂⟩ := hg t ht
        obtain ⟨s₁, s₂, rfl, g₂, g₃⟩ := g₂.split
        obtain ⟨_, g₂⟩ := genL_gen g₂
        exact ⟨u, t₁ ++ s₁, s₂, _, by rw [e, List.append_assoc], gen_seq_g g₁ g₂, g₃⟩
      · rw [h₁] at hE
        obtain ⟨p₁, rfl, g₁⟩ := exec_sound sim_inRange _ _ _ _ _ _ _ hw.1 h₁
        obtain ⟨hne, p₂, rfl, hg⟩ := ih _ _ _ _ _ _ _ hw.2 hl.1.1.2 hc.2 hL h₂ hE
        refine ⟨hne, p₁ ++ p₂, by simp, fun t ht => ?_⟩
        obtain ⟨u, t₁, t₂, ks, e, g₂, g₃⟩ := hg t ht
        exact ⟨u, p₁ ++ t₁, t₂, _, by rw [List.append_assoc, e, List.append_assoc],
          gen_seq_g g₁ g₂, g₃⟩
    | tok x =>
      have hts : ts = rest := by
        cases ts with
        | nil => simpa [exec] using h
        | cons t ts =>
          simp only [exec] at h
          split at h
          · cases h
          · simpa using h
      simp only [wanted, Option.some.injEq] at hE
      subst hE
      refine ⟨⟨x, rfl⟩, [], hts, fun t ht => ?_⟩
      obtain ⟨v, hv⟩ := hL
      exact ⟨v, [⟨t, []⟩], v, _, rfl, .tok (by simp [ht]), hv⟩
    | set x =>
      have hts : ts = rest := by
        cases ts with
        | nil => simpa [exec] using h
        | cons t ts =>
          simp only [exec] at h
          split at h
          · cases h
          · simpa using h
      simp only [wanted, Option.some.injEq] at hE
      subst hE
      refine ⟨?_, [], hts, fun t ht => ?_⟩
      · obtain ⟨u, ks, hu⟩ := fruit_gen (g := .tok x.toks) hl
        cases hu with
        | tok ht => exact ⟨_, (LaTest.ok_iff _ _).2 ht⟩
      · obtain ⟨v, hv⟩ := hL
        exact ⟨v, [⟨t, []⟩], v, _, rfl, .tok ((LaTest.ok_iff _ _).1 ht), hv⟩
    | call st r k =>
      simp only [exec] at h
      simp only [wanted] at hE
      split at h
      · cases h
      · rename_i ts' h'
        cases h
        obtain ⟨hne, pre, rfl, hg⟩ := ih _ _ _ [] _ _ _ (goCode_wf r) (goCode_alive r) (goCode_chk r)
          ⟨_, .nil⟩ h' hE
        refine ⟨hne, pre, rfl, fun t ht => ?_⟩
        obtain ⟨u, t₁, t₂, ks, e, g₁, g₂⟩ := hg t ht
        cases g₂
        rw [goCode_g] at g₁
        obtain ⟨v, hv⟩ := hL
        refine ⟨u ++ v, t₁, v, _, ?_, .call g₁, hv⟩
        rw [List.append_nil] at e
        rw [← e]
        simp
      · cases h
    | sync st =>
      simp only [chk, Bool.and_eq_true, decide_eq_true_eq, beq_iff_eq] at hc
      simp only [wanted, Option.some.injEq] at hE
      subst hE
      simp only [exec] at h
      split at h
      · cases h
      · rename_i hs
        refine ⟨looks_some hc.1 fun h => hs (.inl h), [], by simpa using h, fun t ht => ?_⟩
        obtain ⟨u, hu⟩ := looks_genL ht hc.1 t rfl
        rw [hc.2] at hu
        refine ⟨u, [], _, _, rfl, .eps, ?_⟩
        simpa [frames, framesOf] using hu
    | ifLA c a b =>
      simp only [Go.wf, Bool.and_eq_true] at hw
      simp only [Go.alive, Bool.and_eq_true] at hl
      simp only [chk, Bool.and_eq_true] at hc
      simp only [exec] at h
      simp only [wanted] at hE
      simp only [Go.g, ifG]
      split at h
      · rename_i hok
        rw [if_pos hok] at hE
        obtain ⟨hne, pre, rfl, hg⟩ := ih _ _ _ _ _ _ _ hw.1 hl.1.1.1 hc.1.2 hL h hE
        refine ⟨hne, pre, rfl, fun t ht => ?_⟩
        obtain ⟨u, t₁, t₂, ks, e, g₁, g₂⟩ := hg t ht
        refine ⟨u, t₁, t₂, ks, e, ?_, g₂⟩
        split
        · exact g₁
        · exact g₁
        · exact .altL g₁
      · rename_i hok
        rw [if_neg hok] at hE
        by_cases hb : b = .fail
        · subst hb
          cases n <;> simp [wanted] at hE
        · have hcb : chk b L = true := by
            have := hc.2
            unfold elseOk at this
            split at this
            · exact absurd rfl hb
            · exact this
          obtain ⟨hne, pre, rfl, hg⟩ := ih _ _ _ _ _ _ _ hw.2 hl.1.1.2 hcb hL h hE
          refine ⟨hne, pre, rfl, fun t ht => ?_⟩
          obtain ⟨u, t₁, t₂, ks, e, g₁, g₂⟩ := hg t ht
          refine ⟨u, t₁, t₂, ks, e, ?_, g₂⟩
          split
          · exact absurd rfl hb
          · exact g₁
          · exact .altR g₁
    | whileLA c a =>
      have hw' := hw
      have hl' := hl
      have hc' := hc
      simp only [Go.wf] at hw
      simp only [Go.alive, Bool.and_eq_true] at hl
      simp only [chk, Bool.and_eq_true] at hc
      simp only [exec] at h
      simp only [wanted] at hE
      have hsL : ∃ v, GenL ((Go.whileLA c a).g.bare.flat ++ L) v := by
        obtain ⟨v, hv⟩ := hL
        exact ⟨_, .cons .starNil hv⟩
      split at h
      · rcases andThen_err h with h | ⟨k₁, t₁, h₁, h₂⟩
        · rw [h] at hE
          obtain ⟨hne, pre, rfl, hg⟩ := ih _ _ _ _ _ _ _ hw hl.1 hc.2 hsL h hE
          refine ⟨hne, pre, rfl, fun t ht => ?_⟩
          obtain ⟨u, t₁, t₂, ks, e, g₁, g₂⟩ := hg t ht
          obtain ⟨s₁, s₂, rfl, g₂, g₃⟩ := g₂.split
          obtain ⟨_, g₂⟩ := genL_gen g₂
          exact ⟨u, t₁ ++ s₁, s₂, _, by rw [e, List.append_assoc], .starCons g₁ g₂, g₃⟩
        · rw [h₁] at hE
          obtain ⟨p₁, rfl, g₁⟩ := exec_sound sim_inRange _ _ _ _ _ _ _ hw h₁
          obtain ⟨hne, p₂, rfl, hg⟩ := ih _ _ _ _ _ _ _ hw' hl' hc' hL h₂ hE
          refine ⟨hne, p₁ ++ p₂, by simp, fun t ht => ?_⟩
          obtain ⟨u, t₁, t₂, ks, e, g₂, g₃⟩ := hg t ht
          exact ⟨u, p₁ ++ t₁, t₂, _, by rw [List.append_assoc, e, List.append_assoc],
            .starCons g₁ g₂, g₃⟩
      · cases h
    | whileAP d a =>
      have hw' := hw
      have hl' := hl
      have hc' := hc
      simp only [Go.wf, Bool.and_eq_true, beq_iff_eq] at hw
      simp only [Go.alive, Bool.and_eq_true] at hl
      simp only [chk, Bool.and_eq_true] at hc
      simp only [exec] at h
      simp only [wanted] at hE
      have hsL : ∃ v, GenL ((Go.whileAP d a).g.bare.flat ++ L) v := by
        obtain ⟨v, hv⟩ := hL
        exact ⟨_, .cons .starNil hv⟩
      split at h
      · rename_i hz
        rw [hz] at hE
        cases hE
      · rename_i hz
        rw [hz] at hE
        simp only at hE
        rcases andThen_err h with h | ⟨k₁, t₁, h₁, h₂⟩
        · rw [h] at hE
          obtain ⟨hne, pre, rfl, hg⟩ := ih _ _ _ _ _ _ _ hw.1.2 hl.1.1 hc.2 hsL h hE
          refine ⟨hne, pre, rfl, fun t ht => ?_⟩
          obtain ⟨u, t₁, t₂, ks, e, g₁, g₂⟩ := hg t ht
          obtain ⟨s₁, s₂, rfl, g₂, g₃⟩ := g₂.split
          obtain ⟨_, g₂⟩ := genL_gen g₂
          exact ⟨u, t₁ ++ s₁, s₂, _, by rw [e, List.append_assoc], .starCons g₁ g₂, g₃⟩
        · rw [h₁] at hE
          obtain ⟨p₁, rfl, g₁⟩ := exec_sound sim_inRange _ _ _ _ _ _ _ hw.1.2 h₁
          obtain ⟨hne, p₂, rfl, hg⟩ := ih _ _ _ _ _ _ _ hw' hl' hc' hL h₂ hE
          refine ⟨hne, p₁ ++ p₂, by simp, fun t ht => ?_⟩
          obtain ⟨u, t₁, t₂, ks, e, g₂, g₃⟩ := hg t ht
          exact ⟨u, p₁ ++ t₁, t₂, _, by rw [List.append_assoc, e, List.append_assoc],
            .starCons g₁ g₂, g₃⟩
      · cases h
      · rename_i hz
        rw [hz] at hE
        exact ih _ _ _ _ _ _ _ hw' hl' hc' hL h hE
    | switchAP d x =>
      simp only [Go.wf, Bool.and_eq_true] at hw
      simp only [Go.alive, Bool.and_eq_true] at hl
      simp only [chk, Bool.and_eq_true] at hc
      simp only [exec] at h
      simp only [wanted] at hE
      have hd : d ∈ asked := List.contains_iff_mem.1 hw.1
      split at h
      · rename_i hz
        rw [hz] at hE
        cases hE
      · rename_i i hi
        rw [hi] at hE
        simp only at hE
        have := sim_inRange d hd p ctx ts
        obtain ⟨a, hlk, hm, hwa⟩ := wfArms_lookup _ _ _ hw.2 (i + 1) (by omega) (by omega)
        rw [hlk] at h hE
        obtain ⟨hne, pre, rfl, hg⟩ := ih _ _ _ _ _ _ _ hwa (arms_alive hl.1.1 _ hm)
          (arms_chk hc.2 _ hm) hL h hE
        refine ⟨hne, pre, rfl, fun t ht => ?_⟩
        obtain ⟨u, t₁, t₂, ks, e, g₁, g₂⟩ := hg t ht
        exact ⟨u, t₁, t₂, ks, e, arms_gen (x := x) hm g₁, g₂⟩

end Verif
