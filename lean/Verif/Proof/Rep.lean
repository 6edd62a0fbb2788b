import Verif.Proof.Complete
import Verif.Spec.Program
/-!
# Representations

`Rep g f k`: the phrases of `g` whose tokens are spelt correctly are exactly
the token lists `f x`, with children `k x`, for `x` in some type of abstract
syntax.
-/

namespace Verif

/-- The token has the text its type prescribes. -/
def Tok.Spelt (t : Tok) : Prop :=
  (∀ s, t.ty.fixed = some s → t.text = s) ∧
  (t.ty = .INDEX_NAME → ∃ s, t.text = '#' :: s) ∧
  (t.ty = .BLOCK_VAR_OR_ANNOTATION → ∃ s, t.text = '@' :: s)

def Spelt (ts : List Tok) : Prop := ∀ t ∈ ts, t.Spelt

theorem Spelt.append {a b : List Tok} : Spelt (a ++ b) ↔ Spelt a ∧ Spelt b := by
  simp only [Spelt, List.mem_append]
  constructor
  · intro h
    exact ⟨fun t ht => h t (.inl ht), fun t ht => h t (.inr ht)⟩
  · rintro ⟨h₁, h₂⟩ t (ht | ht)
    · exact h₁ t ht
    · exact h₂ t ht

theorem Spelt.cons {t : Tok} {b : List Tok} : Spelt (t :: b) ↔ t.Spelt ∧ Spelt b := by
  simp [Spelt]

theorem Tok.Spelt.eq_kw {t : Tok} (h : t.Spelt) (hf : t.ty.fixed.isSome) : t = kw t.ty := by
  obtain ⟨s, hs⟩ := Option.isSome_iff_exists.mp hf
  cases t with
  | mk ty text =>
    simp only [kw, Tok.mk.injEq, true_and]
    simp only at hs
    rw [hs]
    exact h.1 s hs

structure Rep {α : Type} (g : G) (f : α → List Tok) (k : α → List Tree) : Prop where
  fwd : ∀ ts ks, Gen g ts ks → Spelt ts → ∃ x, ts = f x ∧ ks = k x
  bwd : ∀ x, Gen g (f x) (k x)

namespace Rep
variable {α β : Type} {f : α → List Tok} {k : α → List Tree} {f' : β → List Tok}
  {k' : β → List Tree} {g a b : G}

/-- Change the type of abstract syntax. -/
theorem of (h : Rep g f k) (e : α → β) (i : β → α) (hf : ∀ x, f' (e x) = f x)
    (hk : ∀ x, k' (e x) = k x) (hi : ∀ y, e (i y) = y) : Rep g f' k' where
  fwd ts ks hg hs := by
    obtain ⟨x, rfl, rfl⟩ := h.fwd ts ks hg hs
    exact ⟨e x, (hf x).symm, (hk x).symm⟩
  bwd y := by
    rw [← hi y, hf, hk]
    exact h.bwd _

theorem eps : Rep .eps (fun _ : Unit => []) (fun _ => []) where
  fwd ts ks h _ := by simpa using h
  bwd _ := .eps

/-- A token: `c` enumerates the correctly spelt tokens of the set. -/
theorem tok {s : List TT} (c : α → Tok) (h₁ : ∀ t : Tok, t.ty ∈ s → t.Spelt → ∃ x, t = c x)
    (h₂ : ∀ x, (c x).ty ∈ s) : Rep (.tok s) (fun x => [c x]) (fun x => [.leaf (c x)]) where
  fwd ts ks h hs := by
    obtain ⟨t, ht, rfl, rfl⟩ := gen_tok.mp h
    obtain ⟨x, rfl⟩ := h₁ t ht (hs t (by simp))
    exact ⟨x, rfl, rfl⟩
  bwd x := .tok (h₂ x)

/-- A token with only one spelling. -/
theorem fixed {ty : TT} (h : ty.fixed.isSome := by rfl) :
    Rep (G.t ty) (fun _ : Unit => [kw ty]) (fun _ => [.leaf (kw ty)]) :=
  tok (fun _ => kw ty) (fun t ht hs => by
    obtain rfl : t.ty = ty := by simpa using ht
    exact ⟨(), hs.eq_kw h⟩) (by simp [kw])

/-- A token with free text. -/
theorem free {ty : TT} :
    Rep (G.t ty) (fun s : Str => [⟨ty, s⟩]) (fun s => [.leaf ⟨ty, s⟩]) :=
  tok (fun s => ⟨ty, s⟩) (fun t ht _ => ⟨t.text, by
    obtain rfl : t.ty = ty := by simpa using ht
    rfl⟩) (by simp)

theorem seq (ha : Rep a f k) (hb : Rep b f' k') :
    Rep (.seq a b) (fun x : α × β => f x.1 ++ f' x.2) (fun x => k x.1 ++ k' x.2) where
  fwd ts ks h hs := by
    obtain ⟨t₁, k₁, t₂, k₂, h₁, h₂, rfl, rfl⟩ := gen_seq.mp h
    rw [Spelt.append] at hs
    obtain ⟨x, rfl, rfl⟩ := ha.fwd _ _ h₁ hs.1
    obtain ⟨y, rfl, rfl⟩ := hb.fwd _ _ h₂ hs.2
    exact ⟨(x, y), rfl, rfl⟩
  bwd x := .seq (ha.bwd _) (hb.bwd _)

theorem alt {gd : Guard} (ha : Rep a f k) (hb : Rep b f' k') :
    Rep (.alt gd a b) (Sum.elim f f') (Sum.elim k k') where
  fwd ts ks h hs := by
    rcases gen_alt.mp h with h | h
    · obtain ⟨x, rfl, rfl⟩ := ha.fwd _ _ h hs
      exact ⟨.inl x, rfl, rfl⟩
    · obtain ⟨x, rfl, rfl⟩ := hb.fwd _ _ h hs
      exact ⟨.inr x, rfl, rfl⟩
  bwd x := match x with
    | .inl x => .altL (ha.bwd x)
    | .inr x => .altR (hb.bwd x)

theorem star {gd : Guard} (ha : Rep a f k) :
    Rep (.star gd a) (fun l : List α => l.flatMap f) (fun l => l.flatMap k) where
  fwd ts ks h hs := by
    generalize hg : G.star gd a = g at h
    induction h with
    | starNil => exact ⟨[], rfl, rfl⟩
    | starCons h₁ _ _ ih =>
        cases hg
        rw [Spelt.append] at hs
        obtain ⟨x, rfl, rfl⟩ := ha.fwd _ _ h₁ hs.1
        obtain ⟨l, rfl, rfl⟩ := ih hs.2 rfl
        exact ⟨x :: l, rfl, rfl⟩
    | _ => cases hg
  bwd l := by
    induction l with
    | nil => exact .starNil
    | cons x l ih => exact .starCons (ha.bwd x) ih

theorem call {r : Rule} {n : Nat} (h : Rep (grammar r) f k) :
    Rep (.call r n) f (fun x => [mkNode r (k x)]) where
  fwd ts ks hg hs := by
    obtain ⟨ks, h', rfl⟩ := gen_call.mp hg
    obtain ⟨x, rfl, rfl⟩ := h.fwd _ _ h' hs
    exact ⟨x, rfl, rfl⟩
  bwd x := .call (h.bwd x)

/-- An optional part. -/
theorem opt {s : List TT} (h : Rep a f k) :
    Rep (G.opt s a) (fun o : Option α => o.toList.flatMap f)
      (fun o => o.toList.flatMap k) :=
  of (alt h eps) (Sum.elim some (fun _ => none))
    (fun | some x => .inl x | none => .inr ())
    (by rintro (x | x) <;> simp) (by rintro (x | x) <;> simp)
    (by rintro (x | x) <;> simp)

end Rep

/-- Children of a comma-separated list. -/
def NE.trees {α : Type} (f : α → List Tree) (x : NE α) : List Tree :=
  f x.head ++ x.tail.flatMap (fun y => .leaf (kw .COMMA) :: f y)

def CommaList.trees {α : Type} (f : α → List Tree) (x : CommaList α) : List Tree :=
  x.first.toList.flatMap f ++ x.rest.flatMap (fun y => .leaf (kw .COMMA) :: f y)

theorem Rep.comma {α : Type} {f : α → List Tok} {k : α → List Tree} {g : G} (h : Rep g f k) :
    Rep (.seq (G.t .COMMA) g) (fun x => kw .COMMA :: f x) (fun x => .leaf (kw .COMMA) :: k x) :=
  of (seq fixed h) (fun x => x.2) (fun x => ((), x)) (by simp) (by simp) (by simp)

theorem Rep.sepG {α : Type} {gd : Guard} {f : α → List Tok} {k : α → List Tree} {g : G}
    (h : Rep g f k) :
    Rep (.seq g (.star gd (.seq (G.t .COMMA) g))) (NE.toks f) (NE.trees k) :=
  of (seq h (star h.comma)) (fun x => ⟨x.1, x.2⟩) (fun x => (x.head, x.tail))
    (by simp [NE.toks]) (by simp [NE.trees]) (by simp)

theorem Rep.sep {α : Type} {f : α → List Tok} {k : α → List Tree} {g : G} (h : Rep g f k) :
    Rep (G.sep g) (NE.toks f) (NE.trees k) := h.sepG

theorem Rep.commaList {α : Type} {s : List TT} {gd : Guard} {f : α → List Tok}
    {k : α → List Tree} {g : G} (h : Rep g f k) :
    Rep (.seq (G.opt s g) (.star gd (.seq (G.t .COMMA) g))) (CommaList.toks f)
      (CommaList.trees k) :=
  of (seq (opt h) (star h.comma)) (fun x => ⟨x.1, x.2⟩) (fun x => (x.first, x.rest))
    (by simp [CommaList.toks]) (by simp [CommaList.trees]) (by simp)

/-- A rule that is one identifier. -/
def nameTree (r : Rule) (s : Str) : Tree := .node r [.leaf (idTok s)]

theorem Rep.name {r : Rule} {n : Nat} (h : grammar r = G.t .IDENTIFIER := by rfl)
    (hr : r ≠ .fn_arg_expr := by decide) :
    Rep (.call r n) (fun s => [idTok s]) (fun s => [nameTree r s]) := by
  have := Rep.call (n := n) (r := r) (by rw [h]; exact Rep.free)
  simp only [mkNode, if_neg hr] at this
  exact this

end Verif
