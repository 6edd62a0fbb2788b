import Verif.Model.Parser
/-!
# Derivations

The language of the grammar, independent of any parsing algorithm: which
token sequences a right-hand side derives, and with which parse trees.
Lookahead tests and precedence predicates play no role here.
-/

namespace Verif

/-- `Gen g ts ks`: the right-hand side `g` derives the tokens `ts`, with
children `ks`. -/
inductive Gen : G → List Tok → List Tree → Prop where
  | eps : Gen .eps [] []
  | tok {s : List TT} {t : Tok} : t.ty ∈ s → Gen (.tok s) [t] [.leaf t]
  | call {r : Rule} {k : Nat} {ts : List Tok} {ks : List Tree} :
      Gen (grammar r) ts ks → Gen (.call r k) ts [mkNode r ks]
  | pred {k : Nat} : Gen (.pred k) [] []
  | seq {a b : G} {t₁ t₂ : List Tok} {k₁ k₂ : List Tree} :
      Gen a t₁ k₁ → Gen b t₂ k₂ → Gen (.seq a b) (t₁ ++ t₂) (k₁ ++ k₂)
  | altL {g : Guard} {a b : G} {ts : List Tok} {ks : List Tree} :
      Gen a ts ks → Gen (.alt g a b) ts ks
  | altR {g : Guard} {a b : G} {ts : List Tok} {ks : List Tree} :
      Gen b ts ks → Gen (.alt g a b) ts ks
  | starNil {g : Guard} {a : G} : Gen (.star g a) [] []
  | starCons {g : Guard} {a : G} {t₁ t₂ : List Tok} {k₁ k₂ : List Tree} :
      Gen a t₁ k₁ → Gen (.star g a) t₂ k₂ → Gen (.star g a) (t₁ ++ t₂) (k₁ ++ k₂)

/-- The sentences of the language: token sequences derived from `source_unit`
when followed by end of file. -/
def Sentence (ts : List Tok) : Prop :=
  ∃ tree, Gen (.call .source_unit 0) (ts ++ [Tok.eof]) [tree]

end Verif
