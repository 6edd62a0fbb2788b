import Verif.Spec.Program
import Verif.Spec.Lexical
/-!
# Declarations in the text
-/

namespace Verif

/-- `q` is `p` without one declaration; `bs`, `ys` and `as` are the tokens
before it, its own, and those after it. -/
inductive Without : Program → Program → List Tok → List Tok → List Tok → Prop where
  | decl (n : Str) (es : List ExtDecl) (xs zs : List Decl) (y : Decl) :
      Without ⟨n, es, xs ++ y :: zs⟩ ⟨n, es, xs ++ zs⟩ (Program.toks ⟨n, es, xs⟩) y.toks
        (zs.flatMap Decl.toks)
  | ext (n : Str) (xs zs : List ExtDecl) (y : ExtDecl) (ds : List Decl) :
      Without ⟨n, xs ++ y :: zs, ds⟩ ⟨n, xs ++ zs, ds⟩ (Program.toks ⟨n, xs, []⟩) y.toks
        (zs.flatMap ExtDecl.toks ++ ds.flatMap Decl.toks)

/-- The text `a ++ d ++ b` splits into tokens such that `a`, `d`, `b` consist of
the tokens `bs`, `ys`, `as` and of layout, and `d` begins with a token, not with
layout. -/
structure Parts (a d b : Str) (bs ys as : List Tok) : Prop where
  split : ∃ la ld lb, Tokenises (a ++ d ++ b) (la ++ ld ++ lb) ∧
    la.flatMap (·.1.text) = a ∧ ld.flatMap (·.1.text) = d ∧
    visible la = bs ∧ visible ld = ys ∧ visible lb = as ∧ (ld.head?.map (·.2)) = some false

/-- `d` with `//` before it and after each of its line ends. -/
def commentLines (d : Str) : Str := "//".toList ++ d.flatMap fun c => if c = '\n' then "\n//".toList else [c]

end Verif
