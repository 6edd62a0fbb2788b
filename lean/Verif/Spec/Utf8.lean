import Verif.Model.Token
/-!
# UTF-8

`String.utf8EncodeChar` is Lean's own UTF-8 encoding of a character.
-/

namespace Verif

/-- A byte sequence read as UTF-8: encoded characters stand for themselves, and
a byte at which no encoded character starts stands for U+FFFD. -/
inductive Decodes : List UInt8 → Str → Prop where
  | nil : Decodes [] []
  | char {c : Char} {rest : List UInt8} {s : Str} :
      Decodes rest s → Decodes (String.utf8EncodeChar c ++ rest) (c :: s)
  | bad {b : UInt8} {rest : List UInt8} {s : Str} :
      (∀ c, ¬ String.utf8EncodeChar c <+: b :: rest) →
      Decodes rest s → Decodes (b :: rest) (Char.ofNat 0xFFFD :: s)

end Verif
