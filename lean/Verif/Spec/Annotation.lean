import Verif.Spec.Words
import Verif.Model.Annotation
/-!
# Attributes in annotation texts
-/

namespace Verif

/-- Blanks between the parts of an attribute. -/
def IsBlank (c : Char) : Prop := c = '\t' ∨ c = '\n' ∨ c = Char.ofNat 12 ∨ c = '\r' ∨ c = ' '

/-- A digit string, or a text in single quotes without quotes and newlines in
it. -/
def IsAttrValue (v : Str) : Prop :=
  (v ≠ [] ∧ ∀ c ∈ v, '0' ≤ c ∧ c ≤ '9') ∨
  ∃ b, v = '\'' :: (b ++ ['\'']) ∧ '\'' ∉ b ∧ '\n' ∉ b

/-- `x` is an attribute with name `n` and value `v`: the name (letters, digits,
underscores), `=`, the value, blanks allowed around `=`. -/
def IsAttr (n v x : Str) : Prop :=
  n ≠ [] ∧ (∀ c ∈ n, IsWordChar c) ∧ IsAttrValue v ∧
  ∃ w w', (∀ c ∈ w, IsBlank c) ∧ (∀ c ∈ w', IsBlank c) ∧ x = n ++ w ++ '=' :: w' ++ v

/-- The attributes found in a text from left to right: each starts as early as
possible after the one before and is as long as possible. -/
inductive ReadsAttrs : Str → List AnnotationAttribute → Prop where
  | done {g : Str} : (∀ a x b n v, g = a ++ x ++ b → ¬ IsAttr n v x) → ReadsAttrs g []
  | next {g x n v rest : Str} {l : List AnnotationAttribute} :
      IsAttr n v x →
      (∀ a b y n' v', g = a ++ b → b ≠ [] → y <+: b ++ x ++ rest → ¬ IsAttr n' v' y) →
      (∀ y n' v', y <+: x ++ rest → IsAttr n' v' y → y.length ≤ x.length) →
      ReadsAttrs rest l → ReadsAttrs (g ++ x ++ rest) (⟨n, v⟩ :: l)

end Verif
