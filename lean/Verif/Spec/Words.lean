import Verif.Model.Token
/-!
# Words

Names and reserved words, written out.
-/

namespace Verif

/-- `A`–`Z`, `a`–`z`. -/
def IsLetter (c : Char) : Prop := ('A' ≤ c ∧ c ≤ 'Z') ∨ ('a' ≤ c ∧ c ≤ 'z')

/-- Letters, digits and underscore. -/
def IsWordChar (c : Char) : Prop := IsLetter c ∨ ('0' ≤ c ∧ c ≤ '9') ∨ c = '_'

instance (c : Char) : Decidable (IsLetter c) := by unfold IsLetter; infer_instance
instance (c : Char) : Decidable (IsWordChar c) := by unfold IsWordChar; infer_instance

/-- A letter, then letters, digits and underscores. -/
def IsName : Str → Prop
  | [] => False
  | c :: cs => IsLetter c ∧ ∀ d ∈ cs, IsWordChar d

instance : (s : Str) → Decidable (IsName s)
  | [] => inferInstanceAs (Decidable False)
  | c :: cs => inferInstanceAs (Decidable (IsLetter c ∧ ∀ d ∈ cs, IsWordChar d))

/-- Keywords, which are case-sensitive, with their token types. -/
def keywords : List (Str × TT) :=
  [("database".toList, .DATABASE_), ("use".toList, .USE_), ("as".toList, .AS_),
   ("table".toList, .TABLE_), ("action".toList, .ACTION_), ("init".toList, .INIT_),
   ("public".toList, .PUBLIC_), ("private".toList, .PRIVATE_), ("view".toList, .VIEW_),
   ("owner".toList, .OWNER_), ("int".toList, .INT_), ("text".toList, .TEXT_),
   ("blob".toList, .BLOB_), ("min".toList, .MIN_), ("max".toList, .MAX_),
   ("minlen".toList, .MIN_LEN_), ("maxlen".toList, .MAX_LEN_), ("notnull".toList, .NOT_NULL_),
   ("primary".toList, .PRIMARY_), ("default".toList, .DEFAULT_), ("unique".toList, .UNIQUE_),
   ("index".toList, .INDEX_), ("foreign_key".toList, .FOREIGN_KEY_),
   ("fk".toList, .FOREIGN_KEY_ABBR_), ("references".toList, .REFERENCES_),
   ("ref".toList, .REFERENCES_ABBR_), ("on_update".toList, .ACTION_ON_UPDATE_),
   ("on_delete".toList, .ACTION_ON_DELETE_), ("do".toList, .ACTION_DO_),
   ("no_action".toList, .ACTION_DO_NO_ACTION_), ("cascade".toList, .ACTION_DO_CASCADE_),
   ("set_null".toList, .ACTION_DO_SET_NULL_), ("set_default".toList, .ACTION_DO_SET_DEFAULT_),
   ("restrict".toList, .ACTION_DO_RESTRICT_), ("not".toList, .NOT_), ("and".toList, .AND_),
   ("or".toList, .OR_)]

/-- SQL verbs, in lower case, with their token types. -/
def verbs : List (Str × TT) :=
  [("select".toList, .SELECT_), ("insert".toList, .INSERT_), ("update".toList, .UPDATE_),
   ("delete".toList, .DELETE_), ("with".toList, .WITH_)]

/-- `A`–`Z` to `a`–`z`; other characters stay. -/
def lowerChar (c : Char) : Char :=
  if 'A' ≤ c ∧ c ≤ 'Z' then Char.ofNat (c.toNat + 32) else c

/-- ASCII lower case. -/
def lower (s : Str) : Str := s.map lowerChar

/-- A keyword, or an SQL verb in any mixture of cases. -/
def Reserved (s : Str) : Prop :=
  s ∈ keywords.map (·.1) ∨ lower s ∈ verbs.map (·.1)

instance (s : Str) : Decidable (Reserved s) := by unfold Reserved; infer_instance

/-- The token type of a word. -/
def wordType (s : Str) : TT :=
  match keywords.lookup s with
  | some ty => ty
  | none =>
    match verbs.lookup (lower s) with
    | some ty => ty
    | none => .IDENTIFIER

end Verif
