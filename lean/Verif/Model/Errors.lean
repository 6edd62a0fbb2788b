import Verif.Model.Token
/-!
# Errors and panics

schema/errors.go, utils/error_listener.go:10, and the error values the code
builds with `fmt.Errorf` and `errors.New`.
-/

namespace Verif

/-- Sentinel errors: schema/errors.go:5-34 and utils/error_listener.go:10. -/
inductive Sent where
  | notSupportColumnType
  | multiInit
  | actionVisibilityAlreadySet
  | actionMutabilityAlreadySet
  | actionAuxiliaryAlreadySet
  | attributeNotAllow
  | duplicateTable
  | duplicateExtension
  | duplicateColumn
  | duplicateAttribute
  | duplicateIndex
  | duplicateAction
  | duplicateParam
  | dupFKAction
  | duplicateVariable
  | tableNotFound
  | columnNotFound
  | actionNotFound
  | variableNotFound
  | extensionNotFound
  | blockVarNotFound
  | invalidSyntax
  deriving DecidableEq, Repr, Inhabited

/-- The texts of the sentinels. -/
def Sent.text : Sent → Str
  | .notSupportColumnType => "not support column type".toList
  | .multiInit => "more than one init".toList
  | .actionVisibilityAlreadySet => "action visibility already specified".toList
  | .actionMutabilityAlreadySet => "action mutability already specified".toList
  | .actionAuxiliaryAlreadySet => "action auxiliary already specified".toList
  | .attributeNotAllow => "attribute not allowed".toList
  | .duplicateTable => "duplicate table".toList
  | .duplicateExtension => "duplicate extension".toList
  | .duplicateColumn => "duplicate column".toList
  | .duplicateAttribute => "duplicate attribute".toList
  | .duplicateIndex => "duplicate index".toList
  | .duplicateAction => "duplicate action".toList
  | .duplicateParam => "duplicate param".toList
  | .dupFKAction => "duplicate foreign key action".toList
  | .duplicateVariable => "duplicate variable".toList
  | .tableNotFound => "table not found".toList
  | .columnNotFound => "column not found".toList
  | .actionNotFound => "action not found".toList
  | .variableNotFound => "variable not found".toList
  | .extensionNotFound => "extension not found".toList
  | .blockVarNotFound => "block variable not found".toList
  | .invalidSyntax => "syntax error".toList

/-- Error values. -/
inductive Err where
  /-- a sentinel itself -/
  | sent (s : Sent)
  /-- `fmt.Errorf("%w: %s", e, msg)` -/
  | wrap (e : Err) (msg : Str)
  /-- an error from the Go runtime, `errors.New`, or an external package; it
  wraps none of the sentinels -/
  | other (msg : Str)
  deriving DecidableEq, Repr, Inhabited

/-- `Error()` -/
def Err.text : Err → Str
  | .sent s => s.text
  | .wrap e msg => e.text ++ ": ".toList ++ msg
  | .other msg => msg

/-- `errors.Is(e, s)` -/
def Err.is (s : Sent) : Err → Bool
  | .sent s' => s == s'
  | .wrap e _ => e.is s
  | .other _ => false

/-- `fmt.Errorf("%w: %s", s, msg)` for a sentinel. -/
def Sent.with (s : Sent) (msg : Str) : Err := .wrap (.sent s) msg

/-- Values passed to `panic`, as `ParseKF` distinguishes them
(kfparser/parser.go:39-47). -/
inductive Panic where
  | str (s : Str)
  | err (e : Err)
  | val (printed : Str)
  deriving DecidableEq, Repr, Inhabited

/-- A nil pointer or nil interface is used. -/
def Panic.nilDeref : Panic :=
  .err (.other "runtime error: invalid memory address or nil pointer dereference".toList)

/-- An index or slice bound is out of range. -/
def Panic.outOfRange : Panic := .err (.other "runtime error: slice bounds out of range".toList)

end Verif
