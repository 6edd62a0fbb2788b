import Verif.Model.Json
import Verif.Model.Utf8
/-!
# The entry point for WebAssembly

wasm/wasm.go.  Strings of JavaScript are sequences of characters here: the
conversion of lone surrogates is not modelled.
-/

namespace Verif

/-- wasm/wasm.go:13-26 `parse`: the JSON and the error.  `ToJSON` has no error
(see `marshalIndent`); for a nil schema it gives `null`. -/
def wasmParse (w : World) (short : Bool) (input : Str) : Str × Option ErrorList :=
  let o := parseKF w input none modeDefault
  match o.err with
  | some l => ([], some l)
  | none =>
    ((match o.result with
      | some s => s.toJSON short
      | none => "null".toList), none)

/-- JavaScript values that the function gives back. -/
inductive JsValue where
  | string (s : Str)
  /-- an object, as its members -/
  | object (members : List (Str × Str))
  deriving DecidableEq, Repr

/-- wasm/wasm.go:30-47: the function that `parseWrapper` makes.  `arg.String()`
is the text of a string (for other values it would be a text such as
`<number: 1>`, which the caller of the model supplies).  `none`: the call does
not return. -/
def wasmCall (w : World) (short : Bool) (args : List Str) : Option JsValue :=
  match args with
  | [input] =>
    let (json, err) := wasmParse w short input
    match err with
    | some l =>
      l.text.map fun t =>
        .object [("error".toList, "parsing failed: ".toList ++ t ++ "\n".toList), ("json".toList, json)]
    | none => some (.object [("json".toList, json)])
  | _ => some (.string "Invalid no of arguments passed".toList)

end Verif
