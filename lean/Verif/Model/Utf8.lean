import Verif.Model.ParseKF
/-!
# Bytes and runes

`antlr.NewInputStream(data)` (kfparser/parser.go:41) converts the Go string to
runes with `[]rune(data)`.  The conversion is Go's `runtime.decoderune`
(runtime/utf8.go), modelled here; it is not in the repository.
-/

namespace Verif

/-- U+FFFD, Go's `RuneError`. -/
def runeError : Char := Char.ofNat 0xFFFD

/-- `locb <= b && b <= hicb` -/
def isCont (b : UInt8) : Bool := 0x80 ≤ b.toNat && b.toNat ≤ 0xBF

/-- runtime.decoderune at the byte `b0`, `s` being the bytes after it: the rune
and the bytes that are left.  Bytes below 0x80 stand for themselves. -/
def decodeRune (b0 : UInt8) (s : List UInt8) : Char × List UInt8 :=
  let n := b0.toNat
  if n < 0x80 then (Char.ofNat n, s)
  else if 0xC0 ≤ n ∧ n < 0xE0 then
    match s with
    | b1 :: t =>
      let r := n % 32 * 64 + b1.toNat % 64
      if isCont b1 && decide (0x7F < r) then (Char.ofNat r, t) else (runeError, s)
    | _ => (runeError, s)
  else if 0xE0 ≤ n ∧ n < 0xF0 then
    match s with
    | b1 :: b2 :: t =>
      let r := n % 16 * 4096 + b1.toNat % 64 * 64 + b2.toNat % 64
      if isCont b1 && isCont b2 && decide (0x7FF < r) && !(decide (0xD800 ≤ r) && decide (r ≤ 0xDFFF)) then
        (Char.ofNat r, t)
      else (runeError, s)
    | _ => (runeError, s)
  else if 0xF0 ≤ n ∧ n < 0xF8 then
    match s with
    | b1 :: b2 :: b3 :: t =>
      let r := n % 8 * 262144 + b1.toNat % 64 * 4096 + b2.toNat % 64 * 64 + b3.toNat % 64
      if isCont b1 && isCont b2 && isCont b3 && decide (0xFFFF < r) && decide (r ≤ 0x10FFFF) then
        (Char.ofNat r, t)
      else (runeError, s)
    | _ => (runeError, s)
  else (runeError, s)

/-- At most as many runes as the first argument says. -/
def decodeN : Nat → List UInt8 → Str
  | 0, _ => []
  | _, [] => []
  | n + 1, b :: s => (decodeRune b s).1 :: decodeN n (decodeRune b s).2

/-- `[]rune(data)` -/
def decode (bs : List UInt8) : Str := decodeN bs.length bs

/-- `string(runes)` -/
def encode (s : Str) : List UInt8 := s.flatMap String.utf8EncodeChar

/-- kfparser/parser.go:19-81 `ParseKF` with the input as it is passed: bytes. -/
def parseKFBytes (w : World) (data : List UInt8) (l : Option ErrorList) (mode : Nat) : Outcome :=
  parseKF w (decode data) l mode

end Verif
