import Verif.Go.Bytes
/-!
# UTF-8 as implemented by Go's `unicode/utf8`

`decodeRune` follows the acceptance table of `utf8.DecodeRune` (RFC 3629); malformed
input gives `U+FFFD` with size 1.  Part of the trusted reading of the Go library.
-/
namespace Verif.Go

/-- `utf8.RuneError`. -/
def runeError : Char := Char.ofNat 0xFFFD

/-- `utf8.AppendRune` / `utf8.EncodeRune` for a valid rune. -/
def encodeRune (c : Char) : Bytes :=
  let n := c.toNat
  if n < 0x80 then [UInt8.ofNat n]
  else if n < 0x800 then [UInt8.ofNat (0xC0 + n / 64), UInt8.ofNat (0x80 + n % 64)]
  else if n < 0x10000 then
    [UInt8.ofNat (0xE0 + n / 4096), UInt8.ofNat (0x80 + n / 64 % 64), UInt8.ofNat (0x80 + n % 64)]
  else
    [UInt8.ofNat (0xF0 + n / 262144), UInt8.ofNat (0x80 + n / 4096 % 64),
     UInt8.ofNat (0x80 + n / 64 % 64), UInt8.ofNat (0x80 + n % 64)]

/-- Allowed range of the second byte after lead byte `n0` (Go's `acceptRanges`). -/
def secondOk (n0 n1 : Nat) : Bool :=
  if n0 = 0xE0 then 0xA0 ≤ n1 && n1 ≤ 0xBF
  else if n0 = 0xED then 0x80 ≤ n1 && n1 ≤ 0x9F
  else if n0 = 0xF0 then 0x90 ≤ n1 && n1 ≤ 0xBF
  else if n0 = 0xF4 then 0x80 ≤ n1 && n1 ≤ 0x8F
  else 0x80 ≤ n1 && n1 ≤ 0xBF

/-- Continuation byte. -/
def contOk (n : Nat) : Bool := 0x80 ≤ n && n ≤ 0xBF

/-- The multi-byte part of `utf8.DecodeRune`: `none` is malformed. -/
def decodeMulti (n0 : Nat) : List Nat → Option (Nat × Nat)
  | [] => none
  | n1 :: r1 =>
    if !secondOk n0 n1 then none
    else if 0xC2 ≤ n0 && n0 ≤ 0xDF then some ((n0 - 0xC0) * 64 + (n1 - 0x80), 2)
    else match r1 with
      | [] => none
      | n2 :: r2 =>
        if !contOk n2 then none
        else if 0xE0 ≤ n0 && n0 ≤ 0xEF then
          some ((n0 - 0xE0) * 4096 + (n1 - 0x80) * 64 + (n2 - 0x80), 3)
        else match r2 with
          | [] => none
          | n3 :: _ =>
            if !contOk n3 then none
            else if 0xF0 ≤ n0 && n0 ≤ 0xF4 then
              some ((n0 - 0xF0) * 262144 + (n1 - 0x80) * 4096 + (n2 - 0x80) * 64 + (n3 - 0x80), 4)
            else none

/-- `utf8.DecodeRune(s)`: the rune and its size; `(RuneError, 1)` for malformed input,
`(RuneError, 0)` for the empty string. -/
def decodeRune : Bytes → Char × Nat
  | [] => (runeError, 0)
  | b :: bs =>
    let n0 := b.toNat
    if n0 < 0x80 then (Char.ofNat n0, 1)
    else if 0xC2 ≤ n0 && n0 ≤ 0xF4 then
      match decodeMulti n0 ((bs.take 3).map UInt8.toNat) with
      | some (n, k) => (Char.ofNat n, k)
      | none => (runeError, 1)
    else (runeError, 1)

/-- Fuelled worker of `runes`. -/
def runesAux : Nat → Bytes → List Char
  | 0, _ => []
  | _ + 1, [] => []
  | f + 1, b :: bs =>
    let (c, k) := decodeRune (b :: bs)
    c :: runesAux f ((b :: bs).drop k)

/-- The runes visited by `for _, c := range s` (every step consumes at least one byte). -/
def runes (s : Bytes) : List Char := runesAux s.length s

/-- The UTF-8 encoding of a rune sequence. -/
def utf8 (cs : List Char) : Bytes := cs.flatMap encodeRune

/-- `unicode.IsSpace`. -/
def isSpace (c : Char) : Bool :=
  let n := c.toNat
  (0x09 ≤ n && n ≤ 0x0D) || n = 0x20 || n = 0x85 || n = 0xA0 || n = 0x1680 ||
  (0x2000 ≤ n && n ≤ 0x200A) || n = 0x2028 || n = 0x2029 || n = 0x202F || n = 0x205F || n = 0x3000

end Verif.Go
