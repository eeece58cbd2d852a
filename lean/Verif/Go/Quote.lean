import Verif.Go.Utf8
/-!
# `strconv.Quote`, the verb `%q`

Part of the trusted reading of the Go library.  `print` is `strconv.IsPrint`.
-/
namespace Verif.Go

/-- `lowerhex[n]`. -/
def lowerHex (n : Nat) : UInt8 := UInt8.ofNat (if n % 16 < 10 then 0x30 + n % 16 else 0x57 + n % 16)

/-- The last `k` hexadecimal digits of a number. -/
def hexDigits : Nat → Nat → Bytes
  | 0, _ => []
  | k + 1, n => lowerHex (n / 16 ^ k) :: hexDigits k n

/-- `strconv.appendEscapedRune` for the quote `"`. -/
def quoteRune (print : Char → Bool) (c : Char) : Bytes :=
  if c = '"' ∨ c = '\\' then 0x5c :: encodeRune c
  else if print c then encodeRune c
  else if c.toNat = 7 then b!"\\a"
  else if c.toNat = 8 then b!"\\b"
  else if c.toNat = 12 then b!"\\f"
  else if c.toNat = 10 then b!"\\n"
  else if c.toNat = 13 then b!"\\r"
  else if c.toNat = 9 then b!"\\t"
  else if c.toNat = 11 then b!"\\v"
  else if c.toNat < 0x20 ∨ c.toNat = 0x7f then b!"\\x" ++ hexDigits 2 c.toNat
  else if c.toNat < 0x10000 then b!"\\u" ++ hexDigits 4 c.toNat
  else b!"\\U" ++ hexDigits 8 c.toNat

/-- The loop of `strconv.appendQuotedWith`; every step consumes a byte. -/
def quoteAux (print : Char → Bool) : Nat → Bytes → Bytes
  | 0, _ => []
  | _ + 1, [] => []
  | f + 1, b :: bs =>
    if (decodeRune (b :: bs)).1 = runeError ∧ (decodeRune (b :: bs)).2 = 1 then
      b!"\\x" ++ hexDigits 2 b.toNat ++ quoteAux print f bs
    else quoteRune print (decodeRune (b :: bs)).1 ++ quoteAux print f ((b :: bs).drop (decodeRune (b :: bs)).2)

/-- `strconv.Quote`, `fmt.Sprintf("%q", s)`. -/
def quote (print : Char → Bool) (s : Bytes) : Bytes := b!"\"" ++ quoteAux print s.length s ++ b!"\""

end Verif.Go
