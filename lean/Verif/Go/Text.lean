import Verif.Go.Utf8
/-!
# More of package `strings`, `strconv`, `bufio` and `regexp`

Part of the trusted reading of the Go library; no code of /repo.
-/
namespace Verif.Go

/-- `bufio.MaxScanTokenSize`: a line together with its newline must fit into this buffer. -/
def maxScanTokenSize : Nat := 65536

/-- `dropCR` of package bufio: removes one trailing carriage return. -/
def dropCR (l : Bytes) : Bytes := if l.getLast? = some 0x0d then l.dropLast else l

/-- The pieces between newlines; an empty piece after the last newline is no line. -/
def rawLines (content : Bytes) : List Bytes :=
  match (splitByte 0x0a content).getLast? with
  | some [] => (splitByte 0x0a content).dropLast
  | _ => splitByte 0x0a content

/-- The lines that `bufio.NewScanner(r)` delivers for an in-memory reader: at the first line that does not
fit into the buffer `Scan` returns false, with an error that only `Err` shows. -/
def scanLines (content : Bytes) : List Bytes :=
  ((rawLines content).takeWhile (fun l => decide (l.length < maxScanTokenSize))).map dropCR

/-- A decimal digit, `\d` of package regexp. -/
def isDigit (b : UInt8) : Bool := decide (0x30 ≤ b.toNat) && decide (b.toNat ≤ 0x39)

/-- `\s` of package regexp: `[\t\n\f\r ]`. -/
def isBlankByte (b : UInt8) : Bool := b = 0x09 || b = 0x0a || b = 0x0c || b = 0x0d || b = 0x20

/-- The regular expression `^".*"\s*$` on a text without newline: the text starts with a quote and after
that has another quote that only blanks follow. -/
def matchQuoted : Bytes → Bool
  | 0x22 :: t => (t.reverse.dropWhile isBlankByte).head? = some 0x22
  | _ => false

/-- `\s+` followed by a regular expression that does not match blanks at its start. -/
def matchBlanks1 (k : Bytes → Bool) : Bytes → Bool
  | b :: s => isBlankByte b && k (s.dropWhile isBlankByte)
  | [] => false

/-- `\s*` followed by a regular expression that does not match blanks at its start. -/
def matchBlanks (k : Bytes → Bool) (s : Bytes) : Bool := k (s.dropWhile isBlankByte)

/-- `\[\d+]` followed by the regular expression `k`. -/
def matchIndex (k : Bytes → Bool) : Bytes → Bool
  | 0x5b :: d :: s =>
    isDigit d &&
      match s.dropWhile isDigit with
      | 0x5d :: r => k r
      | _ => false
  | _ => false

/-- A literal prefix followed by the regular expression `k`. -/
def matchPrefix (p : Bytes) (k : Bytes → Bool) (s : Bytes) : Bool :=
  p.isPrefixOf s && k (s.drop p.length)

/-- The value of a digit string. -/
def digitsValue (ds : Bytes) : Nat := ds.foldl (fun n d => n * 10 + (d.toNat - 48)) 0

/-- The digits after the sign, `strconv.Atoi`. -/
def atoiDigits (neg : Bool) (ds : Bytes) : Option Int :=
  if ds ≠ [] ∧ ds.all isDigit then
    let n : Int := digitsValue ds
    if neg then (if n ≤ 9223372036854775808 then some (-n) else none)
    else (if n ≤ 9223372036854775807 then some n else none)
  else none

/-- `strconv.Atoi` on a 64-bit machine; `none` is an error. -/
def atoi : Bytes → Option Int
  | 0x2d :: ds => atoiDigits true ds
  | 0x2b :: ds => atoiDigits false ds
  | ds => atoiDigits false ds

/-- Worker of `fieldsFunc`: `cur` is the field being read (empty: none). -/
def fieldsAux (p : Char → Bool) : Nat → Bytes → Bytes → List Bytes
  | 0, cur, _ => if cur = [] then [] else [cur]
  | _ + 1, cur, [] => if cur = [] then [] else [cur]
  | f + 1, cur, b :: bs =>
    let (c, k) := decodeRune (b :: bs)
    if p c then (if cur = [] then [] else [cur]) ++ fieldsAux p f [] ((b :: bs).drop k)
    else fieldsAux p f (cur ++ (b :: bs).take k) ((b :: bs).drop k)

/-- `strings.FieldsFunc`. -/
def fieldsFunc (p : Char → Bool) (s : Bytes) : List Bytes := fieldsAux p s.length [] s

end Verif.Go
