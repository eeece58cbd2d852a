import Verif.Model.Catalog.Json
/-!
# JSON texts

Models the bytes that /repo/catalog/json.go and json_encoder.go write and json_decoder.go reads.  The first half
is what package encoding/json (Go 1.23) does with a text: `quote` (`json.Marshal` of a string), `readJson`
(`json.Unmarshal` into a tree), `compact` and `indent`; it is a trusted reading of that package.  Its limit of 10000
nested values is left out: a value nested deeper than two levels is an error for spreak anyway.
-/
namespace Verif.Model.Catalog
open Verif.Go Verif.Model.Po Verif.Cldr

/-! ## Package encoding/json -/

/-- `isSpace` of encoding/json. -/
def isWs (c : UInt8) : Bool := c = 0x20 || c = 0x09 || c = 0x0D || c = 0x0A

/-- `const hex = "0123456789abcdef"`. -/
def hexDigit (n : Nat) : UInt8 := if n < 10 then UInt8.ofNat (48 + n) else UInt8.ofNat (87 + n)

/-- `htmlSafeSet`: ASCII bytes that are written as they are. -/
def htmlSafe (b : UInt8) : Bool := 0x20 ≤ b && b < 0x80 && b ≠ 0x22 && b ≠ 0x5C && b ≠ 0x3C && b ≠ 0x3E && b ≠ 0x26

/-- `\u` and four digits. -/
def escapeCode (n : Nat) : Bytes :=
  [0x5C, 0x75, hexDigit (n / 4096 % 16), hexDigit (n / 256 % 16), hexDigit (n / 16 % 16), hexDigit (n % 16)]

/-- How an ASCII byte is written that is not safe. -/
def escapeByte (b : UInt8) : Bytes :=
  if b = 0x5C ∨ b = 0x22 then [0x5C, b]
  else if b = 0x08 then b!"\\b"
  else if b = 0x0C then b!"\\f"
  else if b = 0x0A then b!"\\n"
  else if b = 0x0D then b!"\\r"
  else if b = 0x09 then b!"\\t"
  else escapeCode b.toNat

/-- The loop of `appendString(…, escapeHTML = true)`; every step consumes at least one byte. -/
def quoteAux : Nat → Bytes → Bytes
  | 0, _ => []
  | _ + 1, [] => []
  | f + 1, b :: bs =>
    if b.toNat < 0x80 then (if htmlSafe b then [b] else escapeByte b) ++ quoteAux f bs
    else
      let r := decodeRune (b :: bs)
      (if r.1 = runeError ∧ r.2 = 1 then escapeCode 0xFFFD
       else if r.1.toNat = 0x2028 ∨ r.1.toNat = 0x2029 then escapeCode r.1.toNat
       else (b :: bs).take r.2) ++ quoteAux f ((b :: bs).drop r.2)

/-- `json.Marshal` of a string. -/
def quote (s : Bytes) : Bytes := 0x22 :: quoteAux s.length s ++ [0x22]

/-- The value of a hexadecimal digit. -/
def hexValue (c : UInt8) : Option Nat :=
  if 48 ≤ c.toNat ∧ c.toNat ≤ 57 then some (c.toNat - 48)
  else if 97 ≤ c.toNat ∧ c.toNat ≤ 102 then some (c.toNat - 87)
  else if 65 ≤ c.toNat ∧ c.toNat ≤ 70 then some (c.toNat - 55)
  else none

/-- `getu4`: the code of `\uXXXX` at the start of the text, and what follows. -/
def getu4 : Bytes → Option (Nat × Bytes)
  | 0x5C :: 0x75 :: a :: b :: c :: d :: rest =>
    match hexValue a, hexValue b, hexValue c, hexValue d with
    | some a, some b, some c, some d => some (a * 4096 + b * 256 + c * 16 + d, rest)
    | _, _, _, _ => none
  | _ => none

/-- `utf16.DecodeRune`: the character of a surrogate pair. -/
def surrogatePair (hi lo : Nat) : Option Char :=
  if 0xD800 ≤ hi ∧ hi < 0xDC00 ∧ 0xDC00 ≤ lo ∧ lo < 0xE000 then
    some (Char.ofNat ((hi - 0xD800) * 1024 + (lo - 0xDC00) + 0x10000))
  else none

/-- `unquote` of `\uXXXX`: the character and what follows; a half of a pair that stands alone becomes U+FFFD. -/
def readCode (s : Bytes) : Option (Char × Bytes) :=
  match getu4 s with
  | none => none
  | some (n, rest) =>
    if 0xD800 ≤ n ∧ n < 0xE000 then
      match getu4 rest with
      | none => some (runeError, rest)
      | some (m, rest') =>
        match surrogatePair n m with
        | none => some (runeError, rest)
        | some c => some (c, rest')
    else some (Char.ofNat n, rest)

/-- `unquote` of a backslash and one letter. -/
def readEscape (e : UInt8) : Option UInt8 :=
  if e = 0x22 ∨ e = 0x5C ∨ e = 0x2F then some e
  else if e = 0x62 then some 0x08
  else if e = 0x66 then some 0x0C
  else if e = 0x6E then some 0x0A
  else if e = 0x72 then some 0x0D
  else if e = 0x74 then some 0x09
  else none

/-- A string after its opening quote: the text it stands for and what follows the closing quote. -/
def readChars : Nat → Bytes → Option (Bytes × Bytes)
  | 0, _ => none
  | _ + 1, [] => none
  | f + 1, b :: bs =>
    if b = 0x22 then some ([], bs)
    else if b = 0x5C then
      match bs with
      | [] => none
      | e :: bs' =>
        if e = 0x75 then
          match readCode (b :: bs) with
          | none => none
          | some (c, rest) => (readChars f rest).map fun r => (encodeRune c ++ r.1, r.2)
        else
          match readEscape e with
          | none => none
          | some x => (readChars f bs').map fun r => (x :: r.1, r.2)
    else if b.toNat < 0x20 then none
    else
      let d := decodeRune (b :: bs)
      (readChars f ((b :: bs).drop d.2)).map fun r => (encodeRune d.1 ++ r.1, r.2)

/-- White space is skipped. -/
def skipWs : Bytes → Bytes
  | [] => []
  | c :: cs => if isWs c then skipWs cs else c :: cs

def isDigit (c : UInt8) : Bool := 48 ≤ c && c ≤ 57

/-- At least one digit. -/
def readDigits (s : Bytes) : Option Bytes :=
  match s.takeWhile isDigit with
  | [] => none
  | _ => some (s.dropWhile isDigit)

def dropMinus : Bytes → Bytes
  | 0x2D :: r => r
  | r => r

/-- The integer part, which has no leading zero. -/
def readWhole : Bytes → Option Bytes
  | 0x30 :: r => some r
  | r => readDigits r

def readFraction : Bytes → Option Bytes
  | 0x2E :: r => readDigits r
  | r => some r

def dropSign : Bytes → Bytes
  | 0x2B :: r => r
  | 0x2D :: r => r
  | r => r

def readExponent : Bytes → Option Bytes
  | [] => some []
  | e :: r => if e = 0x65 ∨ e = 0x45 then readDigits (dropSign r) else some (e :: r)

/-- A number; the result is the text that follows it. -/
def readNumber (s : Bytes) : Option Bytes := (readWhole (dropMinus s)).bind fun s => (readFraction s).bind readExponent

mutual

/-- One value and what follows it. -/
def readValue : Nat → Bytes → Option (Json × Bytes)
  | 0, _ => none
  | f + 1, s =>
    match skipWs s with
    | [] => none
    | c :: r =>
      if c = 0x7B then
        match skipWs r with
        | [] => none
        | d :: r' => if d = 0x7D then some (.obj [], r') else (readMembers f (d :: r')).map fun x => (.obj x.1, x.2)
      else if c = 0x5B then
        match skipWs r with
        | [] => none
        | d :: r' => if d = 0x5D then some (.other, r') else (readItems f (d :: r')).map fun x => (.other, x)
      else if c = 0x22 then (readChars (r.length + 1) r).map fun x => (.str x.1, x.2)
      else if hasPrefix (c :: r) b!"null" then some (.null, r.drop 3)
      else if hasPrefix (c :: r) b!"true" then some (.other, r.drop 3)
      else if hasPrefix (c :: r) b!"false" then some (.other, r.drop 4)
      else (readNumber (c :: r)).map fun x => (.other, x)

/-- The members of an object that is not empty, up to and including the closing brace. -/
def readMembers : Nat → Bytes → Option (List (Bytes × Json) × Bytes)
  | 0, _ => none
  | f + 1, s =>
    match skipWs s with
    | [] => none
    | c :: r =>
      if c = 0x22 then
        match readChars (r.length + 1) r with
        | none => none
        | some (k, r) =>
          match skipWs r with
          | [] => none
          | c :: r =>
            if c = 0x3A then
              match readValue f r with
              | none => none
              | some (v, r) =>
                match skipWs r with
                | [] => none
                | c :: r =>
                  if c = 0x2C then (readMembers f r).map fun x => ((k, v) :: x.1, x.2)
                  else if c = 0x7D then some ([(k, v)], r)
                  else none
            else none
      else none

/-- The values of an array that is not empty, up to and including the closing bracket. -/
def readItems : Nat → Bytes → Option Bytes
  | 0, _ => none
  | f + 1, s =>
    match readValue f s with
    | none => none
    | some (_, r) =>
      match skipWs r with
      | [] => none
      | c :: r => if c = 0x2C then readItems f r else if c = 0x5D then some r else none

end

/-- `json.Unmarshal`: the whole text is one value. -/
def readJson (s : Bytes) : Option Json :=
  match readValue (s.length + 1) s with
  | none => none
  | some (j, r) => if skipWs r = [] then some j else none

/-- Where the scanner is: outside of strings, in a string, after a backslash, two or one bytes before the end of a
character that was already replaced. -/
inductive Scan
  | out | str | esc | skip2 | skip1
  deriving DecidableEq, Repr

/-- The loop of `appendCompact(…, escape = true)` over a valid text: white space outside of strings is dropped,
`<`, `>`, `&`, U+2028 and U+2029 are replaced. -/
def compactFrom : Scan → Bytes → Bytes
  | _, [] => []
  | .out, c :: cs =>
    if isWs c then compactFrom .out cs
    else if c = 0x22 then c :: compactFrom .str cs
    else c :: compactFrom .out cs
  | .str, c :: cs =>
    if c = 0x3C ∨ c = 0x3E ∨ c = 0x26 then escapeCode c.toNat ++ compactFrom .str cs
    else if c = 0xE2 ∧ (cs.take 2 = [0x80, 0xA8] ∨ cs.take 2 = [0x80, 0xA9]) then
      b!"\\u202" ++ (if cs.take 2 = [0x80, 0xA8] then [0x38] else [0x39]) ++ compactFrom .skip2 cs
    else if c = 0x5C then c :: compactFrom .esc cs
    else if c = 0x22 then c :: compactFrom .out cs
    else c :: compactFrom .str cs
  | .esc, c :: cs => c :: compactFrom .str cs
  | .skip2, _ :: cs => compactFrom .skip1 cs
  | .skip1, _ :: cs => compactFrom .str cs

/-- What `json.Marshal` and `Encoder.Encode` make of the result of a `MarshalJSON`: an error if it is not JSON. -/
def compact (s : Bytes) : Option Bytes := if (readJson s).isSome then some (compactFrom .out s) else none

/-- `appendNewline(dst, "", "  ", depth)`. -/
def newline (depth : Nat) : Bytes := 0x0A :: (List.replicate depth b!"  ").flatten

/-- The loop of `appendIndent(…, "", "  ")` over a valid text; `need` is `needIndent`. -/
def indentFrom : Scan → Nat → Bool → Bytes → Bytes
  | _, _, _, [] => []
  | .out, depth, need, c :: cs =>
    if isWs c then indentFrom .out depth need cs
    else if c = 0x7D ∨ c = 0x5D then
      if need then c :: indentFrom .out depth false cs
      else newline (depth - 1) ++ c :: indentFrom .out (depth - 1) false cs
    else
      let depth' := if need then depth + 1 else depth
      (if need then newline depth' else []) ++
        if c = 0x7B ∨ c = 0x5B then c :: indentFrom .out depth' true cs
        else if c = 0x2C then c :: newline depth' ++ indentFrom .out depth' false cs
        else if c = 0x3A then c :: 0x20 :: indentFrom .out depth' false cs
        else if c = 0x22 then c :: indentFrom .str depth' false cs
        else c :: indentFrom .out depth' false cs
  | .str, depth, need, c :: cs =>
    if c = 0x5C then c :: indentFrom .esc depth need cs
    else if c = 0x22 then c :: indentFrom .out depth need cs
    else c :: indentFrom .str depth need cs
  | _, depth, need, c :: cs => c :: indentFrom .str depth need cs

/-! ## Code of /repo -/

/-- /repo/catalog/json.go:377-385 `writeKeyValue`; a key needs no escaping. -/
def writeKeyValue (key value : Bytes) : Bytes := 0x22 :: key ++ b!"\": " ++ quote value

/-- /repo/catalog/json.go:402-418: the texts of the named categories; `i` counts those already written. -/
def categoryTexts (tr : GoMap Int Bytes) : Nat → List Int → Bytes
  | _, [] => []
  | i, cat :: cats =>
    match tr.get? cat with
    | none => categoryTexts tr i cats
    | some value =>
      (if i > 0 then [0x2C] else []) ++ writeKeyValue (categoryKey cat) value ++ categoryTexts tr (i + 1) cats

/-- /repo/catalog/json.go:360-422 `JSONMessage.MarshalJSON`: the text it returns, which need not be JSON. -/
def JsonMessage.text (m : JsonMessage) : Bytes :=
  let tr : GoMap Int Bytes := if m.tr = [] then [(other, [])] else m.tr
  if m.comment = [] ∧ m.context = [] ∧ tr.length = 1 then quote ((tr.get? other).getD [])
  else
    0x7B :: (if m.comment = [] then [] else writeKeyValue b!"comment" m.comment ++ [0x2C]) ++
      (if m.context = [] then [] else writeKeyValue b!"context" m.context ++ [0x2C]) ++
      categoryTexts tr 0 [0, 1, 2, 3, 4, 5] ++ [0x7D]

/-- /repo/catalog/json.go:229-246: the loop over the sorted keys; `i` is the index of the first one. -/
def memberTexts (messages : GoMap Bytes JsonMessage) : Nat → List Bytes → Option Bytes
  | _, [] => some []
  | i, k :: ks =>
    match (messages.get? k).bind fun m => compact m.text with
    | none => none
    | some data =>
      match memberTexts messages (i + 1) ks with
      | none => none
      | some rest => some ((if i > 0 then [0x2C] else []) ++ quote k ++ 0x3A :: data ++ rest)

/-- /repo/catalog/json.go:215-250 `jsonCatalog.MarshalJSON`: the text it returns. -/
def JsonCatalog.text (c : JsonCatalog) : Option Bytes :=
  let messages := flatten [] c.lookupMap
  (memberTexts messages 0 (sortBy bytesLe messages.keys)).map fun s => 0x7B :: s ++ [0x7D]

/-- /repo/catalog/json_encoder.go:19-32 `JSONEncoder.Encode`: the bytes written, `none` for an error; the argument
`none` is the nil catalog.  `Encoder.Encode` compacts the text, indents it and ends it with a line break. -/
def jsonEncode : Option JsonCatalog → Option Bytes
  | none => some b!"{}"
  | some c => (c.text.bind compact).map fun s => indentFrom .out 0 false s ++ [0x0A]

/-- /repo/catalog/json_decoder.go:17-24 `JSONDecoder.Decode` of a text. -/
def jsonDecodeText (names : List Int) (lower : Char → Char) (order : GoMap Bytes Bytes → GoMap Bytes Bytes)
    (fileOrder : GoMap Bytes (Option JsonMessage) → GoMap Bytes (Option JsonMessage)) (lang : Tag) (domain : Bytes)
    (data : Bytes) : Except JsonErr (Option JsonCatalog) :=
  match readJson data with
  | none => .error .decode
  | some j => jsonDecode names lower order fileOrder lang domain j

end Verif.Model.Catalog
