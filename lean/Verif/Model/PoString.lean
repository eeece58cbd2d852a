import Verif.Go.Utf8
/-!
# catalog/po/po_string.go, internal/util/string_buffer.go

Model of the PO string encoder and decoder.
-/
namespace Verif.Model.PoString
open Verif.Go

/-! ## internal/util/string_buffer.go -/

/-- internal/util/string_buffer.go:5-8 `StringBuffer`: bytes plus a rune counter. -/
structure SB where
  buff : Bytes
  len : Nat
  deriving DecidableEq, Repr

/-- internal/util/string_buffer.go:14-17 `Reset` (also the zero value). -/
def SB.empty : SB := ⟨[], 0⟩

/-- internal/util/string_buffer.go:19-23 `WriteInto(w)`: returns (emptied source, extended target).
`bytes.Buffer.WriteTo` drains the source. -/
def SB.writeInto (b w : SB) : SB × SB := (⟨[], 0⟩, ⟨w.buff ++ b.buff, w.len + b.len⟩)

/-- internal/util/string_buffer.go:29-32 `WriteRune`. -/
def SB.writeRune (b : SB) (r : Char) : SB := ⟨b.buff ++ encodeRune r, b.len + 1⟩

/-! ## Escaping -/

/-- catalog/po/po_string.go:162-259 `safeSet[b]`, an array of length 128. -/
def safeSet (b : UInt8) : Bool := 0x20 ≤ b.toNat && b.toNat ≤ 0x7f && b ≠ 0x22 && b ≠ 0x5c

/-- catalog/po/po_string.go:261 `hex`. -/
def hex : Bytes := b!"0123456789abcdef"

/-- Indexing `hex[i]` as in catalog/po/po_string.go:297-298; panics outside of the string. -/
def hexAt (i : Nat) : Run UInt8 :=
  match hex[i]? with
  | some c => .ok c
  | none => .error .indexOutOfRange

/-- catalog/po/po_string.go:277-299: the bytes written for an unsafe ASCII byte. -/
def escapeByte (b : UInt8) : Run Bytes :=
  if b = 0x5c ∨ b = 0x22 then .ok [0x5c, b]
  else if b = 0x0a then .ok [0x5c, 0x6e]
  else if b = 0x0d then .ok [0x5c, 0x72]
  else if b = 0x09 then .ok [0x5c, 0x74]
  else if b = 0x07 then .ok [0x5c, 0x61]
  else if b = 0x08 then .ok [0x5c, 0x62]
  else if b = 0x0c then .ok [0x5c, 0x66]
  else if b = 0x0b then .ok [0x5c, 0x76]
  else do
    let h ← hexAt (b.toNat / 16)
    let inner ← hexAt (b.toNat % 16)
    let l ← hexAt inner.toNat
    .ok [0x5c, 0x78, h, l]

/-- catalog/po/po_string.go:267-323: main loop of `escapePoString`.  `pending` is
`s[start:i]`, `out` the content of `buf`, `rem` is `s[i:]`.  Fuel is an upper bound of
the iterations (every iteration consumes a byte). -/
def escLoop : Nat → (rem pending out : Bytes) → Run Bytes
  | 0, _, pending, out => .ok (out ++ pending)
  | _ + 1, [], pending, out => .ok (out ++ pending)
  | f + 1, b :: bs, pending, out =>
    if b.toNat < 0x80 then
      if safeSet b then escLoop f bs (pending ++ [b]) out
      else do
        let e ← escapeByte b
        escLoop f bs [] (out ++ pending ++ e)
    else
      let (c, k) := decodeRune (b :: bs)
      if c = runeError ∧ k = 1 then
        escLoop f ((b :: bs).drop k) [] (out ++ pending ++ b!"\\ufffd")
      else
        escLoop f ((b :: bs).drop k) (pending ++ (b :: bs).take k) out

/-- catalog/po/po_string.go:263-324 `escapePoString`. -/
def escapePoString (s : Bytes) : Run Bytes := escLoop s.length s [] []

/-- `fmt.Sprintf("\"%s\"", s)`, catalog/po/po_string.go:76,121,147. -/
def quote (s : Bytes) : Bytes := [0x22] ++ s ++ [0x22]

/-! ## Encoding -/

/-- catalog/po/po_string.go:134-144: loop of `encodePoStringWithoutWrap`; the accumulator is
(`lines`, `buf`). -/
def withoutWrapLoop : List Char → List Bytes → Bytes → Run (List Bytes × Bytes)
  | [], lines, buf => .ok (lines, buf)
  | c :: cs, lines, buf =>
    if c = '\n' then do
      let e ← escapePoString buf
      withoutWrapLoop cs (lines ++ [quote (e ++ b!"\\n")]) []
    else withoutWrapLoop cs lines (buf ++ encodeRune c)

/-- catalog/po/po_string.go:128-152 `encodePoStringWithoutWrap`. -/
def encodeWithoutWrap (s : Bytes) : Run (List Bytes) := do
  let (lines, buf) ← withoutWrapLoop (runes s) [] []
  if buf ≠ [] ∨ lines.length = 0 then
    let e ← escapePoString buf
    .ok (lines ++ [quote e])
  else .ok lines

/-- catalog/po/po_string.go:67-73: local variables of `encodePoStringWithWrap`. -/
structure WrapState where
  lines : List Bytes
  line : SB
  word : SB
  space : SB
  currentLen : Int
  deriving DecidableEq, Repr

/-- catalog/po/po_string.go:75-80 `createNewLine`. -/
def createNewLine (st : WrapState) : Run WrapState := do
  let e ← escapePoString st.line.buff
  .ok { st with lines := st.lines ++ [quote e], line := SB.empty, currentLen := 0 }

/-- catalog/po/po_string.go:84-85 (also 105-106, 110-111, 118-119):
`lastWordBuf.WriteInto(lineBuf); currentSpaceBuf.WriteInto(lineBuf)`. -/
def flushWord (st : WrapState) : WrapState :=
  let (w, l) := st.word.writeInto st.line
  let (s, l) := st.space.writeInto l
  { st with word := w, space := s, line := l }

/-- catalog/po/po_string.go:93-95 and 99-101. -/
def breakIfFull (width : Int) (st : WrapState) : Run WrapState :=
  if st.currentLen + st.word.len + st.space.len - 1 ≥ width ∧ st.currentLen > 0 then
    createNewLine st
  else .ok st

/-- `nbsp`, catalog/po/po_string.go:13. -/
def nbsp : Char := Char.ofNat 0xA0

/-- catalog/po/po_string.go:84-88: the newline branch. -/
def wrapNewline (st : WrapState) : Run WrapState :=
  let st := flushWord st
  createNewLine { st with line := st.line.writeRune '\n' }

/-- catalog/po/po_string.go:93-101: the branch for a breakable space. -/
def wrapSpace (width : Int) (st : WrapState) (c : Char) : Run WrapState := do
  let st ← breakIfFull width st
  breakIfFull width { st with space := st.space.writeRune c }

/-- catalog/po/po_string.go:104-108: break before a word if the line buffer is empty. -/
def breakBeforeWord (width : Int) (st : WrapState) : Run WrapState :=
  if st.currentLen + st.word.len + st.space.len + 1 ≥ width ∧ st.currentLen = 0 then
    createNewLine (flushWord st)
  else .ok st

/-- catalog/po/po_string.go:103-112: a word starts after spaces. -/
def startWord (width : Int) (st : WrapState) : Run WrapState :=
  if st.space.len > 0 then do
    let st ← breakBeforeWord width st
    .ok (flushWord st)
  else .ok st

/-- catalog/po/po_string.go:103-114: the branch for all other characters. -/
def wrapOther (width : Int) (st : WrapState) (c : Char) : Run WrapState := do
  let st ← startWord width st
  .ok { st with word := st.word.writeRune c }

/-- catalog/po/po_string.go:91: `currentLen = lineBuf.Len()`. -/
def setLen (st : WrapState) : WrapState := { st with currentLen := st.line.len }

/-- catalog/po/po_string.go:83-115: one iteration of the loop of `encodePoStringWithWrap`. -/
def wrapStep (width : Int) (st : WrapState) (c : Char) : Run WrapState :=
  if c = '\n' then wrapNewline st
  else if isSpace c ∧ c ≠ nbsp then wrapSpace width (setLen st) c
  else wrapOther width (setLen st) c

/-- catalog/po/po_string.go:82-116: the loop. -/
def wrapLoop (width : Int) : List Char → WrapState → Run WrapState
  | [], st => .ok st
  | c :: cs, st => do
    let st ← wrapStep width st c
    wrapLoop width cs st

/-- catalog/po/po_string.go:66-126 `encodePoStringWithWrap`. -/
def encodeWithWrap (s : Bytes) (width : Int) : Run (List Bytes) := do
  let st ← wrapLoop width (runes s) ⟨[], SB.empty, SB.empty, SB.empty, 0⟩
  let st := flushWord st
  if st.line.buff ≠ [] ∨ st.lines.length = 0 then
    let e ← escapePoString st.line.buff
    .ok (st.lines ++ [quote e])
  else .ok st.lines

/-- catalog/po/po_string.go:45-63: assembling the lines. -/
def assemble (lines : List Bytes) : Bytes :=
  match lines with
  | [l] => l
  | [l, m] =>
    if m = [] ∨ m = b!"\"\"" then l
    else join [0x0a] [b!"\"\"", l, m]
  | ls =>
    let ls := b!"\"\"" :: ls
    match ls.getLast? with
    | some l => if l = [] ∨ l = b!"\"\"" then join [0x0a] ls.dropLast else join [0x0a] ls
    | none => []

/-- catalog/po/po_string.go:36-64 `EncodePoString`. -/
def encodePoString (s : Bytes) (lim : Int) : Run Bytes := do
  let lines ← if lim ≤ 0 then encodeWithoutWrap s else encodeWithWrap s lim
  .ok (assemble lines)

/-! ## Decoding -/

/-- catalog/po/po_string.go:330-345: the scan for the first unusual byte; returns
`(s[:r], s[r:])`. -/
def fastScan : Nat → (done rem : Bytes) → Bytes × Bytes
  | 0, done, rem => (done, rem)
  | _ + 1, done, [] => (done, [])
  | f + 1, done, b :: bs =>
    if b = 0x5c ∨ b = 0x22 ∨ b.toNat < 0x20 then (done, b :: bs)
    else if b.toNat < 0x80 then fastScan f (done ++ [b]) bs
    else
      let (c, k) := decodeRune (b :: bs)
      if c = runeError ∧ k = 1 then (done, b :: bs)
      else fastScan f (done ++ (b :: bs).take k) ((b :: bs).drop k)

/-- catalog/po/po_string.go:367-403: what an escape letter stands for; `none` is the default
branch, which writes the backslash and does not consume the letter. -/
def unescapeLetter (b : UInt8) : Option UInt8 :=
  if b = 0x61 then some 0x07
  else if b = 0x22 ∨ b = 0x5c ∨ b = 0x2f ∨ b = 0x27 then some b
  else if b = 0x62 then some 0x08
  else if b = 0x66 then some 0x0c
  else if b = 0x6e then some 0x0a
  else if b = 0x72 then some 0x0d
  else if b = 0x74 then some 0x09
  else if b = 0x76 then some 0x0b
  else none

/-- catalog/po/po_string.go:352-417: the second loop of `unescapePoBytes`; `rem` is `s[r:]`, `out`
is `b[0:w]`.  Fuel counts iterations; `none` means the loop has not ended after that many
iterations.  The growing of the buffer `b` (lines 356-360) is not modelled: `out` grows as
needed.  For a backslash at the very end the `break` in line 364 leaves only
the `switch`: nothing is consumed. -/
def unescLoop : Nat → (rem out : Bytes) → Option Bytes
  | _, [], out => some out
  | 0, _ :: _, _ => none
  | f + 1, b :: bs, out =>
    if b = 0x5c then
      match bs with
      | [] => unescLoop f [b] out
      | e :: bs' =>
        match unescapeLetter e with
        | some x => unescLoop f bs' (out ++ [x])
        | none => unescLoop f (e :: bs') (out ++ [0x5c])
    else if b.toNat < 0x80 then unescLoop f bs (out ++ [b])
    else
      let (c, k) := decodeRune (b :: bs)
      unescLoop f ((b :: bs).drop k) (out ++ encodeRune c)

/-- catalog/po/po_string.go:326-419 `unescapePoBytes`, limited to `fuel` iterations of its
second loop. -/
def unescapePoBytes (fuel : Nat) (s : Bytes) : Option Bytes :=
  match fastScan s.length [] s with
  | (_, []) => some s
  | (done, rem) => unescLoop fuel rem done

/-- catalog/po/po_string.go:22-31: decoding of one line. -/
def decodeLine (fuel : Nat) (line : Bytes) : Option Bytes :=
  match indexByte? 0x22 line, lastIndexByte? 0x22 line with
  | some left, some right =>
    if left = right then some []
    else unescapePoBytes fuel (slice line (left + 1) right)
  | _, _ => some []

/-- catalog/po/po_string.go:21-32: the loop over the lines (in order; a hanging line hangs all). -/
def decodeLines (fuel : Nat) : List Bytes → Option (List Bytes)
  | [] => some []
  | l :: ls =>
    match decodeLine fuel l with
    | none => none
    | some x =>
      match decodeLines fuel ls with
      | none => none
      | some xs => some (x :: xs)

/-- catalog/po/po_string.go:15-34 `DecodePoString` limited to `fuel` iterations of any inner loop. -/
def decodePoStringFuel (fuel : Nat) (text : Bytes) : Option Bytes :=
  if text = b!"\"\"" then some []
  else
    match decodeLines fuel (splitByte 0x0a text) with
    | none => none
    | some ls => some (ls.flatMap id)

/-- `DecodePoString(text)` returns `r`: with enough iterations the result is `r`. -/
def Decodes (text r : Bytes) : Prop := ∃ fuel, decodePoStringFuel fuel text = some r

/-- `DecodePoString(text)` does not return: no number of iterations is enough. -/
def DecodeHangs (text : Bytes) : Prop := ∀ fuel, decodePoStringFuel fuel text = none

end Verif.Model.PoString
