import Verif.Model.Po.Scanner
import Verif.Model.PoString
/-!
# The parser for PO files

Models /repo/catalog/po/parser.go.  The state of the parser is the list of tokens that are not consumed
yet (the empty list: end of file).  `p.scan()` takes the first token; `p.unscan()` puts the last token
back, so the parser goes on with the list it had before.  Error texts and line numbers are left out.
-/
namespace Verif.Model.Po
open Verif.Go Verif.Model.PoString

/-- Reasons for an error of the parser. -/
inductive ParseError
  | empty          -- parser.go:65, 119
  | secondHeader   -- parser.go:90
  | duplicate      -- parser.go:108
  | badIndex       -- parser.go:191
  | position       -- parser.go:160, 199, 203, 217 `buildPosError`
  deriving DecidableEq, Repr

/-- Outcome of a parser function: a result, `io.EOF`, another error, a panic, or no return at all. -/
inductive Res (α : Type)
  | ok (a : α)
  | eof
  | error (e : ParseError)
  | panic
  | hang
  deriving DecidableEq, Repr

/-- Sequencing: anything but a result ends the computation. -/
def Res.bind {α β : Type} : Res α → (α → Res β) → Res β
  | .ok a, k => k a
  | .eof, _ => .eof
  | .error e, _ => .error e
  | .panic, _ => .panic
  | .hang, _ => .hang

/-- /repo/catalog/po/po_string.go:15-34 `DecodePoString`; `hang` stands for the loop that does not end.
The number of steps is enough for every text on which the decoder returns at all
(`Verif.Proofs.Po.decode_ok`, `decode_hang`). -/
def decode (text : Bytes) : Res Bytes :=
  match decodePoStringFuel text.length text with
  | some r => .ok r
  | none => .hang

/-- Go `s[k:]`. -/
def from? (k : Nat) (s : Bytes) : Res Bytes := if k ≤ s.length then .ok (s.drop k) else .panic

/-- The tokens with which `parseMessage` calls `parseComment` (/repo/catalog/po/parser.go:141-142) and
which end a message (161-162). -/
def Token.isComment : Token → Bool
  | .commentTranslator | .commentExtracted | .commentReference | .commentFlags
  | .commentPrevContext | .commentPrevMsgID | .commentPrevMsgIDLine | .commentPrevContextLine => true
  | _ => false

/-- /repo/catalog/po/parser.go:220-223 and 226-229. -/
def addLine (text line : Bytes) : Bytes := (if text ≠ [] then text ++ [0x0a] else text) ++ line

/-- /repo/catalog/po/parser.go:257-277: one reference. -/
def parseReference (raw : Bytes) : Reference :=
  let raw := trimSpace raw
  match indexByte? 0x3a raw with
  | none | some 0 => ⟨raw, -1, 0⟩
  | some i => ⟨raw.take i, (atoi (raw.drop (i + 1))).getD (-1), 0⟩

/-- /repo/catalog/po/parser.go:232: separators of flags. -/
def isFlagSep (c : Char) : Bool := isSpace c || c = ','

/-- /repo/catalog/po/parser.go:235-239 and 244-248: the text is decoded unless it is empty. -/
def decodePrev (old line : Bytes) : Res Bytes :=
  if trimSpace line = [] then .ok old
  else (decode (trimSpace line)).bind fun r => .ok (old ++ r)

/-- /repo/catalog/po/parser.go:218-278: the effect of a comment token on the comment. -/
def commentStep (c : Comment) (tok : Token) (lit : Bytes) : Res Comment :=
  match tok with
  | .commentTranslator => (from? 1 lit).bind fun l => .ok { c with translator := addLine c.translator (trimSpace l) }
  | .commentExtracted => (from? 2 lit).bind fun l => .ok { c with extracted := addLine c.extracted (trimSpace l) }
  | .commentFlags => (from? 2 lit).bind fun l =>
      .ok { c with flags := c.flags ++ fieldsFunc isFlagSep (trimSpace l) }
  | .commentPrevContext => (from? 10 lit).bind fun l =>
      (decodePrev c.prevMsgContext l).bind fun r => .ok { c with prevMsgContext := r }
  | .commentPrevContextLine => (from? 2 lit).bind fun l =>
      (decode (trimSpace l)).bind fun r => .ok { c with prevMsgContext := c.prevMsgContext ++ r }
  | .commentPrevMsgID => (from? 8 lit).bind fun l =>
      (decodePrev c.prevMsgID l).bind fun r => .ok { c with prevMsgID := r }
  | .commentPrevMsgIDLine => (from? 2 lit).bind fun l =>
      (decode (trimSpace l)).bind fun r => .ok { c with prevMsgID := c.prevMsgID ++ r }
  | .commentReference => (from? 2 lit).bind fun l =>
      .ok { c with references := c.references ++ (splitByte 0x20 (trimSpace l)).map parseReference }
  | _ => .ok c

/-- /repo/catalog/po/parser.go:208-284 `parseComment`: the loop. -/
def parseComment (c : Comment) : List Tok → Res (Comment × List Tok)
  | [] => .eof
  | (tok, lit) :: ts =>
    if tok = .failure then .error .position
    else if tok.isComment then (commentStep c tok lit).bind fun c => parseComment c ts
    else .ok (c, (tok, lit) :: ts)

/-- The value of `m[k]` in Go: the empty string if there is none. -/
def strAt (str : GoMap Int Bytes) (i : Int) : Bytes := (str.get? i).getD []

/-- /repo/catalog/po/parser.go:186-195: a line `msgstr[i] "..."`. -/
def pluralStep (m : Message) (lit : Bytes) : Res Message :=
  match indexByte? 0x5b lit, indexByte? 0x5d lit with
  | some left, some right =>
    if left + 1 ≤ right then
      match atoi (slice lit (left + 1) right) with
      | none => .error .badIndex
      | some i => (from? 10 lit).bind fun l => (decode l).bind fun r => .ok { m with str := m.str.set i r }
    else .panic
  | _, _ => .panic

/-- /repo/catalog/po/parser.go:165-203: the effect of a token on the message. -/
def messageStep (m : Message) (tok : Token) (lit : Bytes) : Res Message :=
  match tok with
  | .msgContext => (from? 8 lit).bind fun l => (decode l).bind fun r => .ok { m with context := r }
  | .msgContextLine => (decode lit).bind fun r => .ok { m with context := m.context ++ r }
  | .msgID => (from? 6 lit).bind fun l => (decode l).bind fun r => .ok { m with id := r }
  | .msgIDLine => (decode lit).bind fun r => .ok { m with id := m.id ++ r }
  | .msgIDPlural => (from? 13 lit).bind fun l => (decode l).bind fun r => .ok { m with idPlural := r }
  | .msgIDPluralLine => (decode lit).bind fun r => .ok { m with idPlural := m.idPlural ++ r }
  | .msgStr => (from? 7 lit).bind fun l => (decode l).bind fun r => .ok { m with str := m.str.set 0 r }
  | .msgStrLine => (decode lit).bind fun r => .ok { m with str := m.str.set 0 (strAt m.str 0 ++ r) }
  | .msgStrPlural => pluralStep m lit
  | .msgStrPluralLine =>
      if m.str.length = 0 then .error .position
      else (decode lit).bind fun r =>
        .ok { m with str := m.str.set (m.str.length - 1 : Int) (strAt m.str (m.str.length - 1 : Int) ++ r) }
  | _ => .error .position

/-- /repo/catalog/po/parser.go:161-164: the tokens that end a message; they are consumed. -/
def Token.endsMessage (t : Token) : Bool := t = .eof || t = .whitespace || t.isComment

/-- /repo/catalog/po/parser.go:156-205: the second loop of `parseMessage`. -/
def messageLoop (m : Message) : List Tok → Res (Message × List Tok)
  | [] => .ok (m, [])
  | (tok, lit) :: ts =>
    if tok.endsMessage then .ok (m, ts)
    else (messageStep m tok lit).bind fun m => messageLoop m ts

/-- /repo/catalog/po/parser.go:129-206 `parseMessage`.  The first loop (138-154) calls `parseComment` at most
once: `parseComment` stops in front of a token that is none of its comment tokens. -/
def parseMessage : List Tok → Res (Message × List Tok)
  | [] => .eof
  | (tok, lit) :: ts =>
    if tok.isComment then
      (parseComment .new ((tok, lit) :: ts)).bind fun (c, ts) => messageLoop { Message.new with comment := some c } ts
    else messageLoop .new ((tok, lit) :: ts)

/-- /repo/catalog/po/parser.go:289-302: the loop of `parseHeader`; `none` is the error of line 296. -/
def headerLoop (u : Unicode) (h : Header) : List Bytes → Option Header
  | [] => some h
  | line :: lines =>
    match indexByte? 0x3a line with
    | none => if trimSpace line = [] then headerLoop u h lines else none
    | some i => headerLoop u (h.set u (trimSpace (line.take i)) (trimSpace (line.drop (i + 1)))) lines

/-- /repo/catalog/po/parser.go:286-306 `parseHeader`. -/
def parseHeader (u : Unicode) (m : Message) : Option Header :=
  (headerLoop u {} (splitByte 0x0a (strAt m.str 0))).map fun h => { h with comment := m.comment }

/-- The fields `header` and `messages` of the parser. -/
structure PState where
  header : Option Header
  messages : Messages
  deriving DecidableEq, Repr

/-- /repo/catalog/po/parser.go:83-111: what happens with a message. -/
def store (u : Unicode) (st : PState) (m : Message) : Res PState :=
  if m.id = [] then
    if m.str = [] then .ok st
    else if st.header.isSome then .error .secondHeader
    else match parseHeader u m with
      | some h => .ok { st with header := some h }
      | none => .ok st
  else
    let inner := (st.messages.get? m.context).getD []
    match inner.get? m.id with
    | some _ => .error .duplicate
    | none => .ok { st with messages := st.messages.set m.context (inner.set m.id m) }

/-- /repo/catalog/po/parser.go:74-116: the loop of `parseFile`.  Every call of `parseMessage` consumes a
token, so the number of tokens bounds the iterations (`Verif.Proofs.Po.fileLoop_enough`). The test of line 113 is left out: if the last
token is the end of the file, the next call of `parseMessage` returns `io.EOF`. -/
def fileLoop (u : Unicode) : Nat → PState → List Tok → Res PState
  | 0, st, _ => .ok st
  | f + 1, st, ts =>
    match parseMessage ts with
    | .eof => .ok st
    | .error e => .error e
    | .panic => .panic
    | .hang => .hang
    | .ok (m, rest) => (store u st m).bind fun st => fileLoop u f st rest

/-- /repo/catalog/po/parser.go:118-126: the end of `parseFile`. -/
def finish (st : PState) : Res File :=
  match st.header with
  | none => if st.messages = [] then .error .empty else .ok ⟨some {}, st.messages⟩
  | some h => .ok ⟨some h, st.messages⟩

/-- /repo/catalog/po/parser.go:72-127 `parseFile`. -/
def parseFile (u : Unicode) (ts : List Tok) : Res File :=
  (fileLoop u (ts.length + 1) ⟨none, []⟩ ts).bind finish

/-- /repo/catalog/po/parser.go:58-70 `Parser.Parse` on the lines the line scanner delivers. -/
def parseLines (u : Unicode) (ignore : Bool) (ls : List Bytes) : Res File :=
  match tokens ignore ls with
  | [] => .error .empty
  | ts => parseFile u ts

/-- /repo/catalog/po/parser.go:58-70 `Parser.Parse` for an in-memory reader (`Parse`, `ParseString`,
40-46; there `ignoreComments` is off). -/
def parse (u : Unicode) (ignore : Bool) (content : Bytes) : Res File := parseLines u ignore (scanLines content)

end Verif.Model.Po
