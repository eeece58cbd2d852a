import Verif.Model.Po.Parser
/-!
# The PO parser with its state

Models /repo/catalog/po/{scanner,parser}.go once more, this time with every field of `scanner` and `Parser`:
the one-line and one-token memories (`n`, `lastToken`, `lastLiteral`, `lineScanner.Text()`), the line number
`pos`, and the line number and line that an error text shows.  `Verif.Model.Po.Parser` is the view without
this state; `Verif.Props.PoState` proves that both agree, for every history of the parser.

`for` and `return s.scan()` have no bound in Go.  Here every loop gets a number of steps and `hang` is the
outcome if it is used up; the theorems hold for every number that is large enough.  The two loops of
`parseMessage`, `parseComment` and `parseFile` hand the full number `F` to the functions they call.
-/
namespace Verif.Model.Po.Machine
open Verif.Go

/-- /repo/catalog/po/scanner.go:29-38 `scanner`.  `rest` are the lines that `lineScanner` did not deliver yet, `text`
is `lineScanner.Text()`. -/
structure Scanner where
  rest : List Bytes
  text : Bytes
  lastToken : Token
  pos : Nat
  n : Bool
  ignoreComments : Bool
  deriving DecidableEq, Repr

/-- /repo/catalog/po/scanner.go:40-45 `newScanner`, and 61 of parser.go. -/
def newScanner (ignore : Bool) (lines : List Bytes) : Scanner := ⟨lines, [], .eof, 0, false, ignore⟩

/-- /repo/catalog/po/scanner.go:202-217 `read`; `none` is `io.EOF`.  The test of line 211 never succeeds: `Err` is nil
after a successful `Scan`.  At the end `Text` is empty. -/
def Scanner.read (s : Scanner) : Option Bytes × Scanner :=
  if s.n then (some s.text, { s with n := false })
  else match s.rest with
    | [] => (none, { s with text := [] })
    | l :: ls => (some l, { s with rest := ls, text := l, pos := s.pos + 1 })

/-- /repo/catalog/po/scanner.go:220 `unread`. -/
def Scanner.unread (s : Scanner) : Scanner := { s with n := true }

/-- /repo/catalog/po/scanner.go:184-200 `scanWhitespace`; the token is always `whitespace` with the empty literal. -/
def Scanner.scanWhitespace : Nat → Scanner → Option Scanner
  | 0, _ => none
  | f + 1, s =>
    match s.read with
    | (none, s) => some s
    | (some line, s) => if line = [] ∨ trimSpace line = [] then Scanner.scanWhitespace f s else some s.unread

/-- /repo/catalog/po/scanner.go:49-51: the deferred assignment. -/
def Scanner.done (tok : Token) (lit : Bytes) (s : Scanner) : Token × Bytes × Scanner := (tok, lit, { s with lastToken := tok })

/-- /repo/catalog/po/scanner.go:47-76 `scan`. -/
def Scanner.scan : Nat → Scanner → Option (Token × Bytes × Scanner)
  | 0, _ => none
  | f + 1, s =>
    match s.read with
    | (none, s) => some (Scanner.done .eof [] s)
    | (some line, s) =>
      if line = [] ∨ trimSpace line = [] then (Scanner.scanWhitespace f s).map (Scanner.done .whitespace [])
      else match lineToken s.ignoreComments s.lastToken (trimSpace line) with
        | some tok => some (Scanner.done tok (trimSpace line) s)
        | none => (Scanner.scan f s).map fun r => Scanner.done r.1 r.2.1 r.2.2

/-- /repo/catalog/po/parser.go:13-23 `Parser`. -/
structure Parser where
  s : Scanner
  lastToken : Token
  lastLiteral : Bytes
  n : Bool
  st : PState
  ignoreComments : Bool
  deriving DecidableEq, Repr

/-- /repo/catalog/po/parser.go:25-29 `NewParser`.  There is no scanner before the first call of `Parse`; every call
of `Parse` makes its own. -/
def newParser : Parser := ⟨newScanner false [], .eof, [], false, ⟨none, []⟩, false⟩

/-- Outcome of a method of the parser, with the parser as it leaves it.  An error carries the line number and
the line that its text shows (/repo/catalog/po/parser.go:90, 108, 191, 308). -/
inductive Out (α : Type)
  | ok (a : α) (p : Parser)
  | eof (p : Parser)
  | error (e : ParseError) (line : Nat) (text : Bytes) (p : Parser)
  | panic (p : Parser)
  | hang
  deriving Repr

/-- Sequencing. -/
def Out.bind {α β : Type} : Out α → (α → Parser → Out β) → Out β
  | .ok a p, k => k a p
  | .eof p, _ => .eof p
  | .error e l t p, _ => .error e l t p
  | .panic p, _ => .panic p
  | .hang, _ => .hang

/-- What a step without calls of `scan` does; its errors are built with `p.s.pos` and `p.s.currentLine()`
(/repo/catalog/po/parser.go:308-310 `buildPosError`, scanner.go:219). -/
def Parser.lift {α : Type} (p : Parser) : Res α → Out α
  | .ok a => .ok a p
  | .eof => .eof p
  | .error e => .error e p.s.pos p.s.text p
  | .panic => .panic p
  | .hang => .hang

/-- /repo/catalog/po/parser.go:312-323 `scan`. -/
def Parser.scan (F : Nat) (p : Parser) : Out (Token × Bytes) :=
  if p.n then .ok (p.lastToken, p.lastLiteral) { p with n := false }
  else match Scanner.scan F p.s with
    | none => .hang
    | some (tok, lit, s) => .ok (tok, lit) { p with s := s, lastToken := tok, lastLiteral := lit }

/-- /repo/catalog/po/parser.go:325 `unscan`. -/
def Parser.unscan (p : Parser) : Parser := { p with n := true }

/-- /repo/catalog/po/parser.go:208-284 `parseComment`. -/
def Parser.parseComment (F : Nat) : Nat → Comment → Parser → Out Comment
  | 0, _, _ => .hang
  | f + 1, c, p =>
    (p.scan F).bind fun (tok, lit) p =>
      if tok = .eof then .eof p
      else if tok = .failure then p.lift (.error .position)
      else if tok.isComment then (p.lift (commentStep c tok lit)).bind fun c p => Parser.parseComment F f c p
      else .ok c p.unscan

/-- /repo/catalog/po/parser.go:137-154: the first loop of `parseMessage`. -/
def Parser.commentLoop (F : Nat) : Nat → Message → Parser → Out Message
  | 0, _, _ => .hang
  | f + 1, m, p =>
    (p.scan F).bind fun (tok, _) p =>
      if tok.isComment then
        (Parser.parseComment F F Comment.new p.unscan).bind fun c p => Parser.commentLoop F f { m with comment := some c } p
      else .ok m p.unscan

/-- /repo/catalog/po/parser.go:156-205: the second loop of `parseMessage`. -/
def Parser.messageLoop (F : Nat) : Nat → Message → Parser → Out Message
  | 0, _, _ => .hang
  | f + 1, m, p =>
    (p.scan F).bind fun (tok, lit) p =>
      if tok = .failure then p.lift (.error .position)
      else if tok.endsMessage then .ok m p
      else (p.lift (messageStep m tok lit)).bind fun m p => Parser.messageLoop F f m p

/-- /repo/catalog/po/parser.go:129-206 `parseMessage`. -/
def Parser.parseMessage (F : Nat) (p : Parser) : Out Message :=
  (p.scan F).bind fun (tok, _) p =>
    if tok = .eof then .eof p
    else (Parser.commentLoop F F Message.new p.unscan).bind fun m p => Parser.messageLoop F F m p

/-- /repo/catalog/po/parser.go:74-116: the loop of `parseFile`.  `store` is lines 83-111; the test of line 113 is only
reached for a message with an id. -/
def Parser.fileLoop (u : Unicode) (F : Nat) : Nat → Parser → Out Unit
  | 0, _ => .hang
  | f + 1, p =>
    match Parser.parseMessage F p with
    | .eof p => .ok () p
    | .error e l t p => .error e l t p
    | .panic p => .panic p
    | .hang => .hang
    | .ok m p =>
      (p.lift (store u p.st m)).bind fun st p =>
        let p := { p with st := st }
        if m.id ≠ [] ∧ p.lastToken = .eof then .ok () p else Parser.fileLoop u F f p

/-- /repo/catalog/po/parser.go:72-127 `parseFile`. -/
def Parser.parseFile (u : Unicode) (F : Nat) (p : Parser) : Out File :=
  (Parser.fileLoop u F F p).bind fun _ p => p.lift (finish p.st)

/-- /repo/catalog/po/parser.go:53-56 `reset`. -/
def Parser.reset (p : Parser) : Parser := { p with st := ⟨none, []⟩ }

/-- /repo/catalog/po/parser.go:58-70 `Parse` on a reader with the given lines. -/
def Parser.parse (u : Unicode) (F : Nat) (p : Parser) (lines : List Bytes) : Out File :=
  let p := { p.reset with s := newScanner p.ignoreComments lines }
  (p.scan F).bind fun (tok, _) p =>
    if tok = .eof then p.lift (.error .empty)
    else p.unscan.parseFile u F

/-- /repo/catalog/po/parser.go:51 `SetIgnoreComments`. -/
def Parser.setIgnoreComments (p : Parser) (ignore : Bool) : Parser := { p with ignoreComments := ignore }

end Verif.Model.Po.Machine
