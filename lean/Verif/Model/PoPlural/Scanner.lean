/-!
# catalog/poplural/ast/scanner.go, token.go

The scanner of plural formulas.  The reader is the list of runes still to be read
(`bufio.Reader.ReadRune` over `strings.NewReader`, malformed bytes already replaced by U+FFFD).
-/
namespace Verif.Model.PoPlural

/-- The operators a `BinaryExpr` can carry, catalog/poplural/ast/token.go:13-22.  Simplification:
the Go field has the type `Token`, but the parser stores only these. -/
inductive Op
  | and | or | eq | ne | gt | ge | lt | le | rem
  deriving DecidableEq, Repr

/-- catalog/poplural/ast/token.go:5-28.  The literal is kept only for `Value`; the literals of
other tokens are used in error messages only. -/
inductive Tok
  | eof | ws | failure
  | value (lit : List Char)
  | operand | plural | nplurals | assign
  | op (o : Op)
  | question | colon | semicolon | lparen | rparen
  deriving DecidableEq, Repr

/-- catalog/poplural/ast/scanner.go:163 `isWhitespace`. -/
def isWs (c : Char) : Bool := c = ' ' || c = '\t' || c = '\n'

/-- catalog/poplural/ast/scanner.go:165 `isLetter`. -/
def isLetter (c : Char) : Bool := ('a' ≤ c && c ≤ 'z') || ('A' ≤ c && c ≤ 'Z')

/-- catalog/poplural/ast/scanner.go:167 `isDigit`. -/
def isDigit (c : Char) : Bool := '0' ≤ c && c ≤ '9'

/-- The loops catalog/poplural/ast/scanner.go:92-102, 112-121, 130-139: consume while `p` holds.
`scannerEOF` is the NUL rune (line 170), so a NUL in the text ends the loop like the end of input,
but has been consumed. -/
def scanWhile (p : Char → Bool) : List Char → List Char × List Char
  | [] => ([], [])
  | c :: cs =>
    if c = '\x00' then ([], cs)
    else if p c then
      let (l, r) := scanWhile p cs
      (c :: l, r)
    else ([], c :: cs)

/-- `strings.ToLower` on ASCII letters and underscores (scanner.go:141). -/
def lower (c : Char) : Char := if 'A' ≤ c ∧ c ≤ 'Z' then Char.ofNat (c.toNat + 32) else c

/-- catalog/poplural/ast/scanner.go:141-150: keyword of a word. -/
def wordTok (w : List Char) : Tok :=
  let l := w.map lower
  if l = "nplurals".toList then .nplurals
  else if l = "plural".toList then .plural
  else if l = "n".toList then .operand
  else .failure

/-- catalog/poplural/ast/scanner.go:58-71: two character operators. -/
def twoChar (c d : Char) : Option Tok :=
  if c = '!' ∧ d = '=' then some (.op .ne)
  else if c = '&' ∧ d = '&' then some (.op .and)
  else if c = '=' ∧ d = '=' then some (.op .eq)
  else if c = '|' ∧ d = '|' then some (.op .or)
  else if c = '>' ∧ d = '=' then some (.op .ge)
  else if c = '<' ∧ d = '=' then some (.op .le)
  else none

/-- catalog/poplural/ast/scanner.go:74-81, 84: the same characters alone. -/
def oneChar (c : Char) : Tok :=
  if c = '<' then .op .lt
  else if c = '>' then .op .gt
  else if c = '=' then .assign
  else .failure

/-- catalog/poplural/ast/scanner.go:56-82: operators that may have two characters.  At the end of
input `read` returns NUL and there is nothing to unread; otherwise the second character is unread
(line 73) if it does not belong to the operator. -/
def scanOp (c : Char) (cs : List Char) : Tok × List Char :=
  match cs with
  | [] => (oneChar c, [])
  | d :: ds =>
    match twoChar c d with
    | some t => (t, ds)
    | none => (oneChar c, d :: ds)

/-- catalog/poplural/ast/scanner.go:24-85 `scan`. -/
def scan : List Char → Tok × List Char
  | [] => (.eof, [])
  | c :: cs =>
    if c = '\x00' then (.eof, cs)
    else if isWs c then (.ws, (scanWhile isWs cs).2)
    else if isLetter c then
      let (l, r) := scanWhile (fun d => isLetter d || d = '_') cs
      (wordTok (c :: l), r)
    else if isDigit c then
      let (l, r) := scanWhile (fun d => isDigit d || d = '_') cs
      (.value (c :: l), r)
    else if c = '%' then (.op .rem, cs)
    else if c = '?' then (.question, cs)
    else if c = ':' then (.colon, cs)
    else if c = ';' then (.semicolon, cs)
    else if c = '(' then (.lparen, cs)
    else if c = ')' then (.rparen, cs)
    else if c = '&' ∨ c = '!' ∨ c = '|' ∨ c = '<' ∨ c = '>' ∨ c = '=' then scanOp c cs
    else (.failure, cs)

/-- catalog/poplural/ast/parser.go:338-344 `scanIgnoreWhitespace` (with `scan`, lines 324-335; the
push-back counter `n` is never set). -/
def next (cs : List Char) : Tok × List Char :=
  match scan cs with
  | (.ws, r) => scan r
  | p => p

end Verif.Model.PoPlural
