import Verif.Model.PoString
/-!
# catalog/po/wrap.go

Model of the wrapping of comments.
-/
namespace Verif.Model.Wrap
open Verif.Go Verif.Model.PoString

/-- catalog/po/wrap.go:15-19: local variables of `wrapString`. -/
structure St where
  lines : List Bytes
  line : SB
  word : SB
  space : SB
  deriving DecidableEq, Repr

/-- catalog/po/wrap.go:26-27 (also 32-33, 46-47, 56-57):
`lastSpaceBuf.WriteInto(currentLine); currentWordBuf.WriteInto(currentLine)`. -/
def flush (st : St) : St :=
  let (s, l) := st.space.writeInto st.line
  let (w, l) := st.word.writeInto l
  { st with line := l, space := s, word := w }

/-- catalog/po/wrap.go:23-29: the newline branch. -/
def newline (st : St) : St :=
  let st := if st.word.len = 0 then { st with space := SB.empty } else st
  let st := flush st
  { st with lines := st.lines ++ [st.line.buff], line := SB.empty }

/-- catalog/po/wrap.go:31-36: the branch for breakable white space. -/
def space (st : St) (c : Char) : St :=
  let st := if st.word.len > 0 then flush st else st
  { st with space := st.space.writeRune c }

/-- catalog/po/wrap.go:39-43. -/
def emitLine (st : St) : St :=
  if st.line.len > 0 then
    { st with lines := st.lines ++ [st.line.buff], line := SB.empty, space := SB.empty }
  else st

/-- catalog/po/wrap.go:45-48. -/
def keepBlanks (st : St) : St := if st.space.len > 0 then flush st else st

/-- catalog/po/wrap.go:38-51: the branch for all other characters. -/
def other (width : Int) (st : St) (c : Char) : St :=
  let st :=
    if (st.line.len + st.space.len + st.word.len : Int) ≥ width then keepBlanks (emitLine st) else st
  { st with word := st.word.writeRune c }

/-- catalog/po/wrap.go:22-52: one iteration. -/
def step (width : Int) (st : St) (c : Char) : St :=
  if c = '\n' then newline st
  else if isSpace c ∧ c ≠ nbsp then space st c
  else other width st c

/-- catalog/po/wrap.go:55-61: after the loop. -/
def finish (st : St) : List Bytes :=
  let st := if st.word.len > 0 then flush st else st
  st.lines ++ [st.line.buff]

/-- catalog/po/wrap.go:10-62 `wrapString`. -/
def wrapString (s : Bytes) (width : Int) : List Bytes :=
  if width ≤ 0 then splitByte 0x0a s
  else finish ((runes s).foldl (step width) ⟨[], SB.empty, SB.empty, SB.empty⟩)

end Verif.Model.Wrap
