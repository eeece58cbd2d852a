import Verif.Go.Text
import Verif.Model.Po.File
/-!
# The scanner for PO files

Models /repo/catalog/po/{scanner,token}.go.  The scanner state is the list of lines that are not read yet
and the last token; the line number `pos` is used for error messages only and left out.
-/
namespace Verif.Model.Po
open Verif.Go

/-- /repo/catalog/po/token.go:5-29. -/
inductive Token
  | eof | whitespace | failure
  | commentTranslator | commentExtracted | commentReference | commentFlags
  | commentPrevContext | commentPrevContextLine | commentPrevMsgID | commentPrevMsgIDLine | commentPrevUnknown
  | msgContext | msgContextLine | msgID | msgIDLine | msgIDPlural | msgIDPluralLine
  | msgStr | msgStrLine | msgStrPlural | msgStrPluralLine
  | none
  deriving DecidableEq, Repr

/-- /repo/catalog/po/scanner.go:11 `^#\|\s+msgctxt`. -/
def rePrevMsgContextComments : Bytes → Bool := matchPrefix b!"#|" (matchBlanks1 (matchPrefix b!"msgctxt" fun _ => true))

/-- /repo/catalog/po/scanner.go:12 `^#\|\s+msgid`. -/
def rePrevMsgIDComments : Bytes → Bool := matchPrefix b!"#|" (matchBlanks1 (matchPrefix b!"msgid" fun _ => true))

/-- /repo/catalog/po/scanner.go:13 `^#\|\s+".*"\s*$`. -/
def rePrevStringLineComments : Bytes → Bool := matchPrefix b!"#|" (matchBlanks1 matchQuoted)

/-- /repo/catalog/po/scanner.go:15 `^msgctxt\s+".*"\s*$`. -/
def reMsgContext : Bytes → Bool := matchPrefix b!"msgctxt" (matchBlanks1 matchQuoted)

/-- /repo/catalog/po/scanner.go:16 `^msgid\s+".*"\s*$`. -/
def reMsgID : Bytes → Bool := matchPrefix b!"msgid" (matchBlanks1 matchQuoted)

/-- /repo/catalog/po/scanner.go:17 `^msgid_plural\s+".*"\s*$`. -/
def reMsgIDPlural : Bytes → Bool := matchPrefix b!"msgid_plural" (matchBlanks1 matchQuoted)

/-- /repo/catalog/po/scanner.go:18 `^msgstr\s*".*"\s*$`. -/
def reMsgStr : Bytes → Bool := matchPrefix b!"msgstr" (matchBlanks matchQuoted)

/-- /repo/catalog/po/scanner.go:19 `^msgstr\s*(\[\d+])\s*".*"\s*$`. -/
def reMsgStrPlural : Bytes → Bool := matchPrefix b!"msgstr" (matchBlanks (matchIndex (matchBlanks matchQuoted)))

/-- /repo/catalog/po/scanner.go:20 `^\s*".*"\s*$`. -/
def reMsgLine : Bytes → Bool := matchBlanks matchQuoted

/-- /repo/catalog/po/scanner.go:107-118: the token of a continuation line, by the last token. -/
def continuation : Token → Token
  | .msgID | .msgIDLine => .msgIDLine
  | .msgIDPlural | .msgIDPluralLine => .msgIDPluralLine
  | .msgStr | .msgStrLine => .msgStrLine
  | .msgStrPlural | .msgStrPluralLine => .msgStrPluralLine
  | .msgContext | .msgContextLine => .msgContextLine
  | _ => .none

/-- /repo/catalog/po/scanner.go:78-122 `scanMessage`; the literal is always the line. -/
def scanMessage (last : Token) (line : Bytes) : Token :=
  if hasPrefix line b!"msgid " ∧ reMsgID line then .msgID
  else if hasPrefix line b!"msgstr" then
    if line = b!"msgstr \"\"" ∨ reMsgStr line then .msgStr
    else if reMsgStrPlural line then .msgStrPlural
    else .failure
  else if hasPrefix line b!"msgid_plural " ∧ reMsgIDPlural line then .msgIDPlural
  else if hasPrefix line b!"msgctxt " ∧ reMsgContext line then .msgContext
  else if hasPrefix line b!"\"" ∧ line.getLast? = some 0x22 ∧ reMsgLine line then continuation last
  else .none

/-- /repo/catalog/po/scanner.go:167-174: the token of a `#| "..."` line, by the last token. -/
def prevContinuation : Token → Token
  | .commentPrevContext | .commentPrevContextLine => .commentPrevContextLine
  | .commentPrevMsgID | .commentPrevMsgIDLine => .commentPrevMsgIDLine
  | _ => .commentPrevUnknown

/-- /repo/catalog/po/scanner.go:153-180: the token of a comment line whose second byte is `c`. -/
def commentToken (last : Token) (c : UInt8) (line : Bytes) : Token :=
  if c = 0x2e then .commentExtracted
  else if c = 0x3a then .commentReference
  else if c = 0x2c then .commentFlags
  else if c = 0x7c then
    if rePrevMsgContextComments line then .commentPrevContext
    else if rePrevMsgIDComments line then .commentPrevMsgID
    else if rePrevStringLineComments line then prevContinuation last
    else .failure
  else .commentTranslator

/-- /repo/catalog/po/scanner.go:124-181 `scanComment` for a line that starts with `#`; `none` stands for
`return s.scan()`: the line is skipped. -/
def scanComment (ignore : Bool) (last : Token) (line : Bytes) : Option Token :=
  match line with
  | [] => some .commentTranslator
  | [_] => if ignore then none else some .commentTranslator
  | _ :: c :: rest =>
    if rest = [] ∧ (c = 0x2e ∨ c = 0x3a ∨ c = 0x2c ∨ c = 0x7c) then none
    else if ignore ∧ c ≠ 0x2c then none
    else some (commentToken last c line)

/-- /repo/catalog/po/scanner.go:67-75: the token of a trimmed line that is not empty. -/
def lineToken (ignore : Bool) (last : Token) (line : Bytes) : Option Token :=
  if line.head? = some 0x23 then scanComment ignore last line
  else match scanMessage last line with
    | .none => some .failure
    | t => some t

/-- /repo/catalog/po/scanner.go:58-65, 191: a line with nothing but white space. -/
def isBlankLine (line : Bytes) : Bool := trimSpace line = []

/-- /repo/catalog/po/scanner.go:47-76 `scan`: the token, its literal and the lines left (with
`scanWhitespace` and the `unread` of its last line, 184-200). -/
def scan (ignore : Bool) (last : Token) : List Bytes → Token × Bytes × List Bytes
  | [] => (.eof, [], [])
  | l :: ls =>
    if isBlankLine l then (.whitespace, [], ls.dropWhile isBlankLine)
    else match lineToken ignore last (trimSpace l) with
      | none => scan ignore last ls
      | some t => (t, trimSpace l, ls)

/-- A token with its literal. -/
abbrev Tok := Token × Bytes

/-- All tokens up to the end of the file as repeated calls of `scan` deliver them
(`Verif.Proofs.Po.tokens_scan`); `ws` tells that `scanWhitespace` is swallowing blank lines. -/
def tokensFrom (ignore : Bool) (ws : Bool) (last : Token) : List Bytes → List Tok
  | [] => []
  | l :: ls =>
    if isBlankLine l then
      if ws then tokensFrom ignore true last ls
      else (.whitespace, []) :: tokensFrom ignore true .whitespace ls
    else match lineToken ignore last (trimSpace l) with
      | none => tokensFrom ignore false last ls
      | some t => (t, trimSpace l) :: tokensFrom ignore false t ls

/-- The tokens of a file. -/
def tokens (ignore : Bool) (ls : List Bytes) : List Tok := tokensFrom ignore false .eof ls

end Verif.Model.Po
