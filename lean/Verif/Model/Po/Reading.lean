import Verif.Go.Reader
import Verif.Model.Catalog.Decoder
/-!
# Reading PO files from an `io.Reader`
-/
namespace Verif.Model.Po
open Verif.Go

/-- /repo/catalog/po/scanner.go:202-217 `read` (without the repetition after `unread`): the line, or `none` for an
error.  Every round of `Scan` reads bytes or the error of the reader, which bounds the rounds. -/
def readLine (s : LineScanner) : Option Bytes × LineScanner :=
  match s.scan (s.reader.content.length + 2) with
  | (none, s') => (none, s')
  | (some l, s') => if s'.failed then (none, s') else (some l, s')

/-- The lines up to the first error of `read`, which /repo/catalog/po/scanner.go:47-55 `scan` takes as the end of the
file.  `n` bounds their number. -/
def lineLoop : Nat → LineScanner → List Bytes
  | 0, _ => []
  | n + 1, s =>
    match readLine s with
    | (none, _) => []
    | (some l, s') => l :: lineLoop n s'

/-- The lines that the scanner of the parser sees (/repo/catalog/po/scanner.go:40-45 `newScanner`). -/
def readerLines (r : Reader) : List Bytes := lineLoop (r.content.length + 1) (.new r)

/-- /repo/catalog/po/parser.go:58-70 `Parser.Parse`. -/
def parseReader (u : Unicode) (ignore : Bool) (r : Reader) : Res File := parseLines u ignore (readerLines r)

end Verif.Model.Po

namespace Verif.Model.Catalog
open Verif.Go Verif.Model.Po

/-- /repo/catalog/po_decoder.go:64-76 `poDecoder.DecodeReader`. -/
def poDecodeReader (u : Unicode) (lang : Tag) (domain : Bytes) (useCLDR : Bool) (r : Reader) : Decoded :=
  match parseReader u true r with
  | .ok f =>
    match buildGettextCatalog u f lang domain useCLDR with
    | .ok (some c) => .catalog c
    | .ok none => .error
    | .error _ => .panic
  | .eof => .error
  | .error _ => .error
  | .panic => .panic
  | .hang => .hang

end Verif.Model.Catalog
