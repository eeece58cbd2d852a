import Verif.Model.Catalog.Decoder
/-!
# The parser for MO files

Models /repo/internal/mo/parser.go for an in-memory reader (`bytes.NewReader`, which `ParseBytes` and
`moDecoder.Decode` use).  Errors are `none`; their texts are left out.  Memory is unlimited: the allocations of
lines 131, 212 and 222 (up to 2^32 elements, taken from the file unchecked) always succeed.
-/
namespace Verif.Model.Mo
open Verif.Go Verif.Model.Po Verif.Model.Catalog

/-- /repo/internal/mo/parser.go:24 `binary.ByteOrder`. -/
inductive Order | little | big
  deriving DecidableEq, Repr

/-- The value of bytes in the given order. -/
def Order.value (bo : Order) (bs : Bytes) : Nat :=
  match bo with
  | .little => bs.foldr (fun b n => b.toNat + 256 * n) 0
  | .big => bs.foldl (fun n b => 256 * n + b.toNat) 0

/-- /repo/internal/mo/parser.go:249-251 `binaryRead` of an unsigned integer of `k` bytes at a position:
`binary.Read` fails unless all bytes are there. -/
def readUint (bo : Order) (data : Bytes) (pos k : Nat) : Option Nat :=
  if pos + k ≤ data.length then some (bo.value ((data.drop pos).take k)) else none

/-- /repo/internal/mo/parser.go:253-256 `read` of `len` bytes after a seek: `bytes.Reader.Read` reports
`io.EOF` at the end of the data, otherwise it delivers what is there; the rest of the buffer stays zero. -/
def read (data : Bytes) (off len : Nat) : Option Bytes :=
  if data.length ≤ off then none
  else some ((data.drop off).take len ++ List.replicate (len - (data.length - off)) 0)

/-- /repo/internal/mo/parser.go:81-98 `parseByteOrder`. -/
def parseByteOrder (data : Bytes) : Option Order :=
  match readUint .little data 0 4 with
  | none => none
  | some m => if m = 0x950412de then some .little else if m = 0xde120495 then some .big else none

/-- /repo/internal/mo/parser.go:100-128 `parseHeader`: number of messages and offsets of the two tables. -/
def parseHeader (bo : Order) (data : Bytes) : Option (Nat × Nat × Nat) :=
  match readUint bo data 4 2, readUint bo data 6 2, readUint bo data 8 4, readUint bo data 12 4,
    readUint bo data 16 4, readUint bo data 20 4, readUint bo data 24 4 with
  | some major, some minor, some n, some o, some t, some _, some _ =>
    if major ≠ 0 ∧ major ≠ 1 then none else if minor ≠ 0 ∧ minor ≠ 1 then none else some (n, o, t)
  | _, _, _, _, _, _, _ => none

/-- /repo/internal/mo/parser.go:141-149 and 155-163: a table of lengths and offsets. -/
def readTable (bo : Order) (data : Bytes) : Nat → Nat → Option (List (Nat × Nat))
  | _, 0 => some []
  | pos, n + 1 =>
    match readUint bo data pos 4, readUint bo data (pos + 4) 4 with
    | some len, some off => (readTable bo data (pos + 8) n).map ((len, off) :: ·)
    | _, _ => none

/-- /repo/internal/mo/parser.go:236-244: the loop of `parseMessageHeader`. -/
def headerLines (u : Unicode) (h : Header) : List Bytes → Header
  | [] => h
  | line :: lines =>
    match indexByte? 0x3a line with
    | none => headerLines u h lines
    | some i => headerLines u (h.set u (trimSpace (line.take i)) (trimSpace (line.drop (i + 1)))) lines

/-- /repo/internal/mo/parser.go:230-247 `parseMessageHeader` (`Str[0]` is always set). -/
def parseMessageHeader (u : Unicode) (text : Bytes) : Header := headerLines u {} (splitByte 0x0a text)

/-- /repo/internal/mo/parser.go:197-199: the loop over the plural texts from index `i` on. -/
def setForms (str : GoMap Int Bytes) (i : Nat) : List Bytes → GoMap Int Bytes
  | [] => str
  | t :: ts => setForms (str.set (i : Int) t) (i + 1) ts

/-- /repo/internal/mo/parser.go:187-191. -/
def splitContext (id : Bytes) : Bytes × Bytes :=
  match indexByte? 0x04 id with
  | none => ([], id)
  | some k => (id.take k, id.drop (k + 1))

/-- /repo/internal/mo/parser.go:177-200: the message for an id and a translation. -/
def buildMessage (id text : Bytes) : Message :=
  let (context, id) := splitContext id
  let m := { Message.new with context := context, id := id, str := [(0, text)] }
  match indexByte? 0x00 id with
  | none => m
  | some k => { m with idPlural := id.drop (k + 1), id := id.take k, str := setForms m.str 0 (splitByte 0 text) }

/-- /repo/internal/mo/parser.go:171-203: the loop of `parseMessages` (with `parseMessage`, 208-228). -/
def parseMessages (u : Unicode) (data : Bytes) (f : File) : List ((Nat × Nat) × (Nat × Nat)) → Option File
  | [] => some f
  | ((idLen, idOff), (strLen, strOff)) :: ds =>
    match read data idOff idLen, read data strOff strLen with
    | some id, some text =>
      if id = [] then parseMessages u data { f with header := some (parseMessageHeader u text) } ds
      else parseMessages u data (f.addMessage (buildMessage id text)) ds
    | _, _ => none

/-- /repo/internal/mo/parser.go:60-79 `parse`, 130-166 `parseMessageData`. -/
def parse (u : Unicode) (data : Bytes) : Option File :=
  match parseByteOrder data with
  | none => none
  | some bo =>
    match parseHeader bo data with
    | none => none
    | some (n, o, t) =>
      match readTable bo data o n, readTable bo data t n with
      | some ids, some strs => parseMessages u data .new (ids.zip strs)
      | _, _ => none

/-- /repo/catalog/po_decoder.go:78-97 `moDecoder.Decode`, `DecodeReader`. -/
def moDecode (u : Unicode) (lang : Tag) (domain : Bytes) (useCLDR : Bool) (data : Bytes) : Decoded :=
  match parse u data with
  | none => .error
  | some f =>
    match buildGettextCatalog u f lang domain useCLDR with
    | .ok (some c) => .catalog c
    | .ok none => .error
    | .error _ => .panic

end Verif.Model.Mo
