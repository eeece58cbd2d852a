import Verif.Go.Reader
import Verif.Model.Mo
/-!
# Reading MO files from an `io.Reader`

The parser of /repo/internal/mo/parser.go on an `io.ReadSeeker`, with its position and its calls.  Errors are `none`.
-/
namespace Verif.Model.Mo
open Verif.Go Verif.Model.Po Verif.Model.Catalog

/-- An `io.ReadSeeker` for a file: the call number `n` delivers at most `most n + 1` bytes, or fails.  `idle`: reading
into an empty buffer is no error at the end of the file (as with `os.File`; with `bytes.Reader` it is one).  No error
comes with bytes. -/
structure Handle where
  data : Bytes
  most : Nat → Nat
  fails : Nat → Bool
  idle : Bool
  pos : Nat
  calls : Nat

/-- The handle at another position after some calls. -/
def Handle.at (h : Handle) (pos calls : Nat) : Handle := { h with pos := pos, calls := calls }

/-- `Read` with a buffer of `k` bytes; part of the trusted reading of the library. -/
def Handle.read (h : Handle) (k : Nat) : Option (Bytes × Handle) :=
  if h.fails h.calls then none
  else if h.data.length ≤ h.pos then (if k = 0 ∧ h.idle then some ([], h.at h.pos (h.calls + 1)) else none)
  else
    let d := (h.data.drop h.pos).take (min k (h.most h.calls + 1))
    some (d, h.at (h.pos + d.length) (h.calls + 1))

/-- `Seek(off, io.SeekStart)`; part of the trusted reading of the library. -/
def Handle.seek (h : Handle) (off : Nat) : Option Handle :=
  if h.fails h.calls then none else some (h.at off (h.calls + 1))

/-- `io.ReadFull` of `k` bytes (in `binary.Read`); every `Read` delivers a byte, which bounds their number. -/
def Handle.readFull : Nat → Handle → Nat → Option (Bytes × Handle)
  | _, h, 0 => some ([], h)
  | 0, _, _ + 1 => none
  | n + 1, h, k + 1 =>
    match h.read (k + 1) with
    | none => none
    | some (d, h') =>
      match h'.readFull n (k + 1 - d.length) with
      | none => none
      | some (e, h'') => some (d ++ e, h'')

/-- /repo/internal/mo/parser.go:249-251 `binaryRead` of `k` bytes. -/
def Handle.binaryRead (h : Handle) (k : Nat) : Option (Bytes × Handle) := h.readFull k k

/-- /repo/internal/mo/parser.go:253-256 `read` into a new buffer of `k` bytes: one call of `Read`, whose count is
ignored. -/
def Handle.fill (h : Handle) (k : Nat) : Option (Bytes × Handle) :=
  match h.read k with
  | none => none
  | some (d, h') => some (d ++ List.replicate (k - d.length) 0, h')

/-- /repo/internal/mo/parser.go:81-98 `parseByteOrder`. -/
def seekByteOrder (h : Handle) : Option (Order × Handle) :=
  match h.binaryRead 4 with
  | none => none
  | some (b, h') =>
    if Order.value .little b = 0x950412de then some (.little, h')
    else if Order.value .little b = 0xde120495 then some (.big, h')
    else none

/-- /repo/internal/mo/parser.go:100-128 `parseHeader`: one `binary.Read` for the whole structure. -/
def seekHeader (bo : Order) (h : Handle) : Option ((Nat × Nat × Nat) × Handle) :=
  match h.binaryRead 24 with
  | none => none
  | some (b, h') =>
    let field := fun i k => bo.value ((b.drop i).take k)
    if field 0 2 ≠ 0 ∧ field 0 2 ≠ 1 then none
    else if field 2 2 ≠ 0 ∧ field 2 2 ≠ 1 then none
    else some ((field 4 4, field 8 4, field 12 4), h')

/-- /repo/internal/mo/parser.go:141-149 and 155-163: a table of lengths and offsets. -/
def seekTable (bo : Order) : Nat → Handle → Option (List (Nat × Nat) × Handle)
  | 0, h => some ([], h)
  | n + 1, h =>
    match h.binaryRead 4 with
    | none => none
    | some (len, h1) =>
      match h1.binaryRead 4 with
      | none => none
      | some (off, h2) =>
        match seekTable bo n h2 with
        | none => none
        | some (rs, h3) => some ((bo.value len, bo.value off) :: rs, h3)

/-- /repo/internal/mo/parser.go:209-216 and 218-226: a text at an offset. -/
def seekText (h : Handle) (len off : Nat) : Option (Bytes × Handle) :=
  match h.seek off with
  | none => none
  | some h' => h'.fill len

/-- /repo/internal/mo/parser.go:168-206 `parseMessages`, 208-228 `parseMessage`. -/
def seekMessages (u : Unicode) : File → List ((Nat × Nat) × (Nat × Nat)) → Handle → Option File
  | f, [], _ => some f
  | f, ((idLen, idOff), (strLen, strOff)) :: ds, h =>
    match seekText h idLen idOff with
    | none => none
    | some (id, h1) =>
      match seekText h1 strLen strOff with
      | none => none
      | some (text, h2) =>
        if id = [] then seekMessages u { f with header := some (parseMessageHeader u text) } ds h2
        else seekMessages u (f.addMessage (buildMessage id text)) ds h2

/-- /repo/internal/mo/parser.go:130-152: the seek to a table and the table. -/
def seekRows (bo : Order) (n off : Nat) (h : Handle) : Option (List (Nat × Nat) × Handle) :=
  match h.seek off with
  | none => none
  | some h' => seekTable bo n h'

/-- /repo/internal/mo/parser.go:49-79 `ParseReader`, `parse`, 130-166 `parseMessageData`. -/
def parseSeeker (u : Unicode) (h : Handle) : Option File :=
  match seekByteOrder h with
  | none => none
  | some (bo, h1) =>
    match seekHeader bo h1 with
    | none => none
    | some ((n, o, t), h2) =>
      match seekRows bo n o h2 with
      | none => none
      | some (ids, h3) =>
        match seekRows bo n t h3 with
        | none => none
        | some (strs, h4) => seekMessages u .new (ids.zip strs) h4

/-- /repo/catalog/po_decoder.go:79-97 `DecodeReader` with a reader that is an `io.ReadSeeker`. -/
def moDecodeSeeker (u : Unicode) (lang : Tag) (domain : Bytes) (useCLDR : Bool) (h : Handle) : Decoded :=
  match parseSeeker u h with
  | none => .error
  | some f =>
    match buildGettextCatalog u f lang domain useCLDR with
    | .ok (some c) => .catalog c
    | .ok none => .error
    | .error _ => .panic

/-- /repo/catalog/po_decoder.go:79-97 `DecodeReader`, 174-185 `readerToReadSeeker` with any other reader; `grow` is how
`append` enlarges the buffer of `io.ReadAll`. -/
def moDecodeReader (u : Unicode) (lang : Tag) (domain : Bytes) (useCLDR : Bool) (grow : Nat → Nat) (r : Reader) : Decoded :=
  match r.readAll grow with
  | none => .error
  | some data => moDecode u lang domain useCLDR data

end Verif.Model.Mo
