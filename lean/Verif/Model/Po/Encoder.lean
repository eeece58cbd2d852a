import Verif.Model.Po.File
import Verif.Model.PoString
import Verif.Model.Wrap
import Verif.Go.Text
import Verif.Go.Time
/-!
# Writing PO files

Models /repo/catalog/po/encoder.go.  The order of the associations of a map is the order in which a `range` loop visits
them.  Writing to the `io.Writer` is not modelled: the result is what `encode` hands to `Write`.  Messages are values; a
comparison that sorts the comments of its arguments in place returns the changed messages.
-/
namespace Verif.Model.Po
open Verif.Go
open Verif.Model.PoString (encodePoString)
open Verif.Model.Wrap (wrapString)

/-- A comparison of messages: the result and the two messages afterwards. -/
abbrev Compare := Message → Message → Int × Message × Message

/-- /repo/catalog/po/encoder.go:28-37 `Encoder`, without the writer. -/
structure Encoder where
  wrapWidth : Int
  writeHeader : Bool
  writeEmptyHeader : Bool
  writeReferences : Bool
  sortFunction : Option Compare

/-- `strings.Compare`. -/
def compareStrings (a b : Bytes) : Int := if a = b then 0 else if bytesLe a b then -1 else 1

/-- /repo/catalog/po/encoder.go:280-305: the loop over the references; `none`: the loop ends without a result. -/
def compareReferences : List Reference → List Reference → Option Int
  | a :: as, b :: bs =>
    if compareStrings a.path b.path ≠ 0 then some (compareStrings a.path b.path)
    else if a.line ≠ b.line then some (if a.line > b.line then 1 else -1)
    else if a.column ≠ b.column then some (if a.column > b.column then 1 else -1)
    else if a.path ≠ [] ∧ b.path ≠ [] then some (compareStrings a.path b.path)
    else compareReferences as bs
  | _, _ => none

/-- /repo/catalog/po/encoder.go:308-316: context and id. -/
def compareKeys (a b : Message) : Int :=
  if compareStrings a.context b.context ≠ 0 then compareStrings a.context b.context
  else compareStrings a.id b.id

/-- /repo/catalog/po/comment.go:101-104 `sort`. -/
def Comment.sort (c : Comment) : Comment := c.sortFlags.sortReferences

/-- /repo/catalog/po/encoder.go:275-317 `DefaultSortFunction`. -/
def defaultSort : Compare := fun a b =>
  match a.comment, b.comment with
  | some ca, some cb =>
    ((compareReferences ca.sort.references cb.sort.references).getD (compareKeys a b),
      { a with comment := some ca.sort }, { b with comment := some cb.sort })
  | _, _ => (compareKeys a b, a, b)

/-- /repo/catalog/po/encoder.go:40-49 `NewEncoder`. -/
def Encoder.new : Encoder := ⟨-1, true, true, true, some defaultSort⟩

/-- The inner loop of `insertionSortCmpFunc` of package slices: an element moves left while it is smaller.  `left` is the
sorted part in reverse. -/
def sink (cmp : Compare) (x : Message) : List Message → List Message
  | [] => [x]
  | y :: left =>
    match cmp x y with
    | (c, x', y') => if c < 0 then y' :: sink cmp x' left else x' :: y' :: left

/-- `insertionSortCmpFunc` of package slices: what `slices.SortFunc` does with up to twelve elements. -/
def insertionSort (cmp : Compare) (ms : List Message) : List Message :=
  (ms.foldl (fun left x => sink cmp x left) []).reverse

/-- `slices.SortFunc`. -/
abbrev Sorter := Compare → List Message → List Message

/-- `builder` of /repo/catalog/po/encoder.go:190-203: the text of the references. -/
def referenceText (r : Reference) : Bytes := r.path ++ (if r.line > 0 then b!":" ++ itoa r.line else [])

/-- Lines of a comment with their start. -/
def commentLines (start : Bytes) (ls : List Bytes) : Bytes := ls.flatMap fun l => start ++ l ++ b!"\n"

/-- /repo/catalog/po/encoder.go:174-219 `encodeComment`. -/
def Encoder.encodeComment (enc : Encoder) (c : Option Comment) : Bytes :=
  match c with
  | none => []
  | some c =>
    (if c.translator ≠ [] then commentLines b!"# " (wrapString c.translator enc.wrapWidth) else []) ++
    (if c.extracted ≠ [] then commentLines b!"#. " (wrapString c.extracted enc.wrapWidth) else []) ++
    (if c.references ≠ [] ∧ enc.writeReferences then
      commentLines b!"#: " (wrapString (join b!" " (c.references.map referenceText)) enc.wrapWidth) else []) ++
    (if c.flags ≠ [] then b!"#, " ++ join b!", " c.flags ++ b!"\n" else [])

/-- /repo/catalog/po/encoder.go:115-117 `headerEntry` and 122-142: the entries of a header. -/
def headerEntries (h : Header) : List (Bytes × Bytes) :=
  Field.all.map (fun f => (f.key, h.getField f)) ++ h.unknownFields

/-- /repo/catalog/po/encoder.go:162: the entries that are left out if they are empty. -/
def isOptional (key : Bytes) : Bool :=
  key = Field.mimeVersion.key ∨ key = Field.pluralForms.key ∨ key = Field.xGenerator.key

/-- /repo/catalog/po/encoder.go:161-171: the line of an entry. -/
def headerLine (e : Bytes × Bytes) : Bytes :=
  if isOptional e.1 ∧ e.2 = [] then [] else b!"\"" ++ e.1 ++ b!": " ++ e.2 ++ b!"\\n\"\n"

/-- /repo/catalog/po/encoder.go:119-172 `encodeHeader`. -/
def Encoder.encodeHeader (enc : Encoder) (h : Header) : Bytes :=
  enc.encodeComment h.comment ++
    if enc.writeEmptyHeader = false ∧ (headerEntries h).all (fun e => decide (e.2 = [])) then []
    else b!"msgid \"\"\nmsgstr \"\"\n" ++ (headerEntries h).flatMap headerLine

/-- /repo/catalog/po/encoder.go:246-248: the encoded translations. -/
def encodeAll (width : Int) : GoMap Int Bytes → Run (GoMap Int Bytes)
  | [] => .ok []
  | (k, v) :: m =>
    match encodePoString v width with
    | .error f => .error f
    | .ok t => match encodeAll width m with
      | .error f => .error f
      | .ok r => .ok ((k, t) :: r)

/-- The order of `slices.Sorted` on ints. -/
def intLe (a b : Int) : Bool := decide (a ≤ b)

/-- /repo/catalog/po/encoder.go:244-273 `encodeTranslations`. -/
def Encoder.encodeTranslations (enc : Encoder) (plural : Bool) (orig : GoMap Int Bytes) : Run Bytes :=
  match encodeAll enc.wrapWidth orig with
  | .error f => .error f
  | .ok m =>
    let m : GoMap Int Bytes := if m = [] then [(0, b!"\"\"")] else m
    if plural then
      let m : GoMap Int Bytes := if m.length = 1 then m.set 1 b!"\"\"" else m
      .ok ((sortBy intLe m.keys).flatMap fun k => b!"msgstr[" ++ itoa k ++ b!"] " ++ (m.get? k).getD [] ++ b!"\n")
    else .ok (b!"msgstr " ++ (m.get? 0).getD [] ++ b!"\n")

/-- A keyword with its text. -/
def Encoder.encodeField (enc : Encoder) (keyword text : Bytes) : Run Bytes :=
  match encodePoString text enc.wrapWidth with
  | .error f => .error f
  | .ok t => .ok (keyword ++ b!" " ++ t ++ b!"\n")

/-- /repo/catalog/po/encoder.go:232. -/
def Message.hasPlural (m : Message) : Bool := m.idPlural ≠ [] ∨ m.str.length > 1

/-- /repo/catalog/po/encoder.go:221-242 `encodeMessage`. -/
def Encoder.encodeMessage (enc : Encoder) (m : Message) : Run Bytes :=
  match (if m.context ≠ [] then enc.encodeField b!"msgctxt" m.context else .ok []) with
  | .error f => .error f
  | .ok ctx =>
    match enc.encodeField b!"msgid" m.id with
    | .error f => .error f
    | .ok id =>
      match (if m.hasPlural then enc.encodeField b!"msgid_plural" m.idPlural else .ok []) with
      | .error f => .error f
      | .ok idPlural =>
        match enc.encodeTranslations m.hasPlural m.str with
        | .error f => .error f
        | .ok str => .ok (enc.encodeComment m.comment ++ ctx ++ id ++ idPlural ++ str)

/-- /repo/catalog/po/encoder.go:96-101: the messages in the order of the maps. -/
def Messages.all (ms : Messages) : List Message := ms.flatMap fun p => p.2.map (·.2)

/-- /repo/catalog/po/encoder.go:105-110: the messages, separated by empty lines. -/
def Encoder.encodeMessages (enc : Encoder) : List Message → Run Bytes
  | [] => .ok []
  | [m] => enc.encodeMessage m
  | m :: ms =>
    match enc.encodeMessage m with
    | .error f => .error f
    | .ok t => match enc.encodeMessages ms with
      | .error f => .error f
      | .ok r => .ok (t ++ b!"\n" ++ r)

/-- /repo/catalog/po/encoder.go:102-104. -/
def Encoder.sorted (enc : Encoder) (sort : Sorter) (ms : List Message) : List Message :=
  match enc.sortFunction with
  | some cmp => sort cmp ms
  | none => ms

/-- /repo/catalog/po/encoder.go:86-114 `encode`; a nil map of messages is the empty one. -/
def Encoder.encode (enc : Encoder) (sort : Sorter) (f : File) : Run Bytes :=
  let head := match f.header with
    | some h => if enc.writeHeader then enc.encodeHeader h ++ b!"\n" else []
    | none => []
  match enc.encodeMessages (enc.sorted sort f.messages.all) with
  | .error e => .error e
  | .ok body => .ok (head ++ body)

/-- /repo/catalog/po/encoder.go:16-26 `Marshal`. -/
def marshal (sort : Sorter) (f : File) : Run Bytes := Encoder.new.encode sort f

end Verif.Model.Po
