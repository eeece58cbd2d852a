import Verif.Go.Utf8
import Verif.Go.Map
import Verif.Go.Sort
/-!
# PO messages, comments, headers and files

Models /repo/catalog/po/{comment,message,file}.go.  Pointers are values here;
`Verif.Model.Po.Memory` has them as pointers.  `nil` slices and maps are the empty list.
-/
namespace Verif.Model.Po
open Verif.Go

/-- The encodings of the white space runes of `unicode.IsSpace`. -/
def spaceEncodings : List Bytes :=
  [[0x09], [0x0A], [0x0B], [0x0C], [0x0D], [0x20], [0xC2, 0x85], [0xC2, 0xA0], [0xE1, 0x9A, 0x80],
   [0xE2, 0x80, 0x80], [0xE2, 0x80, 0x81], [0xE2, 0x80, 0x82], [0xE2, 0x80, 0x83], [0xE2, 0x80, 0x84],
   [0xE2, 0x80, 0x85], [0xE2, 0x80, 0x86], [0xE2, 0x80, 0x87], [0xE2, 0x80, 0x88], [0xE2, 0x80, 0x89],
   [0xE2, 0x80, 0x8A], [0xE2, 0x80, 0xA8], [0xE2, 0x80, 0xA9], [0xE2, 0x80, 0xAF], [0xE2, 0x81, 0x9F],
   [0xE3, 0x80, 0x80]]

/-- Removes one of the prefixes. -/
def stripOne (es : List Bytes) (s : Bytes) : Option Bytes :=
  match es with
  | [] => none
  | e :: es => if e.isPrefixOf s then some (s.drop e.length) else stripOne es s

/-- Removes the prefixes as long as possible; the fuel is the length of the text. -/
def stripAll (es : List Bytes) : Nat → Bytes → Bytes
  | 0, s => s
  | f + 1, s => match stripOne es s with
    | some r => stripAll es f r
    | none => s

/-- `strings.TrimLeftFunc(s, unicode.IsSpace)`. -/
def trimLeft (s : Bytes) : Bytes := stripAll spaceEncodings s.length s

/-- `strings.TrimRightFunc(s, unicode.IsSpace)`. -/
def trimRight (s : Bytes) : Bytes :=
  (stripAll (spaceEncodings.map List.reverse) s.length s.reverse).reverse

/-- `strings.TrimSpace`. -/
def trimSpace (s : Bytes) : Bytes := trimRight (trimLeft s)

/-- /repo/catalog/po/comment.go:10-14 `Reference`. -/
structure Reference where
  path : Bytes
  line : Int
  column : Int
  deriving DecidableEq, Repr

/-- /repo/catalog/po/comment.go:111-121: the order of `sortReferences` (as `≤`). -/
def Reference.le (a b : Reference) : Bool :=
  if a.path ≠ b.path then bytesLe a.path b.path
  else if a.line ≠ b.line then decide (a.line < b.line)
  else decide (a.column ≤ b.column)

/-- /repo/catalog/po/comment.go:28-35 `Comment`. -/
structure Comment where
  translator : Bytes
  extracted : Bytes
  references : List Reference
  flags : List Bytes
  prevMsgContext : Bytes
  prevMsgID : Bytes
  deriving DecidableEq, Repr

/-- /repo/catalog/po/comment.go:37-42 `NewComment`. -/
def Comment.new : Comment := ⟨[], [], [], [], [], []⟩

/-- /repo/catalog/po/comment.go:110-122 `sortReferences`. -/
def Comment.sortReferences (c : Comment) : Comment :=
  { c with references := sortBy Reference.le c.references }

/-- /repo/catalog/po/comment.go:106-108 `sortFlags`. -/
def Comment.sortFlags (c : Comment) : Comment := { c with flags := sortBy bytesLe c.flags }

/-- /repo/catalog/po/comment.go:44-52 `AddReference`. -/
def Comment.addReference (c : Comment) (r : Reference) : Comment :=
  if c.references = [] then { c with references := [r] }
  else Comment.sortReferences { c with references := c.references ++ [r] }

/-- /repo/catalog/po/comment.go:54-56 `HasFlag`. -/
def Comment.hasFlag (c : Comment) (flag : Bytes) : Bool := decide (flag ∈ c.flags)

/-- /repo/catalog/po/comment.go:58-64 `AddFlag`. -/
def Comment.addFlag (c : Comment) (flag : Bytes) : Comment :=
  if c.hasFlag flag then c else Comment.sortFlags { c with flags := c.flags ++ [flag] }

/-- /repo/catalog/po/comment.go:128-140: one of the two loops of `mergeStringArrays`; the map `seen`
holds exactly the elements of the result. -/
def appendNew (result : List Bytes) : List Bytes → List Bytes
  | [] => result
  | item :: items => if item ∈ result then appendNew result items else appendNew (result ++ [item]) items

/-- /repo/catalog/po/comment.go:124-143 `mergeStringArrays`. -/
def mergeStringArrays (left right : List Bytes) : List Bytes := appendNew (appendNew [] left) right

/-- /repo/catalog/po/comment.go:71-83: merging of the translator and of the extracted comment. -/
def mergeText (text other : Bytes) : Bytes :=
  if other = [] then text
  else trimSpace (join [10] (mergeStringArrays (splitByte 10 text) (splitByte 10 other)))

/-- /repo/catalog/po/comment.go:91-99 `mergeReferences`. -/
def mergeReferences (refs : List Reference) : List Reference → List Reference
  | [] => refs
  | r :: rs => if r ∈ refs then mergeReferences refs rs else mergeReferences (refs ++ [r]) rs

/-- /repo/catalog/po/comment.go:66-89 `Comment.Merge`. -/
def Comment.merge (c : Comment) (other : Option Comment) : Comment :=
  match other with
  | none => c
  | some o =>
    Comment.sortReferences <| Comment.sortFlags
      { c with
        translator := mergeText c.translator o.translator
        extracted := mergeText c.extracted o.extracted
        flags := mergeStringArrays c.flags o.flags
        references := mergeReferences c.references o.references }

/-- /repo/catalog/po/message.go:4-10 `Message`. -/
structure Message where
  comment : Option Comment
  context : Bytes
  id : Bytes
  idPlural : Bytes
  str : GoMap Int Bytes
  deriving DecidableEq, Repr

/-- /repo/catalog/po/message.go:12-23 `NewMessage`. -/
def Message.new : Message := ⟨some .new, [], [], [], []⟩

/-- /repo/catalog/po/message.go:25-31 `Message.AddReference`. -/
def Message.addReference (m : Message) (r : Reference) : Message :=
  { m with comment := some ((m.comment.getD .new).addReference r) }

/-- /repo/catalog/po/message.go:33-46 `Message.Merge` (for a non-nil message). -/
def Message.merge (m other : Message) : Message :=
  let m := { m with comment := some ((m.comment.getD .new).merge other.comment) }
  if m.idPlural = [] ∧ other.idPlural ≠ [] then { m with idPlural := other.idPlural } else m

/-- /repo/catalog/po/file.go:45 `Messages`. -/
abbrev Messages := GoMap Bytes (GoMap Bytes Message)

/-- /repo/catalog/po/file.go:49-60 `Messages.Add`. -/
def Messages.add (ms : Messages) (msg : Message) : Messages :=
  let inner := (ms.get? msg.context).getD []
  match inner.get? msg.id with
  | some old => ms.set msg.context (inner.set msg.id (old.merge msg))
  | none => ms.set msg.context (inner.set msg.id msg)

/-- /repo/catalog/po/file.go:105-120 `Header`; the twelve fields in the order of the constants 10-21. -/
structure Header where
  comment : Option Comment := none
  projectIDVersion : Bytes := []
  reportMsgidBugsTo : Bytes := []
  potCreationDate : Bytes := []
  poRevisionDate : Bytes := []
  lastTranslator : Bytes := []
  languageTeam : Bytes := []
  language : Bytes := []
  mimeVersion : Bytes := []
  contentType : Bytes := []
  contentTransferEncoding : Bytes := []
  pluralForms : Bytes := []
  xGenerator : Bytes := []
  unknownFields : GoMap Bytes Bytes := []
  deriving DecidableEq, Repr

/-- The fields that `Set` and `Get` know. -/
inductive Field
  | projectIDVersion | reportMsgidBugsTo | potCreationDate | poRevisionDate | lastTranslator
  | languageTeam | language | mimeVersion | contentType | contentTransferEncoding | pluralForms | xGenerator
  deriving DecidableEq, Repr

/-- /repo/catalog/po/file.go:9-22: the names of the fields. -/
def Field.key : Field → Bytes
  | .projectIDVersion => b!"Project-Id-Version"
  | .reportMsgidBugsTo => b!"Report-Msgid-Bugs-To"
  | .potCreationDate => b!"POT-Creation-Date"
  | .poRevisionDate => b!"PO-Revision-Date"
  | .lastTranslator => b!"Last-Translator"
  | .languageTeam => b!"Language-Team"
  | .language => b!"Language"
  | .mimeVersion => b!"MIME-Version"
  | .contentType => b!"Content-Type"
  | .contentTransferEncoding => b!"Content-Transfer-Encoding"
  | .pluralForms => b!"Plural-Forms"
  | .xGenerator => b!"X-Generator"

/-- The cases of the switch in their order, /repo/catalog/po/file.go:126-149 and 162-185. -/
def Field.all : List Field :=
  [.projectIDVersion, .reportMsgidBugsTo, .potCreationDate, .poRevisionDate, .lastTranslator, .languageTeam,
   .language, .mimeVersion, .contentType, .contentTransferEncoding, .pluralForms, .xGenerator]

/-- The parts of package `unicode` that are left open: `unicode.ToUpper` and the smallest rune of the
`unicode.SimpleFold` orbit. -/
structure Unicode where
  upper : Char → Char
  fold : Char → Char

/-- `strings.ToUpper`: malformed bytes become U+FFFD. -/
def Unicode.toUpper (u : Unicode) (s : Bytes) : Bytes := utf8 ((runes s).map u.upper)

/-- `strings.EqualFold`. -/
def Unicode.equalFold (u : Unicode) (s t : Bytes) : Bool := (runes s).map u.fold = (runes t).map u.fold

/-- The case of the switch that a key selects, /repo/catalog/po/file.go:125-150. -/
def fieldOf (u : Unicode) (key : Bytes) : Option Field :=
  Field.all.find? fun f => u.toUpper key = u.toUpper f.key

/-- The assignments /repo/catalog/po/file.go:127-149. -/
def Header.setField (h : Header) (val : Bytes) : Field → Header
  | .projectIDVersion => { h with projectIDVersion := val }
  | .reportMsgidBugsTo => { h with reportMsgidBugsTo := val }
  | .potCreationDate => { h with potCreationDate := val }
  | .poRevisionDate => { h with poRevisionDate := val }
  | .lastTranslator => { h with lastTranslator := val }
  | .languageTeam => { h with languageTeam := val }
  | .language => { h with language := val }
  | .mimeVersion => { h with mimeVersion := val }
  | .contentType => { h with contentType := val }
  | .contentTransferEncoding => { h with contentTransferEncoding := val }
  | .pluralForms => { h with pluralForms := val }
  | .xGenerator => { h with xGenerator := val }

/-- The results /repo/catalog/po/file.go:162-185. -/
def Header.getField (h : Header) : Field → Bytes
  | .projectIDVersion => h.projectIDVersion
  | .reportMsgidBugsTo => h.reportMsgidBugsTo
  | .potCreationDate => h.potCreationDate
  | .poRevisionDate => h.poRevisionDate
  | .lastTranslator => h.lastTranslator
  | .languageTeam => h.languageTeam
  | .language => h.language
  | .mimeVersion => h.mimeVersion
  | .contentType => h.contentType
  | .contentTransferEncoding => h.contentTransferEncoding
  | .pluralForms => h.pluralForms
  | .xGenerator => h.xGenerator

/-- /repo/catalog/po/file.go:124-156 `Header.Set`. -/
def Header.set (u : Unicode) (h : Header) (key val : Bytes) : Header :=
  match fieldOf u key with
  | some f => h.setField val f
  | none => { h with unknownFields := h.unknownFields.set key val }

/-- /repo/catalog/po/file.go:192-198: the loop over the unknown fields, in the order of the map. -/
def findFold (u : Unicode) (key : Bytes) : GoMap Bytes Bytes → Bytes
  | [] => []
  | (k, v) :: m => if u.equalFold k key then v else findFold u key m

/-- /repo/catalog/po/file.go:160-199 `Header.Get`. -/
def Header.get (u : Unicode) (h : Header) (key : Bytes) : Bytes :=
  match fieldOf u key with
  | some f => h.getField f
  | none => findFold u key h.unknownFields

/-- /repo/catalog/po/file.go:38-41 `File`. -/
structure File where
  header : Option Header
  messages : Messages
  deriving DecidableEq, Repr

/-- /repo/catalog/po/file.go:62-67 `NewFile`. -/
def File.new : File := ⟨some {}, []⟩

/-- /repo/catalog/po/file.go:71-81 `AddMessage`. -/
def File.addMessage (f : File) (msg : Message) : File :=
  if msg.id = [] then f else { f with messages := f.messages.add msg }

/-- /repo/catalog/po/file.go:85-96 `GetMessage`. -/
def File.getMessage (f : File) (ctx id : Bytes) : Option Message :=
  match f.messages.get? ctx with
  | none => none
  | some inner => inner.get? id

end Verif.Model.Po
