import Verif.Model.Po.Encoder
import Verif.Spec.PoEntry
import Verif.Spec.PoString
import Verif.Spec.Wrap
/-!
# What it means to read a PO file back

The messages that can be written, and when a message that was read is the one that was written, independent of
encoder, scanner and parser.
-/
namespace Verif.Spec.PoFile
open Verif.Go Verif.Model.Po Verif.Spec.PoString Verif.Spec.Wrap

/-- A text that can be written: valid UTF-8 without control characters that have no escape. -/
def Writable (s : Bytes) : Prop := ∃ cs : List Char, s = utf8 cs ∧ ∀ c ∈ cs, Encodable c

/-- The indices of the translations are 0, 1, ... without gaps (and the count is an `int`). -/
def Indexed (str : GoMap Int Bytes) : Prop :=
  str.WF ∧ (∀ k, k ∈ str.keys ↔ 0 ≤ k ∧ k < str.length) ∧ str.length < 9223372036854775808

/-- A message is written with plural forms if it has a plural id or several translations. -/
def Plural (m : Message) : Prop := m.idPlural ≠ [] ∨ 1 < m.str.length

/-- The translation with the given index after reading: a missing translation of the singular, or of the first plural
form of a message with plural forms, is read as empty. -/
def filled (m : Message) (i : Int) : Option Bytes :=
  (m.str.get? i).or (if i = 0 ∨ (i = 1 ∧ (m.idPlural ≠ [] ∨ 1 < m.str.length)) then some [] else none)

/-- Scans a text; `cur` is the word read so far, `sep` are the characters between words. -/
def fieldsFrom (sep : Char → Bool) : List Char → List Char → List (List Char)
  | cur, [] => if cur = [] then [] else [cur]
  | cur, c :: cs =>
    if sep c then (if cur = [] then [] else [cur]) ++ fieldsFrom sep [] cs
    else fieldsFrom sep (cur ++ [c]) cs

/-- The words of a comment: the maximal runs of characters that are no white space. -/
def commentWords (s : Bytes) : List (List Char) := fieldsFrom isSpace [] (runes s)

/-- A word without the given characters. -/
def WordOf (bad : Char → Bool) (s : Bytes) : Prop := ∃ cs : List Char, s = utf8 cs ∧ cs ≠ [] ∧ ∀ c ∈ cs, bad c = false

/-- A reference that can be written: a path without white space and colons, a line that is an `int`. -/
def ReferenceOk (r : Reference) : Prop :=
  WordOf (fun c => isSpace c || c = ':') r.path ∧ r.line < 9223372036854775808

/-- A flag that can be written: no white space and no commas. -/
def FlagOk (s : Bytes) : Prop := WordOf (fun c => isSpace c || c = ',') s

/-- A comment that can be written. -/
structure CommentOk (c : Comment) : Prop where
  translator : ValidUtf8 c.translator
  extracted : ValidUtf8 c.extracted
  references : ∀ r ∈ c.references, ReferenceOk r
  flags : ∀ f ∈ c.flags, FlagOk f

/-- A reference as it is read: without column, and without line if there is no positive one. -/
def asRead (r : Reference) : Reference := ⟨r.path, if r.line > 0 then r.line else -1, 0⟩

/-- No line is longer than the width. -/
def Narrow (width : Int) (s : Bytes) : Prop := width ≤ 0 ∨ ∀ p ∈ paragraphs (runes s), (p.length : Int) ≤ width

/-- No line starts or ends with white space and the first line is not empty. -/
def TidyTranslator (s : Bytes) : Prop :=
  s = [] ∨ (splitByte 0x0a s).head? ≠ some [] ∧ ∀ l ∈ splitByte 0x0a s, trimSpace l = l

/-- No line starts or ends with white space and no line is empty. -/
def TidyExtracted (s : Bytes) : Prop := s = [] ∨ ∀ l ∈ splitByte 0x0a s, l ≠ [] ∧ trimSpace l = l

/-- The text of a comment as it is read: the words are kept; a tidy text of narrow lines is kept as it is. -/
def TextKept (width : Int) (Tidy : Bytes → Prop) (s s' : Bytes) : Prop :=
  ((0 < width → ∀ p ∈ paragraphs (runes s), GoodStart width p) → commentWords s' = commentWords s) ∧
  (Narrow width s → Tidy s → s' = s)

/-- `c'` is read for `c`; `refs`: references are written. -/
structure CommentRead (width : Int) (refs : Bool) (c c' : Comment) : Prop where
  translator : TextKept width TidyTranslator c.translator c'.translator
  extracted : TextKept width TidyExtracted c.extracted c'.extracted
  references : c'.references = if refs then c.references.map asRead else []
  flags : c'.flags = c.flags
  prevMsgContext : c'.prevMsgContext = []
  prevMsgID : c'.prevMsgID = []

/-- A message that can be written. -/
structure MessageOk (m : Message) : Prop where
  id : m.id ≠ []
  idText : Writable m.id
  context : Writable m.context
  idPlural : Writable m.idPlural
  str : ∀ p ∈ m.str, Writable p.2
  indices : Indexed m.str
  comment : ∀ c ∈ m.comment, CommentOk c

/-- `m'` is read for `m`; a message without comment is read with an empty one. -/
structure MessageRead (width : Int) (refs : Bool) (m m' : Message) : Prop where
  context : m'.context = m.context
  id : m'.id = m.id
  idPlural : m'.idPlural = m.idPlural
  str : ∀ i, m'.str.get? i = filled m i
  comment : ∃ c' : Comment, m'.comment = some c' ∧ CommentRead width refs (m.comment.getD .new) c'

/-- The same comment with flags and references in another order. -/
structure SameComment (c c' : Comment) : Prop where
  translator : c'.translator = c.translator
  extracted : c'.extracted = c.extracted
  references : c'.references.Perm c.references
  flags : c'.flags.Perm c.flags
  prevMsgContext : c'.prevMsgContext = c.prevMsgContext
  prevMsgID : c'.prevMsgID = c.prevMsgID

/-- The same message with the flags and references of the comment in another order. -/
structure Reordered (m m' : Message) : Prop where
  context : m'.context = m.context
  id : m'.id = m.id
  idPlural : m'.idPlural = m.idPlural
  str : m'.str = m.str
  comment : Option.Rel SameComment m.comment m'.comment

/-- Every message is stored under its context and its id. -/
structure Keyed (f : File) : Prop where
  contexts : f.messages.WF
  inner : ∀ p ∈ f.messages, GoMap.WF p.2
  keys : ∀ p ∈ f.messages, ∀ q ∈ p.2, q.2.context = p.1 ∧ q.2.id = q.1

/-- A text that may be written between quotes without escapes. -/
def Plain (s : Bytes) : Prop := ∃ cs : List Char, s = utf8 cs ∧ ∀ c ∈ cs, c ≠ '"' ∧ c ≠ '\\' ∧ c ≠ '\n'

/-- A header that can be written. -/
structure HeaderOk (h : Header) : Prop where
  comment : ∀ c ∈ h.comment, CommentOk c
  fields : ∀ f, Plain (h.getField f)
  unknownWF : h.unknownFields.WF
  unknown : ∀ p ∈ h.unknownFields, Plain p.1 ∧ Plain p.2

/-- No field has a value. -/
def NoValues (h : Header) : Prop := (∀ f, h.getField f = []) ∧ ∀ p ∈ h.unknownFields, p.2 = []

/-- Nothing of the comment is written. -/
def Silent (c : Comment) : Prop := c.translator = [] ∧ c.extracted = [] ∧ c.references = [] ∧ c.flags = []

/-- `h'` is read for `h`: the values without white space at the ends. -/
structure HeaderRead (width : Int) (refs : Bool) (h h' : Header) : Prop where
  fields : ∀ f, h'.getField f = trimSpace (h.getField f)
  unknown : ∀ k, h'.unknownFields.get? k = (h.unknownFields.get? k).map trimSpace
  comment : ∃ c' : Comment, h'.comment = some c' ∧ CommentRead width refs (h.comment.getD .new) c'

/-- A file that can be written with the given encoder. -/
structure FileOk (enc : Encoder) (f : File) : Prop where
  keyed : Keyed f
  messages : ∀ c i m, f.getMessage c i = some m → MessageOk m
  header : ∀ h ∈ f.header, HeaderOk h
  /-- A header that is left out because it has no values has no comment. -/
  silent : enc.writeEmptyHeader = false → ∀ h ∈ f.header, NoValues h → ∀ c ∈ h.comment, Silent c
  /-- The sort function changes nothing but the order of flags and references. -/
  sorting : ∀ cmp ∈ enc.sortFunction, ∀ a b, Reordered a (cmp a b).2.1 ∧ Reordered b (cmp a b).2.2

/-- The header is written. -/
def WritesHeader (enc : Encoder) (h : Header) : Prop :=
  enc.writeHeader = true ∧ ¬ (enc.writeEmptyHeader = false ∧ NoValues h)

/-- The names of unknown fields that are read as they are written: no name of a known field, no colon, no white space
at the ends. -/
def NamesOk (u : Unicode) (h : Header) : Prop :=
  ∀ p ∈ h.unknownFields, (∀ f : Verif.Model.Po.Field, u.toUpper p.1 ≠ u.toUpper f.key) ∧ (0x3a : UInt8) ∉ p.1 ∧ trimSpace p.1 = p.1

/-- A message of which nothing is lost: a comment of narrow tidy lines without references to columns and without the
previous message, and all translations that are written. -/
structure Lossless (width : Int) (m : Message) : Prop where
  comment : m.comment ≠ none
  translator : ∀ c ∈ m.comment, Narrow width c.translator ∧ TidyTranslator c.translator
  extracted : ∀ c ∈ m.comment, Narrow width c.extracted ∧ TidyExtracted c.extracted
  references : ∀ c ∈ m.comment, ∀ r ∈ c.references, r.column = 0 ∧ (0 < r.line ∨ r.line = -1)
  previous : ∀ c ∈ m.comment, c.prevMsgContext = [] ∧ c.prevMsgID = []
  first : m.str.get? 0 ≠ none
  second : m.idPlural ≠ [] → m.str.get? 1 ≠ none

/-- The same message: all texts and translations; flags and references may be in another order. -/
structure SameUpToOrder (m m' : Message) : Prop where
  context : m'.context = m.context
  id : m'.id = m.id
  idPlural : m'.idPlural = m.idPlural
  str : ∀ i, m'.str.get? i = m.str.get? i
  comment : Option.Rel SameComment m.comment m'.comment

/-! ## The same file, whatever the order of its maps -/

/-- The same message; the map of the translations may be visited in another order. -/
structure SameMessage (m m' : Message) : Prop where
  comment : m'.comment = m.comment
  context : m'.context = m.context
  id : m'.id = m.id
  idPlural : m'.idPlural = m.idPlural
  str : m.str.WF ∧ m'.str.WF ∧ m.str.Same m'.str

/-- The same header; the map of the unknown fields may be visited in another order. -/
structure SameHeader (h h' : Header) : Prop where
  comment : h'.comment = h.comment
  fields : ∀ f, h'.getField f = h.getField f
  unknown : h.unknownFields.WF ∧ h'.unknownFields.WF ∧ h.unknownFields.Same h'.unknownFields

/-- The same file; all maps may be visited in another order. -/
structure SameFile (f f' : File) : Prop where
  keyed : Keyed f ∧ Keyed f'
  header : Option.Rel SameHeader f.header f'.header
  messages : ∀ c i, Option.Rel SameMessage (f.getMessage c i) (f'.getMessage c i)

/-- The order of references: path, line, column. -/
def RefBefore (a b : Reference) : Prop :=
  (a.path ≠ b.path ∧ bytesLe a.path b.path = true) ∨
  (a.path = b.path ∧ (a.line < b.line ∨ a.line = b.line ∧ a.column < b.column))

/-- The smallest reference of a message. -/
def FirstRef (m : Message) (r : Reference) : Prop :=
  ∃ c : Comment, m.comment = some c ∧ r ∈ c.references ∧ ∀ s ∈ c.references, s = r ∨ RefBefore r s

/-- Every message has a reference, and no two messages have the same smallest one. -/
def ApartByReference (f : File) : Prop :=
  (∀ c i m, f.getMessage c i = some m → ∃ r, FirstRef m r) ∧
  ∀ c i m c' i' m' r, f.getMessage c i = some m → f.getMessage c' i' = some m' → FirstRef m r → FirstRef m' r → c = c' ∧ i = i'

/-- No message has references, and the flags of all messages are sorted unless all messages have a comment. -/
def NoReferences (f : File) : Prop :=
  (∀ c i m, f.getMessage c i = some m → ∀ x ∈ m.comment, x.references = []) ∧
  ((∀ c i m, f.getMessage c i = some m → m.comment ≠ none) ∨
   ∀ c i m, f.getMessage c i = some m → ∀ x ∈ m.comment, x.flags.Pairwise fun a b => bytesLe a b = true)

end Verif.Spec.PoFile
