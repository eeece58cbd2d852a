import Verif.Spec.PoFile
/-!
# What is kept if a file that was read is written and read again

Independent of parser and encoder: the files all of whose parts have a place in the text the encoder writes, and when two files
have the same contents.
-/
namespace Verif.Spec.PoReread
open Verif.Go Verif.Model.Po Verif.Spec.PoString Verif.Spec.PoFile

/-- A comment all of whose parts are written: no previous message, and references to a path without white space and colons, with
a positive line or none. -/
structure Holdable (c : Comment) : Prop where
  references : ∀ r ∈ c.references, WordOf (fun x => isSpace x || x = ':') r.path ∧ (0 < r.line ∨ r.line = -1)
  prevMsgContext : c.prevMsgContext = []
  prevMsgID : c.prevMsgID = []

/-- A message all of whose parts are written: no control characters without an escape, translations 0, 1, ... without gaps, at
least one of them, and two if there is a plural id. -/
structure HoldableMessage (m : Message) : Prop where
  id : ∀ b ∈ m.id, ¬ BadByte b
  context : ∀ b ∈ m.context, ¬ BadByte b
  idPlural : ∀ b ∈ m.idPlural, ¬ BadByte b
  str : ∀ i v, m.str.get? i = some v → ∀ b ∈ v, ¬ BadByte b
  indices : ∀ k, k ∈ m.str.keys ↔ 0 ≤ k ∧ k < m.str.length
  count : 1 ≤ m.str.length ∧ m.str.length < 9223372036854775808
  second : m.idPlural ≠ [] → 2 ≤ m.str.length
  comment : ∀ c ∈ m.comment, Holdable c

/-- No quotes and no backslashes. -/
def Bare (s : Bytes) : Prop := (0x22 : UInt8) ∉ s ∧ (0x5c : UInt8) ∉ s

/-- A header all of whose parts are written. -/
structure HoldableHeader (h : Header) : Prop where
  fields : ∀ f, Bare (h.getField f)
  unknown : ∀ k v, h.unknownFields.get? k = some v → Bare k ∧ Bare v
  comment : ∀ c ∈ h.comment, Holdable c

/-- A file all of whose parts are written. -/
structure HoldableFile (f : File) : Prop where
  messages : ∀ c i m, f.getMessage c i = some m → HoldableMessage m
  header : ∀ h ∈ f.header, HoldableHeader h

/-- The same header; a missing comment is an empty one. -/
structure SameHeaderText (h h' : Header) : Prop where
  fields : ∀ f, h'.getField f = h.getField f
  unknown : ∀ k, h'.unknownFields.get? k = h.unknownFields.get? k
  comment : h'.comment.getD .new = h.comment.getD .new

/-- The same file: the header, and all messages up to the order of flags and references. -/
structure SameContents (f f' : File) : Prop where
  header : Option.Rel SameHeaderText f.header f'.header
  messages : ∀ c i, Option.Rel SameUpToOrder (f.getMessage c i) (f'.getMessage c i)

end Verif.Spec.PoReread
