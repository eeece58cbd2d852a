import Verif.Model.Mo
/-!
# Specification of MO files

The format of GNU gettext: which byte strings are images of which lists of entries.  `Order`, `Message` and
`GoMap` are data types only.
-/
namespace Verif.Spec.Mo
open Verif.Go Verif.Model.Po Verif.Model.Mo

/-- The `k` bytes of a number, the lowest first. -/
def digits : Nat → Nat → Bytes
  | 0, _ => []
  | k + 1, v => UInt8.ofNat (v % 256) :: digits k (v / 256)

/-- The bytes of a number in a byte order. -/
def bytesOf (bo : Order) (k v : Nat) : Bytes :=
  match bo with
  | .little => digits k v
  | .big => (digits k v).reverse

/-- The data have the text `s` at position `p`. -/
def HasAt (data : Bytes) (p : Nat) (s : Bytes) : Prop := ∃ pre post, data = pre ++ s ++ post ∧ pre.length = p

/-- The data have a number of `k` bytes at position `p`. -/
def NumAt (bo : Order) (data : Bytes) (p k v : Nat) : Prop := v < 256 ^ k ∧ HasAt data p (bytesOf bo k v)

/-- A message as an MO file stores it. -/
structure Entry where
  context : Option Bytes
  id : Bytes
  plural : Option Bytes
  strs : List Bytes

/-- The key string. -/
def Entry.rawId (e : Entry) : Bytes :=
  (match e.context with | none => [] | some c => c ++ [0x04]) ++ e.id ++
    (match e.plural with | none => [] | some p => 0x00 :: p)

/-- The translation string. -/
def Entry.rawStr (e : Entry) : Bytes := join [0x00] e.strs

/-- The entry with the header fields. -/
def Entry.isHeader (e : Entry) : Prop := e.context = none ∧ e.id = [] ∧ e.plural = none

instance (e : Entry) : Decidable e.isHeader := by unfold Entry.isHeader; infer_instance

/-- The separators occur in their places only. -/
def Entry.WF (e : Entry) : Prop :=
  0x00 ∉ e.id ∧
  (∀ c ∈ e.context, 0x04 ∉ c) ∧ (e.context = none → 0x04 ∉ e.id ∧ ∀ p ∈ e.plural, 0x04 ∉ p) ∧
  (e.plural = none → ∃ s, e.strs = [s]) ∧ (e.plural ≠ none → e.strs ≠ [] ∧ ∀ s ∈ e.strs, 0x00 ∉ s)

/-- Context and id. -/
def Entry.key (e : Entry) : Bytes × Bytes := (e.context.getD [], e.id)

/-- The texts with their index. -/
def numbered (i : Nat) : List Bytes → GoMap Int Bytes
  | [] => []
  | s :: ss => ((i : Int), s) :: numbered (i + 1) ss

/-- The message an entry stands for. -/
def Entry.message (e : Entry) : Message :=
  { comment := some .new, context := e.context.getD [], id := e.id, idPlural := e.plural.getD [],
    str := numbered 0 e.strs }

/-- A table at position `p` whose rows are length and offset of the given texts; each text is followed by a
NUL. -/
def TableAt (bo : Order) (data : Bytes) (p : Nat) (texts : List Bytes) : Prop :=
  ∀ i s, texts[i]? = some s → ∃ off, NumAt bo data (p + 8 * i) 4 s.length ∧ NumAt bo data (p + 8 * i + 4) 4 off ∧
    HasAt data off (s ++ [0x00])

/-- The beginning of a file: magic number, revision, number of strings `n`, offsets `o` and `t` of the tables,
size and offset of the hash table. -/
def HeadAt (bo : Order) (data : Bytes) (n o t : Nat) : Prop :=
  NumAt bo data 0 4 0x950412de ∧ (∃ a, NumAt bo data 4 2 a ∧ a ≤ 1) ∧ (∃ b, NumAt bo data 6 2 b ∧ b ≤ 1) ∧
  NumAt bo data 8 4 n ∧ NumAt bo data 12 4 o ∧ NumAt bo data 16 4 t ∧
  (∃ s, NumAt bo data 20 4 s) ∧ ∃ h, NumAt bo data 24 4 h

/-- The data are an image of the entries; the layout is arbitrary. -/
def Image (bo : Order) (data : Bytes) (es : List Entry) : Prop :=
  ∃ o t, HeadAt bo data es.length o t ∧ TableAt bo data o (es.map Entry.rawId) ∧ TableAt bo data t (es.map Entry.rawStr)

/-- The fields of a header text: the lines with a colon, name and value without surrounding white space. -/
def headerFields (text : Bytes) : List (Bytes × Bytes) :=
  (splitByte 0x0a text).filterMap fun l =>
    if 0x3a ∈ l then some (trimSpace (l.takeWhile (· ≠ 0x3a)), trimSpace ((l.dropWhile (· ≠ 0x3a)).drop 1)) else none

/-- The rows of a table whose texts are placed one after the other from `off` on. -/
def rows (bo : Order) (off : Nat) : List Bytes → Bytes
  | [] => []
  | s :: ss => bytesOf bo 4 s.length ++ bytesOf bo 4 off ++ rows bo (off + s.length + 1) ss

/-- The texts, each followed by a NUL. -/
def pool (texts : List Bytes) : Bytes := texts.flatMap (· ++ [0x00])

/-- One way to write an image. -/
def write (bo : Order) (es : List Entry) : Bytes :=
  let n := es.length
  let ids := es.map Entry.rawId
  let strs := es.map Entry.rawStr
  bytesOf bo 4 0x950412de ++ bytesOf bo 2 0 ++ bytesOf bo 2 0 ++ bytesOf bo 4 n ++ bytesOf bo 4 28 ++ bytesOf bo 4 (28 + 8 * n) ++
    bytesOf bo 4 0 ++ bytesOf bo 4 (28 + 16 * n) ++
    rows bo (28 + 16 * n) ids ++ rows bo (28 + 16 * n + (pool ids).length) strs ++ pool ids ++ pool strs

end Verif.Spec.Mo
