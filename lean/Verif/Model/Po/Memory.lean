import Verif.Go.Slice
import Verif.Model.Po.File
/-!
# PO messages in memory

Models /repo/catalog/po/{comment,message,file}.go once more, now with pointers: comments, messages, the maps of a file and the
arrays behind `References` and `Flags` are objects of a heap, which files and programs may share.  `Verif.Model.Po.File` is the view
without the sharing.

Values here: the references (the package never writes to a `Reference`) and `Str` (no function modelled here writes to it).  Nil
messages are left out, and so is the header of a file.
-/
namespace Verif.Model.Po.Memory
open Verif.Go

/-- /repo/catalog/po/comment.go:28-35 `Comment` in memory. -/
structure Cmt where
  translator : Bytes
  extracted : Bytes
  references : Slice
  flags : Slice
  prevMsgContext : Bytes
  prevMsgID : Bytes
  deriving DecidableEq, Repr

/-- /repo/catalog/po/message.go:4-10 `Message` in memory; `none` is a nil comment. -/
structure Msg where
  comment : Option Nat
  context : Bytes
  id : Bytes
  idPlural : Bytes
  str : GoMap Int Bytes
  deriving DecidableEq, Repr

/-- The memory.  `inners` are the maps from IDs to messages, `outers` the maps from contexts to these (/repo/catalog/po/file.go:45
`Messages`), `files` the field `Messages` of the files (37-41 `File`; `none` is the nil map). -/
structure Heap where
  refs : Arrays Reference
  flags : Arrays Bytes
  cmts : List Cmt
  msgs : List Msg
  inners : List (GoMap Bytes Nat)
  outers : List (GoMap Bytes Nat)
  files : List (Option Nat)
  deriving DecidableEq, Repr

/-- The elements behind the last one when `append` makes a new array: Go does not say how many. -/
structure Room where
  refs : Nat → List Reference
  flags : Nat → List Bytes

/-- The comment at an address. -/
def Heap.cmt (h : Heap) (c : Nat) : Cmt := h.cmts[c]?.getD ⟨[], [], .nil, .nil, [], []⟩

/-- The message at an address. -/
def Heap.msg (h : Heap) (a : Nat) : Msg := h.msgs[a]?.getD ⟨none, [], [], [], []⟩

/-- The map at an address. -/
def Heap.inner (h : Heap) (i : Nat) : GoMap Bytes Nat := h.inners[i]?.getD []

/-- The map at an address. -/
def Heap.outer (h : Heap) (o : Nat) : GoMap Bytes Nat := h.outers[o]?.getD []

/-- Any assignment to a comment. -/
def Heap.setCmt (h : Heap) (c : Nat) (v : Cmt) : Heap := { h with cmts := h.cmts.set c v }

/-- Any assignment to a message. -/
def Heap.setMsg (h : Heap) (a : Nat) (v : Msg) : Heap := { h with msgs := h.msgs.set a v }

/-- Any assignment to an inner map. -/
def Heap.setInner (h : Heap) (i : Nat) (m : GoMap Bytes Nat) : Heap := { h with inners := h.inners.set i m }

/-- Any assignment to an outer map. -/
def Heap.setOuter (h : Heap) (o : Nat) (m : GoMap Bytes Nat) : Heap := { h with outers := h.outers.set o m }

/-- /repo/catalog/po/comment.go:106-108 `sortFlags`. -/
def sortFlags (h : Heap) (c : Nat) : Heap := { h with flags := (h.cmt c).flags.sort bytesLe h.flags }

/-- /repo/catalog/po/comment.go:110-122 `sortReferences`. -/
def sortReferences (h : Heap) (c : Nat) : Heap := { h with refs := (h.cmt c).references.sort Reference.le h.refs }

/-- /repo/catalog/po/comment.go:101-104 `sort`. -/
def sort (h : Heap) (c : Nat) : Heap := sortReferences (sortFlags h c) c

/-- The references of a comment become another slice, with other arrays. -/
def Heap.putRefs (h : Heap) (c : Nat) (p : Arrays Reference × Slice) : Heap :=
  { h with refs := p.1, cmts := h.cmts.set c { h.cmt c with references := p.2 } }

/-- The flags of a comment become another slice, with other arrays. -/
def Heap.putFlags (h : Heap) (c : Nat) (p : Arrays Bytes × Slice) : Heap :=
  { h with flags := p.1, cmts := h.cmts.set c { h.cmt c with flags := p.2 } }

/-- /repo/catalog/po/comment.go:44-52 `AddReference`. -/
def addReference (room : Room) (h : Heap) (c : Nat) (r : Reference) : Heap :=
  if (h.cmt c).references.len = 0 then h.putRefs c (makeSlice h.refs [r] [])
  else sortReferences (h.putRefs c ((h.cmt c).references.append room.refs h.refs r)) c

/-- /repo/catalog/po/comment.go:58-64 `AddFlag`, with 54-56 `HasFlag`. -/
def addFlag (room : Room) (h : Heap) (c : Nat) (flag : Bytes) : Heap :=
  if flag ∈ (h.cmt c).flags.get h.flags then h
  else sortFlags (h.putFlags c ((h.cmt c).flags.append room.flags h.flags flag)) c

/-- /repo/catalog/po/comment.go:91-99: the loop of `mergeReferences`.  `t` is `other.References` as it was before the loop; `k` of
its elements are left, and each is read from the array when its turn comes.  `s` is `c.References`. -/
def mergeRefs (room : Nat → List Reference) (t : Slice) : Nat → Arrays Reference → Slice → Arrays Reference × Slice
  | 0, A, s => (A, s)
  | k + 1, A, s =>
    match (t.get A)[t.len - (k + 1)]? with
    | none => (A, s)
    | some r =>
      if r ∈ s.get A then mergeRefs room t k A s
      else mergeRefs room t k (s.append room A r).1 (s.append room A r).2

/-- /repo/catalog/po/comment.go:66-83: the texts. -/
def mergeTexts (h : Heap) (c o : Nat) : Heap :=
  let h := h.setCmt c { h.cmt c with translator := mergeText (h.cmt c).translator (h.cmt o).translator }
  h.setCmt c { h.cmt c with extracted := mergeText (h.cmt c).extracted (h.cmt o).extracted }

/-- The part of the array that `mergeStringArrays` makes (/repo/catalog/po/comment.go:126) and does not fill. -/
def mergeRoom (left right : List Bytes) : List Bytes :=
  List.replicate (left.length + right.length - (mergeStringArrays left right).length) []

/-- /repo/catalog/po/comment.go:85: the flags; the result is a new slice. -/
def mergeFlags (h : Heap) (c o : Nat) : Heap :=
  let left := (h.cmt c).flags.get h.flags
  let right := (h.cmt o).flags.get h.flags
  h.putFlags c (makeSlice h.flags (mergeStringArrays left right) (mergeRoom left right))

/-- /repo/catalog/po/comment.go:91-99 `mergeReferences`. -/
def joinReferences (room : Room) (h : Heap) (c o : Nat) : Heap :=
  h.putRefs c (mergeRefs room.refs (h.cmt o).references (h.cmt o).references.len h.refs (h.cmt c).references)

/-- /repo/catalog/po/comment.go:66-89 `Comment.Merge`. -/
def mergeComment (room : Room) (h : Heap) (c : Nat) (other : Option Nat) : Heap :=
  match other with
  | none => h
  | some o => sort (joinReferences room (mergeFlags (mergeTexts h c o) c o) c o) c

/-- /repo/catalog/po/message.go:26-28 and 38-40, with comment.go:37-42 `NewComment`: a message without a comment gets one. -/
def ensureComment (h : Heap) (a : Nat) : Heap :=
  match (h.msg a).comment with
  | some _ => h
  | none =>
    { h with
      cmts := h.cmts ++ [⟨[], [], .nil, .nil, [], []⟩]
      msgs := h.msgs.set a { h.msg a with comment := some h.cmts.length } }

/-- /repo/catalog/po/message.go:25-31 `Message.AddReference`. -/
def msgAddReference (room : Room) (h : Heap) (a : Nat) (r : Reference) : Heap :=
  let h := ensureComment h a
  match (h.msg a).comment with
  | none => h
  | some c => addReference room h c r

/-- /repo/catalog/po/message.go:43-45: the plural ID. -/
def mergePlural (h : Heap) (a b : Nat) : Heap :=
  if (h.msg a).idPlural = [] ∧ (h.msg b).idPlural ≠ [] then h.setMsg a { h.msg a with idPlural := (h.msg b).idPlural } else h

/-- /repo/catalog/po/message.go:33-46 `Message.Merge`. -/
def mergeMsg (room : Room) (h : Heap) (a b : Nat) : Heap :=
  let h := ensureComment h a
  match (h.msg a).comment with
  | none => h
  | some c => mergePlural (mergeComment room h c (h.msg b).comment) a b

/-- /repo/catalog/po/file.go:50-53: the map of the context is made if it is missing. -/
def ensureInner (h : Heap) (o : Nat) (ctx : Bytes) : Heap × Nat :=
  match (h.outer o).get? ctx with
  | some i => (h, i)
  | none =>
    ({ h with inners := h.inners ++ [[]], outers := h.outers.set o ((h.outer o).set ctx h.inners.length) }, h.inners.length)

/-- /repo/catalog/po/file.go:49-60 `Messages.Add`. -/
def add (room : Room) (h : Heap) (o a : Nat) : Heap :=
  let r := ensureInner h o (h.msg a).context
  match (r.1.inner r.2).get? (h.msg a).id with
  | some old => mergeMsg room r.1 old a
  | none => r.1.setInner r.2 ((r.1.inner r.2).set (h.msg a).id a)

/-- /repo/catalog/po/file.go:72-74: a file without a map gets one. -/
def ensureOuter (h : Heap) (f : Nat) : Heap × Nat :=
  match h.files[f]?.getD none with
  | some o => (h, o)
  | none => ({ h with outers := h.outers ++ [[]], files := h.files.set f (some h.outers.length) }, h.outers.length)

/-- /repo/catalog/po/file.go:71-81 `AddMessage`. -/
def addMessage (room : Room) (h : Heap) (f a : Nat) : Heap :=
  let r := ensureOuter h f
  if (h.msg a).id = [] then r.1 else add room r.1 r.2 a

/-- /repo/catalog/po/file.go:85-96 `GetMessage`, for the map `Messages`. -/
def find (h : Heap) (o : Nat) (ctx id : Bytes) : Option Nat :=
  match (h.outer o).get? ctx with
  | none => none
  | some i => (h.inner i).get? id

/-- /repo/catalog/po/file.go:85-96 `GetMessage`. -/
def getMessage (h : Heap) (f : Nat) (ctx id : Bytes) : Option Nat :=
  match h.files[f]?.getD none with
  | none => none
  | some o => find h o ctx id

/-- What a comment in memory stands for. -/
def Heap.comment (h : Heap) (c : Nat) : Comment :=
  ⟨(h.cmt c).translator, (h.cmt c).extracted, (h.cmt c).references.get h.refs, (h.cmt c).flags.get h.flags,
    (h.cmt c).prevMsgContext, (h.cmt c).prevMsgID⟩

/-- What a message in memory stands for. -/
def Heap.message (h : Heap) (a : Nat) : Message :=
  ⟨(h.msg a).comment.map h.comment, (h.msg a).context, (h.msg a).id, (h.msg a).idPlural, (h.msg a).str⟩

/-- What the map of a context in memory stands for. -/
def Heap.innerMessages (h : Heap) (i : Nat) : GoMap Bytes Message := (h.inner i).map fun q => (q.1, h.message q.2)

/-- What the map of a file in memory stands for. -/
def Heap.messages (h : Heap) (o : Nat) : Messages := (h.outer o).map fun p => (p.1, h.innerMessages p.2)

/-- What a file in memory stands for. -/
def Heap.file (h : Heap) (f : Nat) : Messages :=
  match h.files[f]?.getD none with
  | none => []
  | some o => h.messages o

end Verif.Model.Po.Memory
