import Verif.Model.Po.Memory
/-!
# What does not share memory

When objects of a PO file are separate: the words in which the theorems about messages in memory are stated.
-/
namespace Verif.Spec.Memory
open Verif.Go Verif.Model.Po Verif.Model.Po.Memory

/-- There is a comment at the address, and its slices lie within their arrays. -/
def CmtOk (h : Heap) (c : Nat) : Prop :=
  c < h.cmts.length ∧ (h.cmt c).references.Ok h.refs ∧ (h.cmt c).flags.Ok h.flags

/-- Two comments that do not share an array. -/
def CmtApart (h : Heap) (c d : Nat) : Prop :=
  c ≠ d ∧ (h.cmt c).references.Apart (h.cmt d).references ∧ (h.cmt c).flags.Apart (h.cmt d).flags

/-- There is a message at the address, and its comment is one. -/
def MsgOk (h : Heap) (a : Nat) : Prop :=
  a < h.msgs.length ∧ ∀ c, (h.msg a).comment = some c → CmtOk h c

/-- Two messages that share neither a comment nor an array. -/
def MsgApart (h : Heap) (a b : Nat) : Prop :=
  a ≠ b ∧ ∀ c d, (h.msg a).comment = some c → (h.msg b).comment = some d → CmtApart h c d

/-- The references of the messages are either the same slice or do not share memory. -/
def Mergeable (h : Heap) (a b : Nat) : Prop :=
  ∀ c d, (h.msg a).comment = some c → (h.msg b).comment = some d →
    (h.cmt c).references = (h.cmt d).references ∨ (h.cmt c).references.Apart (h.cmt d).references

/-- The maps of a file are maps, and there is one for each context. -/
structure MapsOk (h : Heap) (o : Nat) : Prop where
  bound : o < h.outers.length
  wf : (h.outer o).WF
  inner : ∀ ctx i, (h.outer o).get? ctx = some i → i < h.inners.length ∧ (h.inner i).WF
  single : ∀ ctx ctx' i, (h.outer o).get? ctx = some i → (h.outer o).get? ctx' = some i → ctx = ctx'

/-- No two messages of the file share memory. -/
structure Owned (h : Heap) (o : Nat) : Prop where
  maps : MapsOk h o
  ok : ∀ ctx id a, find h o ctx id = some a → MsgOk h a
  apart : ∀ ctx id a ctx' id' b, find h o ctx id = some a → find h o ctx' id' = some b → (ctx, id) ≠ (ctx', id') →
    MsgApart h a b

/-- The files have no map in common (but maybe messages). -/
def MapsApart (h : Heap) (o p : Nat) : Prop :=
  o ≠ p ∧ ∀ ctx ctx' i, (h.outer o).get? ctx = some i → (h.outer p).get? ctx' ≠ some i

/-- The message shares no memory with the messages of the file. -/
def New (h : Heap) (o a : Nat) : Prop := ∀ ctx id b, find h o ctx id = some b → MsgApart h b a

/-- The maps of the file are maps and its messages are messages; they may share memory. -/
def FileOk (h : Heap) (f : Nat) : Prop :=
  f < h.files.length ∧ (∀ o, h.files[f]?.getD none = some o → MapsOk h o) ∧ ∀ c id b, getMessage h f c id = some b → MsgOk h b

/-- No two messages of the file share memory; the map may be nil. -/
def FileOwned (h : Heap) (f : Nat) : Prop := f < h.files.length ∧ ∀ o, h.files[f]?.getD none = some o → Owned h o

/-- The message shares no memory with the messages of the file. -/
def FileNew (h : Heap) (f a : Nat) : Prop := ∀ ctx id b, getMessage h f ctx id = some b → MsgApart h b a

/-- Several messages are added, one after the other. -/
def addAll (room : Room) (h : Heap) (f : Nat) (l : List Nat) : Heap := l.foldl (fun h a => addMessage room h f a) h

/-- The message at `a` has this context and this ID. -/
def HasKey (h : Heap) (ctx id : Bytes) (a : Nat) : Prop := (h.msg a).context = ctx ∧ (h.msg a).id = id

instance (h : Heap) (ctx id : Bytes) (a : Nat) : Decidable (HasKey h ctx id a) := inferInstanceAs (Decidable (_ ∧ _))

end Verif.Spec.Memory
