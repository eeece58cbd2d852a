import Verif.Spec.Memory
import Verif.Model.Po.Saving
/-!
# What saving may do

The words in which the theorems about saving a PO file are stated.
-/
namespace Verif.Spec.Saving
open Verif.Go Verif.Model.Po Verif.Model.Po.Memory Verif.Spec.Memory

/-- The algorithm sorts the list: it compares elements of the list and returns them in some order. -/
inductive Sorts (l : List Nat) : Algo → Prop
  | done {l' : List Nat} : l'.Perm l → Sorts l (.done l')
  | compare {a b : Nat} {next : Int → Algo} : a ∈ l → b ∈ l → (∀ i, Sorts l (next i)) → Sorts l (.compare a b next)

/-- How two messages compare, by what they stand for. -/
def cmpOf (h : Heap) (a b : Nat) : Int := (defaultSort (h.message a) (h.message b)).1

/-- What the algorithm returns if comparisons have the results `cmp` and nothing changes. -/
def order (cmp : Nat → Nat → Int) : Algo → List Nat
  | .done l => l
  | .compare a b next => order cmp (next (cmp a b))

/-- The comments of the messages of the file are the same comment or do not share memory. -/
def CommentsApart (h : Heap) (f : Nat) : Prop :=
  ∀ ctx id a ctx' id' b, getMessage h f ctx id = some a → getMessage h f ctx' id' = some b →
    ∀ c d, (h.msg a).comment = some c → (h.msg b).comment = some d → c = d ∨ CmtApart h c d

/-- The comment of the message shares no memory with those of the messages of the file. -/
def Outside (h : Heap) (f b : Nat) : Prop :=
  ∀ ctx id a, getMessage h f ctx id = some a → ∀ c d, (h.msg b).comment = some c → (h.msg a).comment = some d → CmtApart h c d

/-- The same message, but for the order of the flags and references in its comment. -/
structure Reordered (m m' : Message) : Prop where
  context : m'.context = m.context
  id : m'.id = m.id
  idPlural : m'.idPlural = m.idPlural
  str : m'.str = m.str
  none : m.comment = none ↔ m'.comment = none
  comment : ∀ c c', m.comment = some c → m'.comment = some c' →
    c'.translator = c.translator ∧ c'.extracted = c.extracted ∧ c'.references.Perm c.references ∧ c'.flags.Perm c.flags ∧
      c'.prevMsgContext = c.prevMsgContext ∧ c'.prevMsgID = c.prevMsgID

end Verif.Spec.Saving
