import Verif.Model.Po.Encoder
import Mathlib.Data.List.Forall2
/-!
# What is known of `slices.SortFunc`

Only what the documentation of package slices promises, for comparisons that may change the messages they are given.
-/
namespace Verif.Spec.PoSort
open Verif.Model.Po

/-- The slice is permuted, and its elements change in no way but by calls of the comparison: a reflexive and transitive
relation that every call respects holds between the elements before and afterwards. -/
def Honest (sort : Sorter) : Prop :=
  ∀ (cmp : Compare) (R : Message → Message → Prop), (∀ m, R m m) → (∀ a b c, R a b → R b c → R a c) →
    (∀ a b, R a (cmp a b).2.1 ∧ R b (cmp a b).2.2) →
    ∀ ms, ∃ ms' : List Message, ms'.Perm ms ∧ List.Forall₂ R ms' (sort cmp ms)

/-- On some messages and their normal forms the comparison leaves both messages in normal form, and depends on the normal
forms only. -/
structure Normalises (cmp : Compare) (N : Message → Message) (ms : List Message) : Prop where
  idem : ∀ a, N (N a) = N a
  after : ∀ a ∈ ms ++ ms.map N, ∀ b ∈ ms ++ ms.map N, (cmp a b).2 = (N a, N b)
  before : ∀ a ∈ ms ++ ms.map N, ∀ b ∈ ms ++ ms.map N, (cmp a b).1 = (cmp (N a) (N b)).1

/-- The comparison orders the messages of the list strictly and totally. -/
structure StrictOn (cmp : Compare) (ms : List Message) : Prop where
  total : ∀ a ∈ ms, ∀ b ∈ ms, a = b ∨ (cmp a b).1 < 0 ∨ (cmp b a).1 < 0
  irrefl : ∀ a ∈ ms, ¬ (cmp a a).1 < 0
  trans : ∀ a ∈ ms, ∀ b ∈ ms, ∀ c ∈ ms, (cmp a b).1 < 0 → (cmp b c).1 < 0 → (cmp a c).1 < 0

/-- Two or more messages are sorted if the comparison is an order of the normal forms.  Every message is compared at least
once, so every message is in normal form afterwards.  A single message is not compared. -/
structure Sorts (sort : Sorter) : Prop where
  short : ∀ (cmp : Compare) (ms : List Message), ms.length ≤ 1 → sort cmp ms = ms
  sorted : ∀ (cmp : Compare) (N : Message → Message) (ms : List Message), 2 ≤ ms.length → Normalises cmp N ms →
    StrictOn cmp (ms.map N) →
    (sort cmp ms).Perm (ms.map N) ∧ (sort cmp ms).Pairwise fun a b => ¬ (cmp b a).1 < 0

end Verif.Spec.PoSort
