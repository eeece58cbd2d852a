import Verif.Go.Reader
/-!
# What a reader delivers (C117, C118)
-/
namespace Verif.Spec.Reader
open Verif.Go

/-- The reader does not return without bytes and without an error more than a hundred times in a row. -/
def Steady (r : Reader) : Prop := ¬ List.replicate 101 [] <:+: r.chunks

/-- The text up to its last newline. -/
def wholeLines (t : Bytes) : Bytes := (t.reverse.dropWhile (· ≠ 0x0a)).reverse

/-- The second text is the beginning of the first, and zeros up to the same length. -/
def Cut (a b : Bytes) : Prop := ∃ k ≤ a.length, b = a.take k ++ List.replicate (a.length - k) 0

/-- Rows of ids and texts, each of them cut. -/
inductive CutRows : List (Bytes × Bytes) → List (Bytes × Bytes) → Prop
  | nil : CutRows [] []
  | cons {a b : Bytes × Bytes} {as bs : List (Bytes × Bytes)} : Cut a.1 b.1 ∧ Cut a.2 b.2 → CutRows as bs →
      CutRows (a :: as) (b :: bs)

end Verif.Spec.Reader
