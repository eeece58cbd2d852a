import Verif.Go.Text
import Verif.Model.Po.File
import Verif.Go.Time
/-!
# Specification of the examples of a plural form

A text as in `plurals.json`: parts between commas, up to the omission points.  A part is a range of numbers `a~b` or an
example that is taken as it is, with `e` for `c`.
-/
namespace Verif.Spec.Examples
open Verif.Go
open Verif.Model.Po (trimSpace)

/-- The parts of a text that count. -/
def parts (text : Bytes) : List Bytes := (splitByte 0x2c text).takeWhile (· ≠ b!" …")

/-- A part that is a range: exactly one tilde. -/
def IsRange (part : Bytes) : Prop := (trimSpace part).count 0x7e = 1

/-- The part is a range from `a` to `b`. -/
def Range (part : Bytes) (a b : Int) : Prop :=
  ∃ x y, trimSpace part = x ++ 0x7e :: y ∧ 0x7e ∉ x ∧ 0x7e ∉ y ∧ atoi x = some a ∧ atoi y = some b

/-- The examples of a part. -/
inductive Shows (part : Bytes) : List Bytes → Prop
  | range {a b : Int} : Range part a b → Shows part ((List.range (b + 1 - a).toNat).map fun k : Nat => itoa (a + k))
  | value : ¬ IsRange part → Shows part [(trimSpace part).map fun c => if c = 0x63 then 0x65 else c]

/-- The examples of some parts, one after the other. -/
inductive ShowsAll : List Bytes → List Bytes → Prop
  | nil : ShowsAll [] []
  | cons {p l ps ls} : Shows p l → ShowsAll ps ls → ShowsAll (p :: ps) (l ++ ls)

/-- The text can be read: the ends of the ranges are numbers, and the last one is not the greatest `int`. -/
def Readable (text : Bytes) : Prop :=
  ∀ p ∈ parts text, IsRange p → ∃ a b, Range p a b ∧ b ≠ 9223372036854775807

/-- The first place of a case. -/
def FirstAt (cases : List Bytes) (name : Bytes) (i : Nat) : Prop :=
  cases[i]? = some name ∧ ∀ j, j < i → cases[j]? ≠ some name

end Verif.Spec.Examples
