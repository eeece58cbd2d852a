import Verif.Go.Text
import Verif.Go.Utf8
/-!
# The notation of references

`path:line`, or a path alone, as the manual of gettext has it (section "The Format of PO Files"); a path with
white space is put between U+2068 and U+2069.
-/
namespace Verif.Spec.Reference
open Verif.Go

/-- A reference as it is written: a path and perhaps the digits of a line. -/
structure Written where
  path : List Char
  line : Option Bytes

/-- The path is not empty and has neither white space nor a colon; the line is a number that fits into an `int`. -/
def Written.Plain (w : Written) : Prop :=
  w.path ≠ [] ∧ (∀ c ∈ w.path, isSpace c = false ∧ c ≠ ':') ∧
  ∀ ds, w.line = some ds → ds ≠ [] ∧ (∀ d ∈ ds, isDigit d = true) ∧ digitsValue ds < 2 ^ 63

/-- The path is not empty and has no white space; it may have colons.  The line is a number that fits into an `int`. -/
def Written.Solid (w : Written) : Prop :=
  w.path ≠ [] ∧ (∀ c ∈ w.path, isSpace c = false) ∧
  ∀ ds, w.line = some ds → ds ≠ [] ∧ (∀ d ∈ ds, isDigit d = true) ∧ digitsValue ds < 2 ^ 63

/-- The path has no colon, or it begins with one and there is no line. -/
def Written.Clear (w : Written) : Prop := ':' ∉ w.path ∨ (w.path.head? = some ':' ∧ w.line = none)

/-- The path is not empty, the line is a number that fits into an `int`. -/
def Written.Numbered (w : Written) : Prop :=
  w.path ≠ [] ∧ ∀ ds, w.line = some ds → ds ≠ [] ∧ (∀ d ∈ ds, isDigit d = true) ∧ digitsValue ds < 2 ^ 63

/-- No blank in the path and no white space at the ends of the reference. -/
def Written.Compact (w : Written) : Prop :=
  ' ' ∉ w.path ∧ (∀ c ∈ w.path.head?, isSpace c = false) ∧ (w.line = none → ∀ c ∈ w.path.getLast?, isSpace c = false)

/-- The text of a reference. -/
def Written.text (w : Written) : Bytes :=
  utf8 w.path ++ match w.line with | some ds => b!":" ++ ds | none => []

/-- The number of the line; -1 if there is none. -/
def Written.number (w : Written) : Int := match w.line with | some ds => digitsValue ds | none => -1

end Verif.Spec.Reference
