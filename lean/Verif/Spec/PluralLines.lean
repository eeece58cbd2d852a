import Verif.Spec.PoEntry
/-!
# Specification: where the lines of a plural entry go

The rule by which the lines after `msgid_plural` are distributed over the indices: `msgstr[i]` gives the text of
index `i`; a continuation line does not belong to the `msgstr[i]` above it but to the index one less than the
number of indices seen so far.
-/
namespace Verif.Spec.PluralLines
open Verif.Go Verif.Spec.PoEntry

/-- A line of the translations. -/
inductive Line
  /-- `msgstr[i] "..."` -/
  | text (i : Nat) (t : Bytes)
  /-- a continuation line -/
  | more (t : Bytes)

/-- The lines of one `msgstr[i]`. -/
def linesOf (p : Bytes × Field) : List Line :=
  .text (digitsValue p.1) (utf8 p.2.first.value) :: p.2.rest.map fun q => .more (utf8 q.value)

/-- The effect of a line on the texts by index. -/
def place (m : GoMap Int Bytes) : Line → GoMap Int Bytes
  | .text i t => m.set i t
  | .more t => m.set (m.length - 1 : Int) ((m.get? (m.length - 1 : Int)).getD [] ++ t)

/-- The texts after all lines. -/
def placed (fs : List (Bytes × Field)) : GoMap Int Bytes := (fs.flatMap linesOf).foldl place []

/-- The texts after the translation part of an entry. -/
def strAfter (m : GoMap Int Bytes) : Str → GoMap Int Bytes
  | .single f => m.set 0 f.value
  | .plural fs => (fs.flatMap linesOf).foldl place m

end Verif.Spec.PluralLines
