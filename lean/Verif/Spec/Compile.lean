import Verif.Spec.Mo
import Verif.Spec.PoEntry
/-!
# Specification of compiled PO files

What a compiler such as `msgfmt` of GNU gettext writes into an MO file for the entries of a PO file.
-/
namespace Verif.Spec.Compile
open Verif.Go
open Verif.Spec.PoEntry (Field Str Block flagsOf BlankApart)
open Verif.Model.Po (trimSpace)

/-- The translations in the order of the entry. -/
def strsOf : Str → List Bytes
  | .single f => [f.value]
  | .plural fs => fs.map fun p => p.2.value

/-- An entry as an MO file stores it. -/
def compiled (e : PoEntry.Entry) : Mo.Entry :=
  ⟨e.context.map Field.value, e.id.value, e.idPlural.map Field.value, strsOf e.str⟩

/-- The entry is marked for review. -/
def Fuzzy (e : PoEntry.Entry) : Prop := b!"fuzzy" ∈ flagsOf e.comments

/-- The entry has a text. -/
def Translated (e : PoEntry.Entry) : Prop := ∃ s ∈ strsOf e.str, s ≠ []

/-- The entries of the MO file: the header and every translated entry that is not fuzzy, in any order; untranslated ones
may be left out. -/
structure Compiled (bs : List Block) (es : List Mo.Entry) : Prop where
  once : es.Nodup
  source : ∀ e ∈ es, ∃ b ∈ bs, e = compiled b.2 ∧ (b.2.id.value = [] ∨ ¬ Fuzzy b.2)
  header : ∀ b ∈ bs, b.2.id.value = [] → compiled b.2 ∈ es
  translated : ∀ b ∈ bs, ¬ Fuzzy b.2 → Translated b.2 → compiled b.2 ∈ es

/-- A line of a header: blank or with a colon. -/
def HeaderLine (l : Bytes) : Prop := trimSpace l = [] ∨ 0x3a ∈ l

/-- What makes an entry the same in both formats: the separators of the MO format do not occur in the texts, the forms are
numbered from 0, and an entry with an empty id is a header. -/
structure Plain (e : PoEntry.Entry) : Prop where
  texts : (compiled e).WF
  forms : ∀ fs, e.str = .plural fs → fs.map (fun p => digitsValue p.1) = List.range fs.length
  header : e.id.value = [] → (compiled e).isHeader ∧ ∃ f, e.str = .single f

/-- The lines of a header entry are fields. -/
def Fields (e : PoEntry.Entry) : Prop :=
  e.id.value = [] → ∀ s ∈ strsOf e.str, ∀ l ∈ splitByte 0x0a s, HeaderLine l

/-- A PO file of plain entries, separated by blank lines, with different keys. -/
structure Regular (bs : List Block) : Prop where
  some : bs ≠ []
  wf : ∀ b ∈ bs, b.WF
  apart : BlankApart bs
  keys : (bs.map fun b => (compiled b.2).key).Nodup
  plain : ∀ b ∈ bs, Plain b.2

/-- The same text, and an error in both cases or in none. -/
def SameAnswer {ε : Type} (r s : Bytes × Option ε) : Prop := r.1 = s.1 ∧ (r.2 = none ↔ s.2 = none)

end Verif.Spec.Compile
