import Verif.Model.Po.File
/-!
# The fields of a PO header

The names are those of the GNU gettext manual (section "Filling in the Header Entry"), with X-Generator.
-/
namespace Verif.Spec.PoHeader
open Verif.Go Verif.Model.Po

/-- The names of the fields in their order, each with the field of the Go structure for it. -/
def slots : List (Bytes × (Header → Bytes)) :=
  [(b!"Project-Id-Version", (·.projectIDVersion)), (b!"Report-Msgid-Bugs-To", (·.reportMsgidBugsTo)),
   (b!"POT-Creation-Date", (·.potCreationDate)), (b!"PO-Revision-Date", (·.poRevisionDate)),
   (b!"Last-Translator", (·.lastTranslator)), (b!"Language-Team", (·.languageTeam)), (b!"Language", (·.language)),
   (b!"MIME-Version", (·.mimeVersion)), (b!"Content-Type", (·.contentType)),
   (b!"Content-Transfer-Encoding", (·.contentTransferEncoding)), (b!"Plural-Forms", (·.pluralForms)),
   (b!"X-Generator", (·.xGenerator))]

/-- The names that are left out if they have no value. -/
def dropped : List Bytes := [b!"MIME-Version", b!"Plural-Forms", b!"X-Generator"]

/-- The names and values of a header, in the order in which they are written. -/
def written (h : Header) : List (Bytes × Bytes) :=
  (slots.map (fun s => (s.1, s.2 h)) ++ h.unknownFields).filter fun e => !(dropped.contains e.1 && e.2.isEmpty)

/-- The line of a name and a value. -/
def lineOf (e : Bytes × Bytes) : Bytes := b!"\"" ++ e.1 ++ b!": " ++ e.2 ++ b!"\\n\"\n"

/-- Nothing has a value. -/
def Blank (h : Header) : Prop := (∀ s ∈ slots, s.2 h = []) ∧ ∀ e ∈ h.unknownFields, e.2 = []

end Verif.Spec.PoHeader
