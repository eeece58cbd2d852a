import Verif.Spec.PluralLines
/-!
# Entries that follow each other without a separator (C09)

A message ends at a blank line, at a visible comment line and at the end of the file, nowhere else. The lines of an
entry that follows without a separator are taken as further lines of the message before it.
-/
namespace Verif.Spec.Adjacent
open Verif.Go Verif.Spec.PoEntry Verif.Spec.PluralLines
open Verif.Model.Po (Message)

/-- Every line of the translations is well-formed; any indices. -/
def StrLoose : Str → Prop
  | .single f => f.WF
  | .plural fs => ∀ p ∈ fs, IndexOk p.1 ∧ p.2.WF

/-- Every line of the entry is well-formed. -/
def Loose (e : Entry) : Prop :=
  (∀ c ∈ e.comments, c.WF) ∧ (∀ f ∈ e.context, f.WF) ∧ e.id.WF ∧ (∀ f ∈ e.idPlural, f.WF) ∧ StrLoose e.str

/-- A message that is being read after the lines of an entry (without the comments). -/
def absorb (m : Message) (e : Entry) : Message :=
  { m with
    context := (e.context.map Field.value).getD m.context
    id := e.id.value
    idPlural := (e.idPlural.map Field.value).getD m.idPlural
    str := strAfter m.str e.str }

/-- The message that begins with an entry, given the comment lines that count. -/
def opening (ignore : Bool) (cs : List CommentLine) (e : Entry) : Message :=
  absorb { Message.new with comment := some (commentOf ignore cs) } e

/-- Nothing separates the block from the one before. -/
def Glued (ignore : Bool) (b : Block) : Prop := b.1 = [] ∧ ∀ c ∈ b.2.comments, ¬ c.Visible ignore

instance (ignore : Bool) (b : Block) : Decidable (Glued ignore b) := by unfold Glued; infer_instance

/-- The messages read while `m` is being read. Without a blank line the first visible comment line is lost. -/
def readOn (ignore : Bool) (m : Message) : List Block → List Message
  | [] => [m]
  | b :: bs =>
    if Glued ignore b then readOn ignore (absorb m b.2) bs
    else m :: readOn ignore (opening ignore (if b.1 = [] then afterFirst ignore b.2.comments else b.2.comments) b.2) bs

/-- The messages read from blocks. -/
def readBlocks (ignore : Bool) : List Block → List Message
  | [] => []
  | b :: bs => readOn ignore (opening ignore b.2.comments b.2) bs

/-- A message that is taken as header. -/
def IsHead (m : Message) : Prop := m.id = [] ∧ m.str ≠ []

instance (m : Message) : Decidable (IsHead m) := by unfold IsHead; infer_instance

/-- The text of a header can be read: every line has a colon or is blank. -/
def Readable (m : Message) : Prop := ∀ l ∈ splitByte 0x0a ((m.str.get? 0).getD []), 0x3a ∈ l ∨ BlankLine l

instance (m : Message) : Decidable (Readable m) := by unfold Readable; infer_instance

/-- The comment lines that count for a block with the blocks `before` it: without a blank line the first visible
one is lost. -/
def counted (ignore : Bool) (before : List Block) (b : Block) : List CommentLine :=
  if before ≠ [] ∧ b.1 = [] then afterFirst ignore b.2.comments else b.2.comments

end Verif.Spec.Adjacent
