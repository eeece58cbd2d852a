import Verif.Spec.PoEntry
/-!
# The previous message of an entry

Tools that update PO files write the context and the IDs an entry had before its text changed into comment lines of
the form `#| msgid "..."`, with continuation lines `#| "..."`.
-/
namespace Verif.Spec.Previous
open Verif.Go Verif.Spec.PoEntry
open Verif.Model.Po (Comment)

/-- What a previous text belongs to. -/
inductive Kind
  | context | id | plural
  deriving DecidableEq

def Kind.keyword : Kind → Bytes
  | .context => b!"msgctxt"
  | .id => b!"msgid"
  | .plural => b!"msgid_plural"

/-- A previous text: `#|`, a gap, the keyword, a gap and the text; then continuation lines. -/
structure Prev where
  kind : Kind
  gap : Bytes
  sep : Bytes
  first : Quoted
  rest : List (Bytes × Quoted)

def Prev.WF (p : Prev) : Prop :=
  p.gap ≠ [] ∧ Blank p.gap ∧ Blank p.sep ∧ p.first.WF ∧ ∀ r ∈ p.rest, r.1 ≠ [] ∧ Blank r.1 ∧ r.2.WF

def Prev.lines (p : Prev) : List Bytes :=
  (p.first.indent ++ (b!"#|" ++ (p.gap ++ (p.kind.keyword ++ (p.sep ++ p.first.text)))) ++ p.first.trail) ::
    p.rest.map fun r => r.2.indent ++ (b!"#|" ++ (r.1 ++ r.2.text)) ++ r.2.trail

def Prev.value (p : Prev) : Bytes := utf8 (p.first.value ++ p.rest.flatMap fun r => r.2.value)

/-- A comment line or a previous text. -/
inductive Part
  | comment (c : CommentLine)
  | prev (p : Prev)

def Part.WF : Part → Prop
  | .comment c => c.WF
  | .prev p => p.WF

def Part.lines : Part → List Bytes
  | .comment c => [c.line]
  | .prev p => p.lines

/-- The comment lines. -/
def commentsIn (ps : List Part) : List CommentLine := ps.filterMap fun | .comment c => some c | .prev _ => none

/-- The previous texts of the given kinds, one after the other. -/
def textsIn (ks : List Kind) (ps : List Part) : Bytes :=
  ps.flatMap fun | .comment _ => [] | .prev p => if p.kind ∈ ks then p.value else []

/-- The comment that is read: the plural counts as part of the ID. `ignore`: only flags are of interest. -/
def commentRead (ignore : Bool) (ps : List Part) : Comment :=
  if ignore then commentOf true (commentsIn ps)
  else { commentOf false (commentsIn ps) with
    prevMsgContext := textsIn [.context] ps
    prevMsgID := textsIn [.id, .plural] ps }

end Verif.Spec.Previous
