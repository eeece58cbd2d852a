import Verif.Spec.PoEntry
import Verif.Spec.PoString
/-!
# Lines on which the PO parser does not return

Which lines have a text that is decoded and never ends, independent of the scanner, the parser and the decoder.
`trimSpace` is the function of the Go library.
-/
namespace Verif.Spec.PoHang
open Verif.Go Verif.Spec.PoEntry Verif.Spec.PoString
open Verif.Model.Po (trimSpace)

/-- A line with a comment. -/
def CommentLike (l : Bytes) : Prop := b!"#" <+: trimSpace l

instance (l : Bytes) : Decidable (CommentLike l) := by unfold CommentLike; infer_instance

/-- A comment line that is not looked at: nothing but a mark; without comments every comment line that is no list of
flags. -/
def Skipped (ignore : Bool) (l : Bytes) : Prop :=
  trimSpace l ∈ [b!"#.", b!"#:", b!"#,", b!"#|"] ∨ (ignore = true ∧ CommentLike l ∧ ¬ b!"#," <+: trimSpace l)

instance (ignore : Bool) (l : Bytes) : Decidable (Skipped ignore l) := by unfold Skipped; infer_instance

/-- The last line that is looked at. -/
def lastSeen (ignore : Bool) (ls : List Bytes) : Option Bytes := (ls.filter fun l => ¬ Skipped ignore l).getLast?

/-- The white space between a keyword and its text. -/
def Gap (s : Bytes) : Prop := ∀ b ∈ s, b ∈ [0x20, 0x09, 0x0a, 0x0c, 0x0d]

instance (s : Bytes) : Decidable (Gap s) := by unfold Gap; infer_instance

/-- A quoted text whose closing quote is escaped: it ends with an odd number of backslashes. -/
def Open (s body : Bytes) : Prop := s = b!"\"" ++ body ++ b!"\"" ∧ trailingBackslashes body % 2 = 1

/-- A line with a keyword and a text whose closing quote is escaped.  The text of a `msgstr` is cut off behind the
byte that follows the keyword (behind the tenth byte if there is an index); if this is the opening quote, there has
to be another quote in the text. -/
inductive OpenKeyword (x : Bytes) : Prop
  | field (kw gap text body : Bytes) : kw ∈ [b!"msgctxt ", b!"msgid ", b!"msgid_plural "] → Gap gap → Open text body →
      x = kw ++ gap ++ text → OpenKeyword x
  | str (gap text body : Bytes) : Gap gap → Open text body → (gap = [] → 0x22 ∈ body) →
      x = b!"msgstr" ++ gap ++ text → OpenKeyword x
  | plural (gap ds gap' text body : Bytes) : Gap gap → IndexOk ds → Gap gap' → Open text body →
      (gap.length + ds.length + gap'.length = 1 → 0x22 ∈ body) →
      x = b!"msgstr" ++ gap ++ b!"[" ++ ds ++ b!"]" ++ gap' ++ text → OpenKeyword x

/-- A line of a comment with a previous text (`#| msgid ...`) whose closing quote is escaped. -/
def OpenPrevious (x : Bytes) : Prop :=
  ∃ gap kw rest, kw ∈ [b!"msgctxt", b!"msgid"] ∧ gap ≠ [] ∧ Gap gap ∧ Dangling rest ∧ x = b!"#|" ++ gap ++ kw ++ rest

/-- A line `l` after the lines `before` has a text that is decoded and whose closing quote is escaped:
behind a keyword; on a line of its own below a line of a message; behind the keyword of a previous text where a
comment is read; or on a line of its own in a comment below a previous text. -/
def Stuck (ignore : Bool) (before : List Bytes) (l : Bytes) : Prop :=
  OpenKeyword (trimSpace l) ∨
  (∃ body, Open (trimSpace l) body) ∧ (∃ p, lastSeen ignore before = some p ∧ ¬ BlankLine p ∧ ¬ CommentLike p) ∨
  ignore = false ∧ OpenPrevious (trimSpace l) ∧
    (∀ p, lastSeen ignore before = some p → BlankLine p ∨ CommentLike p) ∨
  ignore = false ∧ (∃ gap text body, gap ≠ [] ∧ Gap gap ∧ Open text body ∧ trimSpace l = b!"#|" ++ gap ++ text) ∧
    ∃ p, lastSeen ignore before = some p ∧ b!"#|" <+: trimSpace p

/-- The lines of a single message: no blank line and no comment that is looked at. -/
def NoBreak (ignore : Bool) (ls : List Bytes) : Prop := ∀ l ∈ ls, ¬ BlankLine l ∧ (CommentLike l → Skipped ignore l)

instance (ignore : Bool) (ls : List Bytes) : Decidable (NoBreak ignore ls) := by unfold NoBreak; infer_instance

end Verif.Spec.PoHang
