import Verif.Spec.Wrap
/-!
# Specification of the lines of a wrapped comment

A paragraph is a list of words with the blanks before them.  Words are put on a line as long as
they fit, blanks at a break and at the end are dropped.  Blanks at the beginning of a paragraph
stay, even if the first word has to be cut for that.
-/
namespace Verif.Spec.CommentLines
open Verif.Go Verif.Spec.Wrap

/-- The words of a paragraph with the blanks before each; blanks at the end are left out. -/
def spaced : List Char → List (List Char × List Char)
  | [] => []
  | c :: cs =>
    match spaced cs with
    | [] => if isBreak c then [] else [([], [c])]
    | (b, w) :: ws =>
      if isBreak c then (c :: b, w) :: ws
      else if b = [] then ([], c :: w) :: ws
      else ([], [c]) :: (b, w) :: ws

/-- Puts words on lines; `cur` is the line so far. -/
def fillWords (width : Int) : List Char → List (List Char × List Char) → List (List Char)
  | cur, [] => [cur]
  | cur, (b, w) :: ws =>
    if (cur.length + b.length + w.length : Int) ≤ width then fillWords width (cur ++ b ++ w) ws
    else cur :: fillWords width w ws

/-- The lines of a paragraph.  If it starts with blanks, a first word that is more than one character too
long is cut where the line is full. -/
def paragraphLines (width : Int) (p : List Char) : List (List Char) :=
  match spaced p with
  | [] => [[]]
  | (b, w) :: ws =>
    let room := (width - b.length).toNat
    if b ≠ [] ∧ room + 1 < w.length then (b ++ w.take room) :: fillWords width (w.drop room) ws
    else fillWords width (b ++ w) ws

/-- The lines of a comment. -/
def commentLines (width : Int) (s : List Char) : List (List Char) :=
  if width ≤ 0 then paragraphs s else (paragraphs s).flatMap (paragraphLines width)

end Verif.Spec.CommentLines
