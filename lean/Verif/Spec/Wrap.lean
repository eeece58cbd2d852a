import Verif.Go.Utf8
/-!
# Specification of comment wrapping

Words, paragraphs and leading blanks of a text, independent of the wrapping code.
-/
namespace Verif.Spec.Wrap
open Verif.Go

/-- White space at which a line may be broken: Unicode white space except the no-break space. -/
def isBreak (c : Char) : Bool := isSpace c && c ≠ Char.ofNat 0xA0

/-- Scans a text; `cur` is the word read so far. -/
def wordsFrom : List Char → List Char → List (List Char)
  | cur, [] => if cur = [] then [] else [cur]
  | cur, c :: cs =>
    if isBreak c then (if cur = [] then [] else [cur]) ++ wordsFrom [] cs
    else wordsFrom (cur ++ [c]) cs

/-- The words of a text: the maximal runs of characters without breakable white space. -/
def words (s : List Char) : List (List Char) := wordsFrom [] s

/-- The paragraphs (newline separated lines) of a text. -/
def paragraphs : List Char → List (List Char)
  | [] => [[]]
  | c :: cs =>
    if c = '\n' then [] :: paragraphs cs
    else match paragraphs cs with
      | [] => [[c]]
      | p :: ps => (c :: p) :: ps

/-- The breakable white space a paragraph starts with. -/
def leading (p : List Char) : List Char := p.takeWhile isBreak

/-- The first word of a paragraph. -/
def firstWord (p : List Char) : List Char := (p.dropWhile isBreak).takeWhile (fun c => !isBreak c)

/-- The paragraph does not start with blanks, or blanks and first word fit on a line together up to
one character, or the blanks fill a line alone. -/
def GoodStart (width : Int) (p : List Char) : Prop :=
  leading p = [] ∨ ((leading p).length + (firstWord p).length : Int) ≤ width + 1 ∨
    width ≤ (leading p).length

instance (w : Int) (p : List Char) : Decidable (GoodStart w p) := by unfold GoodStart; infer_instance

end Verif.Spec.Wrap
