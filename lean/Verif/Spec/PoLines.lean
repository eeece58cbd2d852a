import Verif.Spec.Wrap
/-!
# Specification of the lines of an encoded PO string

Into which lines a text is cut, and how the lines are written.  Independent of the buffers and of
the loop of the encoder: a paragraph is a list of *units* (a word with the blanks behind it), and
units are put on a line as long as they fit.
-/
namespace Verif.Spec.PoLines
open Verif.Go Verif.Spec.Wrap

/-- How a character is written between the quotes. -/
def escaped (c : Char) : Bytes :=
  match c.toNat with
  | 0x07 => b!"\\a"
  | 0x08 => b!"\\b"
  | 0x09 => b!"\\t"
  | 0x0a => b!"\\n"
  | 0x0b => b!"\\v"
  | 0x0c => b!"\\f"
  | 0x0d => b!"\\r"
  | 0x22 => b!"\\\""
  | 0x5c => b!"\\\\"
  | _ => utf8 [c]

/-- A line as it is written. -/
def quoted (l : List Char) : Bytes := b!"\"" ++ l.flatMap escaped ++ b!"\""

/-- An empty line after others is left out. -/
def dropEmptyLast (ls : List (List Char)) : List (List Char) :=
  if 2 ≤ ls.length ∧ ls.getLast? = some [] then ls.dropLast else ls

/-- A single line is written as it is, several lines stand below `""`. -/
def stacked : List (List Char) → Bytes
  | [l] => quoted l
  | ls => b!"\"\"" ++ ls.flatMap (fun l => b!"\n" ++ quoted l)

/-- The written text. -/
def block (ls : List (List Char)) : Bytes := stacked (dropEmptyLast ls)

/-- The units of a paragraph: every word with the blanks behind it; blanks at the beginning are a
unit of their own. -/
def units : List Char → List (List Char)
  | [] => []
  | c :: cs =>
    match units cs with
    | [] => [[c]]
    | u :: us =>
      if isBreak c ∧ ¬ (u.head?.any isBreak) then [c] :: u :: us else (c :: u) :: us

/-- The unit ends with a blank. -/
def endsBlank (u : List Char) : Bool := u.getLast?.any isBreak

/-- Puts units on lines; `cur` is the line so far and `tail` what closes the last line.  A unit
with blanks that does not fit behind others goes to the next line.  A unit that fills a line alone
but for one character is a line if another unit follows. -/
def fill (width : Int) (tail : List Char) : List Char → List (List Char) → List (List Char)
  | cur, [] => [cur ++ tail]
  | cur, u :: us =>
    if cur ≠ [] ∧ endsBlank u ∧ width < cur.length + u.length then
      if us ≠ [] ∧ width ≤ u.length + 1 then cur :: u :: fill width tail [] us
      else cur :: fill width tail u us
    else if cur = [] ∧ us ≠ [] ∧ width ≤ u.length + 1 then u :: fill width tail [] us
    else fill width tail (cur ++ u) us

/-- The lines of all paragraphs; every paragraph but the last one ends with a newline character. -/
def paragraphLines (cut : List Char → List Char → List (List Char)) :
    List (List Char) → List (List Char)
  | [] => []
  | [p] => cut [] p
  | p :: ps => cut ['\n'] p ++ paragraphLines cut ps

/-- The lines of a text: without a positive width the paragraphs, otherwise the paragraphs filled
into lines. -/
def textLines (width : Int) (s : List Char) : List (List Char) :=
  paragraphLines (fun tail p => if width ≤ 0 then [p ++ tail] else fill width tail [] (units p))
    (paragraphs s)

/-- The line fits: but for a word that ends the paragraph without a blank, and a newline character,
it is not longer than the width, or it is a single word with its blanks. -/
def LineFits (width : Int) (l : List Char) : Prop :=
  ∃ a b t, l = a ++ b ++ t ∧ (t = [] ∨ t = ['\n']) ∧ (∀ c ∈ b, isBreak c = false) ∧
    ((a.length : Int) ≤ width ∨ (b = [] ∧ (words a).length ≤ 1))

/-- There is a reason to end the line `l` before the line `m`: a newline character; or `l` ends with
a blank, `m` starts with a word, and `l` is full (but for one character at most), or the first word
of `m` with blanks behind it does not fit on `l`. -/
def BreakNeeded (width : Int) (l m : List Char) : Prop :=
  l.getLast? = some '\n' ∨
  (endsBlank l = true ∧ m.head?.any (fun c => !isBreak c) = true ∧
    (width ≤ l.length + 1 ∨
      ∃ w sp rest, m = w ++ sp ++ rest ∧ (∀ c ∈ w, isBreak c = false) ∧ sp ≠ [] ∧
        (∀ c ∈ sp, isBreak c = true ∧ c ≠ '\n') ∧ width < (l.length + w.length + sp.length : Int)))

/-- `R` holds between each line and the next one. -/
def Consecutive (R : List Char → List Char → Prop) : List (List Char) → Prop
  | a :: b :: ls => R a b ∧ Consecutive R (b :: ls)
  | _ => True

end Verif.Spec.PoLines
