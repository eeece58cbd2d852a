import Verif.Go.Time
import Verif.Spec.Decimal
import Mathlib.Data.Rat.Defs
/-!
# Date formats

A date format is a sequence of literal characters, escaped characters and format letters.
-/
namespace Verif.Spec.DateFormat
open Verif.Go Verif.Spec.Decimal

/-- The format letters, in the order of the documentation of Django's `date` filter, from which they are taken. -/
def formatLetters : List Char :=
  ['a', 'A', 'b', 'c', 'd', 'D', 'e', 'E', 'f', 'F', 'g', 'G', 'h', 'H', 'i', 'I', 'j', 'l', 'L', 'm', 'M', 'n', 'N',
   'o', 'O', 'P', 'r', 's', 'S', 't', 'T', 'u', 'U', 'w', 'W', 'y', 'Y', 'z', 'Z']

/-- A part of a format. -/
inductive Piece
  | lit (c : Char)
  | esc (c : Char)
  | letter (c : Char)
  deriving DecidableEq

/-- A literal is neither a format letter nor a backslash. -/
def Piece.Ok : Piece → Prop
  | .lit c => c ∉ formatLetters ∧ c ≠ '\\'
  | .esc _ => True
  | .letter c => c ∈ formatLetters

instance (p : Piece) : Decidable p.Ok := by
  cases p <;> unfold Piece.Ok <;> infer_instance

/-- How a part is written. -/
def Piece.source : Piece → List Char
  | .lit c => [c]
  | .esc c => ['\\', c]
  | .letter c => [c]

/-- What a part stands for, given the texts of the letters. -/
def Piece.text (enc : Char → Bytes) (value : Char → Bytes) : Piece → Bytes
  | .lit c => enc c
  | .esc c => enc c
  | .letter c => value c

/-- A format: its parts and, perhaps, a backslash with nothing behind it. -/
def Reads (cs : List Char) (pieces : List Piece) (tail : List Char) : Prop :=
  (∀ p ∈ pieces, p.Ok) ∧ (tail = [] ∨ tail = ['\\']) ∧ cs = pieces.flatMap Piece.source ++ tail

instance (cs : List Char) (pieces : List Piece) (tail : List Char) : Decidable (Reads cs pieces tail) :=
  inferInstanceAs (Decidable (_ ∧ _))

/-! ## ISO 8601 -/

/-- The part of a text from a position on. -/
def slice (s : Bytes) (start length : Nat) : Bytes := (s.drop start).take length

/-- The text is a date and time of the form YYYY-MM-DDTHH:MM:SS.F, where F is a decimal fraction of any length, and
stands for the given date, time of day and fraction of a second. -/
structure IsoDenotes (s : Bytes) (year month day hour minute second : Int) (fraction : ℚ) : Prop where
  year : Padded 4 (slice s 0 4) year.toNat
  dash : slice s 4 1 = b!"-"
  month : Padded 2 (slice s 5 2) month.toNat
  dash2 : slice s 7 1 = b!"-"
  day : Padded 2 (slice s 8 2) day.toNat
  t : slice s 10 1 = b!"T"
  hour : Padded 2 (slice s 11 2) hour.toNat
  colon : slice s 13 1 = b!":"
  minute : Padded 2 (slice s 14 2) minute.toNat
  colon2 : slice s 16 1 = b!":"
  second : Padded 2 (slice s 17 2) second.toNat
  point : slice s 19 1 = b!"."
  digits : Digits (s.drop 20) (natVal (s.drop 20))
  fraction : (natVal (s.drop 20) : ℚ) / 10 ^ (s.drop 20).length = fraction

/-! ## The fields of a time -/

/-- What the wall clock of a time shows, in seconds since 1 January 1970, 00:00:00. -/
def wall (t : Time) : Int := t.unix + t.loc.offset t.unix

/-- The wall clock is far from the limits of `time.Time`. -/
def InEra (t : Time) : Prop := -(2 ^ 62) ≤ wall t ∧ wall t ≤ 2 ^ 62

/-- The first day of the week of a day; days are counted from 1 January 1970, which was a Thursday. -/
def monday (n : Int) : Int := n - (n + 3) % 7

/-- The hour on a dial of twelve hours. -/
def Dial (hour : Int) (k : Nat) : Prop := 1 ≤ k ∧ k ≤ 12 ∧ (k : Int) % 12 = hour % 12

/-- The names of the days of the week, from Sunday on. -/
def dayNames : List Bytes :=
  [b!"Sunday", b!"Monday", b!"Tuesday", b!"Wednesday", b!"Thursday", b!"Friday", b!"Saturday"]

/-- The names of the months. -/
def monthNames : List Bytes :=
  [b!"January", b!"February", b!"March", b!"April", b!"May", b!"June", b!"July", b!"August", b!"September", b!"October",
   b!"November", b!"December"]

/-- A month in the style of the Associated Press: the longer names are abbreviated, with a period. -/
def apNames : List Bytes :=
  [b!"Jan.", b!"Feb.", b!"March", b!"April", b!"May", b!"June", b!"July", b!"Aug.", b!"Sept.", b!"Oct.", b!"Nov.", b!"Dec."]

/-- The first letter of an ASCII text in lower case. -/
def lowerFirst : Bytes → Bytes
  | [] => []
  | c :: cs => (if 0x41 ≤ c ∧ c ≤ 0x5a then c + 0x20 else c) :: cs

end Verif.Spec.DateFormat
