import Verif.Go.FloatOps
import Verif.Go.Bytes
/-!
# What the texts of the humanize package should say
-/
namespace Verif.Spec.Humanize
open Verif.Go

/-- A finite float64 with this value. -/
def IsValue (x : F64) (r : Rat) : Prop := ∃ m e : Int, x = .fin m e ∧ ratOf m e = r

/-- The English suffix of an ordinal number. -/
def ordinalSuffix (n : Nat) : Bytes :=
  if n % 100 = 11 ∨ n % 100 = 12 ∨ n % 100 = 13 then b!"th"
  else if n % 10 = 1 then b!"st"
  else if n % 10 = 2 then b!"nd"
  else if n % 10 = 3 then b!"rd"
  else b!"th"

/-- The message context of an ordinal number. -/
def ordinalContext (n : Nat) : Bytes :=
  if n % 100 = 11 ∨ n % 100 = 12 ∨ n % 100 = 13 then b!"ordinal 11, 12, 13"
  else b!"ordinal " ++ [UInt8.ofNat (48 + n % 10)]

/-- English number words. -/
def numberWord (n : Int) : Bytes :=
  if n = 1 then b!"one" else if n = 2 then b!"two" else if n = 3 then b!"three" else if n = 4 then b!"four"
  else if n = 5 then b!"five" else if n = 6 then b!"six" else if n = 7 then b!"seven" else if n = 8 then b!"eight"
  else b!"nine"

/-- The words for powers of ten. -/
def powerWords : List (Nat × Bytes) :=
  [(6, b!"million"), (9, b!"billion"), (12, b!"trillion"), (15, b!"quadrillion"), (18, b!"quintillion"),
   (21, b!"sextillion"), (24, b!"septillion"), (27, b!"octillion"), (30, b!"nonillion"), (33, b!"decillion"),
   (100, b!"googol")]

/-- `e` is the largest power with a word that does not exceed `r`. -/
def LargestPower (e : Nat) (word : Bytes) (r : Rat) : Prop :=
  (e, word) ∈ powerWords ∧ (10 : Rat) ^ e ≤ r ∧ ∀ p ∈ powerWords, (10 : Rat) ^ p.1 ≤ r → p.1 ≤ e

/-- The binary units of sizes. -/
def sizeUnits : List (Nat × Bytes) :=
  [(2 ^ 10, b!"KB"), (2 ^ 20, b!"MB"), (2 ^ 30, b!"GB"), (2 ^ 40, b!"TB"), (2 ^ 50, b!"PB")]

/-- `u` is the largest binary unit that does not exceed `n`. -/
def LargestUnit (u : Nat) (name : Bytes) (n : Nat) : Prop :=
  (u, name) ∈ sizeUnits ∧ u ≤ n ∧ ∀ p ∈ sizeUnits, p.1 ≤ n → p.1 ≤ u

/-- The units of elapsed time with their seconds, in descending order. -/
def sinceUnits : List (Bytes × Int) :=
  [(b!"year", 31536000), (b!"month", 2592000), (b!"week", 604800), (b!"day", 86400), (b!"hour", 3600), (b!"minute", 60)]

/-- The seconds of a list of units with counts. -/
def totalSeconds : List ((Bytes × Int) × Int) → Int
  | [] => 0
  | p :: rest => p.1.2 * p.2 + totalSeconds rest

end Verif.Spec.Humanize
