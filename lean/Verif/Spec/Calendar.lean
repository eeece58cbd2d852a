/-!
# The Gregorian calendar
-/
namespace Verif.Spec.Calendar

/-- A leap year of the (proleptic) Gregorian calendar. -/
def LeapYear (y : Int) : Prop := 4 ∣ y ∧ (¬ 100 ∣ y ∨ 400 ∣ y)

instance (y : Int) : Decidable (LeapYear y) := inferInstanceAs (Decidable (_ ∧ _))

/-- How many of the `n` years from `y` on are leap years. -/
def leapYears (y : Int) : Nat → Nat
  | 0 => 0
  | n + 1 => (if LeapYear y then 1 else 0) + leapYears (y + 1) n

/-- The length of a month; 1 is January. -/
def monthLength (y : Int) (m : Int) : Int :=
  if m = 2 then (if LeapYear y then 29 else 28)
  else if m = 4 ∨ m = 6 ∨ m = 9 ∨ m = 11 then 30
  else 31

/-- The date after a date: year, month and day. -/
def nextDate (y m d : Int) : Int × Int × Int :=
  if d < monthLength y m then (y, m, d + 1)
  else if m < 12 then (y, m + 1, 1)
  else (y + 1, 1, 1)

/-- The days of a year before its `n + 1`st month. -/
def daysBeforeMonth (y : Int) : Nat → Int
  | 0 => 0
  | n + 1 => daysBeforeMonth y n + monthLength y (n + 1)

end Verif.Spec.Calendar
