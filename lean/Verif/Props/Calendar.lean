import Verif.Proofs.Calendar
/-!
# The calendar (C49, C50)
-/
namespace Verif.Props.Calendar
open Verif.Go Verif.Model.Calendar Verif.Spec.Calendar Verif.Proofs.Calendar Verif.Proofs.Go

/-- C49: the leap year test is the Gregorian rule, for every year. -/
theorem C49_is_leap (y : Int) : isLeap y = true ↔ LeapYear y := isLeap_iff y

example : isLeap (-400) = true ∧ isLeap 1900 = false ∧ isLeap (-4) = true := by decide

/-- C49 for years up to 2^52 in absolute value.  Missing: larger years, for which the claim is false
(`C49_negation`). -/
theorem C49_leap_days_partial (oor : F64 → Int) (y1 y2 : Int) (h : y1 ≤ y2) (h1 : -(2 ^ 52) < y1) (h2 : y2 ≤ 2 ^ 52) :
    leapDays oor y1 y2 = leapYears y1 (y2 - y1).toNat := by
  rw [leapDays_eq oor h1 (by omega) (by omega) h2, leapYears_eq]
  have : y1 - 1 + ((y2 - y1).toNat : Int) = y2 - 1 := by omega
  rw [this]

/-- The hypotheses are met by a span over the year 0 that has 11 leap years. -/
example : (-20 : Int) ≤ 21 ∧ -(2 ^ 52) < (-20 : Int) ∧ (21 : Int) ≤ 2 ^ 52 ∧ leapYears (-20) (21 - -20 : Int).toNat = 11 := by
  decide

/-- In the other order the leap years count negatively. -/
theorem C49_leap_days_reversed_partial (oor : F64 → Int) (y1 y2 : Int) (h : y2 ≤ y1) (h1 : -(2 ^ 52) < y2)
    (h2 : y1 ≤ 2 ^ 52) : leapDays oor y1 y2 = -(leapYears y2 (y1 - y2).toNat : Int) := by
  rw [leapDays_eq oor (by omega) h2 h1 (by omega), leapYears_eq]
  have : y2 - 1 + ((y1 - y2).toNat : Int) = y1 - 1 := by omega
  rw [this]
  omega

example : (1999 : Int) ≤ 2025 ∧ leapYears 1999 (2025 - 1999 : Int).toNat = 7 := by decide

/-- C49 fails for large years: float64 cannot tell them apart. -/
theorem C49_negation : ¬ ∀ (oor : F64 → Int) (y1 y2 : Int), y1 ≤ y2 →
    leapDays oor y1 y2 = leapYears y1 (y2 - y1).toNat := by
  intro h
  have := h (fun _ => 0) (2 ^ 53 + 3) (2 ^ 53 + 4) (by decide)
  revert this
  decide +kernel

/-- C50 for the years that `time.Time` can hold and the twelve months.  Missing: other years, for which the claim is
false (`C50_negation`). -/
theorem C50_days_in_month_partial (y m : Int) (h1 : -292277022399 ≤ y) (h2 : y ≤ 292277026600) (hm : 1 ≤ m)
    (hm' : m ≤ 12) : daysInMonth y m = monthLength y m :=
  daysInMonth_eq (by unfold YearOk zeroYear; omega) hm hm'

example : monthLength 2000 2 = 29 ∧ monthLength 1900 2 = 28 ∧ monthLength (-1) 12 = 31 := by decide

theorem timeDate_month (y m d : Int) : timeDate y m d 0 0 0 utc = timeDate (y + (m - 1) / 12) ((m - 1) % 12 + 1) d 0 0 0 utc := by
  have e : dayNumber y m d = dayNumber (y + (m - 1) / 12) ((m - 1) % 12 + 1) d := by
    have h1 : ((m - 1) % 12 + 1 - 1) / 12 = 0 := by omega
    have h2 : ((m - 1) % 12 + 1 - 1) % 12 = (m - 1) % 12 := by omega
    unfold dayNumber
    rw [h1, h2, Int.add_zero]
  unfold timeDate dateAbs
  rw [e]

/-- Months outside of 1 to 12 are counted on into the years before and after: 13 is January of the next year, 0 is December of the
year before.  (The smallest int is left out, for which `month - 1` wraps around in Go.) -/
theorem C50_any_month (y m : Int) (h1 : -292277022399 ≤ y + (m - 1) / 12) (h2 : y + (m - 1) / 12 ≤ 292277026600) (_hm : -(2 ^ 63) < m) :
    daysInMonth y m = monthLength (y + (m - 1) / 12) ((m - 1) % 12 + 1) := by
  rw [← C50_days_in_month_partial _ _ h1 h2 (by omega) (by omega)]
  unfold daysInMonth
  rw [timeDate_month]

/-- The fourteenth month of 1999 has 29 days, the month -10 of 2001 as well. -/
example : daysInMonth 1999 14 = 29 ∧ daysInMonth 2001 (-10) = 29 :=
  ⟨C50_any_month 1999 14 (by decide) (by decide) (by decide), C50_any_month 2001 (-10) (by decide) (by decide) (by decide)⟩

/-- C50 fails for a year that `time.Time` cannot hold. -/
theorem C50_negation : ¬ ∀ y m : Int, 1 ≤ m → m ≤ 12 → daysInMonth y m = monthLength y m := by
  intro h
  have := h (2 ^ 40) 1 (by decide) (by decide)
  revert this
  decide +kernel

end Verif.Props.Calendar
