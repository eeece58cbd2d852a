import Verif.Model.Calendar
import Verif.Proofs.Go.Float
import Verif.Proofs.Go.Time
/-! Leap years and month lengths. -/
namespace Verif.Proofs.Calendar
open Verif.Go Verif.Model.Calendar Verif.Spec.Calendar Verif.Proofs.Go

theorem isLeap_iff (y : Int) : isLeap y = true ↔ LeapYear y := by
  unfold isLeap LeapYear
  have h (k : Int) : y.tmod k = 0 ↔ k ∣ y := Int.dvd_iff_tmod_eq_zero.symm
  simp only [decide_eq_true_eq, h, ne_eq]

/-- Leap years up to `y`, up to a constant. -/
def leapsTo (y : Int) : Int := y / 4 - y / 100 + y / 400

theorem leapsTo_step (y : Int) : leapsTo y = leapsTo (y - 1) + (if LeapYear y then 1 else 0) := by
  by_cases h : LeapYear y
  · rw [if_pos h]; unfold LeapYear at h; unfold leapsTo; omega
  · rw [if_neg h]; unfold LeapYear at h; unfold leapsTo; omega

theorem leapYears_eq (n : Nat) : ∀ y : Int, (leapYears y n : Int) = leapsTo (y - 1 + n) - leapsTo (y - 1) := by
  induction n with
  | zero => intro y; simp [leapYears]
  | succ n ih =>
    intro y
    have h1 := ih (y + 1)
    have h2 := leapsTo_step y
    rw [show y + 1 - 1 = y from by omega] at h1
    rw [show y - 1 + ((n + 1 : Nat) : Int) = y + n from by omega]
    unfold leapYears
    push_cast
    rw [h1, h2]
    split <;> omega

theorem wrap64_id {n : Int} (h : -(2 ^ 63) ≤ n) (h' : n < 2 ^ 63) : wrap64 n = n := by
  unfold wrap64
  omega

theorem floorDiv_eq {y : Int} (h1 : y.natAbs ≤ 2 ^ 52) :
    floorDiv (.fin y 0) 4 = .fin (y / 4) 0 ∧ floorDiv (.fin y 0) 100 = .fin (y / 100) 0 ∧
      floorDiv (.fin y 0) 400 = .fin (y / 400) 0 :=
  ⟨floor_div (k := 4) (j := 2) (by omega) (by omega) (by omega) (by omega) (by omega),
    floor_div (k := 100) (j := 7) (by omega) (by omega) (by omega) (by omega) (by omega),
    floor_div (k := 400) (j := 9) (by omega) (by omega) (by omega) (by omega) (by omega)⟩

theorem leapDays_eq (oor : F64 → Int) {y1 y2 : Int} (h1 : -(2 ^ 52) < y1) (h1' : y1 ≤ 2 ^ 52)
    (h2 : -(2 ^ 52) < y2) (h2' : y2 ≤ 2 ^ 52) :
    leapDays oor y1 y2 = leapsTo (y2 - 1) - leapsTo (y1 - 1) := by
  unfold leapDays
  rw [wrap64_id (by omega) (by omega), wrap64_id (by omega) (by omega), ofInt_small (by omega), ofInt_small (by omega)]
  simp only []
  obtain ⟨a1, a2, a3⟩ := floorDiv_eq (y := y1 - 1) (by omega)
  obtain ⟨b1, b2, b3⟩ := floorDiv_eq (y := y2 - 1) (by omega)
  rw [a1, a2, a3, b1, b2, b3,
    sub_int (by omega), sub_int (by omega), sub_int (by omega), sub_int (by omega), add_int (by omega),
    toInt64_int _ (by omega) (by omega)]
  unfold leapsTo
  omega

theorem utc_abs (y m d h mi s : Int) : (timeDate y m d h mi s utc).abs = dateAbs y m d h mi s := by
  unfold Time.abs timeDate utc wrap64
  simp only []
  have : 0 ≤ dateAbs y m d h mi s ∧ dateAbs y m d h mi s < 2 ^ 64 := by
    unfold dateAbs
    omega
  unfold unixToAbsolute
  omega

theorem daysSinceEpoch_bound {y : Int} (h : 0 ≤ y - zeroYear) (h' : y - zeroYear ≤ 584554049000) :
    0 ≤ daysSinceEpoch y ∧ daysSinceEpoch y < 213503982250000 := by
  unfold daysSinceEpoch
  simp only []
  rw [Int.emod_eq_of_lt h (by omega)]
  omega

theorem daysBefore_bound : ∀ m : Fin 12, 0 ≤ daysBefore m.val ∧ daysBefore m.val ≤ 334 := by decide +kernel

theorem utc_day {y m d : Int} (hy : YearOk y) (hm : 1 ≤ m) (hm' : m ≤ 12) (hd : 1 ≤ d) (hd' : d ≤ 31) :
    (dateAbs y m d 0 0 0) / 86400 = dayNumber y m d ∧ dateAbs y m d 0 0 0 % 86400 = 0 := by
  unfold YearOk at hy
  have hb := daysSinceEpoch_bound (y := y) (by omega) (by omega)
  have h1 : (m - 1) / 12 = 0 := by omega
  have h2 : (m - 1) % 12 = m - 1 := by omega
  have hn : 0 ≤ dayNumber y m d ∧ dayNumber y m d < 213503982251000 := by
    unfold dayNumber
    simp only [h1, h2, Int.add_zero]
    have := daysBefore_bound ⟨(m - 1).toNat, by omega⟩
    have e1 : (((m - 1).toNat : Nat) : Int) = m - 1 := by omega
    simp only [e1] at this
    split <;> omega
  unfold dateAbs
  rw [Int.emod_eq_of_lt (by omega) (by omega)]
  omega

theorem monthLength_eq (y : Int) : ∀ m : Fin 12, before (timeIsLeap y) (m.val + 1) - before (timeIsLeap y) m.val =
    monthLength y (m.val + 1) := by
  intro m
  have table : ∀ (l : Bool) (m : Fin 12), before l (m.val + 1) - before l m.val =
      (if (m.val : Int) + 1 = 2 then (if l then 29 else 28)
       else if (m.val : Int) + 1 = 4 ∨ (m.val : Int) + 1 = 6 ∨ (m.val : Int) + 1 = 9 ∨ (m.val : Int) + 1 = 11 then 30 else 31) := by
    decide +kernel
  rw [table]
  unfold monthLength
  by_cases h : LeapYear y
  · rw [(timeIsLeap_iff y).mpr h]; simp only [if_true, h]
  · have : timeIsLeap y = false := by
      cases hl : timeIsLeap y
      · rfl
      · exact absurd ((timeIsLeap_iff y).mp hl) h
    rw [this]; simp only [Bool.false_eq_true, if_false, h]

theorem monthLength_eq' (y m : Int) (hm : 1 ≤ m) (hm' : m ≤ 12) :
    before (timeIsLeap y) m - before (timeIsLeap y) (m - 1) = monthLength y m := by
  have := monthLength_eq y ⟨(m - 1).toNat, by omega⟩
  have e1 : (((m - 1).toNat : Nat) : Int) = m - 1 := by omega
  have e3 : m - 1 + 1 = m := by omega
  simp only [e1, e3] at this
  exact this

theorem monthLength_range (y m : Int) : 28 ≤ monthLength y m ∧ monthLength y m ≤ 31 := by
  unfold monthLength
  split
  · split <;> omega
  · split <;> omega

/-- The date of a date. -/
theorem utc_civil {y m d : Int} (hy : YearOk y) (hm : 1 ≤ m) (hm' : m ≤ 12) (hd : 1 ≤ d) (hd' : d ≤ monthLength y m) :
    (timeDate y m d 0 0 0 utc).year = y ∧ (timeDate y m d 0 0 0 utc).month = m ∧ (timeDate y m d 0 0 0 utc).day = d ∧
      (timeDate y m d 0 0 0 utc).hour = 0 ∧ (timeDate y m d 0 0 0 utc).minute = 0 ∧
      (timeDate y m d 0 0 0 utc).second = 0 := by
  have hr := monthLength_range y m
  obtain ⟨g1, g2⟩ := utc_day hy hm hm' hd (by omega)
  have hy' := hy
  unfold YearOk at hy'
  obtain ⟨c1, c2⟩ := dayNumber_civil (y := y) (m := m) (d := d) (by omega) (by omega) hm hm' hd
    (by rw [monthLength_eq' y m hm hm']; exact hd')
  have hyear : (timeDate y m d 0 0 0 utc).year = y := by
    unfold Time.year; rw [utc_abs, g1, c1]
  have hyd : (timeDate y m d 0 0 0 utc).yearDay - 1 = before (timeIsLeap y) (m - 1) + (d - 1) := by
    unfold Time.yearDay; rw [utc_abs, g1, c1]; simp only []; omega
  refine ⟨hyear, ?_, ?_, ?_, ?_, ?_⟩
  · unfold Time.month; rw [hyear, hyd, c2]
  · unfold Time.day; rw [hyear, hyd, c2]
  · unfold Time.hour; rw [utc_abs, g2]; rfl
  · unfold Time.minute; rw [utc_abs, g2]; rfl
  · unfold Time.second; rw [utc_abs, g2]; rfl

theorem leap_mod (y : Int) : timeIsLeap y = true ↔ (y % 4 = 0 ∧ (y % 100 ≠ 0 ∨ y % 400 = 0)) := by
  unfold timeIsLeap; simp only [decide_eq_true_eq]

/-- The day 0 of the next month is the last day of the month. -/
theorem dayNumber_last {y m : Int} (hy : YearOk y) (hm : 1 ≤ m) (hm' : m ≤ 12) :
    dayNumber y (m + 1) 0 = dayNumber y m (monthLength y m) := by
  rw [← monthLength_eq' y m hm hm']
  have h1 : (m - 1) / 12 = 0 := by omega
  have h2 : (m - 1) % 12 = m - 1 := by omega
  rcases Int.lt_or_le m 12 with h | h
  · have h3 : (m + 1 - 1) / 12 = 0 := by omega
    have h4 : (m + 1 - 1) % 12 = m := by omega
    unfold dayNumber before
    simp only [h1, h2, h3, h4, Int.add_zero]
    omega
  · have : m = 12 := by omega
    subst this
    unfold YearOk at hy
    have hstep : daysSinceEpoch (y + 1) = daysSinceEpoch y + 365 + (if timeIsLeap y then 1 else 0) := by
      unfold daysSinceEpoch
      simp only []
      rw [Int.emod_eq_of_lt (a := y + 1 - zeroYear) (by omega) (by omega),
        Int.emod_eq_of_lt (a := y - zeroYear) (by omega) (by omega)]
      unfold zeroYear at *
      by_cases hl : timeIsLeap y = true
      · rw [if_pos hl]
        have := (leap_mod y).mp hl
        omega
      · rw [if_neg hl]
        have := mt (leap_mod y).mpr hl
        omega
    unfold dayNumber before
    simp only [show ((12 : Int) - 1) / 12 = 0 from by omega, show ((12 : Int) - 1) % 12 = 11 from by omega,
      show ((12 : Int) + 1 - 1) / 12 = 1 from by omega, show ((12 : Int) + 1 - 1) % 12 = 0 from by omega, Int.add_zero,
      hstep]
    have e12 : daysBefore 12 = 365 := by decide
    have e0 : daysBefore 0 = 0 := by decide
    have e11 : daysBefore 11 = 334 := by decide
    simp only [show (12 : Int) - 1 = 11 from by omega, e12, e0, e11]
    split <;> simp_all <;> omega

theorem daysInMonth_eq {y m : Int} (hy : YearOk y) (hm : 1 ≤ m) (hm' : m ≤ 12) :
    daysInMonth y m = monthLength y m := by
  have hr := monthLength_range y m
  obtain ⟨a1, a2, a3, a4, a5, a6⟩ := utc_civil hy hm hm' (d := 1) (by omega) (by omega)
  have hloc : (timeDate y m 1 0 0 0 utc).loc = utc := rfl
  have e : (timeDate y m 1 0 0 0 utc).addDate 0 1 (-1) = timeDate y m (monthLength y m) 0 0 0 utc := by
    unfold Time.addDate
    rw [a1, a2, a3, a4, a5, a6, hloc]
    have : dateAbs (y + 0) (m + 1) (1 + -1) 0 0 0 = dateAbs y m (monthLength y m) 0 0 0 := by
      unfold dateAbs
      rw [← dayNumber_last hy hm hm']
      simp
    unfold timeDate
    rw [this]
  unfold daysInMonth
  rw [e]
  exact (utc_civil hy hm hm' (by omega) (by omega)).2.2.1

end Verif.Proofs.Calendar
