import Verif.Proofs.Go.Civil
/-!
# From one day to the next
-/
namespace Verif.Proofs.Go
open Verif.Go Verif.Spec.Calendar Verif.Proofs.Calendar Verif.Proofs.Humanize

theorem daysSinceEpoch_eq {y : Int} (h : 0 ≤ y - zeroYear) (h' : y - zeroYear < 2 ^ 64) :
    daysSinceEpoch y = daysTo (y - zeroYear) := by
  unfold daysSinceEpoch
  simp only []
  rw [Int.emod_eq_of_lt h h']
  generalize y - zeroYear = Y at *
  have hYa : Y = 400 * (Y / 400) + 100 * (Y % 400 / 100) + 4 * (Y % 400 % 100 / 4) + Y % 400 % 100 % 4 := by omega
  have := daysTo_split (Y / 400) (Y % 400 / 100) (Y % 400 % 100 / 4) (Y % 400 % 100 % 4) (by omega) (by omega) (by omega)
    (by omega) (by omega) (by omega)
  rw [← hYa] at this
  omega

/-- A valid date is found back from its day number. -/
theorem date_of_count {t : Time} {y m d : Int} (hy : 0 ≤ y - zeroYear) (hy' : y - zeroYear < 2 ^ 64) (hm : 1 ≤ m)
    (hm' : m ≤ 12) (hd : 1 ≤ d) (hd' : d ≤ monthLength y m) (h : t.abs / 86400 = dayCount y m d) :
    t.year = y ∧ t.month = m ∧ t.day = d ∧ t.yearDay = before (timeIsLeap y) (m - 1) + d := by
  rw [← monthLength_eq' _ _ hm hm'] at hd'
  obtain ⟨e1, e2⟩ := dayNumber_civil hy hy' hm hm' hd hd'
  have e : dayNumber y m d = t.abs / 86400 := by
    have h1 : (m - 1) / 12 = 0 := by omega
    have h2 : (m - 1) % 12 = m - 1 := by omega
    rw [h]
    unfold dayNumber dayCount before
    simp only [h1, h2, Int.add_zero]
    rw [daysSinceEpoch_eq hy hy']
    omega
  rw [e] at e1
  have hty : t.year = y := by unfold Time.year; rw [e1]
  have htd : t.yearDay = before (timeIsLeap y) (m - 1) + (d - 1) + 1 := by unfold Time.yearDay; rw [e1]
  have hx : t.yearDay - 1 = before (timeIsLeap y) (m - 1) + (d - 1) := by omega
  refine ⟨hty, ?_, ?_, by omega⟩
  · unfold Time.month; rw [hty, hx, e2]
  · unfold Time.day; rw [hty, hx, e2]

theorem yearDay_eq (t : Time) : t.yearDay = before (timeIsLeap t.year) (t.month - 1) + t.day := by
  obtain ⟨h1, h2, h3, h4, h5, h6⟩ := date_exact t
  have hr := year_range t
  exact (date_of_count (by omega) (by unfold zeroYear; omega) h1 h2 h3 h4 h5).2.2.2

/-- The first day of the next month, or of the next year, follows the last day of a month. -/
theorem dayCount_next {y m d : Int} (hm : 1 ≤ m) (hm' : m ≤ 12) (hd' : d ≤ monthLength y m) :
    dayCount (nextDate y m d).1 (nextDate y m d).2.1 (nextDate y m d).2.2 = dayCount y m d + 1 := by
  unfold nextDate
  split
  · simp only; unfold dayCount; omega
  · rw [← monthLength_eq' _ _ hm hm'] at *
    split
    · simp only
      unfold dayCount
      have e : m + 1 - 1 = m := by omega
      rw [e]; omega
    · have : m = 12 := by omega
      subst this
      simp only
      unfold dayCount
      rw [daysTo_step]
      have e : before (timeIsLeap (y + 1)) (1 - 1) = 0 := by
        cases timeIsLeap (y + 1) <;> decide
      rw [e]
      omega

theorem nextDate_valid {y m d : Int} (hm : 1 ≤ m) (hm' : m ≤ 12) (hd : 1 ≤ d) :
    1 ≤ (nextDate y m d).2.1 ∧ (nextDate y m d).2.1 ≤ 12 ∧ 1 ≤ (nextDate y m d).2.2 ∧
      (nextDate y m d).2.2 ≤ monthLength (nextDate y m d).1 (nextDate y m d).2.1 ∧
      (y ≤ (nextDate y m d).1 ∧ (nextDate y m d).1 ≤ y + 1) := by
  unfold nextDate
  split
  · simp only; omega
  · split
    · have := monthLength_range y (m + 1)
      simp only; omega
    · have := monthLength_range (y + 1) 1
      simp only; omega

theorem before_sum (y : Int) : ∀ n : Nat, n < 12 → before (timeIsLeap y) n = daysBeforeMonth y n := by
  intro n
  induction n with
  | zero => intro _; unfold daysBeforeMonth; cases timeIsLeap y <;> decide
  | succ n ih =>
    intro hn
    have := monthLength_eq' y (n + 1) (by omega) (by omega)
    have e : ((n : Int) + 1 - 1) = n := by omega
    rw [e] at this
    unfold daysBeforeMonth
    have := ih (by omega)
    push_cast
    omega

end Verif.Proofs.Go
