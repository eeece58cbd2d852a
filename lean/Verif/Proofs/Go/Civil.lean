import Verif.Proofs.Humanize.Leap
/-!
# Dates of arbitrary times
-/
namespace Verif.Proofs.Go
open Verif.Go Verif.Spec.Calendar Verif.Proofs.Calendar Verif.Proofs.Humanize

/-- Year and day within the year of a day number. -/
theorem civilYear_exact {d : Int} (h : 0 ≤ d) :
    d = daysTo ((civilYear d).1 - zeroYear) + (civilYear d).2 ∧ 0 ≤ (civilYear d).1 - zeroYear ∧ 0 ≤ (civilYear d).2 ∧
      ((civilYear d).2 < 365 ∨ ((civilYear d).2 = 365 ∧ timeIsLeap (civilYear d).1 = true)) := by
  simp only [civilYear]
  have a1 := Int.mul_ediv_add_emod d 146097
  have a2 := Int.emod_nonneg d (show (146097 : Int) ≠ 0 by omega)
  have a3 := Int.emod_lt_of_pos d (show (0 : Int) < 146097 by omega)
  have a4 : 0 ≤ d / 146097 := by omega
  generalize d / 146097 = n4 at *
  generalize d % 146097 = d1 at *
  obtain ⟨n3, hn3⟩ : ∃ n3, d1 / 36524 - d1 / 36524 / 4 = n3 := ⟨_, rfl⟩
  rw [hn3]
  have b1 : 0 ≤ n3 ∧ n3 ≤ 3 ∧ 0 ≤ d1 - 36524 * n3 ∧ d1 - 36524 * n3 ≤ 36524 ∧ (n3 ≠ 3 → d1 - 36524 * n3 < 36524) := by omega
  clear hn3
  generalize hd2 : d1 - 36524 * n3 = d2 at *
  have c1 := Int.mul_ediv_add_emod d2 1461
  have c2 : 0 ≤ d2 / 1461 ∧ d2 / 1461 ≤ 24 ∧ 0 ≤ d2 - 1461 * (d2 / 1461) ∧ d2 - 1461 * (d2 / 1461) ≤ 1460 ∧
      (n3 ≠ 3 → d2 / 1461 = 24 → d2 - 1461 * (d2 / 1461) < 1460) := by omega
  generalize d2 / 1461 = n2 at *
  generalize hd3 : d2 - 1461 * n2 = d3 at *
  obtain ⟨n1, hn1⟩ : ∃ n1, d3 / 365 - d3 / 365 / 4 = n1 := ⟨_, rfl⟩
  rw [hn1]
  have e1 : 0 ≤ n1 ∧ n1 ≤ 3 ∧ 0 ≤ d3 - 365 * n1 ∧ d3 - 365 * n1 ≤ 365 ∧ (d3 - 365 * n1 = 365 → n1 = 3 ∧ d3 = 1460) := by omega
  clear hn1
  have e2 : 400 * n4 + 100 * n3 + 4 * n2 + n1 + zeroYear - zeroYear = 400 * n4 + 100 * n3 + 4 * n2 + n1 := by omega
  rw [e2, daysTo_split n4 n3 n2 n1 (by omega) (by omega) (by omega) (by omega) (by omega) (by omega)]
  refine ⟨by omega, by omega, by omega, ?_⟩
  by_cases h6 : d3 - 365 * n1 = 365
  · right
    refine ⟨h6, ?_⟩
    rw [leap_mod]
    unfold zeroYear
    obtain ⟨rfl, h7⟩ := e1.2.2.2.2 h6
    omega
  · left; omega

theorem civilMonth_all : ∀ (leap : Bool) (n : Fin 366), (n.val < 365 ∨ leap = true) →
    1 ≤ (civilMonth leap n.val).1 ∧ (civilMonth leap n.val).1 ≤ 12 ∧ 1 ≤ (civilMonth leap n.val).2 ∧
      (civilMonth leap n.val).2 ≤ before leap (civilMonth leap n.val).1 - before leap ((civilMonth leap n.val).1 - 1) ∧
      (n.val : Int) = before leap ((civilMonth leap n.val).1 - 1) + ((civilMonth leap n.val).2 - 1) := by
  decide +kernel

/-- The day number of a date, from the year -292277022399 on. -/
def dayCount (y m d : Int) : Int := daysTo (y - zeroYear) + before (timeIsLeap y) (m - 1) + (d - 1)

/-- The date of a time is a valid date, and it is the date of its day number. -/
theorem date_exact (t : Time) : 1 ≤ t.month ∧ t.month ≤ 12 ∧ 1 ≤ t.day ∧ t.day ≤ monthLength t.year t.month ∧
    t.abs / 86400 = dayCount t.year t.month t.day ∧ zeroYear ≤ t.year := by
  have h0 : 0 ≤ t.abs ∧ t.abs < 2 ^ 64 := by unfold Time.abs; omega
  obtain ⟨e1, e2, e3, e4⟩ := civilYear_exact (d := t.abs / 86400) (by omega)
  have hy : t.year = (civilYear (t.abs / 86400)).1 := rfl
  have hd : t.yearDay - 1 = (civilYear (t.abs / 86400)).2 := by unfold Time.yearDay; omega
  rw [← hy, ← hd] at e1 e4
  rw [← hy] at e2
  rw [← hd] at e3
  have hm := civilMonth_all (timeIsLeap t.year) ⟨(t.yearDay - 1).toNat, by omega⟩ (by
    rcases e4 with h | h
    · left; simp only; omega
    · right; exact h.2)
  simp only [Int.toNat_of_nonneg e3] at hm
  obtain ⟨m1, m2, m3, m4, m5⟩ := hm
  have q1 : (civilMonth (timeIsLeap t.year) (t.yearDay - 1)).1 = t.month := rfl
  have q2 : (civilMonth (timeIsLeap t.year) (t.yearDay - 1)).2 = t.day := rfl
  rw [q1] at m1 m2
  rw [q2] at m3
  rw [q1, q2] at m4 m5
  rw [monthLength_eq' _ _ m1 m2] at m4
  refine ⟨m1, m2, m3, m4, ?_, by omega⟩
  unfold dayCount
  omega

/-- The clock reading of a time. -/
theorem clock_exact (t : Time) : 0 ≤ t.hour ∧ t.hour < 24 ∧ 0 ≤ t.minute ∧ t.minute < 60 ∧ 0 ≤ t.second ∧ t.second < 60 ∧
    t.abs = t.abs / 86400 * 86400 + t.hour * 3600 + t.minute * 60 + t.second := by
  unfold Time.hour Time.minute Time.second
  omega

/-! ## The calendar from one day to the next -/

theorem leap_iff' (y : Int) : timeIsLeap y = true ↔ (y - zeroYear + 1) % 4 = 0 ∧
    ((y - zeroYear + 1) % 100 ≠ 0 ∨ (y - zeroYear + 1) % 400 = 0) := by
  rw [leap_mod]
  unfold zeroYear
  omega

theorem daysTo_step (y : Int) : daysTo (y + 1 - zeroYear) = daysTo (y - zeroYear) + before (timeIsLeap y) 12 := by
  have h := leap_iff' y
  have hb : before (timeIsLeap y) 12 = if timeIsLeap y then 366 else 365 := by
    unfold before daysBefore; cases timeIsLeap y <;> decide
  rw [hb]
  generalize timeIsLeap y = l at *
  have e : y + 1 - zeroYear = y - zeroYear + 1 := by omega
  rw [e]
  generalize y - zeroYear = Y at *
  unfold daysTo
  cases l
  · have : ¬ ((Y + 1) % 4 = 0 ∧ ((Y + 1) % 100 ≠ 0 ∨ (Y + 1) % 400 = 0)) := fun hc => by simp at h; omega
    simp only [Bool.false_eq_true, if_false]
    omega
  · have := h.mp rfl
    simp only [if_true]
    omega

end Verif.Proofs.Go
