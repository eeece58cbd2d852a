import Verif.Go.Time
import Verif.Spec.Calendar
/-! Calendar dates of the Go 1.23 algorithm. -/
namespace Verif.Proofs.Go
open Verif.Go Verif.Spec.Calendar

theorem timeIsLeap_iff (y : Int) : timeIsLeap y = true ↔ LeapYear y := by
  unfold timeIsLeap LeapYear
  simp only [decide_eq_true_eq]
  omega

/-- Days before a month (0 is January). -/
def before (leap : Bool) (m : Int) : Int := daysBefore m + (if leap ∧ 2 ≤ m then 1 else 0)

theorem civilMonth_table : ∀ (leap : Bool) (m : Fin 12) (d : Fin 31),
    (d.val : Int) < before leap (m.val + 1) - before leap m.val →
    civilMonth leap (before leap m.val + d.val) = ((m.val : Int) + 1, (d.val : Int) + 1) := by
  decide +kernel

/-- Month and day of a day within the year. -/
theorem civilMonth_spec (leap : Bool) (m d : Int) (hm : 1 ≤ m) (hm' : m ≤ 12) (hd : 1 ≤ d)
    (hd' : d ≤ before leap m - before leap (m - 1)) :
    civilMonth leap (before leap (m - 1) + (d - 1)) = (m, d) := by
  have h31 : ∀ (leap : Bool) (m : Fin 12), before leap (m.val + 1) - before leap m.val ≤ 31 := by decide +kernel
  have hb := h31 leap ⟨(m - 1).toNat, by omega⟩
  have e1 : (((m - 1).toNat : Nat) : Int) = m - 1 := by omega
  have e3 : m - 1 + 1 = m := by omega
  simp only [e1, e3] at hb
  have e2 : (((d - 1).toNat : Nat) : Int) = d - 1 := by omega
  have := civilMonth_table leap ⟨(m - 1).toNat, by omega⟩ ⟨(d - 1).toNat, by omega⟩
  simp only [e1, e2, e3] at this
  rw [this (by omega)]
  congr 1; omega

/-- The years that the 64 bit seconds can count. -/
def YearOk (y : Int) : Prop := zeroYear ≤ y ∧ y < zeroYear + 584554049000

theorem civilYear_spec {y yd : Int} (hy : 0 ≤ y - zeroYear) (hy' : y - zeroYear < 2 ^ 64) (h0 : 0 ≤ yd)
    (h1 : yd < 365 ∨ (yd = 365 ∧ timeIsLeap y = true)) :
    civilYear (daysSinceEpoch y + yd) = (y, yd) := by
  have hl : yd = 365 → y % 4 = 0 ∧ (y % 100 ≠ 0 ∨ y % 400 = 0) := by
    intro h
    rcases h1 with h1 | h1
    · omega
    · have := h1.2
      unfold timeIsLeap at this
      simpa only [decide_eq_true_eq] using this
  have hle : yd ≤ 365 := by omega
  unfold civilYear daysSinceEpoch
  simp only []
  rw [Int.emod_eq_of_lt hy hy']
  generalize hY : y - zeroYear = Y at *
  have hyY : y = Y + zeroYear := by omega
  unfold zeroYear at hyY
  have hYa : Y = 400 * (Y / 400) + Y % 400 := by omega
  generalize ha : Y / 400 = a at *
  have hYb : Y % 400 = 100 * (Y % 400 / 100) + Y % 400 % 100 := by omega
  have hb3 : 0 ≤ Y % 400 / 100 ∧ Y % 400 / 100 ≤ 3 := by omega
  generalize hb : Y % 400 / 100 = b at *
  have hYc : Y % 400 % 100 = 4 * (Y % 400 % 100 / 4) + Y % 400 % 100 % 4 := by omega
  have hc24 : 0 ≤ Y % 400 % 100 / 4 ∧ Y % 400 % 100 / 4 ≤ 24 := by omega
  have hr3 : 0 ≤ Y % 400 % 100 % 4 ∧ Y % 400 % 100 % 4 ≤ 3 := by omega
  generalize hc : Y % 400 % 100 / 4 = c at *
  generalize hr : Y % 400 % 100 % 4 = r at *
  have hYY : Y = 400 * a + 100 * b + 4 * c + r := by omega
  have hlr : yd = 365 → r = 3 ∧ (c ≠ 24 ∨ b = 3) := by
    intro h
    have := hl h
    omega
  clear hl h1 ha hb hc hr hYa hYb hYc hyY
  have s1 : (146097 * a + 36524 * b + 1461 * c + 365 * r + yd) / 146097 = a := by omega
  have s2 : (146097 * a + 36524 * b + 1461 * c + 365 * r + yd) % 146097 = 36524 * b + 1461 * c + 365 * r + yd := by
    omega
  rw [s1, s2]
  have s3 : (36524 * b + 1461 * c + 365 * r + yd) / 36524 - (36524 * b + 1461 * c + 365 * r + yd) / 36524 / 4 = b := by
    have hlim : 1461 * c + 365 * r + yd ≤ 36523 ∨ (1461 * c + 365 * r + yd = 36524 ∧ b = 3) := by
      rcases Int.lt_or_le yd 365 with h | h
      · omega
      · have := hlr (by omega); omega
    rcases hlim with h | h
    · have : (36524 * b + 1461 * c + 365 * r + yd) / 36524 = b := by omega
      rw [this]; omega
    · have : (36524 * b + 1461 * c + 365 * r + yd) / 36524 = 4 := by omega
      rw [this]; omega
  rw [s3]
  have s4 : 36524 * b + 1461 * c + 365 * r + yd - 36524 * b = 1461 * c + 365 * r + yd := by omega
  rw [s4]
  have s5 : (1461 * c + 365 * r + yd) / 1461 = c := by omega
  rw [s5]
  have s6 : 1461 * c + 365 * r + yd - 1461 * c = 365 * r + yd := by omega
  rw [s6]
  have s7 : (365 * r + yd) / 365 - (365 * r + yd) / 365 / 4 = r := by omega
  rw [s7]
  refine Prod.ext ?_ ?_
  · simp only []; omega
  · simp only []; omega

/-- A month of a valid year, a day of that month: the day number reads back. -/
theorem before_le : ∀ (leap : Bool) (m : Fin 12), 0 ≤ before leap m.val ∧
    before leap (m.val + 1) ≤ 365 + (if leap then 1 else 0) := by decide +kernel

theorem dayNumber_civil {y m d : Int} (hy : 0 ≤ y - zeroYear) (hy' : y - zeroYear < 2 ^ 64) (hm : 1 ≤ m)
    (hm' : m ≤ 12) (hd : 1 ≤ d) (hd' : d ≤ before (timeIsLeap y) m - before (timeIsLeap y) (m - 1)) :
    civilYear (dayNumber y m d) = (y, before (timeIsLeap y) (m - 1) + (d - 1)) ∧
      civilMonth (timeIsLeap y) (before (timeIsLeap y) (m - 1) + (d - 1)) = (m, d) := by
  refine ⟨?_, civilMonth_spec _ m d hm hm' hd hd'⟩
  have h1 : (m - 1) / 12 = 0 := by omega
  have h2 : (m - 1) % 12 = m - 1 := by omega
  have e : dayNumber y m d = daysSinceEpoch y + (before (timeIsLeap y) (m - 1) + (d - 1)) := by
    unfold dayNumber before
    simp only [h1, h2, Int.add_zero]
    omega
  rw [e]
  have hb := before_le (timeIsLeap y) ⟨(m - 1).toNat, by omega⟩
  have e1 : (((m - 1).toNat : Nat) : Int) = m - 1 := by omega
  have e3 : m - 1 + 1 = m := by omega
  simp only [e1, e3] at hb
  apply civilYear_spec hy hy'
  · omega
  · cases h : timeIsLeap y
    · rw [h] at hb hd'; simp only [Bool.false_eq_true, if_false] at hb; left; omega
    · rw [h] at hb hd'; simp only [if_true] at hb
      rcases Int.lt_or_le (before true (m - 1) + (d - 1)) 365 with h | h
      · left; exact h
      · right; exact ⟨by omega, rfl⟩

end Verif.Proofs.Go
