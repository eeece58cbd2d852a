import Verif.Model.Humanize.Date
import Verif.Spec.Since
import Verif.Proofs.Calendar
/-!
# The leap day correction of TimeSince
-/
namespace Verif.Proofs.Humanize
open Verif.Go Verif.Model.Humanize Verif.Proofs.Go Verif.Proofs.Calendar Verif.Spec.Calendar Verif.Spec.Humanize

/-- Days before the year `Y` of the absolute count. -/
def daysTo (Y : Int) : Int := 365 * Y + Y / 4 - Y / 100 + Y / 400

theorem daysTo_split (n4 n3 n2 n1 : Int) (h3 : 0 ≤ n3) (h3' : n3 ≤ 3) (h2 : 0 ≤ n2) (h2' : n2 ≤ 24) (h1 : 0 ≤ n1)
    (h1' : n1 ≤ 3) : daysTo (400 * n4 + 100 * n3 + 4 * n2 + n1) = 146097 * n4 + 36524 * n3 + 1461 * n2 + 365 * n1 := by
  unfold daysTo
  have e1 : (400 * n4 + 100 * n3 + 4 * n2 + n1) / 4 = 100 * n4 + 25 * n3 + n2 := by omega
  have e2 : (400 * n4 + 100 * n3 + 4 * n2 + n1) / 100 = 4 * n4 + n3 := by omega
  have e3 : (400 * n4 + 100 * n3 + 4 * n2 + n1) / 400 = n4 := by omega
  rw [e1, e2, e3]
  omega

theorem civilYear_bounds {d : Int} (h : 0 ≤ d) :
    0 ≤ (civilYear d).1 - zeroYear ∧ daysTo ((civilYear d).1 - zeroYear) ≤ d ∧
      d < daysTo ((civilYear d).1 - zeroYear) + 366 := by
  simp only [civilYear]
  have a1 := Int.mul_ediv_add_emod d 146097
  have a2 := Int.emod_nonneg d (show (146097 : Int) ≠ 0 by omega)
  have a3 := Int.emod_lt_of_pos d (show (0 : Int) < 146097 by omega)
  have a4 : 0 ≤ d / 146097 := by omega
  generalize d / 146097 = n4 at *
  generalize d % 146097 = d1 at *
  obtain ⟨n3, hn3⟩ : ∃ n3, d1 / 36524 - d1 / 36524 / 4 = n3 := ⟨_, rfl⟩
  rw [hn3]
  have b1 : 0 ≤ n3 ∧ n3 ≤ 3 ∧ 0 ≤ d1 - 36524 * n3 ∧ d1 - 36524 * n3 ≤ 36524 := by omega
  clear hn3
  generalize hd2 : d1 - 36524 * n3 = d2 at *
  have c1 := Int.mul_ediv_add_emod d2 1461
  have c2 : 0 ≤ d2 / 1461 ∧ d2 / 1461 ≤ 24 ∧ 0 ≤ d2 - 1461 * (d2 / 1461) ∧ d2 - 1461 * (d2 / 1461) ≤ 1460 := by omega
  generalize d2 / 1461 = n2 at *
  generalize hd3 : d2 - 1461 * n2 = d3 at *
  obtain ⟨n1, hn1⟩ : ∃ n1, d3 / 365 - d3 / 365 / 4 = n1 := ⟨_, rfl⟩
  rw [hn1]
  have e1 : 0 ≤ n1 ∧ n1 ≤ 3 ∧ 0 ≤ d3 - 365 * n1 ∧ d3 - 365 * n1 ≤ 365 := by omega
  clear hn1
  have e2 : 400 * n4 + 100 * n3 + 4 * n2 + n1 + zeroYear - zeroYear = 400 * n4 + 100 * n3 + 4 * n2 + n1 := by omega
  rw [e2, daysTo_split n4 n3 n2 n1 (by omega) (by omega) (by omega) (by omega) (by omega) (by omega)]
  omega

theorem leapsTo_mono {a b : Int} (h : a ≤ b) : leapsTo a ≤ leapsTo b ∧ 4 * (leapsTo b - leapsTo a) ≤ b - a + 3 := by
  constructor
  · have := leapYears_eq (b - a).toNat (a + 1)
    have e1 : a + 1 - 1 + ((b - a).toNat : Int) = b := by omega
    have e2 : a + 1 - 1 = a := by omega
    rw [e1, e2] at this
    omega
  · unfold leapsTo
    have e1 : b / 400 = b / 100 / 4 := by omega
    have e2 : a / 400 = a / 100 / 4 := by omega
    have e3 : a / 100 ≤ b / 100 := by omega
    rw [e1, e2]
    generalize b / 100 = u at *
    generalize a / 100 = v at *
    omega

theorem leapAdjust_nonneg {y1 y2 : Int} (oor : F64 → Int) (h1 : -(2 ^ 52) < y1) (h1' : y1 ≤ 2 ^ 52)
    (h2 : -(2 ^ 52) < y2) (h2' : y2 ≤ 2 ^ 52) (h : y1 ≤ y2 + 1) : 0 ≤ leapAdjust oor y1 y2 := by
  unfold leapAdjust
  simp only [leapDays_eq oor h1 h1' h2 h2', isLeap_iff]
  rcases Int.lt_or_le y1 y2 with hlt | hge
  · have s := leapsTo_step y1
    have m := (leapsTo_mono (a := y1) (b := y2 - 1) (by omega)).1
    have m' := (leapsTo_mono (a := y1 - 1) (b := y2 - 1) (by omega)).1
    by_cases hl : LeapYear y1
    · rw [if_pos hl] at s
      rw [if_pos hl]
      split <;> omega
    · rw [if_neg hl]
      split
      · omega
      · split <;> omega
  · have hc : y1 = y2 ∨ y1 = y2 + 1 := by omega
    rcases hc with rfl | rfl
    · rw [if_pos (by omega)]
    · have s := leapsTo_step y2
      have e : y2 + 1 - 1 = y2 := by omega
      rw [e]
      by_cases hl : LeapYear y2
      · have hn : ¬ LeapYear (y2 + 1) := by unfold LeapYear at *; omega
        rw [if_pos hl] at s ⊢
        rw [if_neg hn]
        split <;> omega
      · rw [if_neg hl] at s
        rw [if_pos (by omega)]

/-- Neighbouring years need no correction. -/
theorem leapAdjust_near {y1 y2 : Int} (oor : F64 → Int) (h1 : -(2 ^ 52) < y1) (h1' : y1 ≤ 2 ^ 52)
    (h2 : -(2 ^ 52) < y2) (h2' : y2 ≤ 2 ^ 52) (h : y1 = y2 ∨ y1 = y2 + 1 ∨ y2 = y1 + 1) :
    leapAdjust oor y1 y2 = 0 := by
  unfold leapAdjust
  simp only [leapDays_eq oor h1 h1' h2 h2', isLeap_iff]
  rcases h with rfl | rfl | rfl
  · rw [if_pos (by omega)]
  · have s := leapsTo_step y2
    have e : y2 + 1 - 1 = y2 := by omega
    rw [e]
    by_cases hl : LeapYear y2
    · have hn : ¬ LeapYear (y2 + 1) := by unfold LeapYear at *; omega
      rw [if_pos hl] at s ⊢
      rw [if_neg hn]
      split <;> omega
    · rw [if_neg hl] at s
      rw [if_pos (by omega)]
  · have s := leapsTo_step y1
    have e : y1 + 1 - 1 = y1 := by omega
    rw [e]
    by_cases hl : LeapYear y1
    · rw [if_pos hl]
      rw [if_pos hl] at s
      split <;> omega
    · rw [if_neg hl] at s
      rw [if_pos (by omega)]

/-- The correction is small against the years. -/
theorem leapAdjust_lower {y1 y2 : Int} (oor : F64 → Int) (h1 : -(2 ^ 52) < y1) (h1' : y1 ≤ 2 ^ 52)
    (h2 : -(2 ^ 52) < y2) (h2' : y2 ≤ 2 ^ 52) (h : y2 ≤ y1) :
    -(y1 - y2 + 7) ≤ 4 * leapAdjust oor y1 y2 ∧ leapAdjust oor y1 y2 ≤ 1 := by
  unfold leapAdjust
  simp only [leapDays_eq oor h1 h1' h2 h2', isLeap_iff]
  have m := leapsTo_mono (a := y2 - 1) (b := y1 - 1) (by omega)
  split
  · omega
  · split
    · omega
    · split <;> omega

theorem leapAdjust_upper {y1 y2 : Int} (oor : F64 → Int) (h1 : -(2 ^ 52) < y1) (h1' : y1 ≤ 2 ^ 52)
    (h2 : -(2 ^ 52) < y2) (h2' : y2 ≤ 2 ^ 52) (h : y1 ≤ y2) : 4 * leapAdjust oor y1 y2 ≤ y2 - y1 + 7 := by
  unfold leapAdjust
  simp only [leapDays_eq oor h1 h1' h2 h2', isLeap_iff]
  have m := leapsTo_mono (a := y1 - 1) (b := y2 - 1) (by omega)
  split
  · omega
  · split
    · omega
    · split <;> omega

/-! ## Years of times -/

theorem daysTo_mono {a b : Int} (h : a ≤ b) : daysTo a + 365 * (b - a) ≤ daysTo b := by
  have := (leapsTo_mono h).1
  unfold leapsTo at this
  unfold daysTo
  omega

theorem year_range (t : Time) : -(2 ^ 52) < t.year ∧ t.year ≤ 2 ^ 52 := by
  unfold Time.year
  have h0 : 0 ≤ t.abs ∧ t.abs < 2 ^ 64 := by unfold Time.abs; omega
  have b := civilYear_bounds (d := t.abs / 86400) (by omega)
  have m := daysTo_mono b.1
  have e : daysTo 0 = 0 := by decide
  rw [e] at m
  unfold zeroYear at *
  omega

/-- Years against seconds. -/
theorem year_order {a b : Time} (ha : InRange a) (hb : InRange b) (h : b.unix ≤ a.unix) :
    b.year ≤ a.year + 1 ∧ (a.year ≥ b.year + 2 → b.unix - a.unix ≤ -(86400 * (365 * (a.year - b.year) - 368))) := by
  obtain ⟨a1, a2, a3, a4⟩ := ha
  obtain ⟨b1, b2, b3, b4⟩ := hb
  have ea : a.abs = a.unix + a.loc.offset a.unix + unixToAbsolute := Int.emod_eq_of_lt a1 a2
  have eb : b.abs = b.unix + b.loc.offset b.unix + unixToAbsolute := Int.emod_eq_of_lt b1 b2
  have ca := civilYear_bounds (d := a.abs / 86400) (by omega)
  have cb := civilYear_bounds (d := b.abs / 86400) (by omega)
  unfold Time.year
  generalize (civilYear (a.abs / 86400)).1 = ya at *
  generalize (civilYear (b.abs / 86400)).1 = yb at *
  have e1 : (ya - zeroYear) - (yb - zeroYear) = ya - yb := by omega
  have e2 : (yb - zeroYear) - (ya - zeroYear) = yb - ya := by omega
  constructor
  · by_contra hc
    have m := daysTo_mono (a := ya - zeroYear) (b := yb - zeroYear) (by omega)
    rw [e2] at m
    omega
  · intro hy
    have m := daysTo_mono (a := yb - zeroYear) (b := ya - zeroYear) (by omega)
    rw [e1] at m
    omega

end Verif.Proofs.Humanize
