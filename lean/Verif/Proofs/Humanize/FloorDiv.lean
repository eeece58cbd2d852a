import Verif.Model.Humanize.Basic
import Verif.Proofs.Humanize.Numbers
/-!
# The rounding quotient of helper.go
-/
namespace Verif.Proofs.Humanize
open Verif.Go Verif.Model.Humanize Verif.Proofs.Go

theorem div_fin {m e s : Int} (hs : s ≠ 0) : F64.div (.fin m e) (.fin s 0) = F64.ofRat (ratOf m e / s) := by
  show (if s = 0 then _ else F64.ofRat (ratOf m e / ratOf s 0)) = _
  rw [if_neg hs, ratOf_zero]

theorem fits_le {x y : ℚ} (h0 : 0 ≤ x) (h : x ≤ y) (hy : y < 2 ^ 100) : Fits x := small h0 (lt_of_le_of_lt h hy)

/-- The quotient of non-negative finite numbers, as a chain of roundings. -/
theorem floorDivision_chain (oor : F64 → Int) {m e : Int} {s : Int} (hs : 0 < s) (hs' : s.natAbs < 2 ^ 53)
    (ha : 0 ≤ ratOf m e) (ha' : ratOf m e / s ≤ 2 ^ 60) :
    ∃ (y1 y2 : ℚ) (R : Int) (y4 : ℚ), y1 = rnd (ratOf m e / s) ∧ y2 = rnd (y1 * 1000) ∧ R = (y2 + 1 / 2).floor ∧
      y4 = rnd (R / 1000) ∧ floorDivision oor (.fin m e) (.ofInt s) = y4.floor ∧
      Fits (ratOf m e / s) ∧ Fits (y1 * 1000) ∧ Fits ((R : ℚ) / 1000) ∧ 0 ≤ y1 ∧ 0 ≤ y2 ∧ 0 ≤ R ∧ 0 ≤ y4 := by
  have hsq : (1 : ℚ) ≤ s := by exact_mod_cast hs
  have hx0 : 0 ≤ ratOf m e / s := div_nonneg ha (by linarith)
  have hx1 : ratOf m e / s ≤ 2 ^ 60 := ha'
  have f1 : Fits (ratOf m e / s) := fits_le hx0 hx1 (by norm_num)
  have rep60 : Rep (2 ^ 60 : ℚ) := ⟨1, 60, by norm_num, by norm_num, by norm_num⟩
  have rep70 : Rep (1000 * 2 ^ 60 : ℚ) := ⟨1000, 60, by norm_num, by norm_num, by norm_num⟩
  have b1 : rnd (ratOf m e / s) ≤ 2 ^ 60 := rnd_le rep60 hx0 f1 hx1
  have p1 : 0 ≤ rnd (ratOf m e / s) := rnd_nonneg hx0 f1
  generalize hy1 : rnd (ratOf m e / s) = y1 at *
  have f2 : Fits (y1 * 1000) := fits_le (y := 1000 * 2 ^ 60) (by linarith) (by norm_num at b1 ⊢; linarith) (by norm_num)
  have p2 : 0 ≤ rnd (y1 * 1000) := rnd_nonneg (by linarith) f2
  have b2 : rnd (y1 * 1000) ≤ 1000 * 2 ^ 60 := rnd_le rep70 (by linarith) f2 (by norm_num at b1 ⊢; linarith)
  generalize hy2 : rnd (y1 * 1000) = y2 at *
  have pR : 0 ≤ (y2 + 1 / 2).floor := Rat.le_floor_iff.mpr (by push_cast; linarith)
  have bR : (y2 + 1 / 2).floor < 1000 * 2 ^ 60 + 1 := Rat.floor_lt_iff.mpr (by push_cast; norm_num at b2 ⊢; linarith)
  generalize hR : (y2 + 1 / 2).floor = R at *
  have pRq : (0 : ℚ) ≤ R := by exact_mod_cast pR
  have bRq : (R : ℚ) ≤ 1000 * 2 ^ 60 := by
    have : R ≤ 1000 * 2 ^ 60 := by omega
    exact_mod_cast this
  have h60 : (R : ℚ) / 1000 ≤ 2 ^ 60 := by rw [div_le_iff₀ (by norm_num)]; linarith
  have f3 : Fits ((R : ℚ) / 1000) := fits_le (y := 2 ^ 60) (by positivity) h60 (by norm_num)
  have p4 : 0 ≤ rnd ((R : ℚ) / 1000) := rnd_nonneg (by positivity) f3
  have b4 : rnd ((R : ℚ) / 1000) ≤ 2 ^ 60 := rnd_le rep60 (by positivity) f3 h60
  refine ⟨y1, y2, R, rnd (R / 1000), rfl, hy2.symm, hR.symm, rfl, ?_, f1, f2, f3, p1, p2, pR, p4⟩
  unfold floorDivision toFixed3
  rw [ofInt_small hs', ofInt_small (n := 1000) (by omega), div_fin (by omega)]
  obtain ⟨m1, e1, g1, g1'⟩ := ofRat_fin f1
  rw [g1]
  have hmul : F64.mul (.fin m1 e1) (.fin 1000 0) = F64.ofRat (y1 * 1000) := by
    show F64.ofRat (ratOf m1 e1 * ratOf 1000 0) = _
    rw [g1', hy1, ratOf_zero]
    push_cast
    rfl
  rw [hmul]
  obtain ⟨m2, e2, g2, g2'⟩ := ofRat_fin f2
  rw [g2]
  rw [hy2] at g2'
  have hm2 : 0 ≤ m2 := ratOf_nonneg.mp (by rw [g2']; exact p2)
  have hround : F64.round (.fin m2 e2) = .fin R 0 := by
    show F64.fin (if 0 ≤ m2 then _ else _) 0 = _
    rw [if_pos hm2, g2', hR]
  rw [hround, div_fin (by omega), ratOf_zero]
  obtain ⟨m3, e3, g3, g3'⟩ := ofRat_fin f3
  push_cast
  rw [g3]
  show F64.toInt64 oor (.fin (ratOf m3 e3).floor 0) = _
  rw [g3']
  have h1 : 0 ≤ (rnd ((R : ℚ) / 1000)).floor := Rat.le_floor_iff.mpr (by push_cast; exact p4)
  have h2 : (rnd ((R : ℚ) / 1000)).floor < 2 ^ 63 := Rat.floor_lt_iff.mpr (by push_cast; norm_num at b4 ⊢; linarith)
  exact toInt64_int oor (by omega) h2

/-- The quotient is at least the true one. -/
theorem floorDivision_ge (oor : F64 → Int) {m e : Int} {s : Int} (hs : 0 < s) (hs' : s.natAbs < 2 ^ 53)
    (ha' : ratOf m e / s ≤ 2 ^ 60) (k : Nat) (hk : 1000 * k < 2 ^ 53) (h : (k : ℚ) * s ≤ ratOf m e) :
    (k : Int) ≤ floorDivision oor (.fin m e) (.ofInt s) := by
  have hsq : (0 : ℚ) < s := by exact_mod_cast hs
  have ha : 0 ≤ ratOf m e := le_trans (by positivity) h
  obtain ⟨y1, y2, R, y4, r1, r2, r3, r4, c, f1, f2, f3, p1, p2, pR, p4⟩ :=
    floorDivision_chain oor (m := m) (e := e) hs hs' ha ha'
  have hk0 : (0 : ℚ) ≤ k := by positivity
  have pRq : (0 : ℚ) ≤ R := by exact_mod_cast pR
  have h1 : (k : ℚ) ≤ y1 := by
    rw [r1]
    exact le_rnd (rep_nat (by omega)) (div_nonneg ha hsq.le) f1 (by rw [le_div_iff₀ hsq]; exact h)
  have h2 : ((1000 * k : Nat) : ℚ) ≤ y2 := by
    rw [r2]
    exact le_rnd (rep_nat hk) (by linarith) f2 (by push_cast; linarith)
  have h3 : ((1000 * k : Nat) : Int) ≤ R := by
    rw [r3]
    apply Rat.le_floor_iff.mpr
    push_cast at h2 ⊢
    linarith
  have h3q : 1000 * (k : ℚ) ≤ R := by exact_mod_cast h3
  have h4 : (k : ℚ) ≤ y4 := by
    rw [r4]
    exact le_rnd (rep_nat (by omega)) (by positivity) f3 (by rw [le_div_iff₀ (by norm_num)]; linarith)
  rw [c]
  exact Rat.le_floor_iff.mpr (by exact_mod_cast h4)

/-- The quotient exceeds the true one only if the remainder is nearly the divisor. -/
theorem floorDivision_le (oor : F64 → Int) {m e : Int} {s : Int} (hs : 0 < s) (hs' : s.natAbs < 2 ^ 53)
    (ha : 0 ≤ ratOf m e) (ha' : ratOf m e / s ≤ 2 ^ 60) (k : Nat) (hk : k < 2 ^ 38)
    (h : ratOf m e ≤ ((k : ℚ) + 9994 / 10000) * s) :
    floorDivision oor (.fin m e) (.ofInt s) ≤ k := by
  have hsq : (0 : ℚ) < s := by exact_mod_cast hs
  obtain ⟨y1, y2, R, y4, r1, r2, r3, r4, c, f1, f2, f3, p1, p2, pR, p4⟩ :=
    floorDivision_chain oor (m := m) (e := e) hs hs' ha ha'
  have hk0 : (0 : ℚ) ≤ k := by positivity
  have pRq : (0 : ℚ) ≤ R := by exact_mod_cast pR
  have repA : Rep ((k : ℚ) + 16375 / 16384) := by
    have := rep_div (p := 16384 * k + 16375) (j := 14) (by omega) (by omega)
    convert this using 1
    push_cast
    field_simp
    norm_num
  have repB : Rep (1000 * (k : ℚ) + 31983 / 32) := by
    have := rep_div (p := 32000 * k + 31983) (j := 5) (by omega) (by omega)
    convert this using 1
    push_cast
    field_simp
    ring
  have h1 : y1 ≤ k + 16375 / 16384 := by
    rw [r1]
    exact rnd_le repA (div_nonneg ha hsq.le) f1 (by rw [div_le_iff₀ hsq]; nlinarith)
  have h2 : y2 ≤ 1000 * k + 31983 / 32 := by
    rw [r2]
    exact rnd_le repB (by linarith) f2 (by linarith)
  have h3 : R < 1000 * k + 1000 := by
    rw [r3]
    apply Rat.floor_lt_iff.mpr
    push_cast
    linarith
  have h3q : (R : ℚ) ≤ 1000 * k + 999 := by
    have : R ≤ 1000 * k + 999 := by omega
    exact_mod_cast this
  have h4 : y4 ≤ k + 16375 / 16384 := by
    rw [r4]
    exact rnd_le repA (by positivity) f3 (by rw [div_le_iff₀ (by norm_num)]; linarith)
  rw [c]
  have : y4.floor < (k : Int) + 1 := Rat.floor_lt_iff.mpr (by push_cast; linarith)
  omega

/-- The quotient of a negative number is not positive. -/
theorem floorDivision_neg (oor : F64 → Int) {a s : Int} (hs : 0 < s) (hs' : s.natAbs < 2 ^ 53) (ha : a ≤ 0)
    (ha' : -(2 ^ 53) < a) : floorDivision oor (.ofInt a) (.ofInt s) ≤ 0 := by
  have hsq : (1 : ℚ) ≤ s := by exact_mod_cast hs
  have haq : (a : ℚ) ≤ 0 := by exact_mod_cast ha
  have haq' : -(2 ^ 53) < (a : ℚ) := by exact_mod_cast ha'
  have rep60 : Rep (2 ^ 60 : ℚ) := ⟨1, 60, by norm_num, by norm_num, by norm_num⟩
  have rep70 : Rep (1000 * 2 ^ 60 : ℚ) := ⟨1000, 60, by norm_num, by norm_num, by norm_num⟩
  have hx0 : 0 ≤ -((a : ℚ) / s) := by rw [← neg_div]; exact div_nonneg (by linarith) (by linarith)
  have hx1 : -((a : ℚ) / s) ≤ 2 ^ 60 := by
    rw [← neg_div, div_le_iff₀ (by linarith)]
    norm_num at haq' ⊢
    nlinarith
  have f1' : Fits (-((a : ℚ) / s)) := fits_le hx0 hx1 (by norm_num)
  have f1 : Fits ((a : ℚ) / s) := by unfold Fits at *; rwa [abs_neg] at f1'
  have n1 : rnd (-((a : ℚ) / s)) = -rnd ((a : ℚ) / s) := rnd_neg f1
  have b1 : rnd (-((a : ℚ) / s)) ≤ 2 ^ 60 := rnd_le rep60 hx0 f1' hx1
  have p1 : 0 ≤ rnd (-((a : ℚ) / s)) := rnd_nonneg hx0 f1'
  rw [n1] at b1 p1
  generalize hy1 : rnd ((a : ℚ) / s) = y1 at *
  have f2' : Fits (-(y1 * 1000)) := fits_le (y := 1000 * 2 ^ 60) (by linarith) (by norm_num at b1 ⊢; linarith) (by norm_num)
  have f2 : Fits (y1 * 1000) := by unfold Fits at *; rwa [abs_neg] at f2'
  have n2 : rnd (-(y1 * 1000)) = -rnd (y1 * 1000) := rnd_neg f2
  have p2 : 0 ≤ rnd (-(y1 * 1000)) := rnd_nonneg (by linarith) f2'
  have b2 : rnd (-(y1 * 1000)) ≤ 1000 * 2 ^ 60 := rnd_le rep70 (by linarith) f2' (by norm_num at b1 ⊢; linarith)
  rw [n2] at p2 b2
  generalize hy2 : rnd (y1 * 1000) = y2 at *
  unfold floorDivision toFixed3
  rw [ofInt_small (n := a) (by omega), ofInt_small hs', ofInt_small (n := 1000) (by omega), div_fin (by omega), ratOf_zero]
  obtain ⟨m1, e1, g1, g1'⟩ := ofRat_fin f1
  rw [g1]
  have hmul : F64.mul (.fin m1 e1) (.fin 1000 0) = F64.ofRat (y1 * 1000) := by
    show F64.ofRat (ratOf m1 e1 * ratOf 1000 0) = _
    rw [g1', hy1, ratOf_zero]
    push_cast
    rfl
  rw [hmul]
  obtain ⟨m2, e2, g2, g2'⟩ := ofRat_fin f2
  rw [g2]
  rw [hy2] at g2'
  obtain ⟨R, hround, pR, bR⟩ : ∃ R : Int, F64.round (.fin m2 e2) = .fin R 0 ∧ R ≤ 0 ∧ -(1000 * 2 ^ 60) ≤ R := by
    by_cases hm2 : 0 ≤ m2
    · have h0 : 0 ≤ ratOf m2 e2 := ratOf_nonneg.mpr hm2
      have hz : y2 = 0 := by rw [g2'] at h0; linarith
      refine ⟨(ratOf m2 e2 + 1 / 2).floor, ?_, ?_, ?_⟩
      · show F64.fin (if 0 ≤ m2 then _ else _) 0 = _
        rw [if_pos hm2]
      · rw [g2', hz]; decide +kernel
      · rw [g2', hz]; decide +kernel
    · refine ⟨-((ratOf (-m2) e2 + 1 / 2).floor), ?_, ?_, ?_⟩
      · show F64.fin (if 0 ≤ m2 then _ else _) 0 = _
        rw [if_neg hm2]
      · rw [ratOf_neg, g2']
        have : 0 ≤ (-y2 + 1 / 2).floor := Rat.le_floor_iff.mpr (by push_cast; linarith)
        omega
      · rw [ratOf_neg, g2']
        have : (-y2 + 1 / 2).floor < 1000 * 2 ^ 60 + 1 :=
          Rat.floor_lt_iff.mpr (by push_cast; norm_num at b2 ⊢; linarith)
        omega
  rw [hround, div_fin (by omega), ratOf_zero]
  have pRq : (R : ℚ) ≤ 0 := by exact_mod_cast pR
  have bRq : -(1000 * 2 ^ 60) ≤ (R : ℚ) := by exact_mod_cast bR
  have h60 : -((R : ℚ) / 1000) ≤ 2 ^ 60 := by rw [← neg_div, div_le_iff₀ (by norm_num)]; linarith
  have h00 : 0 ≤ -((R : ℚ) / 1000) := by linarith
  have f3' : Fits (-((R : ℚ) / 1000)) := fits_le (y := 2 ^ 60) h00 h60 (by norm_num)
  have f3 : Fits ((R : ℚ) / 1000) := by unfold Fits at *; rwa [abs_neg] at f3'
  have n3 : rnd (-((R : ℚ) / 1000)) = -rnd ((R : ℚ) / 1000) := rnd_neg f3
  have p4 : 0 ≤ rnd (-((R : ℚ) / 1000)) := rnd_nonneg h00 f3'
  have b4 : rnd (-((R : ℚ) / 1000)) ≤ 2 ^ 60 := rnd_le rep60 h00 f3' h60
  rw [n3] at p4 b4
  obtain ⟨m3, e3, g3, g3'⟩ := ofRat_fin f3
  push_cast
  rw [g3]
  show F64.toInt64 oor (.fin (ratOf m3 e3).floor 0) ≤ 0
  rw [g3']
  have h1 : -(2 ^ 63) ≤ (rnd ((R : ℚ) / 1000)).floor :=
    Rat.le_floor_iff.mpr (by push_cast; norm_num at b4 ⊢; linarith)
  have h2 : (rnd ((R : ℚ) / 1000)).floor < 1 := Rat.floor_lt_iff.mpr (by push_cast; linarith)
  rw [toInt64_int oor h1 (by omega)]
  omega

end Verif.Proofs.Humanize
