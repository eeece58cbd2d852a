import Verif.Proofs.Humanize.Natural
import Verif.Proofs.Go.NextDay
import Verif.Model.Humanize.DateFormat
/-!
# NaturalDay: days between two midnights, in float64
-/
namespace Verif.Proofs.Humanize
open Verif.Go Verif.Model.Humanize Verif.Spec.Humanize Verif.Proofs.Go

/-- The value of `d.Hours()`. -/
def hoursVal (d : Int) : ℚ := rnd (((d.tdiv 3600000000000 : Int) : ℚ) + rnd (((d.tmod 3600000000000 : Int) : ℚ) / 3600000000000))

/-- The value of `d.Hours() / 24`. -/
def daysVal (d : Int) : ℚ := rnd (hoursVal d / 24)

theorem hours_bounds {d : Int} (h0 : 0 ≤ d) (h : d ≤ 2 ^ 63) :
    ∃ a b : Int, d.tdiv 3600000000000 = a ∧ d.tmod 3600000000000 = b ∧ d = 3600000000000 * a + b ∧ 0 ≤ a ∧ a ≤ 2 ^ 40 ∧ 0 ≤ b ∧
      b < 3600000000000 := by
  refine ⟨_, _, rfl, rfl, ?_⟩
  rw [Int.tdiv_eq_ediv_of_nonneg h0, Int.tmod_eq_emod_of_nonneg h0]
  omega

theorem fits_frac {b : Int} (h0 : 0 ≤ b) (h : b < 3600000000000) :
    0 ≤ ((b : ℚ) / 3600000000000) ∧ ((b : ℚ) / 3600000000000) ≤ ((1 : Nat) : ℚ) ∧ Fits ((b : ℚ) / 3600000000000) ∧
      0 ≤ rnd ((b : ℚ) / 3600000000000) ∧ rnd ((b : ℚ) / 3600000000000) ≤ 1 := by
  have b0 : (0 : ℚ) ≤ b := by exact_mod_cast h0
  have b1 : (b : ℚ) ≤ 3600000000000 := by exact_mod_cast (by omega)
  have q0 : 0 ≤ (b : ℚ) / 3600000000000 := by positivity
  have q1 : (b : ℚ) / 3600000000000 ≤ ((1 : Nat) : ℚ) := by
    rw [div_le_iff₀ (by norm_num)]; push_cast; linarith
  have f := small q0 (lt_of_le_of_lt q1 (by norm_num))
  refine ⟨q0, q1, f, rnd_nonneg q0 f, ?_⟩
  have := rnd_le (rep_nat (p := 1) (by norm_num)) q0 f q1
  exact_mod_cast this

theorem fits_hours {a b : Int} (h0 : 0 ≤ b) (h : b < 3600000000000) (ha : 0 ≤ a) (ha' : a ≤ 2 ^ 40) :
    0 ≤ ((a : ℚ) + rnd ((b : ℚ) / 3600000000000)) ∧ Fits ((a : ℚ) + rnd ((b : ℚ) / 3600000000000)) := by
  obtain ⟨-, -, -, r0, r1⟩ := fits_frac h0 h
  have a0 : (0 : ℚ) ≤ a := by exact_mod_cast ha
  have a1 : (a : ℚ) ≤ 2 ^ 40 := by exact_mod_cast ha'
  have s0 : 0 ≤ (a : ℚ) + rnd ((b : ℚ) / 3600000000000) := by linarith
  refine ⟨s0, small s0 (lt_of_le_of_lt (add_le_add a1 r1) (by norm_num))⟩

theorem hours_range {d : Int} (h0 : 0 ≤ d) (h : d ≤ 2 ^ 63) : 0 ≤ hoursVal d ∧ hoursVal d ≤ 2 ^ 41 := by
  obtain ⟨a, b, e1, e2, -, a0, a1, b0, b1⟩ := hours_bounds h0 h
  unfold hoursVal
  rw [e1, e2]
  obtain ⟨s0, f⟩ := fits_hours b0 b1 a0 a1
  obtain ⟨-, -, -, r0, r1⟩ := fits_frac b0 b1
  refine ⟨rnd_nonneg s0 f, ?_⟩
  have a1' : (a : ℚ) ≤ 2 ^ 40 := by exact_mod_cast a1
  have := rnd_le (rep_nat (p := 2 ^ 41) (by norm_num)) s0 f (by push_cast; linarith)
  exact_mod_cast this

theorem days_fits {d : Int} (h0 : 0 ≤ d) (h : d ≤ 2 ^ 63) : 0 ≤ hoursVal d / 24 ∧ Fits (hoursVal d / 24) := by
  obtain ⟨h1, h2⟩ := hours_range h0 h
  have q0 : 0 ≤ hoursVal d / 24 := by positivity
  refine ⟨q0, small q0 ?_⟩
  rw [div_lt_iff₀ (by norm_num)]
  exact lt_of_le_of_lt h2 (by norm_num)

theorem days_nonneg {d : Int} (h0 : 0 ≤ d) (h : d ≤ 2 ^ 63) : 0 ≤ daysVal d :=
  rnd_nonneg (days_fits h0 h).1 (days_fits h0 h).2

/-- At least a second. -/
theorem days_pos {d : Int} (h0 : 1000000000 ≤ d) (h : d ≤ 2 ^ 63) : 0 < daysVal d := by
  obtain ⟨a, b, e1, e2, e3, a0, a1, b0, b1⟩ := hours_bounds (by omega) h
  obtain ⟨s0, f⟩ := fits_hours b0 b1 a0 a1
  obtain ⟨q0, q1, fb, r0, r1⟩ := fits_frac b0 b1
  obtain ⟨d0, fd⟩ := days_fits (d := d) (by omega) h
  have key : ((1 : Nat) : ℚ) / 2 ^ 12 ≤ (a : ℚ) + rnd ((b : ℚ) / 3600000000000) := by
    by_cases ha : 1 ≤ a
    · have : (1 : ℚ) ≤ a := by exact_mod_cast ha
      norm_num; linarith
    · have hb : 1000000000 ≤ b := by omega
      have hb' : (1000000000 : ℚ) ≤ b := by exact_mod_cast hb
      have := le_rnd (rep_div (p := 1) (j := 12) (by norm_num) (by norm_num)) q0 fb (by
        rw [div_le_div_iff₀ (by norm_num) (by norm_num)]; push_cast; linarith)
      have a0' : (0 : ℚ) ≤ a := by exact_mod_cast a0
      linarith
  have hh := le_rnd (rep_div (p := 1) (j := 12) (by norm_num) (by norm_num)) s0 f key
  have hh' : ((1 : Nat) : ℚ) / 2 ^ 12 ≤ hoursVal d := by unfold hoursVal; rw [e1, e2]; exact hh
  have := le_rnd (rep_div (p := 1) (j := 17) (by norm_num) (by norm_num)) d0 fd (by
    rw [le_div_iff₀ (by norm_num)]
    refine le_trans ?_ hh'
    norm_num)
  unfold daysVal
  exact lt_of_lt_of_le (by norm_num) this

/-- At most a second less than a day. -/
theorem days_lt_one {d : Int} (h0 : 0 ≤ d) (h : d ≤ 86399000000000) : daysVal d < 1 := by
  obtain ⟨a, b, e1, e2, e3, a0, a1, b0, b1⟩ := hours_bounds (d := d) (by omega) (by omega)
  obtain ⟨s0, f⟩ := fits_hours b0 b1 a0 a1
  obtain ⟨q0, q1, fb, r0, r1⟩ := fits_frac b0 b1
  obtain ⟨d0, fd⟩ := days_fits (d := d) (by omega) (by omega)
  have key : (a : ℚ) + rnd ((b : ℚ) / 3600000000000) ≤ ((24 * 8192 - 1 : Nat) : ℚ) / 2 ^ 13 := by
    by_cases ha : a ≤ 22
    · have : (a : ℚ) ≤ 22 := by exact_mod_cast ha
      norm_num; linarith
    · have ha' : a = 23 := by omega
      have hb : b ≤ 3599000000000 := by omega
      have hb' : (b : ℚ) ≤ 3599000000000 := by exact_mod_cast hb
      have := rnd_le (rep_div (p := 8191) (j := 13) (by norm_num) (by norm_num)) q0 fb (by
        rw [div_le_div_iff₀ (by norm_num) (by norm_num)]; push_cast; linarith)
      rw [ha']
      refine le_trans (add_le_add (le_refl _) this) ?_
      norm_num
  have hh := rnd_le (rep_div (p := 24 * 8192 - 1) (j := 13) (by norm_num) (by norm_num)) s0 f key
  have hh' : hoursVal d ≤ ((24 * 8192 - 1 : Nat) : ℚ) / 2 ^ 13 := by unfold hoursVal; rw [e1, e2]; exact hh
  have := rnd_le (rep_div (p := 2 ^ 18 - 1) (j := 18) (by norm_num) (by norm_num)) d0 fd (by
    rw [div_le_iff₀ (by norm_num)]
    refine le_trans hh' ?_
    norm_num)
  unfold daysVal
  exact lt_of_le_of_lt this (by norm_num)

/-- At least a second more than a day. -/
theorem one_lt_days {d : Int} (h0 : 86401000000000 ≤ d) (h : d ≤ 2 ^ 63) : 1 < daysVal d := by
  obtain ⟨a, b, e1, e2, e3, a0, a1, b0, b1⟩ := hours_bounds (d := d) (by omega) h
  obtain ⟨s0, f⟩ := fits_hours b0 b1 a0 a1
  obtain ⟨q0, q1, fb, r0, r1⟩ := fits_frac b0 b1
  obtain ⟨d0, fd⟩ := days_fits (d := d) (by omega) h
  have key : ((24 * 4096 + 1 : Nat) : ℚ) / 2 ^ 12 ≤ (a : ℚ) + rnd ((b : ℚ) / 3600000000000) := by
    by_cases ha : 25 ≤ a
    · have : (25 : ℚ) ≤ a := by exact_mod_cast ha
      norm_num; linarith
    · have ha' : a = 24 := by omega
      have hb : 1000000000 ≤ b := by omega
      have hb' : (1000000000 : ℚ) ≤ b := by exact_mod_cast hb
      have := le_rnd (rep_div (p := 1) (j := 12) (by norm_num) (by norm_num)) q0 fb (by
        rw [div_le_div_iff₀ (by norm_num) (by norm_num)]; push_cast; linarith)
      rw [ha']
      refine le_trans ?_ (add_le_add (le_refl _) this)
      norm_num
  have hh := le_rnd (rep_div (p := 24 * 4096 + 1) (j := 12) (by norm_num) (by norm_num)) s0 f key
  have hh' : ((24 * 4096 + 1 : Nat) : ℚ) / 2 ^ 12 ≤ hoursVal d := by unfold hoursVal; rw [e1, e2]; exact hh
  have := le_rnd (rep_div (p := 2 ^ 17 + 1) (j := 17) (by norm_num) (by norm_num)) d0 fd (by
    rw [le_div_iff₀ (by norm_num)]
    refine le_trans ?_ hh'
    norm_num)
  unfold daysVal
  exact lt_of_lt_of_le (by norm_num) this

theorem rnd_zero : rnd 0 = 0 := by
  have := rnd_of_rep (rep_nat (p := 0) (by norm_num)) (small (by norm_num) (by norm_num))
  exact_mod_cast this

theorem days_zero : daysVal 0 = 0 := by
  unfold daysVal hoursVal
  simp [rnd_zero]

theorem rnd_nat {n : Nat} (h : n < 2 ^ 53) : rnd (n : ℚ) = n := by
  refine rnd_of_rep (rep_nat h) (small (by positivity) ?_)
  have : (n : ℚ) < 2 ^ 53 := by exact_mod_cast h
  exact lt_trans this (by norm_num)

theorem days_one : daysVal 86400000000000 = 1 := by
  unfold daysVal hoursVal
  have e1 : (86400000000000 : Int).tdiv 3600000000000 = 24 := by decide
  have e2 : (86400000000000 : Int).tmod 3600000000000 = 0 := by decide
  rw [e1, e2]
  have h24 := rnd_nat (n := 24) (by norm_num)
  have h1 := rnd_nat (n := 1) (by norm_num)
  push_cast at *
  rw [zero_div, rnd_zero, add_zero, h24]
  rw [show (24 : ℚ) / 24 = 1 by norm_num, h1]

theorem days_neg {d : Int} (h0 : 0 ≤ d) (h : d ≤ 2 ^ 63) : daysVal (-d) = -daysVal d := by
  obtain ⟨a, b, e1, e2, e3, a0, a1, b0, b1⟩ := hours_bounds h0 h
  obtain ⟨s0, f⟩ := fits_hours b0 b1 a0 a1
  obtain ⟨q0, q1, fb, r0, r1⟩ := fits_frac b0 b1
  have hh : hoursVal (-d) = -hoursVal d := by
    unfold hoursVal
    rw [Int.neg_tdiv, Int.neg_tmod, e1, e2]
    push_cast
    rw [neg_div, rnd_neg fb, ← neg_add, rnd_neg f]
  unfold daysVal
  rw [hh, neg_div, rnd_neg (days_fits h0 h).2]

theorem fits_neg {x : ℚ} (h : Fits x) : Fits (-x) := by
  unfold Fits at *
  rwa [abs_neg]

theorem div_ofRat {m e : Int} {k : Int} (hk : 0 < k) : F64.div (.fin m e) (.fin k 0) = F64.ofRat (ratOf m e / k) := by
  unfold F64.div
  simp only []
  rw [if_neg (by omega), ratOf_zero]

/-- The comparison of `d.Hours() / 24` with an integer, in terms of the values. -/
theorem delta_eq {d k : Int} (h0 : -(2 ^ 63) ≤ d) (h : d ≤ 2 ^ 63) (hk : k.natAbs < 2 ^ 53) :
    F64.eq (F64.div (durHours d) (.ofInt 24)) (.ofInt k) = decide (daysVal d = k) := by
  have hfr : Fits (((d.tmod 3600000000000 : Int) : ℚ) / 3600000000000) ∧
      Fits (((d.tdiv 3600000000000 : Int) : ℚ) + rnd (((d.tmod 3600000000000 : Int) : ℚ) / 3600000000000)) ∧
      Fits (hoursVal d / 24) := by
    rcases Int.lt_or_le d 0 with hn | hn
    · obtain ⟨p, rfl⟩ : ∃ p : Int, d = -p := ⟨-d, by omega⟩
      obtain ⟨a, b, e1, e2, e3, a0, a1, b0, b1⟩ := hours_bounds (d := p) (by omega) (by omega)
      obtain ⟨s0, f⟩ := fits_hours b0 b1 a0 a1
      obtain ⟨q0, q1, fb, r0, r1⟩ := fits_frac b0 b1
      have hh : hoursVal (-p) = -hoursVal p := by
        unfold hoursVal
        rw [Int.neg_tdiv, Int.neg_tmod, e1, e2]
        push_cast
        rw [neg_div, rnd_neg fb, ← neg_add, rnd_neg f]
      rw [Int.neg_tdiv, Int.neg_tmod, e1, e2, hh]
      push_cast
      rw [neg_div, rnd_neg fb, ← neg_add, neg_div]
      exact ⟨fits_neg fb, fits_neg f, fits_neg (days_fits (by omega) (by omega)).2⟩
    · obtain ⟨a, b, e1, e2, e3, a0, a1, b0, b1⟩ := hours_bounds (d := d) hn h
      obtain ⟨s0, f⟩ := fits_hours b0 b1 a0 a1
      obtain ⟨q0, q1, fb, r0, r1⟩ := fits_frac b0 b1
      rw [e1, e2]
      exact ⟨fb, f, (days_fits hn h).2⟩
  obtain ⟨f1, f2, f3⟩ := hfr
  have n1 : (d.tdiv 3600000000000).natAbs < 2 ^ 53 := by
    rw [Int.natAbs_tdiv]
    show d.natAbs / 3600000000000 < _
    omega
  have n2 : (d.tmod 3600000000000).natAbs < 2 ^ 53 := by
    rw [Int.natAbs_tmod]
    show d.natAbs % 3600000000000 < _
    omega
  unfold durHours
  rw [ofInt_small n1, ofInt_small n2, ofInt_small (n := 3600000000000) (by omega), ofInt_small (n := 24) (by omega),
    ofInt_small hk, div_ofRat (by omega), ratOf_zero]
  obtain ⟨m, e, g1, g2⟩ := ofRat_fin f1
  push_cast
  rw [g1]
  have a1 : F64.add (.fin (d.tdiv 3600000000000) 0) (.fin m e) = F64.ofRat (ratOf (d.tdiv 3600000000000) 0 + ratOf m e) := rfl
  rw [a1, ratOf_zero, g2]
  obtain ⟨m', e', k1, k2⟩ := ofRat_fin f2
  rw [k1, div_ofRat (by omega), k2]
  obtain ⟨m'', e'', j1, j2⟩ := ofRat_fin f3
  push_cast
  have : rnd (((d.tdiv 3600000000000 : Int) : ℚ) + rnd (((d.tmod 3600000000000 : Int) : ℚ) / 3600000000000)) = hoursVal d := rfl
  rw [this, j1]
  show decide (ratOf m'' e'' = ratOf k 0) = _
  rw [j2, ratOf_zero]
  rfl

/-- The three comparisons of NaturalDay, for whole seconds and for the limits of `Sub`. -/
theorem delta_cases {d : Int} (h0 : -(2 ^ 63) ≤ d) (h : d ≤ 2 ^ 63) (hs : d % 1000000000 = 0 ∨ d < -86401000000000 ∨ 86401000000000 < d) :
    (F64.eq (F64.div (durHours d) (.ofInt 24)) (.ofInt 0) = decide (d = 0)) ∧
    (F64.eq (F64.div (durHours d) (.ofInt 24)) (.ofInt 1) = decide (d = 86400000000000)) ∧
    (F64.eq (F64.div (durHours d) (.ofInt 24)) (.ofInt (-1)) = decide (d = -86400000000000)) := by
  rw [delta_eq h0 h (by decide), delta_eq h0 h (by decide), delta_eq h0 h (by decide)]
  simp only [decide_eq_decide]
  push_cast
  have pos : ∀ p : Int, 0 ≤ p → p ≤ 2 ^ 63 → (p % 1000000000 = 0 ∨ 86401000000000 < p) →
      ((daysVal p = 0 ↔ p = 0) ∧ (daysVal p = 1 ↔ p = 86400000000000) ∧ 0 ≤ daysVal p) := by
    intro p p0 p1 p2
    refine ⟨⟨fun hv => ?_, ?_⟩, ⟨fun hv => ?_, ?_⟩, days_nonneg p0 p1⟩
    · by_contra hc
      have := days_pos (d := p) (by omega) p1
      rw [hv] at this
      exact absurd this (by norm_num)
    · rintro rfl; exact days_zero
    · by_contra hc
      rcases Int.lt_or_le p 86400000000000 with hl | hl
      · have := days_lt_one (d := p) p0 (by omega)
        rw [hv] at this
        exact absurd this (by norm_num)
      · have := one_lt_days (d := p) (by omega) p1
        rw [hv] at this
        exact absurd this (by norm_num)
    · rintro rfl; exact days_one
  rcases Int.lt_or_le d 0 with hn | hn
  · obtain ⟨p, rfl⟩ : ∃ p : Int, d = -p := ⟨-d, by omega⟩
    obtain ⟨c1, c2, c3⟩ := pos p (by omega) (by omega) (by omega)
    rw [days_neg (by omega) (by omega)]
    refine ⟨?_, ⟨fun hv => ?_, fun hv => by omega⟩, ?_⟩
    · rw [neg_eq_zero, c1]; omega
    · exfalso; linarith
    · rw [neg_inj, c2]; omega
  · obtain ⟨c1, c2, c3⟩ := pos d hn h (by omega)
    refine ⟨c1, c2, ⟨fun hv => ?_, fun hv => by omega⟩⟩
    exfalso; linarith

end Verif.Proofs.Humanize
