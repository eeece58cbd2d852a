import Verif.Go.FloatOps
import Mathlib.Tactic.Linarith
import Mathlib.Tactic.Positivity
import Mathlib.Tactic.FieldSimp
import Mathlib.Tactic.NormNum
import Mathlib.Tactic.Ring
import Mathlib.Algebra.Order.Field.Power
import Mathlib.Algebra.Order.Ring.Rat
import Mathlib.Algebra.Field.Rat
/-! Rounding to float64 is monotone and leaves the representable values alone. -/
namespace Verif.Proofs.Go
open Verif.Go

theorem ratOf_zpow (m e : Int) : ratOf m e = (m : ℚ) * 2 ^ e := by
  unfold ratOf
  split
  · next h =>
    obtain ⟨n, rfl⟩ := Int.eq_ofNat_of_zero_le h
    rw [Int.toNat_natCast, zpow_natCast]
  · next h =>
    obtain ⟨n, hn⟩ := Int.eq_ofNat_of_zero_le (show 0 ≤ -e by omega)
    have : e = -(n : Int) := by omega
    subst this
    rw [neg_neg, Int.toNat_natCast, zpow_neg, zpow_natCast, div_eq_mul_inv]

/-- The magnitudes of float64 (without the upper limit). -/
def Rep (y : ℚ) : Prop := ∃ (p : Nat) (k : Int), p < 2 ^ 53 ∧ -1074 ≤ k ∧ y = (p : ℚ) * 2 ^ k

theorem le_halfEven {a d n : Nat} (hd : 0 < d) (h : n * d ≤ a) : n ≤ halfEven a d := by
  have : n ≤ a / d := (Nat.le_div_iff_mul_le hd).mpr h
  unfold halfEven
  simp only []
  split
  · exact this
  · split
    · omega
    · split <;> omega

theorem halfEven_le {a d n : Nat} (hd : 0 < d) (h : a ≤ n * d) : halfEven a d ≤ n := by
  have hq := Nat.div_add_mod a d
  have hm := Nat.mod_lt a hd
  unfold halfEven
  simp only []
  have h1 : a / d ≤ n := by
    have := Nat.div_le_div_right (c := d) h
    rwa [Nat.mul_div_cancel _ hd] at this
  rcases Nat.lt_or_eq_of_le h1 with h2 | h2
  · split
    · omega
    · split
      · omega
      · split <;> omega
  · have : a % d = 0 := by
      rw [h2, Nat.mul_comm] at hq
      omega
    rw [this, if_pos (by omega)]
    exact h1

theorem two_zpow_pos (e : Int) : (0 : ℚ) < 2 ^ e := by positivity

/-- The exponent that `roundRatio` chooses. -/
theorem exponent_spec {a d : Nat} (ha : 0 < a) (hd : 0 < d) (e1 : Int)
    (h : e1 = (if a * 2 ^ (-((Nat.log2 a : Int) - Nat.log2 d - 53)).toNat <
      2 ^ 53 * d * 2 ^ ((Nat.log2 a : Int) - Nat.log2 d - 53).toNat then
        (Nat.log2 a : Int) - Nat.log2 d - 53 else (Nat.log2 a : Int) - Nat.log2 d - 53 + 1)) :
    (2 : ℚ) ^ (52 + e1) ≤ (a : ℚ) / d ∧ (a : ℚ) / d < 2 ^ (53 + e1) := by
  have hdq : (0 : ℚ) < d := by exact_mod_cast hd
  generalize he0 : ((Nat.log2 a : Int) - Nat.log2 d - 53) = e0 at h
  have hcond : (a * 2 ^ (-e0).toNat < 2 ^ 53 * d * 2 ^ e0.toNat) ↔ (a : ℚ) / d < 2 ^ (53 + e0) := by
    rw [div_lt_iff₀ hdq, zpow_add₀ (by norm_num : (2 : ℚ) ≠ 0)]
    rcases Int.le_total 0 e0 with h0 | h0
    · obtain ⟨n, rfl⟩ := Int.eq_ofNat_of_zero_le h0
      have : (-(n : Int)).toNat = 0 := by omega
      rw [this, Int.toNat_natCast, zpow_natCast, pow_zero, Nat.mul_one]
      rw [← Nat.cast_lt (α := ℚ)]
      push_cast
      constructor <;> intro h <;> linarith
    · obtain ⟨n, hn⟩ := Int.eq_ofNat_of_zero_le (show 0 ≤ -e0 by omega)
      have : e0 = -(n : Int) := by omega
      subst this
      have h2 : (-(n : Int)).toNat = 0 := by omega
      rw [h2, neg_neg, Int.toNat_natCast, zpow_neg, zpow_natCast, pow_zero, Nat.mul_one]
      rw [← Nat.cast_lt (α := ℚ)]
      push_cast
      have hp : (0 : ℚ) < 2 ^ n := by positivity
      rw [show (9007199254740992 : ℚ) * (2 ^ n)⁻¹ * d = (9007199254740992 * d) / 2 ^ n from by field_simp]
      rw [lt_div_iff₀ hp]
  have la := Nat.log2_self_le (Nat.pos_iff_ne_zero.mp ha)
  have la' : a < 2 ^ (Nat.log2 a + 1) := Nat.lt_log2_self
  have ld := Nat.log2_self_le (Nat.pos_iff_ne_zero.mp hd)
  have ld' : d < 2 ^ (Nat.log2 d + 1) := Nat.lt_log2_self
  have laq : (2 : ℚ) ^ (Nat.log2 a) ≤ a := by exact_mod_cast la
  have laq' : (a : ℚ) < 2 ^ (Nat.log2 a + 1) := by exact_mod_cast la'
  have ldq : (2 : ℚ) ^ (Nat.log2 d) ≤ d := by exact_mod_cast ld
  have ldq' : (d : ℚ) < 2 ^ (Nat.log2 d + 1) := by exact_mod_cast ld'
  have low : (2 : ℚ) ^ (52 + e0) ≤ (a : ℚ) / d := by
    rw [le_div_iff₀ hdq]
    have : (2 : ℚ) ^ (52 + e0) * 2 ^ (Nat.log2 d + 1) = 2 ^ (Nat.log2 a) := by
      rw [← zpow_natCast, ← zpow_natCast, ← zpow_add₀ (by norm_num)]
      congr 1; push_cast; omega
    have hh : (2 : ℚ) ^ (52 + e0) * d ≤ (2 : ℚ) ^ (52 + e0) * 2 ^ (Nat.log2 d + 1) :=
      mul_le_mul_of_nonneg_left (le_of_lt ldq') (le_of_lt (two_zpow_pos _))
    linarith
  have high : (a : ℚ) / d < 2 ^ (54 + e0) := by
    rw [div_lt_iff₀ hdq]
    have : (2 : ℚ) ^ (54 + e0) * 2 ^ (Nat.log2 d) = 2 ^ (Nat.log2 a + 1) := by
      rw [← zpow_natCast, ← zpow_natCast, ← zpow_add₀ (by norm_num)]
      congr 1; push_cast; omega
    have hh : (2 : ℚ) ^ (54 + e0) * 2 ^ (Nat.log2 d) ≤ (2 : ℚ) ^ (54 + e0) * d :=
      mul_le_mul_of_nonneg_left ldq (le_of_lt (two_zpow_pos _))
    linarith
  by_cases hc : a * 2 ^ (-e0).toNat < 2 ^ 53 * d * 2 ^ e0.toNat
  · rw [if_pos hc] at h
    subst h
    exact ⟨low, hcond.mp hc⟩
  · rw [if_neg hc] at h
    subst h
    have := mt hcond.mpr hc
    constructor
    · rw [show 52 + (e0 + 1) = 53 + e0 from by omega]; exact not_lt.mp this
    · rw [show 53 + (e0 + 1) = 54 + e0 from by omega]; exact high

/-- `halfEven` at a power of two. -/
theorem halfEven_zpow {a d : Nat} (hd : 0 < d) (e : Int) (h : Nat)
    (hh : h = if 0 ≤ e then halfEven a (d * 2 ^ e.toNat) else halfEven (a * 2 ^ (-e).toNat) d) :
    (∀ n : Nat, (a : ℚ) / d ≤ n * 2 ^ e → h ≤ n) ∧ (∀ n : Nat, n * 2 ^ e ≤ (a : ℚ) / d → n ≤ h) := by
  have hdq : (0 : ℚ) < d := by exact_mod_cast hd
  rcases le_or_gt 0 e with h0 | h0
  · rw [if_pos h0] at hh
    obtain ⟨k, rfl⟩ := Int.eq_ofNat_of_zero_le h0
    rw [Int.toNat_natCast] at hh
    have hdk : 0 < d * 2 ^ k := by positivity
    subst hh
    constructor
    · intro n hn
      rw [div_le_iff₀ hdq, zpow_natCast] at hn
      apply halfEven_le hdk
      have : (a : ℚ) ≤ ((n * (d * 2 ^ k) : Nat) : ℚ) := by push_cast; linarith
      exact_mod_cast this
    · intro n hn
      rw [le_div_iff₀ hdq, zpow_natCast] at hn
      apply le_halfEven hdk
      have : ((n * (d * 2 ^ k) : Nat) : ℚ) ≤ a := by push_cast; linarith
      exact_mod_cast this
  · rw [if_neg (by omega)] at hh
    obtain ⟨k, hk⟩ := Int.eq_ofNat_of_zero_le (show 0 ≤ -e by omega)
    have he : e = -(k : Int) := by omega
    subst he
    rw [neg_neg, Int.toNat_natCast] at hh
    subst hh
    have hp : (0 : ℚ) < 2 ^ k := by positivity
    constructor
    · intro n hn
      rw [div_le_iff₀ hdq, zpow_neg, zpow_natCast] at hn
      apply halfEven_le hd
      rw [show (n : ℚ) * (2 ^ k)⁻¹ * d = (n * d) / 2 ^ k from by field_simp, le_div_iff₀ hp] at hn
      exact_mod_cast hn
    · intro n hn
      rw [le_div_iff₀ hdq, zpow_neg, zpow_natCast] at hn
      apply le_halfEven hd
      rw [show (n : ℚ) * (2 ^ k)⁻¹ * d = (n * d) / 2 ^ k from by field_simp, div_le_iff₀ hp] at hn
      exact_mod_cast hn

/-- The rounding of a non-negative rational below `2 ^ 1000`. -/
theorem roundRatio_mono {a d : Nat} (hd : 0 < d) (hlt : (a : ℚ) / d < 2 ^ 1000) :
    ∃ m e : Int, roundRatio a d = some (.fin m e) ∧ 0 ≤ m ∧
      (∀ y, Rep y → (a : ℚ) / d ≤ y → ratOf m e ≤ y) ∧ (∀ y, Rep y → y ≤ (a : ℚ) / d → y ≤ ratOf m e) := by
  have hdq : (0 : ℚ) < d := by exact_mod_cast hd
  unfold roundRatio
  by_cases hex : a % d = 0 ∧ a / d < 2 ^ 53
  · rw [if_pos hex]
    refine ⟨_, _, rfl, by positivity, ?_⟩
    have hv : ratOf ((a / d : Nat) : Int) 0 = (a : ℚ) / d := by
      rw [ratOf_zpow, zpow_zero, mul_one]
      have := Nat.div_add_mod a d
      rw [hex.1, Nat.add_zero] at this
      rw [eq_div_iff (ne_of_gt hdq)]
      push_cast
      rw [mul_comm]
      exact_mod_cast this
    rw [hv]
    exact ⟨fun y _ h => h, fun y _ h => h⟩
  · rw [if_neg hex]
    simp only []
    have ha : 0 < a := by
      rcases Nat.eq_zero_or_pos a with rfl | h
      · simp at hex
      · exact h
    generalize he1 : (if a * 2 ^ (-((Nat.log2 a : Int) - Nat.log2 d - 53)).toNat <
      2 ^ 53 * d * 2 ^ ((Nat.log2 a : Int) - Nat.log2 d - 53).toNat then
        (Nat.log2 a : Int) - Nat.log2 d - 53 else (Nat.log2 a : Int) - Nat.log2 d - 53 + 1) = e1
    obtain ⟨hlo, hhi⟩ := exponent_spec ha hd e1 he1.symm
    have he1000 : e1 < 948 := by
      have h1 : (2 : ℚ) ^ (52 + e1) < 2 ^ (1000 : Int) := lt_of_le_of_lt hlo (by exact_mod_cast hlt)
      have := (zpow_lt_zpow_iff_right₀ (by norm_num : (1 : ℚ) < 2)).mp h1
      omega
    generalize hem : max e1 (-1074) = e
    have hele : e1 ≤ e := by omega
    have he1074 : -1074 ≤ e := by omega
    have he948 : e < 948 := by omega
    have hlo' : (2 : ℚ) ^ (52 + e) ≤ (a : ℚ) / d ∨ e = -1074 := by
      rcases (by omega : e = e1 ∨ e = -1074) with h | h
      · left; rw [h]; exact hlo
      · right; exact h
    have hhi' : (a : ℚ) / d < 2 ^ (53 + e) :=
      lt_of_lt_of_le hhi (zpow_le_zpow_right₀ (by norm_num) (by omega))
    generalize hh : (if 0 ≤ e then halfEven a (d * 2 ^ e.toNat) else halfEven (a * 2 ^ (-e).toNat) d) = h
    obtain ⟨hup, hdn⟩ := halfEven_zpow (a := a) hd e h hh.symm
    have hle53 : h ≤ 2 ^ 53 := by
      apply hup
      push_cast
      rw [zpow_add₀ (by norm_num), show (2 : ℚ) ^ (53 : Int) = 2 ^ 53 from by norm_num] at hhi'
      exact le_of_lt hhi'
    have key : ∀ m e' : Int, ratOf m e' = (h : ℚ) * 2 ^ e →
        (∀ y, Rep y → (a : ℚ) / d ≤ y → ratOf m e' ≤ y) ∧ (∀ y, Rep y → y ≤ (a : ℚ) / d → y ≤ ratOf m e') := by
      intro m e' hv
      rw [hv]
      constructor
      · rintro y ⟨p, k, hp, hk, rfl⟩ hy
        have hpq : (p : ℚ) < 2 ^ 53 := by exact_mod_cast hp
        rcases le_or_gt e k with hke | hke
        · obtain ⟨n, hn⟩ := Int.eq_ofNat_of_zero_le (show 0 ≤ k - e by omega)
          have hke' : k = n + e := by omega
          have e2 : (p : ℚ) * 2 ^ k = ((p * 2 ^ n : Nat) : ℚ) * 2 ^ e := by
            rw [hke', zpow_add₀ (by norm_num), zpow_natCast]; push_cast; ring
          rw [e2] at hy ⊢
          have := hup _ hy
          have : (h : ℚ) ≤ ((p * 2 ^ n : Nat) : ℚ) := by exact_mod_cast this
          exact mul_le_mul_of_nonneg_right this (le_of_lt (two_zpow_pos _))
        · exfalso
          have hx : (2 : ℚ) ^ (52 + e) ≤ (a : ℚ) / d := by
            rcases hlo' with h | h
            · exact h
            · omega
          have h2 : (p : ℚ) * 2 ^ k < 2 ^ (53 + k) := by
            rw [zpow_add₀ (by norm_num)]
            apply mul_lt_mul_of_pos_right _ (two_zpow_pos _)
            exact_mod_cast hpq
          have h3 : (2 : ℚ) ^ (53 + k) ≤ 2 ^ (52 + e) := zpow_le_zpow_right₀ (by norm_num) (by omega)
          linarith
      · rintro y ⟨p, k, hp, hk, rfl⟩ hy
        have hpq : (p : ℚ) < 2 ^ 53 := by exact_mod_cast hp
        rcases le_or_gt e k with hke | hke
        · obtain ⟨n, hn⟩ := Int.eq_ofNat_of_zero_le (show 0 ≤ k - e by omega)
          have hke' : k = n + e := by omega
          have e2 : (p : ℚ) * 2 ^ k = ((p * 2 ^ n : Nat) : ℚ) * 2 ^ e := by
            rw [hke', zpow_add₀ (by norm_num), zpow_natCast]; push_cast; ring
          rw [e2] at hy ⊢
          have := hdn _ hy
          have : ((p * 2 ^ n : Nat) : ℚ) ≤ (h : ℚ) := by exact_mod_cast this
          exact mul_le_mul_of_nonneg_right this (le_of_lt (two_zpow_pos _))
        · have hx : (2 : ℚ) ^ (52 + e) ≤ (a : ℚ) / d := by
            rcases hlo' with h | h
            · exact h
            · omega
          have h2 : (p : ℚ) * 2 ^ k < 2 ^ (53 + k) := by
            rw [zpow_add₀ (by norm_num)]
            apply mul_lt_mul_of_pos_right _ (two_zpow_pos _)
            exact_mod_cast hpq
          have h3 : (2 : ℚ) ^ (53 + k) ≤ 2 ^ (52 + e) := zpow_le_zpow_right₀ (by norm_num) (by omega)
          have h4 : 2 ^ 52 ≤ h := by
            apply hdn
            push_cast
            rw [zpow_add₀ (by norm_num)] at hx
            exact_mod_cast hx
          have h5 : ((2 : ℚ) ^ 52) ≤ h := by exact_mod_cast h4
          have h6 : (2 : ℚ) ^ (52 + e) ≤ (h : ℚ) * 2 ^ e := by
            rw [zpow_add₀ (by norm_num)]
            apply mul_le_mul_of_nonneg_right _ (le_of_lt (two_zpow_pos _))
            exact_mod_cast h5
          linarith
    rcases le_or_gt 0 e with h0 | h0
    · rw [if_pos h0] at hh
      rw [if_pos h0, hh]
      set_option exponentiation.threshold 2000 in
      have hfit : h * 2 ^ e.toNat < 2 ^ 1024 := by
        have h7 : h * 2 ^ e.toNat ≤ 2 ^ (53 + e.toNat) := by
          rw [Nat.pow_add]; exact Nat.mul_le_mul_right _ hle53
        have h8 : 2 ^ (53 + e.toNat) < 2 ^ 1024 := Nat.pow_lt_pow_right (by omega) (by omega)
        exact Nat.lt_of_le_of_lt h7 h8
      rw [if_pos hfit]
      refine ⟨_, _, rfl, Int.natCast_nonneg _, key _ _ ?_⟩
      rw [ratOf_zpow, zpow_zero, mul_one]
      obtain ⟨n, rfl⟩ := Int.eq_ofNat_of_zero_le h0
      rw [Int.toNat_natCast, zpow_natCast]
      push_cast
      rfl
    · rw [if_neg (by omega)] at hh
      rw [if_neg (by omega), hh]
      refine ⟨_, _, rfl, by positivity, key _ _ ?_⟩
      rw [ratOf_zpow]
      push_cast
      rfl

/-- Far inside the range of float64. -/
def Fits (x : ℚ) : Prop := |x| < 2 ^ 1000

theorem fits_of {x : ℚ} (h : |x| < 2 ^ 100) : Fits x :=
  lt_trans h (pow_lt_pow_right₀ (by norm_num) (by norm_num))

/-- Rounding as a function of the value. -/
def rnd (x : ℚ) : ℚ := (F64.ofRat x).val

theorem ratOf_neg (m e : Int) : ratOf (-m) e = -ratOf m e := by
  rw [ratOf_zpow, ratOf_zpow]; push_cast; ring

theorem abs_eq_div (x : ℚ) : |x| = (x.num.natAbs : ℚ) / x.den := by
  conv => lhs; rw [← Rat.num_div_den x]
  rw [abs_div, Nat.abs_cast, Nat.cast_natAbs, Int.cast_abs]

theorem ofRat_spec {x : ℚ} (h : Fits x) :
    ∃ m e : Int, F64.ofRat x = .fin m e ∧ (x < 0 → m ≤ 0) ∧ (0 ≤ x → 0 ≤ m) ∧
      (∀ y, Rep y → |x| ≤ y → |ratOf m e| ≤ y) ∧ (∀ y, Rep y → y ≤ |x| → y ≤ |ratOf m e|) := by
  unfold Fits at h
  rw [abs_eq_div] at h ⊢
  obtain ⟨m, e, h1, h2, h3, h4⟩ := roundRatio_mono x.den_pos h
  have hv : 0 ≤ ratOf m e := by
    rw [ratOf_zpow]; positivity
  unfold F64.ofRat
  rw [h1]
  simp only []
  by_cases hx : x < 0
  · rw [if_pos hx]
    refine ⟨-m, e, rfl, fun _ => by omega, fun h => absurd hx (not_lt.mpr h), ?_⟩
    rw [ratOf_neg, abs_neg, abs_of_nonneg hv]
    exact ⟨h3, h4⟩
  · rw [if_neg hx]
    refine ⟨m, e, rfl, fun h => absurd h hx, fun _ => h2, ?_⟩
    rw [abs_of_nonneg hv]
    exact ⟨h3, h4⟩

theorem ofRat_fin {x : ℚ} (h : Fits x) : ∃ m e : Int, F64.ofRat x = .fin m e ∧ ratOf m e = rnd x := by
  obtain ⟨m, e, h1, _⟩ := ofRat_spec h
  exact ⟨m, e, h1, by unfold rnd; rw [h1]; rfl⟩

theorem Rep.nonneg {y : ℚ} (h : Rep y) : 0 ≤ y := by
  obtain ⟨p, k, _, _, rfl⟩ := h
  positivity

theorem rnd_nonneg {x : ℚ} (hx : 0 ≤ x) (h : Fits x) : 0 ≤ rnd x := by
  obtain ⟨m, e, h1, _, h3, _⟩ := ofRat_spec h
  unfold rnd
  rw [h1]
  have := h3 hx
  show 0 ≤ ratOf m e
  rw [ratOf_zpow]; positivity

theorem rnd_nonpos {x : ℚ} (hx : x ≤ 0) (h : Fits x) : rnd x ≤ 0 := by
  rcases lt_or_eq_of_le hx with hx | hx
  · obtain ⟨m, e, h1, h2, _⟩ := ofRat_spec h
    unfold rnd
    rw [h1]
    have hm : (m : ℚ) ≤ 0 := by exact_mod_cast h2 hx
    show ratOf m e ≤ 0
    rw [ratOf_zpow]
    exact mul_nonpos_of_nonpos_of_nonneg hm (le_of_lt (two_zpow_pos _))
  · subst hx
    decide +kernel

/-- Rounding does not pass a representable value. -/
theorem rnd_le {x y : ℚ} (hy : Rep y) (hx : 0 ≤ x) (h : Fits x) (hxy : x ≤ y) : rnd x ≤ y := by
  obtain ⟨m, e, h1, _, h3, h4, _⟩ := ofRat_spec h
  have : rnd x = ratOf m e := by unfold rnd; rw [h1]; rfl
  rw [this]
  exact le_trans (le_abs_self _) (h4 y hy (by rwa [abs_of_nonneg hx]))

theorem le_rnd {x y : ℚ} (hy : Rep y) (hx : 0 ≤ x) (h : Fits x) (hxy : y ≤ x) : y ≤ rnd x := by
  obtain ⟨m, e, h1, _, h3, _, h5⟩ := ofRat_spec h
  have e1 : rnd x = ratOf m e := by unfold rnd; rw [h1]; rfl
  have := h5 y hy (by rwa [abs_of_nonneg hx])
  rw [← e1, abs_of_nonneg (rnd_nonneg hx h)] at this
  exact this

theorem rnd_neg {x : ℚ} (h : Fits x) : rnd (-x) = -rnd x := by
  obtain ⟨m, e, h1, _⟩ := roundRatio_mono x.den_pos (by unfold Fits at h; rwa [abs_eq_div] at h)
  have key : ∀ z : ℚ, z.num.natAbs = x.num.natAbs → z.den = x.den → rnd z = if z < 0 then -ratOf m e else ratOf m e := by
    intro z hz1 hz2
    unfold rnd F64.ofRat
    rw [hz1, hz2, h1]
    simp only [F64.val]
    split
    · rw [ratOf_neg]
    · rfl
  rw [key (-x) (by simp) (by simp), key x rfl rfl]
  rcases lt_trichotomy x 0 with hx | hx | hx
  · rw [if_neg (by linarith), if_pos hx, neg_neg]
  · subst hx
    have : rnd 0 = ratOf m e := by rw [key 0 rfl rfl]; simp
    have h0 : rnd 0 = 0 := by decide +kernel
    rw [← this, h0]; simp
  · rw [if_pos (by linarith), if_neg (by linarith)]

theorem rnd_of_rep {x : ℚ} (hx : Rep x) (h : Fits x) : rnd x = x :=
  le_antisymm (rnd_le hx hx.nonneg h (le_refl _)) (le_rnd hx hx.nonneg h (le_refl _))

/-- Numbers `p / 2^j`. -/
theorem rep_div {p j : Nat} (hp : p < 2 ^ 53) (hj : j ≤ 1074) : Rep ((p : ℚ) / 2 ^ j) := by
  refine ⟨p, -(j : Int), hp, by omega, ?_⟩
  rw [zpow_neg, zpow_natCast, div_eq_mul_inv]

theorem rep_nat {p : Nat} (hp : p < 2 ^ 53) : Rep (p : ℚ) := by
  refine ⟨p, 0, hp, by omega, ?_⟩
  rw [zpow_zero, mul_one]

/-- A sufficient bound. -/
theorem small {x : ℚ} (h1 : 0 ≤ x) (h2 : x < 2 ^ 100) : Fits x := by
  apply fits_of
  rwa [abs_of_nonneg h1]

/-- Integers below `2 ^ 53` are represented exactly, with the exponent 0. -/
theorem ofRat_int {n : Int} (h : n.natAbs < 2 ^ 53) : F64.ofRat (n : ℚ) = .fin n 0 := by
  unfold F64.ofRat roundRatio
  rw [Rat.num_intCast, Rat.den_intCast, if_pos ⟨Nat.mod_one _, by simpa using h⟩]
  simp only [Nat.div_one]
  split
  · next h0 =>
    have : n < 0 := by exact_mod_cast h0
    congr 1; omega
  · next h0 =>
    have : 0 ≤ n := by exact_mod_cast not_lt.mp h0
    congr 1; omega

theorem ofInt_small {n : Int} (h : n.natAbs < 2 ^ 53) : F64.ofInt n = .fin n 0 := by
  unfold F64.ofInt round53
  rw [if_pos h, Int.sign_mul_natAbs]

theorem log2_one : Nat.log2 1 = 0 := by decide

/-- The conversion of an integer is the rounding of its value. -/
theorem ofInt_eq_ofRat {n : Int} (h : n.natAbs < 2 ^ 64) : F64.ofInt n = F64.ofRat n := by
  rcases Nat.lt_or_ge n.natAbs (2 ^ 53) with hs | hs
  · rw [ofInt_small hs, ofRat_int hs]
  · unfold F64.ofInt round53 F64.ofRat roundRatio
    rw [Rat.num_intCast, Rat.den_intCast, if_neg (Nat.not_lt.mpr hs), if_neg (by rw [Nat.div_one]; omega)]
    simp only [log2_one]
    have hl : 53 ≤ Nat.log2 n.natAbs := by
      rw [Nat.le_log2 (by omega)]; exact hs
    have hl' : Nat.log2 n.natAbs < 64 := by
      rw [Nat.log2_lt (by omega)]; exact h
    have hself := Nat.log2_self_le (n := n.natAbs) (by omega)
    have hself' : n.natAbs < 2 ^ (Nat.log2 n.natAbs + 1) := Nat.lt_log2_self
    generalize Nat.log2 n.natAbs = l at *
    have e1 : (-((l : Int) - ((0 : Nat) : Int) - 53)).toNat = 0 := by omega
    have e2 : ((l : Int) - ((0 : Nat) : Int) - 53).toNat = l - 53 := by omega
    have hc : ¬ (n.natAbs * 2 ^ 0 < 2 ^ 53 * 1 * 2 ^ (l - 53)) := by
      have h2 : 2 ^ 53 * 1 * 2 ^ (l - 53) = 2 ^ l := by
        rw [Nat.mul_one, ← Nat.pow_add]; congr 1; omega
      rw [h2, Nat.pow_zero, Nat.mul_one]; exact Nat.not_lt.mpr hself
    rw [e1, e2, if_neg hc]
    have e3 : max ((l : Int) - ((0 : Nat) : Int) - 53 + 1) (-1074) = ((l - 52 : Nat) : Int) := by omega
    rw [e3, if_pos (by omega), Int.toNat_natCast, Nat.one_mul]
    set_option exponentiation.threshold 2000 in
    have hfit : halfEven n.natAbs (2 ^ (l - 52)) * 2 ^ (l - 52) < 2 ^ 1024 := by
      have h53 : halfEven n.natAbs (2 ^ (l - 52)) ≤ 2 ^ 53 := by
        apply halfEven_le (Nat.pow_pos (by omega))
        rw [← Nat.pow_add]
        have : 53 + (l - 52) = l + 1 := by omega
        rw [this]; exact Nat.le_of_lt hself'
      have h7 : halfEven n.natAbs (2 ^ (l - 52)) * 2 ^ (l - 52) ≤ 2 ^ (53 + (l - 52)) := by
        rw [Nat.pow_add]; exact Nat.mul_le_mul_right _ h53
      exact Nat.lt_of_le_of_lt h7 (Nat.pow_lt_pow_right (by omega) (by omega))
    rw [if_pos hfit]
    simp only []
    generalize halfEven n.natAbs (2 ^ (l - 52)) * 2 ^ (l - 52) = v
    rcases lt_or_ge n 0 with h0 | h0
    · rw [if_pos (by exact_mod_cast h0), Int.sign_eq_neg_one_of_neg h0]; congr 1; omega
    · rw [if_neg (by exact_mod_cast not_lt.mpr h0), Int.sign_eq_one_of_pos (by omega)]; congr 1; omega

/-- A quotient of integers rounded to float64 has the same integer part, if the quotient is small enough. -/
theorem floor_rnd_nat {y k j : Nat} (hk : 0 < k) (hkj : k ≤ 2 ^ j) (hj : j ≤ 53)
    (hb : (y / k + 1) * 2 ^ j ≤ 2 ^ 53) :
    ((y / k : Nat) : ℚ) ≤ rnd ((y : ℚ) / k) ∧ rnd ((y : ℚ) / k) < ((y / k : Nat) : ℚ) + 1 := by
  have hkq : (0 : ℚ) < k := by exact_mod_cast hk
  have hT : (0 : ℚ) < 2 ^ j := by positivity
  have hTn : 0 < 2 ^ j := Nat.pow_pos (by omega)
  have hdm := Nat.div_add_mod y k
  have hml := Nat.mod_lt y hk
  generalize hq : y / k = q at *
  generalize y % k = r at *
  have hx0 : (0 : ℚ) ≤ (y : ℚ) / k := by positivity
  have hyq : (y : ℚ) = k * q + r := by exact_mod_cast hdm.symm
  have hqb : q < 2 ^ 53 := by
    have : (q + 1) * 1 ≤ (q + 1) * 2 ^ j := Nat.mul_le_mul_left _ hTn
    omega
  have hlt : (y : ℚ) / k < q + 1 := by
    rw [div_lt_iff₀ hkq]
    have : (r : ℚ) < k := by exact_mod_cast hml
    nlinarith
  have hbig : (y : ℚ) / k < 2 ^ 100 := by
    have : (q : ℚ) < 2 ^ 53 := by exact_mod_cast hqb
    have h2 : (2 : ℚ) ^ 53 + 1 < 2 ^ 100 := by norm_num
    linarith
  have hs := small hx0 hbig
  constructor
  · apply le_rnd (rep_nat hqb) hx0 hs
    rw [le_div_iff₀ hkq, hyq]
    have : (0 : ℚ) ≤ r := by positivity
    linarith
  · have hp : 1 ≤ (q + 1) * 2 ^ j := Nat.mul_pos (by omega) hTn
    have hrep := rep_div (p := (q + 1) * 2 ^ j - 1) (j := j) (by omega) (by omega)
    have hcast : (((q + 1) * 2 ^ j - 1 : Nat) : ℚ) = ((q : ℚ) + 1) * 2 ^ j - 1 := by
      rw [Nat.cast_sub hp]; push_cast; ring
    have hle : (y : ℚ) / k ≤ (((q + 1) * 2 ^ j - 1 : Nat) : ℚ) / 2 ^ j := by
      rw [hcast, div_le_div_iff₀ hkq hT, hyq]
      have h1 : (r : ℚ) ≤ k - 1 := by
        have : ((r + 1 : Nat) : ℚ) ≤ (k : ℚ) := by exact_mod_cast hml
        push_cast at this; linarith
      have h2 : (k : ℚ) ≤ 2 ^ j := by exact_mod_cast hkj
      nlinarith
    have := rnd_le hrep hx0 hs hle
    rw [hcast] at this
    refine lt_of_le_of_lt this ?_
    rw [div_lt_iff₀ hT]
    linarith

/-- The same for the ceiling: the rounded quotient stays above the integer below it. -/
theorem ceil_rnd_nat {y k j : Nat} (hk : 0 < k) (hkj : k ≤ 2 ^ j) (hj : j ≤ 53) (hy : 0 < y)
    (hb : ((y - 1) / k + 1) * 2 ^ j ≤ 2 ^ 53) :
    (((y - 1) / k : Nat) : ℚ) < rnd ((y : ℚ) / k) ∧ rnd ((y : ℚ) / k) ≤ (((y - 1) / k : Nat) : ℚ) + 1 := by
  have hkq : (0 : ℚ) < k := by exact_mod_cast hk
  have hT : (0 : ℚ) < 2 ^ j := by positivity
  have hTn : 0 < 2 ^ j := Nat.pow_pos (by omega)
  have hdm := Nat.div_add_mod (y - 1) k
  have hml := Nat.mod_lt (y - 1) hk
  generalize hq : (y - 1) / k = q at *
  generalize (y - 1) % k = r at *
  have hx0 : (0 : ℚ) ≤ (y : ℚ) / k := by positivity
  have hyq : (y : ℚ) = k * q + r + 1 := by
    have : y = k * q + r + 1 := by omega
    exact_mod_cast this
  have hqb : q < 2 ^ 53 := by
    have : (q + 1) * 1 ≤ (q + 1) * 2 ^ j := Nat.mul_le_mul_left _ hTn
    omega
  have hrk : (r : ℚ) + 1 ≤ k := by exact_mod_cast hml
  have hr0 : (0 : ℚ) ≤ r := by positivity
  have hlt : (y : ℚ) / k ≤ q + 1 := by
    rw [div_le_iff₀ hkq]
    nlinarith
  have hbig : (y : ℚ) / k < 2 ^ 100 := by
    have : (q : ℚ) < 2 ^ 53 := by exact_mod_cast hqb
    have h2 : (2 : ℚ) ^ 53 + 1 < 2 ^ 100 := by norm_num
    linarith
  have hs := small hx0 hbig
  have hTq : (1 : ℚ) ≤ 2 ^ j := by exact_mod_cast hTn
  constructor
  · rcases Nat.eq_zero_or_pos j with hj0 | hj0
    · subst hj0
      have hk1 : k = 1 := by simp at hkj; omega
      subst hk1
      have hr : r = 0 := by omega
      subst hr
      have hyn : y = q + 1 := by omega
      have hrep : Rep ((y : ℚ) / ((1 : Nat) : ℚ)) := by
        rcases Nat.lt_or_ge y (2 ^ 53) with h | h
        · rw [Nat.cast_one, div_one]; exact rep_nat h
        · have : y = 2 ^ 53 := by simp at hb; omega
          refine ⟨1, 53, by norm_num, by norm_num, ?_⟩
          rw [this]; norm_num
      rw [rnd_of_rep hrep hs, hyn]
      push_cast
      simp
    · have hrep := rep_div (p := q * 2 ^ j + 1) (j := j) (by
        have h2 : 2 ≤ 2 ^ j := by
          calc 2 = 2 ^ 1 := rfl
            _ ≤ 2 ^ j := Nat.pow_le_pow_right (by omega) hj0
        have : (q + 1) * 2 ^ j = q * 2 ^ j + 2 ^ j := by rw [Nat.add_mul, Nat.one_mul]
        omega) (by omega)
      have hle : ((q * 2 ^ j + 1 : Nat) : ℚ) / 2 ^ j ≤ (y : ℚ) / k := by
        rw [div_le_div_iff₀ hT hkq, hyq]
        have h2 : (k : ℚ) ≤ 2 ^ j := by exact_mod_cast hkj
        push_cast
        nlinarith
      refine lt_of_lt_of_le ?_ (le_rnd hrep hx0 hs hle)
      rw [lt_div_iff₀ hT]
      push_cast
      linarith
  · have hrep : Rep ((q : ℚ) + 1) := by
      have : (q : ℚ) + 1 = ((q + 1 : Nat) : ℚ) := by push_cast; rfl
      rw [this]
      rcases Nat.lt_or_ge (q + 1) (2 ^ 53) with h | h
      · exact rep_nat h
      · have : q + 1 = 2 ^ 53 := by omega
        refine ⟨1, 53, by norm_num, by norm_num, ?_⟩
        rw [this]; norm_num
    exact rnd_le hrep hx0 hs hlt

theorem floor_eq {x : ℚ} {n : Int} (h1 : (n : ℚ) ≤ x) (h2 : x < n + 1) : x.floor = n := by
  have h3 : n ≤ x.floor := Rat.le_floor_iff.mpr h1
  have h4 : x.floor < n + 1 := Rat.floor_lt_iff.mpr (by push_cast; exact h2)
  omega

/-- `math.Floor(float64(y) / float64(k))`. -/
theorem floor_div {y : Int} {k j : Nat} (hk : 0 < k) (hkj : k ≤ 2 ^ j) (hj : j ≤ 52) (hy : y.natAbs < 2 ^ 53)
    (hb : (y.natAbs / k + 1) * 2 ^ j ≤ 2 ^ 53) :
    (F64.div (.fin y 0) (.ofInt k)).floor = .fin (y / k) 0 := by
  have hk53 : k < 2 ^ 53 := Nat.lt_of_le_of_lt hkj (Nat.pow_lt_pow_right (by omega) (by omega))
  rw [ofInt_small (by omega)]
  have hkq : (0 : ℚ) < k := by exact_mod_cast hk
  have h0 : ∀ n : Int, ratOf n 0 = n := fun n => by rw [ratOf_zpow, zpow_zero, mul_one]
  have hd : F64.div (.fin y 0) (.fin (k : Int) 0) = F64.ofRat ((y : ℚ) / k) := by
    show (if (k : Int) = 0 then _ else F64.ofRat (ratOf y 0 / ratOf k 0)) = _
    rw [if_neg (by omega), h0, h0]
    push_cast; rfl
  rw [hd]
  have habs : |(y : ℚ) / k| < 2 ^ 100 := by
    rw [abs_div, Nat.abs_cast, div_lt_iff₀ hkq]
    have h1 : |(y : ℚ)| < 2 ^ 53 := by
      have : ((y.natAbs : Nat) : ℚ) < 2 ^ 53 := by exact_mod_cast hy
      rwa [Nat.cast_natAbs, Int.cast_abs] at this
    have h2 : (1 : ℚ) ≤ k := by exact_mod_cast hk
    norm_num at h1 ⊢
    linarith
  obtain ⟨m, e, h1, h2⟩ := ofRat_fin (fits_of habs)
  rw [h1]
  show F64.fin (ratOf m e).floor 0 = _
  rw [h2]
  congr 1
  rcases Int.lt_or_le y 0 with hneg | hpos
  · -- negative
    obtain ⟨n, rfl⟩ : ∃ n : Nat, y = -(n : Int) := ⟨y.natAbs, by omega⟩
    have hn : 0 < n := by omega
    rw [Int.natAbs_neg, Int.natAbs_natCast] at hb hy
    have habs' : |(n : ℚ) / k| < 2 ^ 100 := by
      have : ((-(n : Int) : Int) : ℚ) / k = -((n : ℚ) / k) := by push_cast; ring
      rwa [this, abs_neg] at habs
    have e1 : ((-(n : Int) : Int) : ℚ) / k = -((n : ℚ) / k) := by push_cast; ring
    rw [e1, rnd_neg (fits_of habs')]
    have hb' : ((n - 1) / k + 1) * 2 ^ j ≤ 2 ^ 53 := by
      refine Nat.le_trans (Nat.mul_le_mul_right _ ?_) hb
      have := Nat.div_le_div_right (c := k) (Nat.sub_le n 1)
      omega
    obtain ⟨g1, g2⟩ := ceil_rnd_nat hk hkj (by omega) hn hb'
    have e2 : -(n : Int) / (k : Int) = -(((n - 1) / k : Nat) : Int) - 1 := by
      have hdm := Nat.div_add_mod (n - 1) k
      have hml := Nat.mod_lt (n - 1) hk
      generalize (n - 1) / k = q at *
      generalize (n - 1) % k = r at *
      have e3 : -(n : Int) = (k : Int) * (-(q : Int) - 1) + ((k : Int) - 1 - r) := by
        have : (n : Int) = k * q + r + 1 := by
          have : n = k * q + r + 1 := by omega
          exact_mod_cast this
        rw [this]; ring
      rw [e3, Int.add_comm, Int.add_mul_ediv_left _ _ (by omega), Int.ediv_eq_zero_of_lt (by omega) (by omega)]
      omega
    rw [e2]
    generalize (n - 1) / k = q at *
    apply floor_eq
    · push_cast; linarith
    · push_cast; linarith
  · obtain ⟨n, rfl⟩ := Int.eq_ofNat_of_zero_le hpos
    rw [Int.natAbs_natCast] at hb hy
    obtain ⟨g1, g2⟩ := floor_rnd_nat hk hkj (by omega) hb
    apply floor_eq
    · push_cast; exact_mod_cast g1
    · push_cast; exact_mod_cast g2

theorem ratOf_zero (n : Int) : ratOf n 0 = n := by rw [ratOf_zpow, zpow_zero, mul_one]

theorem sub_int {a b : Int} (h : (a - b).natAbs < 2 ^ 53) : F64.sub (.fin a 0) (.fin b 0) = .fin (a - b) 0 := by
  show F64.ofRat (ratOf a 0 + ratOf (-b) 0) = _
  rw [ratOf_zero, ratOf_zero, ← ofRat_int h]
  push_cast; ring_nf

theorem add_int {a b : Int} (h : (a + b).natAbs < 2 ^ 53) : F64.add (.fin a 0) (.fin b 0) = .fin (a + b) 0 := by
  show F64.ofRat (ratOf a 0 + ratOf b 0) = _
  rw [ratOf_zero, ratOf_zero, ← ofRat_int h]
  push_cast; rfl

theorem toInt64_int (oor : F64 → Int) {n : Int} (h : -(2 ^ 63) ≤ n) (h' : n < 2 ^ 63) : F64.toInt64 oor (.fin n 0) = n := by
  simp only [F64.toInt64, le_refl, if_true, Int.toNat_zero, pow_zero, mul_one]
  rw [if_pos ⟨h, h'⟩]

end Verif.Proofs.Go
