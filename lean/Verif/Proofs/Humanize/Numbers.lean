import Verif.Model.Humanize.Numbers
import Verif.Spec.Humanize
import Verif.Proofs.Calendar
namespace Verif.Proofs.Humanize
open Verif.Go Verif.Model.Humanize Verif.Spec.Humanize Verif.Proofs.Go Verif.Proofs.Calendar

theorem lt_fin (m e m' e' : Int) : F64.lt (.fin m e) (.fin m' e') = decide (ratOf m e < ratOf m' e') := rfl

theorem ratOf_nonneg {m e : Int} : 0 ≤ ratOf m e ↔ 0 ≤ m := by
  rw [ratOf_zpow]
  constructor
  · intro h
    by_contra hm
    have h1 : (m : ℚ) < 0 := by exact_mod_cast not_le.mp hm
    have := mul_neg_of_neg_of_pos h1 (two_zpow_pos e)
    linarith
  · intro h
    have h1 : (0 : ℚ) ≤ m := by exact_mod_cast h
    exact mul_nonneg h1 (two_zpow_pos e).le

theorem ratOf_abs (m e : Int) : ratOf m.natAbs e = |ratOf m e| := by
  rw [ratOf_zpow, ratOf_zpow, abs_mul, abs_of_pos (two_zpow_pos e)]
  congr 1
  rw [Int.natCast_natAbs, Int.cast_abs]

/-- A non-negative float64 without its fraction. -/
theorem trunc_floor {m e : Int} (hm : 0 ≤ m) :
    (if 0 ≤ e then m * 2 ^ e.toNat else m.tdiv (2 ^ (-e).toNat)) = (ratOf m e).floor := by
  symm
  unfold ratOf
  split
  · apply floor_eq <;> push_cast <;> linarith
  · rw [Int.tdiv_eq_ediv_of_nonneg hm]
    have hp : (0 : Int) < 2 ^ (-e).toNat := by positivity
    have hq : (0 : ℚ) < 2 ^ (-e).toNat := by positivity
    have e1 := Int.mul_ediv_add_emod m (2 ^ (-e).toNat)
    have e2 := Int.emod_nonneg m hp.ne'
    have e3 := Int.emod_lt_of_pos m hp
    generalize m / 2 ^ (-e).toNat = q at *
    generalize m % 2 ^ (-e).toNat = r at *
    have c1 : (m : ℚ) = 2 ^ (-e).toNat * q + r := by exact_mod_cast e1.symm
    have c2 : (0 : ℚ) ≤ r := by exact_mod_cast e2
    have c3 : (r : ℚ) < 2 ^ (-e).toNat := by exact_mod_cast e3
    apply floor_eq
    · rw [le_div_iff₀ hq]; nlinarith
    · rw [div_lt_iff₀ hq]; nlinarith

/-- The conversion of a non-negative float64 drops the fraction. -/
theorem toInt64_floor (oor : F64 → Int) {m e : Int} (hm : 0 ≤ m) (h : ratOf m e < 2 ^ 63) :
    F64.toInt64 oor (.fin m e) = (ratOf m e).floor := by
  have key := trunc_floor (e := e) hm
  have h0 : 0 ≤ (ratOf m e).floor := Rat.le_floor_iff.mpr (by simpa using ratOf_nonneg.mpr hm)
  have h1 : (ratOf m e).floor < 2 ^ 63 := Rat.floor_lt_iff.mpr (by push_cast; exact h)
  simp only [F64.toInt64, key]
  rw [if_pos ⟨by omega, h1⟩]

/-- Numbers from 2^63 on cannot be converted. -/
theorem toInt64_large (oor : F64 → Int) {m e : Int} (hm : 0 ≤ m) (h : 2 ^ 63 ≤ ratOf m e) :
    F64.toInt64 oor (.fin m e) = oor (.fin m e) := by
  have h1 : 2 ^ 63 ≤ (ratOf m e).floor := Rat.le_floor_iff.mpr (by push_cast; exact h)
  simp only [F64.toInt64, trunc_floor hm]
  rw [if_neg (by omega)]

theorem ordinal_table (d : Nat) (h : d < 10) : ordinalTemplates[d]? = some (b!"ordinal " ++ [UInt8.ofNat (48 + d)],
    b!"%v" ++ (if d = 1 then b!"st" else if d = 2 then b!"nd" else if d = 3 then b!"rd" else b!"th")) := by
  have key : ∀ d : Fin 10, ordinalTemplates[d.val]? = some (b!"ordinal " ++ [UInt8.ofNat (48 + d.val)],
      b!"%v" ++ (if d.val = 1 then b!"st" else if d.val = 2 then b!"nd" else if d.val = 3 then b!"rd" else b!"th")) := by
    decide +kernel
  exact key ⟨d, h⟩

/-- Ordinal once the integer is known. -/
theorem ordinal_nat (env : Env) (v : Val) (x : F64) (n : Nat) (hx : toNumber env.parse v = some x)
    (h0 : F64.lt x (.ofInt 0) = false) (hn : x.toInt64 env.oor = n) :
    ordinal env v = .ok (env.loc.pGetf (ordinalContext n) (b!"%v" ++ ordinalSuffix n) [.int n]) := by
  unfold ordinal
  simp only [hx, h0, hn, Bool.false_eq_true, if_false]
  have e1 : (n : Int).tmod 100 = ((n % 100 : Nat) : Int) := rfl
  have e2 : (n : Int).tmod 10 = ((n % 10 : Nat) : Int) := rfl
  rw [e1, e2]
  unfold ordinalContext ordinalSuffix
  by_cases ht : n % 100 = 11 ∨ n % 100 = 12 ∨ n % 100 = 13
  · rw [if_pos (by omega), if_pos ht, if_pos ht]; rfl
  · rw [if_neg (by omega), if_neg (by omega), if_neg ht, if_neg ht, Int.toNat_natCast,
      ordinal_table _ (Nat.mod_lt _ (by omega))]

theorem ordinal_total (env : Env) (v : Val) (h : ∀ x, F64.lt x (.ofInt 0) = false → 0 ≤ x.toInt64 env.oor) :
    ∃ t, ordinal env v = .ok t := by
  cases hx : toNumber env.parse v with
  | none => exact ⟨_, by unfold ordinal; simp only [hx]; rfl⟩
  | some x =>
    cases h0 : F64.lt x (.ofInt 0) with
    | true => exact ⟨_, by unfold ordinal; simp only [hx, h0, if_true]; rfl⟩
    | false =>
      obtain ⟨n, hn⟩ := Int.eq_ofNat_of_zero_le (h x h0)
      exact ⟨_, ordinal_nat env v x n hx h0 hn⟩

/-- Ordinal panics iff the last digit of the converted number is negative. -/
theorem ordinal_panics (env : Env) (v : Val) : (∃ f, ordinal env v = .error f) ↔
    ∃ x, toNumber env.parse v = some x ∧ F64.lt x (.ofInt 0) = false ∧ (x.toInt64 env.oor).tmod 10 < 0 := by
  unfold ordinal
  cases hx : toNumber env.parse v with
  | none => simp
  | some x =>
    simp only [Option.some.injEq, exists_eq_left']
    cases h0 : F64.lt x (.ofInt 0) with
    | true => simp
    | false =>
      simp only [Bool.false_eq_true, if_false, true_and]
      generalize x.toInt64 env.oor = n
      by_cases ht : n.tmod 100 = 11 ∨ n.tmod 100 = 12 ∨ n.tmod 100 = 13
      · rw [if_pos ht]
        simp only [reduceCtorEq, exists_false, false_iff]
        have hn : 0 ≤ n := by
          by_contra hneg
          have h1 := Int.neg_tmod (-n) 100
          rw [Int.neg_neg] at h1
          have := Int.tmod_nonneg 100 (a := -n) (by omega)
          omega
        have := Int.tmod_nonneg 10 hn
        omega
      · rw [if_neg ht]
        by_cases hl : n.tmod 10 < 0
        · rw [if_pos hl]; simp [hl]
        · rw [if_neg hl, ordinal_table _ (by have := Int.tmod_lt_of_pos n (b := 10) (by omega); omega)]
          simp [hl]

/-- Apnumber once the integer is known. -/
theorem apnumber_int (env : Env) (v : Val) (x : F64) (hx : toNumber env.parse v = some x) :
    apnumber env v = .ok (if 1 ≤ x.toInt64 env.oor ∧ x.toInt64 env.oor ≤ 9 then
      env.loc.get (numberWord (x.toInt64 env.oor)) else env.loc.print b!"%d" [.int (x.toInt64 env.oor)]) := by
  unfold apnumber
  simp only [hx]
  generalize x.toInt64 env.oor = n
  have key : ∀ d : Fin 9, apnumbers[d.val]? = some (numberWord (d.val + 1)) := by decide +kernel
  by_cases h : 1 ≤ n ∧ n ≤ 9
  · rw [if_neg (by omega), if_pos h]
    have := key ⟨(n - 1).toNat, by omega⟩
    have e : (((n - 1).toNat : Nat) : Int) + 1 = n := by omega
    simp only [e] at this
    rw [this]
  · rw [if_pos (by omega), if_neg h]

theorem val_num (n : Int) (h : n.natAbs < 2 ^ 53) (parse) : toNumber parse (.int n) = some (.fin n 0) := by
  show some (F64.ofInt n) = _
  rw [ofInt_small h]

theorem lt_zero_int (n : Int) : F64.lt (.fin n 0) (.ofInt 0) = decide (n < 0) := by
  rw [ofInt_small (by omega), lt_fin, ratOf_zero, ratOf_zero]
  norm_num

/-! ## Sizes -/

theorem sizeText_small (env : Env) (n : Nat) (h : n < 2 ^ 10) :
    sizeText env n = env.loc.nGetf b!"%[1]d byte" b!"%[1]d bytes" n [.int n] := by
  unfold sizeText
  have h0 : ¬ (n : Int) < 0 := by omega
  simp only [h0, decide_false, Bool.false_eq_true, if_false]
  rw [if_pos (by omega)]

theorem largestUnit (u : Nat) (name : Bytes) (n : Nat) (hm : (u, name) ∈ sizeUnits) (h : u ≤ n)
    (h' : n < 2 ^ 10 * u ∨ u = 2 ^ 50) : LargestUnit u name n := by
  refine ⟨hm, h, ?_⟩
  intro p hp hpn
  have h1 : ∀ q ∈ sizeUnits, ∀ p ∈ sizeUnits, p.1 ≤ q.1 ∨ 2 ^ 10 * q.1 ≤ p.1 := by decide +kernel
  have h2 : ∀ p ∈ sizeUnits, p.1 ≤ 2 ^ 50 := by decide +kernel
  have := h1 _ hm p hp
  have := h2 p hp
  simp only at *
  omega

theorem sizeText_unit (env : Env) (n : Nat) (h : 2 ^ 10 ≤ n) :
    ∃ (u : Nat) (name : Bytes), LargestUnit u name n ∧
      sizeText env n = env.loc.getf (b!"%s " ++ name)
        [.str (env.loc.print b!"%v" [.decimal (F64.div (.ofInt n) (.ofInt u)) 1])] := by
  unfold sizeText
  have h0 : ¬ (n : Int) < 0 := by omega
  simp only [h0, decide_false, Bool.false_eq_true, if_false]
  rw [if_neg (by omega)]
  by_cases h1 : n < 2 ^ 20
  · rw [if_pos (by omega)]
    exact ⟨2 ^ 10, b!"KB", largestUnit _ _ _ (by decide) (by omega) (by omega), rfl⟩
  rw [if_neg (by omega)]
  by_cases h2 : n < 2 ^ 30
  · rw [if_pos (by omega)]
    exact ⟨2 ^ 20, b!"MB", largestUnit _ _ _ (by decide) (by omega) (by omega), rfl⟩
  rw [if_neg (by omega)]
  by_cases h3 : n < 2 ^ 40
  · rw [if_pos (by omega)]
    exact ⟨2 ^ 30, b!"GB", largestUnit _ _ _ (by decide) (by omega) (by omega), rfl⟩
  rw [if_neg (by omega)]
  by_cases h4 : n < 2 ^ 50
  · rw [if_pos (by omega)]
    exact ⟨2 ^ 40, b!"TB", largestUnit _ _ _ (by decide) (by omega) (by omega), rfl⟩
  rw [if_neg (by omega)]
  exact ⟨2 ^ 50, b!"PB", largestUnit _ _ _ (by decide) (by omega) (by omega), rfl⟩

theorem sizeText_neg (env : Env) (n : Nat) (h0 : 0 < n) (h : n < 2 ^ 63) :
    sizeText env (-(n : Int)) = b!"-" ++ sizeText env n := by
  have h1 : -(n : Int) < 0 := by omega
  have h2 : ¬ (n : Int) < 0 := by omega
  have e : wrap64 (- -(n : Int)) = n := by rw [Int.neg_neg]; exact wrap64_id (by omega) (by omega)
  unfold sizeText
  simp only [h1, h2, decide_true, decide_false, if_true, Bool.false_eq_true, if_false, e]

theorem unit_pow (u : Nat) (name : Bytes) (h : (u, name) ∈ sizeUnits) : ∃ j : Nat, j ≤ 50 ∧ u = 2 ^ j := by
  have : ∀ p ∈ sizeUnits, p.1 = 2 ^ 10 ∨ p.1 = 2 ^ 20 ∨ p.1 = 2 ^ 30 ∨ p.1 = 2 ^ 40 ∨ p.1 = 2 ^ 50 := by
    decide +kernel
  rcases this _ h with h | h | h | h | h
  · exact ⟨10, by omega, h⟩
  · exact ⟨20, by omega, h⟩
  · exact ⟨30, by omega, h⟩
  · exact ⟨40, by omega, h⟩
  · exact ⟨50, by omega, h⟩

/-- Below `2 ^ 53` the quotient by a unit is exact. -/
theorem quotient_exact (u : Nat) (name : Bytes) (n : Nat) (hu : (u, name) ∈ sizeUnits) (h : n < 2 ^ 53) :
    IsValue (F64.div (.ofInt n) (.ofInt u)) ((n : ℚ) / u) := by
  obtain ⟨j, hj, rfl⟩ := unit_pow u name hu
  have hj53 : 2 ^ j < 2 ^ 53 := Nat.pow_lt_pow_right (by omega) (by omega)
  rw [ofInt_small (by omega), ofInt_small (n := ((2 ^ j : Nat) : Int)) (by rw [Int.natAbs_natCast]; exact hj53)]
  have hne : ¬ ((2 ^ j : Nat) : Int) = 0 := by positivity
  show IsValue (if ((2 ^ j : Nat) : Int) = 0 then _ else F64.ofRat (ratOf n 0 / ratOf ((2 ^ j : Nat) : Int) 0)) _
  rw [if_neg hne, ratOf_zero, ratOf_zero]
  have e : (((n : Nat) : Int) : ℚ) / (((2 ^ j : Nat) : Int) : ℚ) = (n : ℚ) / 2 ^ j := by push_cast; rfl
  have hq : (1 : ℚ) ≤ 2 ^ j := one_le_pow₀ (by norm_num)
  have hn : (n : ℚ) < 2 ^ 53 := by exact_mod_cast h
  have hfit : Fits ((n : ℚ) / 2 ^ j) := by
    apply small
    · positivity
    · rw [div_lt_iff₀ (by positivity)]
      nlinarith
  rw [e]
  obtain ⟨m, k, h1, h2⟩ := ofRat_fin hfit
  refine ⟨m, k, h1, ?_⟩
  rw [h2, rnd_of_rep (rep_div h (by omega)) hfit]
  push_cast
  rfl

/-! ## Power words -/

theorem largestPower (e : Nat) (word : Bytes) (r : ℚ) (hm : (e, word) ∈ powerWords) (h : (10 : ℚ) ^ e ≤ r)
    (h' : r < 10 ^ (e + 3)) : LargestPower e word r := by
  refine ⟨hm, h, ?_⟩
  intro p hp hpr
  have h1 : ∀ q ∈ powerWords, ∀ p ∈ powerWords, p.1 ≤ q.1 ∨ q.1 + 3 ≤ p.1 := by decide +kernel
  rcases h1 _ hm p hp with h2 | h2
  · exact h2
  · have : (10 : ℚ) ^ (e + 3) ≤ 10 ^ p.1 := pow_le_pow_right₀ (by norm_num) h2
    linarith

/-- Floats above `2 ^ (52 + j)` are multiples of `2 ^ j`. -/
theorem rep_multiple {y : ℚ} (h : Rep y) (j : Nat) (hj : (2 : ℚ) ^ (52 + j) ≤ y) : ∃ n : Nat, y = n * 2 ^ j := by
  obtain ⟨p, k, hp, _, rfl⟩ := h
  have hpq : (p : ℚ) < 2 ^ 53 := by exact_mod_cast hp
  have hk : (j : Int) ≤ k := by
    by_contra hc
    have h1 : k + 1 ≤ j := by omega
    have h2 : (2 : ℚ) ^ (k + 1) ≤ 2 ^ (j : Int) := zpow_le_zpow_right₀ (by norm_num) h1
    rw [zpow_natCast, zpow_add₀ (by norm_num), zpow_one] at h2
    have h3 := two_zpow_pos k
    rw [pow_add] at hj
    nlinarith
  obtain ⟨d, hd⟩ := Int.eq_ofNat_of_zero_le (show 0 ≤ k - j by omega)
  have e : k = (d : Int) + (j : Int) := by omega
  refine ⟨p * 2 ^ d, ?_⟩
  rw [e, zpow_add₀ (by norm_num), zpow_natCast, zpow_natCast]
  push_cast
  ring

/-- The multiple of `2 ^ j` next above. -/
theorem gap {y : ℚ} (hy : Rep y) (j n : Nat) (h52 : (2 : ℚ) ^ (52 + j) ≤ y) (hlow : ((n : ℚ) - 1) * 2 ^ j < y) :
    (n : ℚ) * 2 ^ j ≤ y := by
  obtain ⟨q, rfl⟩ := rep_multiple hy j h52
  have hp : (0 : ℚ) < 2 ^ j := by positivity
  have h1 : ((n : ℚ) - 1) < q := by
    by_contra hc
    have := mul_le_mul_of_nonneg_right (not_lt.mp hc) hp.le
    linarith
  have h2 : n ≤ q := by
    have : (n : ℚ) < q + 1 := by linarith
    have : n < q + 1 := by exact_mod_cast this
    omega
  have h3 : (n : ℚ) ≤ q := by exact_mod_cast h2
  exact mul_le_mul_of_nonneg_right h3 hp.le

theorem gap27 {y : ℚ} (hy : Rep y) (h : y < 1000000000000000013287555072) : y < 10 ^ 27 := by
  by_contra hc
  have := gap hy 37 7275957614183426 (by norm_num at hc ⊢; linarith) (by norm_num at hc ⊢; linarith)
  norm_num at this
  linarith

theorem gap30 {y : ℚ} (hy : Rep y) (h : y < 1000000000000000019884624838656) : y < 10 ^ 30 := by
  by_contra hc
  have := gap hy 47 7105427357601002 (by norm_num at hc ⊢; linarith) (by norm_num at hc ⊢; linarith)
  norm_num at this
  linarith

theorem gap33 {y : ℚ} (hy : Rep y) (h : y < 1000000000000000089690419062898688) : y < 10 ^ 33 := by
  by_contra hc
  have := gap hy 57 6938893903907229 (by norm_num at hc ⊢; linarith) (by norm_num at hc ⊢; linarith)
  norm_num at this
  linarith

theorem gap24 {y : ℚ} (hy : Rep y) (h : 999999999999999983222784 ≤ y) (hne : y ≠ 999999999999999983222784) : 10 ^ 24 ≤ y := by
  have h1 : (999999999999999983222784 : ℚ) < y := lt_of_le_of_ne h (Ne.symm hne)
  have := gap hy 27 7450580596923829 (by norm_num; linarith) (by norm_num; linarith)
  norm_num at this ⊢
  linarith

/-- The bounds of the loop. -/
theorem bounds :
    F64.mul (F64.pow10 6) (.ofInt 1000) = .fin 1000000000 0 ∧
    F64.mul (F64.pow10 9) (.ofInt 1000) = .fin 1000000000000 0 ∧
    F64.mul (F64.pow10 12) (.ofInt 1000) = .fin 1000000000000000 0 ∧
    F64.mul (F64.pow10 15) (.ofInt 1000) = .fin 1000000000000000000 0 ∧
    F64.mul (F64.pow10 18) (.ofInt 1000) = .fin 1000000000000000000000 0 ∧
    F64.mul (F64.pow10 21) (.ofInt 1000) = .fin 999999999999999983222784 0 ∧
    F64.mul (F64.pow10 24) (.ofInt 1000) = .fin 1000000000000000013287555072 0 ∧
    F64.mul (F64.pow10 27) (.ofInt 1000) = .fin 1000000000000000019884624838656 0 ∧
    F64.mul (F64.pow10 30) (.ofInt 1000) = .fin 1000000000000000089690419062898688 0 ∧
    F64.mul (F64.pow10 33) (.ofInt 1000) = .fin 1000000000000000042420637374017961984 0 := by
  decide +kernel

/-- The text for a power word. -/
def wordText (env : Env) (x : F64) (e : Nat) (word : Bytes) : Bytes :=
  env.loc.nGetf (b!"%[1]s " ++ word) (b!"%[1]s " ++ word) (intwordCount env.oor (F64.div x (F64.pow10 e)))
    [.str (env.loc.print b!"%.1f" [.float (F64.div x (F64.pow10 e))])]

theorem intword_word (env : Env) (v : Val) (m e : Int) (hx : toNumber env.parse v = some (.fin m e))
    (hrep : Rep |ratOf m e|) (h6 : 10 ^ 6 ≤ |ratOf m e|) (h36 : |ratOf m e| < 10 ^ 36)
    (hne : |ratOf m e| ≠ 999999999999999983222784) :
    ∃ (k : Nat) (word : Bytes), LargestPower k word |ratOf m e| ∧ intword env v = wordText env (.fin m e) k word := by
  obtain ⟨b6, b9, b12, b15, b18, b21, b24, b27, b30, b33⟩ := bounds
  unfold intword
  have e0 : F64.ofInt 1000000 = .fin 1000000 0 := ofInt_small (by omega)
  simp only [hx, e0, F64.abs, lt_fin, ratOf_abs, ratOf_zero, decide_eq_true_eq, intwordConverters]
  have g24 := gap24 hrep
  have g27 := gap27 hrep
  have g30 := gap30 hrep
  have g33 := gap33 hrep
  generalize hr : |ratOf m e| = r at *
  rw [if_neg (by push_cast; norm_num at h6 ⊢; linarith)]
  rw [intwordLoop]
  simp only [b6, F64.abs, lt_fin, ratOf_abs, ratOf_zero, decide_eq_true_eq, hr]
  by_cases c6 : r < ((1000000000 : Int) : ℚ)
  · rw [if_pos c6]
    exact ⟨6, b!"million", largestPower _ _ _ (by decide) h6 (by push_cast at c6; norm_num at c6 ⊢; linarith), rfl⟩
  rw [if_neg c6]
  rw [intwordLoop]
  simp only [b9, F64.abs, lt_fin, ratOf_abs, ratOf_zero, decide_eq_true_eq, hr]
  by_cases c9 : r < ((1000000000000 : Int) : ℚ)
  · rw [if_pos c9]
    exact ⟨9, b!"billion", largestPower _ _ _ (by decide) (by push_cast at c6; norm_num at c6 ⊢; linarith) (by push_cast at c9; norm_num at c9 ⊢; linarith), rfl⟩
  rw [if_neg c9]
  rw [intwordLoop]
  simp only [b12, F64.abs, lt_fin, ratOf_abs, ratOf_zero, decide_eq_true_eq, hr]
  by_cases c12 : r < ((1000000000000000 : Int) : ℚ)
  · rw [if_pos c12]
    exact ⟨12, b!"trillion", largestPower _ _ _ (by decide) (by push_cast at c9; norm_num at c9 ⊢; linarith) (by push_cast at c12; norm_num at c12 ⊢; linarith), rfl⟩
  rw [if_neg c12]
  rw [intwordLoop]
  simp only [b15, F64.abs, lt_fin, ratOf_abs, ratOf_zero, decide_eq_true_eq, hr]
  by_cases c15 : r < ((1000000000000000000 : Int) : ℚ)
  · rw [if_pos c15]
    exact ⟨15, b!"quadrillion", largestPower _ _ _ (by decide) (by push_cast at c12; norm_num at c12 ⊢; linarith) (by push_cast at c15; norm_num at c15 ⊢; linarith), rfl⟩
  rw [if_neg c15]
  rw [intwordLoop]
  simp only [b18, F64.abs, lt_fin, ratOf_abs, ratOf_zero, decide_eq_true_eq, hr]
  by_cases c18 : r < ((1000000000000000000000 : Int) : ℚ)
  · rw [if_pos c18]
    exact ⟨18, b!"quintillion", largestPower _ _ _ (by decide) (by push_cast at c15; norm_num at c15 ⊢; linarith) (by push_cast at c18; norm_num at c18 ⊢; linarith), rfl⟩
  rw [if_neg c18]
  rw [intwordLoop]
  simp only [b21, F64.abs, lt_fin, ratOf_abs, ratOf_zero, decide_eq_true_eq, hr]
  by_cases c21 : r < ((999999999999999983222784 : Int) : ℚ)
  · rw [if_pos c21]
    exact ⟨21, b!"sextillion", largestPower _ _ _ (by decide) (by push_cast at c18; norm_num at c18 ⊢; linarith) (by push_cast at c21; norm_num at c21 ⊢; linarith), rfl⟩
  rw [if_neg c21]
  rw [intwordLoop]
  simp only [b24, F64.abs, lt_fin, ratOf_abs, ratOf_zero, decide_eq_true_eq, hr]
  by_cases c24 : r < ((1000000000000000013287555072 : Int) : ℚ)
  · rw [if_pos c24]
    exact ⟨24, b!"septillion", largestPower _ _ _ (by decide) (g24 (by push_cast at c21; linarith) hne) (g27 (by push_cast at c24; exact c24)), rfl⟩
  rw [if_neg c24]
  rw [intwordLoop]
  simp only [b27, F64.abs, lt_fin, ratOf_abs, ratOf_zero, decide_eq_true_eq, hr]
  by_cases c27 : r < ((1000000000000000019884624838656 : Int) : ℚ)
  · rw [if_pos c27]
    exact ⟨27, b!"octillion", largestPower _ _ _ (by decide) (by push_cast at c24; norm_num at c24 ⊢; linarith) (g30 (by push_cast at c27; exact c27)), rfl⟩
  rw [if_neg c27]
  rw [intwordLoop]
  simp only [b30, F64.abs, lt_fin, ratOf_abs, ratOf_zero, decide_eq_true_eq, hr]
  by_cases c30 : r < ((1000000000000000089690419062898688 : Int) : ℚ)
  · rw [if_pos c30]
    exact ⟨30, b!"nonillion", largestPower _ _ _ (by decide) (by push_cast at c27; norm_num at c27 ⊢; linarith) (g33 (by push_cast at c30; exact c30)), rfl⟩
  rw [if_neg c30]
  rw [intwordLoop]
  simp only [b33, F64.abs, lt_fin, ratOf_abs, ratOf_zero, decide_eq_true_eq, hr]
  rw [if_pos (by push_cast; norm_num at h36 ⊢; linarith)]
  have l : (10 : ℚ) ^ 33 ≤ r := by push_cast at c30; norm_num; linarith
  exact ⟨33, b!"decillion", largestPower _ _ _ (by decide) l h36, rfl⟩

end Verif.Proofs.Humanize
