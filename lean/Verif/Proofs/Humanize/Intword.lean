import Verif.Proofs.Humanize.Numbers
/-! The number that selects the plural form of Intword. -/
namespace Verif.Proofs.Humanize.Intword
open Verif.Go Verif.Model.Humanize Verif.Proofs.Go Verif.Proofs.Humanize Verif.Spec.Humanize

theorem rep_scaled {h : Nat} {e : Int} (hle : h ≤ 2 ^ 53) (he : -1074 ≤ e) : Rep ((h : ℚ) * 2 ^ e) := by
  rcases Nat.lt_or_eq_of_le hle with h1 | h1
  · exact ⟨h, e, h1, he, rfl⟩
  · refine ⟨2 ^ 52, e + 1, by norm_num, by omega, ?_⟩
    rw [h1, zpow_add₀ (by norm_num), zpow_one]
    push_cast
    ring

/-- What rounding returns is a float64. -/
theorem roundRatio_rep {a d : Nat} (hd : 0 < d) {m e : Int} (hr : roundRatio a d = some (.fin m e)) : Rep (ratOf m e) := by
  unfold roundRatio at hr
  by_cases hex : a % d = 0 ∧ a / d < 2 ^ 53
  · rw [if_pos hex] at hr
    cases hr
    rw [ratOf_zero]
    exact_mod_cast rep_nat hex.2
  · rw [if_neg hex] at hr
    simp only [] at hr
    have ha : 0 < a := by
      rcases Nat.eq_zero_or_pos a with rfl | h
      · simp at hex
      · exact h
    generalize he1 : (if a * 2 ^ (-((Nat.log2 a : Int) - Nat.log2 d - 53)).toNat <
      2 ^ 53 * d * 2 ^ ((Nat.log2 a : Int) - Nat.log2 d - 53).toNat then
        (Nat.log2 a : Int) - Nat.log2 d - 53 else (Nat.log2 a : Int) - Nat.log2 d - 53 + 1) = e1 at hr
    obtain ⟨hlo, hhi⟩ := exponent_spec ha hd e1 he1.symm
    generalize hem : max e1 (-1074) = x at hr
    have hele : e1 ≤ x := by omega
    have he1074 : -1074 ≤ x := by omega
    have hhi' : (a : ℚ) / d < 2 ^ (53 + x) :=
      lt_of_lt_of_le hhi (zpow_le_zpow_right₀ (by norm_num) (by omega))
    generalize hh : (if 0 ≤ x then halfEven a (d * 2 ^ x.toNat) else halfEven (a * 2 ^ (-x).toNat) d) = h
    obtain ⟨hup, _⟩ := halfEven_zpow (a := a) hd x h hh.symm
    have hle53 : h ≤ 2 ^ 53 := by
      apply hup
      push_cast
      rw [zpow_add₀ (by norm_num), show (2 : ℚ) ^ (53 : Int) = 2 ^ 53 from by norm_num] at hhi'
      exact le_of_lt hhi'
    have hs := rep_scaled hle53 he1074
    rcases le_or_gt 0 x with h0 | h0
    · rw [if_pos h0] at hh hr
      rw [hh] at hr
      split at hr
      · cases hr
        rw [ratOf_zero]
        obtain ⟨n, rfl⟩ := Int.eq_ofNat_of_zero_le h0
        rw [zpow_natCast] at hs
        rw [Int.toNat_natCast]
        push_cast
        exact hs
      · cases hr
    · rw [if_neg (by omega)] at hh hr
      rw [hh] at hr
      cases hr
      rw [ratOf_zpow]
      exact_mod_cast hs

/-- A rounded number is a float64, on the same side of 1 and of every representable bound. -/
theorem ofRat_rep {x : ℚ} (h : Fits x) :
    ∃ m e : Int, F64.ofRat x = .fin m e ∧ (x < 0 → ratOf m e ≤ 0) ∧ (0 ≤ x → 0 ≤ ratOf m e) ∧ Rep |ratOf m e| ∧
      (∀ y, Rep y → |x| ≤ y → |ratOf m e| ≤ y) ∧ (∀ y, Rep y → y ≤ |x| → y ≤ |ratOf m e|) := by
  obtain ⟨m, e, h1, h2, h3, h4, h5⟩ := ofRat_spec h
  refine ⟨m, e, h1, ?_, fun hx => ratOf_nonneg.mpr (h3 hx), ?_, h4, h5⟩
  · intro hx
    have hm : (m : ℚ) ≤ 0 := by exact_mod_cast h2 hx
    rw [ratOf_zpow]
    exact mul_nonpos_of_nonpos_of_nonneg hm (le_of_lt (two_zpow_pos _))
  · unfold F64.ofRat at h1
    split at h1
    · rename_i m' e' hr
      have hrep := roundRatio_rep x.den_pos hr
      injection h1 with hm he
      subst he
      have : |ratOf m e'| = |ratOf m' e'| := by
        rw [← hm]
        split
        · rw [ratOf_neg, abs_neg]
        · rfl
      rw [this, abs_of_nonneg hrep.nonneg]
      exact hrep
    · cases h1

/-- From 1 on, one can be subtracted exactly. -/
theorem rep_sub_one {q : ℚ} (h : Rep q) (h1 : 1 ≤ q) (h2 : q < 2 ^ 53) : Rep (q - 1) := by
  obtain ⟨p, k, hp, hk, rfl⟩ := h
  have hpos := two_zpow_pos k
  rcases le_or_gt 0 k with h0 | h0
  · obtain ⟨n, rfl⟩ := Int.eq_ofNat_of_zero_le h0
    rw [zpow_natCast] at h1 h2 ⊢
    have e1 : (p : ℚ) * 2 ^ n = ((p * 2 ^ n : Nat) : ℚ) := by push_cast; rfl
    rw [e1] at h1 h2 ⊢
    have h3 : 1 ≤ p * 2 ^ n := by exact_mod_cast h1
    have h4 : p * 2 ^ n < 2 ^ 53 := by exact_mod_cast h2
    have := rep_nat (p := p * 2 ^ n - 1) (by omega)
    rw [Nat.cast_sub h3] at this
    exact_mod_cast this
  · obtain ⟨n, hn⟩ := Int.eq_ofNat_of_zero_le (show 0 ≤ -k by omega)
    have hk' : k = -(n : Int) := by omega
    subst hk'
    have hp2 : (0 : ℚ) < 2 ^ n := by positivity
    rw [zpow_neg, zpow_natCast] at h1 ⊢
    have h3 : (2 : ℚ) ^ n ≤ p := by
      rw [← div_eq_mul_inv, le_div_iff₀ hp2, one_mul] at h1
      exact h1
    have h4 : 2 ^ n ≤ p := by exact_mod_cast h3
    refine ⟨p - 2 ^ n, -(n : Int), Nat.lt_of_le_of_lt (Nat.sub_le _ _) hp, hk, ?_⟩
    rw [Nat.cast_sub h4, zpow_neg, zpow_natCast]
    push_cast
    field_simp

theorem ceil_eq {x : ℚ} {n : Int} (h1 : (n : ℚ) - 1 < x) (h2 : x ≤ n) : x.ceil = n := by
  rw [Rat.ceil_eq_neg_floor_neg, floor_eq (n := -n) (by push_cast; linarith) (by push_cast; linarith), neg_neg]

theorem ceil_bounds (x : ℚ) : (x.ceil : ℚ) - 1 < x ∧ x ≤ x.ceil := by
  have h1 := Rat.floor_le (-x)
  have h2 := Rat.lt_floor_add_one (-x)
  rw [Rat.ceil_eq_neg_floor_neg]
  push_cast at *
  constructor <;> linarith

/-- The count is the magnitude, rounded up. -/
theorem count_eq (oor : F64 → Int) {m e : Int} (hr : Rep |ratOf m e|) (h1 : 1 ≤ |ratOf m e|) (h2 : |ratOf m e| ≤ 2 ^ 50) :
    intwordCount oor (.fin m e) = |ratOf m e|.ceil := by
  unfold intwordCount
  have e1 : F64.sub (.fin m e) (.ofInt 1) = F64.ofRat (ratOf m e - 1) := by
    rw [ofInt_small (by decide)]
    unfold F64.sub
    simp only [F64.negate, F64.add]
    rw [ratOf_zero]
    congr 1
    push_cast
    ring
  rw [e1]
  simp only []
  generalize hq : ratOf m e = q at *
  obtain ⟨cb1, cb2⟩ := ceil_bounds |q|
  have hc1 : (1 : ℤ) ≤ |q|.ceil := by
    have : ((0 : ℤ) : ℚ) < |q|.ceil := by push_cast; linarith
    have : 0 < |q|.ceil := by exact_mod_cast this
    omega
  have hc2 : |q|.ceil ≤ 2 ^ 50 := by
    have : (|q|.ceil : ℚ) < ((2 ^ 50 + 1 : ℤ) : ℚ) := by push_cast; linarith
    have : |q|.ceil < 2 ^ 50 + 1 := by exact_mod_cast this
    omega
  have hf : Fits (q - 1) := fits_of (by
    have h3 := abs_sub q 1
    have : |(1 : ℚ)| = 1 := abs_one
    have : (2 : ℚ) ^ 50 + 1 < 2 ^ 100 := by norm_num
    linarith)
  rcases le_or_gt 0 q with h0 | h0
  · rw [abs_of_nonneg h0] at *
    have hrep := rep_sub_one hr h1 (lt_of_le_of_lt h2 (by norm_num))
    obtain ⟨m', e', h3, h4⟩ := ofRat_fin hf
    rw [rnd_of_rep hrep hf] at h4
    rw [h3]
    simp only [F64.ceil, h4]
    have h5 : (q - 1).ceil = q.ceil - 1 := ceil_eq (by push_cast; linarith) (by push_cast; linarith)
    rw [h5, toInt64_int oor (by omega) (by omega)]
    have h6 : wrap64 (q.ceil - 1 + 1) = q.ceil := by
      unfold wrap64
      omega
    rw [h6, if_neg (by omega)]
  · obtain ⟨m', e', h3, h4, _, _, h5, h6⟩ := ofRat_rep hf
    have ha : |q| = -q := abs_of_neg h0
    have hb : |q - 1| = -q + 1 := by rw [abs_of_neg (by linarith)]; ring
    rw [hb] at h5 h6
    rw [ha] at hr h1 h2 cb1 cb2 hc1 hc2 ⊢
    have hn : ratOf m' e' ≤ 0 := h4 (by linarith)
    rw [abs_of_nonpos hn] at h5 h6
    have h7 := h6 2 (by exact_mod_cast rep_nat (p := 2) (by norm_num)) (by linarith)
    have h8 := h5 (2 ^ 51) (by exact_mod_cast rep_nat (p := 2 ^ 51) (by norm_num)) (by norm_num at h2 ⊢; linarith)
    rw [h3]
    simp only [F64.ceil]
    obtain ⟨c1, c2⟩ := ceil_bounds (ratOf m' e')
    obtain ⟨c, hc⟩ : ∃ c, (ratOf m' e').ceil = c := ⟨_, rfl⟩
    simp only [hc] at c1 c2 ⊢
    have c3 : c ≤ -2 := by
      have : (c : ℚ) < ((-1 : ℤ) : ℚ) := by push_cast; linarith
      have : c < -1 := by exact_mod_cast this
      omega
    have c4 : -(2 ^ 51) ≤ c := by
      have : ((-(2 ^ 51) : ℤ) : ℚ) ≤ c := by push_cast; linarith
      exact_mod_cast this
    rw [toInt64_int oor (by omega) (by omega)]
    have c5 : wrap64 (c + 1) = c + 1 := by unfold wrap64; omega
    rw [c5, if_pos (by omega)]
    simp only [F64.floor, F64.abs, hq]
    have c6 : q.floor = -(-q).ceil := by
      rw [Rat.ceil_eq_neg_floor_neg, neg_neg, neg_neg]
    rw [c6]
    have c7 : ((-(-q).ceil).natAbs : Int) = (-q).ceil := by omega
    rw [c7, toInt64_int oor (by omega) (by omega)]

/-- The powers that the loop divides by. -/
theorem powers :
    F64.pow10 6 = .fin 1000000 0 ∧ F64.pow10 9 = .fin 1000000000 0 ∧ F64.pow10 12 = .fin 1000000000000 0 ∧
    F64.pow10 15 = .fin 1000000000000000 0 ∧ F64.pow10 18 = .fin 1000000000000000000 0 ∧
    F64.pow10 21 = .fin 1000000000000000000000 0 ∧ F64.pow10 24 = .fin 999999999999999983222784 0 ∧
    F64.pow10 27 = .fin 1000000000000000013287555072 0 ∧ F64.pow10 30 = .fin 1000000000000000019884624838656 0 ∧
    F64.pow10 33 = .fin 1000000000000000089690419062898688 0 := by decide +kernel

/-- A quotient that is at least 1. -/
theorem quotient {m e p : Int} (hp : 0 < p) (h1 : (p : ℚ) ≤ |ratOf m e|) (h2 : |ratOf m e| ≤ p * 2 ^ 50) :
    ∃ m' e', F64.div (.fin m e) (.fin p 0) = .fin m' e' ∧ Rep |ratOf m' e'| ∧ 1 ≤ |ratOf m' e'| ∧ |ratOf m' e'| ≤ 2 ^ 50 := by
  have hpq : (0 : ℚ) < p := by exact_mod_cast hp
  simp only [F64.div, ratOf_zero]
  rw [if_neg (by omega)]
  have ha : |ratOf m e / (p : ℚ)| = |ratOf m e| / p := by rw [abs_div, abs_of_pos hpq]
  have l1 : 1 ≤ |ratOf m e / (p : ℚ)| := by rw [ha, le_div_iff₀ hpq]; linarith
  have l2 : |ratOf m e / (p : ℚ)| ≤ 2 ^ 50 := by rw [ha, div_le_iff₀ hpq]; linarith
  obtain ⟨m', e', g1, _, _, g2, g3, g4⟩ := ofRat_rep (fits_of (lt_of_le_of_lt l2 (by norm_num)))
  exact ⟨m', e', g1, g2, g4 1 (by exact_mod_cast rep_nat (p := 1) (by norm_num)) l1,
    g3 (2 ^ 50) (by exact_mod_cast rep_nat (p := 2 ^ 50) (by norm_num)) l2⟩

/-- The quotient that Intword shows. -/
theorem shown {m e : Int} {k : Nat} {word : Bytes} (hr : Rep |ratOf m e|) (h : LargestPower k word |ratOf m e|)
    (h36 : |ratOf m e| < 10 ^ 36) :
    ∃ m' e', F64.div (.fin m e) (F64.pow10 k) = .fin m' e' ∧ Rep |ratOf m' e'| ∧ 1 ≤ |ratOf m' e'| ∧ |ratOf m' e'| ≤ 2 ^ 50 := by
  obtain ⟨hm, h1, h2⟩ := h
  obtain ⟨p6, p9, p12, p15, p18, p21, p24, p27, p30, p33⟩ := powers
  have g27 := gap27 hr
  have g30 := gap30 hr
  have g33 := gap33 hr
  have up : ∀ w, (k + 3, w) ∈ powerWords → |ratOf m e| < 10 ^ (k + 3) := fun w hw => by
    by_contra hc
    exact absurd (h2 _ hw (not_lt.mp hc)) (by simp)
  simp only [powerWords, List.mem_cons, Prod.mk.injEq, List.not_mem_nil, or_false] at hm
  rcases hm with ⟨rfl, _⟩ | ⟨rfl, _⟩ | ⟨rfl, _⟩ | ⟨rfl, _⟩ | ⟨rfl, _⟩ | ⟨rfl, _⟩ | ⟨rfl, _⟩ | ⟨rfl, _⟩ | ⟨rfl, _⟩ |
    ⟨rfl, _⟩ | ⟨rfl, _⟩
  · have u := up b!"billion" (by decide)
    rw [p6]; exact quotient (by norm_num) (by norm_num at h1 ⊢; linarith) (by norm_num at u ⊢; linarith)
  · have u := up b!"trillion" (by decide)
    rw [p9]; exact quotient (by norm_num) (by norm_num at h1 ⊢; linarith) (by norm_num at u ⊢; linarith)
  · have u := up b!"quadrillion" (by decide)
    rw [p12]; exact quotient (by norm_num) (by norm_num at h1 ⊢; linarith) (by norm_num at u ⊢; linarith)
  · have u := up b!"quintillion" (by decide)
    rw [p15]; exact quotient (by norm_num) (by norm_num at h1 ⊢; linarith) (by norm_num at u ⊢; linarith)
  · have u := up b!"sextillion" (by decide)
    rw [p18]; exact quotient (by norm_num) (by norm_num at h1 ⊢; linarith) (by norm_num at u ⊢; linarith)
  · have u := up b!"septillion" (by decide)
    rw [p21]; exact quotient (by norm_num) (by norm_num at h1 ⊢; linarith) (by norm_num at u ⊢; linarith)
  · have u := up b!"octillion" (by decide)
    rw [p24]; exact quotient (by norm_num) (by norm_num at h1 ⊢; linarith) (by norm_num at u ⊢; linarith)
  · have u := up b!"nonillion" (by decide)
    have l := not_lt.mp (fun hc => absurd (g27 hc) (not_lt.mpr h1))
    rw [p27]; exact quotient (by norm_num) (by push_cast; exact l) (by norm_num at u ⊢; linarith)
  · have u := up b!"decillion" (by decide)
    have l := not_lt.mp (fun hc => absurd (g30 hc) (not_lt.mpr h1))
    rw [p30]; exact quotient (by norm_num) (by push_cast; exact l) (by norm_num at u ⊢; linarith)
  · have l := not_lt.mp (fun hc => absurd (g33 hc) (not_lt.mpr h1))
    rw [p33]; exact quotient (by norm_num) (by push_cast; exact l) (by norm_num at h36 ⊢; linarith)
  · exfalso
    norm_num at h1 h36
    linarith

end Verif.Proofs.Humanize.Intword
