import Verif.Proofs.Cldr.Atoms
/-! The operands of a plain decimal text. -/
namespace Verif.Proofs.Cldr
open Verif.Go Verif.Model.Cldr Verif.Spec.Cldr Verif.Cldr

/-! ## Rounding -/

theorem halfEven_bounds (a : Nat) {d : Nat} (hd : 0 < d) :
    2 * (halfEven a d * d) ≤ 2 * a + d ∧ 2 * a ≤ 2 * (halfEven a d * d) + d := by
  have h := Nat.div_add_mod a d
  have hm := Nat.mod_lt a hd
  rw [Nat.mul_comm] at h
  unfold halfEven
  simp only []
  have e : (a / d + 1) * d = a / d * d + d := Nat.succ_mul _ _
  split
  · omega
  · split
    · rw [e]; omega
    · split
      · omega
      · rw [e]; omega

/-- A fraction that is not an integer, with a small denominator and a moderate value: the rounded
float64 is very near. -/
theorem roundRatio_frac {a d : Nat} (hd : 0 < d) (hn : a % d ≠ 0) {p : Nat} (hp : p ≤ 51) (hlt : a < 2 ^ p * d) :
    ∃ m K : Nat, roundRatio a d = some (.fin m (-(K : Int))) ∧ 52 - p ≤ K ∧
      2 * (m * d) ≤ 2 * (a * 2 ^ K) + d ∧ 2 * (a * 2 ^ K) ≤ 2 * (m * d) + d := by
  unfold roundRatio
  rw [if_neg (fun h => hn h.1)]
  simp only []
  have ha : a ≠ 0 := by rintro rfl; simp at hn
  have hl : Nat.log2 a ≤ Nat.log2 d + p := by
    have h1 := Nat.log2_self_le ha
    have h2 : d < 2 ^ (Nat.log2 d + 1) := Nat.lt_log2_self
    have h3 : 2 ^ Nat.log2 a < 2 ^ (Nat.log2 d + p + 1) := by
      have : 2 ^ (Nat.log2 d + p + 1) = 2 ^ p * 2 ^ (Nat.log2 d + 1) := by
        rw [← Nat.pow_add]; congr 1; omega
      rw [this]
      have : 2 ^ p * d < 2 ^ p * 2 ^ (Nat.log2 d + 1) := Nat.mul_lt_mul_of_pos_left h2 (Nat.pow_pos (by omega))
      omega
    have := (Nat.pow_lt_pow_iff_right (by omega : 1 < 2)).mp h3
    omega
  generalize he1 : (if a * 2 ^ (-((Nat.log2 a : Int) - Nat.log2 d - 53)).toNat <
    2 ^ 53 * d * 2 ^ ((Nat.log2 a : Int) - Nat.log2 d - 53).toNat then
      (Nat.log2 a : Int) - Nat.log2 d - 53 else (Nat.log2 a : Int) - Nat.log2 d - 53 + 1) = e1
  have hle : e1 ≤ (p : Int) - 52 := by
    subst he1; split <;> omega
  have hmax : max e1 (-1074) ≤ (p : Int) - 52 := by omega
  generalize max e1 (-1074) = e at hmax
  rw [if_neg (by omega)]
  refine ⟨halfEven (a * 2 ^ (-e).toNat) d, (-e).toNat, ?_, by omega, ?_⟩
  · congr 2; omega
  · exact halfEven_bounds _ hd

theorem fUpper_neg (m : Int) (K : Nat) : fUpper m (-(K : Int)) = m := by
  unfold fUpper
  have : (-(K : Int)).toNat = 0 := by omega
  rw [this]; simp

theorem fLower_neg (K : Nat) : fLower (-(K : Int)) = 2 ^ K := by
  unfold fLower
  congr 1; omega

/-- Such a float is not near an integer if the fraction is not. -/
theorem nv_frac {a d m K : Nat} (hd : 0 < d) (hn1 : 2 * d ≤ a % d * 1000000) (hn2 : 2 * d ≤ (d - a % d) * 1000000) (hK : 19 ≤ K)
    (h1 : 2 * (m * d) ≤ 2 * (a * 2 ^ K) + d) (h2 : 2 * (a * 2 ^ K) ≤ 2 * (m * d) + d) :
    NV (.fin m (-(K : Int))) none := by
  refine ⟨m, -(K : Int), rfl, by omega, ?_⟩
  intro j
  rw [fUpper_neg, fLower_neg]
  have hT : 2 ^ 19 ≤ 2 ^ K := Nat.pow_le_pow_right (by omega) hK
  generalize 2 ^ K = T at *
  have hgap : 2 * d ≤ (j * d - a).natAbs * 1000000 := by
    have ha := Nat.div_add_mod a d
    have hr := Nat.mod_lt a hd
    generalize a / d = q at *
    generalize a % d = r at *
    have ha' : (a : Int) = q * d + r := by rw [← ha]; simp [Int.mul_comm]
    rcases Int.lt_or_le (q : Int) j with hj | hj
    · have : ((q : Int) + 1) * d ≤ j * d := Int.mul_le_mul_of_nonneg_right (by omega) (by omega)
      rw [Int.add_mul] at this
      have : d - r ≤ (j * d - a).natAbs := by omega
      exact Nat.le_trans hn2 (Nat.mul_le_mul_right _ this)
    · have : j * (d : Int) ≤ q * d := Int.mul_le_mul_of_nonneg_right hj (by omega)
      have : r ≤ (j * d - a).natAbs := by omega
      exact Nat.le_trans hn1 (Nat.mul_le_mul_right _ this)
  -- multiply by d
  have hX : (j * (T : Int) - m).natAbs * d = ((j * d - a) * T + (a * T - m * d)).natAbs := by
    rw [← Int.natAbs_natCast d, ← Int.natAbs_mul, Int.natAbs_natCast]
    congr 1
    rw [Int.sub_mul, Int.sub_mul, Int.mul_right_comm]
    omega
  have hY : ((j * d - a) * (T : Int)).natAbs = (j * d - a).natAbs * T := by
    rw [Int.natAbs_mul, Int.natAbs_natCast]
  have hZ : 2 * d * T ≤ (j * d - a).natAbs * 1000000 * T := Nat.mul_le_mul_right _ hgap
  rw [Nat.mul_right_comm _ 1000000] at hZ
  have hW : (2 * ((a : Int) * T - m * d)).natAbs ≤ d := by
    have e1 : ((a * T : Nat) : Int) = (a : Int) * T := by exact_mod_cast rfl
    have e2 : ((m * d : Nat) : Int) = (m : Int) * d := by exact_mod_cast rfl
    rw [← e1, ← e2]; omega
  have hge : 4 * (d * T) ≤ 2000000 * ((j * (T : Int) - m).natAbs * d) + 1000000 * d := by
    rw [hX]
    rw [← hY] at hZ
    rw [Nat.mul_assoc] at hZ
    generalize (j * (d : Int) - a) * (T : Int) = u at hZ ⊢
    generalize (a : Int) * T - m * d = w at hW ⊢
    omega
  have hge' : 4 * T ≤ 2000000 * (j * (T : Int) - m).natAbs + 1000000 := by
    apply Nat.le_of_mul_le_mul_right _ hd
    rw [Nat.add_mul, Nat.mul_assoc, Nat.mul_assoc, Nat.mul_comm T d]
    exact hge
  generalize (j * (T : Int) - m).natAbs = X at hge' ⊢
  omega

/-- The integer part of such a float is that of the fraction. -/
theorem trunc_frac {a d m K : Nat} (hd : 0 < d) (hn1 : 2 * d ≤ a % d * 1000000) (hn2 : 2 * d ≤ (d - a % d) * 1000000) (hK : 19 ≤ K)
    (h1 : 2 * (m * d) ≤ 2 * (a * 2 ^ K) + d) (h2 : 2 * (a * 2 ^ K) ≤ 2 * (m * d) + d) :
    m / 2 ^ K = a / d := by
  have hT : 2 ^ 19 ≤ 2 ^ K := Nat.pow_le_pow_right (by omega) hK
  generalize 2 ^ K = T at *
  have ha := Nat.div_add_mod a d
  have hr := Nat.mod_lt a hd
  generalize a / d = q at *
  generalize a % d = r at *
  subst ha
  have e1 : (d * q + r) * T = d * q * T + r * T := Nat.add_mul _ _ _
  have e2 : d * q * T = q * T * d := by rw [Nat.mul_comm d q, Nat.mul_right_comm]
  rw [e1, e2] at h1 h2
  have hrT : r * 524288 ≤ r * T := Nat.mul_le_mul_left _ hT
  have hrT2 : (d - r) * 524288 ≤ (d - r) * T := Nat.mul_le_mul_left _ hT
  have hrT3 : d * T = r * T + (d - r) * T := by rw [← Nat.add_mul]; congr 1; omega
  have e3 : (q + 1) * T * d = q * T * d + d * T := by
    rw [Nat.add_mul, Nat.add_mul, Nat.one_mul, Nat.mul_comm T d]
  have lo : q * T ≤ m := by
    apply Nat.le_of_mul_le_mul_right _ hd
    omega
  have hi : m < (q + 1) * T := by
    apply Nat.lt_of_mul_lt_mul_right (a := d)
    rw [e3]; omega
  apply Nat.div_eq_of_lt_le
  · exact lo
  · exact hi

/-! ## Texts -/

theorem digit_ne {c x : Char} (h : c.isDigit = true) (hx : x.isDigit = false) : c ≠ x := by
  rintro rfl; rw [h] at hx; cases hx

theorem takeWhile_app {p : Char → Bool} {l r : List Char} (h : ∀ c ∈ l, p c = true) :
    (l ++ r).takeWhile p = l ++ r.takeWhile p := by
  induction l with
  | nil => rfl
  | cons c l ih =>
    simp only [List.cons_append]
    rw [List.takeWhile_cons_of_pos (h c List.mem_cons_self), ih fun x hx => h x (List.mem_cons_of_mem _ hx)]

theorem dropWhile_app {p : Char → Bool} {l r : List Char} (h : ∀ c ∈ l, p c = true) :
    (l ++ r).dropWhile p = r.dropWhile p := by
  induction l with
  | nil => rfl
  | cons c l ih =>
    simp only [List.cons_append]
    rw [List.dropWhile_cons_of_pos (h c List.mem_cons_self), ih fun x hx => h x (List.mem_cons_of_mem _ hx)]

theorem digitsVal_eq : Verif.Model.Cldr.digitsVal = Verif.Spec.Cldr.digitsVal := rfl

theorem stripZeros_eq : trimZeros = stripZeros := rfl

theorem digitsVal_append (a b : List Char) :
    Spec.Cldr.digitsVal (a ++ b) = Spec.Cldr.digitsVal a * 10 ^ b.length + Spec.Cldr.digitsVal b := by
  have gen : ∀ (b : List Char) (x : Nat),
      b.foldl (fun a c => a * 10 + (c.toNat - '0'.toNat)) x =
        x * 10 ^ b.length + b.foldl (fun a c => a * 10 + (c.toNat - '0'.toNat)) 0 := by
    intro b
    induction b with
    | nil => intro x; simp
    | cons c b ih =>
      intro x
      simp only [List.foldl_cons, List.length_cons]
      rw [ih, ih (0 * 10 + _), Nat.pow_succ, Nat.add_mul]
      simp only [Nat.zero_mul, Nat.zero_add, Nat.mul_comm (10 ^ b.length) 10, Nat.mul_assoc,
        Nat.add_assoc]
  unfold Spec.Cldr.digitsVal
  rw [List.foldl_append, gen]

theorem digit_le {c : Char} (h : c.isDigit = true) : c.toNat - '0'.toNat ≤ 9 := by
  simp [Char.isDigit] at h
  have : c.toNat = c.val.toNat := rfl
  rw [this]
  have h2 := h.2
  have : c.val.toNat ≤ 57 := UInt32.le_iff_toNat_le.mp h2
  have e : '0'.toNat = 48 := rfl
  omega

theorem digitsVal_lt {ds : List Char} (h : ∀ c ∈ ds, c.isDigit = true) :
    Spec.Cldr.digitsVal ds < 10 ^ ds.length := by
  induction ds with
  | nil => decide
  | cons c ds ih =>
    have e : c :: ds = [c] ++ ds := rfl
    rw [e, digitsVal_append]
    have h1 : Spec.Cldr.digitsVal [c] ≤ 9 := by
      simp [Spec.Cldr.digitsVal]; have := digit_le (h c List.mem_cons_self)
      have e : '0'.toNat = 48 := rfl
      omega
    have h2 := ih fun x hx => h x (List.mem_cons_of_mem _ hx)
    have h3 : Spec.Cldr.digitsVal [c] * 10 ^ ds.length ≤ 9 * 10 ^ ds.length := Nat.mul_le_mul_right _ h1
    have e4 : ([c] ++ ds).length = ds.length + 1 := rfl
    rw [e4, Nat.pow_succ]
    omega

/-- A non-empty digit sequence begins with a digit. -/
theorem digits_cons {ds : List Char} (h0 : ds ≠ []) (h : ∀ c ∈ ds, c.isDigit = true) :
    ∃ c r, ds = c :: r ∧ c.isDigit = true ∧ c ≠ '-' ∧ c ≠ '+' := by
  cases ds with
  | nil => exact absurd rfl h0
  | cons c r =>
    have hc := h c List.mem_cons_self
    exact ⟨c, r, rfl, hc, digit_ne hc rfl, digit_ne hc rfl⟩

theorem allDigits_iff {ds : List Char} : allDigits ds = true ↔ ∀ c ∈ ds, c.isDigit = true := by
  simp [allDigits]

theorem parseInt_digits {ds : List Char} (h0 : ds ≠ []) (h : ∀ c ∈ ds, c.isDigit = true)
    (hv : Spec.Cldr.digitsVal ds < 2 ^ 63) : parseInt ds = some (Spec.Cldr.digitsVal ds : Int) := by
  obtain ⟨c, r, rfl, _, hm, hp⟩ := digits_cons h0 h
  unfold parseInt
  split
  rename_i neg ds' hs
  split at hs
  · rename_i hs'; exact absurd (List.cons.inj hs').1 hm
  · rename_i hs'; exact absurd (List.cons.inj hs').1 hp
  · cases hs
    rw [if_neg (by simp only [allDigits_iff.mpr h]; simp)]
    simp only [Bool.false_eq_true, if_false, digitsVal_eq]
    rw [if_pos (by omega)]

theorem fraction_digits {fd : List Char} (h : ∀ c ∈ fd, c.isDigit = true) (hl : fd.length ≤ 18) :
    fraction fd = some ((fd.length : Int), (Spec.Cldr.digitsVal fd : Int)) := by
  unfold fraction
  split
  · rename_i h0; subst h0; rfl
  · rename_i h0
    have h2 := digitsVal_lt h
    have h3 : 10 ^ fd.length ≤ 10 ^ 18 := Nat.pow_le_pow_right (by omega) hl
    rw [parseInt_digits h0 h (by omega)]
    rfl

theorem stripZeros_sub {fd : List Char} : ∀ c ∈ stripZeros fd, c ∈ fd := by
  intro c hc
  simp only [stripZeros, List.mem_reverse] at hc
  have := (List.dropWhile_sublist (fun x => decide (x = '0')) (l := fd.reverse)).mem hc
  exact List.mem_reverse.mp this

theorem stripZeros_len (fd : List Char) : (stripZeros fd).length ≤ fd.length := by
  simp only [stripZeros, List.length_reverse]
  have := (List.dropWhile_sublist (fun x => decide (x = '0')) (l := fd.reverse)).length_le
  simpa using this

theorem cut_none {c : Char} {s : List Char} (h : c ∉ s) : cut c s = none := by
  have : s.dropWhile (fun x => decide (x ≠ c)) = [] := by
    have := dropWhile_app (p := fun x => decide (x ≠ c)) (l := s) (r := []) (by
      intro x hx; simp only [decide_eq_true_eq]; rintro rfl; exact h hx)
    simpa using this
  unfold cut
  rw [this]

theorem cut_some {c : Char} {a b : List Char} (h : c ∉ a) : cut c (a ++ c :: b) = some (a, b) := by
  have ha : ∀ x ∈ a, (fun x => decide (x ≠ c)) x = true := by
    intro x hx; simp only [decide_eq_true_eq]; rintro rfl; exact h hx
  unfold cut
  rw [dropWhile_app ha, takeWhile_app ha]
  simp

theorem not_mem_digits {ds : List Char} (h : ∀ c ∈ ds, c.isDigit = true) {x : Char} (hx : x.isDigit = false) :
    x ∉ ds := fun hm => by rw [h x hm] at hx; cases hx

theorem cut_point {d : Decimal} (h : d.WF) :
    cut '.' d.text = if d.fp = [] then none else some (d.ip, d.fp) := by
  unfold Decimal.text
  split
  · rw [List.append_nil]; exact cut_none (not_mem_digits h.2.1 rfl)
  · exact cut_some (not_mem_digits h.2.1 rfl)

theorem not_mem_text {d : Decimal} (h : d.WF) {x : Char} (hx : x.isDigit = false) (hp : x ≠ '.') :
    x ∉ d.text := by
  unfold Decimal.text
  rw [List.mem_append, not_or]
  refine ⟨not_mem_digits h.2.1 hx, ?_⟩
  split
  · simp
  · rw [List.mem_cons, not_or]
    exact ⟨hp, not_mem_digits h.2.2 hx⟩

theorem dropWhile_digits {ds : List Char} (h : ∀ c ∈ ds, c.isDigit = true) : ds.dropWhile Char.isDigit = [] := by
  have := dropWhile_app (r := []) h
  simpa using this

theorem takeWhile_digits {ds : List Char} (h : ∀ c ∈ ds, c.isDigit = true) : ds.takeWhile Char.isDigit = ds := by
  have := takeWhile_app (r := []) h
  simpa using this

theorem plainDecimal_text {d : Decimal} (h : d.WF) :
    plainDecimal d.text = some (Spec.Cldr.digitsVal (d.ip ++ d.fp), 10 ^ d.fp.length) := by
  unfold plainDecimal Decimal.text
  by_cases hf : d.fp = []
  · simp only [hf, if_true, List.append_nil, dropWhile_digits h.2.1, takeWhile_digits h.2.1, h.1,
      if_false, digitsVal_eq]
    rfl
  · simp only [hf, if_false, dropWhile_app h.2.1, takeWhile_app h.2.1]
    rw [List.dropWhile_cons_of_neg (by decide), List.takeWhile_cons_of_neg (by decide)]
    simp only [List.append_nil, true_and, digitsVal_eq]
    rw [if_pos ⟨allDigits_iff.mpr h.2.2, Or.inl h.1⟩]

theorem parseFloat_text {d : Decimal} (h : d.WF) (rest : List Char → Option F64) :
    parseFloat rest d.text =
      roundRatio (Spec.Cldr.digitsVal (d.ip ++ d.fp) / Nat.gcd (Spec.Cldr.digitsVal (d.ip ++ d.fp)) (10 ^ d.fp.length))
        (10 ^ d.fp.length / Nat.gcd (Spec.Cldr.digitsVal (d.ip ++ d.fp)) (10 ^ d.fp.length)) := by
  obtain ⟨c, r, hc, _, hm, hp⟩ := digits_cons h.1 h.2.1
  have ht : d.text = c :: (r ++ (if d.fp = [] then [] else '.' :: d.fp)) := by
    unfold Decimal.text; rw [hc]; rfl
  unfold parseFloat
  split
  rename_i neg ds' hs
  split at hs
  · rename_i hs'; rw [ht] at hs'; exact absurd (List.cons.inj hs').1 hm
  · rename_i hs'; rw [ht] at hs'; exact absurd (List.cons.inj hs').1 hp
  · cases hs
    rw [plainDecimal_text h]
    simp only [Bool.false_eq_true, if_false, Option.map_id]
    rfl

/-- The operands of a decimal, given its float. -/
theorem operandsOfDecimal_text {d : Decimal} (h : d.WF) (hl : d.fp.length ≤ 18)
    (rest : List Char → Option F64) (oor : F64 → Int) (c : Int) {x : F64}
    (hx : parseFloat rest d.text = some x) :
    operandsOfDecimal rest oor d.text c = some ⟨x.abs, x.toInt64 oor, (d.ops 0).v, (d.ops 0).w,
      (d.ops 0).f, (d.ops 0).t, c⟩ := by
  unfold operandsOfDecimal
  rw [hx, cut_point h]
  by_cases hf : d.fp = []
  · simp only [hf, if_true, bind, Option.bind, Decimal.ops]
    rfl
  · have h2 : ∀ c ∈ stripZeros d.fp, c.isDigit = true := fun c hc => h.2.2 c (stripZeros_sub c hc)
    have h3 : (stripZeros d.fp).length ≤ 18 := Nat.le_trans (stripZeros_len _) hl
    simp only [hf, if_false, bind, Option.bind, Decimal.ops, fraction_digits h.2.2 hl, stripZeros_eq,
      fraction_digits h2 h3]

/-! ## The operands agree -/

/-- The decimals on which float64 arithmetic is good enough: integers (written with up to 18
zeros after the point) below 2^53, and numbers below 2^33 with up to 15 digits after the point that are at least 0.000002 away
from the integers. -/
def Small (d : Decimal) : Prop :=
  (Spec.Cldr.digitsVal d.fp = 0 ∧ d.fp.length ≤ 18 ∧ Spec.Cldr.digitsVal d.ip < 2 ^ 53) ∨
  (d.fp.length ≤ 15 ∧ Spec.Cldr.digitsVal d.ip < 2 ^ 33 ∧ 2 * 10 ^ d.fp.length ≤ Spec.Cldr.digitsVal d.fp * 1000000 ∧
    2 * 10 ^ d.fp.length ≤ (10 ^ d.fp.length - Spec.Cldr.digitsVal d.fp) * 1000000)

/-- All numbers below 2^33 with at most five digits after the point are such decimals. -/
theorem small_of_five {d : Decimal} (h : d.WF) (h5 : d.fp.length ≤ 5) (hi : Spec.Cldr.digitsVal d.ip < 2 ^ 33) : Small d := by
  have hlt := digitsVal_lt h.2.2
  have hD : 10 ^ d.fp.length ≤ 100000 := Nat.pow_le_pow_right (n := 10) (by omega) h5
  unfold Small
  omega

theorem natAbs_fin (m : Nat) (e : Int) : (F64.fin m e).abs = .fin m e := rfl

theorem match_decimal {d : Decimal} (h : d.WF) (hs : Small d) (rest : List Char → Option F64)
    (oor : F64 → Int) (e : Nat) :
    ∃ ops nv, operandsOfDecimal rest oor d.text e = some ops ∧ Match ops (d.ops e) nv := by
  have hl : d.fp.length ≤ 18 := by rcases hs with h | h <;> omega
  unfold Small at hs
  have hf10 := digitsVal_lt h.2.2
  have hA : Spec.Cldr.digitsVal (d.ip ++ d.fp) =
    Spec.Cldr.digitsVal d.ip * 10 ^ d.fp.length + Spec.Cldr.digitsVal d.fp := digitsVal_append _ _
  have hpf := parseFloat_text h rest
  have hDpos : 0 < 10 ^ d.fp.length := Nat.pow_pos (by omega)
  have hi : Spec.Cldr.digitsVal (d.ip ++ d.fp) / 10 ^ d.fp.length = Spec.Cldr.digitsVal d.ip := by
    rw [hA, Nat.mul_comm, Nat.mul_add_div hDpos, Nat.div_eq_of_lt hf10]; rfl
  have hmod : Spec.Cldr.digitsVal (d.ip ++ d.fp) % 10 ^ d.fp.length = Spec.Cldr.digitsVal d.fp := by
    rw [hA, Nat.mul_comm, Nat.mul_add_mod, Nat.mod_eq_of_lt hf10]
  have hqden : (d.ops e).n = ⟨Spec.Cldr.digitsVal (d.ip ++ d.fp), 10 ^ d.fp.length⟩ := rfl
  generalize hAg : Spec.Cldr.digitsVal (d.ip ++ d.fp) = A at *
  generalize hDg : 10 ^ d.fp.length = D at *
  have hg : 0 < Nat.gcd A D := Nat.gcd_pos_of_pos_right _ hDpos
  have hga := Nat.div_mul_cancel (Nat.gcd_dvd_left A D)
  have hgd := Nat.div_mul_cancel (Nat.gcd_dvd_right A D)
  have hgle : Nat.gcd A D ≥ 1 := hg
  generalize Nat.gcd A D = g at *
  generalize A / g = a at *
  have hdpos : 0 < D / g := by
    rcases Nat.eq_zero_or_pos (D / g) with h0 | h0
    · rw [h0] at hgd; omega
    · exact h0
  have hdD : D / g ≤ D := Nat.div_le_self _ _
  generalize D / g = dd at *
  have hquo : a / dd = Spec.Cldr.digitsVal d.ip := by
    rw [← hi, ← hga, ← hgd, Nat.mul_div_mul_right _ _ hg]
  have hrem : a % dd * g = Spec.Cldr.digitsVal d.fp := by
    rw [← hmod, ← hga, ← hgd, Nat.mul_mod_mul_right]
  by_cases hz : Spec.Cldr.digitsVal d.fp = 0
  · -- an integer
    have hr0 : a % dd = 0 := by
      rw [hz] at hrem
      rcases Nat.mul_eq_zero.mp hrem with h0 | h0
      · exact h0
      · omega
    have hlt : Spec.Cldr.digitsVal d.ip < 2 ^ 53 := by rcases hs with h | h <;> omega
    have hrr : roundRatio a dd = some (.fin (Spec.Cldr.digitsVal d.ip : Nat) 0) := by
      unfold roundRatio
      rw [if_pos ⟨hr0, by rw [hquo]; exact hlt⟩, hquo]
    refine ⟨_, some (Spec.Cldr.digitsVal d.ip),
      operandsOfDecimal_text h hl rest oor e (hpf.trans hrr), ?_⟩
    refine ⟨⟨(Spec.Cldr.digitsVal d.ip : Nat), 0, rfl, by simp [fUpper, fLower]⟩, ?_, ?_, rfl, rfl, rfl, rfl, rfl⟩
    · rw [hqden]
      refine ⟨hDpos, ?_⟩
      unfold Q.Is
      simp only []
      rw [hA, hz]; omega
    · simp only [F64.toInt64, Decimal.ops]
      simp only [Int.le_refl, if_true, Int.toNat_zero, Int.pow_zero, Int.mul_one]
      rw [if_pos (by omega)]
  · have hs5 : Spec.Cldr.digitsVal d.ip < 2 ^ 33 ∧ 2 * D ≤ Spec.Cldr.digitsVal d.fp * 1000000 ∧
        2 * D ≤ (D - Spec.Cldr.digitsVal d.fp) * 1000000 := by
      rcases hs with h | h
      · exact absurd h.1 hz
      · exact h.2
    have hn1 : 2 * dd ≤ a % dd * 1000000 := by
      apply Nat.le_of_mul_le_mul_right _ hg
      rw [Nat.mul_right_comm (a % dd), hrem, Nat.mul_assoc, hgd]
      exact hs5.2.1
    have hn2 : 2 * dd ≤ (dd - a % dd) * 1000000 := by
      apply Nat.le_of_mul_le_mul_right _ hg
      rw [Nat.mul_right_comm (dd - a % dd), Nat.sub_mul dd, hrem, Nat.mul_assoc, hgd]
      exact hs5.2.2
    have hn : a % dd ≠ 0 := by
      intro h0; rw [h0] at hrem; omega
    have hlt : a < 2 ^ 33 * dd := by
      have h1 := Nat.div_add_mod a dd
      have h2 := Nat.mod_lt a hdpos
      rw [hquo] at h1
      have h3 : dd * (Spec.Cldr.digitsVal d.ip + 1) ≤ dd * 2 ^ 33 := Nat.mul_le_mul_left _ (by omega)
      rw [Nat.mul_add] at h3
      rw [Nat.mul_comm (2 ^ 33)]
      omega
    obtain ⟨m, K, hrr, hK, h1, h2⟩ := roundRatio_frac hdpos hn (p := 33) (by omega) hlt
    refine ⟨_, none, operandsOfDecimal_text h hl rest oor e (hpf.trans hrr), ?_⟩
    refine ⟨?_, ?_, ?_, rfl, rfl, rfl, rfl, rfl⟩
    · rw [natAbs_fin]; exact nv_frac hdpos hn1 hn2 hK h1 h2
    · rw [hqden]
      refine ⟨hDpos, ?_⟩
      intro k hk
      unfold Q.Is at hk
      simp only [] at hk
      rw [hk] at hmod
      simp at hmod
      omega
    · have ht := trunc_frac hdpos hn1 hn2 hK h1 h2
      have h0 : ¬ (0 : Int) ≤ -(K : Int) := by omega
      simp only [F64.toInt64, Decimal.ops, h0, if_false]
      have e1 : (- -(K : Int)).toNat = K := by omega
      have e2 : (m : Int).tdiv (2 ^ K) = ((m / 2 ^ K : Nat) : Int) := by
        have : ((2 ^ K : Nat) : Int) = 2 ^ K := by simp
        rw [← this]; rfl
      rw [e1, e2, ht, hquo, if_pos (by omega)]

/-- A number just above an integer is taken for the integer. -/
theorem near_decimal {d : Decimal} (h : d.WF) (hl : d.fp.length ≤ 18) (hi : Spec.Cldr.digitsVal d.ip < 2 ^ 29)
    (h0 : Spec.Cldr.digitsVal d.fp ≠ 0) (hn : Spec.Cldr.digitsVal d.fp * 10000000 ≤ 9 * 10 ^ d.fp.length)
    (rest : List Char → Option F64) (oor : F64 → Int) (c : Int) :
    ∃ ops, operandsOfDecimal rest oor d.text c = some ops ∧ floatEqual (Spec.Cldr.digitsVal d.ip) ops.n = true := by
  have hf10 := digitsVal_lt h.2.2
  have hA : Spec.Cldr.digitsVal (d.ip ++ d.fp) =
    Spec.Cldr.digitsVal d.ip * 10 ^ d.fp.length + Spec.Cldr.digitsVal d.fp := digitsVal_append _ _
  have hpf := parseFloat_text h rest
  have hDpos : 0 < 10 ^ d.fp.length := Nat.pow_pos (by omega)
  generalize hk : Spec.Cldr.digitsVal d.ip = k at *
  generalize hF : Spec.Cldr.digitsVal d.fp = F at *
  generalize hAg : Spec.Cldr.digitsVal (d.ip ++ d.fp) = A at *
  generalize hDg : 10 ^ d.fp.length = D at *
  have hg : 0 < Nat.gcd A D := Nat.gcd_pos_of_pos_right _ hDpos
  have hga := Nat.div_mul_cancel (Nat.gcd_dvd_left A D)
  have hgd := Nat.div_mul_cancel (Nat.gcd_dvd_right A D)
  generalize Nat.gcd A D = g at *
  generalize A / g = a at *
  have hdpos : 0 < D / g := by
    rcases Nat.eq_zero_or_pos (D / g) with h0 | h0
    · rw [h0] at hgd; omega
    · exact h0
  generalize D / g = dd at *
  have hquo : a / dd = k := by
    rw [← Nat.mul_div_mul_right a dd hg, hga, hgd, hA, Nat.mul_comm, Nat.mul_add_div hDpos, Nat.div_eq_of_lt hf10]; rfl
  have hrem : a % dd * g = F := by
    rw [← Nat.mul_mod_mul_right, hga, hgd, hA, Nat.mul_comm, Nat.mul_add_mod, Nat.mod_eq_of_lt hf10]
  have hr0 : a % dd ≠ 0 := by
    intro h; rw [h] at hrem; omega
  have hr1 : a % dd * 10000000 ≤ 9 * dd := by
    apply Nat.le_of_mul_le_mul_right _ hg
    rw [Nat.mul_right_comm (a % dd), hrem, Nat.mul_assoc, hgd]
    exact hn
  have ha := Nat.div_add_mod a dd
  have hlt : a < 2 ^ 29 * dd := by
    have h2 := Nat.mod_lt a hdpos
    rw [hquo] at ha
    have h3 : dd * (k + 1) ≤ dd * 2 ^ 29 := Nat.mul_le_mul_left _ (by omega)
    rw [Nat.mul_add] at h3
    rw [Nat.mul_comm (2 ^ 29)]
    omega
  obtain ⟨m, K, hrr, hK, h1, h2⟩ := roundRatio_frac hdpos hr0 (p := 29) (by omega) hlt
  refine ⟨_, operandsOfDecimal_text h hl rest oor c (hpf.trans hrr), ?_⟩
  rw [natAbs_fin]
  unfold floatEqual
  rw [fInt_small (by omega) (by omega)]
  simp only [fUpper_neg, fLower_neg, decide_eq_true_eq]
  rw [hquo] at ha
  generalize a % dd = r at *
  have hT : 2 ^ 23 ≤ 2 ^ K := Nat.pow_le_pow_right (by omega) hK
  generalize 2 ^ K = T at *
  -- the distance times dd
  have e1 : a * T = k * T * dd + r * T := by rw [← ha, Nat.add_mul, Nat.mul_comm dd k, Nat.mul_right_comm]
  have hX2 : 2 * (((k : Int) * T - m).natAbs * dd) ≤ 2 * (r * T) + dd := by
    have : ((k : Int) * T - m).natAbs * dd = ((k * T * dd : Nat) - (m * dd : Nat) : Int).natAbs := by
      have : ((k * T * dd : Nat) - (m * dd : Nat) : Int) = ((k : Int) * T - m) * dd := by
        rw [Int.sub_mul]; simp
      rw [this, Int.natAbs_mul, Int.natAbs_natCast]
    rw [this]
    omega
  have hr2 : r * T * 10000000 ≤ 9 * (T * dd) := by
    have := Nat.mul_le_mul_right T hr1
    rw [Nat.mul_right_comm] at this
    rw [Nat.mul_comm T dd, ← Nat.mul_assoc]; exact this
  have hXT : 20000000 * ((k : Int) * T - m).natAbs ≤ 18 * T + 10000000 := by
    apply Nat.le_of_mul_le_mul_right _ hdpos
    rw [Nat.add_mul, Nat.mul_assoc, Nat.mul_assoc]
    omega
  generalize ((k : Int) * T - m).natAbs = X at hXT ⊢
  clear hX2 hr2 e1 h1 h2 hrr hlt hr1 hn hpf hA
  omega

/-! ## Compact notation -/

theorem shiftLoop_plain (l : List Char) (h : ∀ c ∈ l, c.isDigit = true) (r : List Char) (c : Int) :
    shiftLoop (l ++ r) false c = (l ++ (shiftLoop r false c).1, (shiftLoop r false c).2) := by
  induction l with
  | nil => rfl
  | cons x l ih =>
    simp only [List.cons_append, shiftLoop]
    rw [if_neg (digit_ne (h x List.mem_cons_self) rfl)]
    simp only [Bool.false_eq_true, and_false, if_false]
    rw [ih fun y hy => h y (List.mem_cons_of_mem _ hy)]
    rfl

theorem shiftLoop_fraction (l : List Char) (h : ∀ c ∈ l, c.isDigit = true) :
    ∀ e : Nat, shiftLoop l true e =
      (l.take e ++ (if l.drop e = [] then [] else '.' :: l.drop e), ((e - l.length : Nat) : Int)) := by
  induction l with
  | nil => intro e; simp [shiftLoop]
  | cons x l ih =>
    intro e
    have hx := digit_ne (h x List.mem_cons_self) (rfl : '.'.isDigit = false)
    have hl : ∀ c ∈ l, c.isDigit = true := fun y hy => h y (List.mem_cons_of_mem _ hy)
    cases e with
    | zero =>
      have := shiftLoop_plain l hl [] 0
      simp only [List.append_nil, shiftLoop] at this
      simp [shiftLoop, hx, this]
    | succ e =>
      have e1 : ((e + 1 : Nat) : Int) - 1 = e := by omega
      have e2 : ¬ ((e + 1 : Nat) : Int) = 0 := by omega
      simp only [shiftLoop, hx, e2, if_false, false_and, if_true, e1, ih hl e]
      simp

theorem shift_text {d : Decimal} (h : d.WF) (e : Nat) :
    shiftDecimalPoint d.text e = (d.shift e).text := by
  unfold shiftDecimalPoint Decimal.text Decimal.shift
  by_cases hf : d.fp = []
  · have := shiftLoop_plain d.ip h.2.1 [] e
    simp only [List.append_nil, shiftLoop] at this
    simp [hf, this]
  · have hd : shiftLoop ('.' :: d.fp) false e = shiftLoop d.fp true e := by simp [shiftLoop]
    simp only [hf, if_false, shiftLoop_plain d.ip h.2.1, hd, shiftLoop_fraction d.fp h.2.2]
    by_cases hdr : d.fp.drop e = []
    · simp [hdr]
    · have : e - d.fp.length = 0 := by
        have := mt List.drop_eq_nil_iff.mpr hdr; omega
      simp [hdr, this]

theorem shift_wf {d : Decimal} (h : d.WF) (e : Nat) : (d.shift e).WF := by
  refine ⟨?_, ?_, ?_⟩
  · simp [Decimal.shift, h.1]
  · intro c hc
    simp only [Decimal.shift, List.mem_append, List.mem_replicate] at hc
    rcases hc with (hc | hc) | ⟨_, rfl⟩
    · exact h.2.1 c hc
    · exact h.2.2 c (List.mem_of_mem_take hc)
    · rfl
  · intro c hc
    exact h.2.2 c (List.mem_of_mem_drop hc)

end Verif.Proofs.Cldr
