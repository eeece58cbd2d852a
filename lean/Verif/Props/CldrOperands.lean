import Verif.Proofs.Cldr.Final
import Verif.Proofs.Go.Float
import Verif.Proofs.Go.Held
import Verif.Model.Must
/-!
# C60, C35: which decimals have operands, what every returned operand is, and integers as texts

`Decimal`, `d.text`, `d.ops e` and `d.shift e` are those of the specification (Spec/Cldr): a number
written with digits before and after the point, its spelling, the operands that UTS 35 gives it and
the number with the point moved.  No bound on the length of the fraction is assumed.
-/
namespace Verif.Props.CldrOperands
open Verif.Go Verif.Model.Cldr Verif.Spec.Cldr Verif.Cldr Verif.Proofs.Cldr
open Verif.Proofs.Go (roundRatio_mono round53_eq_iff round53_nearest)
open Verif.Spec.Held

theorem parseInt_large {ds : List Char} (h0 : ds ≠ []) (h : ∀ c ∈ ds, c.isDigit = true)
    (hv : 2 ^ 63 ≤ Spec.Cldr.digitsVal ds) : parseInt ds = none := by
  obtain ⟨c, r, rfl, _, hm, hp⟩ := digits_cons h0 h
  unfold parseInt
  split
  rename_i neg ds' hs
  split at hs
  · rename_i hs'; exact absurd (List.cons.inj hs').1 hm
  · rename_i hs'; exact absurd (List.cons.inj hs').1 hp
  · cases hs
    rw [if_neg (by simp only [allDigits_iff.mpr h]; simp)]
    simp only [Bool.false_eq_true, if_false, digitsVal_eq]
    rw [if_neg (by omega)]

theorem strip_le (fd : List Char) : Spec.Cldr.digitsVal (stripZeros fd) ≤ Spec.Cldr.digitsVal fd := by
  obtain ⟨k, hk⟩ := stripZeros_split fd
  have hv : Spec.Cldr.digitsVal fd = Spec.Cldr.digitsVal (stripZeros fd) * 10 ^ k := by
    rw [← digitsVal_zeros, ← hk]
  rw [hv]; exact Nat.le_mul_of_pos_right _ (Nat.pow_pos (by omega))

theorem fraction_small {fd : List Char} (h : ∀ c ∈ fd, c.isDigit = true)
    (hv : Spec.Cldr.digitsVal fd < 2 ^ 63) :
    fraction fd = some ((fd.length : Int), (Spec.Cldr.digitsVal fd : Int)) := by
  unfold fraction
  split
  · rename_i h0; subst h0; rfl
  · rename_i h0; rw [parseInt_digits h0 h hv]; rfl

theorem fraction_large {fd : List Char} (h : ∀ c ∈ fd, c.isDigit = true)
    (hv : 2 ^ 63 ≤ Spec.Cldr.digitsVal fd) : fraction fd = none := by
  unfold fraction
  split
  · rename_i h0; subst h0; exact absurd hv (by decide)
  · rename_i h0; rw [parseInt_large h0 h hv]; rfl

/-- The operands of a decimal, as its float allows. -/
theorem operands_eq {d : Decimal} (h : d.WF) (rest : List Char → Option F64) (oor : F64 → Int) (c : Int) :
    operandsOfDecimal rest oor d.text c =
      if Spec.Cldr.digitsVal d.fp < 2 ^ 63 then
        (parseFloat rest d.text).map fun x => ⟨x.abs, x.toInt64 oor, (d.ops 0).v, (d.ops 0).w,
          (d.ops 0).f, (d.ops 0).t, c⟩
      else none := by
  unfold operandsOfDecimal
  rw [cut_point h]
  cases hx : parseFloat rest d.text with
  | none => simp [bind, Option.bind]
  | some x =>
    by_cases hf : d.fp = []
    · have h0 : Spec.Cldr.digitsVal d.fp < 2 ^ 63 := by rw [hf]; decide
      rw [if_pos h0]
      simp only [hf, if_true, bind, Option.bind, Decimal.ops]
      rfl
    · by_cases hv : Spec.Cldr.digitsVal d.fp < 2 ^ 63
      · have h2 : ∀ c ∈ stripZeros d.fp, c.isDigit = true := fun c hc => h.2.2 c (stripZeros_sub c hc)
        rw [if_pos hv]
        simp only [hf, if_false, bind, Option.bind, Decimal.ops, fraction_small h.2.2 hv, stripZeros_eq,
          fraction_small h2 (Nat.lt_of_le_of_lt (strip_le _) hv)]
        rfl
      · rw [if_neg hv]
        simp only [hf, if_false, bind, Option.bind, fraction_large h.2.2 (Nat.not_lt.mp hv)]

/-- Decimals below 10 ^ 300 have a float. -/
theorem float_exists {d : Decimal} (h : d.WF) (hb : Spec.Cldr.digitsVal d.ip < 10 ^ 300)
    (rest : List Char → Option F64) : ∃ x, parseFloat rest d.text = some x := by
  rw [parseFloat_text h rest]
  have hf10 := digitsVal_lt h.2.2
  have hA : Spec.Cldr.digitsVal (d.ip ++ d.fp) =
    Spec.Cldr.digitsVal d.ip * 10 ^ d.fp.length + Spec.Cldr.digitsVal d.fp := digitsVal_append _ _
  have hDpos : 0 < 10 ^ d.fp.length := Nat.pow_pos (by omega)
  have hlt : Spec.Cldr.digitsVal (d.ip ++ d.fp) < 2 ^ 1000 * 10 ^ d.fp.length := by
    rw [hA]
    calc _ < Spec.Cldr.digitsVal d.ip * 10 ^ d.fp.length + 10 ^ d.fp.length := by omega
      _ = (Spec.Cldr.digitsVal d.ip + 1) * 10 ^ d.fp.length := by rw [Nat.add_mul, Nat.one_mul]
      _ ≤ 2 ^ 1000 * 10 ^ d.fp.length := Nat.mul_le_mul_right _ (by
        have : (10 : Nat) ^ 300 ≤ 2 ^ 1000 := by decide +kernel
        omega)
  generalize Spec.Cldr.digitsVal (d.ip ++ d.fp) = A at *
  generalize 10 ^ d.fp.length = D at *
  have hg : 0 < Nat.gcd A D := Nat.gcd_pos_of_pos_right _ hDpos
  have hga := Nat.div_mul_cancel (Nat.gcd_dvd_left A D)
  have hgd := Nat.div_mul_cancel (Nat.gcd_dvd_right A D)
  generalize Nat.gcd A D = g at *
  have hdpos : 0 < D / g := by
    rcases Nat.eq_zero_or_pos (D / g) with h0 | h0
    · rw [h0] at hgd; omega
    · exact h0
  have hlt' : A / g < 2 ^ 1000 * (D / g) := by
    apply Nat.lt_of_mul_lt_mul_right (a := g)
    rw [hga, Nat.mul_assoc, hgd]
    exact hlt
  obtain ⟨m, e, hr, _⟩ := roundRatio_mono (a := A / g) hdpos (by
    rw [div_lt_iff₀ (by exact_mod_cast hdpos)]; exact_mod_cast hlt')
  exact ⟨_, hr⟩

/-- A decimal below 10 ^ 300 is accepted by `NewOperands` exactly when the digits behind the point,
read as a number, fit an int64; trailing zeros count, leading zeros do not. -/
theorem C60_accepted_iff {d : Decimal} (h : d.WF) (hb : Spec.Cldr.digitsVal d.ip < 10 ^ 300)
    (rest : List Char → Option F64) (oor : F64 → Int) :
    (newOperandsString rest oor d.text).isSome ↔ Spec.Cldr.digitsVal d.fp < 2 ^ 63 := by
  obtain ⟨x, hx⟩ := float_exists h hb rest
  rw [newOperandsString_plain h, operands_eq h, hx]
  split <;> rename_i hv <;> simp <;> omega

/-- A zero with a hundred zeros behind the point has operands; the witness of `C60_negation` has none. -/
example : (⟨['0'], List.replicate 100 '0'⟩ : Decimal).WF ∧
    Spec.Cldr.digitsVal (⟨['0'], List.replicate 100 '0'⟩ : Decimal).fp < 2 ^ 63 ∧
    ¬ Spec.Cldr.digitsVal (⟨['0'], List.replicate 19 '9'⟩ : Decimal).fp < 2 ^ 63 :=
  ⟨⟨by simp, by simp, by simp⟩, by decide +kernel, by decide +kernel⟩

/-- The same for a decimal in compact notation: what counts is the number with the point moved. -/
theorem C60_accepted_compact_iff {d : Decimal} (h : d.WF) {e : Nat} (he : e < 2 ^ 63)
    (hb : Spec.Cldr.digitsVal (d.shift e).ip < 10 ^ 300) (rest : List Char → Option F64) (oor : F64 → Int) :
    (newOperandsString rest oor (d.text ++ 'c' :: dec e)).isSome ↔
      Spec.Cldr.digitsVal (d.shift e).fp < 2 ^ 63 := by
  have hw : (d.shift e).WF := shift_wf h e
  obtain ⟨x, hx⟩ := float_exists hw hb rest
  rw [newOperandsString_compact h he, operands_eq hw, hx]
  split <;> rename_i hv <;> simp <;> omega

/-- Twenty digits behind the point are too many, unless the exponent moves the point behind them. -/
example : (⟨['1'], List.replicate 20 '9'⟩ : Decimal).WF ∧
    ¬ Spec.Cldr.digitsVal ((⟨['1'], List.replicate 20 '9'⟩ : Decimal).shift 0).fp < 2 ^ 63 ∧
    Spec.Cldr.digitsVal ((⟨['1'], List.replicate 20 '9'⟩ : Decimal).shift 6).fp < 2 ^ 63 :=
  ⟨⟨by simp, by simp, by simp⟩, by decide +kernel, by decide +kernel⟩

/-- The counts and values of the digits behind the point are those of UTS 35 for every decimal that is
accepted, without any bound. -/
theorem C60_visible {d : Decimal} (h : d.WF) {rest : List Char → Option F64} {oor : F64 → Int} {ops : Operands}
    (ho : newOperandsString rest oor d.text = some ops) :
    ops.v = (d.ops 0).v ∧ ops.w = (d.ops 0).w ∧ ops.f = (d.ops 0).f ∧ ops.t = (d.ops 0).t ∧ ops.c = 0 := by
  rw [newOperandsString_plain h, operands_eq h] at ho
  split at ho
  · obtain ⟨x, _, rfl⟩ := Option.map_eq_some_iff.mp ho
    exact ⟨rfl, rfl, rfl, rfl, rfl⟩
  · cases ho

/-- The same in compact notation; `c` is the exponent. -/
theorem C60_visible_compact {d : Decimal} (h : d.WF) {e : Nat} (he : e < 2 ^ 63)
    {rest : List Char → Option F64} {oor : F64 → Int} {ops : Operands}
    (ho : newOperandsString rest oor (d.text ++ 'c' :: dec e) = some ops) :
    ops.v = ((d.shift e).ops e).v ∧ ops.w = ((d.shift e).ops e).w ∧ ops.f = ((d.shift e).ops e).f ∧
      ops.t = ((d.shift e).ops e).t ∧ ops.c = e := by
  have hw : (d.shift e).WF := shift_wf h e
  rw [newOperandsString_compact h he, operands_eq hw] at ho
  split at ho
  · obtain ⟨x, _, rfl⟩ := Option.map_eq_some_iff.mp ho
    exact ⟨rfl, rfl, rfl, rfl, rfl⟩
  · cases ho

example (rest : List Char → Option F64) (oor : F64 → Int) :
    ∃ ops, newOperandsString rest oor (⟨['1'], ['5', '0']⟩ : Decimal).text = some ops ∧ ops.v = 2 ∧ ops.w = 1 ∧
      ops.f = 50 ∧ ops.t = 5 := by
  have h : (⟨['1'], ['5', '0']⟩ : Decimal).WF := by simp [Decimal.WF]
  obtain ⟨ops, ho⟩ := Option.isSome_iff_exists.mp
    ((C60_accepted_iff h (by decide +kernel) rest oor).mpr (by decide))
  exact ⟨ops, ho, by rw [(C60_visible h ho).1]; rfl, by rw [(C60_visible h ho).2.1]; decide,
    by rw [(C60_visible h ho).2.2.1]; decide, by rw [(C60_visible h ho).2.2.2.1]; decide⟩

/-- `MustNewOperands` returns the operands of `NewOperands` and panics exactly where that fails: for
nil behind any number of pointers always, for an int behind any number of pointers never, for a
decimal exactly when its fraction does not fit. -/
theorem C60_must (rest : List Char → Option F64) (oor : F64 → Int) (fmtV : F64 → List Char) :
    (∀ a ops, mustNewOperands rest oor fmtV a = .ok ops ↔ newOperands rest oor fmtV a = some ops) ∧
    (∀ a f, mustNewOperands rest oor fmtV a = .error f ↔ f = .explicitPanic ∧ newOperands rest oor fmtV a = none) ∧
    (∀ k, mustNewOperands rest oor fmtV (Arg.ptr^[k] .nil) = .error .explicitPanic) ∧
    (∀ k v, mustNewOperands rest oor fmtV (Arg.ptr^[k] (.int v)) = .ok (newOperandsInt v)) ∧
    (∀ k (d : Decimal), d.WF → Spec.Cldr.digitsVal d.ip < 10 ^ 300 →
      (mustNewOperands rest oor fmtV (Arg.ptr^[k] (.str d.text)) = .error .explicitPanic ↔
        2 ^ 63 ≤ Spec.Cldr.digitsVal d.fp)) := by
  have hp : ∀ k a, (Arg.ptr^[k] a).indirect = a.indirect := by
    intro k
    induction k with
    | zero => intro a; rfl
    | succ k ih => intro a; rw [Function.iterate_succ_apply, ih]; rfl
  have h2 : ∀ a f, mustNewOperands rest oor fmtV a = .error f ↔
      f = .explicitPanic ∧ newOperands rest oor fmtV a = none := by
    intro a f
    unfold mustNewOperands
    cases newOperands rest oor fmtV a with
    | none => simp [eq_comm]
    | some o => simp
  refine ⟨?_, h2, ?_, ?_, ?_⟩
  · intro a ops
    unfold mustNewOperands
    cases newOperands rest oor fmtV a <;> simp
  · intro k
    unfold mustNewOperands newOperands
    rw [hp]; rfl
  · intro k v
    unfold mustNewOperands newOperands
    rw [hp]; rfl
  · intro k d hw hb
    rw [h2]
    have : newOperands rest oor fmtV (Arg.ptr^[k] (.str d.text)) = newOperandsString rest oor d.text := by
      unfold newOperands
      rw [hp]; rfl
    rw [this, ← Nat.not_lt, ← C60_accepted_iff hw hb rest oor]
    simp

example : (⟨['0'], List.replicate 19 '9'⟩ : Decimal).WF ∧
    Spec.Cldr.digitsVal (⟨['0'], List.replicate 19 '9'⟩ : Decimal).ip < 10 ^ 300 :=
  ⟨⟨by simp, by simp, by simp⟩, by decide +kernel⟩

/-! ## C35: integers of any size -/

/-- `ParseFloat` of an integer is the conversion of the integer. -/
theorem roundRatio_int {n : Nat} (hn : n < 2 ^ 1000) : roundRatio n 1 = some (.fin (round53 n : Nat) 0) := by
  unfold roundRatio round53
  simp only [Nat.div_one, Nat.mod_one, true_and]
  split
  · rfl
  · rename_i h
    have h0 : n ≠ 0 := by intro h0; rw [h0] at h; exact h (by decide)
    have hl1 : 2 ^ n.log2 ≤ n := Nat.log2_self_le h0
    have hl2 : n < 2 ^ (n.log2 + 1) := Nat.lt_log2_self
    have hl : 53 ≤ n.log2 := by
      rcases Nat.lt_or_ge n.log2 53 with hlt | hge
      · exact absurd (Nat.lt_of_lt_of_le hl2 (Nat.pow_le_pow_right (by omega) hlt)) h
      · exact hge
    have hu : n.log2 < 1000 := by
      rcases Nat.lt_or_ge n.log2 1000 with hlt | hge
      · exact hlt
      · exact absurd (Nat.lt_of_le_of_lt (Nat.le_trans (Nat.pow_le_pow_right (by omega) hge) hl1) hn) (Nat.lt_irrefl _)
    obtain ⟨s, hs⟩ : ∃ s, n.log2 = s + 53 := ⟨n.log2 - 53, by omega⟩
    have e1 : Nat.log2 1 = 0 := by decide
    have e0 : ((n.log2 : Int) - (Nat.log2 1 : Nat) - 53) = (s : Int) := by rw [e1, hs]; omega
    rw [e0]
    have ht : (s : Int).toNat = s := by omega
    have ht0 : (-(s : Int)).toNat = 0 := by omega
    have hc : ¬ n * 2 ^ (-(s : Int)).toNat < 2 ^ 53 * 1 * 2 ^ (s : Int).toNat := by
      rw [ht, ht0, Nat.pow_zero, Nat.mul_one, Nat.mul_one, ← Nat.pow_add, Nat.not_lt, Nat.add_comm, ← hs]
      exact hl1
    rw [if_neg hc]
    have hm : max ((s : Int) + 1) (-1074) = ((s + 1 : Nat) : Int) := by omega
    rw [hm, if_pos (Int.natCast_nonneg _), Int.toNat_natCast, Nat.one_mul, show n.log2 - 52 = s + 1 by omega]
    have hle : halfEven n (2 ^ (s + 1)) ≤ 2 ^ 53 := by
      apply Verif.Proofs.Go.halfEven_le (Nat.pow_pos (by omega))
      rw [← Nat.pow_add, show 53 + (s + 1) = n.log2 + 1 by omega]
      exact Nat.le_of_lt hl2
    rw [if_pos]
    calc halfEven n (2 ^ (s + 1)) * 2 ^ (s + 1) ≤ 2 ^ 53 * 2 ^ (s + 1) := Nat.mul_le_mul_right _ hle
      _ = 2 ^ (53 + (s + 1)) := (Nat.pow_add ..).symm
      _ < 2 ^ 1024 := Nat.pow_lt_pow_right (by omega) (by omega)

theorem parseFloat_dec {n : Nat} (hn : n < 2 ^ 1000) (rest : List Char → Option F64) :
    parseFloat rest (dec n) = some (.fin (round53 n : Nat) 0) := by
  have hp := parseFloat_text (ofNat_wf n) rest
  have hv : Spec.Cldr.digitsVal ((ofNat n).ip ++ (ofNat n).fp) = n := by simp [ofNat, dec_val]
  have hl : 10 ^ (ofNat n).fp.length = 1 := rfl
  rw [ofNat_text, hv, hl, Nat.gcd_one_right, Nat.div_one, Nat.div_one] at hp
  rw [hp]; exact roundRatio_int hn

theorem toInt64_nat (oor : F64 → Int) {k : Nat} (h : k < 2 ^ 63) : (F64.fin (k : Nat) 0).toInt64 oor = k := by
  unfold F64.toInt64
  simp only [Int.le_refl, if_true, Int.toNat_zero, Int.pow_zero, Int.mul_one]
  rw [if_pos (by omega)]

theorem ofInt_nat (n : Nat) : F64.ofInt n = .fin (round53 n : Nat) 0 := by
  unfold F64.ofInt
  rcases Nat.eq_zero_or_pos n with rfl | h
  · decide
  · rw [Int.sign_eq_one_of_pos (by omega), Int.one_mul]; rfl

theorem text_integer (rest : List Char → Option F64) (oor : F64 → Int) (fmtV : F64 → List Char) {n : Nat}
    (hn : n < 2 ^ 63) : newOperands rest oor fmtV (.str (dec n)) =
      some { newOperandsInt n with i := if round53 n < 2 ^ 63 then (round53 n : Int) else oor (.fin (2 ^ 63) 0) } := by
  have hle : round53 n ≤ 2 ^ 63 := by
    have h1 := round53_nearest n
    have h2 := h1.2 (2 ^ 63) ⟨1, 63, by decide, by decide⟩
    unfold dist at h2
    omega
  have h1 := newOperandsString_plain (ofNat_wf n) rest oor
  have h2 := operands_eq (ofNat_wf n) rest oor 0
  rw [ofNat_text] at h1 h2
  have e : newOperands rest oor fmtV (.str (dec n)) = newOperandsString rest oor (dec n) := rfl
  have hf : Spec.Cldr.digitsVal (ofNat n).fp < 2 ^ 63 := by
    show Spec.Cldr.digitsVal [] < 2 ^ 63
    decide
  rw [e, h1, h2, if_pos hf, parseFloat_dec (Nat.lt_trans hn (Nat.pow_lt_pow_right (by omega) (by omega)))]
  have hneg : ¬ ((n : Int) < 0) := by omega
  have hi : newOperandsInt n = ⟨F64.ofInt n, n, 0, 0, 0, 0, 0⟩ := by
    unfold newOperandsInt
    simp only [hneg, if_false]
  rw [hi, ofInt_nat]
  have hto : (F64.fin (round53 n : Nat) 0).toInt64 oor =
      if round53 n < 2 ^ 63 then (round53 n : Int) else oor (.fin (2 ^ 63) 0) := by
    split
    · rename_i h; exact toInt64_nat oor h
    · rename_i h
      have hE : round53 n = 2 ^ 63 := by omega
      rw [hE]
      unfold F64.toInt64
      simp only [Int.le_refl, if_true, Int.toNat_zero, Int.pow_zero, Int.mul_one]
      rw [if_neg (by omega)]
      rfl
  simp only [Option.map_some, hto]
  rfl

/-- A natural number as a text has the operands of the integer, except that `i` is that of the
nearest number that a float64 holds. -/
theorem C35_text_integer (rest : List Char → Option F64) (oor : F64 → Int) (fmtV : F64 → List Char) {n : Nat}
    (hn : n < 2 ^ 63) : ∃ k, Nearest n k ∧ newOperands rest oor fmtV (.str (dec n)) =
      some { newOperandsInt n with i := if k < 2 ^ 63 then (k : Int) else oor (.fin (2 ^ 63) 0) } :=
  ⟨round53 n, round53_nearest n, text_integer rest oor fmtV hn⟩

/-- So the text and the integer have the same operands exactly if a float64 holds the integer.  The
hypothesis is about the conversion of 2^63 to int64, which is negative on amd64. -/
theorem C35_text_iff (rest : List Char → Option F64) {oor : F64 → Int} (fmtV : F64 → List Char) {n : Nat}
    (hn : n < 2 ^ 63) (ho : oor (.fin (2 ^ 63) 0) < 0) :
    newOperands rest oor fmtV (.str (dec n)) = newOperands rest oor fmtV (.int n) ↔ Held n := by
  obtain ⟨k, hk, he⟩ := C35_text_integer rest oor fmtV hn
  have hi : (newOperandsInt n).i = n := by
    unfold newOperandsInt
    have hneg : ¬ ((n : Int) < 0) := by omega
    simp only [hneg, if_false]
  have e : newOperands rest oor fmtV (.int n) = some (newOperandsInt n) := rfl
  rw [he, e]
  constructor
  · intro h
    have h1 := congrArg Operands.i (Option.some.inj h)
    rw [hi] at h1
    simp only [] at h1
    split at h1
    · obtain rfl : k = n := by omega
      exact hk.1
    · omega
  · intro h
    obtain rfl := Verif.Proofs.Go.nearest_held hk h
    rw [if_pos hn]
    congr 1

/-- 2^53 + 9 is held by no float64, so its text has other operands, and Russian another category. -/
theorem C35_large_negation (rest : List Char → Option F64) (oor : F64 → Int) (fmtV : F64 → List Char) :
    ¬ Held (2 ^ 53 + 9) ∧
    rs_ru.form (newOperandsInt (2 ^ 53 + 9 : Nat)) = .one ∧
    ∃ ops, newOperands rest oor fmtV (.str (dec (2 ^ 53 + 9))) = some ops ∧ rs_ru.form ops = .many := by
  have hr : round53 (2 ^ 53 + 9) = 2 ^ 53 + 8 := by decide +kernel
  refine ⟨?_, by decide +kernel, ?_⟩
  · rw [← round53_eq_iff, hr]; decide
  · refine ⟨_, text_integer rest oor fmtV (n := 2 ^ 53 + 9) (by decide), ?_⟩
    rw [hr, if_pos (by decide)]
    decide +kernel

example : Held (2 ^ 60 + 2 ^ 10) ∧ ¬ 2 ^ 60 + 2 ^ 10 < 2 ^ 53 := ⟨⟨2 ^ 50 + 1, 10, by decide, by decide⟩, by decide⟩

end Verif.Props.CldrOperands
