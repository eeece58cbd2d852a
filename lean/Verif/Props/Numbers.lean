import Verif.Proofs.Go.Held
import Verif.Proofs.Humanize.Numbers
import Verif.Proofs.Humanize.Intword
/-!
# Humanized numbers and sizes: C53, C54, C58

A localizer is any set of functions; a claim about a text is a claim about the message, its arguments and the number
that selects the plural form.
-/
namespace Verif.Props.Numbers
open Verif.Go Verif.Model.Humanize Verif.Spec.Humanize Verif.Proofs.Humanize
open Verif.Spec.Held
open Verif.Proofs.Go (Rep ratOf_zero ofInt_small ofInt_eq_ofRat)

/-- A localizer for examples: it shows the arguments one after another behind the message. -/
def showLoc : Loc where
  get m := m
  pGet _ m := m
  getf m args := m ++ args.flatMap fun | .int n => itoa n | .str s => s | _ => b!"?"
  pGetf _ m args := m ++ args.flatMap fun | .int n => itoa n | .str s => s | _ => b!"?"
  nGetf s p n args := (if n = 1 then s else p) ++ args.flatMap fun | .int n => itoa n | .str s => s | _ => b!"?"
  npGetf _ s p n args := (if n = 1 then s else p) ++ args.flatMap fun | .int n => itoa n | .str s => s | _ => b!"?"
  print _ args := args.flatMap fun
    | .int n => itoa n | .str s => s | .float x => itoa (x.toInt64 fun _ => 0) | .decimal x _ => itoa (x.toInt64 fun _ => 0)

/-- An environment for examples; conversions out of range give the smallest int64, as on amd64. -/
def showEnv : Env := ⟨showLoc, fun _ => none, fun _ => -(2 ^ 63), fun _ => b!"error", id, utc, b!"UTC"⟩

/-! ## C53 -/

/-- C53 for every number below 2^63, whatever its type: the suffix belongs to the number without its fraction.
Missing: larger numbers and NaN, for which the conversion to int64 is not defined (`C53_negation`), and integers that
float64 does not hold (`C53_rounding_negation`). -/
theorem C53_suffix_partial (env : Env) (v : Val) (x : F64) (r : Rat) (n : Nat) (hv : toNumber env.parse v = some x)
    (hx : IsValue x r) (h0 : 0 ≤ r) (h1 : r < 2 ^ 63) (hn : r.floor = n) :
    ordinal env v = .ok (env.loc.pGetf (ordinalContext n) (b!"%v" ++ ordinalSuffix n) [.int n]) := by
  obtain ⟨m, e, rfl, rfl⟩ := hx
  refine ordinal_nat env v _ n hv ?_ ?_
  · rw [ofInt_small (by omega), lt_fin, ratOf_zero]
    simpa using h0
  · rw [toInt64_floor env.oor (ratOf_nonneg.mp h0) h1, hn]

/-- 112.5 has the text of 112. -/
example : IsValue (.fin 225 (-1)) (225 / 2) ∧ (0 : Rat) ≤ 225 / 2 ∧ (225 / 2 : Rat) < 2 ^ 63 ∧
    (225 / 2 : Rat).floor = (112 : Nat) ∧ ordinalSuffix 112 = b!"th" ∧
    ordinal showEnv (.float (.fin 225 (-1))) = .ok b!"%vth112" := by
  refine ⟨⟨225, -1, rfl, by decide +kernel⟩, by decide +kernel, by decide +kernel, by decide +kernel, by decide +kernel, by decide +kernel⟩

/-- C53 for every integer below 2^53. -/
theorem C53_integer_partial (env : Env) (n : Nat) (h : n < 2 ^ 53) :
    ordinal env (.int n) = .ok (env.loc.pGetf (ordinalContext n) (b!"%v" ++ ordinalSuffix n) [.int n]) := by
  refine ordinal_nat env _ _ n (val_num n (by omega) env.parse) ?_ ?_
  · rw [lt_zero_int]; simp
  · exact Verif.Proofs.Go.toInt64_int env.oor (by omega) (by omega)

example : (1113 : Nat) < 2 ^ 53 ∧ ordinalSuffix 1113 = b!"th" ∧ ordinalSuffix 1123 = b!"rd" := by decide

theorem nearest_num (n : Nat) : ∃ k : Nat, Nearest n k ∧ ∀ parse, toNumber parse (.int n) = some (.fin k 0) := by
  obtain ⟨k, ⟨h1, h2, _⟩, h3⟩ := Verif.Proofs.Go.ofInt_nearest n
  obtain ⟨k, rfl⟩ := Int.eq_ofNat_of_zero_le (h2 (by omega))
  exact ⟨k, h1, fun parse => by show some (F64.ofInt n) = _; rw [h3]⟩

/-- Every integer gets the suffix and the text of an integer that a float64 holds and that is as close as any; it is the
integer itself if a float64 holds it. -/
theorem C53_integer_nearest (env : Env) (n : Nat) : ∃ k, Nearest n k ∧ (Held n → k = n) ∧ (k < 2 ^ 63 →
    ordinal env (.int n) = .ok (env.loc.pGetf (ordinalContext k) (b!"%v" ++ ordinalSuffix k) [.int k])) := by
  obtain ⟨k, h1, h2⟩ := nearest_num n
  refine ⟨k, h1, Verif.Proofs.Go.nearest_held h1, fun hk => ordinal_nat env _ _ k (h2 env.parse) ?_ ?_⟩
  · rw [lt_zero_int]; simp
  · exact Verif.Proofs.Go.toInt64_int env.oor (by omega) (by omega)

example : Held (10 ^ 18) ∧ ordinal showEnv (.int (10 ^ 18)) = .ok b!"%vth1000000000000000000" :=
  ⟨⟨5 ^ 18, 18, by decide, by decide⟩, by decide +kernel⟩

/-- Negative integers are printed without suffix. -/
theorem C53_negative (env : Env) (n : Nat) (h0 : 0 < n) (h : n < 2 ^ 53) :
    ordinal env (.int (-(n : Int))) = .ok (itoa (-(n : Int))) := by
  have hv := val_num (-(n : Int)) (by omega) env.parse
  unfold ordinal
  simp only [hv, lt_zero_int]
  rw [if_pos (by simp; omega), Verif.Proofs.Go.toInt64_int env.oor (by omega) (by omega)]

example : ordinal showEnv (.int (-3)) = .ok b!"-3" := by decide +kernel

/-- No panic if the conversion of numbers out of range does not produce a negative number, as on arm64. -/
theorem C53_no_panic_partial (env : Env) (v : Val) (h : ∀ x, F64.lt x (.ofInt 0) = false → 0 ≤ x.toInt64 env.oor) :
    ∃ t, ordinal env v = .ok t := ordinal_total env v h

/-- The hypothesis is met by a conversion that saturates. -/
example : ∀ x, F64.lt x (.ofInt 0) = false → 0 ≤ x.toInt64 (fun _ => 2 ^ 63 - 1) := by
  intro x hx
  cases x with
  | nan => decide
  | inf s => show (0 : Int) ≤ 2 ^ 63 - 1; decide
  | fin m e =>
    rw [ofInt_small (by omega), lt_fin, ratOf_zero] at hx
    have h0 : 0 ≤ ratOf m e := by simpa using hx
    have hm := ratOf_nonneg.mp h0
    have hv : 0 ≤ (if 0 ≤ e then m * 2 ^ e.toNat else m.tdiv (2 ^ (-e).toNat)) := by
      split
      · positivity
      · exact Int.tdiv_nonneg hm (by positivity)
    simp only [F64.toInt64]
    by_cases hr : -(2 ^ 63) ≤ (if 0 ≤ e then m * 2 ^ e.toNat else m.tdiv (2 ^ (-e).toNat)) ∧
        (if 0 ≤ e then m * 2 ^ e.toNat else m.tdiv (2 ^ (-e).toNat)) < 2 ^ 63
    · rw [if_pos hr]; exact hv
    · rw [if_neg hr]; decide

/-- Exactly when Ordinal panics: the number is not negative, and the last digit of what the conversion to int64 makes
of it is. -/
theorem C53_panics_iff (env : Env) (v : Val) : (∃ f, ordinal env v = .error f) ↔
    ∃ x, toNumber env.parse v = some x ∧ F64.lt x (.ofInt 0) = false ∧ (x.toInt64 env.oor).tmod 10 < 0 :=
  ordinal_panics env v

/-- Where conversions out of range give the smallest int64 (amd64): NaN, plus infinity and every number from 2^63 on
panic, and nothing else does. -/
theorem C53_panics_amd64 (env : Env) (h : ∀ x, env.oor x = -(2 ^ 63)) (v : Val) : (∃ f, ordinal env v = .error f) ↔
    ∃ x, toNumber env.parse v = some x ∧ (x = .nan ∨ x = .inf false ∨ ∃ r, IsValue x r ∧ 2 ^ 63 ≤ r) := by
  rw [ordinal_panics]
  refine exists_congr fun x => and_congr_right fun _ => ?_
  rw [ofInt_small (by omega)]
  cases x with
  | nan => simp only [F64.lt, F64.toInt64, h]; simp
  | inf s => cases s <;> (simp only [F64.lt, F64.toInt64, h, IsValue]; simp; try decide)
  | fin m e =>
    rw [lt_fin, ratOf_zero]
    simp only [reduceCtorEq, false_or, IsValue, F64.fin.injEq, Int.cast_zero, decide_eq_false_iff_not, not_lt]
    constructor
    · rintro ⟨h0, hm⟩
      refine ⟨_, ⟨m, e, ⟨rfl, rfl⟩, rfl⟩, ?_⟩
      by_contra hr
      rw [toInt64_floor env.oor (ratOf_nonneg.mp h0) (not_le.mp hr)] at hm
      have hf : 0 ≤ (ratOf m e).floor := Rat.le_floor_iff.mpr (by simpa using h0)
      have := Int.tmod_nonneg 10 hf
      omega
    · rintro ⟨r, ⟨m', e', ⟨rfl, rfl⟩, rfl⟩, hr⟩
      have h0 : 0 ≤ ratOf m e := by linarith [show (0 : ℚ) ≤ 2 ^ 63 by norm_num]
      refine ⟨h0, ?_⟩
      rw [toInt64_large env.oor (ratOf_nonneg.mp h0) hr, h]
      decide

example : (∀ x, showEnv.oor x = -(2 ^ 63)) ∧ IsValue (.fin (10 ^ 19) 0) (10 ^ 19) ∧ (2 ^ 63 : Rat) ≤ 10 ^ 19 :=
  ⟨fun _ => rfl, ⟨10 ^ 19, 0, rfl, by decide +kernel⟩, by norm_num⟩

/-- C53 fails: 10^19 panics where out-of-range conversions give the smallest int64 (amd64). -/
theorem C53_negation : ¬ ∀ (env : Env) (v : Val), ∃ t, ordinal env v = .ok t := by
  intro h
  obtain ⟨t, ht⟩ := h showEnv (.float (F64.ofInt (10 ^ 19)))
  have : ordinal showEnv (.float (F64.ofInt (10 ^ 19))) = .error .indexOutOfRange := by decide +kernel
  rw [this] at ht
  cases ht

/-- C53 fails for the largest int64: Ordinal panics where out-of-range conversions give the smallest int64 (amd64). -/
theorem C53_largest_negation : ordinal showEnv (.int (2 ^ 63 - 1)) = .error .indexOutOfRange := by decide +kernel

/-- C53 fails for integers that float64 does not hold: 2^53 + 1 gets the text of 2^53. -/
theorem C53_rounding_negation : ¬ ∀ (env : Env) (n : Nat), n < 2 ^ 63 →
    ordinal env (.int n) = .ok (env.loc.pGetf (ordinalContext n) (b!"%v" ++ ordinalSuffix n) [.int n]) := by
  intro h
  have := h showEnv (2 ^ 53 + 1) (by decide)
  revert this
  decide +kernel

/-! ## C54 -/

/-- C54: a size below 1 KB is shown in bytes. -/
theorem C54_bytes (env : Env) (n : Nat) (h : n < 2 ^ 10) :
    filesizeFormat env (.bytes n) = env.loc.nGetf b!"%[1]d byte" b!"%[1]d bytes" n [.int n] := sizeText_small env n h

example : filesizeFormat showEnv (.bytes 1023) = b!"%[1]d bytes1023" := by decide +kernel

/-- C54: any other size uses the largest unit that does not exceed it, and the quotient shown is exact below 2^53. -/
theorem C54_unit (env : Env) (n : Nat) (h : 2 ^ 10 ≤ n) :
    ∃ (u : Nat) (name : Bytes) (q : F64), LargestUnit u name n ∧ (n < 2 ^ 53 → IsValue q ((n : Rat) / u)) ∧
      filesizeFormat env (.bytes n) = env.loc.getf (b!"%s " ++ name) [.str (env.loc.print b!"%v" [.decimal q 1])] := by
  obtain ⟨u, name, h1, h2⟩ := sizeText_unit env n h
  exact ⟨u, name, _, h1, fun hn => quotient_exact u name n h1.1 hn, h2⟩

example : LargestUnit (2 ^ 20) b!"MB" (2 ^ 30 - 1) :=
  largestUnit _ _ _ (by decide) (by decide) (by decide)

/-- A byte slice and an integer with the same number of bytes below 2^53 give the same text. -/
theorem C54_integer (env : Env) (n : Nat) (h : n < 2 ^ 53) :
    filesizeFormat env (.other (.int n)) = filesizeFormat env (.bytes n) := by
  unfold filesizeFormat
  simp only [val_num (n : Int) (by omega)]
  rw [Verif.Proofs.Go.toInt64_int env.oor (by omega) (by omega)]

/-- From 2^53 on an integer is shown like a number of bytes that a float64 holds and that is as close as any; it is the
integer itself if a float64 holds it. -/
theorem C54_integer_nearest (env : Env) (n : Nat) : ∃ k, Nearest n k ∧ (Held n → k = n) ∧ (k < 2 ^ 63 →
    filesizeFormat env (.other (.int n)) = filesizeFormat env (.bytes k)) := by
  obtain ⟨k, h1, h2⟩ := nearest_num n
  refine ⟨k, h1, Verif.Proofs.Go.nearest_held h1, fun hk => ?_⟩
  unfold filesizeFormat
  simp only [h2]
  rw [Verif.Proofs.Go.toInt64_int env.oor (by omega) (by omega)]

/-- C54: `-n` is shown as `n` with a minus sign.  Missing: integers from 2^53 on, which are rounded before; the
smallest int64 is shown with two minus signs (`C54_negation`). -/
theorem C54_minus_partial (env : Env) (n : Nat) (h0 : 0 < n) (h : n < 2 ^ 53) :
    filesizeFormat env (.other (.int (-(n : Int)))) = b!"-" ++ filesizeFormat env (.other (.int n)) := by
  unfold filesizeFormat
  simp only [val_num (n : Int) (by omega), val_num (-(n : Int)) (by omega)]
  rw [Verif.Proofs.Go.toInt64_int env.oor (by omega) (by omega), Verif.Proofs.Go.toInt64_int env.oor (by omega) (by omega)]
  exact sizeText_neg env n h0 (by omega)

example : filesizeFormat showEnv (.other (.int (-2048))) = b!"-%s KB2" := by decide +kernel

/-- C54: the same for every count of bytes that int64 holds, except the smallest. -/
theorem C54_minus_count (env : Env) (n : Nat) (h0 : 0 < n) (h : n < 2 ^ 63) :
    sizeText env (-(n : Int)) = b!"-" ++ sizeText env n := sizeText_neg env n h0 h

/-- C54 fails for the smallest int64, for every localizer and every way to convert out-of-range numbers: it is shown
in bytes, not in PB, with a minus sign before the minus sign of the number. -/
theorem C54_min (env : Env) : filesizeFormat env (.other (.int (-(2 ^ 63)))) =
    b!"-" ++ env.loc.nGetf b!"%[1]d byte" b!"%[1]d bytes" (-(2 ^ 63)) [.int (-(2 ^ 63))] := by
  have e1 : F64.ofInt (-(2 ^ 63)) = .fin (-(2 ^ 63)) 0 := by decide +kernel
  have hv : toNumber env.parse (.int (-(2 ^ 63))) = some (.fin (-(2 ^ 63)) 0) := by
    show some (F64.ofInt (-(2 ^ 63))) = _
    rw [e1]
  unfold filesizeFormat
  simp only [hv]
  rw [Verif.Proofs.Go.toInt64_int env.oor (by omega) (by omega)]
  rfl

theorem C54_negation : ¬ ∀ (env : Env) (n : Nat), 2 ^ 10 ≤ n → n ≤ 2 ^ 63 →
    ∃ (u : Nat) (name s : Bytes), LargestUnit u name n ∧
      filesizeFormat env (.other (.int (-(n : Int)))) = b!"-" ++ env.loc.getf (b!"%s " ++ name) [.str s] := by
  intro h
  obtain ⟨u, name, s, _, hs⟩ := h { showEnv with loc := { showLoc with getf := fun _ _ => [], nGetf := fun _ _ _ _ => b!"x" } }
    (2 ^ 63) (by decide) (by decide)
  have e : -(((2 : Nat) ^ 63 : Nat) : Int) = -(2 ^ 63) := by decide
  rw [e, C54_min] at hs
  simp at hs

/-! ## C58 -/

/-- C58: Apnumber spells out exactly the integers 1 to 9 and prints any other below 2^53. -/
theorem C58_apnumber_partial (env : Env) (n : Int) (h : n.natAbs < 2 ^ 53) :
    apnumber env (.int n) =
      .ok (if 1 ≤ n ∧ n ≤ 9 then env.loc.get (numberWord n) else env.loc.print b!"%d" [.int n]) := by
  rw [apnumber_int env _ _ (val_num n h env.parse), Verif.Proofs.Go.toInt64_int env.oor (by omega) (by omega)]

/-- Every integer from 10 on is printed as an integer that a float64 holds and that is as close as any. -/
theorem C58_apnumber_nearest (env : Env) (n : Nat) (h : 10 ≤ n) : ∃ k : Nat, Nearest n k ∧ (Held n → k = n) ∧ (k < 2 ^ 63 →
    apnumber env (.int n) = .ok (env.loc.print b!"%d" [.int k])) := by
  obtain ⟨k, h1, h2⟩ := nearest_num n
  refine ⟨k, h1, Verif.Proofs.Go.nearest_held h1, fun hk => ?_⟩
  rw [apnumber_int env _ _ (h2 env.parse), Verif.Proofs.Go.toInt64_int env.oor (by omega) (by omega)]
  have h10 : 10 ≤ k := by
    have := h1.2 10 (Verif.Proofs.Go.held_small (by decide))
    unfold dist at this
    by_cases hs : n < 2 ^ 53
    · have := Verif.Proofs.Go.nearest_held h1 (Verif.Proofs.Go.held_small hs); omega
    · omega
  rw [if_neg (by omega)]

example : apnumber showEnv (.int 9) = .ok b!"nine" ∧ apnumber showEnv (.int 10) = .ok b!"10" ∧
    apnumber showEnv (.int (-1)) = .ok b!"-1" := by decide +kernel

/-- Apnumber never panics. -/
theorem C58_apnumber_no_panic (env : Env) (v : Val) : ∃ t, apnumber env v = .ok t := by
  cases hx : toNumber env.parse v with
  | none => exact ⟨_, by unfold apnumber; simp only [hx]; rfl⟩
  | some x => exact ⟨_, apnumber_int env v x hx⟩

/-- C58 fails for fractions: 1.5 is spelled "one". -/
theorem C58_apnumber_negation : ¬ ∀ (env : Env) (x : F64) (r : Rat), IsValue x r →
    (∀ n : Int, r ≠ n) → ∀ n : Int, apnumber env (.float x) ≠ .ok (env.loc.get (numberWord n)) := by
  intro h
  refine h showEnv (.fin 3 (-1)) (3 / 2) ⟨3, -1, rfl, by decide +kernel⟩ ?_ 1 (by decide +kernel)
  intro n hn
  have h1 : (3 : Rat) = 2 * n := by rw [← hn]; norm_num
  have h2 : (3 : Int) = 2 * n := by exact_mod_cast h1
  omega

/-- C58: numbers below a million are printed with separators. -/
theorem C58_intword_small (env : Env) (v : Val) (x : F64) (r : Rat) (hv : toNumber env.parse v = some x)
    (hx : IsValue x r) (h : |r| < 10 ^ 6) : intword env v = env.loc.print b!"%v" [.decimal x 6] := by
  obtain ⟨m, e, rfl, rfl⟩ := hx
  unfold intword
  have e0 : F64.ofInt 1000000 = .fin 1000000 0 := ofInt_small (by omega)
  simp only [hv, e0, F64.abs, lt_fin, ratOf_abs, ratOf_zero, decide_eq_true_eq]
  rw [if_pos (by push_cast; norm_num at h ⊢; linarith)]
  rfl

example : IsValue (.fin (-999999) 0) (-999999) ∧ |(-999999 : Rat)| < 10 ^ 6 :=
  ⟨⟨-999999, 0, rfl, by decide +kernel⟩, by norm_num [abs_of_neg]⟩

/-- C58: from a million to 10^36 Intword uses the largest power word that does not exceed the number, and shows the
quotient of the number and the power; the plural form is the one of the magnitude of the quotient, rounded up.  Missing:
the float64 nearest to 10^24, which is below it and is shown as 1.0 septillion, and the numbers from 10^36 on
(`C58_intword_negation`). -/
theorem C58_intword_partial (env : Env) (v : Val) (x : F64) (r : Rat) (hv : toNumber env.parse v = some x)
    (hx : IsValue x r) (hf : Rep |r|) (h6 : 10 ^ 6 ≤ |r|) (h36 : |r| < 10 ^ 36) (hne : |r| ≠ 999999999999999983222784) :
    ∃ (e : Nat) (word : Bytes) (q : Rat), LargestPower e word |r| ∧ IsValue (F64.div x (F64.pow10 e)) q ∧ 1 ≤ |q| ∧
      intword env v = env.loc.nGetf (b!"%[1]s " ++ word) (b!"%[1]s " ++ word) |q|.ceil
        [.str (env.loc.print b!"%.1f" [.float (F64.div x (F64.pow10 e))])] := by
  obtain ⟨m, e, rfl, rfl⟩ := hx
  obtain ⟨k, word, h1, h2⟩ := intword_word env v m e hv hf h6 h36 hne
  obtain ⟨m', e', hd, hr, l1, l2⟩ := Proofs.Humanize.Intword.shown hf h1 h36
  refine ⟨k, word, ratOf m' e', h1, ⟨m', e', hd, rfl⟩, l1, ?_⟩
  rw [h2, wordText, ← Proofs.Humanize.Intword.count_eq env.oor hr l1 l2, hd]

/-- The hypotheses are met by -1500000. -/
example : IsValue (.fin (-1500000) 0) (-1500000) ∧ Rep |(-1500000 : Rat)| ∧ (10 : Rat) ^ 6 ≤ |(-1500000 : Rat)| ∧
    |(-1500000 : Rat)| < 10 ^ 36 ∧ |(-1500000 : Rat)| ≠ 999999999999999983222784 := by
  have e : |(-1500000 : Rat)| = 1500000 := by norm_num [abs_of_neg]
  rw [e]
  exact ⟨⟨-1500000, 0, rfl, by decide +kernel⟩, ⟨1500000, 0, by norm_num, by norm_num, by norm_num⟩, by norm_num,
    by norm_num, by norm_num⟩

/-- The message for 10^40. -/
theorem intword_40 (env : Env) (x : F64) (hx : x = F64.ofInt (10 ^ 40)) : ∃ count args,
    intword env (.float x) = env.loc.nGetf b!"%[1]s googol" b!"%[1]s googol" count args := by
  subst hx
  have e1 : F64.lt (F64.ofInt (10 ^ 40)).abs (.ofInt 1000000) = false := by decide +kernel
  have e2 : ∀ p ∈ intwordConverters.take 10,
      F64.lt (F64.ofInt (10 ^ 40)).abs (F64.mul (F64.pow10 p.1) (.ofInt 1000)) = false := by decide +kernel
  have e3 : F64.lt (F64.ofInt (10 ^ 40)).abs (F64.mul (F64.pow10 100) (.ofInt 1000)) = true := by decide +kernel
  refine ⟨intwordCount env.oor (F64.div (F64.ofInt (10 ^ 40)) (F64.pow10 100)),
    [.str (env.loc.print b!"%.1f" [.float (F64.div (F64.ofInt (10 ^ 40)) (F64.pow10 100))])], ?_⟩
  simp only [intwordConverters, List.take, List.forall_mem_cons] at e2
  obtain ⟨a1, a2, a3, a4, a5, a6, a7, a8, a9, a10, _⟩ := e2
  have hv : toNumber env.parse (.float (F64.ofInt (10 ^ 40))) = some (F64.ofInt (10 ^ 40)) := rfl
  unfold intword
  simp only [hv, e1, intwordConverters, intwordLoop, a1, a2, a3, a4, a5, a6, a7, a8, a9, a10, e3, Bool.false_eq_true,
    if_false, if_true]

/-- C58 fails for 10^40, which is shown as "0.0 googol". -/
theorem C58_intword_negation : ¬ ∀ (env : Env) (x : F64) (r : Rat), IsValue x r → 10 ^ 6 ≤ |r| →
    ∃ (e : Nat) (word : Bytes) (count : Int) (args : List Arg), LargestPower e word |r| ∧
      intword env (.float x) = env.loc.nGetf (b!"%[1]s " ++ word) (b!"%[1]s " ++ word) count args := by
  intro h
  let env : Env := { showEnv with loc := { showLoc with nGetf := fun s _ _ _ => s } }
  have hv : F64.ofInt (10 ^ 40) = .fin 10000000000000000303786028427003666890752 0 := by decide +kernel
  obtain ⟨e, word, count, args, ⟨h1, h2, _⟩, h4⟩ := h env (F64.ofInt (10 ^ 40)) 10000000000000000303786028427003666890752
    ⟨_, _, hv, by decide +kernel⟩ (by norm_num)
  obtain ⟨c, a, h5⟩ := intword_40 env _ rfl
  rw [h5] at h4
  have h6 : b!"%[1]s googol" = b!"%[1]s " ++ word := h4
  have key : ∀ p ∈ powerWords, b!"%[1]s googol" = b!"%[1]s " ++ p.2 → p.1 = 100 := by decide +kernel
  have h7 : e = 100 := key _ h1 h6
  subst h7
  norm_num at h2

end Verif.Props.Numbers
