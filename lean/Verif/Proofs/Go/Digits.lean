import Verif.Go.Time
import Verif.Spec.Decimal
import Mathlib.Tactic.Ring
/-!
# Decimal digits
-/
namespace Verif.Proofs.Go
open Verif.Go Verif.Spec.Decimal

theorem foldl_digits (b : Bytes) : ∀ x : Nat, b.foldl (fun n c => 10 * n + (c.toNat - 48)) x =
    x * 10 ^ b.length + b.foldl (fun n c => 10 * n + (c.toNat - 48)) 0 := by
  induction b with
  | nil => intro x; simp
  | cons c b ih =>
    intro x
    simp only [List.foldl_cons, List.length_cons]
    rw [ih (10 * x + (c.toNat - 48)), ih (10 * 0 + (c.toNat - 48))]
    ring

theorem foldl_append_digits (a b : Bytes) : natVal (a ++ b) = natVal a * 10 ^ b.length + natVal b := by
  unfold natVal
  rw [List.foldl_append, foldl_digits]

theorem natVal_zeros (k : Nat) : natVal (List.replicate k 0x30) = 0 := by
  induction k with
  | zero => rfl
  | succ k ih =>
    rw [List.replicate_succ', foldl_append_digits, ih]; rfl

theorem digitByte {c : Char} (h : c.isDigit) : (UInt8.ofNat c.toNat).toNat = c.toNat ∧ 48 ≤ c.toNat ∧ c.toNat ≤ 57 := by
  have h1 : 48 ≤ c.toNat ∧ c.toNat ≤ 57 := by
    simp only [Char.isDigit, ge_iff_le, Bool.and_eq_true, decide_eq_true_eq, UInt32.le_iff_toNat_le] at h
    exact h
  refine ⟨?_, h1⟩
  rw [UInt8.toNat_ofNat']
  omega

theorem natVal_map {cs : List Char} (h : ∀ c ∈ cs, c.isDigit) :
    natVal (cs.map fun c => UInt8.ofNat c.toNat) = Nat.ofDigitChars 10 cs 0 := by
  unfold natVal Nat.ofDigitChars
  rw [List.foldl_map]
  generalize 0 = x
  induction cs generalizing x with
  | nil => rfl
  | cons c cs ih =>
    simp only [List.foldl_cons]
    rw [(digitByte (h c List.mem_cons_self)).1]
    exact ih (fun d hd => h d (List.mem_cons_of_mem _ hd)) _

/-- The digits of a number, as bytes. -/
theorem natDigits_spec (w n : Nat) : Digits (natDigits w n) n := by
  unfold natDigits
  refine ⟨?_, ?_, ?_⟩
  · simp [Nat.toDigits_ne_nil]
  · intro b hb
    rcases List.mem_append.mp hb with hb | hb
    · rw [List.eq_of_mem_replicate hb]; decide
    · obtain ⟨c, hc, rfl⟩ := List.mem_map.mp hb
      have := digitByte (Nat.isDigit_of_mem_toDigits (by omega) (by omega) hc)
      rw [this.1]; exact this.2
  · rw [foldl_append_digits, natVal_zeros, natVal_map (fun c hc => Nat.isDigit_of_mem_toDigits (by omega) (by omega) hc)]
    simp

theorem natDigits_length {w n : Nat} (hw : 0 < w) (h : n < 10 ^ w) : (natDigits w n).length = w := by
  unfold natDigits
  have := (Nat.length_toDigits_le_iff (b := 10) (n := n) (k := w) (by omega) hw).mpr h
  simp only [List.length_append, List.length_replicate, List.length_map]
  omega

theorem natDigits_plain (n : Nat) : natDigits 0 n = (Nat.toDigits 10 n).map fun c => UInt8.ofNat c.toNat := by
  unfold natDigits; simp

theorem natDigits_le {n k : Nat} (hk : 0 < k) : (natDigits 0 n).length ≤ k ↔ n < 10 ^ k := by
  rw [natDigits_plain, List.length_map]
  exact Nat.length_toDigits_le_iff (by omega) hk

theorem natDigits_pos (w n : Nat) : 0 < (natDigits w n).length :=
  List.length_pos_iff.mpr (natDigits_spec w n).1

theorem natVal_lt {s : Bytes} (h : ∀ b ∈ s, 48 ≤ b.toNat ∧ b.toNat ≤ 57) : natVal s < 10 ^ s.length := by
  induction s with
  | nil => simp [natVal]
  | cons c s ih =>
    have e := foldl_append_digits [c] s
    rw [List.singleton_append] at e
    rw [e]
    have h1 := h c List.mem_cons_self
    have h2 := ih fun b hb => h b (List.mem_cons_of_mem _ hb)
    have h3 : natVal [c] = c.toNat - 48 := by simp [natVal]
    rw [h3, List.length_cons, Nat.pow_succ]
    have h4 : (c.toNat - 48) * 10 ^ s.length ≤ 9 * 10 ^ s.length := Nat.mul_le_mul_right _ (by omega)
    omega

theorem natDigits_head (n : Nat) (h : 1 < (natDigits 0 n).length) : (natDigits 0 n).head? ≠ some 0x30 := by
  intro hh
  obtain ⟨-, h2, h3⟩ := natDigits_spec 0 n
  cases hs : natDigits 0 n with
  | nil => rw [hs] at h; simp at h
  | cons c r =>
    rw [hs] at h h2 h3 hh
    simp only [List.head?_cons, Option.some.injEq] at hh
    subst hh
    have e := foldl_append_digits [0x30] r
    rw [List.singleton_append] at e
    have h5 := natVal_lt fun b hb => h2 b (List.mem_cons_of_mem _ hb)
    have h6 : natVal [0x30] = 0 := by decide
    rw [e, h6] at h3
    have h7 := (natDigits_le (n := n) (k := r.length) (by simp at h; omega)).mpr (by omega)
    rw [hs] at h7
    simp at h7

/-- `strconv.Itoa` writes the number in decimal. -/
theorem itoa_plain (n : Int) : Plain (itoa n) n := by
  unfold itoa Plain
  by_cases h : n < 0
  · rw [if_pos h]
    refine Or.inr ⟨h, _, rfl, ?_, natDigits_head _⟩
    have e : n.natAbs = (-n).toNat := by omega
    rw [← e]
    exact natDigits_spec _ _
  · rw [if_neg h]
    refine Or.inl ⟨by omega, ?_, natDigits_head _⟩
    have e : n.natAbs = n.toNat := by omega
    rw [← e]
    exact natDigits_spec _ _

theorem padded {w : Nat} {n : Int} (hw : 0 < w) (h0 : 0 ≤ n) (h : n < 10 ^ w) :
    Padded w (pad0 w n) n.toNat ∧ Padded w (appendInt w n) n.toNat := by
  have e : n.natAbs = n.toNat := by omega
  have h' : n.toNat < 10 ^ w := by
    have : ((n.toNat : Nat) : Int) < ((10 ^ w : Nat) : Int) := by push_cast; omega
    omega
  unfold pad0 appendInt
  rw [if_neg (by omega), if_neg (by omega), e]
  exact ⟨⟨natDigits_length hw h', natDigits_spec _ _⟩, ⟨natDigits_length hw h', natDigits_spec _ _⟩⟩

end Verif.Proofs.Go
