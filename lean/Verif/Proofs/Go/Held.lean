import Verif.Go.Float
import Verif.Spec.Held
import Verif.Proofs.Go.Float
namespace Verif.Proofs.Go
open Verif.Go Verif.Spec.Held

theorem halfEven_nearest (a : Nat) {d : Nat} (hd : 0 < d) (k : Nat) : dist a (halfEven a d * d) ≤ dist a (k * d) := by
  have h := Nat.div_add_mod a d
  have hm := Nat.mod_lt a hd
  rw [Nat.mul_comm] at h
  generalize hq : a / d = q at *
  generalize hr : a % d = r at *
  have hk : k * d ≤ q * d ∨ (q + 1) * d ≤ k * d := by
    rcases Nat.lt_or_ge q k with hk | hk
    · exact .inr (Nat.mul_le_mul_right d hk)
    · exact .inl (Nat.mul_le_mul_right d hk)
  rw [Nat.add_mul, Nat.one_mul] at hk
  have hh : halfEven a d = q ∧ 2 * r ≤ d ∨ halfEven a d = q + 1 ∧ d ≤ 2 * r := by
    unfold halfEven
    simp only [hq, hr]
    split
    · exact .inl ⟨rfl, by omega⟩
    · split
      · exact .inr ⟨rfl, by omega⟩
      · split
        · exact .inl ⟨rfl, by omega⟩
        · exact .inr ⟨rfl, by omega⟩
  unfold dist
  rcases hh with ⟨hh, h2⟩ | ⟨hh, h2⟩ <;> rw [hh]
  · omega
  · rw [Nat.add_mul, Nat.one_mul]; omega

theorem held_small {n : Nat} (h : n < 2 ^ 53) : Held n := ⟨n, 0, h, by simp⟩

theorem round53_nearest (n : Nat) : Nearest n (round53 n) := by
  unfold round53
  split
  · rename_i h
    refine ⟨held_small h, fun j _ => ?_⟩
    unfold dist; omega
  · rename_i h
    simp only []
    have hn : n ≠ 0 := by intro h0; rw [h0] at h; exact h (by decide)
    have hl1 : 2 ^ n.log2 ≤ n := Nat.log2_self_le hn
    have hl2 : n < 2 ^ (n.log2 + 1) := Nat.lt_log2_self
    have hl : 53 ≤ n.log2 := by
      rcases Nat.lt_or_ge n.log2 53 with hlt | hge
      · exact absurd (Nat.lt_of_lt_of_le hl2 (Nat.pow_le_pow_right (by omega) hlt)) h
      · exact hge
    obtain ⟨s, hs⟩ : ∃ s, n.log2 = s + 53 := ⟨n.log2 - 53, by omega⟩
    have e1 : n.log2 - 52 = s + 1 := by omega
    rw [e1]
    rw [hs] at hl1 hl2
    have hp : 0 < 2 ^ (s + 1) := Nat.pow_pos (by omega)
    have a1 : 2 ^ 52 * 2 ^ (s + 1) ≤ n := by
      rw [← Nat.pow_add, show 52 + (s + 1) = s + 53 by omega]; exact hl1
    have a2 : n < 2 ^ 53 * 2 ^ (s + 1) := by
      rw [← Nat.pow_add, show 53 + (s + 1) = s + 53 + 1 by omega]; exact hl2
    refine ⟨?_, fun j hj => ?_⟩
    · have hle : halfEven n (2 ^ (s + 1)) ≤ 2 ^ 53 := halfEven_le hp (Nat.le_of_lt a2)
      rcases Nat.lt_or_ge (halfEven n (2 ^ (s + 1))) (2 ^ 53) with hlt | hge
      · exact ⟨_, _, hlt, rfl⟩
      · refine ⟨1, 53 + (s + 1), by decide, ?_⟩
        rw [Nat.le_antisymm hle hge, Nat.pow_add 2 53, Nat.one_mul]
    · obtain ⟨m, e, hm, rfl⟩ := hj
      rcases Nat.lt_or_ge e (s + 1) with he | he
      · have b1 : m * 2 ^ e ≤ 2 ^ 52 * 2 ^ (s + 1) := by
          calc m * 2 ^ e ≤ 2 ^ 53 * 2 ^ s := Nat.mul_le_mul (by omega) (Nat.pow_le_pow_right (by omega) (by omega))
            _ = 2 ^ 52 * 2 ^ (s + 1) := by rw [← Nat.pow_add, ← Nat.pow_add]; congr 1; omega
        refine Nat.le_trans (halfEven_nearest n hp (2 ^ 52)) ?_
        unfold dist
        omega
      · have b : m * 2 ^ e = (m * 2 ^ (e - (s + 1))) * 2 ^ (s + 1) := by
          rw [Nat.mul_assoc, ← Nat.pow_add]
          congr 2
          omega
        rw [b]
        exact halfEven_nearest n hp _

/-- A float64 holds exactly the integers that are not rounded. -/
theorem round53_eq_iff (n : Nat) : round53 n = n ↔ Held n := by
  obtain ⟨h1, h2⟩ := round53_nearest n
  refine ⟨fun h => by rw [h] at h1; exact h1, fun h => ?_⟩
  have := h2 n h
  unfold dist at this
  omega

theorem nearest_held {n k : Nat} (h : Nearest n k) (hn : Held n) : k = n := by
  have := h.2 n hn
  unfold dist at this
  omega

/-- Up to 2^53 nothing is rounded. -/
theorem held_le {n : Nat} (h : n ≤ 2 ^ 53) : Held n := by
  rcases Nat.lt_or_ge n (2 ^ 53) with h' | h'
  · exact held_small h'
  · exact ⟨1, 53, by decide, by omega⟩

theorem ofInt_held {n : Int} (h : Held n.natAbs) : F64.ofInt n = .fin n 0 := by
  unfold F64.ofInt
  rw [(round53_eq_iff _).mpr h, Int.sign_mul_natAbs]

theorem ofInt_nearest (n : Int) : ∃ k, NearestInt n k ∧ F64.ofInt n = .fin k 0 := by
  refine ⟨_, ⟨?_, ?_, ?_⟩, rfl⟩
  · have e : (n.sign * (round53 n.natAbs : Int)).natAbs = round53 n.natAbs := by
      rcases Int.lt_trichotomy n 0 with h | h | h
      · rw [Int.sign_eq_neg_one_of_neg h]; omega
      · subst h; decide
      · rw [Int.sign_eq_one_of_pos h]; omega
    rw [e]
    exact round53_nearest _
  · intro h
    rcases Int.lt_trichotomy n 0 with h' | h' | h'
    · omega
    · subst h'; decide
    · rw [Int.sign_eq_one_of_pos h']; omega
  · intro h
    rcases Int.lt_trichotomy n 0 with h' | h' | h'
    · rw [Int.sign_eq_neg_one_of_neg h']; omega
    · subst h'; decide
    · omega

end Verif.Proofs.Go
