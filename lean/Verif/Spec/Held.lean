/-!
# Integers that a float64 holds
-/
namespace Verif.Spec.Held

/-- A float64 holds the integers with at most 53 significant binary digits. -/
def Held (n : Nat) : Prop := ∃ m e : Nat, m < 2 ^ 53 ∧ n = m * 2 ^ e

/-- The distance of two numbers. -/
def dist (a b : Nat) : Nat := (a - b) + (b - a)

/-- No integer that a float64 holds is closer to `n` than `k`. -/
def Nearest (n k : Nat) : Prop := Held k ∧ ∀ j, Held j → dist n k ≤ dist n j

/-- The same for integers with a sign. -/
def NearestInt (n k : Int) : Prop := Nearest n.natAbs k.natAbs ∧ (0 ≤ n → 0 ≤ k) ∧ (n ≤ 0 → k ≤ 0)

end Verif.Spec.Held
