import Verif.Go.Bytes
/-!
# Decimal notation
-/
namespace Verif.Spec.Decimal
open Verif.Go

/-- The number that a sequence of decimal digits stands for. -/
def natVal (s : Bytes) : Nat := s.foldl (fun n c => 10 * n + (c.toNat - 48)) 0

/-- The text consists of decimal digits and stands for the number. -/
def Digits (s : Bytes) (n : Nat) : Prop := s ≠ [] ∧ (∀ b ∈ s, 48 ≤ b.toNat ∧ b.toNat ≤ 57) ∧ natVal s = n

instance (s : Bytes) (n : Nat) : Decidable (Digits s n) := inferInstanceAs (Decidable (_ ∧ _))

/-- The text is the number in decimal with the given count of digits. -/
def Padded (width : Nat) (s : Bytes) (n : Nat) : Prop := s.length = width ∧ Digits s n

instance (w : Nat) (s : Bytes) (n : Nat) : Decidable (Padded w s n) := inferInstanceAs (Decidable (_ ∧ _))

/-- The text is the number in decimal, without leading zeros and perhaps with a sign. -/
def Plain (s : Bytes) (n : Int) : Prop :=
  (0 ≤ n ∧ Digits s n.toNat ∧ (1 < s.length → s.head? ≠ some 0x30)) ∨
  (n < 0 ∧ ∃ r : Bytes, s = 0x2d :: r ∧ Digits r (-n).toNat ∧ (1 < r.length → r.head? ≠ some 0x30))

end Verif.Spec.Decimal
