import Verif.Spec.PoPlural
/-!
# Specification: the formulas that a generator of Go code can write down directly

Shapes of plural formulas, in terms of the formulas only.
-/
namespace Verif.Spec.PoPlural

/-- `n`, a number, or such a term `% k` for a number `k` that is not zero. -/
def Term : Expr → Prop
  | .n => True
  | .num _ => True
  | .bin .rem x (.num k) => Term x ∧ k ≠ 0
  | _ => False

/-- Comparisons of terms, joined by `&&` and `||`. -/
def Test : Expr → Prop
  | .bin .and x y => Test x ∧ Test y
  | .bin .or x y => Test x ∧ Test y
  | .bin .rem _ _ => False
  | .bin _ x y => Term x ∧ Term y
  | _ => False

/-- `c₁ ? k₁ : c₂ ? k₂ : … : k` with at least one condition. -/
def Ladder : Expr → Prop
  | .cond c (.num _) (.num _) => Test c
  | .cond c (.num _) e => Test c ∧ Ladder e
  | _ => False

/-- The usual shape of a formula with `k` plurals: anything for one plural, a condition for two, a
sequence of conditions for more. -/
def Usual (k : Nat) (e : Expr) : Prop :=
  (k = 1) ∨ (k = 2 ∧ Test e) ∨ (3 ≤ k ∧ Ladder e)

end Verif.Spec.PoPlural
