/-!
# catalog/cldrplural/cldr.go:13-22
-/
namespace Verif.Cldr

/-- catalog/cldrplural/cldr.go:13-22 `Category`. -/
inductive Category
  | zero | one | two | few | many | other
  deriving DecidableEq, Repr

/-- catalog/cldrplural/cldr.go:16-21: the numeric value. -/
def Category.toNat : Category → Nat
  | .zero => 0 | .one => 1 | .two => 2 | .few => 3 | .many => 4 | .other => 5

end Verif.Cldr
