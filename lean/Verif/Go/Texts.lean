import Lean.Elab.Term
import Verif.Go.Bytes
/-!
# Literals for tables of byte strings

`t!"text"` is the same term as `b!"text"`, made without elaborating a numeral for each byte.
-/
namespace Verif.Go

/-- `t!"text"` is the list of UTF-8 bytes of the literal. -/
syntax:max (name := textLit) "t!" str : term

open Lean Elab Term in
elab_rules : term
  | `(t!$s:str) => do
    let uint8 := Lean.mkConst ``UInt8
    let nil := mkApp (Lean.mkConst ``List.nil [Level.zero]) uint8
    let byte (b : UInt8) : Expr :=
      let n := mkRawNatLit b.toNat
      mkApp3 (Lean.mkConst ``OfNat.ofNat [Level.zero]) uint8 n (mkApp (Lean.mkConst ``UInt8.instOfNat) n)
    return s.getString.toUTF8.toList.foldr (fun b e => mkApp3 (Lean.mkConst ``List.cons [Level.zero]) uint8 (byte b) e) nil

example : t!"aß" = b!"aß" := rfl

end Verif.Go
