import Lean.ToExpr
import Lean.Elab.Term
/-!
# Literals for rune lists

`"text".toList` has to be decoded from UTF-8 by whoever computes with it; `c!"text"` is the list of
the characters itself.
-/
namespace Verif.Go

/-- `c!"text"` is the list of the characters of the literal. -/
syntax:max (name := charsLit) "c!" str : term

open Lean Elab Term in
elab_rules : term
  | `(c!$s:str) => return toExpr s.getString.toList

end Verif.Go
