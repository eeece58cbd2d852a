import Verif.Model.PoPlural.Parser
import Verif.Spec.GoCode
/-!
# catalog/poplural/generator/compiler.go: plural formulas as Go functions

The texts are rune lists.
-/
namespace Verif.Model.PoPlural.Generator
open Verif.Model.PoPlural

/-- catalog/poplural/generator/compiler.go:47-84: text of an operator. -/
def goOp : Op → List Char
  | .and => " && ".toList
  | .or => " || ".toList
  | .eq => " == ".toList
  | .ne => " != ".toList
  | .gt => " > ".toList
  | .ge => " >= ".toList
  | .lt => " < ".toList
  | .le => " <= ".toList
  | .rem => "%".toList

/-- catalog/poplural/generator/compiler.go:39-87 `compileBinaryPluralNode`: what is written.  Nothing
is written for a `?:` node. -/
def compileBinary : Node → List Char
  | .value v => intDec v
  | .operand => "n".toList
  | .binary x .or y => "(".toList ++ compileBinary x ++ goOp .or ++ compileBinary y ++ ")".toList
  | .binary x o y => compileBinary x ++ goOp o ++ compileBinary y
  | .question _ _ _ => []

/-- catalog/poplural/generator/compiler.go:89-113 `compileNode`: what is written. -/
def compileNode : Node → List Char
  | .question c t f =>
    "if ".toList ++ compileBinary c ++
      (match t with
        | .value v => "{\n".toList ++ "return ".toList ++ intDec v ++ "\n}\n".toList
        | t => compileNode t) ++
      (match f with
        | .value v => "return ".toList ++ intDec v
        | f => compileNode f)
  | n => compileBinary n

/-- catalog/poplural/generator/compiler.go:20-37 `compileForms`. -/
def compileForms (f : Forms) : List Char :=
  if f.nPlurals ≤ 1 then "return 0".toList
  else if f.nPlurals = 2 then
    "if ".toList ++ compileBinary f.root ++ "{\nreturn 1\n}\n".toList ++ "return 0".toList
  else compileNode f.root

/-- catalog/poplural/generator/compiler.go:10-18 `newRuleData`: the field `Compiled`; `none` if
`MustParse` panics. -/
def compiled (rawRule : List Char) : Option (List Char) :=
  match astParse rawRule with
  | .ok f => some (compileForms f)
  | .error _ => none

open Verif.Spec.GoCode (Env)

/-- What is in scope in a `FormFunc` of catalog/poplural/builtin_gen.go
(catalog/poplural/generator/main.go:88-139): the parameter `n int64`. -/
def goEnv (n : Int) : Env where
  var := fun x => if x = [['n']] then some (.int n) else none
  varTy := fun x => if x = [['n']] then some .int else none
  fn := fun _ => none

end Verif.Model.PoPlural.Generator
