import Verif.Model.Cldr.Evaluation
import Verif.Spec.GoCode
/-!
# catalog/cldrplural/generator/compiler.go: plural rules as Go conditions

The texts are rune lists.  `none` is the panic of `goOperandName`.
-/
namespace Verif.Model.Cldr.Generator
open Verif.Go Verif.Model.Cldr

/-- `strconv.FormatInt(v, 10)` and the verb `%d` (compiler.go:24, 27, 44, 47-48). -/
def formatInt (v : Int) : List Char :=
  if v < 0 then '-' :: Nat.toDigits 10 v.natAbs else Nat.toDigits 10 v.natAbs

/-- `strings.Join(parts, ",")` (compiler.go:68, 91, 104). -/
def joinComma : List (List Char) → List Char
  | [] => []
  | [x] => x
  | x :: xs => x ++ ',' :: joinComma xs

/-- `strings.Contains(s, sub)` (compiler.go:113). -/
def contains (sub : List Char) : List Char → Bool
  | [] => sub.isPrefixOf []
  | c :: cs => sub.isPrefixOf (c :: cs) || contains sub cs

/-- catalog/cldrplural/generator/compiler.go:135-154 `goOperandName`. -/
def goOperandName (o : List Char) : Option (List Char) :=
  if o = ['n'] then some "ops.N".toList
  else if o = ['i'] then some "ops.I".toList
  else if o = ['v'] then some "ops.V".toList
  else if o = ['w'] then some "ops.W".toList
  else if o = ['f'] then some "ops.F".toList
  else if o = ['t'] then some "ops.T".toList
  else if o = ['c'] ∨ o = ['e'] then some "ops.C".toList
  else none

/-- catalog/cldrplural/generator/compiler.go:22-29: `ModuloExpr` and `OperandExpr`. -/
def compileExpr : ExprNode → Option (List Char)
  | .operand o => goOperandName o
  | .modulo o v =>
    match goOperandName o with
    | none => none
    | some s =>
      if o = ['n'] then some ("math.Mod(".toList ++ s ++ ", ".toList ++ formatInt v ++ ")".toList)
      else some (s ++ " % ".toList ++ formatInt v)

/-- catalog/cldrplural/generator/compiler.go:31-36, 55: the operand is a float64. -/
def isFloatOperand : ExprNode → Bool
  | .operand o => o = ['n']
  | .modulo o _ => o = ['n']

/-- catalog/cldrplural/generator/compiler.go:38-52 with ast/walk.go:7-42: the single values of the
list, in order. -/
def singleValues : List Item → List (List Char)
  | [] => []
  | .value v :: its => formatInt v :: singleValues its
  | .range _ _ :: its => singleValues its

/-- catalog/cldrplural/generator/compiler.go:38-52 with ast/walk.go:7-42: the bounds of the ranges of
the list, in order. -/
def valueRanges : List Item → List (List Char)
  | [] => []
  | .value _ :: its => valueRanges its
  | .range lo hi :: its => formatInt lo :: formatInt hi :: valueRanges its

/-- catalog/cldrplural/generator/compiler.go:57-71: the ranges. -/
def rangesText (expr : List Char) (isFloat : Bool) (ranges : List (List Char)) : List Char :=
  match ranges, isFloat with
  | [], _ => []
  | [lo, hi], false =>
    "(".toList ++ expr ++ " >= ".toList ++ lo ++ " && ".toList ++ expr ++ " <= ".toList ++ hi ++ ")".toList
  | ranges, true => "isFloatInRange(".toList ++ expr ++ ", ".toList ++ joinComma ranges ++ ")".toList
  | ranges, false => "isIntInRange(".toList ++ expr ++ ", ".toList ++ joinComma ranges ++ ")".toList

/-- catalog/cldrplural/generator/compiler.go:94-101: `ops.I == a || ops.I == b`. -/
def eachEqual : List (List Char) → List Char
  | [] => []
  | [x] => "ops.I == ".toList ++ x
  | x :: xs => "ops.I == ".toList ++ x ++ " || ".toList ++ eachEqual xs

/-- catalog/cldrplural/generator/compiler.go:88-109: two or more single values. -/
def valuesText (expr : List Char) (isFloat : Bool) (values : List (List Char)) : List Char :=
  if isFloat then "isFloatOneOf(".toList ++ expr ++ ", ".toList ++ joinComma values ++ ")".toList
  else if values.length ≤ 3 ∧ expr = "ops.I".toList then "(".toList ++ eachEqual values ++ ")".toList
  else "slices.Contains([]int64{".toList ++ joinComma values ++ "}, ".toList ++ expr ++ ")".toList

/-- catalog/cldrplural/generator/compiler.go:112-128: parentheses and negation. -/
def wrap (notEqual : Bool) (res : List Char) : List Char :=
  if notEqual = false then
    if contains " || ".toList res then "( ".toList ++ res ++ " )".toList else res
  else if contains " || ".toList res then "!( ".toList ++ res ++ " )".toList
  else '!' :: res

/-- catalog/cldrplural/generator/compiler.go:30-128: a relation. -/
def compileRel (x : ExprNode) (notEqual : Bool) (y : List Item) : Option (List Char) :=
  match compileExpr x with
  | none => none
  | some expr =>
    let values := singleValues y
    let ranges := valueRanges y
    let b := rangesText expr (isFloatOperand x) ranges
    match values with
    | [] => some (wrap notEqual b)
    | [v] =>
      if ranges = [] ∧ notEqual = true then some (expr ++ " != ".toList ++ v)
      else
        some (wrap notEqual ((if ranges = [] then b else b ++ " || ".toList) ++ expr ++ " == ".toList ++ v))
    | values =>
      some (wrap notEqual ((if ranges = [] then b else b ++ " || ".toList) ++
        valuesText expr (isFloatOperand x) values))

/-- catalog/cldrplural/generator/compiler.go:12-133 `compileNode`. -/
def compileNode : Node → Option (List Char)
  | .and x y =>
    match compileNode x, compileNode y with
    | some l, some r => some (l ++ " && ".toList ++ r)
    | _, _ => none
  | .or x y =>
    match compileNode x, compileNode y with
    | some l, some r => some (l ++ " || ".toList ++ r)
    | _, _ => none
  | .rel x ne y => compileRel x ne y

/-- catalog/cldrplural/generator/main.go:90-94 `ConvertToGo`: `none` if the generator stops (a rule
that cannot be parsed, or a panic). -/
def convertToGo (budget : Nat) (rawRule : List Char) : Option (List Char) :=
  match parse budget rawRule with
  | .ok ⟨some n, _⟩ => compileNode n
  | .ok ⟨none, _⟩ => some []
  | .error _ => none

/-! ## The names that the generated code can use -/

open Verif.Spec.GoCode (Ty Val Fn Env)

/-- Variadic `rangeValues` in pairs; an odd number of them panics (evaluation.go:152). -/
def pairs : List Int → Option (List (Int × Int))
  | [] => some []
  | [_] => none
  | a :: b :: l => (pairs l).map ((a, b) :: ·)

/-- catalog/cldrplural/evaluation.go:149-168 `isFloatInRange` as the generated code calls it.  A range
up to the largest int64 may not return (the loop at line 160). -/
def fnInRange : Fn where
  params := [.float]
  more := some .int
  result := .bool
  run := fun vs =>
    match vs with
    | .float x :: vs =>
      match vs.mapM Val.toInt with
      | some l =>
        match pairs l with
        | some ps => if ps.all (fun p => decide (p.2 < 2 ^ 63 - 1)) then some (.bool (isFloatInRange x ps)) else none
        | none => none
      | none => none
    | _ => none

/-- catalog/cldrplural/evaluation.go:170-178 `isFloatOneOf` as the generated code calls it. -/
def fnOneOf : Fn where
  params := [.float]
  more := some .int
  result := .bool
  run := fun vs =>
    match vs with
    | .float x :: vs => (vs.mapM Val.toInt).map fun l => .bool (isFloatOneOf x l)
    | _ => none

/-- `math.Mod(x, k)` of the standard library, imported at catalog/cldrplural/generator/main.go:125-128,
with a constant that a float64 holds exactly. -/
def fnMod : Fn where
  params := [.float, .float]
  more := none
  result := .float
  run := fun vs =>
    match vs with
    | [.float x, .const k] => if k < 2 ^ 53 then some (.float (x.mod k)) else none
    | _ => none

/-- `slices.Contains(l, x)` of the standard library, imported at
catalog/cldrplural/generator/main.go:125-128, with an `[]int64`. -/
def fnContains : Fn where
  params := [.ints, .int]
  more := none
  result := .bool
  run := fun vs =>
    match vs with
    | [.ints l, v] => v.toInt.map fun i => .bool (l.contains i)
    | _ => none

/-- catalog/cldrplural/cldr.go:63-78: the fields of `ops`. -/
def goVar (ops : Operands) (x : List (List Char)) : Option Val :=
  if x = [['o', 'p', 's'], ['N']] then some (.float ops.n)
  else if x = [['o', 'p', 's'], ['I']] then some (.int ops.i)
  else if x = [['o', 'p', 's'], ['V']] then some (.int ops.v)
  else if x = [['o', 'p', 's'], ['W']] then some (.int ops.w)
  else if x = [['o', 'p', 's'], ['F']] then some (.int ops.f)
  else if x = [['o', 'p', 's'], ['T']] then some (.int ops.t)
  else if x = [['o', 'p', 's'], ['C']] then some (.int ops.c)
  else none

/-- catalog/cldrplural/cldr.go:63-78: the types of the fields of `ops`. -/
def goVarTy (x : List (List Char)) : Option Ty :=
  if x = [['o', 'p', 's'], ['N']] then some .float
  else if x = [['o', 'p', 's'], ['I']] then some .int
  else if x = [['o', 'p', 's'], ['V']] then some .int
  else if x = [['o', 'p', 's'], ['W']] then some .int
  else if x = [['o', 'p', 's'], ['F']] then some .int
  else if x = [['o', 'p', 's'], ['T']] then some .int
  else if x = [['o', 'p', 's'], ['C']] then some .int
  else none

/-- The functions of the package (catalog/cldrplural/evaluation.go) and of the imports
(catalog/cldrplural/generator/main.go:125-128) that take numbers. -/
def goFn (x : List (List Char)) : Option Fn :=
  if x = ["isFloatInRange".toList] then some fnInRange
  else if x = ["isFloatOneOf".toList] then some fnOneOf
  else if x = ["math".toList, "Mod".toList] then some fnMod
  else if x = ["slices".toList, "Contains".toList] then some fnContains
  else none

/-- What is in scope in a `FormFunc` of catalog/cldrplural/builtin_gen.go
(catalog/cldrplural/generator/main.go:122-163). -/
def goEnv (ops : Operands) : Env where
  var := goVar ops
  varTy := goVarTy
  fn := goFn

end Verif.Model.Cldr.Generator
