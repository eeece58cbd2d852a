import Verif.Model.Cldr.Ast
/-!
# catalog/cldrplural/evaluation.go
-/
namespace Verif.Model.Cldr
open Verif.Go Verif.Cldr

/-- internal/util/compare.go:5-7 `FloatEqual(float64(v), x)`.  The float64 nearest to 1e-6 is
4722366482869645 * 2^-72; the difference is exact when it is near that number. -/
def floatEqual (v : Int) (x : F64) : Bool :=
  match x with
  | .fin m e =>
    decide ((fInt v * fLower e - fUpper m e).natAbs * 2 ^ 72 ≤ 4722366482869645 * fLower e)
  | _ => false

/-- catalog/cldrplural/evaluation.go:149-168 `isFloatInRange`, the bounds given in pairs. -/
def isFloatInRange (x : F64) (ranges : List (Int × Int)) : Bool :=
  ranges.any fun (lo, hi) =>
    x.geInt lo && x.leInt hi &&
      (List.range (hi - lo + 1).toNat).any fun i => floatEqual (lo + i) x

/-- catalog/cldrplural/evaluation.go:170-178 `isFloatOneOf`. -/
def isFloatOneOf (x : F64) (vals : List Int) : Bool := vals.any fun v => floatEqual v x

/-- Run-time failures of the evaluation: `i % 0`, an operand that is not a lower case letter, and
the loop of `isFloatInRange` when the upper bound is the largest int64 (line 160: `v++` wraps). -/
inductive Fault
  | divideByZero | invalidOperand | hang
  deriving DecidableEq

/-- catalog/cldrplural/evaluation.go:105-122, 124-141: value of an operand by its name. -/
def operandFloat (o : List Char) (ops : Operands) : Except Fault F64 :=
  if o = ['n'] then .ok ops.n
  else if o = ['i'] then .ok (F64.ofInt ops.i)
  else if o = ['v'] then .ok (F64.ofInt ops.v)
  else if o = ['w'] then .ok (F64.ofInt ops.w)
  else if o = ['f'] then .ok (F64.ofInt ops.f)
  else if o = ['t'] then .ok (F64.ofInt ops.t)
  else if o = ['c'] ∨ o = ['e'] then .ok (F64.ofInt ops.c)
  else .error .invalidOperand

/-- Go's `x % val` on int64, as a float64. -/
def intMod (x val : Int) : Except Fault F64 :=
  if val = 0 then .error .divideByZero else .ok (F64.ofInt (x.tmod val))

/-- catalog/cldrplural/evaluation.go:103-122. -/
def moduloFloat (o : List Char) (val : Int) (ops : Operands) : Except Fault F64 :=
  if o = ['n'] then .ok (ops.n.mod val)
  else if o = ['i'] then intMod ops.i val
  else if o = ['v'] then intMod ops.v val
  else if o = ['w'] then intMod ops.w val
  else if o = ['f'] then intMod ops.f val
  else if o = ['t'] then intMod ops.t val
  else if o = ['c'] ∨ o = ['e'] then intMod ops.c val
  else .error .invalidOperand

/-- catalog/cldrplural/evaluation.go:101-145 `evaluateExpression`. -/
def evaluateExpression (x : ExprNode) (ops : Operands) : Except Fault F64 :=
  match x with
  | .modulo o val => moduloFloat o val ops
  | .operand o => operandFloat o ops

/-- catalog/cldrplural/evaluation.go:75-86: one element of the range list. -/
def itemMatches (x : F64) : Item → Except Fault Bool
  | .value v => .ok (x.eqInt v)
  | .range lo hi =>
    if isFloatInRange x [(lo, hi)] then .ok true
    else if hi = 2 ^ 63 - 1 ∧ x.geInt lo ∧ x.leInt hi then .error .hang
    else .ok false

/-- catalog/cldrplural/evaluation.go:74-89: the walk over the range list visits every element. -/
def anyItem (x : F64) : List Item → Except Fault Bool
  | [] => .ok false
  | it :: its => do
    let a ← itemMatches x it
    let b ← anyItem x its
    .ok (a || b)

/-- catalog/cldrplural/evaluation.go:61-99 `evaluateNode`. -/
def evaluateNode : Node → Operands → Except Fault Bool
  | .and x y, ops => do
    let l ← evaluateNode x ops
    let r ← evaluateNode y ops
    .ok (l && r)
  | .or x y, ops => do
    let l ← evaluateNode x ops
    let r ← evaluateNode y ops
    .ok (l || r)
  | .rel x neg y, ops => do
    let v ← evaluateExpression x ops
    let b ← anyItem v y
    .ok (if neg then !b else b)

/-- catalog/cldrplural/evaluation.go:53-59 `evaluate`. -/
def evaluate (rule : Rule) (ops : Operands) : Except Fault Bool :=
  match rule.root with
  | none => .ok true
  | some n => evaluateNode n ops

/-- catalog/cldrplural/evaluation.go:38-46: the form function; `rules` is the map in the order of
this iteration. -/
def formFunc (rules : List (Category × Rule)) (ops : Operands) : Except Fault Category :=
  match rules with
  | [] => .ok .other
  | (cat, rule) :: rules => do
    let b ← evaluate rule ops
    if b then .ok cat else formFunc rules ops

/-- catalog/cldrplural/evaluation.go:24-31: parsing every rule, in the order of the iteration. -/
def parseAll (budget : Nat) : List (Category × List Char) → Except PErr (List (Category × Rule))
  | [] => .ok []
  | (cat, raw) :: rest => do
    let rule ← parse budget raw
    let rs ← parseAll budget rest
    .ok ((cat, rule) :: rs)

/-- catalog/cldrplural/evaluation.go:20-50 `ParseRules`: the categories and the rules, the map given
in the order of the iteration. -/
def parseRules (budget : Nat) (raw : List (Category × List Char)) :
    Except PErr (List Category × List (Category × Rule)) := do
  let rules ← parseAll budget raw
  let cats := raw.map (·.1)
  .ok (if cats.contains .other then cats else cats ++ [.other], rules)

end Verif.Model.Cldr
