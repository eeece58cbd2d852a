import Verif.Go.Float
import Verif.Model.PoPlural.Builtin
/-!
# internal/cast/number.go and catalog/poplural/rule.go:20-31
-/
namespace Verif.Model.PoPlural
open Verif.Go

/-- A Go value of type `any`, as far as `cast.ToNumber` distinguishes values
(internal/cast/number.go:10-58).  All integer types are `int`/`uint`, all float types `float`; a
complex number is represented by its real part; any other value by what `fmt.Sprintf` prints for it
with `%d` and with `%v`. -/
inductive Val
  | nil
  | int (v : Int)
  | uint (v : Nat)
  | float (x : F64)
  | complex (re : F64)
  | str (s : List Char)
  | ptr (v : Val)
  | nilPtr
  | other (d v : List Char)
  deriving DecidableEq

/-- internal/cast/number.go:64-77 `Indirect`: pointers are followed; a typed nil pointer is
returned as it is. -/
def indirect : Val → Val
  | .ptr v => indirect v
  | v => v

/-- internal/cast/number.go:10-58 `ToNumber`; `parse` is `strconv.ParseFloat(s, 64)`, `none` is its
error.  A typed nil pointer is not `nil`; `%d` prints it as `0` (line 53). -/
def toNumber (parse : List Char → Option F64) (v : Val) : Option F64 :=
  match indirect v with
  | .nil => none
  | .int v => some (F64.ofInt v)
  | .uint v => some (F64.ofInt v)
  | .float x => some x
  | .complex re => some re
  | .str s => parse s
  | .ptr _ => none
  | .nilPtr => parse ['0']
  | .other d v =>
    match parse d with
    | some x => some x
    | none => parse v

/-- catalog/poplural/rule.go:23-31 `Rule.Evaluate`; `none` is an error. -/
def Rule.evaluate (parse : List Char → Option F64) (oor : F64 → Int) (r : Rule) (v : Val) :
    Option Int :=
  match toNumber parse v with
  | none => none
  | some x => some (r.form (x.abs.roundToEven.toInt64 oor))

/-- catalog/poplural/builtin.go:21-39 `pluralRuleForLanguage`.  The tag is represented by what the
loop sees of it and its parents up to the root: the text of the tag, and the text of its base
language if that is known with high confidence. -/
def pluralRuleForLanguage : List (String × Option String) → Option Rule × Bool
  | [] => (getBuiltInForLanguage "en", false)
  | (tag, base) :: parents =>
    match getBuiltInForLanguage tag with
    | some r => (some r, true)
    | none =>
      match base.bind getBuiltInForLanguage with
      | some r => (some r, true)
      | none => pluralRuleForLanguage parents

end Verif.Model.PoPlural
