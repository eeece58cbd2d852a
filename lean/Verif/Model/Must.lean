import Verif.Go.Bytes
import Verif.Model.PoPlural.Builtin
import Verif.Model.Cldr.Evaluation
import Verif.Model.Cldr.Operands
/-!
# The functions that panic instead of returning an error
-/
namespace Verif.Model.PoPlural
open Verif.Go

/-- catalog/poplural/ast/parser.go:22-29 `MustParse`. -/
def astMustParse (rule : List Char) : Run Forms :=
  match astParse rule with
  | .ok f => .ok f
  | .error _ => .error .explicitPanic

/-- catalog/poplural/rule.go:35-41 `MustParse`. -/
def mustParse (raw : List Char) : Run Rule :=
  match parseRule raw with
  | .ok r => .ok r
  | .error _ => .error .explicitPanic

end Verif.Model.PoPlural

namespace Verif.Model.Cldr
open Verif.Go

/-- What a call does: it returns, panics or does not return. -/
inductive Outcome (α : Type)
  | ret (a : α) | panic | hang

/-- The body of catalog/cldrplural/ast/parser.go:53-59 and catalog/cldrplural/evaluation.go:10-17: panic with the error.  A
parser that does not return (`hang`) still does not. -/
def must {α : Type} : Except PErr α → Outcome α
  | .ok a => .ret a
  | .error .hang => .hang
  | .error _ => .panic

/-- catalog/cldrplural/ast/parser.go:53-59 `MustParse`. -/
def mustParse (budget : Nat) (rawRule : List Char) : Outcome Rule := must (parse budget rawRule)

/-- catalog/cldrplural/evaluation.go:10-17 `MustParseRules`; the map is given in the order of the iteration. -/
def mustParseRules (budget : Nat) (raw : List (Cldr.Category × List Char)) :
    Outcome (List Cldr.Category × List (Cldr.Category × Rule)) :=
  must (parseRules budget raw)

/-- catalog/cldrplural/cldr.go:82-88 `MustNewOperands`. -/
def mustNewOperands (rest : List Char → Option F64) (oor : F64 → Int) (fmtV : F64 → List Char) (a : Arg) : Run Operands :=
  match newOperands rest oor fmtV a with
  | some ops => .ok ops
  | none => .error .explicitPanic

end Verif.Model.Cldr
