import Verif.Go.Text
import Verif.Model.Po.File
import Verif.Go.Time
import Verif.Go.Map
/-!
# catalog/poplural/generator/json.go: the examples for the generated tests

Integers have 64 bits.  The map of the examples is a list in the order in which it is visited.
-/
namespace Verif.Model.PoPlural.Examples
open Verif.Go
open Verif.Model.Po (trimSpace)

/-- How the generator ends without a result. -/
inductive Stop
  /-- `checkError` ends the program (generator/main.go:55-59). -/
  | fatal
  /-- The loop does not end: no `int` is greater than the last number. -/
  | forever
  deriving DecidableEq

/-- catalog/poplural/generator/json.go:110-112: `count` rounds of the loop over the numbers, from `i` on. -/
def countUp : Nat → Int → List Bytes
  | 0, _ => []
  | count + 1, i => itoa i :: countUp count (i + 1)

/-- catalog/poplural/generator/json.go:110-112: the loop `for i := start; i <= stop; i++`. -/
def numbers (start stop : Int) : Except Stop (List Bytes) :=
  if stop = 9223372036854775807 then .error .forever else .ok (countUp (stop + 1 - start).toNat start)

/-- catalog/poplural/generator/json.go:102-117: what one part adds to the examples. -/
def addPart (part : Bytes) : Except Stop (List Bytes) :=
  let example_ := trimSpace part
  match splitByte 0x7e example_ with
  | [a, b] =>
    match atoi a with
    | none => .error .fatal
    | some start =>
      match atoi b with
      | none => .error .fatal
      | some stop => numbers start stop
  | _ => .ok [example_.map fun c => if c = 0x63 then 0x65 else c]

/-- catalog/poplural/generator/json.go:96-118: the loop over the parts. -/
def partLoop (examples : List Bytes) : List Bytes → Except Stop (List Bytes)
  | [] => .ok examples
  | part :: parts =>
    if part = b!" …" then .ok examples
    else match addPart part with
      | .error s => .error s
      | .ok l => partLoop (examples ++ l) parts

/-- catalog/poplural/generator/json.go:121-126: the index of the case, from `i` on. -/
def caseIndex (name : Bytes) (i : Nat) : List Bytes → Option Nat
  | [] => none
  | c :: cs => if c = name then some i else caseIndex name (i + 1) cs

/-- catalog/poplural/generator/json.go:93-127: the loop over the map. -/
def caseLoop (cases : List Bytes) (extracted : GoMap Nat (List Bytes)) :
    GoMap Bytes Bytes → Except Stop (GoMap Nat (List Bytes))
  | [] => .ok extracted
  | (name, text) :: data =>
    match partLoop [] (splitByte 0x2c text) with
    | .error s => .error s
    | .ok examples =>
      match caseIndex name 0 cases with
      | some i => caseLoop cases (extracted.set i examples) data
      | none => caseLoop cases extracted data

/-- catalog/poplural/generator/json.go:89-130 `extractExamples`. -/
def extractExamples (cases : List Bytes) (data : GoMap Bytes Bytes) : Except Stop (GoMap Nat (List Bytes)) :=
  caseLoop cases [] data

end Verif.Model.PoPlural.Examples
