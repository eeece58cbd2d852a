import Verif.Model.Cldr.Generator
import Verif.Model.Gen.Groups
/-!
# catalog/cldrplural/generator/main.go, json.go: the data sets and the generated file

The file `plurals.json` is the map from languages to rule texts that `json.Unmarshal` returns (main.go:28-29), as a list in
the order in which it is visited; the texts are rune lists.  The generated file is the list of its cases: labels, name,
categories and the statements of the function.  The templates (main.go:122-162) are trusted to write them down as they are.
-/
namespace Verif.Model.Cldr.GeneratorMain
open Verif.Go Verif.Model.Gen Verif.Model.Cldr.Generator
open Verif.Cldr (Category)

/-- catalog/cldrplural/generator/json.go:48-55 `ruleJSON`. -/
structure RuleJSON where
  zero : List Char := []
  one : List Char := []
  two : List Char := []
  few : List Char := []
  many : List Char := []
  other : List Char := []
  deriving DecidableEq

/-- catalog/cldrplural/generator/json.go:48-55: the text for a category. -/
def RuleJSON.text (j : RuleJSON) : Category → List Char
  | .zero => j.zero
  | .one => j.one
  | .two => j.two
  | .few => j.few
  | .many => j.many
  | .other => j.other

/-- catalog/cldrplural/generator/json.go:59-61 and the same for the other categories. -/
def rule (c : Category) (text : List Char) : List (Category × List Char) := if text = [] then [] else [(c, text)]

/-- catalog/cldrplural/generator/json.go:57-78 `ToData`. -/
def RuleJSON.toData (j : RuleJSON) : List (Category × List Char) :=
  rule .zero j.zero ++ rule .one j.one ++ rule .two j.two ++ rule .few j.few ++ rule .many j.many ++ rule .other j.other

/-- What catalog/cldrplural/generator/json.go:81-87 hashes. -/
def RuleJSON.input (j : RuleJSON) : Bytes :=
  utf8 j.zero ++ utf8 j.one ++ utf8 j.two ++ utf8 j.few ++ utf8 j.many ++ utf8 j.other

/-- catalog/cldrplural/generator/json.go:12-15 `dataSet`. -/
structure DataSet where
  languages : List Bytes
  rules : List (Category × List Char)
  deriving DecidableEq

/-- catalog/cldrplural/generator/main.go:31-50: the data sets in the order of the list, their languages sorted.  `sha` is
SHA-256 in hexadecimal (json.go:81-88). -/
def dataSets (sha : Bytes → Bytes) (table : List (Bytes × RuleJSON)) : List DataSet :=
  (collect (fun j => sha j.input) table).map fun g => ⟨sortBy bytesLe g.languages, g.data.toData⟩

/-- catalog/cldrplural/generator/main.go:31-60: what the templates are executed with; the names are those that the templates
ask for (lines 134, 143). -/
def Sets (upper : Char → Char) (sha : Bytes → Bytes) (table : List (Bytes × RuleJSON)) (out : List (Bytes × DataSet)) : Prop :=
  ∃ l, named (fun d => nameOf upper d.languages) (dataSets sha table) = some l ∧
    SortedBy (less fun d => (d.rules.length : Int)) l out

/-- catalog/cldrplural/generator/main.go:100-102 `HasCondition`. -/
def hasCondition (raw : List Char) : Bool := (raw.dropWhile isSpace).head? ≠ some '@'

/-- catalog/cldrplural/generator/main.go:148-156: the statements for a rule: `if <text> { return c }` or `return c`.
`WithoutExamples` (json.go:43-46) panics without `@`; the generator stops.  `none` if it stops. -/
def statement (budget : Nat) (r : Category × List Char) : Option (Category × Option (List Char)) :=
  if hasCondition r.2 then
    if '@' ∈ r.2 then (convertToGo budget r.2).map fun t => (r.1, some t) else none
  else some (r.1, none)

/-- catalog/cldrplural/generator/main.go:147-157: the statements of a function. -/
def statements (budget : Nat) : List (Category × List Char) → Option (List (Category × Option (List Char)))
  | [] => some []
  | r :: rs =>
    match statement budget r, statements budget rs with
    | some s, some ss => some (s :: ss)
    | _, _ => none

/-- A case of the generated switch (main.go:133-134) with the function that it returns (main.go:143-160). -/
structure Case where
  labels : List Bytes
  name : Bytes
  categories : List Category
  body : List (Category × Option (List Char))
  deriving DecidableEq

/-- catalog/cldrplural/generator/main.go:122-162 `codeTemplate` for the data sets; `none` if the generator stops. -/
def cases (canon : Bytes → Option Bytes) (budget : Nat) : List (Bytes × DataSet) → Option (List Case)
  | [] => some []
  | d :: ds =>
    match caseLabels canon d.2.languages, statements budget d.2.rules, cases canon budget ds with
    | some l, some b, some cs => some (⟨l, d.1, d.2.rules.map Prod.fst, b⟩ :: cs)
    | _, _, _ => none

/-- catalog/cldrplural/generator/main.go:24-60: the generated file for the map, visited in the order of the list. -/
def Generated (upper : Char → Char) (sha : Bytes → Bytes) (canon : Bytes → Option Bytes) (budget : Nat)
    (table : List (Bytes × RuleJSON)) (file : List Case) : Prop :=
  ∃ out, Sets upper sha table out ∧ cases canon budget out = some file

end Verif.Model.Cldr.GeneratorMain
