import Verif.Model.PoPlural.Generator
import Verif.Model.Gen.Groups
import Verif.Go.Chars
/-!
# catalog/poplural/generator/main.go, json.go, extra.go: the rules and the generated file

The file `plurals.json` is the map from languages to formulas that `json.Unmarshal` returns (json.go:21-22), as a list in the
order in which it is visited.  The examples, which are used for the tests only, are left out.  The templates (main.go:88-139)
are trusted to write down the rules as they are.
-/
namespace Verif.Model.PoPlural.GeneratorMain
open Verif.Go Verif.Model.Gen Verif.Model.PoPlural Verif.Model.PoPlural.Generator

/-- catalog/poplural/generator/json.go:53-59 `fileLangData`. -/
structure FileLang where
  formula : List Char
  plurals : Int
  deriving DecidableEq

/-- catalog/poplural/generator/json.go:61-69 `ruleData`. -/
structure RuleData where
  languages : List Bytes
  raw : List Char
  count : Int
  compiled : List Char
  compiledRaw : List Char
  deriving DecidableEq

/-- catalog/poplural/generator/json.go:31. -/
def rawOf (d : FileLang) : List Char :=
  "nplurals=".toList ++ intDec d.plurals ++ "; plural=".toList ++ d.formula ++ ";".toList

/-- catalog/poplural/generator/json.go:32-40; `none` if `MustParse` panics. -/
def newRule (languages : List Bytes) (count : Int) (raw : List Char) : Option RuleData :=
  match astParse raw with
  | .ok f => some ⟨languages, raw, count, compileForms f, compileToString f⟩
  | .error _ => none

/-- A loop that stops at the first panic (json.go:25, extra.go:5). -/
def allSome {α : Type} : List (Option α) → Option (List α)
  | [] => some []
  | none :: _ => none
  | some a :: l =>
    match allSome l with
    | some as => some (a :: as)
    | none => none

/-- catalog/poplural/generator/json.go:17-49 `readJSONRules`, with the languages sorted as in main.go:21-23.  The rules come
in any order (json.go:44); they are sorted afterwards. -/
def readJSONRules (table : List (Bytes × FileLang)) : Option (List RuleData) :=
  allSome ((collect FileLang.formula table).map fun g => newRule (sortBy bytesLe g.languages) g.data.plurals (rawOf g.data))

/-- catalog/poplural/generator/compiler.go:10-18 `newRuleData`. -/
def newRuleData (raw : List Char) : Option RuleData :=
  match astParse raw with
  | .ok f => some ⟨[], raw, f.nPlurals, compileForms f, compileToString f⟩
  | .error _ => none

/-- catalog/poplural/generator/extra.go:12-20 `extraRulesTable`. -/
def extraRulesTable : List (List Char) := [
  c!"nplurals=3; plural=n == 0 ? 0 : (n == 0 || n == 1) && n != 0 ? 1 : 2;",
  c!"nplurals=4; plural=n % 100 == 1 ? 0 : n % 100 == 2 ? 1 : n % 100 >= 3 && n % 100 <= 4 ? 2 : 3;",
  c!"nplurals=2; plural=n % 10 == 1 && n % 100 != 11;",
  c!"nplurals=2; plural=((n == 1 || (n == 2 || n == 3)) || n % 10 != 4 && n % 10 != 6 && n % 10 != 9);",
  c!"nplurals=2; plural=(n == 0 || n == 1);",
  c!"nplurals=5; plural=n % 10 == 1 && n % 100 != 11 && n % 100 != 71 && n % 100 != 91 ? 0 : n % 10 == 2 && n % 100 != 12 && n % 100 != 72 && n % 100 != 92 ? 1 : (n % 10 >= 3 && n % 10 <= 4 || n % 10 == 9) && (n % 100 < 10 || n % 100 > 19) && (n % 100 < 70 || n % 100 > 79) && (n % 100 < 90 || n % 100 > 99) ? 2 : n != 0 && n % 1000000 == 0 ? 3 : 4;",
  c!"nplurals=2; plural=(n <= 1 || n >= 11 && n <= 99);"]

/-- catalog/poplural/generator/extra.go:3-9 `getExtraRules`. -/
def getExtraRules : Option (List RuleData) := allSome (extraRulesTable.map newRuleData)

/-- catalog/poplural/generator/json.go:71-87 `Name`; `none` is the panic for an empty language. -/
def RuleData.name (upper : Char → Char) (r : RuleData) : Option Bytes :=
  if r.languages = [] then some (utf8 r.compiledRaw) else nameOf upper r.languages

/-- catalog/poplural/generator/main.go:18-33: what the templates are executed with, with the names. -/
def Rules (upper : Char → Char) (table : List (Bytes × FileLang)) (out : List (Bytes × RuleData)) : Prop :=
  ∃ a b l, readJSONRules table = some a ∧ getExtraRules = some b ∧ named (RuleData.name upper) (a ++ b) = some l ∧
    SortedBy (less RuleData.count) l out

/-- A rule in the generated file: a case in each of the switch statements (main.go:94-106, 116-117; without languages only in
the first one) and the function that they return. -/
structure Case where
  raw : List Char
  labels : List Bytes
  name : Bytes
  count : Int
  body : List Char
  deriving DecidableEq

/-- catalog/poplural/generator/main.go:88-139 `codeTemplate` for the rules; `none` if the generator stops. -/
def cases (canon : Bytes → Option Bytes) : List (Bytes × RuleData) → Option (List Case)
  | [] => some []
  | r :: rs =>
    match caseLabels canon r.2.languages, cases canon rs with
    | some l, some cs => some (⟨r.2.compiledRaw, l, r.1, r.2.count, r.2.compiled⟩ :: cs)
    | _, _ => none

/-- catalog/poplural/generator/main.go:18-33: the generated file for the map, visited in the order of the list. -/
def Generated (upper : Char → Char) (canon : Bytes → Option Bytes) (table : List (Bytes × FileLang)) (file : List Case) : Prop :=
  ∃ out, Rules upper table out ∧ cases canon out = some file

end Verif.Model.PoPlural.GeneratorMain
