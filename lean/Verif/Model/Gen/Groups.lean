import Verif.Go.Sort
import Verif.Go.Text
/-!
# What the two rule generators have in common

Models the loops of catalog/cldrplural/generator/main.go and catalog/poplural/generator/json.go that put languages
with the same rules together, the names of the generated functions and the labels of the generated switch statements.
-/
namespace Verif.Model.Gen
open Verif.Go

variable {κ β : Type}

/-- Languages with the same key; `data` are those of the language that came first. -/
structure Group (κ β : Type) where
  key : κ
  data : β
  languages : List Bytes

/-- cldrplural/generator/main.go:34-45 and poplural/generator/json.go:26-40: one round of the loop.  The map from keys to
groups (and, in the first, the list of groups) is the list; both hold the same pointers. -/
def addTo [DecidableEq κ] (k : κ) (lang : Bytes) (b : β) : List (Group κ β) → List (Group κ β)
  | [] => [⟨k, b, [lang]⟩]
  | g :: gs => if g.key = k then { g with languages := g.languages ++ [lang] } :: gs else g :: addTo k lang b gs

/-- cldrplural/generator/main.go:31-46 and poplural/generator/json.go:24-41: the loop; the list is the map from languages
to their data in the order in which it is visited. -/
def collect [DecidableEq κ] (key : β → κ) (table : List (Bytes × β)) : List (Group κ β) :=
  table.foldl (fun gs e => addTo (key e.2) e.1 e.2 gs) []

/-- cldrplural/generator/json.go:33-37 and poplural/generator/json.go:78-82: a language as part of a name; `none` is the
panic for the empty string.  `upper` is `unicode.ToUpper`. -/
def capital (upper : Char → Char) (lang : Bytes) : Option Bytes :=
  match runes lang with
  | [] => none
  | c :: cs => some (utf8 (((upper c :: cs).filter (· ≠ ' ')).map fun c => if c = '-' then '_' else c))

/-- cldrplural/generator/json.go:30-41 `Name` and the loop of poplural/generator/json.go:76-87 `Name`. -/
def nameOf (upper : Char → Char) : List Bytes → Option Bytes
  | [] => some []
  | l :: ls =>
    match capital upper l, nameOf upper ls with
    | some a, some b => some (a ++ b)
    | _, _ => none

/-- A string in quotes, cldrplural/generator/main.go:107, 113 and poplural/generator/main.go:73, 79. -/
def quoted (s : Bytes) : Bytes := 0x22 :: (s ++ [0x22])

/-- Insertion of a key into a map that is used as a set, cldrplural/generator/main.go:107, 113 and
poplural/generator/main.go:73, 79. -/
def addKey (x : Bytes) (l : List Bytes) : List Bytes := if x ∈ l then l else l ++ [x]

/-- cldrplural/generator/main.go:104-115 and poplural/generator/main.go:70-81: the loop of `CaseExpression`.  `canon` is
`language.MustParse(lang).String()`; `none` is its panic. -/
def caseKeys (canon : Bytes → Option Bytes) (acc : List Bytes) : List Bytes → Option (List Bytes)
  | [] => some acc
  | l :: ls =>
    match canon l with
    | none => none
    | some p => caseKeys canon (if l ≠ p then addKey (quoted p) (addKey (quoted l) acc) else addKey (quoted l) acc) ls

/-- cldrplural/generator/main.go:103-119 and poplural/generator/main.go:69-85 `CaseExpression`: the labels of a case. -/
def caseLabels (canon : Bytes → Option Bytes) (langs : List Bytes) : Option (List Bytes) :=
  (caseKeys canon [] langs).map (sortBy bytesLe)

/-- The names of rules, cldrplural/generator/main.go:57 and poplural/generator/main.go:30; `none` is the panic. -/
def named {α : Type} (name : α → Option Bytes) : List α → Option (List (Bytes × α))
  | [] => some []
  | d :: ds =>
    match name d, named name ds with
    | some n, some l => some ((n, d) :: l)
    | _, _ => none

/-- cldrplural/generator/main.go:52-58 and poplural/generator/main.go:25-31: the comparison by a count and by name. -/
def less {α : Type} (count : α → Int) (a b : Bytes × α) : Bool :=
  if count a.2 ≠ count b.2 then decide (count a.2 < count b.2) else !bytesLe b.1 a.1

/-- A result of `sort.Slice` (cldrplural/generator/main.go:52 and poplural/generator/main.go:25), which is not specified
further: a permutation in which no element is less than an earlier one. -/
def SortedBy {α : Type} (less : α → α → Bool) (l out : List α) : Prop :=
  out.Perm l ∧ out.Pairwise fun a b => less b a = false

end Verif.Model.Gen
