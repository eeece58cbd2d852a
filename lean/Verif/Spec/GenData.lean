import Verif.Spec.Cldr
import Verif.Spec.GoCode
import Verif.Go.Utf8
/-!
# What the rule generators are to do

A table gives data to languages, one entry for each.  `Own` says that a list of sets shares out the languages, each to a set
with the data of the language.  `Code` is the usual form of a language code.
-/
namespace Verif.Spec.GenData
open Verif.Go Verif.Cldr Verif.Spec.Cldr
open Verif.Spec.GoCode (Env Condition Reads typeOf Ty)

/-- Every language of the table is in a set, every set has a language, no language is there twice, and every language in a
set is one of the table with its own data, as far as `view` shows them. -/
structure Own {β γ : Type} (view : β → γ) (table : List (Bytes × β)) (sets : List (List Bytes × γ)) : Prop where
  all : ∀ e ∈ table, ∃ s ∈ sets, e.1 ∈ s.1
  some : ∀ s ∈ sets, s.1 ≠ []
  once : (sets.map (·.1)).flatten.Nodup
  own : ∀ s ∈ sets, ∀ lang ∈ s.1, ∃ b, (lang, b) ∈ table ∧ s.2 = view b

def Low (c : Char) : Prop := 'a' ≤ c ∧ c ≤ 'z'
def Upp (c : Char) : Prop := 'A' ≤ c ∧ c ≤ 'Z'
def Dig (c : Char) : Prop := '0' ≤ c ∧ c ≤ '9'

/-- A region or a script. -/
inductive Subtag : List Char → Prop
  | region {a b} : Upp a → Upp b → Subtag [a, b]
  | area {a b c} : Dig a → Dig b → Dig c → Subtag [a, b, c]
  | script {a b c d} : Upp a → Low b → Low c → Low d → Subtag [a, b, c, d]

/-- `de`, `en-US`, `es-419`, `zh-Hans`. -/
def Code (lang : Bytes) : Prop :=
  ∃ (w : List Char) (subs : List (List Char)), w ≠ [] ∧ (∀ c ∈ w, Low c) ∧ (∀ s ∈ subs, Subtag s) ∧ lang = utf8 (w ++ subs.flatMap ('-' :: ·))

/-- `unicode.ToUpper` for the letters of codes. -/
def Upper (upper : Char → Char) : Prop := ∀ c, Low c → upper c = Char.ofNat (c.toNat - 32)

/-- The spellings under which a language is looked up: its own and the canonical one. -/
def Spelling (canon : Bytes → Option Bytes) (lang x : Bytes) : Prop := x = lang ∨ canon lang = some x

/-! ## Rules of the CLDR file -/

/-- The samples after a rule: `" @integer …"` or `" @decimal …"`. -/
def Samples (s : List Char) : Prop :=
  ∃ r, s = " @integer ".toList ++ r ∨ s = " @decimal ".toList ++ r

/-- The categories in the order of UTS 35. -/
def order : List Category := [.zero, .one, .two, .few, .many]

/-- A language of the file with the texts `text` has the rules `rules`: for some categories a condition with samples, for
`other` only samples, for the rest nothing. -/
structure Written (rules : List (Category × Cond)) (text : Category → List Char) : Prop where
  cats : (rules.map (·.1)).Sublist order
  rule : ∀ r ∈ rules, ∃ s, Samples s ∧ text r.1 = r.2.text ++ s
  other : Samples (text .other)
  rest : ∀ c ∈ order, c ∉ rules.map (·.1) → text c = []

/-! ## Functions of the CLDR file -/

/-- `if t { return c }` for `(c, some t)` and `return c` for `(c, none)` compile: the conditions are boolean and the last
statement is a `return`. -/
def Compiles (Γ : Env) (body : List (Category × Option (List Char))) : Prop :=
  (∀ s ∈ body, ∀ t, s.2 = some t → ∃ e, Reads t e ∧ typeOf Γ e = some .bool) ∧
  ∃ c, body.getLast? = some (c, none)

/-- The function returns `c`. -/
inductive Returns (Γ : Env) : List (Category × Option (List Char)) → Category → Prop
  | ret {c l} : Returns Γ ((c, none) :: l) c
  | here {c t l} : Condition Γ t true → Returns Γ ((c, some t) :: l) c
  | next {c t l d} : Condition Γ t false → Returns Γ l d → Returns Γ ((c, some t) :: l) d

end Verif.Spec.GenData
