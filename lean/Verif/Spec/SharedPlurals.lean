import Verif.Spec.Cldr
/-!
# What it means that a gettext rule and a CLDR rule set of a language agree (C122)

A gettext rule numbers the forms of a language, a CLDR rule set names them.  They agree on the
integers if the numbers are the positions of the names.
-/
namespace Verif.Spec.SharedPlurals
open Verif.Cldr

/-- The categories in the order in which the CLDR lists them. -/
def order : List Category := [.zero, .one, .two, .few, .many, .other]

/-- `cats` are the categories that the integers below `limit` have, in the order of the CLDR, and the
form of a number is the position of its category. -/
structure Numbered (limit : Nat) (count : Int) (form : Int → Int) (category : Int → Category)
    (cats : List Category) : Prop where
  sorted : cats.Sublist order
  count : count = cats.length
  forms : ∀ n : Nat, n < limit → ∃ i : Nat, form n = i ∧ cats[i]? = some (category n)
  used : ∀ c ∈ cats, ∃ n : Nat, n < limit ∧ category n = c

/-- The two rules agree. -/
def Agree (limit : Nat) (count : Int) (form : Int → Int) (category : Int → Category) : Prop :=
  ∃ cats, Numbered limit count form category cats

/-- The part of the name of a language before the first `-`: its base language. -/
def base (tag : String) : String := String.ofList (tag.toList.takeWhile (· != '-'))

/-- The name as `language.Tag` prints it: with `-`, not `_`. -/
def dashed (tag : String) : String := String.ofList (tag.toList.map (fun c => if c = '_' then '-' else c))

end Verif.Spec.SharedPlurals
