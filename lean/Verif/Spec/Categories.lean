import Verif.Model.Catalog.JsonHeap
/-!
# Texts for the categories of a language
-/
namespace Verif.Spec.Categories
open Verif.Go Verif.Model.Po Verif.Model.Catalog

/-- The categories of a language, as numbers. -/
def IsCategoryOf (lang : Tag) (k : Int) : Prop :=
  ∃ rs c, (Verif.Model.Cldr.forLanguage lang).1 = some rs ∧ c ∈ rs.categories ∧ k = c.toNat

/-- The only text is that for Other. -/
def OnlyOther (tr : GoMap Int Bytes) : Prop := ∀ k, (tr.get? k).isSome = true ↔ k = other

/-- The texts `new` are the texts `old` made fit for a language: the same, if the only text is that for Other; if not, there is a text
for exactly the categories of the language, the old one or an empty one.  Keys that are no category do not matter. -/
def Fits (lang : Tag) (old new : GoMap Int Bytes) : Prop :=
  (OnlyOther old → new = old) ∧
  (¬ OnlyOther old → ∀ k, k ∈ categoryNames → (IsCategoryOf lang k → new.get? k = some ((old.get? k).getD [])) ∧
    (¬ IsCategoryOf lang k → new.get? k = none)) ∧
  ∀ k, k ∉ categoryNames → new.get? k = old.get? k

end Verif.Spec.Categories
