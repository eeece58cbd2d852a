import Verif.Model.Spreak.Loader
/-!
# Where catalogs are searched

`joinPath` is `path.Join`; `TagInfo` and `DefaultResolver` are records only.
-/
namespace Verif.Spec.Loader
open Verif.Go Verif.Model.Spreak

/-- The seven places of the documentation (/repo/loader.go:233-239), in its order. -/
def documented (category domain locale ext : Bytes) : List (List Bytes) :=
  [[locale, category, domain ++ ext], [locale, b!"LC_MESSAGES", domain ++ ext], [locale, domain ++ ext],
    [domain, locale ++ ext], [locale ++ ext], [category, locale ++ ext], [b!"LC_MESSAGES", locale ++ ext]]

/-- The places for one spelling of the language: without a domain only those that do not mention it, without
search only the first. -/
def places (r : DefaultResolver) (domain locale ext : Bytes) : List Bytes :=
  let named := (documented r.category domain locale ext).take 4
  let plain := (documented r.category domain locale ext).drop 4
  ((if domain = [] then [] else if r.search then named else named.take 1) ++ if r.search then plain else []).map joinPath

/-- All places for an extension: spelling by spelling. -/
def candidates (r : DefaultResolver) (spellings : List Bytes) (domain ext : Bytes) : List Bytes :=
  spellings.flatMap fun locale => places r domain locale ext

/-- The spellings of a language. -/
def spellings (t : TagInfo) : List Bytes :=
  match t.base with
  | none => [t.string]
  | some (base, iso3) =>
    [t.string, iso3, base] ++ ((t.region.toList ++ t.script.toList).flatMap fun x => [base ++ b!"_" ++ x, base ++ b!"-" ++ x])

/-- A longer text comes first; texts of the same length are in lexicographic order. -/
def Before (a b : Bytes) : Prop := b.length < a.length ∨ a.length = b.length ∧ a < b

end Verif.Spec.Loader
