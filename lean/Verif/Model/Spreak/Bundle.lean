import Verif.Model.Spreak.Localizer
/-!
# Creating a bundle

Models `NewBundle` and its options, /repo/bundle.go.  Loaders are functions (the same call gives the same
result).  Options that only set the printer or the matcher are `other`: printer and matcher appear through
`World` and `newLocalizerForDomain`.
-/
namespace Verif.Model.Spreak
open Verif.Go

variable {L N V : Type} [DecidableEq L]

/-- /repo/loader.go:22-24 `Loader`: a catalog, possibly nil, or an error. -/
abbrev Loader (L N : Type) := L → Bytes → Except (Err L) (Option (Catalog L N))

/-- A language given to an option. -/
inductive LangArg (L : Type)
  | tag (t : L)
  | name (s : Bytes)
  | other

/-- /repo/utils.go:136-149 `languageInterfaceToTag`. -/
def LangArg.toTag (w : World L N V) : LangArg L → Except (Err L) L
  | .tag t => .ok t
  | .name s => match w.parse s with
    | some t => .ok t
    | none => .error .badLanguage
  | .other => .error .badLanguage

/-- Things that happen while a bundle is created. -/
inductive Event (L : Type)
  | missing (e : Err L)
  | getPrintFunc (lang : L)
  | init (langs : List L)
  deriving DecidableEq, Repr

/-- A setup action: `preloadLanguages(optional, languages...)`. -/
structure Action (L : Type) where
  optional : Bool
  languages : List (LangArg L)

/-- /repo/bundle.go:41-49 `bundleBuilder`, with the number of loops over `domainLoaders` so far and the events. -/
structure Builder (L N : Type) where
  callback : Bool
  defaultDomain : Bytes
  errContext : Bytes
  sourceLanguage : L
  fallbackLanguage : L
  loaders : GoMap Bytes (Loader L N)
  actions : List (Action L)
  languages : List L
  locales : GoMap L (Locale L N)
  domains : List Bytes
  loops : Nat
  events : List (Event L)

/-- The options of /repo/bundle.go:235-414. -/
inductive Opt (L N : Type)
  | nil
  | fallback (lang : LangArg L)
  | source (tag : L)
  | callback (set : Bool)
  | defaultDomain (d : Bytes)
  | domainLoader (d : Bytes) (l : Option (Loader L N))
  | language (ls : List (LangArg L))
  | requiredLanguage (ls : List (LangArg L))
  | errorContext (c : Bytes)
  | other (ok : Bool)

/-- /repo/bundle.go:77-93: the builder at the start. -/
def Builder.start (w : World L N V) : Builder L N where
  callback := false
  defaultDomain := []
  errContext := b!"errors"
  sourceLanguage := w.und
  fallbackLanguage := w.und
  loaders := []
  actions := []
  languages := []
  locales := []
  domains := []
  loops := 0
  events := []

/-- /repo/bundle.go:235-414: applying one option.  `domainLoader` covers WithDomainLoader (a nil loader is `none`)
and the successful cases of WithFilesystemLoader, WithDomainPath and WithDomainFs. -/
def Builder.apply (w : World L N V) (b : Builder L N) : Opt L N → Except (Err L) (Builder L N)
  | .nil => .error .option
  | .fallback lang =>
    match lang.toTag w with
    | .error e => .error e
    | .ok tag => .ok { b with fallbackLanguage := tag, actions := b.actions ++ [⟨false, [.tag tag]⟩] }
  | .source tag => .ok { b with sourceLanguage := tag, actions := b.actions ++ [⟨false, [.tag tag]⟩] }
  | .callback set => .ok { b with callback := set }
  | .defaultDomain d => .ok { b with defaultDomain := d }
  | .domainLoader d l =>
    if (b.loaders.get? d).isSome then .error .option
    else match l with
      | none => .error .option
      | some l => .ok { b with loaders := b.loaders.set d l }
  | .language ls => .ok { b with actions := b.actions ++ [⟨true, ls⟩] }
  | .requiredLanguage ls => .ok { b with actions := b.actions ++ [⟨false, ls⟩] }
  | .errorContext c => .ok { b with errContext := c }
  | .other ok => if ok then .ok b else .error .option

/-- /repo/bundle.go:95-102: the loop over the options. -/
def Builder.applyAll (w : World L N V) (b : Builder L N) : List (Opt L N) → Except (Err L) (Builder L N)
  | [] => .ok b
  | o :: os => match b.apply w o with
    | .error e => .error e
    | .ok b => b.applyAll w os

/-- Reports an event of the callback. -/
def Builder.missing (b : Builder L N) (e : Err L) : Builder L N :=
  if b.callback then { b with events := b.events ++ [.missing e] } else b

/-- /repo/bundle.go:203-223: the loop over the loaders, in the order of the list.  Returns the builder also in
case of an error. -/
def Builder.loadAll (optional : Bool) (lang : L) (b : Builder L N) (cats : GoMap Bytes (Option (Catalog L N))) :
    GoMap Bytes (Loader L N) → Builder L N × Except (Err L) (GoMap Bytes (Option (Catalog L N)))
  | [] => (b, .ok cats)
  | (domain, loader) :: rest =>
    match loader lang domain with
    | .error .notFound =>
      if optional then (b.missing .notFound).loadAll optional lang cats rest
      else (b.missing .notFound, .error .notFound)
    | .error e => (b, .error e)
    | .ok cat =>
      let b := if domain ∈ b.domains then b else { b with domains := b.domains ++ [domain] }
      b.loadAll optional lang (cats.set domain cat) rest

/-- The order in which the k-th loop visits the loaders. -/
abbrev Order (L N : Type) := Nat → GoMap Bytes (Loader L N) → GoMap Bytes (Loader L N)

/-- /repo/bundle.go:185-233 `createLocale`. -/
def Builder.createLocale (w : World L N V) (order : Order L N) (optional : Bool) (b : Builder L N) (lang : L) :
    Builder L N × Except (Err L) Unit :=
  if lang = w.und then (b, .error (.missingLanguage lang))
  else if lang = b.sourceLanguage then
    ({ b with
        locales := b.locales.set lang ⟨b.sourceLanguage, [], true⟩
        languages := b.languages ++ [lang]
        events := b.events ++ [.getPrintFunc b.sourceLanguage] }, .ok ())
  else if (b.locales.get? lang).isSome then (b, .ok ())
  else
    let b' := { b with loops := b.loops + 1 }
    match b'.loadAll optional lang [] (order b.loops b.loaders) with
    | (b, .error e) => (b, .error e)
    | (b, .ok cats) =>
      if cats = [] then (b, .error (.missingLanguage lang))
      else
        ({ b with
            locales := b.locales.set lang ⟨lang, cats, false⟩
            languages := b.languages ++ [lang]
            events := b.events ++ [.getPrintFunc lang] }, .ok ())

/-- /repo/bundle.go:153-183 `preloadLanguages`. -/
def Builder.preload (w : World L N V) (order : Order L N) (optional : Bool) (b : Builder L N) :
    List (LangArg L) → Builder L N × Except (Err L) Unit
  | [] => (b, .ok ())
  | a :: rest =>
    match a.toTag w with
    | .error e => (b, .error e)
    | .ok tag =>
      match b.createLocale w order optional tag with
      | (b, .ok ()) => b.preload w order optional rest
      | (b, .error e) =>
        if !optional then (b, .error e)
        else match e with
          | .missingLanguage l => (b.missing (.missingLanguage l)).preload w order optional rest
          | e => (b, .error e)

/-- /repo/bundle.go:106-113: the setup actions. -/
def Builder.runActions (w : World L N V) (order : Order L N) (b : Builder L N) :
    List (Action L) → Except (Err L) (Builder L N)
  | [] => .ok b
  | a :: rest =>
    match b.preload w order a.optional a.languages with
    | (_, .error e) => .error e
    | (b, .ok ()) => b.runActions w order rest

/-- /repo/bundle.go:115-130: the end of `NewBundle`. -/
def Builder.finish (b : Builder L N) : Bundle L N × List (Event L) :=
  let events := b.events ++ [.init b.languages]
  let (source, events) := match b.locales.get? b.sourceLanguage with
    | some l => (l, events)
    | none => (⟨b.sourceLanguage, [], true⟩, events ++ [.getPrintFunc b.sourceLanguage])
  let fallback := match b.locales.get? b.fallbackLanguage with
    | some l => l
    | none => source
  (⟨b.callback, b.defaultDomain, b.errContext, fallback, source, b.languages, b.locales, b.domains⟩, events)

/-- /repo/bundle.go:76-131 `NewBundle`: the bundle and the events of its creation. -/
def newBundle (w : World L N V) (order : Order L N) (opts : List (Opt L N)) :
    Except (Err L) (Bundle L N × List (Event L)) :=
  match (Builder.start w).applyAll w opts with
  | .error e => .error e
  | .ok b => match { b with domains := [] }.runActions w order b.actions with
    | .error e => .error e
    | .ok b => .ok b.finish

end Verif.Model.Spreak
