import Verif.Go.Map
import Verif.Go.Bytes
/-!
# Locales and localizers

Models /repo/locale.go, /repo/localizer.go and the parts of /repo/bundle.go and /repo/localize that they use.

`L` is the type of language tags, `N` that of numbers for plural forms, `V` that of values to print.  Calls of
the missing-translation callback are collected in a trace; `callback = false` is the nil callback.
-/
namespace Verif.Model.Spreak
open Verif.Go

/-- The errors that lookups and bundles produce.  `catalog` and `loader` stand for whatever a catalog or loader
returns. -/
inductive Err (L : Type)
  | missingDomain (lang : L) (domain : Bytes)
  | catalog (id : Nat)
  | plural
  | missingLocale
  | nilLocalizable
  | missingLanguage (lang : L)
  | notFound
  | loader (id : Nat)
  | badLanguage
  | option
  deriving DecidableEq, Repr

/-- /repo/catalog/catalog.go:13-23 `Catalog`.  The text returned beside an error is never used. -/
structure Catalog (L N : Type) where
  lookup : Bytes → Bytes → Except (Err L) Bytes
  lookupPlural : Bytes → Bytes → N → Except (Err L) Bytes

/-- What is taken from outside: the print function of a language (utils.go:22-65), the built-in plural function of
a language (`poplural.ForLanguage`; `none` is an error), the language names that `parseLanguageName` accepts. -/
structure World (L N V : Type) where
  und : L
  print : L → Bytes → List V → Bytes
  plural : L → N → Option Int
  parse : Bytes → Option L

/-- /repo/locale.go:11-18 `locale`; print and plural function follow from the language.  A catalog may be a nil
interface (`none`), as the JSON decoder returns for the file `null`. -/
structure Locale (L N : Type) where
  language : L
  catalogs : GoMap Bytes (Option (Catalog L N))
  isSource : Bool

/-- /repo/bundle.go:56-69 `Bundle`, as far as lookups use it. -/
structure Bundle (L N : Type) where
  callback : Bool
  defaultDomain : Bytes
  errContext : Bytes
  fallback : Locale L N
  source : Locale L N
  languages : List L
  locales : GoMap L (Locale L N)
  domains : List Bytes

/-- The reports made so far and a result; the run may panic. -/
abbrev Traced (L α : Type) := Run (List (Err L) × α)

variable {L N V : Type} [DecidableEq L]

/-- A call of the callback, /repo/locale.go:51-53. -/
def report (callback : Bool) (e : Err L) : List (Err L) := if callback then [e] else []

/-- /repo/locale.go:44-68 `locale.lookupSingularTranslation`. -/
def Locale.lookupSingular (w : World L N V) (cb : Bool) (l : Locale L N) (domain ctx msgID : Bytes) (vars : List V) :
    Traced L (Except (Err L) Bytes) :=
  if l.isSource then .ok ([], .ok (w.print l.language msgID vars))
  else match l.catalogs.get? domain with
    | none => .ok (report cb (.missingDomain l.language domain), .error (.missingDomain l.language domain))
    | some none => .error .nilDereference
    | some (some cat) =>
      match cat.lookup ctx msgID with
      | .error e => .ok (report cb e, .error e)
      | .ok t => .ok ([], .ok (w.print l.language t vars))

/-- /repo/locale.go:96-107 `printSourceMessage`; with an error the index is 0. -/
def Locale.printSource (w : World L N V) (cb : Bool) (l : Locale L N) (singular plural : Bytes) (n : N)
    (vars : List V) : List (Err L) × Bytes :=
  let idx := (w.plural l.language n).getD 0
  let trace := if (w.plural l.language n).isNone then report cb .plural else []
  if idx = 0 ∨ plural = [] then (trace, w.print l.language singular vars)
  else (trace, w.print l.language plural vars)

/-- /repo/locale.go:70-94 `locale.lookupPluralTranslation`. -/
def Locale.lookupPlural (w : World L N V) (cb : Bool) (l : Locale L N) (domain ctx singular plural : Bytes) (n : N)
    (vars : List V) : Traced L (Except (Err L) Bytes) :=
  if l.isSource then
    let r := l.printSource w cb singular plural n vars
    .ok (r.1, .ok r.2)
  else match l.catalogs.get? domain with
    | none => .ok (report cb (.missingDomain l.language domain), .error (.missingDomain l.language domain))
    | some none => .error .nilDereference
    | some (some cat) =>
      match cat.lookupPlural ctx singular n with
      | .error e => .ok (report cb e, .error e)
      | .ok t => .ok ([], .ok (w.print l.language t vars))

/-- /repo/localizer.go:22-27 `Localizer`. -/
structure Localizer (L N : Type) where
  bundle : Bundle L N
  locale : Locale L N
  defaultDomain : Bytes
  localeFound : Bool

/-- The text of a result; the source locale never gives an error (localizer.go:312-314). -/
def textOf : Except (Err L) Bytes → Bytes
  | .ok t => t
  | .error _ => []

/-- /repo/localizer.go:295-315 `Localizer.lookupSingularTranslation`: the text and the error. -/
def Localizer.lookupSingular (w : World L N V) (l : Localizer L N) (domain ctx msgID : Bytes) (vars : List V) :
    Traced L (Bytes × Option (Err L)) :=
  match l.locale.lookupSingular w l.bundle.callback domain ctx msgID vars with
  | .error f => .error f
  | .ok (t1, .ok t) => .ok (t1, t, if l.localeFound then none else some .missingLocale)
  | .ok (t1, .error errA) =>
    if l.locale.language ≠ l.bundle.fallback.language then
      match l.bundle.fallback.lookupSingular w l.bundle.callback domain ctx msgID vars with
      | .error f => .error f
      | .ok (t2, .ok t) => .ok (t1 ++ t2, t, some errA)
      | .ok (t2, .error _) =>
        match l.bundle.source.lookupSingular w l.bundle.callback domain ctx msgID vars with
        | .error f => .error f
        | .ok (t3, r) => .ok (t1 ++ t2 ++ t3, textOf r, some errA)
    else
      match l.bundle.source.lookupSingular w l.bundle.callback domain ctx msgID vars with
      | .error f => .error f
      | .ok (t3, r) => .ok (t1 ++ t3, textOf r, some errA)

/-- /repo/localizer.go:317-334 `Localizer.lookupPluralTranslation`. -/
def Localizer.lookupPlural (w : World L N V) (l : Localizer L N) (domain ctx singular plural : Bytes) (n : N)
    (vars : List V) : Traced L (Bytes × Option (Err L)) :=
  match l.locale.lookupPlural w l.bundle.callback domain ctx singular plural n vars with
  | .error f => .error f
  | .ok (t1, .ok t) => .ok (t1, t, if l.localeFound then none else some .missingLocale)
  | .ok (t1, .error errA) =>
    match l.bundle.fallback.lookupPlural w l.bundle.callback domain ctx singular plural n vars with
    | .error f => .error f
    | .ok (t2, .ok t) => .ok (t1 ++ t2, t, some errA)
    | .ok (t2, .error _) =>
      match l.bundle.source.lookupPlural w l.bundle.callback domain ctx singular plural n vars with
      | .error f => .error f
      | .ok (t3, r) => .ok (t1 ++ t2 ++ t3, textOf r, some errA)

/-- The text of a lookup, as the methods without error return it. -/
def text (r : Traced L (Bytes × Option (Err L))) : Traced L Bytes :=
  match r with
  | .error f => .error f
  | .ok (t, s, _) => .ok (t, s)

/-- /repo/localizer.go:132-135 `Get`. -/
def Localizer.get (w : World L N V) (l : Localizer L N) (m : Bytes) : Traced L Bytes :=
  text (l.lookupSingular w l.defaultDomain [] m [])
/-- /repo/localizer.go:138-141 `Getf`. -/
def Localizer.getf (w : World L N V) (l : Localizer L N) (m : Bytes) (vars : List V) : Traced L Bytes :=
  text (l.lookupSingular w l.defaultDomain [] m vars)
/-- /repo/localizer.go:144-147 `DGet`. -/
def Localizer.dGet (w : World L N V) (l : Localizer L N) (d m : Bytes) : Traced L Bytes :=
  text (l.lookupSingular w d [] m [])
/-- /repo/localizer.go:151-154 `DGetf`. -/
def Localizer.dGetf (w : World L N V) (l : Localizer L N) (d m : Bytes) (vars : List V) : Traced L Bytes :=
  text (l.lookupSingular w d [] m vars)
/-- /repo/localizer.go:159-162 `NGet`. -/
def Localizer.nGet (w : World L N V) (l : Localizer L N) (s p : Bytes) (n : N) : Traced L Bytes :=
  text (l.lookupPlural w l.defaultDomain [] s p n [])
/-- /repo/localizer.go:165-168 `NGetf`. -/
def Localizer.nGetf (w : World L N V) (l : Localizer L N) (s p : Bytes) (n : N) (vars : List V) : Traced L Bytes :=
  text (l.lookupPlural w l.defaultDomain [] s p n vars)
/-- /repo/localizer.go:171-174 `DNGet`. -/
def Localizer.dnGet (w : World L N V) (l : Localizer L N) (d s p : Bytes) (n : N) : Traced L Bytes :=
  text (l.lookupPlural w d [] s p n [])
/-- /repo/localizer.go:177-180 `DNGetf`. -/
def Localizer.dnGetf (w : World L N V) (l : Localizer L N) (d s p : Bytes) (n : N) (vars : List V) : Traced L Bytes :=
  text (l.lookupPlural w d [] s p n vars)
/-- /repo/localizer.go:183-186 `PGet`. -/
def Localizer.pGet (w : World L N V) (l : Localizer L N) (c m : Bytes) : Traced L Bytes :=
  text (l.lookupSingular w l.defaultDomain c m [])
/-- /repo/localizer.go:189-192 `PGetf`. -/
def Localizer.pGetf (w : World L N V) (l : Localizer L N) (c m : Bytes) (vars : List V) : Traced L Bytes :=
  text (l.lookupSingular w l.defaultDomain c m vars)
/-- /repo/localizer.go:195-198 `DPGet`. -/
def Localizer.dpGet (w : World L N V) (l : Localizer L N) (d c m : Bytes) : Traced L Bytes :=
  text (l.lookupSingular w d c m [])
/-- /repo/localizer.go:201-204 `DPGetf`. -/
def Localizer.dpGetf (w : World L N V) (l : Localizer L N) (d c m : Bytes) (vars : List V) : Traced L Bytes :=
  text (l.lookupSingular w d c m vars)
/-- /repo/localizer.go:207-210 `NPGet`. -/
def Localizer.npGet (w : World L N V) (l : Localizer L N) (c s p : Bytes) (n : N) : Traced L Bytes :=
  text (l.lookupPlural w l.defaultDomain c s p n [])
/-- /repo/localizer.go:213-216 `NPGetf`. -/
def Localizer.npGetf (w : World L N V) (l : Localizer L N) (c s p : Bytes) (n : N) (vars : List V) : Traced L Bytes :=
  text (l.lookupPlural w l.defaultDomain c s p n vars)
/-- /repo/localizer.go:219-222 `DNPGet`. -/
def Localizer.dnpGet (w : World L N V) (l : Localizer L N) (d c s p : Bytes) (n : N) : Traced L Bytes :=
  text (l.lookupPlural w d c s p n [])
/-- /repo/localizer.go:225-228 `DNPGetf`. -/
def Localizer.dnpGetf (w : World L N V) (l : Localizer L N) (d c s p : Bytes) (n : N) (vars : List V) : Traced L Bytes :=
  text (l.lookupPlural w d c s p n vars)

/-- /repo/localize/types.go:35-52 `Localizable`: what its methods return; `domain = none` is `HasDomain() = false`. -/
structure Localizable (N V : Type) where
  msgID : Bytes
  pluralID : Bytes
  context : Bytes
  vars : List V
  count : N
  domain : Option Bytes

/-- /repo/localizer.go:233-253 `LocalizeWithError`; `none` is the nil interface. -/
def Localizer.localizeWithError (w : World L N V) (l : Localizer L N) (t : Option (Localizable N V)) :
    Traced L (Bytes × Option (Err L)) :=
  match t with
  | none => .ok ([], b!"<nil>", some .nilLocalizable)
  | some t =>
    let domain := match t.domain with
      | some d => d
      | none => l.defaultDomain
    if t.pluralID ≠ [] then l.lookupPlural w domain t.context t.msgID t.pluralID t.count t.vars
    else l.lookupSingular w domain t.context t.msgID t.vars

/-- /repo/localizer.go:256-259 `Localize`. -/
def Localizer.localize (w : World L N V) (l : Localizer L N) (t : Option (Localizable N V)) : Traced L Bytes :=
  text (l.localizeWithError w t)

/-- An error value given to `LocalizeError`: its message and, if it implements `Localizable`, what that says. -/
structure GoError (N V : Type) where
  message : Bytes
  localizable : Option (Localizable N V)

/-- What `LocalizeError` returns: the error itself or a `localize.Error` that wraps it (localize/error.go). -/
inductive ErrorResult
  | original
  | translated (translation : Bytes)
  deriving DecidableEq, Repr

/-- /repo/localizer.go:268-289 `LocalizeError` for a non-nil error. -/
def Localizer.localizeError (w : World L N V) (l : Localizer L N) (e : GoError N V) : Traced L ErrorResult :=
  let r := match e.localizable with
    | some v => l.localizeWithError w (some v)
    | none => l.lookupSingular w l.defaultDomain l.bundle.errContext e.message []
  match r with
  | .error f => .error f
  | .ok (t, _, some _) => .ok (t, .original)
  | .ok (t, s, none) => .ok (t, .translated s)

/-- /repo/localizer.go:82-101 `newLocalizerFromTag` with at most one tag. -/
def newLocalizerFromTag (b : Bundle L N) (domain : Bytes) (tag : Option L) : Localizer L N :=
  match tag.bind b.locales.get? with
  | some l => ⟨b, l, domain, true⟩
  | none => ⟨b, b.fallback, domain, false⟩

/-- A language given by the caller: a tag, a text for `language.ParseAcceptLanguage`, or something else. -/
inductive Accept (L : Type)
  | tag (t : L)
  | text (s : Bytes)
  | other

/-- /repo/localizer.go:42-57: the tags in the given languages; `acceptLanguage` is `language.ParseAcceptLanguage`. -/
def acceptTags (acceptLanguage : Bytes → Option (List L)) : List (Accept L) → List L
  | [] => []
  | .tag t :: rest => t :: acceptTags acceptLanguage rest
  | .text s :: rest => (acceptLanguage s).getD [] ++ acceptTags acceptLanguage rest
  | .other :: rest => acceptTags acceptLanguage rest

/-- /repo/localizer.go:41-65 `NewLocalizerForDomain`.  `matcher` is the language matcher: the index of the best
language of the bundle, or `none` for confidence No. -/
def newLocalizerForDomain (acceptLanguage : Bytes → Option (List L)) (matcher : List L → Option Nat) (b : Bundle L N)
    (domain : Bytes) (langs : List (Accept L)) : Run (Localizer L N) :=
  match matcher (acceptTags acceptLanguage langs) with
  | none => .ok (newLocalizerFromTag b domain none)
  | some i =>
    match b.languages[i]? with
    | none => .error .indexOutOfRange
    | some tag => .ok (newLocalizerFromTag b domain (some tag))

/-- /repo/localizer.go:32-34 `KeyLocalizer`; its singular methods (336-358, 386-407) are those of `Localizer`. -/
structure KeyLocalizer (L N : Type) where
  localizer : Localizer L N

/-- /repo/localizer.go:362-383 `NGet`, `NGetf` (without a domain), `DNGet`, `DNGetf`, and 410-431 `NPGet`, `NPGetf`,
`DNPGet`, `DNPGetf`: the key is given as singular and as plural. -/
def KeyLocalizer.plural (w : World L N V) (k : KeyLocalizer L N) (domain : Option Bytes) (ctx key : Bytes) (n : N)
    (vars : List V) : Traced L Bytes :=
  text (k.localizer.lookupPlural w (domain.getD k.localizer.defaultDomain) ctx key key n vars)

/-- /repo/localizer.go:336-358, 386-407 `Get`, `Getf`, `DGet`, `DGetf`, `PGet`, `PGetf`, `DPGet`, `DPGetf`. -/
def KeyLocalizer.singular (w : World L N V) (k : KeyLocalizer L N) (domain : Option Bytes) (ctx key : Bytes)
    (vars : List V) : Traced L Bytes :=
  text (k.localizer.lookupSingular w (domain.getD k.localizer.defaultDomain) ctx key vars)

end Verif.Model.Spreak
