import Verif.Model.Spreak.Bundle
/-!
# What bundles and localizers say about themselves

Models the accessors of /repo/bundle.go and /repo/localizer.go.  `maps.Keys` gives the keys in some order; the
model gives them in the order of the association list.
-/
namespace Verif.Model.Spreak
open Verif.Go

variable {L N : Type} [DecidableEq L]

/-- /repo/bundle.go:135 `Domains`. -/
def Bundle.domainList (b : Bundle L N) : List Bytes := b.domains

/-- /repo/bundle.go:138 `CanLocalize`. -/
def Bundle.canLocalize (b : Bundle L N) : Bool := decide (0 < b.locales.length) && decide (0 < b.domains.length)

/-- /repo/bundle.go:141-143 `SupportedLanguages`. -/
def Bundle.supportedLanguages (b : Bundle L N) : List L := b.locales.keys

/-- /repo/bundle.go:148-151 `IsLanguageSupported`; `matcher` as in `newLocalizerForDomain`. -/
def Bundle.isLanguageSupported (matcher : List L → Option Nat) (lang : L) : Bool := (matcher [lang]).isSome

/-- /repo/localizer.go:104-107 `HasDomain`. -/
def Localizer.hasDomain (l : Localizer L N) (domain : Bytes) : Bool := (l.locale.catalogs.get? domain).isSome

/-- /repo/localizer.go:110-113 `Domains`. -/
def Localizer.domainList (l : Localizer L N) : List Bytes := l.locale.catalogs.keys

/-- /repo/localizer.go:116 `HasLocale`. -/
def Localizer.hasLocale (l : Localizer L N) : Bool := l.localeFound

/-- /repo/localizer.go:121 `DefaultDomain`. -/
def Localizer.defaultDomainName (l : Localizer L N) : Bytes := l.defaultDomain

/-- /repo/localizer.go:125 `Language`. -/
def Localizer.language (l : Localizer L N) : L := l.locale.language

/-- /repo/localizer.go:68-70 `NewLocalizer`. -/
def newLocalizer (acceptLanguage : Bytes → Option (List L)) (matcher : List L → Option Nat) (b : Bundle L N)
    (langs : List (Accept L)) : Run (Localizer L N) :=
  newLocalizerForDomain acceptLanguage matcher b b.defaultDomain langs

/-- /repo/localizer.go:73-75 `NewKeyLocalizerForDomain`. -/
def newKeyLocalizerForDomain (acceptLanguage : Bytes → Option (List L)) (matcher : List L → Option Nat)
    (b : Bundle L N) (domain : Bytes) (langs : List (Accept L)) : Run (KeyLocalizer L N) :=
  match newLocalizerForDomain acceptLanguage matcher b domain langs with
  | .error f => .error f
  | .ok l => .ok ⟨l⟩

/-- /repo/localizer.go:78-80 `NewKeyLocalizer`. -/
def newKeyLocalizer (acceptLanguage : Bytes → Option (List L)) (matcher : List L → Option Nat) (b : Bundle L N)
    (langs : List (Accept L)) : Run (KeyLocalizer L N) :=
  match newLocalizer acceptLanguage matcher b langs with
  | .error f => .error f
  | .ok l => .ok ⟨l⟩

end Verif.Model.Spreak
