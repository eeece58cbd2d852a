import Verif.Model.Humanize.DateFormat
import Verif.Model.Spreak.Bundle
/-!
# Collections of locales

Models /repo/humanize/humanizer.go:86-174 and /repo/humanize/locale.go.  Format data are values: in Go they are
pointers, so `New` changes the data of the caller; as `setDefaults` gives the same result for the same data, sharing makes no
difference to the collection.  The file system of a locale is not nil (`fs.ReadFile` panics on a nil one); the
options of the caller are not modelled beyond the locales they register (`WithLocale`), bundle options are not used.
-/
namespace Verif.Model.Humanize
open Verif.Go Verif.Model.Spreak

variable {L N V : Type} [DecidableEq L]

/-- /repo/humanize/humanizer.go:36-41 `LocaleData`: `fs` reads a file; `format = none` is the nil pointer. -/
structure LocaleData (L : Type) where
  lang : L
  fs : Bytes → Option Bytes
  format : Option FormatData

/-- /repo/humanize/humanizer.go:117-122: one step of the loop of `New` over the locales. -/
def LocaleData.complete (d : LocaleData L) : LocaleData L :=
  { d with format := some ((d.format.getD fallbackFormat).setDefaults) }

/-- /repo/humanize/humanizer.go:117-122: the loop; `none` is a nil pointer in the list. -/
def completeAll : List (Option (LocaleData L)) → Run (List (LocaleData L))
  | [] => .ok []
  | none :: _ => .error .nilDereference
  | some d :: rest =>
    match completeAll rest with
    | .ok r => .ok (d.complete :: r)
    | .error f => .error f

/-- /repo/humanize/locale.go:16-24 `newLoader`. -/
def newLoader (locales : List (LocaleData L)) : GoMap L (LocaleData L) :=
  locales.foldl (fun m d => m.set d.lang d) []

/-- /repo/humanize/locale.go:26-44 `localeLoader.Load`; `decode` is `catalog.NewPoDecoder().Decode`. -/
def loaderLoad (decode : L → Bytes → Bytes → Except (Err L) (Option (Catalog L N))) (m : GoMap L (LocaleData L)) :
    Loader L N := fun lang domain =>
  match m.get? lang with
  | none => .error .notFound
  | some data =>
    match data.fs (domain ++ b!".po") with
    | none => .error .notFound
    | some content => decode lang domain content

/-- /repo/humanize/humanizer.go:129-135: the formats of the collection, from the loop over the locales of the loader. -/
def collectFormats (m : GoMap L (LocaleData L)) : GoMap L FormatData :=
  m.foldl (fun r p => match p.2.format with
    | some f => r.set p.1 f
    | none => r) []

/-- /repo/humanize/humanizer.go:86-89 `Collection`. -/
structure Collection (L N : Type) where
  bundle : Bundle L N
  formats : GoMap L FormatData

/-- /repo/humanize/humanizer.go:106-151 `New`; `english` is language.English, `range` is the order in which the
loop over the map of locales visits them. -/
def newCollection (w : World L N V) (order : Order L N) (range : GoMap L (LocaleData L) → GoMap L (LocaleData L))
    (decode : L → Bytes → Bytes → Except (Err L) (Option (Catalog L N))) (english : L)
    (locales : List (Option (LocaleData L))) : Run (Except (Err L) (Collection L N)) :=
  match completeAll locales with
  | .error f => .error f
  | .ok ds =>
    let loader := newLoader ds
    match newBundle w order [.source english, .defaultDomain b!"django", .domainLoader b!"django" (some (loaderLoad decode loader)),
        .language ((range loader).map fun p => .tag p.1)] with
    | .error e => .ok (.error e)
    | .ok (b, _) => .ok (.ok ⟨b, collectFormats (range loader)⟩)

/-- /repo/humanize/humanizer.go:166-174 `CreateHumanizer`: the format of a humanizer, from the language that
its localizer reports. -/
def humanizerFormat (formats : GoMap L FormatData) (language : L) : FormatData :=
  (formats.get? language).getD fallbackFormat

/-- /repo/humanize/date.go:420-422 `Now`, 426-428 `Time`, 432-434 `Date`; `now` is what `time.Now()` returns. -/
def humanizerNow (env : Env) (f : FormatData) (now : Time) : Run Bytes := formatTime env f now b!"DATETIME_FORMAT"
def humanizerTime (env : Env) (f : FormatData) (now : Time) : Run Bytes := formatTime env f now b!"TIME_FORMAT"
def humanizerDate (env : Env) (f : FormatData) (now : Time) : Run Bytes := formatTime env f now b!"DATE_FORMAT"

end Verif.Model.Humanize
