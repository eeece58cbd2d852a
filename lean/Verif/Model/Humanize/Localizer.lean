import Verif.Model.Catalog.Decoder
import Verif.Model.Humanize.Collection
import Verif.Model.PoPlural.Evaluate
import Verif.Model.Spreak.Accessors
import Verif.Model.Spreak.Files
/-!
# The localizer of a humanizer

Models /repo/humanize/humanizer.go:166-174 together with the methods of /repo/localizer.go that the package uses, as they are
called in /repo/humanize/date.go, numbers.go, helper.go and since.go.
-/
namespace Verif.Model.Humanize
open Verif.Go Verif.Model.Spreak Verif.Model.Catalog

variable {L N : Type} [DecidableEq L]

/-- The text of a call; a call that panics has none, and `[]` stands for it. -/
def ran (r : Traced L Bytes) : Bytes :=
  match r with
  | .ok (_, t) => t
  | .error _ => []

/-- /repo/localizer.go:132-141 `Get`, `Getf`, 165-168 `NGetf`, 183-192 `PGet`, `PGetf`, 213-216 `NPGetf`, 291-293 `Print`;
`num` is the number that an `int64` is for the plural functions. -/
def locOf (w : World L N Arg) (num : Int → N) (l : Localizer L N) : Loc where
  get m := ran (l.get w m)
  pGet c m := ran (l.pGet w c m)
  getf m args := ran (l.getf w m args)
  pGetf c m args := ran (l.pGetf w c m args)
  nGetf s p n args := ran (l.nGetf w s p (num n) args)
  npGetf c s p n args := ran (l.npGetf w c s p (num n) args)
  print t args := w.print l.locale.language t args

/-- /repo/humanize/humanizer.go:166-174 `CreateHumanizer`: the localizer and the formats. -/
def createHumanizer (acceptLanguage : Bytes → Option (List L)) (matcher : List L → Option Nat) (c : Collection L N)
    (langs : List (Accept L)) : Run (Localizer L N × FormatData) :=
  match newLocalizer acceptLanguage matcher c.bundle langs with
  | .error f => .error f
  | .ok l => .ok (l, humanizerFormat c.formats l.language)

/-- /repo/locale.go:30, 42 and /repo/catalog/poplural/builtin.go:9-19: the plural function of a locale for messages of the source
language. -/
def builtinPlural (l : Lang) (n : Num) : Option Int :=
  match (PoPlural.pluralRuleForLanguage l.tag).1 with
  | some r => n.rounded.map r.form
  | none => none

/-- The world of the humanizers: language tags with the rules that are built in. -/
def humanizerWorld (und : Lang) (print : Lang → Bytes → List Arg → Bytes) (parse : Bytes → Option Lang) : World Lang Num Arg :=
  ⟨und, print, builtinPlural, parse⟩

end Verif.Model.Humanize
