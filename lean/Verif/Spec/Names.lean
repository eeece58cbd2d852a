import Verif.Model.Humanize.Names
/-!
# Names of languages
-/
namespace Verif.Spec.Names
open Verif.Go Verif.Model.Humanize

/-- The localizer serves the names of the catalog, and the English name where there is none. -/
def ServesNames (loc : Loc) (x : Names) : Prop :=
  ∀ (i : Nat) (code : Bytes) (info : LocaleInfo) (t : Bytes),
    localeInfos[i]? = some (code, info) → x.names[i]? = some t → loc.get info.name = if t = [] then info.name else t

/-- The languages that have the same name in a locale, by its directory. -/
def confusions : List (Bytes × Bytes × Bytes) :=
  [(b!"esVE", b!"cy", b!"gl"), (b!"eu", b!"en", b!"en-gb"), (b!"eu", b!"sr", b!"sr-latn"), (b!"km", b!"cy", b!"uk"),
   (b!"km", b!"el", b!"gl"), (b!"km", b!"fi", b!"nl"), (b!"ko", b!"sr", b!"sr-latn"), (b!"os", b!"az", b!"tt"),
   (b!"pl", b!"ml", b!"ms"), (b!"sv", b!"lt", b!"lv"), (b!"tg", b!"ar", b!"ar-dz"), (b!"tg", b!"sr", b!"sr-latn"),
   (b!"tg", b!"zh-hans", b!"zh-hant")]

/-- Small letters instead of capital ones. -/
def lowerAscii (s : Bytes) : Bytes := s.map fun b => if 65 ≤ b ∧ b ≤ 90 then b + 32 else b

end Verif.Spec.Names
