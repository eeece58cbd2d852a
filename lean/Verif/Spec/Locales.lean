import Verif.Model.Humanize.Locales
import Verif.Spec.DateFormat
/-!
# What the formats of a locale are for
-/
namespace Verif.Spec.Locales
open Verif.Go Verif.Model.Humanize Verif.Spec.DateFormat

/-- The formats that a locale defines. -/
inductive Kind
  | date | time | dateTime | yearMonth | monthDay | shortDate | shortDatetime
  deriving DecidableEq

/-- The keyword for `FormatTime` (/repo/humanize/date.go:13-36). -/
def Kind.keyword : Kind → Bytes
  | .date => b!"DATE_FORMAT"
  | .time => b!"TIME_FORMAT"
  | .dateTime => b!"DATETIME_FORMAT"
  | .yearMonth => b!"YEAR_MONTH_FORMAT"
  | .monthDay => b!"MONTH_DAY_FORMAT"
  | .shortDate => b!"SHORT_DATE_FORMAT"
  | .shortDatetime => b!"SHORT_DATETIME_FORMAT"

/-- The two times agree on what the format is for: a date, a time of day, both, a month of a year, a day of a month. -/
def Kind.Agree (t u : Time) : Kind → Prop
  | .date | .shortDate => t.year = u.year ∧ t.month = u.month ∧ t.day = u.day
  | .time => t.hour = u.hour ∧ t.minute = u.minute
  | .dateTime | .shortDatetime =>
    t.year = u.year ∧ t.month = u.month ∧ t.day = u.day ∧ t.hour = u.hour ∧ t.minute = u.minute
  | .yearMonth => t.year = u.year ∧ t.month = u.month
  | .monthDay => t.month = u.month ∧ t.day = u.day

/-- The localizer of the environment gives the texts: names of months and days and the words for times of day are
translated to them. -/
structure Serves (env : Env) (x : Texts) : Prop where
  months : x.months = monthNames.map env.loc.get
  alternative : x.alternative = monthNames.map (env.loc.pGet b!"alt. month")
  abbreviated : x.abbreviated = apNames.map (env.loc.pGet b!"abbrev. month")
  short : ∀ (i : Nat) (name text : Bytes), monthNames[i]? = some name → x.short[i]? = some text →
    ∃ (r : Char) (rest : List Char), env.loc.get (lowerFirst (name.take 3)) = utf8 (r :: rest) ∧ text = utf8 (env.toUpper r :: rest)
  twelve : x.short.length = 12
  days : x.days = dayNames.map env.loc.get
  am : x.am = env.loc.get b!"a.m."
  pm : x.pm = env.loc.get b!"p.m."
  bigAm : x.bigAm = env.loc.get b!"AM"
  bigPm : x.bigPm = env.loc.get b!"PM"
  midnight : x.midnight = env.loc.get b!"midnight"
  noon : x.noon = env.loc.get b!"noon"

end Verif.Spec.Locales
