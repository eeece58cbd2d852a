import Verif.Model.Humanize.Date
import Verif.Model.Calendar
import Verif.Go.Utf8
import Verif.Go.Text
/-!
# humanize/dateformat.go, humanize/dates.go
-/
namespace Verif.Model.Humanize
open Verif.Go

/-! ## `Time.Format`, as far as the package uses it -/

/-- The layouts "3" and "03". -/
def formatHour12 (width : Nat) (t : Time) : Bytes :=
  let hr := t.hour % 12
  appendInt width (if hr = 0 then 12 else hr)

/-- The layout "-0700". -/
def formatZone (t : Time) : Bytes :=
  let zone := (t.loc.offset t.unix).tdiv 60
  (if zone < 0 then b!"-" else b!"+") ++ appendInt 2 ((zone.natAbs : Int) / 60) ++ appendInt 2 ((zone.natAbs : Int) % 60)

/-- The English names that `Time.Format` uses for "Jan". -/
def shortMonthNames : List Bytes :=
  [b!"Jan", b!"Feb", b!"Mar", b!"Apr", b!"May", b!"Jun", b!"Jul", b!"Aug", b!"Sep", b!"Oct", b!"Nov", b!"Dec"]

/-- The English names that `Time.Format` uses for "Mon"; 0 is Sunday. -/
def shortDayNames : List Bytes := [b!"Sun", b!"Mon", b!"Tue", b!"Wed", b!"Thu", b!"Fri", b!"Sat"]

/-- The layout "2006-01-02T15:04:05.". -/
def formatIso (t : Time) : Bytes :=
  appendInt 4 t.year ++ b!"-" ++ appendInt 2 t.month ++ b!"-" ++ appendInt 2 t.day ++ b!"T" ++ appendInt 2 t.hour ++
    b!":" ++ appendInt 2 t.minute ++ b!":" ++ appendInt 2 t.second ++ b!"."

/-- `time.RFC1123Z`, "Mon, 02 Jan 2006 15:04:05 -0700". -/
def formatRFC1123Z (t : Time) : Bytes :=
  shortDayNames.getD t.weekday.toNat [] ++ b!", " ++ appendInt 2 t.day ++ b!" " ++
    shortMonthNames.getD (t.month - 1).toNat [] ++ b!" " ++ appendInt 4 t.year ++ b!" " ++ appendInt 2 t.hour ++ b!":" ++
    appendInt 2 t.minute ++ b!":" ++ appendInt 2 t.second ++ b!" " ++ formatZone t

/-! ## Names -/

/-- /repo/humanize/dates.go:4-12 `weekdays`. -/
def weekdays : GoMap Int Bytes :=
  [(0, b!"Monday"), (1, b!"Tuesday"), (2, b!"Wednesday"), (3, b!"Thursday"), (4, b!"Friday"), (5, b!"Saturday"),
   (6, b!"Sunday")]

/-- /repo/humanize/dates.go:14-22 `weekdaysAbbr`. -/
def weekdaysAbbr : GoMap Int Bytes :=
  [(0, b!"Mon"), (1, b!"Tue"), (2, b!"Wed"), (3, b!"Thu"), (4, b!"Fri"), (5, b!"Sat"), (6, b!"Sun")]

/-- /repo/humanize/dates.go:24-37 `months`. -/
def months : GoMap Int Bytes :=
  [(1, b!"January"), (2, b!"February"), (3, b!"March"), (4, b!"April"), (5, b!"May"), (6, b!"June"), (7, b!"July"),
   (8, b!"August"), (9, b!"September"), (10, b!"October"), (11, b!"November"), (12, b!"December")]

/-- /repo/humanize/dates.go:39-52 `months3`. -/
def months3 : GoMap Int Bytes :=
  [(1, b!"jan"), (2, b!"feb"), (3, b!"mar"), (4, b!"apr"), (5, b!"may"), (6, b!"jun"), (7, b!"jul"), (8, b!"aug"),
   (9, b!"sep"), (10, b!"oct"), (11, b!"nov"), (12, b!"dec")]

/-- /repo/humanize/dates.go:54-67 `monthsAp`; every context is "abbrev. month". -/
def monthsAp : GoMap Int Bytes :=
  [(1, b!"Jan."), (2, b!"Feb."), (3, b!"March"), (4, b!"April"), (5, b!"May"), (6, b!"June"), (7, b!"July"),
   (8, b!"Aug."), (9, b!"Sept."), (10, b!"Oct."), (11, b!"Nov."), (12, b!"Dec.")]

/-- Go's `m[k]` on a `map[int]string`. -/
def nameOf (m : GoMap Int Bytes) (k : Int) : Bytes := (m.get? k).getD []

/-! ## Format letters -/

/-- /repo/humanize/dateformat.go:125-130 `a`. -/
def letter_a (env : Env) (t : Time) : Bytes := if 11 < t.hour then env.loc.get b!"p.m." else env.loc.get b!"a.m."

/-- /repo/humanize/dateformat.go:133-138 `A`. -/
def letter_A (env : Env) (t : Time) : Bytes := if 11 < t.hour then env.loc.get b!"PM" else env.loc.get b!"AM"

/-- /repo/humanize/dateformat.go:149-155 `f`. -/
def letter_f (t : Time) : Bytes :=
  if 0 < t.minute then formatHour12 0 t ++ b!":" ++ appendInt 2 t.minute else formatHour12 0 t

/-- /repo/humanize/dateformat.go:191-201 `P`. -/
def letter_P (env : Env) (t : Time) : Bytes :=
  if t.minute = 0 ∧ t.hour = 0 then env.loc.get b!"midnight"
  else if t.minute = 0 ∧ t.hour = 12 then env.loc.get b!"noon"
  else letter_f t ++ b!" " ++ letter_a env t

/-- /repo/humanize/dateformat.go:264-279 `I`. -/
def letter_I (t : Time) : Bytes :=
  let timeOffset := t.loc.offset t.unix
  let w := t.loc.offset (timeDate t.year 1 1 0 0 0 t.loc).unix
  let s := t.loc.offset (timeDate t.year 7 1 0 0 0 t.loc).unix
  let (w, s) := if w > s then (s, w) else (w, s)
  if w ≠ s then (if timeOffset ≠ w then b!"1" else b!"0") else b!"0"

/-- /repo/humanize/dateformat.go:305-309 `M`: the first rune of the translation in upper case. -/
def letter_M (env : Env) (t : Time) : Run Bytes :=
  match runes (env.loc.get (nameOf months3 t.month)) with
  | [] => .error .indexOutOfRange
  | r :: rest => .ok (utf8 (env.toUpper r :: rest))

/-- /repo/humanize/dateformat.go:336-351 `S`. -/
def letter_S (t : Time) : Bytes :=
  if t.day = 11 ∨ t.day = 12 ∨ t.day = 13 then b!"th"
  else if t.day.tmod 10 = 1 then b!"st"
  else if t.day.tmod 10 = 2 then b!"nd"
  else if t.day.tmod 10 = 3 then b!"rd"
  else b!"th"

/-- /repo/humanize/dateformat.go:31-117: the texts of the format letters; `none` is the default case. -/
def letter (env : Env) (t : Time) (c : Char) : Option (Run Bytes) :=
  match c with
  | 'a' => some (.ok (letter_a env t))
  | 'A' => some (.ok (letter_A env t))
  -- dateformat.go:141-144
  | 'e' => some (.ok (t.loc.name t.unix))
  | 'f' => some (.ok (letter_f t))
  -- dateformat.go:158-160
  | 'g' => some (.ok (formatHour12 0 t))
  -- dateformat.go:163-165
  | 'G' => some (.ok (itoa t.hour))
  -- dateformat.go:168-170
  | 'h' => some (.ok (formatHour12 2 t))
  -- dateformat.go:173-175
  | 'H' => some (.ok (pad0 2 t.hour))
  -- dateformat.go:178-180
  | 'i' => some (.ok (pad0 2 t.minute))
  -- dateformat.go:183-185
  | 'O' => some (.ok (formatZone t))
  | 'P' => some (.ok (letter_P env t))
  -- dateformat.go:204-206
  | 's' => some (.ok (pad0 2 t.second))
  -- dateformat.go:209-211: `time.Local.String()`
  | 'T' => some (.ok env.localName)
  -- dateformat.go:214-217: "%.6d"
  | 'u' => some (.ok (appendInt 6 (t.nsec.tdiv 1000)))
  -- dateformat.go:222-225
  | 'Z' => some (.ok (itoa (t.loc.offset t.unix)))
  -- dateformat.go:228-231
  | 'b' => some (.ok (env.loc.get (nameOf months3 t.month)))
  -- dateformat.go:235-237
  | 'c' => some (.ok (formatIso t ++ itoa t.nsec))
  -- dateformat.go:240-242
  | 'd' => some (.ok (pad0 2 t.day))
  -- dateformat.go:245-249
  | 'D' => some (.ok (env.loc.get (nameOf weekdaysAbbr ((6 + t.weekday).tmod 7))))
  -- dateformat.go:252-255 and dates.go:69-82
  | 'E' => some (.ok (env.loc.pGet b!"alt. month" (nameOf months t.month)))
  -- dateformat.go:258-261
  | 'F' => some (.ok (env.loc.get (nameOf months t.month)))
  | 'I' => some (.ok (letter_I t))
  -- dateformat.go:282-284
  | 'j' => some (.ok (itoa t.day))
  -- dateformat.go:287-291
  | 'l' => some (.ok (env.loc.get (nameOf weekdays ((6 + t.weekday).tmod 7))))
  -- dateformat.go:295-297
  | 'L' => some (.ok (if Calendar.isLeap t.year then b!"true" else b!"false"))
  -- dateformat.go:300-302
  | 'm' => some (.ok (pad0 2 t.month))
  | 'M' => some (letter_M env t)
  -- dateformat.go:312-314
  | 'n' => some (.ok (itoa t.month))
  -- dateformat.go:317-320
  | 'N' => some (.ok (env.loc.pGet b!"abbrev. month" (nameOf monthsAp t.month)))
  -- dateformat.go:323-326
  | 'o' => some (.ok (itoa t.isoWeek.1))
  -- dateformat.go:329-332
  | 'r' => some (.ok (formatRFC1123Z t))
  | 'S' => some (.ok (letter_S t))
  -- dateformat.go:354-356
  | 't' => some (.ok (itoa (Calendar.daysInMonth t.year t.month)))
  -- dateformat.go:359-361
  | 'U' => some (.ok (itoa t.unix))
  -- dateformat.go:364-366
  | 'w' => some (.ok (itoa t.weekday))
  -- dateformat.go:369-372
  | 'W' => some (.ok (itoa t.isoWeek.2))
  -- dateformat.go:375-377
  | 'y' => some (.ok (pad0 2 (t.year.tmod 100)))
  -- dateformat.go:380-382
  | 'Y' => some (.ok (pad0 4 t.year))
  -- dateformat.go:385-387
  | 'z' => some (.ok (itoa t.yearDay))
  | _ => none

/-- /repo/humanize/dateformat.go:27-121: the loop of `format` over the runes. -/
def formatRunes (env : Env) (t : Time) : List Char → Run Bytes
  | [] => .ok []
  | ['\\'] => .ok (encodeRune '\\')
  | '\\' :: r :: rest =>
    match formatRunes env t rest with
    | .ok s => .ok (encodeRune r ++ s)
    | .error f => .error f
  | r :: rest =>
    match letter env t r with
    | some (.error f) => .error f
    | some (.ok s') =>
      match formatRunes env t rest with
      | .ok s => .ok (s' ++ s)
      | .error f => .error f
    | none =>
      match formatRunes env t rest with
      | .ok s => .ok (encodeRune r ++ s)
      | .error f => .error f

/-- /repo/humanize/dateformat.go:27-121 `format`. -/
def dateFormat (env : Env) (t : Time) (format : Bytes) : Run Bytes := formatRunes env t (runes format)

/-! ## FormatTime, NaturalDay -/

/-- /repo/humanize/humanizer.go:47-70 `FormatData`. -/
structure FormatData where
  dateFormat : Bytes
  timeFormat : Bytes
  dateTimeFormat : Bytes
  yearMonthFormat : Bytes
  monthDayFormat : Bytes
  shortDateFormat : Bytes
  shortDatetimeFormat : Bytes
  firstDayOfWeek : Int
  deriving DecidableEq

/-- /repo/humanize/humanizer.go:72-81 `fallbackFormat`. -/
def fallbackFormat : FormatData :=
  ⟨b!"N j, Y", b!"P", b!"N j, Y, P", b!"F Y", b!"F j", b!"m/d/Y", b!"m/d/Y P", 0⟩

/-- /repo/humanize/humanizer.go:176-198 `setDefaults`. -/
def FormatData.setDefaults (f : FormatData) : FormatData :=
  let f := if f.dateFormat = [] then { f with dateFormat := fallbackFormat.dateFormat } else f
  let f := if f.timeFormat = [] then { f with timeFormat := fallbackFormat.timeFormat } else f
  let f := if f.dateTimeFormat = [] then { f with dateTimeFormat := fallbackFormat.dateTimeFormat } else f
  let f := if f.yearMonthFormat = [] then { f with yearMonthFormat := fallbackFormat.yearMonthFormat } else f
  let f := if f.monthDayFormat = [] then { f with monthDayFormat := fallbackFormat.monthDayFormat } else f
  let f := if f.shortDateFormat = [] then { f with shortDateFormat := fallbackFormat.shortDateFormat } else f
  if f.shortDatetimeFormat = [] then { f with shortDatetimeFormat := fallbackFormat.shortDatetimeFormat } else f

/-- /repo/humanize/date.go:396-416 `FormatTime`; the keywords are /repo/humanize/date.go:13-36. -/
def formatTime (env : Env) (f : FormatData) (t : Time) (format : Bytes) : Run Bytes :=
  let format :=
    if format = b!"DATE_FORMAT" then f.dateFormat
    else if format = b!"TIME_FORMAT" then f.timeFormat
    else if format = b!"DATETIME_FORMAT" then f.dateTimeFormat
    else if format = b!"YEAR_MONTH_FORMAT" then f.yearMonthFormat
    else if format = b!"MONTH_DAY_FORMAT" then f.monthDayFormat
    else if format = b!"SHORT_DATE_FORMAT" then f.shortDateFormat
    else if format = b!"SHORT_DATETIME_FORMAT" then f.shortDatetimeFormat
    else format
  dateFormat env t format

/-- /repo/humanize/date.go:56-57: midnight of the day of a time, in its zone. -/
def dayStart (t : Time) : Time := timeDate t.year t.month t.day 0 0 0 t.loc

/-- /repo/humanize/date.go:50-71 `NaturalDay` for a time; `now` is what `time.Now()` returns. -/
def naturalDayTime (env : Env) (f : FormatData) (now t : Time) : Run Bytes :=
  let value := dayStart t
  let today := dayStart { now with loc := t.loc }
  let delta := F64.div (durHours (value.sub today)) (.ofInt 24)
  if F64.eq delta (.ofInt 0) then .ok (env.loc.get b!"today")
  else if F64.eq delta (.ofInt 1) then .ok (env.loc.get b!"tomorrow")
  else if F64.eq delta (.ofInt (-1)) then .ok (env.loc.get b!"yesterday")
  else formatTime env f t b!"DATE_FORMAT"

/-- /repo/humanize/date.go:50-71 `NaturalDay`; `castNow` is the call of `time.Now()` within `ToTime`. -/
def naturalDay (env : Env) (f : FormatData) (now castNow : Time) (input : TimeArg) : Run Bytes :=
  match toTime env castNow input with
  | none => .ok (env.errText input.val)
  | some t => naturalDayTime env f now t

end Verif.Model.Humanize
