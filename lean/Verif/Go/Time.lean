import Verif.Go.FloatOps
import Verif.Go.Bytes
/-!
# Package time, as far as spreak needs it

The conversion between instants and calendar dates is the algorithm of Go 1.23 (the version in /repo/go.mod):
seconds since the start of the year -292277022399 are kept in a uint64.  This is not code of /repo; it is part of
the trusted reading of the Go library.
-/
namespace Verif.Go

/-- `time.Location`: the zone that is in force at a Unix time. -/
structure Location where
  name : Int → Bytes
  offset : Int → Int

/-- `time.UTC`. -/
def utc : Location := ⟨fun _ => b!"UTC", fun _ => 0⟩

/-- `time.Time` without the monotonic clock reading. -/
structure Time where
  unix : Int
  nsec : Int
  loc : Location

/-- `time.isLeap`. -/
def timeIsLeap (year : Int) : Bool := year % 4 = 0 ∧ (year % 100 ≠ 0 ∨ year % 400 = 0)

/-- `time.daysBefore`: days before the month (0 is January) in a common year. -/
def daysBefore (m : Int) : Int :=
  if m = 0 then 0 else if m = 1 then 31 else if m = 2 then 59 else if m = 3 then 90 else if m = 4 then 120
  else if m = 5 then 151 else if m = 6 then 181 else if m = 7 then 212 else if m = 8 then 243
  else if m = 9 then 273 else if m = 10 then 304 else if m = 11 then 334 else 365

/-- The year in which the absolute seconds start. -/
def zeroYear : Int := -292277022399

/-- Absolute seconds minus Unix seconds. -/
def unixToAbsolute : Int := 9223372028715321600

/-- `time.daysSinceEpoch`. -/
def daysSinceEpoch (year : Int) : Int :=
  let y := (year - zeroYear) % 2 ^ 64
  146097 * (y / 400) + 36524 * (y % 400 / 100) + 1461 * (y % 400 % 100 / 4) + 365 * (y % 400 % 100 % 4)

/-- The day number that `time.Date` computes for year, month (1 is January, other values are carried into the
year), day. -/
def dayNumber (year month day : Int) : Int :=
  let y := year + (month - 1) / 12
  let m := (month - 1) % 12
  daysSinceEpoch y + daysBefore m + (if timeIsLeap y ∧ 2 ≤ m then 1 else 0) + (day - 1)

/-- The absolute seconds that `time.Date` computes, as a uint64. -/
def dateAbs (year month day hour min sec : Int) : Int :=
  (dayNumber year month day * 86400 + (hour * 3600 + min * 60 + sec)) % 2 ^ 64

/-- `time.Date` with the nanosecond 0.  The zone is looked up as if the wall clock were UTC, and again at the
instant so found. -/
def timeDate (year month day hour min sec : Int) (loc : Location) : Time :=
  let unix := wrap64 (dateAbs year month day hour min sec - unixToAbsolute)
  ⟨unix - loc.offset (unix - loc.offset unix), 0, loc⟩

/-- `Time.abs`: absolute seconds of the wall clock. -/
def Time.abs (t : Time) : Int := (t.unix + t.loc.offset t.unix + unixToAbsolute) % 2 ^ 64

/-- `absDate`, the year: 400, 100, 4 and 1 year cycles of the day number; with the day within the year. -/
def civilYear (d : Int) : Int × Int :=
  let n4 := d / 146097
  let d1 := d % 146097
  let n := d1 / 36524
  let n3 := n - n / 4
  let d2 := d1 - 36524 * n3
  let n2 := d2 / 1461
  let d3 := d2 - 1461 * n2
  let k := d3 / 365
  let n1 := k - k / 4
  (400 * n4 + 100 * n3 + 4 * n2 + n1 + zeroYear, d3 - 365 * n1)

/-- `absDate`, month and day from the day within the year (0 is 1 January). -/
def civilMonth (leap : Bool) (yday : Int) : Int × Int :=
  if leap ∧ yday = 59 then (2, 29)
  else
    let day := if leap ∧ 59 < yday then yday - 1 else yday
    let m := day / 31
    if daysBefore (m + 1) ≤ day then (m + 2, day - daysBefore (m + 1) + 1)
    else (m + 1, day - daysBefore m + 1)

/-- `Time.Year`. -/
def Time.year (t : Time) : Int := (civilYear (t.abs / 86400)).1
/-- `Time.YearDay`. -/
def Time.yearDay (t : Time) : Int := (civilYear (t.abs / 86400)).2 + 1
/-- `Time.Month`. -/
def Time.month (t : Time) : Int := (civilMonth (timeIsLeap t.year) (t.yearDay - 1)).1
/-- `Time.Day`. -/
def Time.day (t : Time) : Int := (civilMonth (timeIsLeap t.year) (t.yearDay - 1)).2
/-- `Time.Hour`. -/
def Time.hour (t : Time) : Int := t.abs % 86400 / 3600
/-- `Time.Minute`. -/
def Time.minute (t : Time) : Int := t.abs % 86400 % 3600 / 60
/-- `Time.Second`. -/
def Time.second (t : Time) : Int := t.abs % 86400 % 3600 % 60
/-- `Time.Weekday` (0 is Sunday): the absolute seconds start on a Monday. -/
def Time.weekday (t : Time) : Int := (t.abs / 86400 + 1) % 7

/-- `Time.ISOWeek`: year and week of the Thursday of the week. -/
def Time.isoWeek (t : Time) : Int × Int :=
  let d := 4 - t.weekday
  let d := if d = 4 then -3 else d
  let c := civilYear (((t.abs + d * 86400) % 2 ^ 64) / 86400)
  (c.1, c.2 / 7 + 1)

/-- `Time.AddDate`, for a time on a full second. -/
def Time.addDate (t : Time) (years months days : Int) : Time :=
  timeDate (t.year + years) (t.month + months) (t.day + days) t.hour t.minute t.second t.loc

/-- `Time.IsZero`: 1 January of the year 1, 00:00:00 UTC. -/
def Time.isZero (t : Time) : Bool := t.unix = -62135596800 ∧ t.nsec = 0

/-- `Time.Before`. -/
def Time.before (t u : Time) : Bool := t.unix < u.unix ∨ (t.unix = u.unix ∧ t.nsec < u.nsec)

/-- `Time.Sub` in nanoseconds: limited to the range of int64. -/
def Time.sub (t u : Time) : Int :=
  let d := (t.unix - u.unix) * 1000000000 + (t.nsec - u.nsec)
  if d < -(2 ^ 63) then -(2 ^ 63) else if 2 ^ 63 ≤ d then 2 ^ 63 - 1 else d

/-- `Duration.Truncate(time.Second)`. -/
def truncSecond (d : Int) : Int := d - d.tmod 1000000000

/-- `Duration.Round(time.Second)`: half away from zero, limited to the range of int64. -/
def roundSecond (d : Int) : Int :=
  let r := d.tmod 1000000000
  if d < 0 then
    if -r + -r < 1000000000 then d - r
    else if -(2 ^ 63) ≤ d - 1000000000 - r then d - 1000000000 - r else -(2 ^ 63)
  else
    if r + r < 1000000000 then d - r
    else if d + 1000000000 - r < 2 ^ 63 then d + 1000000000 - r else 2 ^ 63 - 1

/-- `Duration.Seconds`. -/
def durSeconds (d : Int) : F64 :=
  F64.add (.ofInt (d.tdiv 1000000000)) (F64.div (.ofInt (d.tmod 1000000000)) (.ofInt 1000000000))

/-- `Duration.Hours`. -/
def durHours (d : Int) : F64 :=
  F64.add (.ofInt (d.tdiv 3600000000000)) (F64.div (.ofInt (d.tmod 3600000000000)) (.ofInt 3600000000000))

/-- The decimal digits of a natural number, at least `width`, padded with zeros. -/
def natDigits (width : Nat) (n : Nat) : Bytes :=
  let ds := (Nat.toDigits 10 n).map fun c => UInt8.ofNat c.toNat
  List.replicate (width - ds.length) 0x30 ++ ds

/-- `strconv.Itoa`, `strconv.FormatInt(n, 10)`. -/
def itoa (n : Int) : Bytes := if n < 0 then 0x2d :: natDigits 0 n.natAbs else natDigits 0 n.natAbs

/-- `fmt.Sprintf("%0wd", n)`: the sign counts for the width. -/
def pad0 (width : Nat) (n : Int) : Bytes :=
  if n < 0 then 0x2d :: natDigits (width - 1) n.natAbs else natDigits width n.natAbs

/-- `appendInt(n, width)` of `Time.Format`: the sign does not count. -/
def appendInt (width : Nat) (n : Int) : Bytes :=
  if n < 0 then 0x2d :: natDigits width n.natAbs else natDigits width n.natAbs

end Verif.Go
