import Verif.Go.Time
/-!
# /repo/internal/calendar/calendar.go

`int` is 64 bits wide; a float64 outside the range of int64 converts to `oor`.
-/
namespace Verif.Model.Calendar
open Verif.Go

/-- /repo/internal/calendar/calendar.go:11-13 `IsLeap`; `%` truncates. -/
def isLeap (year : Int) : Bool := year.tmod 4 = 0 ∧ (year.tmod 100 ≠ 0 ∨ year.tmod 400 = 0)

/-- `math.Floor(y / k)`, /repo/internal/calendar/calendar.go:21-23. -/
def floorDiv (y : F64) (k : Int) : F64 := (F64.div y (.ofInt k)).floor

/-- /repo/internal/calendar/calendar.go:18-25 `LeapDays`, in float64 as the code. -/
def leapDays (oor : F64 → Int) (year1 year2 : Int) : Int :=
  let y1 := F64.ofInt (wrap64 (year1 - 1))
  let y2 := F64.ofInt (wrap64 (year2 - 1))
  let tmp := F64.sub (floorDiv y2 4) (floorDiv y1 4)
  let tmp := F64.sub tmp (F64.sub (floorDiv y2 100) (floorDiv y1 100))
  let tmp := F64.add tmp (F64.sub (floorDiv y2 400) (floorDiv y1 400))
  F64.toInt64 oor tmp

/-- /repo/internal/calendar/calendar.go:27-29 `DaysInMonth`. -/
def daysInMonth (year month : Int) : Int :=
  ((timeDate year month 1 0 0 0 utc).addDate 0 1 (-1)).day

end Verif.Model.Calendar
