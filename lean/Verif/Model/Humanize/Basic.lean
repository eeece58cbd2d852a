import Verif.Go.Time
import Verif.Go.Map
import Verif.Go.Utf8
import Verif.Model.Calendar
import Verif.Model.PoPlural.Evaluate
/-!
# What the humanizer uses from outside

The localizer of a humanizer (/repo/humanize/humanizer.go:31-34) is modelled in `Verif.Model.Spreak`; here it is
any set of total functions of the same arguments.  `strconv.ParseFloat`, the conversion of a float64 outside the
range of int64, `unicode.ToUpper` and the local time zone are parameters.
-/
namespace Verif.Model.Humanize
open Verif.Go
export Verif.Model.PoPlural (Val toNumber indirect)

/-- A value handed to a print function: an integer, a text, a float64, or `number.Decimal(x, MaxFractionDigits(d))`. -/
inductive Arg
  | int (n : Int)
  | str (s : Bytes)
  | float (x : F64)
  | decimal (x : F64) (digits : Nat)
  deriving DecidableEq

/-- The methods of `*spreak.Localizer` that the package uses. -/
structure Loc where
  get : Bytes → Bytes
  pGet : Bytes → Bytes → Bytes
  getf : Bytes → List Arg → Bytes
  pGetf : Bytes → Bytes → List Arg → Bytes
  nGetf : Bytes → Bytes → Int → List Arg → Bytes
  npGetf : Bytes → Bytes → Bytes → Int → List Arg → Bytes
  print : Bytes → List Arg → Bytes

/-- The rest of the environment; `errText` is /repo/humanize/helper.go:107-114 `formatErrorMessage`. -/
structure Env where
  loc : Loc
  parse : List Char → Option F64
  oor : F64 → Int
  errText : Val → Bytes
  toUpper : Char → Char
  localZone : Location
  localName : Bytes

/-- /repo/humanize/date.go:38-42 `gettextEntry`. -/
structure Entry where
  context : Bytes
  singular : Bytes
  plural : Bytes
  deriving DecidableEq

/-- Go's `m[k]` on a `map[string]gettextEntry`. -/
def entryOf (m : GoMap Bytes Entry) (k : Bytes) : Entry := (m.get? k).getD ⟨[], [], []⟩

/-- A value of type `any` handed to a time function (/repo/internal/cast/time.go:9-26). -/
inductive TimeArg
  | time (t : Time)
  | duration (ns : Int)
  | ptr (a : TimeArg)
  | other (v : Val)

/-- `Time.Add`; the limit of the seconds, which no clock comes near, is not modelled. -/
def addDuration (t : Time) (ns : Int) : Time :=
  ⟨t.unix + (t.nsec + ns) / 1000000000, (t.nsec + ns) % 1000000000, t.loc⟩

/-- /repo/internal/cast/time.go:9-26 `ToTime`; `now` is what `time.Now()` returns, `none` is the error.  Pointers are
followed (/repo/internal/cast/number.go:64-77 `Indirect`); a nil pointer, also one to a time, is `.other .nilPtr`. -/
def toTime (env : Env) (now : Time) : TimeArg → Option Time
  | .time t => some t
  | .duration d => some (addDuration now d)
  | .ptr a => toTime env now a
  | .other v =>
    match toNumber env.parse v with
    | none => none
    | some x => some ⟨x.toInt64 env.oor, 0, env.localZone⟩

/-- The value in an error text. -/
def TimeArg.val : TimeArg → Val
  | .other v => v
  | .ptr a => .ptr a.val
  | _ => .nil

/-- /repo/humanize/helper.go:102-105 `toFixed` with precision 3; `math.Pow(10, 3)` is 1000. -/
def toFixed3 (num : F64) : F64 := F64.div (F64.mul num (.ofInt 1000)).round (.ofInt 1000)

/-- /repo/humanize/helper.go:98-100 `floorDivision`. -/
def floorDivision (oor : F64 → Int) (a b : F64) : Int := (toFixed3 (F64.div a b)).floor.toInt64 oor

end Verif.Model.Humanize
