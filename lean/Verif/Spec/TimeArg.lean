import Verif.Model.Humanize.Basic
import Verif.Spec.Humanize
import Verif.Spec.Since
/-!
# Which time an argument of the time functions stands for

The documentation of the functions (/repo/humanize/date.go:48-49, 122-123, 287-288): a time, a duration, or a number of seconds
since the Unix epoch.  A duration counts from the moment of the call.
-/
namespace Verif.Spec.Humanize
open Verif.Go Verif.Model.Humanize

/-- A number without its fraction. -/
def wholePart (r : Rat) : Int := if 0 ≤ r then r.floor else -(-r).floor

/-- `Stands env call a t`: for a call at the time `call` the argument `a` stands for the time `t`. -/
inductive Stands (env : Env) (call : Time) : TimeArg → Time → Prop
  | time (t : Time) : Stands env call (.time t) t
  | duration {d : Int} {t : Time} : ValidNanos t → t.loc = call.loc → nanosBetween call t = d → Stands env call (.duration d) t
  | number {v : Val} {x : F64} {r : Rat} {s : Int} : toNumber env.parse v = some x → IsValue x r → s = wholePart r →
      -(2 ^ 63) ≤ s → s < 2 ^ 63 → Stands env call (.other v) ⟨s, 0, env.localZone⟩
  | ptr {a : TimeArg} {t : Time} : Stands env call a t → Stands env call (.ptr a) t

end Verif.Spec.Humanize
