import Verif.Model.Humanize.Date
import Verif.Spec.Humanize
/-!
# What TimeSince should say

Only the types of options, times and localizers come from the model.
-/
namespace Verif.Spec.Humanize
open Verif.Go Verif.Model.Humanize

/-- The last `WithDepth`, if positive, else 2. -/
def depthOf (opts : List TimeOption) : Int :=
  let n := ((opts.filterMap fun | .depth n => some n | _ => none).getLast?).getD 0
  if n ≤ 0 then 2 else n

/-- Whether units must be adjacent. -/
def adjacentOf (opts : List TimeOption) : Bool := !(opts.any fun | .withoutAdjacentCheck => true | _ => false)

/-- The last `WithReverse`. -/
def reverseOf (opts : List TimeOption) : Bool :=
  ((opts.filterMap fun | .reverse b => some b | _ => none).getLast?).getD false

/-- The last `WithNow`, unless it is the zero time. -/
def nowOf (clock : Time) (opts : List TimeOption) : Time :=
  match (opts.filterMap fun | .now t => some t | _ => none).getLast? with
  | some t => if t.isZero then clock else t
  | none => clock

/-- From when to when. -/
def fromTo (clock d : Time) (opts : List TimeOption) : Time × Time :=
  if reverseOf opts then (nowOf clock opts, d) else (d, nowOf clock opts)

/-- The text of a unit with its count. -/
def showUnit (context : Bytes) (loc : Loc) (p : (Bytes × Int) × Int) : Bytes :=
  loc.npGetf context (b!"%[1]v " ++ p.1.1) (b!"%[1]v " ++ p.1.1 ++ b!"s") p.2 [.int p.2]

/-- For every localizer the text shows these units with their counts, or no minutes if there are none. -/
def Shows (context : Bytes) (text : Loc → Bytes) (us : List ((Bytes × Int) × Int)) : Prop :=
  ∀ loc : Loc, text loc =
    if us = [] then showUnit context loc ((b!"minute", 60), 0) else join (loc.get b!", ") (us.map (showUnit context loc))

/-- The seconds of the last unit shown. -/
def lastSeconds : List ((Bytes × Int) × Int) → Int
  | [] => 0
  | [p] => p.1.2
  | _ :: rest => lastSeconds rest

/-- The wall clock of the time is within the range of `time.Time`, and its zone is less than a day off UTC. -/
def InRange (t : Time) : Prop :=
  0 ≤ t.unix + t.loc.offset t.unix + unixToAbsolute ∧ t.unix + t.loc.offset t.unix + unixToAbsolute < 2 ^ 64 ∧
    -86400 < t.loc.offset t.unix ∧ t.loc.offset t.unix < 86400

/-- The nanoseconds from one time to another. -/
def nanosBetween (t u : Time) : Int := (u.unix - t.unix) * 1000000000 + (u.nsec - t.nsec)

/-- The nanoseconds of a time are less than a second. -/
def ValidNanos (t : Time) : Prop := 0 ≤ t.nsec ∧ t.nsec < 1000000000

/-- The messages of NaturalTime for a past time within a day, with the nanoseconds of their units. -/
def pastUnits : List ((Bytes × Bytes) × Int) :=
  [((b!"a second ago", b!"%[1]v seconds ago"), 1000000000), ((b!"a minute ago", b!"%[1]v minutes ago"), 60000000000),
   ((b!"an hour ago", b!"%[1]v hours ago"), 3600000000000)]

/-- The messages of NaturalTime for a future time within a day. -/
def futureUnits : List ((Bytes × Bytes) × Int) :=
  [((b!"a second from now", b!"%[1]v seconds from now"), 1000000000),
   ((b!"a minute from now", b!"%[1]v minutes from now"), 60000000000),
   ((b!"an hour from now", b!"%[1]v hours from now"), 3600000000000)]

/-- The text gives a duration in its largest unit, with the positive count of full units. -/
def Counts (units : List ((Bytes × Bytes) × Int)) (loc : Loc) (duration : Int) (text : Bytes) : Prop :=
  ∃ (u : (Bytes × Bytes) × Int) (count : Int), u ∈ units ∧ (∀ q ∈ units, q.2 ≤ duration → q.2 ≤ u.2) ∧ 0 < count ∧
    count * u.2 ≤ duration ∧ duration < (count + 1) * u.2 ∧ text = loc.nGetf u.1.1 u.1.2 count [.int count]

end Verif.Spec.Humanize
