import Verif.Model.Humanize.Basic
/-!
# humanize/date.go
-/
namespace Verif.Model.Humanize
open Verif.Go

/-- /repo/humanize/date.go:180-187 `timeSinceStrings`. -/
def timeSinceStrings : GoMap Bytes Entry :=
  [(b!"year", ⟨b!"", b!"%[1]v year", b!"%[1]v years"⟩), (b!"month", ⟨b!"", b!"%[1]v month", b!"%[1]v months"⟩),
   (b!"week", ⟨b!"", b!"%[1]v week", b!"%[1]v weeks"⟩), (b!"day", ⟨b!"", b!"%[1]v day", b!"%[1]v days"⟩),
   (b!"hour", ⟨b!"", b!"%[1]v hour", b!"%[1]v hours"⟩), (b!"minute", ⟨b!"", b!"%[1]v minute", b!"%[1]v minutes"⟩)]

/-- /repo/humanize/date.go:99-106 `naturalPastSubstrings`. -/
def naturalPastSubstrings : GoMap Bytes Entry :=
  timeSinceStrings.map fun p => (p.1, { p.2 with context := b!"naturaltime-past" })

/-- /repo/humanize/date.go:108-117 `naturalFutureSubstrings`. -/
def naturalFutureSubstrings : GoMap Bytes Entry :=
  timeSinceStrings.map fun p => (p.1, { p.2 with context := b!"naturaltime-future" })

/-- /repo/humanize/date.go:73-97 `naturalTimeStrings`. -/
def naturalTimeStrings : GoMap Bytes Entry :=
  [(b!"past-day", ⟨b!"", b!"%[1]v ago", b!""⟩),
   (b!"past-hour", ⟨b!"", b!"an hour ago", b!"%[1]v hours ago"⟩),
   (b!"past-minute", ⟨b!"", b!"a minute ago", b!"%[1]v minutes ago"⟩),
   (b!"past-second", ⟨b!"", b!"a second ago", b!"%[1]v seconds ago"⟩),
   (b!"now", ⟨b!"", b!"now", b!""⟩),
   (b!"future-second", ⟨b!"", b!"a second from now", b!"%[1]v seconds from now"⟩),
   (b!"future-minute", ⟨b!"", b!"a minute from now", b!"%[1]v minutes from now"⟩),
   (b!"future-hour", ⟨b!"", b!"an hour from now", b!"%[1]v hours from now"⟩),
   (b!"future-day", ⟨b!"", b!"%[1]v from now", b!""⟩)]

/-- /repo/humanize/date.go:189-199 `timeSinceChunks`. -/
def timeSinceChunks : List (Bytes × Int) :=
  [(b!"year", 60 * 60 * 24 * 365), (b!"month", 60 * 60 * 24 * 30), (b!"week", 60 * 60 * 24 * 7),
   (b!"day", 60 * 60 * 24), (b!"hour", 60 * 60), (b!"minute", 60)]

/-- /repo/humanize/date.go:201-207 `timeSinceOptions`. -/
structure SinceOptions where
  now : Time
  reverse : Bool
  timeStrings : GoMap Bytes Entry
  depth : Int
  requireAdjacent : Bool

/-- /repo/humanize/date.go:243-276: the options. -/
inductive TimeOption
  | depth (n : Int)
  | timeStrings (m : GoMap Bytes Entry)
  | reverse (b : Bool)
  | withoutAdjacentCheck
  | now (t : Time)

/-- /repo/humanize/date.go:243-276: what an option does. -/
def TimeOption.apply (o : SinceOptions) : TimeOption → SinceOptions
  | .depth n => { o with depth := n }
  | .timeStrings m => { o with timeStrings := m }
  | .reverse b => { o with reverse := b }
  | .withoutAdjacentCheck => { o with requireAdjacent := false }
  | .now t => { o with now := t }

/-- The zero `time.Time`. -/
def zeroTime : Time := ⟨-62135596800, 0, utc⟩

/-- /repo/humanize/date.go:209-232 `newTimeSinceOptions`; `clock` is what `time.Now()` returns. -/
def newTimeSinceOptions (clock : Time) (opts : List TimeOption) : SinceOptions :=
  let o := opts.foldl TimeOption.apply ⟨zeroTime, false, [], -1, true⟩
  let o := if o.timeStrings = [] then { o with timeStrings := timeSinceStrings } else o
  let o := if o.depth ≤ 0 then { o with depth := 2 } else o
  if o.now.isZero then { o with now := clock } else o

/-- `sort.Search(n, f)`: binary search between `i` and `j`. -/
def searchLoop (f : Nat → Bool) : Nat → Nat → Nat → Nat
  | 0, i, _ => i
  | fuel + 1, i, j =>
    if i < j then
      let h := (i + j) / 2
      if f h then searchLoop f fuel i h else searchLoop f fuel (h + 1) j
    else i

/-- `sort.Search`; every step shrinks the range. -/
def sortSearch (n : Nat) (f : Nat → Bool) : Nat := searchLoop f (n + 1) 0 n

/-- /repo/humanize/date.go:310-318: the leap days to subtract; the years of a time are far too small for an overflow. -/
def leapAdjust (oor : F64 → Int) (y1 y2 : Int) : Int :=
  let leapdays := Calendar.leapDays oor y1 y2
  if leapdays = 0 then 0
  else if Calendar.isLeap y1 then leapdays - 1
  else if Calendar.isLeap y2 then leapdays + 1
  else leapdays

/-- /repo/humanize/date.go:330,343: the count of a unit. -/
def unitCount (oor : F64 → Int) (since seconds : Int) : Int := floorDivision oor (.ofInt since) (.ofInt seconds)

/-- /repo/humanize/date.go:341-356: the loop over the remaining units. -/
def sinceLoop (env : Env) (o : SinceOptions) : List (Bytes × Int) → Int → Int → List Bytes
  | [], _, _ => []
  | (name, seconds) :: rest, currentDepth, since =>
    if currentDepth < o.depth then
      let count := unitCount env.oor since seconds
      if count ≤ 0 then
        if o.requireAdjacent then [] else sinceLoop env o rest currentDepth since
      else
        let entry := entryOf o.timeStrings name
        env.loc.npGetf entry.context entry.singular entry.plural count [.int count] ::
          sinceLoop env o rest (currentDepth + 1) (wrap64 (since - wrap64 (seconds * count)))
    else []

/-- /repo/humanize/date.go:321-323,335-336: the text for no time at all. -/
def zeroMinutes (env : Env) (o : SinceOptions) : Bytes :=
  let entry := entryOf o.timeStrings b!"minute"
  env.loc.npGetf entry.context entry.singular entry.plural 0 [.int 0]

/-- /repo/humanize/date.go:320-358: the text for a number of seconds. -/
def sinceText (env : Env) (o : SinceOptions) (delta : Int) : Bytes :=
  if delta ≤ 0 then zeroMinutes env o
  else
    let i := sortSearch timeSinceChunks.length fun i =>
      decide (unitCount env.oor delta (timeSinceChunks.getD i (b!"", 1)).2 ≠ 0)
    if i = timeSinceChunks.length then zeroMinutes env o
    else join (env.loc.get b!", ") (sinceLoop env o (timeSinceChunks.drop i) 0 delta)

/-- /repo/humanize/date.go:289-359 `TimeSince` for a time; `clock` is what `time.Now()` returns (line 299 is never
reached with a zero time that the clock would change). -/
def timeSinceTime (env : Env) (clock : Time) (d : Time) (opts : List TimeOption) : Bytes :=
  let o := newTimeSinceOptions clock opts
  let (d, now) := if o.reverse then (o.now, d) else (d, o.now)
  let delta := wrap64 (now.unix - d.unix)
  let delta := wrap64 (delta - wrap64 (60 * 60 * 24 * leapAdjust env.oor d.year now.year))
  sinceText env o delta

/-- /repo/humanize/date.go:289-359 `TimeSince`; `castNow` is the call of `time.Now()` within `ToTime`. -/
def timeSince (env : Env) (castNow clock : Time) (input : TimeArg) (opts : List TimeOption) : Bytes :=
  match toTime env castNow input with
  | none => env.errText input.val
  | some d => timeSinceTime env clock d opts

/-- /repo/humanize/date.go:371-379 `TimeUntil`. -/
def timeUntil (env : Env) (castNow clock : Time) (input : TimeArg) (opts : List TimeOption) : Bytes :=
  match toTime env castNow input with
  | none => env.errText input.val
  | some d => timeSinceTime env clock d (opts ++ [.reverse true])

/-- /repo/humanize/date.go:363-366 `TimeSinceFrom`. -/
def timeSinceFrom (env : Env) (castNow clock : Time) (input : TimeArg) (now : Time) (opts : List TimeOption) : Bytes :=
  timeSince env castNow clock input (opts ++ [.now now])

/-- /repo/humanize/date.go:383-386 `TimeUntilFrom`. -/
def timeUntilFrom (env : Env) (castNow clock : Time) (input : TimeArg) (now : Time) (opts : List TimeOption) : Bytes :=
  timeSince env castNow clock input (opts ++ [.now now, .reverse true])

/-- /repo/humanize/date.go:147,170: `int64(math.Floor(float64(s) / 60))`. -/
def floorSixtieth (oor : F64 → Int) (x : F64) : Int := (F64.div x (.ofInt 60)).floor.toInt64 oor

/-- /repo/humanize/date.go:152,175: `int64(math.Floor(math.Floor(float64(s) / 60) / 60))`. -/
def floorHours (oor : F64 → Int) (x : F64) : Int := floorSixtieth oor (F64.div x (.ofInt 60)).floor

/-- A text with a count, /repo/humanize/date.go:144-154,167-177. -/
def countText (env : Env) (key : Bytes) (count : Int) : Bytes :=
  let entry := entryOf naturalTimeStrings key
  env.loc.nGetf entry.singular entry.plural count [.int count]

/-- /repo/humanize/date.go:124-178 `NaturalTime` for a time; `now` is the first call of `time.Now()`, `clock` the one
within `TimeSince`. -/
def naturalTimeTime (env : Env) (now clock t : Time) : Bytes :=
  if t.before now then
    let delta := now.sub t
    let deltaSec := (durSeconds (truncSecond delta)).toInt64 env.oor
    if 24 ≤ (durHours (roundSecond delta)).toInt64 env.oor then
      env.loc.getf (entryOf naturalTimeStrings b!"past-day").singular
        [.str (timeSinceTime env clock t [.timeStrings naturalPastSubstrings])]
    else if deltaSec = 0 then env.loc.get (entryOf naturalTimeStrings b!"now").singular
    else if deltaSec < 60 then countText env b!"past-second" deltaSec
    else if floorDivision env.oor (durSeconds (roundSecond delta)) (.ofInt 60) < 60 then
      countText env b!"past-minute" (floorSixtieth env.oor (.ofInt deltaSec))
    else countText env b!"past-hour" (floorHours env.oor (.ofInt deltaSec))
  else
    let delta := t.sub now
    let deltaSec := (durSeconds (roundSecond delta)).toInt64 env.oor
    if 24 ≤ (durHours (roundSecond delta)).toInt64 env.oor then
      env.loc.getf (entryOf naturalTimeStrings b!"future-day").singular
        [.str (timeSinceTime env clock t [.timeStrings naturalFutureSubstrings, .reverse true])]
    else if deltaSec = 0 then env.loc.get (entryOf naturalTimeStrings b!"now").singular
    else if deltaSec < 60 then countText env b!"future-second" deltaSec
    else if floorDivision env.oor (.ofInt deltaSec) (.ofInt 60) < 60 then
      countText env b!"future-minute" (floorSixtieth env.oor (.ofInt deltaSec))
    else countText env b!"future-hour" (floorHours env.oor (.ofInt deltaSec))

/-- /repo/humanize/date.go:124-178 `NaturalTime`; `castNow` is the call of `time.Now()` within `ToTime`. -/
def naturalTime (env : Env) (now castNow clock : Time) (input : TimeArg) : Bytes :=
  match toTime env castNow input with
  | none => env.errText input.val
  | some t => naturalTimeTime env now clock t

end Verif.Model.Humanize
