import Verif.Proofs.Humanize.SinceText
import Verif.Props.Numbers
/-!
# Elapsed time: C51, C52, C73

A claim is about the units and counts of the text, with a localizer that may be any set of functions.  The option
`WithTimeStrings` is not exported by the package; C55 covers its use by `NaturalTime`.
-/
namespace Verif.Props.Since
open Verif.Go Verif.Model.Humanize Verif.Spec.Humanize Verif.Proofs.Humanize Verif.Props.Numbers

theorem strings_default (clock : Time) (opts : List TimeOption) (hs : ∀ m, TimeOption.timeStrings m ∉ opts) :
    (newTimeSinceOptions clock opts).timeStrings = timeSinceStrings := by
  have h := (options_eq clock opts).2.2.2.2
  have e : (opts.filterMap fun | .timeStrings n => some n | _ => none) = [] := by
    rw [List.filterMap_eq_nil_iff]
    intro x hx
    cases x with
    | timeStrings m => exact absurd hx (hs m)
    | _ => rfl
  rw [h]
  show (if (List.getLast? (opts.filterMap fun | .timeStrings n => some n | _ => none)).getD [] = [] then _ else _) = _
  rw [e]
  rfl

theorem hasContext (clock : Time) (opts : List TimeOption) (hs : ∀ m, TimeOption.timeStrings m ∉ opts) :
    HasContext (newTimeSinceOptions clock opts).timeStrings [] := by
  rw [strings_default clock opts hs]
  exact hasContext_since

/-! ## C52 -/

/-- C52: the text has at most `depth` units in descending order, without a gap unless the option for that is given,
each with a positive count; or it is "0 minutes". -/
theorem C52_shape (env : Env) (clock d : Time) (opts : List TimeOption) (hs : ∀ m, TimeOption.timeStrings m ∉ opts) :
    ∃ us : List ((Bytes × Int) × Int), Shows [] (fun loc => timeSinceTime { env with loc := loc } clock d opts) us ∧
      (us.length : Int) ≤ depthOf opts ∧ (us.map Prod.fst).Sublist sinceUnits ∧
      (adjacentOf opts = true → us.map Prod.fst <:+: sinceUnits) ∧ ∀ p ∈ us, 0 < p.2 := by
  obtain ⟨us, h1, h2, h3, h4, h5, _⟩ := timeSinceTime_units env clock d opts [] (hasContext clock opts hs)
  exact ⟨us, h1, h2, h3, h4, h5⟩

/-- The units of `Spec.Humanize.sinceUnits` are in descending order, so a sublist is. -/
theorem C52_descending : sinceUnits.Pairwise fun p q => q.2 < p.2 := by decide

/-- 90061 seconds are shown as one day and one hour with the default depth, and in full with depth 6. -/
example : timeSinceTime showEnv zeroTime ⟨0, 0, utc⟩ [.now ⟨90061, 0, utc⟩] = b!"%[1]v day1, %[1]v hour1" ∧
    timeSinceTime showEnv zeroTime ⟨0, 0, utc⟩ [.depth 6, .now ⟨90061, 0, utc⟩] =
      b!"%[1]v day1, %[1]v hour1, %[1]v minute1" ∧
    timeSinceTime showEnv zeroTime ⟨0, 0, utc⟩ [.depth 6, .now ⟨86461, 0, utc⟩] = b!"%[1]v day1" ∧
    timeSinceTime showEnv zeroTime ⟨0, 0, utc⟩ [.depth 6, .withoutAdjacentCheck, .now ⟨86461, 0, utc⟩] =
      b!"%[1]v day1, %[1]v minute1" := by
  refine ⟨by decide +kernel, by decide +kernel, by decide +kernel, by decide +kernel⟩

/-! ## C51 -/

/-- C51 for elapsed times below 2^53 seconds: what is shown exceeds the elapsed time by at most six ten-thousandths of
the last unit shown; with full depth and no check for gaps it is within a minute of it if the two years are neighbours,
and else short of it by at most the leap days.
Missing: not to exceed it at all is false (`C51_negation`), and so is being within a minute with a check for gaps
(`C51_gap_negation`) or over more years (`C51_leap_negation`). -/
theorem C51_bounds_partial (env : Env) (clock d : Time) (opts : List TimeOption) (hs : ∀ m, TimeOption.timeStrings m ∉ opts)
    (start stop : Time) (hft : fromTo clock d opts = (start, stop)) (h1 : InRange start) (h2 : InRange stop)
    (h : start.unix ≤ stop.unix) (hb : stop.unix - start.unix < 2 ^ 53) :
    ∃ us : List ((Bytes × Int) × Int), Shows [] (fun loc => timeSinceTime { env with loc := loc } clock d opts) us ∧
      10000 * totalSeconds us ≤ 10000 * (stop.unix - start.unix) + 6 * lastSeconds us ∧
      (adjacentOf opts = false → 6 ≤ depthOf opts →
        (stop.year ≤ start.year + 1 → stop.unix - start.unix - totalSeconds us < 60) ∧
        4 * (stop.unix - start.unix - totalSeconds us - 60) < 86400 * (stop.year - start.year + 8)) := by
  obtain ⟨us, g1, _, _, _, _, g6, _, g7⟩ := timeSinceTime_units env clock d opts [] (hasContext clock opts hs)
  obtain ⟨e1, e2⟩ := shownSeconds_le env.oor (start, stop) h1 h2 h hb
  rw [hft] at g6 g7
  simp only [] at e1 e2
  have r1 := year_range start
  have r2 := year_range stop
  have o := (year_order h2 h1 h).1
  have up : (stop.year ≤ start.year + 1 → leapAdjust env.oor start.year stop.year = 0) ∧
      4 * leapAdjust env.oor start.year stop.year < stop.year - start.year + 8 := by
    constructor
    · intro hy
      exact leapAdjust_near env.oor r1.1 r1.2 r2.1 r2.2 (by omega)
    · rcases Int.lt_or_le stop.year start.year with hy | hy
      · rw [leapAdjust_near env.oor r1.1 r1.2 r2.1 r2.2 (by omega)]; omega
      · have := leapAdjust_upper env.oor r1.1 r1.2 r2.1 r2.2 hy
        omega
  refine ⟨us, g1, ?_⟩
  rcases Int.lt_or_le 0 (shownSeconds env.oor (start, stop)) with hp | hn
  · obtain ⟨k1, k2⟩ := g7 hp (by omega)
    refine ⟨by omega, fun ha hd => ?_⟩
    have := k2 ha hd
    refine ⟨fun hy => ?_, by omega⟩
    have := up.1 hy
    omega
  · rw [g6 hn]
    simp only [totalSeconds, lastSeconds]
    refine ⟨by omega, fun _ _ => ⟨fun hy => ?_, by omega⟩⟩
    have := up.1 hy
    omega

example : fromTo zeroTime ⟨0, 0, utc⟩ [.depth 6, .withoutAdjacentCheck, .now ⟨86461, 0, utc⟩] = (⟨0, 0, utc⟩, ⟨86461, 0, utc⟩) ∧
    InRange ⟨0, 0, utc⟩ ∧ InRange ⟨86461, 0, utc⟩ ∧
    adjacentOf [.depth 6, .withoutAdjacentCheck, .now ⟨86461, 0, utc⟩] = false ∧
    depthOf [.depth 6, .withoutAdjacentCheck, .now ⟨86461, 0, utc⟩] = 6 := by
  refine ⟨rfl, ?_, ?_, by decide, by decide⟩ <;> · unfold InRange; decide

/-- 59 minutes and 59 seconds are shown as one hour, a year without its last second as one year. -/
theorem C51_negation :
    timeSinceTime showEnv zeroTime ⟨0, 0, utc⟩ [.now ⟨3599, 0, utc⟩] = b!"%[1]v hour1" ∧
    timeSinceTime showEnv zeroTime ⟨0, 0, utc⟩ [.now ⟨31535999, 0, utc⟩] = b!"%[1]v year1" := by
  constructor <;> decide +kernel

/-- With the check for gaps almost an hour is missing although all units may be shown. -/
theorem C51_gap_negation :
    timeSinceTime showEnv zeroTime ⟨0, 0, utc⟩ [.depth 6, .now ⟨86400 + 3540, 0, utc⟩] = b!"%[1]v day1" := by
  decide +kernel

/-- From 1 January 1999 to 1 January 2008, nine years: the text is eight years and twelve months, and the leap days
are not shown. -/
theorem C51_leap_negation :
    timeSinceTime showEnv zeroTime ⟨915148800, 0, utc⟩ [.depth 6, .withoutAdjacentCheck, .now ⟨1199145600, 0, utc⟩] =
      b!"%[1]v years8, %[1]v months12, %[1]v days4" := by
  decide +kernel

/-! ## C73 -/

/-- C73: a time that is not before `now` has no time since: the text is "0 minutes", whatever the zones and the leap
days between. -/
theorem C73_not_past (env : Env) (clock d : Time) (opts : List TimeOption) (hs : ∀ m, TimeOption.timeStrings m ∉ opts)
    (start stop : Time) (hft : fromTo clock d opts = (start, stop)) (h1 : InRange start) (h2 : InRange stop)
    (h : stop.unix ≤ start.unix) (hb : -(2 ^ 62) < stop.unix - start.unix) :
    timeSinceTime env clock d opts = env.loc.npGetf [] b!"%[1]v minute" b!"%[1]v minutes" 0 [.int 0] := by
  obtain ⟨us, g1, _, _, _, _, g6, _⟩ := timeSinceTime_units env clock d opts [] (hasContext clock opts hs)
  rw [hft] at g6
  have := g6 (shownSeconds_future env.oor (start, stop) h1 h2 h hb)
  subst this
  refine Eq.trans (g1 env.loc) ?_
  rw [if_pos rfl]
  rfl

/-- A century ahead of now. -/
example : fromTo ⟨0, 0, utc⟩ ⟨3155673600, 0, utc⟩ [] = (⟨3155673600, 0, utc⟩, ⟨0, 0, utc⟩) ∧ InRange ⟨3155673600, 0, utc⟩ ∧
    timeSinceTime showEnv ⟨0, 0, utc⟩ ⟨3155673600, 0, utc⟩ [] = b!"%[1]v minutes0" := by
  refine ⟨rfl, ?_, by decide +kernel⟩
  unfold InRange; decide

/-- TimeUntil is TimeSince with the two times exchanged. -/
theorem C73_until (env : Env) (castNow clock d : Time) (opts : List TimeOption) (hs : ∀ m, TimeOption.timeStrings m ∉ opts)
    (h1 : InRange d) (h2 : InRange (nowOf clock opts)) (h : d.unix ≤ (nowOf clock opts).unix)
    (hb : -(2 ^ 62) < d.unix - (nowOf clock opts).unix) :
    timeUntil env castNow clock (.time d) opts = env.loc.npGetf [] b!"%[1]v minute" b!"%[1]v minutes" 0 [.int 0] := by
  have e1 : reverseOf (opts ++ [.reverse true]) = true := by simp [reverseOf]
  have e2 : nowOf clock (opts ++ [.reverse true]) = nowOf clock opts := by simp [nowOf]
  have e3 : timeUntil env castNow clock (.time d) opts = timeSinceTime env clock d (opts ++ [.reverse true]) := by
    simp only [timeUntil, toTime]
  rw [e3]
  have e4 : ∀ m, TimeOption.timeStrings m ∉ opts ++ [.reverse true] := by
    intro m hm
    rw [List.mem_append] at hm
    rcases hm with hm | hm
    · exact hs m hm
    · simp at hm
  have e5 : fromTo clock d (opts ++ [.reverse true]) = (nowOf clock opts, d) := by
    rw [fromTo, e1, e2]
    rfl
  exact C73_not_past env clock d _ e4 _ _ e5 h2 h1 h hb

example : InRange ⟨5, 0, utc⟩ ∧ InRange (nowOf ⟨10, 0, utc⟩ []) ∧ (5 : Int) ≤ (nowOf ⟨10, 0, utc⟩ []).unix ∧
    timeUntil showEnv zeroTime ⟨10, 0, utc⟩ (.time ⟨5, 0, utc⟩) [] = b!"%[1]v minutes0" := by
  refine ⟨?_, ?_, by decide, by decide +kernel⟩ <;> · unfold InRange; decide

/-- The text depends only on the two times, on the number of units and on whether gaps are allowed. -/
theorem C73_same_span (env : Env) (clock clock' d d' : Time) (opts opts' : List TimeOption)
    (hs : ∀ m, TimeOption.timeStrings m ∉ opts) (hs' : ∀ m, TimeOption.timeStrings m ∉ opts')
    (hd : depthOf opts = depthOf opts') (ha : adjacentOf opts = adjacentOf opts')
    (hft : fromTo clock d opts = fromTo clock' d' opts') :
    timeSinceTime env clock d opts = timeSinceTime env clock' d' opts' := by
  have key : ∀ (clock d : Time) (opts : List TimeOption), (∀ m, TimeOption.timeStrings m ∉ opts) →
      timeSinceTime env clock d opts = sinceText env ⟨zeroTime, false, timeSinceStrings, depthOf opts, adjacentOf opts⟩
        (shownSeconds env.oor (fromTo clock d opts)) := by
    intro clock d opts hs
    obtain ⟨e1, e2, e3, e4, _⟩ := options_eq clock opts
    have e5 := strings_default clock opts hs
    have hft : fromTo clock d opts = if (newTimeSinceOptions clock opts).reverse then ((newTimeSinceOptions clock opts).now, d)
        else (d, (newTimeSinceOptions clock opts).now) := by rw [e2, e4]; rfl
    have hloop : ∀ (l : List (Bytes × Int)) (c since : Int), sinceLoop env (newTimeSinceOptions clock opts) l c since =
        sinceLoop env ⟨zeroTime, false, timeSinceStrings, depthOf opts, adjacentOf opts⟩ l c since := by
      intro l
      induction l with
      | nil => intro _ _; rfl
      | cons x l ih =>
        intro c since
        obtain ⟨name, seconds⟩ := x
        simp only [sinceLoop, ih, e1, e3, e5]
    have htext : ∀ delta, sinceText env (newTimeSinceOptions clock opts) delta =
        sinceText env ⟨zeroTime, false, timeSinceStrings, depthOf opts, adjacentOf opts⟩ delta := by
      intro delta
      simp only [sinceText, hloop, zeroMinutes, e5]
    unfold timeSinceTime
    simp only []
    rw [htext, hft]
    rfl
  rw [key clock d opts hs, key clock' d' opts' hs', hd, ha, hft]

theorem no_strings {opts more : List TimeOption} (hs : ∀ m, TimeOption.timeStrings m ∉ opts)
    (hm : ∀ m, TimeOption.timeStrings m ∉ more) : ∀ m, TimeOption.timeStrings m ∉ opts ++ more := by
  intro m h
  rcases List.mem_append.1 h with h | h
  · exact hs m h
  · exact hm m h

/-- TimeSinceFrom is TimeSince with any other clock and options for the same span, whatever the clock and a `WithNow`
among its own options say. -/
theorem C73_since_from (env : Env) (castNow clock clock' d d' now : Time) (input : TimeArg) (opts opts' : List TimeOption)
    (hin : toTime env castNow input = some d) (hn : now.isZero = false)
    (hs : ∀ m, TimeOption.timeStrings m ∉ opts) (hs' : ∀ m, TimeOption.timeStrings m ∉ opts')
    (hd : depthOf opts = depthOf opts') (ha : adjacentOf opts = adjacentOf opts')
    (hft : fromTo clock' d' opts' = if reverseOf opts then (now, d) else (d, now)) :
    timeSinceFrom env castNow clock input now opts = timeSinceTime env clock' d' opts' := by
  have e : timeSinceFrom env castNow clock input now opts = timeSinceTime env clock d (opts ++ [.now now]) := by
    simp only [timeSinceFrom, timeSince, hin]
  rw [e]
  refine C73_same_span env clock clock' d d' _ opts' (no_strings hs (by simp)) hs' ?_ ?_ ?_
  · rw [← hd]; simp [depthOf]
  · rw [← ha]; simp [adjacentOf]
  · rw [hft]
    have e1 : reverseOf (opts ++ [.now now]) = reverseOf opts := by simp [reverseOf]
    have e2 : nowOf clock (opts ++ [.now now]) = now := by simp [nowOf, hn]
    rw [fromTo, e1, e2]

/-- TimeUntilFrom is TimeSince for the span from `now` to the time. -/
theorem C73_until_from (env : Env) (castNow clock clock' d d' now : Time) (input : TimeArg) (opts opts' : List TimeOption)
    (hin : toTime env castNow input = some d) (hn : now.isZero = false)
    (hs : ∀ m, TimeOption.timeStrings m ∉ opts) (hs' : ∀ m, TimeOption.timeStrings m ∉ opts')
    (hd : depthOf opts = depthOf opts') (ha : adjacentOf opts = adjacentOf opts')
    (hft : fromTo clock' d' opts' = (now, d)) :
    timeUntilFrom env castNow clock input now opts = timeSinceTime env clock' d' opts' := by
  have e : timeUntilFrom env castNow clock input now opts = timeSinceTime env clock d (opts ++ [.now now, .reverse true]) := by
    simp only [timeUntilFrom, timeSince, hin]
  rw [e]
  refine C73_same_span env clock clock' d d' _ opts' (no_strings hs (by simp)) hs' ?_ ?_ ?_
  · rw [← hd]; simp [depthOf]
  · rw [← ha]; simp [adjacentOf]
  · rw [hft]
    have e1 : reverseOf (opts ++ [.now now, .reverse true]) = true := by simp [reverseOf]
    have e2 : nowOf clock (opts ++ [.now now, .reverse true]) = now := by simp [nowOf, hn]
    rw [fromTo, e1, e2]
    rfl

/-- TimeUntil is TimeSince for the span from now to the time. -/
theorem C73_until_span (env : Env) (castNow clock clock' d d' : Time) (input : TimeArg) (opts opts' : List TimeOption)
    (hin : toTime env castNow input = some d) (hs : ∀ m, TimeOption.timeStrings m ∉ opts)
    (hs' : ∀ m, TimeOption.timeStrings m ∉ opts') (hd : depthOf opts = depthOf opts')
    (ha : adjacentOf opts = adjacentOf opts') (hft : fromTo clock' d' opts' = (nowOf clock opts, d)) :
    timeUntil env castNow clock input opts = timeSinceTime env clock' d' opts' := by
  have e : timeUntil env castNow clock input opts = timeSinceTime env clock d (opts ++ [.reverse true]) := by
    simp only [timeUntil, hin]
  rw [e]
  refine C73_same_span env clock clock' d d' _ opts' (no_strings hs (by simp)) hs' ?_ ?_ ?_
  · rw [← hd]; simp [depthOf]
  · rw [← ha]; simp [adjacentOf]
  · rw [hft]
    have e1 : reverseOf (opts ++ [.reverse true]) = true := by simp [reverseOf]
    have e2 : nowOf clock (opts ++ [.reverse true]) = nowOf clock opts := by simp [nowOf]
    rw [fromTo, e1, e2]
    rfl

/-- A day, with three units, in all four ways. -/
example : fromTo ⟨0, 0, utc⟩ ⟨7, 0, utc⟩ [.depth 3, .now ⟨86407, 0, utc⟩] = (⟨7, 0, utc⟩, ⟨86407, 0, utc⟩) ∧
    toTime showEnv zeroTime (.time ⟨7, 0, utc⟩) = some ⟨7, 0, utc⟩ ∧
    timeSinceFrom showEnv zeroTime zeroTime (.time ⟨7, 0, utc⟩) ⟨86407, 0, utc⟩ [.depth 3] = b!"%[1]v day1" ∧
    timeSinceFrom showEnv zeroTime zeroTime (.time ⟨86407, 0, utc⟩) ⟨7, 0, utc⟩ [.depth 3, .reverse true] = b!"%[1]v day1" ∧
    timeUntilFrom showEnv zeroTime zeroTime (.time ⟨86407, 0, utc⟩) ⟨7, 0, utc⟩ [.now ⟨1, 0, utc⟩, .depth 3] = b!"%[1]v day1" ∧
    timeUntil showEnv zeroTime ⟨7, 0, utc⟩ (.time ⟨86407, 0, utc⟩) [.depth 3] = b!"%[1]v day1" := by
  refine ⟨rfl, rfl, by decide +kernel, by decide +kernel, by decide +kernel, by decide +kernel⟩

end Verif.Props.Since
