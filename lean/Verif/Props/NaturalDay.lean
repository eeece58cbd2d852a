import Verif.Proofs.Humanize.DayDelta
import Verif.Props.DateLetters
/-!
# NaturalDay: C75

`now` is what `time.Now()` returns; the day that counts is the one in the zone of the given time.
-/
namespace Verif.Props.NaturalDay
open Verif.Go Verif.Model.Humanize Verif.Spec.DateFormat Verif.Spec.Humanize Verif.Proofs.Go Verif.Proofs.Humanize
open Verif.Proofs.Calendar Verif.Props.Numbers Verif.Props.DateLetters

/-- The midnight that begins the day of a time, on the wall clock. -/
def midnight (t : Time) : Int := wall t / 86400 * 86400

theorem dayNumber_eq {t : Time} (h : InEra t) : dayNumber t.year t.month t.day = wall t / 86400 + 106751991073094 := by
  obtain ⟨h1, h2, h3, h4, h5, h6⟩ := date_exact t
  have hr := year_range t
  have e1 : (t.month - 1) / 12 = 0 := by omega
  have e2 : (t.month - 1) % 12 = t.month - 1 := by omega
  rw [abs_day h] at h5
  rw [h5]
  unfold dayNumber dayCount before
  simp only [e1, e2, Int.add_zero]
  rw [daysSinceEpoch_eq (by omega) (by unfold zeroYear; omega)]
  omega

/-- The start of the day of a time. -/
theorem dayStart_eq {t : Time} (h : InEra t) :
    dayStart t = ⟨midnight t - t.loc.offset (midnight t - t.loc.offset (midnight t)), 0, t.loc⟩ := by
  have e : wrap64 (dateAbs t.year t.month t.day 0 0 0 - unixToAbsolute) = midnight t := by
    unfold dateAbs
    rw [dayNumber_eq h]
    unfold InEra at h
    unfold midnight unixToAbsolute
    rw [Int.emod_eq_of_lt (by omega) (by omega), wrap64_id (by omega) (by omega)]
    omega
  unfold dayStart timeDate
  simp only []
  rw [e]

/-- The texts of NaturalDay, from the seconds between the two midnights. -/
theorem by_seconds (env : Env) (f : FormatData) (now t : Time) (s : Int)
    (hs : s = (dayStart t).unix - (dayStart { now with loc := t.loc }).unix) :
    naturalDayTime env f now t =
      if s = 0 then .ok (env.loc.get b!"today")
      else if s = 86400 then .ok (env.loc.get b!"tomorrow")
      else if s = -86400 then .ok (env.loc.get b!"yesterday")
      else formatTime env f t b!"DATE_FORMAT" := by
  have n1 : (dayStart t).nsec = 0 := rfl
  have n2 : (dayStart { now with loc := t.loc }).nsec = 0 := rfl
  obtain ⟨d, hd⟩ : ∃ d, (dayStart t).sub (dayStart { now with loc := t.loc }) = d := ⟨_, rfl⟩
  have hd' := hd
  unfold Time.sub at hd'
  simp only [n1, n2, ← hs] at hd'
  have hr : -(2 ^ 63) ≤ d ∧ d ≤ 2 ^ 63 ∧ (d % 1000000000 = 0 ∨ d < -86401000000000 ∨ 86401000000000 < d) ∧
      (d = 0 ↔ s = 0) ∧ (d = 86400000000000 ↔ s = 86400) ∧ (d = -86400000000000 ↔ s = -86400) := by
    rw [← hd']
    split
    · omega
    · split
      · omega
      · omega
  obtain ⟨r1, r2, r3, r4, r5, r6⟩ := hr
  obtain ⟨c1, c2, c3⟩ := delta_cases r1 r2 r3
  unfold naturalDayTime
  simp only []
  rw [hd, c1, c2, c3]
  simp only [decide_eq_true_eq, r4, r5, r6]

/-- C75 in zones whose offset does not change: today, tomorrow and yesterday are said of exactly these days, and any
other day is formatted as a date.  Missing: zones with summer time (`C75_negation`). -/
theorem C75_fixed_partial (env : Env) (f : FormatData) (now castNow t : Time) (ht : InEra t)
    (hn : InEra { now with loc := t.loc }) (hz : ∀ a b : Int, t.loc.offset a = t.loc.offset b) (days : Int)
    (hd : days = wall t / 86400 - wall { now with loc := t.loc } / 86400) :
    naturalDay env f now castNow (.time t) =
      if days = 0 then .ok (env.loc.get b!"today")
      else if days = 1 then .ok (env.loc.get b!"tomorrow")
      else if days = -1 then .ok (env.loc.get b!"yesterday")
      else formatTime env f t b!"DATE_FORMAT" := by
  have e : naturalDay env f now castNow (.time t) = naturalDayTime env f now t := by simp only [naturalDay, toTime]
  rw [e, by_seconds env f now t _ rfl, dayStart_eq ht, dayStart_eq hn]
  simp only []
  have hz' : ∀ b : Int, t.loc.offset b = t.loc.offset 0 := fun b => hz b 0
  rw [hz' (midnight t - _), hz' (midnight { now with loc := t.loc } - _)]
  have e2 : midnight t - t.loc.offset 0 - (midnight { now with loc := t.loc } - t.loc.offset 0) = days * 86400 := by
    unfold midnight; omega
  rw [e2]
  have i0 : days * 86400 = 0 ↔ days = 0 := by omega
  have i1 : days * 86400 = 86400 ↔ days = 1 := by omega
  have i2 : days * 86400 = -86400 ↔ days = -1 := by omega
  simp only [i0, i1, i2]

/-- "today" is right in every zone. -/
theorem C75_today (env : Env) (f : FormatData) (now castNow t : Time) (ht : InEra t) (hn : InEra { now with loc := t.loc })
    (hd : wall t / 86400 = wall { now with loc := t.loc } / 86400) :
    naturalDay env f now castNow (.time t) = .ok (env.loc.get b!"today") := by
  have e : naturalDay env f now castNow (.time t) = naturalDayTime env f now t := by simp only [naturalDay, toTime]
  rw [e, by_seconds env f now t _ rfl, dayStart_eq ht, dayStart_eq hn]
  have em : midnight t = midnight { now with loc := t.loc } := by unfold midnight; rw [hd]
  simp only []
  rw [em, if_pos (by omega)]

/-- In every zone: the three words are said iff the midnights that begin the two days are 0, 24 or -24 hours apart. -/
theorem C75_hours (env : Env) (f : FormatData) (now castNow t : Time) (ht : InEra t) (hn : InEra { now with loc := t.loc })
    (s : Int) (hs : s = (midnight t - t.loc.offset (midnight t - t.loc.offset (midnight t))) -
      (midnight { now with loc := t.loc } - t.loc.offset (midnight { now with loc := t.loc } -
        t.loc.offset (midnight { now with loc := t.loc })))) :
    naturalDay env f now castNow (.time t) =
      if s = 0 then .ok (env.loc.get b!"today")
      else if s = 86400 then .ok (env.loc.get b!"tomorrow")
      else if s = -86400 then .ok (env.loc.get b!"yesterday")
      else formatTime env f t b!"DATE_FORMAT" := by
  have e : naturalDay env f now castNow (.time t) = naturalDayTime env f now t := by simp only [naturalDay, toTime]
  rw [e]
  refine by_seconds env f now t s ?_
  rw [dayStart_eq ht, dayStart_eq hn, hs]

/-- A zone with summer time from 31 March 2024, 01:00 UTC on, as in Berlin. -/
def spring : Location := ⟨fun _ => b!"CET", fun u => if u < 1711846800 then 3600 else 7200⟩

/-- With summer time the claim is false: on 31 March 2024 the day after it is not called "tomorrow". -/
theorem C75_negation : ¬ ∀ (env : Env) (f : FormatData) (now castNow t : Time), InEra t → InEra { now with loc := t.loc } →
    wall t / 86400 = wall { now with loc := t.loc } / 86400 + 1 →
    naturalDay env f now castNow (.time t) = .ok (env.loc.get b!"tomorrow") := by
  intro h
  have := h showEnv fallbackFormat ⟨1711875600, 0, spring⟩ ⟨0, 0, utc⟩ ⟨1711962000, 0, spring⟩ ⟨by decide, by decide⟩
    ⟨by decide, by decide⟩ (by decide)
  exact absurd this (by decide +kernel)

example : naturalDay showEnv fallbackFormat ⟨1711875600, 0, spring⟩ ⟨0, 0, utc⟩ (.time ⟨1711962000, 0, spring⟩) =
    .ok b!"April 1, 2024" := by decide +kernel

example : InEra ⟨90000, 0, utc⟩ ∧ InEra { (⟨10, 0, utc⟩ : Time) with loc := utc } ∧
    naturalDay showEnv fallbackFormat ⟨10, 0, utc⟩ ⟨0, 0, utc⟩ (.time ⟨90000, 0, utc⟩) = .ok b!"tomorrow" :=
  ⟨⟨by decide, by decide⟩, ⟨by decide, by decide⟩, by decide +kernel⟩

end Verif.Props.NaturalDay
