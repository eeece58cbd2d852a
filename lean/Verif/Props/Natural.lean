import Verif.Proofs.Humanize.Natural
import Verif.Props.Numbers
/-!
# NaturalTime: C55

`now` is the first reading of the clock, `clock` the later one within `TimeSince`.
-/
namespace Verif.Props.Natural
open Verif.Go Verif.Model.Humanize Verif.Spec.Humanize Verif.Proofs.Humanize Verif.Props.Numbers

theorem natural_time (env : Env) (now castNow clock t : Time) :
    naturalTime env now castNow clock (.time t) = naturalTimeTime env now clock t := by
  simp only [naturalTime, toTime]

theorem sub_small {t u : Time} (h0 : 0 ≤ nanosBetween t u) (h : nanosBetween t u < 2 ^ 63) : u.sub t = nanosBetween t u := by
  unfold Time.sub
  unfold nanosBetween at *
  simp only []
  rw [if_neg (by omega), if_neg (by omega)]

theorem sub_large {t u : Time} (h : 2 ^ 63 ≤ nanosBetween t u) : u.sub t = 2 ^ 63 - 1 := by
  unfold Time.sub
  unfold nanosBetween at *
  simp only []
  rw [if_neg (by omega), if_pos (by omega)]

theorem before_iff {t u : Time} (ht : ValidNanos t) (hu : ValidNanos u) : t.before u = true ↔ 0 < nanosBetween t u := by
  obtain ⟨_, _⟩ := ht
  obtain ⟨_, _⟩ := hu
  unfold Time.before nanosBetween
  rw [decide_eq_true_iff]
  omega

/-- C55 for past times, except the last half second before the hour: up to a second ago is "now", and up to a day
(minus half a second) ago is given in the largest unit with the positive count of full units.
Missing: in that half second the text is "0 hours ago" (`C55_negation`). -/
theorem C55_past_partial (env : Env) (now castNow clock t : Time) (ht : ValidNanos t) (hn : ValidNanos now)
    (h0 : 0 < nanosBetween t now) (h : nanosBetween t now < 86399500000000)
    (hx : nanosBetween t now < 3599500000000 ∨ 3600000000000 ≤ nanosBetween t now) :
    (nanosBetween t now < 1000000000 → naturalTime env now castNow clock (.time t) = env.loc.get b!"now") ∧
    (1000000000 ≤ nanosBetween t now →
      Counts pastUnits env.loc (nanosBetween t now) (naturalTime env now castNow clock (.time t))) := by
  have hs := sub_small (t := t) (u := now) (by omega) (by omega)
  have he := past_eq env now clock t ((before_iff ht hn).mpr h0) (by omega)
  rw [natural_time, he, hs]
  clear he hs
  generalize nanosBetween t now = D at *
  rw [if_neg (by omega)]
  constructor
  · intro h1
    rw [if_pos (by omega)]
  · intro h1
    rw [if_neg (by omega)]
    by_cases c1 : D / 1000000000 < 60
    · rw [if_pos c1]
      refine ⟨((b!"a second ago", b!"%[1]v seconds ago"), 1000000000), _, by simp [pastUnits], ?_, ?_, ?_, ?_, rfl⟩
      · simp only [pastUnits, List.mem_cons, List.not_mem_nil, or_false]
        rintro q (rfl | rfl | rfl) <;> simp only <;> omega
      all_goals omega
    · rw [if_neg c1]
      by_cases c2 : D < 3599500000000
      · rw [if_pos c2]
        refine ⟨((b!"a minute ago", b!"%[1]v minutes ago"), 60000000000), _, by simp [pastUnits], ?_, ?_, ?_, ?_, rfl⟩
        · simp only [pastUnits, List.mem_cons, List.not_mem_nil, or_false]
          rintro q (rfl | rfl | rfl) <;> simp only <;> omega
        all_goals omega
      · rw [if_neg c2]
        refine ⟨((b!"an hour ago", b!"%[1]v hours ago"), 3600000000000), _, by simp [pastUnits], ?_, ?_, ?_, ?_, rfl⟩
        · simp only [pastUnits, List.mem_cons, List.not_mem_nil, or_false]
          rintro q (rfl | rfl | rfl) <;> simp only <;> omega
        all_goals omega

/-- Two hours, and 59 minutes. -/
example : ValidNanos ⟨0, 500000000, utc⟩ ∧ nanosBetween ⟨0, 500000000, utc⟩ ⟨7201, 0, utc⟩ = 7200500000000 ∧
    naturalTime showEnv ⟨7201, 0, utc⟩ zeroTime zeroTime (.time ⟨0, 500000000, utc⟩) = b!"%[1]v hours ago2" ∧
    naturalTime showEnv ⟨3599, 400000000, utc⟩ zeroTime zeroTime (.time ⟨0, 0, utc⟩) = b!"%[1]v minutes ago59" := by
  refine ⟨by unfold ValidNanos; decide, by decide, by decide +kernel, by decide +kernel⟩

/-- Half a second before the hour the text is "0 hours ago". -/
theorem C55_negation :
    ValidNanos ⟨0, 0, utc⟩ ∧ ValidNanos ⟨3599, 500000000, utc⟩ ∧
    naturalTime showEnv ⟨3599, 500000000, utc⟩ zeroTime zeroTime (.time ⟨0, 0, utc⟩) = b!"%[1]v hours ago0" := by
  refine ⟨by unfold ValidNanos; decide, by unfold ValidNanos; decide, by decide +kernel⟩

/-- It is "0 hours ago" for exactly this half second. -/
theorem C55_zero_hours (env : Env) (now castNow clock t : Time) (ht : ValidNanos t) (hn : ValidNanos now)
    (h0 : 3599500000000 ≤ nanosBetween t now) (h : nanosBetween t now < 3600000000000) :
    naturalTime env now castNow clock (.time t) = env.loc.nGetf b!"an hour ago" b!"%[1]v hours ago" 0 [.int 0] := by
  have hs := sub_small (t := t) (u := now) (by omega) (by omega)
  have he := past_eq env now clock t ((before_iff ht hn).mpr (by omega)) (by omega)
  rw [natural_time, he, hs, if_neg (by omega), if_neg (by omega), if_neg (by omega), if_neg (by omega)]
  have : nanosBetween t now / 3600000000000 = 0 := by omega
  rw [this]

example : nanosBetween ⟨0, 0, utc⟩ ⟨3599, 999999999, utc⟩ = 3599999999999 := by decide

/-- C55 for times that are not past: the duration is rounded to seconds; half a second ahead is "now", and up to a day
(minus half a second) ahead is given in the largest unit with the positive count of full units. -/
theorem C55_future (env : Env) (now castNow clock t : Time) (ht : ValidNanos t) (hn : ValidNanos now)
    (h0 : 0 ≤ nanosBetween now t) (h : nanosBetween now t < 86399500000000) :
    (nanosBetween now t < 500000000 → naturalTime env now castNow clock (.time t) = env.loc.get b!"now") ∧
    (500000000 ≤ nanosBetween now t →
      Counts futureUnits env.loc (nanosBetween now t + 500000000) (naturalTime env now castNow clock (.time t))) := by
  have hs := sub_small (t := now) (u := t) (by omega) (by omega)
  have hb : t.before now = false := by
    rw [Bool.eq_false_iff]
    intro hc
    have := (before_iff ht hn).mp hc
    unfold nanosBetween at *
    omega
  have he := future_eq env now clock t hb (by omega)
  rw [natural_time, he, hs]
  clear he hs
  generalize nanosBetween now t = D at *
  rw [if_neg (by omega)]
  constructor
  · intro h1
    rw [if_pos (by omega)]
  · intro h1
    rw [if_neg (by omega)]
    by_cases c1 : (D + 500000000) / 1000000000 < 60
    · rw [if_pos c1]
      refine ⟨((b!"a second from now", b!"%[1]v seconds from now"), 1000000000), _, by simp [futureUnits], ?_, ?_, ?_, ?_, rfl⟩
      · simp only [futureUnits, List.mem_cons, List.not_mem_nil, or_false]
        rintro q (rfl | rfl | rfl) <;> simp only <;> omega
      all_goals omega
    · rw [if_neg c1]
      by_cases c2 : D < 3599500000000
      · rw [if_pos c2]
        refine ⟨((b!"a minute from now", b!"%[1]v minutes from now"), 60000000000), _, by simp [futureUnits], ?_, ?_, ?_, ?_, rfl⟩
        · simp only [futureUnits, List.mem_cons, List.not_mem_nil, or_false]
          rintro q (rfl | rfl | rfl) <;> simp only <;> omega
        all_goals omega
      · rw [if_neg c2]
        refine ⟨((b!"an hour from now", b!"%[1]v hours from now"), 3600000000000), _, by simp [futureUnits], ?_, ?_, ?_, ?_, rfl⟩
        · simp only [futureUnits, List.mem_cons, List.not_mem_nil, or_false]
          rintro q (rfl | rfl | rfl) <;> simp only <;> omega
        all_goals omega

example : naturalTime showEnv ⟨0, 0, utc⟩ zeroTime zeroTime (.time ⟨3599, 500000000, utc⟩) = b!"an hour from now1" ∧
    naturalTime showEnv ⟨0, 0, utc⟩ zeroTime zeroTime (.time ⟨0, 499999999, utc⟩) = b!"now" := by
  constructor <;> decide +kernel

/-- A day or longer ago: the units of TimeSince with the context "naturaltime-past", at least one. -/
theorem C55_days_ago (env : Env) (now castNow clock t : Time) (ht : ValidNanos t) (hn : ValidNanos now)
    (h : 86399500000000 ≤ nanosBetween t now) (hc : now.unix ≤ clock.unix) (h1 : InRange t) (h2 : InRange clock)
    (hb : clock.unix - t.unix < 2 ^ 62) :
    ∃ us : List ((Bytes × Int) × Int), us ≠ [] ∧ us.length ≤ 2 ∧ us.map Prod.fst <:+: sinceUnits ∧ (∀ p ∈ us, 0 < p.2) ∧
      ∀ loc : Loc, naturalTime { env with loc := loc } now castNow clock (.time t) =
        loc.getf b!"%[1]v ago" [.str (join (loc.get b!", ") (us.map (showUnit b!"naturaltime-past" loc)))] := by
  have hz : (newTimeSinceOptions clock [.timeStrings naturalPastSubstrings]).timeStrings = naturalPastSubstrings := by
    rw [(options_eq clock _).2.2.2.2]
    decide +kernel
  obtain ⟨us, g1, g2, _, g4, g5, _, g7, _⟩ := timeSinceTime_units env clock t [.timeStrings naturalPastSubstrings]
    b!"naturaltime-past" (by rw [hz]; exact hasContext_past)
  have hft : fromTo clock t [.timeStrings naturalPastSubstrings] = (t, clock) := rfl
  rw [hft] at g7
  have hu : us ≠ [] := by
    apply g7
    refine shownSeconds_ge env.oor (t, clock) h1 h2 ?_ hb
    obtain ⟨_, _⟩ := ht
    obtain ⟨_, _⟩ := hn
    unfold nanosBetween at h
    show t.unix + 60 ≤ clock.unix
    omega
  refine ⟨us, hu, ?_, g4 rfl, g5, ?_⟩
  · have : depthOf [.timeStrings naturalPastSubstrings] = 2 := rfl
    omega
  · intro loc
    have g := g1 loc
    rw [if_neg hu] at g
    have hd : 86399500000000 ≤ now.sub t := by
      rcases Int.lt_or_le (nanosBetween t now) (2 ^ 63) with hl | hl
      · rw [sub_small (by omega) hl]; exact h
      · rw [sub_large hl]; omega
    rw [natural_time, past_eq _ now clock t ((before_iff ht hn).mpr (by omega)) (by omega), if_pos hd]
    simp only at g
    rw [g]

/-- A day minus half a second. -/
example : 86399500000000 ≤ nanosBetween ⟨0, 500000000, utc⟩ ⟨86400, 0, utc⟩ ∧
    naturalTime showEnv ⟨86400, 0, utc⟩ zeroTime ⟨86400, 0, utc⟩ (.time ⟨0, 500000000, utc⟩) = b!"%[1]v ago%[1]v day1" := by
  constructor <;> decide +kernel

/-- A day or longer ahead, if the clock did not advance to the time meanwhile. -/
theorem C55_days_ahead (env : Env) (now castNow clock t : Time) (ht : ValidNanos t) (hn : ValidNanos now)
    (h : 86399500000000 ≤ nanosBetween now t) (hc : clock.unix + 60 ≤ t.unix) (h1 : InRange t) (h2 : InRange clock)
    (hb : t.unix - clock.unix < 2 ^ 62) :
    ∃ us : List ((Bytes × Int) × Int), us ≠ [] ∧ us.length ≤ 2 ∧ us.map Prod.fst <:+: sinceUnits ∧ (∀ p ∈ us, 0 < p.2) ∧
      ∀ loc : Loc, naturalTime { env with loc := loc } now castNow clock (.time t) =
        loc.getf b!"%[1]v from now" [.str (join (loc.get b!", ") (us.map (showUnit b!"naturaltime-future" loc)))] := by
  have hz : (newTimeSinceOptions clock [.timeStrings naturalFutureSubstrings, .reverse true]).timeStrings = naturalFutureSubstrings := by
    rw [(options_eq clock _).2.2.2.2]
    decide +kernel
  obtain ⟨us, g1, g2, _, g4, g5, _, g7, _⟩ := timeSinceTime_units env clock t [.timeStrings naturalFutureSubstrings, .reverse true]
    b!"naturaltime-future" (by rw [hz]; exact hasContext_future)
  have hft : fromTo clock t [.timeStrings naturalFutureSubstrings, .reverse true] = (clock, t) := rfl
  rw [hft] at g7
  have hu : us ≠ [] := g7 (shownSeconds_ge env.oor (clock, t) h2 h1 hc hb)
  refine ⟨us, hu, ?_, g4 rfl, g5, ?_⟩
  · have : depthOf [.timeStrings naturalFutureSubstrings, .reverse true] = 2 := rfl
    omega
  · intro loc
    have g := g1 loc
    rw [if_neg hu] at g
    have hd : 86399500000000 ≤ t.sub now := by
      rcases Int.lt_or_le (nanosBetween now t) (2 ^ 63) with hl | hl
      · rw [sub_small (by omega) hl]; exact h
      · rw [sub_large hl]; omega
    have hbf : t.before now = false := by
      rw [Bool.eq_false_iff]
      intro hc
      have := (before_iff ht hn).mp hc
      unfold nanosBetween at *
      omega
    rw [natural_time, future_eq _ now clock t hbf (by omega), if_pos hd]
    simp only at g
    rw [g]

example : 86399500000000 ≤ nanosBetween ⟨0, 0, utc⟩ ⟨90000, 0, utc⟩ ∧
    naturalTime showEnv ⟨0, 0, utc⟩ zeroTime ⟨0, 0, utc⟩ (.time ⟨90000, 0, utc⟩) =
      b!"%[1]v from now%[1]v day1, %[1]v hour1" := by
  constructor <;> decide +kernel

end Verif.Props.Natural
