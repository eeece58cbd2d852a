import Verif.Spec.TimeArg
import Verif.Model.Humanize.DateFormat
import Verif.Model.Humanize.Collection
import Verif.Proofs.Go.Held
import Verif.Proofs.Humanize.Numbers
import Verif.Props.Natural
import Verif.Props.Since
/-!
# The arguments of the time functions: C119

`castNow` is the reading of the clock within `ToTime`, `now` and `clock` are the other readings of the same call.
-/
namespace Verif.Props.TimeArgs
open Verif.Go Verif.Model.Humanize Verif.Spec.Humanize Verif.Proofs.Humanize Verif.Proofs.Go
open Verif.Spec.Held
open Verif.Props.Numbers (showEnv showLoc)

/-- All functions that take a time as `any` treat the arguments alike. -/
def Alike (env : Env) (castNow : Time) (a b : TimeArg) : Prop :=
  (∀ now clock, naturalTime env now castNow clock a = naturalTime env now castNow clock b) ∧
  (∀ f now, naturalDay env f now castNow a = naturalDay env f now castNow b) ∧
  (∀ clock opts, timeSince env castNow clock a opts = timeSince env castNow clock b opts) ∧
  (∀ clock opts, timeUntil env castNow clock a opts = timeUntil env castNow clock b opts) ∧
  (∀ clock now opts, timeSinceFrom env castNow clock a now opts = timeSinceFrom env castNow clock b now opts) ∧
  ∀ clock now opts, timeUntilFrom env castNow clock a now opts = timeUntilFrom env castNow clock b now opts

theorem alike_of {env : Env} {castNow t : Time} {a b : TimeArg} (h : toTime env castNow a = some t)
    (h' : toTime env castNow b = some t) : Alike env castNow a b := by
  refine ⟨?_, ?_, ?_, ?_, ?_, ?_⟩ <;> intros <;>
    simp only [naturalTime, naturalDay, timeSince, timeUntil, timeSinceFrom, timeUntilFrom, h, h']

theorem toInt64_whole (oor : F64 → Int) {m e : Int} {r : Rat} (hr : ratOf m e = r) {s : Int} (hs : s = wholePart r)
    (h1 : -(2 ^ 63) ≤ s) (h2 : s < 2 ^ 63) : F64.toInt64 oor (.fin m e) = s := by
  have key : (if 0 ≤ e then m * 2 ^ e.toNat else m.tdiv (2 ^ (-e).toNat)) = s := by
    rw [hs, wholePart]
    by_cases h0 : 0 ≤ r
    · rw [if_pos h0, trunc_floor (ratOf_nonneg.mp (by rw [hr]; exact h0)), hr]
    · rw [if_neg h0]
      have hm : ¬ 0 ≤ m := fun hm => h0 (by rw [← hr]; exact ratOf_nonneg.mpr hm)
      have hk := trunc_floor (m := -m) (e := e) (by omega)
      have hn : ratOf (-m) e = -r := by
        rw [← hr, ratOf_zpow, ratOf_zpow]; push_cast; ring
      rw [hn] at hk
      rw [← hk]
      split
      · rw [Int.neg_mul, Int.neg_neg]
      · rw [Int.neg_tdiv, Int.neg_neg]
  simp only [F64.toInt64, key]
  rw [if_pos ⟨h1, h2⟩]

theorem stands_toTime {env : Env} {call t : Time} {a : TimeArg} (hc : ValidNanos call) (h : Stands env call a t) :
    toTime env call a = some t := by
  induction h with
  | time t => rfl
  | @duration d t hv hl hd =>
    obtain ⟨u, n, l⟩ := t
    obtain ⟨c1, c2⟩ := hc
    obtain ⟨v1, v2⟩ := hv
    simp only at v1 v2 hl
    unfold nanosBetween at hd
    simp only at hd
    simp only [toTime, addDuration, Option.some.injEq, Time.mk.injEq]
    exact ⟨by omega, by omega, hl.symm⟩
  | @number v x r s hn hx hs h1 h2 =>
    obtain ⟨m, e, rfl, hr⟩ := hx
    simp only [toTime, hn]
    rw [toInt64_whole env.oor hr hs h1 h2]
  | ptr _ ih => rw [toTime]; exact ih

/-- C119 for every time, duration and number that stands for a time, and for pointers to them: all functions give what they
give for that time.  Missing: integers that a float64 does not hold (`C119_rounding_negation`), nil pointers
(`C119_nil_pointer_negation`), and numbers outside of int64, whose conversion Go does not define. -/
theorem C119_accepted_partial (env : Env) (castNow t : Time) (a : TimeArg) (hc : ValidNanos castNow)
    (h : Stands env castNow a t) : Alike env castNow a (.time t) :=
  alike_of (stands_toTime hc h) rfl

/-- Two hours ago, a minute and a half ahead over the end of a second, -1.5 seconds, and pointers. -/
example : ValidNanos ⟨7200, 700000000, utc⟩ ∧ Stands showEnv ⟨7200, 700000000, utc⟩ (.duration (-7200000000000)) ⟨0, 700000000, utc⟩ ∧
    Stands showEnv ⟨7200, 700000000, utc⟩ (.ptr (.ptr (.duration 90500000000))) ⟨7291, 200000000, utc⟩ ∧
    Stands showEnv ⟨7200, 0, utc⟩ (.other (.ptr (.float (.fin (-3) (-1))))) ⟨-1, 0, utc⟩ ∧
    naturalTime showEnv ⟨7200, 700000000, utc⟩ ⟨7200, 700000000, utc⟩ zeroTime (.duration (-7200000000000)) = b!"%[1]v hours ago2" := by
  refine ⟨⟨by decide, by decide⟩, .duration ⟨by decide, by decide⟩ rfl (by decide), .ptr (.ptr (.duration ⟨by decide, by decide⟩ rfl (by decide))), ?_, by decide +kernel⟩
  exact .number (x := .fin (-3) (-1)) (r := -3 / 2) rfl ⟨-3, -1, rfl, by decide +kernel⟩ (by decide +kernel) (by decide) (by decide)

/-- Every time, every duration and every integer below 2^53 stands for a time. -/
theorem C119_documented (env : Env) (castNow : Time) :
    (∀ t, Stands env castNow (.time t) t) ∧ (∀ d, ∃ t, Stands env castNow (.duration d) t) ∧
    ∀ n : Int, n.natAbs < 2 ^ 53 → Stands env castNow (.other (.int n)) ⟨n, 0, env.localZone⟩ := by
  refine ⟨.time, fun d => ?_, fun n hn => ?_⟩
  · refine ⟨⟨castNow.unix + (castNow.nsec + d) / 1000000000, (castNow.nsec + d) % 1000000000, castNow.loc⟩,
      .duration ⟨?_, ?_⟩ rfl ?_⟩
    · simp only; omega
    · simp only; omega
    · unfold nanosBetween; simp only; omega
  · refine .number (x := .fin n 0) (r := n) ?_ ⟨n, 0, rfl, ratOf_zero n⟩ ?_ (by omega) (by omega)
    · show some (F64.ofInt n) = _
      rw [ofInt_small hn]
    · unfold wholePart
      split
      · rw [Rat.floor_intCast]
      · rw [← Rat.intCast_neg, Rat.floor_intCast, Int.neg_neg]

/-- Every integer stands for, or is taken for, a number of seconds that a float64 holds and that is as close as any; it is the
integer itself if a float64 holds it. -/
theorem C119_integer_nearest (env : Env) (castNow : Time) (n : Int) : ∃ k, NearestInt n k ∧ (Held n.natAbs → k = n) ∧
    (-(2 ^ 63) ≤ k → k < 2 ^ 63 → Alike env castNow (.other (.int n)) (.time ⟨k, 0, env.localZone⟩)) := by
  obtain ⟨k, h1, h2⟩ := ofInt_nearest n
  refine ⟨k, h1, fun hn => ?_, fun b1 b2 => alike_of (t := ⟨k, 0, env.localZone⟩) ?_ rfl⟩
  · have := nearest_held h1.1 hn
    have := h1.2.1
    have := h1.2.2
    omega
  · have h : toNumber env.parse (.int n) = some (.fin k 0) := by show some (F64.ofInt n) = _; rw [h2]
    simp only [toTime, h]
    rw [toInt64_int env.oor b1 b2]

example : Held (-(3 * 2 ^ 60) : Int).natAbs := ⟨3, 60, by decide, by decide⟩

/-- An argument is answered with the error text exactly if it is, behind all pointers, neither a time nor a duration nor
something that is read as a number. -/
theorem C119_rejected (env : Env) (castNow : Time) : ∀ a : TimeArg, toTime env castNow a = none ↔
    ∃ (n : Nat) (v : Val), a = (TimeArg.ptr^[n]) (.other v) ∧ toNumber env.parse v = none
  | .time t => by
    constructor
    · intro h; cases h
    · rintro ⟨n, v, h, _⟩
      cases n with
      | zero => cases h
      | succ n => rw [Function.iterate_succ_apply'] at h; cases h
  | .duration d => by
    constructor
    · intro h; cases h
    · rintro ⟨n, v, h, _⟩
      cases n with
      | zero => cases h
      | succ n => rw [Function.iterate_succ_apply'] at h; cases h
  | .other v => by
    constructor
    · intro h
      refine ⟨0, v, rfl, ?_⟩
      simp only [toTime] at h
      cases hn : toNumber env.parse v with
      | none => rfl
      | some x => rw [hn] at h; cases h
    · rintro ⟨n, w, h, hw⟩
      cases n with
      | zero => cases h; simp only [toTime, hw]
      | succ n => rw [Function.iterate_succ_apply'] at h; cases h
  | .ptr a => by
    rw [toTime, C119_rejected env castNow a]
    constructor
    · rintro ⟨n, v, rfl, hv⟩
      exact ⟨n + 1, v, (Function.iterate_succ_apply' _ _ _).symm, hv⟩
    · rintro ⟨n, v, h, hv⟩
      cases n with
      | zero => cases h
      | succ n =>
        rw [Function.iterate_succ_apply'] at h
        injection h with h
        exact ⟨n, v, h, hv⟩

/-- What is not accepted is answered with an error text, by every function: the text for the argument as it was passed,
with its pointers. -/
theorem C119_error_text (env : Env) (castNow : Time) (n : Nat) (v : Val) (hv : toNumber env.parse v = none) :
    let a := TimeArg.ptr^[n] (.other v)
    let text := env.errText (Model.PoPlural.Val.ptr^[n] v)
    (∀ now clock, naturalTime env now castNow clock a = text) ∧
    (∀ f now, naturalDay env f now castNow a = .ok text) ∧
    (∀ clock opts, timeSince env castNow clock a opts = text) ∧
    (∀ clock opts, timeUntil env castNow clock a opts = text) ∧
    (∀ clock now opts, timeSinceFrom env castNow clock a now opts = text) ∧
    ∀ clock now opts, timeUntilFrom env castNow clock a now opts = text := by
  have h := (C119_rejected env castNow (TimeArg.ptr^[n] (.other v))).mpr ⟨n, v, rfl, hv⟩
  have e : (TimeArg.ptr^[n] (.other v)).val = Model.PoPlural.Val.ptr^[n] v := by
    clear h
    induction n with
    | zero => rfl
    | succ n ih => rw [Function.iterate_succ_apply', Function.iterate_succ_apply', ← ih]; rfl
  refine ⟨?_, ?_, ?_, ?_, ?_, ?_⟩ <;> intros <;>
    simp only [naturalTime, naturalDay, timeSince, timeUntil, timeSinceFrom, timeUntilFrom, h, e]

example : toTime showEnv zeroTime (.ptr (.other (.str ['x']))) = none ∧ toTime showEnv zeroTime (.other .nil) = none := ⟨rfl, rfl⟩

/-- The number of seconds 2^53 + 1 is taken for 2^53. -/
theorem C119_rounding_negation (env : Env) (castNow : Time) :
    Alike env castNow (.other (.int (2 ^ 53 + 1))) (.time ⟨2 ^ 53, 0, env.localZone⟩) := by
  refine alike_of (t := ⟨2 ^ 53, 0, env.localZone⟩) ?_ rfl
  have h : toNumber env.parse (.int (2 ^ 53 + 1)) = some (F64.ofInt (2 ^ 53 + 1)) := rfl
  simp only [toTime, h]
  have e : F64.ofInt (2 ^ 53 + 1) = .fin (2 ^ 53) 0 := by decide +kernel
  rw [e, toInt64_int env.oor (by decide) (by decide)]

/-- A nil pointer, also one to a time, is not answered with an error but taken for the start of 1970. -/
theorem C119_nil_pointer_negation (env : Env) (castNow : Time) (h : env.parse ['0'] = some (.fin 0 0)) :
    Alike env castNow (.other .nilPtr) (.time ⟨0, 0, env.localZone⟩) := by
  refine alike_of (t := ⟨0, 0, env.localZone⟩) ?_ rfl
  have h : toNumber env.parse .nilPtr = some (.fin 0 0) := h
  simp only [toTime, h]
  rw [toInt64_int env.oor (by decide) (by decide)]

example : ∃ env : Env, env.parse ['0'] = some (.fin 0 0) ∧
    naturalTime env ⟨3600, 0, utc⟩ ⟨3600, 0, utc⟩ zeroTime (.other .nilPtr) = b!"an hour ago1" :=
  ⟨{ showEnv with parse := fun _ => some (.fin 0 0) }, rfl, by decide +kernel⟩

/-- TimeSinceFrom and TimeUntilFrom do not count a duration from the given time but from the clock: the same two hours
give different texts for the same `now`. -/
theorem C119_from_negation : ∃ (castNow castNow' now : Time) (d : Int),
    timeSinceFrom showEnv castNow castNow (.duration d) now [] = b!"%[1]v hours2" ∧
    timeSinceFrom showEnv castNow' castNow' (.duration d) now [] = b!"%[1]v day1" :=
  ⟨⟨1000000, 0, utc⟩, ⟨1000000 - 79200, 0, utc⟩, ⟨1000000, 0, utc⟩, -7200000000000, by decide +kernel, by decide +kernel⟩

/-- `Now`, `Time` and `Date` are the formats of the language for the time of the call. -/
theorem C119_now (env : Env) (f : FormatData) (now : Time) :
    humanizerNow env f now = dateFormat env now f.dateTimeFormat ∧ humanizerTime env f now = dateFormat env now f.timeFormat ∧
    humanizerDate env f now = dateFormat env now f.dateFormat := ⟨rfl, rfl, rfl⟩

end Verif.Props.TimeArgs
