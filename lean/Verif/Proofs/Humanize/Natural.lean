import Verif.Proofs.Humanize.SinceText
/-!
# NaturalTime
-/
namespace Verif.Proofs.Humanize
open Verif.Go Verif.Model.Humanize Verif.Spec.Humanize Verif.Proofs.Go

/-! ## Durations -/

theorem trunc_eq {d : Int} (h : 0 ≤ d) : truncSecond d = d / 1000000000 * 1000000000 := by
  unfold truncSecond
  rw [Int.tmod_eq_emod_of_nonneg h]
  omega

theorem round_eq {d : Int} (h : 0 ≤ d) (h' : d < 2 ^ 63 - 1000000000) :
    roundSecond d = (d + 500000000) / 1000000000 * 1000000000 := by
  unfold roundSecond
  simp only [Int.tmod_eq_emod_of_nonneg h]
  rw [if_neg (by omega)]
  split
  · omega
  · rw [if_pos (by omega)]
    omega

theorem round_large {d : Int} (h : 2 ^ 63 - 1000000000 ≤ d) (h' : d < 2 ^ 63) :
    2 ^ 63 - 2000000000 ≤ roundSecond d ∧ roundSecond d < 2 ^ 63 := by
  unfold roundSecond
  simp only [Int.tmod_eq_emod_of_nonneg (show 0 ≤ d by omega)]
  rw [if_neg (by omega)]
  split
  · omega
  · split <;> omega

theorem durSeconds_mul {s : Int} (h0 : 0 ≤ s) (h : s < 2 ^ 53) : durSeconds (s * 1000000000) = .fin s 0 := by
  unfold durSeconds
  have e1 : (s * 1000000000).tdiv 1000000000 = s := by rw [Int.tdiv_eq_ediv_of_nonneg (by omega)]; omega
  have e2 : (s * 1000000000).tmod 1000000000 = 0 := by rw [Int.tmod_eq_emod_of_nonneg (by omega)]; omega
  rw [e1, e2]
  have e3 : F64.div (.ofInt 0) (.ofInt 1000000000) = .fin 0 0 := by decide +kernel
  rw [e3, ofInt_small (by omega), add_int (by omega), Int.add_zero]

/-- `int64(d.Hours()) >= 24`, for whole seconds below a day and for longer durations. -/
theorem durHours_small (oor : F64 → Int) {s : Int} (h0 : 0 ≤ s) (h : s < 86400) :
    (durHours (s * 1000000000)).toInt64 oor < 24 := by
  unfold durHours
  have e1 : (s * 1000000000).tdiv 3600000000000 = s / 3600 := by rw [Int.tdiv_eq_ediv_of_nonneg (by omega)]; omega
  have e2 : (s * 1000000000).tmod 3600000000000 = s % 3600 * 1000000000 := by
    rw [Int.tmod_eq_emod_of_nonneg (by omega)]; omega
  rw [e1, e2, ofInt_small (by omega), ofInt_small (by omega), ofInt_small (by omega), div_fin (by omega), ratOf_zero]
  have b0 : (0 : ℚ) ≤ ((s % 3600 * 1000000000 : Int) : ℚ) := by exact_mod_cast (by omega)
  have b1 : ((s % 3600 * 1000000000 : Int) : ℚ) ≤ 3599 * 1000000000 := by exact_mod_cast (by omega)
  have a0 : (0 : ℚ) ≤ ((s / 3600 : Int) : ℚ) := by exact_mod_cast (by omega)
  have a1 : ((s / 3600 : Int) : ℚ) ≤ 23 := by exact_mod_cast (by omega)
  generalize ((s % 3600 * 1000000000 : Int) : ℚ) = b at *
  have q0 : 0 ≤ b / ((3600000000000 : Int) : ℚ) := by positivity
  have q1 : b / ((3600000000000 : Int) : ℚ) ≤ ((8191 : Nat) : ℚ) / 2 ^ 13 := by
    rw [div_le_div_iff₀ (by norm_num) (by norm_num)]
    push_cast
    linarith
  have f1 : Fits (b / ((3600000000000 : Int) : ℚ)) := small q0 (lt_of_le_of_lt q1 (by norm_num))
  obtain ⟨m, e, g1, g2⟩ := ofRat_fin f1
  have g3 := rnd_le (rep_div (p := 8191) (j := 13) (by norm_num) (by norm_num)) q0 f1 q1
  have g4 := rnd_nonneg q0 f1
  rw [g1]
  show (F64.ofRat (ratOf (s / 3600) 0 + ratOf m e)).toInt64 oor < 24
  rw [ratOf_zero, g2]
  generalize rnd (b / ((3600000000000 : Int) : ℚ)) = r at *
  generalize ((s / 3600 : Int) : ℚ) = a at *
  have t0 : 0 ≤ a + r := by linarith
  have t1 : a + r ≤ ((24 * 8192 - 1 : Nat) : ℚ) / 2 ^ 13 := by
    refine le_trans (add_le_add a1 g3) ?_
    norm_num
  have f2 : Fits (a + r) := small t0 (lt_of_le_of_lt t1 (by norm_num))
  obtain ⟨m', e', k1, k2⟩ := ofRat_fin f2
  have k3 := rnd_le (rep_div (p := 24 * 8192 - 1) (j := 13) (by norm_num) (by norm_num)) t0 f2 t1
  have k4 := rnd_nonneg t0 f2
  have k5 : rnd (a + r) < 24 := lt_of_le_of_lt k3 (by norm_num)
  rw [k1, toInt64_floor oor (ratOf_nonneg.mp (by rw [k2]; exact k4)) (by rw [k2]; linarith), k2]
  exact Rat.floor_lt_iff.mpr (by exact_mod_cast k5)

theorem durHours_large (oor : F64 → Int) {d : Int} (h0 : 86400000000000 ≤ d) (h : d < 2 ^ 63) :
    24 ≤ (durHours d).toInt64 oor := by
  unfold durHours
  rw [Int.tdiv_eq_ediv_of_nonneg (by omega), Int.tmod_eq_emod_of_nonneg (by omega), ofInt_small (by omega),
    ofInt_small (by omega), ofInt_small (by omega), div_fin (by omega), ratOf_zero]
  have b0 : (0 : ℚ) ≤ ((d % 3600000000000 : Int) : ℚ) := by exact_mod_cast (by omega)
  have b1 : ((d % 3600000000000 : Int) : ℚ) ≤ 3600000000000 := by exact_mod_cast (by omega)
  have a0 : (24 : ℚ) ≤ ((d / 3600000000000 : Int) : ℚ) := by exact_mod_cast (by omega)
  have a1 : ((d / 3600000000000 : Int) : ℚ) ≤ 2 ^ 40 := by
    have : (d / 3600000000000 : Int) ≤ 2 ^ 40 := by omega
    exact_mod_cast this
  generalize ((d % 3600000000000 : Int) : ℚ) = b at *
  have q0 : 0 ≤ b / ((3600000000000 : Int) : ℚ) := by positivity
  have q1 : b / ((3600000000000 : Int) : ℚ) ≤ ((1 : Nat) : ℚ) := by
    rw [div_le_iff₀ (by norm_num)]
    push_cast
    linarith
  have f1 : Fits (b / ((3600000000000 : Int) : ℚ)) := small q0 (lt_of_le_of_lt q1 (by norm_num))
  obtain ⟨m, e, g1, g2⟩ := ofRat_fin f1
  have g3 := rnd_le (rep_nat (p := 1) (by norm_num)) q0 f1 q1
  have g4 := rnd_nonneg q0 f1
  rw [g1]
  show 24 ≤ (F64.ofRat (ratOf (d / 3600000000000) 0 + ratOf m e)).toInt64 oor
  rw [ratOf_zero, g2]
  generalize rnd (b / ((3600000000000 : Int) : ℚ)) = r at *
  generalize ((d / 3600000000000 : Int) : ℚ) = a at *
  have t0 : ((24 : Nat) : ℚ) ≤ a + r := by push_cast; linarith
  have t00 : 0 ≤ a + r := by linarith
  have t1 : a + r ≤ ((2 ^ 40 + 1 : Nat) : ℚ) := by
    push_cast at *
    linarith
  have f2 : Fits (a + r) := small t00 (lt_of_le_of_lt t1 (by norm_num))
  obtain ⟨m', e', k1, k2⟩ := ofRat_fin f2
  have k3 := rnd_le (rep_nat (p := 2 ^ 40 + 1) (by norm_num)) t00 f2 t1
  have k4 := le_rnd (rep_nat (p := 24) (by norm_num)) t00 f2 t0
  have k5 : rnd (a + r) < 2 ^ 63 := lt_of_le_of_lt k3 (by norm_num)
  have k6 := rnd_nonneg t00 f2
  rw [k1, toInt64_floor oor (ratOf_nonneg.mp (by rw [k2]; exact k6)) (by rw [k2]; exact k5), k2]
  exact Rat.le_floor_iff.mpr (by exact_mod_cast k4)

/-- The test for a day, in nanoseconds. -/
theorem day_iff (oor : F64 → Int) {d : Int} (h0 : 0 ≤ d) (h : d < 2 ^ 63) :
    24 ≤ (durHours (roundSecond d)).toInt64 oor ↔ 86399500000000 ≤ d := by
  rcases Int.lt_or_le d (2 ^ 63 - 1000000000) with hs | hs
  · rw [round_eq h0 hs]
    constructor
    · intro h1
      by_contra hc
      have := durHours_small oor (s := (d + 500000000) / 1000000000) (by omega) (by omega)
      omega
    · intro h1
      exact durHours_large oor (by omega) (by omega)
  · have := round_large hs h
    constructor
    · intro _; omega
    · intro _
      exact durHours_large oor (by omega) (by omega)

/-! ## Counts -/

theorem floorDivision_sixty (oor : F64 → Int) {s : Int} (h0 : 0 ≤ s) (h : s < 100000) :
    floorDivision oor (.fin s 0) (.ofInt 60) < 60 ↔ s < 3600 := by
  have hq : (0 : ℚ) ≤ s := by exact_mod_cast h0
  have hq' : (s : ℚ) ≤ 100000 := by exact_mod_cast (by omega)
  have hb : ratOf s 0 / ((60 : Int) : ℚ) ≤ 2 ^ 60 := by
    rw [ratOf_zero, div_le_iff₀ (by norm_num)]
    push_cast
    linarith
  constructor
  · intro h1
    by_contra hc
    have hc' : (3600 : ℚ) ≤ s := by exact_mod_cast (by omega)
    have := floorDivision_ge oor (m := s) (e := 0) (s := 60) (by omega) (by decide) hb 60 (by norm_num)
      (by rw [ratOf_zero]; push_cast; linarith)
    omega
  · intro h1
    have hc' : (s : ℚ) ≤ 3599 := by exact_mod_cast (by omega)
    have := floorDivision_le oor (m := s) (e := 0) (s := 60) (by omega) (by decide) (by rw [ratOf_zero]; exact hq) hb 59
      (by norm_num) (by rw [ratOf_zero]; push_cast; linarith)
    omega

theorem floorSixtieth_eq (oor : F64 → Int) {s : Int} (h0 : 0 ≤ s) (h : s < 100000) :
    floorSixtieth oor (.fin s 0) = s / 60 := by
  unfold floorSixtieth
  have := floor_div (y := s) (k := 60) (j := 6) (by omega) (by omega) (by omega) (by omega) (by omega)
  rw [show ((60 : Nat) : Int) = 60 from rfl] at this
  rw [this]
  exact toInt64_int oor (by omega) (by omega)

theorem floorHours_eq (oor : F64 → Int) {s : Int} (h0 : 0 ≤ s) (h : s < 100000) :
    floorHours oor (.fin s 0) = s / 3600 := by
  unfold floorHours
  have := floor_div (y := s) (k := 60) (j := 6) (by omega) (by omega) (by omega) (by omega) (by omega)
  rw [show ((60 : Nat) : Int) = 60 from rfl] at this
  rw [this, floorSixtieth_eq oor (by omega) (by omega)]
  omega

theorem sub_range (t u : Time) : t.sub u < 2 ^ 63 := by unfold Time.sub; simp only []; split <;> [omega; split <;> omega]

/-- The texts for a past time. -/
theorem past_eq (env : Env) (now clock t : Time) (hb : t.before now = true) (h0 : 0 ≤ now.sub t) :
    naturalTimeTime env now clock t =
      if 86399500000000 ≤ now.sub t then
        env.loc.getf b!"%[1]v ago" [.str (timeSinceTime env clock t [.timeStrings naturalPastSubstrings])]
      else if now.sub t / 1000000000 = 0 then env.loc.get b!"now"
      else if now.sub t / 1000000000 < 60 then
        env.loc.nGetf b!"a second ago" b!"%[1]v seconds ago" (now.sub t / 1000000000) [.int (now.sub t / 1000000000)]
      else if now.sub t < 3599500000000 then
        env.loc.nGetf b!"a minute ago" b!"%[1]v minutes ago" (now.sub t / 60000000000) [.int (now.sub t / 60000000000)]
      else env.loc.nGetf b!"an hour ago" b!"%[1]v hours ago" (now.sub t / 3600000000000) [.int (now.sub t / 3600000000000)] := by
  have hr := sub_range now t
  unfold naturalTimeTime
  rw [if_pos hb]
  simp only []
  generalize now.sub t = D at *
  by_cases hd : 86399500000000 ≤ D
  · rw [if_pos ((day_iff env.oor h0 hr).mpr hd), if_pos hd]; rfl
  · rw [if_neg (fun hc => hd ((day_iff env.oor h0 hr).mp hc)), if_neg hd]
    have t1 : (durSeconds (truncSecond D)).toInt64 env.oor = D / 1000000000 := by
      rw [trunc_eq h0, durSeconds_mul (by omega) (by omega), toInt64_int env.oor (by omega) (by omega)]
    have t2 : floorDivision env.oor (durSeconds (roundSecond D)) (.ofInt 60) < 60 ↔ D < 3599500000000 := by
      rw [round_eq h0 (by omega), durSeconds_mul (by omega) (by omega), floorDivision_sixty env.oor (by omega) (by omega)]
      omega
    have t3 : floorSixtieth env.oor (.ofInt (D / 1000000000)) = D / 60000000000 := by
      rw [ofInt_small (by omega), floorSixtieth_eq env.oor (by omega) (by omega)]; omega
    have t4 : floorHours env.oor (.ofInt (D / 1000000000)) = D / 3600000000000 := by
      rw [ofInt_small (by omega), floorHours_eq env.oor (by omega) (by omega)]; omega
    rw [t1, t3, t4]
    simp only [t2]
    rfl

/-- The texts for a time that is not past. -/
theorem future_eq (env : Env) (now clock t : Time) (hb : t.before now = false) (h0 : 0 ≤ t.sub now) :
    naturalTimeTime env now clock t =
      if 86399500000000 ≤ t.sub now then
        env.loc.getf b!"%[1]v from now"
          [.str (timeSinceTime env clock t [.timeStrings naturalFutureSubstrings, .reverse true])]
      else if (t.sub now + 500000000) / 1000000000 = 0 then env.loc.get b!"now"
      else if (t.sub now + 500000000) / 1000000000 < 60 then
        env.loc.nGetf b!"a second from now" b!"%[1]v seconds from now" ((t.sub now + 500000000) / 1000000000)
          [.int ((t.sub now + 500000000) / 1000000000)]
      else if t.sub now < 3599500000000 then
        env.loc.nGetf b!"a minute from now" b!"%[1]v minutes from now" ((t.sub now + 500000000) / 60000000000)
          [.int ((t.sub now + 500000000) / 60000000000)]
      else env.loc.nGetf b!"an hour from now" b!"%[1]v hours from now" ((t.sub now + 500000000) / 3600000000000)
        [.int ((t.sub now + 500000000) / 3600000000000)] := by
  have hr := sub_range t now
  unfold naturalTimeTime
  rw [if_neg (by rw [hb]; simp)]
  simp only []
  generalize t.sub now = D at *
  by_cases hd : 86399500000000 ≤ D
  · rw [if_pos ((day_iff env.oor h0 hr).mpr hd), if_pos hd]; rfl
  · rw [if_neg (fun hc => hd ((day_iff env.oor h0 hr).mp hc)), if_neg hd]
    have t1 : (durSeconds (roundSecond D)).toInt64 env.oor = (D + 500000000) / 1000000000 := by
      rw [round_eq h0 (by omega), durSeconds_mul (by omega) (by omega), toInt64_int env.oor (by omega) (by omega)]
    have t2 : floorDivision env.oor (.ofInt ((D + 500000000) / 1000000000)) (.ofInt 60) < 60 ↔ D < 3599500000000 := by
      rw [ofInt_small (by omega), floorDivision_sixty env.oor (by omega) (by omega)]
      omega
    have t3 : floorSixtieth env.oor (.ofInt ((D + 500000000) / 1000000000)) = (D + 500000000) / 60000000000 := by
      rw [ofInt_small (by omega), floorSixtieth_eq env.oor (by omega) (by omega)]; omega
    have t4 : floorHours env.oor (.ofInt ((D + 500000000) / 1000000000)) = (D + 500000000) / 3600000000000 := by
      rw [ofInt_small (by omega), floorHours_eq env.oor (by omega) (by omega)]; omega
    rw [t1, t3, t4]
    simp only [t2]
    rfl

end Verif.Proofs.Humanize
