import Verif.Proofs.Humanize.DateFormat
import Verif.Proofs.Go.Digits
import Verif.Proofs.Go.NextDay
import Verif.Props.Numbers
import Verif.Spec.Since
/-!
# The letters of date formats: C74
-/
namespace Verif.Props.DateLetters
open Verif.Go Verif.Model.Humanize Verif.Spec.DateFormat Verif.Spec.Decimal Verif.Spec.Calendar Verif.Proofs.Go
open Verif.Proofs.Humanize Verif.Proofs.Calendar Verif.Spec.Humanize Verif.Props.Numbers

/-- The format that consists of one letter gives a text with a property. -/
def Gives (env : Env) (t : Time) (c : Char) (P : Bytes → Prop) : Prop :=
  ∃ text : Bytes, dateFormat env t (encodeRune c) = .ok text ∧ P text

theorem gives {env : Env} {t : Time} {c : Char} {P : Bytes → Prop} {s : Bytes} (hl : letter env t c = some (.ok s))
    (hc : c ≠ '\\') (h : P s) : Gives env t c P := by
  refine ⟨s, ?_, h⟩
  unfold dateFormat
  have e : encodeRune c = utf8 [c] := by simp
  rw [e, runes_utf8, formatRunes_other _ _ _ _ hc, hl]
  simp [formatRunes]

/-! ## The calendar -/

theorem abs_wall {t : Time} (h : InEra t) : t.abs = wall t + unixToAbsolute := by
  unfold InEra wall at h
  unfold Time.abs wall unixToAbsolute
  omega

theorem abs_day {t : Time} (h : InEra t) : t.abs / 86400 = wall t / 86400 + 106751991073094 := by
  rw [abs_wall h]
  unfold unixToAbsolute
  omega

/-- Year, month, day and day of the week of a time are those of the Gregorian calendar: they are the same all day
long, change to those of the next day after it, and 1 January 1970 was a Thursday.  (About package time, as modelled.) -/
theorem C74_calendar :
    (∀ t : Time, 0 ≤ wall t → wall t < 86400 → t.year = 1970 ∧ t.month = 1 ∧ t.day = 1 ∧ t.weekday = 4) ∧
    (∀ t u : Time, InEra t → InEra u → wall t / 86400 = wall u / 86400 →
      t.year = u.year ∧ t.month = u.month ∧ t.day = u.day ∧ t.weekday = u.weekday) ∧
    (∀ t u : Time, InEra t → InEra u → wall u / 86400 = wall t / 86400 + 1 →
      (u.year, u.month, u.day) = nextDate t.year t.month t.day ∧ u.weekday = (t.weekday + 1) % 7) := by
  refine ⟨?_, ?_, ?_⟩
  · intro t h0 h1
    have hd : t.abs / 86400 = 106751991073094 := by
      rw [abs_day ⟨by omega, by omega⟩]; omega
    have hc : t.abs / 86400 = dayCount 1970 1 1 := by rw [hd]; decide +kernel
    obtain ⟨a, b, c, -⟩ := date_of_count (by decide) (by decide) (by decide) (by decide) (by decide) (by decide) hc
    refine ⟨a, b, c, ?_⟩
    unfold Time.weekday
    rw [hd]; decide
  · intro t u ht hu h
    have e : t.abs / 86400 = u.abs / 86400 := by rw [abs_day ht, abs_day hu, h]
    have ey : t.year = u.year := by unfold Time.year; rw [e]
    have ed : t.yearDay = u.yearDay := by unfold Time.yearDay; rw [e]
    refine ⟨ey, ?_, ?_, ?_⟩
    · unfold Time.month; rw [ey, ed]
    · unfold Time.day; rw [ey, ed]
    · unfold Time.weekday; rw [e]
  · intro t u ht hu h
    have e : u.abs / 86400 = t.abs / 86400 + 1 := by rw [abs_day ht, abs_day hu, h]; omega
    obtain ⟨h1, h2, h3, h4, h5, h6⟩ := date_exact t
    have hr := year_range t
    have hn := dayCount_next (d := t.day) h1 h2 h4
    rw [← h5, ← e] at hn
    obtain ⟨v1, v2, v3, v4, v5, v6⟩ := nextDate_valid (y := t.year) (d := t.day) h1 h2 h3
    obtain ⟨a, b, c, -⟩ := date_of_count (by omega) (by unfold zeroYear; omega) v1 v2 v3 v4 hn.symm
    refine ⟨by rw [a, b, c], ?_⟩
    unfold Time.weekday
    rw [e]; omega

example : InEra ⟨951782400, 0, utc⟩ ∧ wall ⟨951868800, 0, utc⟩ / 86400 = wall ⟨951782400, 0, utc⟩ / 86400 + 1 ∧
    (⟨951782400, 0, utc⟩ : Time).day = 29 ∧ nextDate 2000 2 29 = (2000, 3, 1) := by
  refine ⟨⟨by decide, by decide⟩, by decide, by decide +kernel, by decide +kernel⟩

/-- Hour, minute and second are what the wall clock shows. -/
theorem C74_wall_clock (t : Time) (h : InEra t) :
    0 ≤ t.hour ∧ t.hour < 24 ∧ 0 ≤ t.minute ∧ t.minute < 60 ∧ 0 ≤ t.second ∧ t.second < 60 ∧
      wall t = wall t / 86400 * 86400 + t.hour * 3600 + t.minute * 60 + t.second := by
  obtain ⟨a, b, c, d, e, f, g⟩ := clock_exact t
  refine ⟨a, b, c, d, e, f, ?_⟩
  rw [abs_day h, abs_wall h] at g
  unfold unixToAbsolute at g
  omega

/-! ## Dates -/

/-- d, j, m, n: the day and the month, with two digits or as few as needed. -/
theorem C74_day_month (env : Env) (t : Time) :
    Gives env t 'd' (Padded 2 · t.day.toNat) ∧ Gives env t 'j' (Plain · t.day) ∧
    Gives env t 'm' (Padded 2 · t.month.toNat) ∧ Gives env t 'n' (Plain · t.month) := by
  obtain ⟨h1, h2, h3, h4, -, -⟩ := date_exact t
  have := monthLength_range t.year t.month
  exact ⟨gives rfl (by decide) (padded (by omega) (by omega) (by omega)).1, gives rfl (by decide) (itoa_plain _),
    gives rfl (by decide) (padded (by omega) (by omega) (by omega)).1, gives rfl (by decide) (itoa_plain _)⟩

/-- Y, y: the year with four digits and its last two digits.  Missing: years before 0 and after 9999
(`C74_year_negation`). -/
theorem C74_year_partial (env : Env) (t : Time) (h0 : 0 ≤ t.year) :
    (t.year ≤ 9999 → Gives env t 'Y' (Padded 4 · t.year.toNat)) ∧ Gives env t 'y' (Padded 2 · (t.year % 100).toNat) := by
  refine ⟨fun h => gives rfl (by decide) (padded (by omega) (by omega) (by omega)).1, ?_⟩
  have e : t.year.tmod 100 = t.year % 100 := Int.tmod_eq_emod_of_nonneg h0
  refine gives (s := pad0 2 (t.year.tmod 100)) rfl (by decide) ?_
  rw [e]
  exact (padded (by omega) (by omega) (by omega)).1

example : (⟨0, 0, utc⟩ : Time).year = 1970 := by decide +kernel

theorem gives_iff {env : Env} {t : Time} {c : Char} {P : Bytes → Prop} {s : Bytes} (hl : letter env t c = some (.ok s))
    (hc : c ≠ '\\') : Gives env t c P ↔ P s := by
  refine ⟨fun h => ?_, gives hl hc⟩
  obtain ⟨text, h1, h2⟩ := h
  obtain ⟨text', h3, h4⟩ := gives (P := (· = s)) hl hc rfl
  rw [h3] at h1
  cases h1
  exact h4 ▸ h2

/-- Exactly the years 0 to 9999 have four digits, and exactly the years from 0 on and the full centuries before it have
two last digits. -/
theorem C74_year_iff (env : Env) (t : Time) :
    (Gives env t 'Y' (Padded 4 · t.year.natAbs) ↔ 0 ≤ t.year ∧ t.year ≤ 9999) ∧
    (Gives env t 'y' (Padded 2 · (t.year.natAbs % 100)) ↔ 0 ≤ t.year ∨ t.year % 100 = 0) := by
  have hneg : ∀ (w m : Nat) (n : Int), n < 0 → ¬ Padded w (pad0 w n) m := by
    intro w m n hn h
    unfold pad0 at h
    rw [if_pos hn] at h
    have := (h.2.2.1 0x2d List.mem_cons_self).1
    revert this; decide
  rw [gives_iff (s := pad0 4 t.year) rfl (by decide), gives_iff (s := pad0 2 (t.year.tmod 100)) rfl (by decide)]
  refine ⟨⟨fun h => ?_, fun h => ?_⟩, ⟨fun h => ?_, fun h => ?_⟩⟩
  · refine ⟨Int.not_lt.mp fun hn => hneg 4 _ _ hn h, ?_⟩
    have := natVal_lt h.2.2.1
    rw [h.1, h.2.2.2] at this
    omega
  · have := (padded (w := 4) (n := t.year) (by omega) (by omega) (by omega)).1
    rwa [show t.year.natAbs = t.year.toNat by omega]
  · refine Classical.byContradiction fun hn => ?_
    have h0 : t.year < 0 := by omega
    refine hneg 2 _ _ ?_ h
    have h1 := Int.neg_tmod (-t.year) 100
    rw [Int.neg_neg] at h1
    have h2 : (-t.year).tmod 100 = (-t.year) % 100 := Int.tmod_eq_emod_of_nonneg (by omega)
    omega
  · have e : t.year.tmod 100 = ((t.year.natAbs % 100 : Nat) : Int) := by
      by_cases h0 : 0 ≤ t.year
      · rw [Int.tmod_eq_emod_of_nonneg h0]; omega
      · have h1 := Int.neg_tmod (-t.year) 100
        rw [Int.neg_neg] at h1
        have h2 : (-t.year).tmod 100 = (-t.year) % 100 := Int.tmod_eq_emod_of_nonneg (by omega)
        omega
    rw [e]
    have := (padded (w := 2) (n := ((t.year.natAbs % 100 : Nat) : Int)) (by omega) (by omega) (by omega)).1
    rwa [Int.toNat_natCast] at this

example : (⟨-62200000000, 0, utc⟩ : Time).year = -2 := by decide +kernel

/-- Before the year 0 the last two digits come out with a sign. -/
theorem C74_year_negation : ¬ ∀ (env : Env) (t : Time), InEra t → Gives env t 'y' (Padded 2 · (t.year % 100).toNat) := by
  intro h
  obtain ⟨s, h1, h2⟩ := h showEnv ⟨-62200000000, 0, utc⟩ ⟨by decide, by decide⟩
  have e : dateFormat showEnv ⟨-62200000000, 0, utc⟩ (encodeRune 'y') = .ok b!"-2" := by decide +kernel
  rw [e] at h1
  injection h1 with h1
  subst h1
  revert h2
  decide +kernel

/-- t, z, L: the length of the month, the day of the year counted from 1, whether the year is a leap year. -/
theorem C74_lengths (env : Env) (t : Time) (h : InEra t) :
    Gives env t 't' (Plain · (monthLength t.year t.month)) ∧
    Gives env t 'z' (Plain · (daysBeforeMonth t.year (t.month - 1).toNat + t.day)) ∧
    Gives env t 'L' fun text => (LeapYear t.year → text = b!"true") ∧ (¬ LeapYear t.year → text = b!"false") := by
  obtain ⟨h1, h2, h3, h4, h5, h6⟩ := date_exact t
  have hy : YearOk t.year := by
    refine ⟨h6, ?_⟩
    obtain ⟨e1, e2, e3, -⟩ := civilYear_exact (d := t.abs / 86400) (by unfold Time.abs; omega)
    have hr := year_range t
    have hd := daysTo_mono (a := 0) (b := t.year - zeroYear) e2
    have h0 : daysTo 0 = 0 := by decide
    rw [h0] at hd
    have e1' : t.abs / 86400 = daysTo (t.year - zeroYear) + (civilYear (t.abs / 86400)).2 := e1
    have hlt : t.abs < 2 ^ 64 := by unfold Time.abs; omega
    have hwall := abs_wall h
    unfold InEra at h
    unfold unixToAbsolute at hwall
    omega
  refine ⟨?_, ?_, ?_⟩
  · refine gives (s := itoa (Verif.Model.Calendar.daysInMonth t.year t.month)) rfl (by decide) ?_
    rw [daysInMonth_eq hy h1 h2]
    exact itoa_plain _
  · refine gives (s := itoa t.yearDay) rfl (by decide) ?_
    have e := before_sum t.year (t.month - 1).toNat (by omega)
    have e1 : (((t.month - 1).toNat : Nat) : Int) = t.month - 1 := by omega
    rw [e1] at e
    rw [yearDay_eq, e]
    exact itoa_plain _
  · refine gives (s := if Verif.Model.Calendar.isLeap t.year then b!"true" else b!"false") rfl (by decide) ?_
    constructor
    · intro hl; rw [if_pos ((isLeap_iff _).mpr hl)]
    · intro hl; rw [if_neg (fun hc => hl ((isLeap_iff _).mp hc))]

example : Gives showEnv ⟨951782400, 0, utc⟩ 'z' (· = b!"60") ∧ daysBeforeMonth 2000 1 + 29 = 60 := by
  refine ⟨⟨_, by decide +kernel, rfl⟩, by decide +kernel⟩

/-- S: the English suffix of the day. -/
theorem C74_suffix (env : Env) (t : Time) : Gives env t 'S' (· = ordinalSuffix t.day.toNat) := by
  obtain ⟨-, -, h3, h4, -, -⟩ := date_exact t
  have := monthLength_range t.year t.month
  refine gives (s := letter_S t) rfl (by decide) ?_
  unfold letter_S
  generalize t.day = d at *
  obtain ⟨k, rfl⟩ : ∃ k : Nat, d = k := ⟨d.toNat, by omega⟩
  have table : ∀ k : Fin 32, (if (k.val : Int) = 11 ∨ (k.val : Int) = 12 ∨ (k.val : Int) = 13 then b!"th"
      else if (k.val : Int).tmod 10 = 1 then b!"st" else if (k.val : Int).tmod 10 = 2 then b!"nd"
      else if (k.val : Int).tmod 10 = 3 then b!"rd" else b!"th") = ordinalSuffix k.val := by decide +kernel
  exact table ⟨k, by omega⟩

/-- w, D, l: the day of the week, 0 for Sunday; its name and the first three letters of it, translated. -/
theorem C74_weekday (env : Env) (t : Time) :
    Gives env t 'w' (Plain · t.weekday) ∧
    Gives env t 'l' (fun text => ∃ name : Bytes, dayNames[t.weekday.toNat]? = some name ∧ text = env.loc.get name) ∧
    Gives env t 'D' (fun text => ∃ name : Bytes, dayNames[t.weekday.toNat]? = some name ∧ text = env.loc.get (name.take 3)) := by
  have hw : 0 ≤ t.weekday ∧ t.weekday < 7 := by unfold Time.weekday; omega
  have table : ∀ k : Fin 7, ∃ name : Bytes, dayNames[k.val]? = some name ∧
      nameOf weekdays ((6 + (k.val : Int)).tmod 7) = name ∧ nameOf weekdaysAbbr ((6 + (k.val : Int)).tmod 7) = name.take 3 := by
    intro k
    refine ⟨dayNames[k.val]'(by simp [dayNames]), List.getElem?_eq_getElem _, ?_⟩
    revert k
    decide +kernel
  obtain ⟨name, n1, n2, n3⟩ := table ⟨t.weekday.toNat, by omega⟩
  have e : ((t.weekday.toNat : Nat) : Int) = t.weekday := by omega
  simp only [e] at n1 n2 n3
  refine ⟨gives rfl (by decide) (itoa_plain _), gives rfl (by decide) ⟨name, n1, by rw [n2]⟩,
    gives rfl (by decide) ⟨name, n1, by rw [n3]⟩⟩

/-- F, E, b, M, N: the name of the month translated, also with the context for standing alone; its first three letters in
lower case, translated, and this with an upper case initial; the abbreviation of the Associated Press. -/
theorem C74_month_names (env : Env) (t : Time) :
    ∃ name ap : Bytes, monthNames[(t.month - 1).toNat]? = some name ∧ apNames[(t.month - 1).toNat]? = some ap ∧
      Gives env t 'F' (· = env.loc.get name) ∧ Gives env t 'E' (· = env.loc.pGet b!"alt. month" name) ∧
      Gives env t 'b' (· = env.loc.get (lowerFirst (name.take 3))) ∧
      Gives env t 'N' (· = env.loc.pGet b!"abbrev. month" ap) ∧
      ∀ (r : Char) (rest : List Char), env.loc.get (lowerFirst (name.take 3)) = utf8 (r :: rest) →
        Gives env t 'M' (· = utf8 (env.toUpper r :: rest)) := by
  obtain ⟨h1, h2, -⟩ := date_exact t
  have table : ∀ k : Fin 12, ∃ name ap : Bytes, monthNames[k.val]? = some name ∧ apNames[k.val]? = some ap ∧
      nameOf months ((k.val : Int) + 1) = name ∧ nameOf months3 ((k.val : Int) + 1) = lowerFirst (name.take 3) ∧
      nameOf monthsAp ((k.val : Int) + 1) = ap := by
    intro k
    refine ⟨monthNames[k.val]'(by simp [monthNames]), apNames[k.val]'(by simp [apNames]), List.getElem?_eq_getElem _,
      List.getElem?_eq_getElem _, ?_⟩
    revert k
    decide +kernel
  obtain ⟨name, ap, n1, n2, n3, n4, n5⟩ := table ⟨(t.month - 1).toNat, by omega⟩
  have e : (((t.month - 1).toNat : Nat) : Int) + 1 = t.month := by omega
  simp only [e] at n1 n2 n3 n4 n5
  refine ⟨name, ap, n1, n2, gives rfl (by decide) (by rw [n3]), gives rfl (by decide) (by rw [n3]),
    gives rfl (by decide) (by rw [n4]), gives rfl (by decide) (by rw [n5]), ?_⟩
  intro r rest hr
  refine gives (s := utf8 (env.toUpper r :: rest)) ?_ (by decide) rfl
  rw [letter_M_eq]
  unfold letter_M
  rw [n4, hr, runes_utf8]

example : Gives showEnv ⟨0, 0, utc⟩ 'F' (· = b!"January") ∧ Gives showEnv ⟨0, 0, utc⟩ 'l' (· = b!"Thursday") :=
  ⟨⟨_, by decide +kernel, rfl⟩, ⟨_, by decide +kernel, rfl⟩⟩

/-- o, W: year and number of the week in the sense of ISO 8601.  The first week of a year is the one with 4 January, and
weeks begin on Monday. -/
theorem C74_iso_week (env : Env) (t : Time) (h : InEra t) :
    ∃ year week : Int, Gives env t 'o' (Plain · year) ∧ Gives env t 'W' (Plain · week) ∧ 1 ≤ week ∧
      (∀ u : Time, InEra u → u.year = year → u.month = 1 → u.day = 4 →
        monday (wall t / 86400) = monday (wall u / 86400) + 7 * (week - 1)) ∧
      (∀ u : Time, InEra u → u.year = year + 1 → u.month = 1 → u.day = 4 →
        monday (wall t / 86400) < monday (wall u / 86400)) := by
  refine ⟨t.isoWeek.1, t.isoWeek.2, gives rfl (by decide) (itoa_plain _), gives rfl (by decide) (itoa_plain _), ?_⟩
  have hd := abs_day h
  have hw := abs_wall h
  have hT : ∃ T : Int, t.isoWeek = ((civilYear T).1, (civilYear T).2 / 7 + 1) ∧
      T = monday (wall t / 86400) + 3 + 106751991073094 ∧ 0 ≤ T := by
    refine ⟨_, rfl, ?_⟩
    have hwd : t.weekday = (wall t / 86400 + 4) % 7 := by unfold Time.weekday; rw [hd]; omega
    rw [hwd, hw]
    unfold InEra at h
    unfold monday unixToAbsolute
    clear hwd hw hd
    obtain ⟨q, r, hq, hr0, hr1⟩ : ∃ q r : Int, wall t = 86400 * q + r ∧ 0 ≤ r ∧ r < 86400 :=
      ⟨wall t / 86400, wall t % 86400, by omega, by omega, by omega⟩
    rw [hq] at h ⊢
    have e1 : (86400 * q + r) / 86400 = q := by omega
    rw [e1]
    obtain ⟨k, hk⟩ : ∃ k : Int, (q + 4) % 7 = k := ⟨_, rfl⟩
    rw [hk]
    split
    · rw [Int.emod_eq_of_lt (by omega) (by omega)]; omega
    · rw [Int.emod_eq_of_lt (by omega) (by omega)]; omega
  obtain ⟨T, e, hT, h0⟩ := hT
  rw [e]
  simp only []
  obtain ⟨c1, c2, c3, c4⟩ := civilYear_exact h0
  have leap : ∀ y : Int, before (timeIsLeap y) (1 - 1) = 0 := by
    intro y; cases timeIsLeap y <;> decide
  have jan4 : ∀ u : Time, InEra u → u.month = 1 → u.day = 4 →
      wall u / 86400 + 106751991073094 = daysTo (u.year - zeroYear) + 3 := by
    intro u hu hm hd
    obtain ⟨-, -, -, -, h5, -⟩ := date_exact u
    rw [abs_day hu, hm, hd] at h5
    unfold dayCount at h5
    rw [leap] at h5
    omega
  refine ⟨by omega, ?_, ?_⟩
  · intro u hu hy hm hd
    have := jan4 u hu hm hd
    rw [hy] at this
    generalize daysTo ((civilYear T).1 - zeroYear) = D at *
    generalize (civilYear T).2 = yd at *
    generalize wall t / 86400 = a at *
    generalize wall u / 86400 = b at *
    unfold monday at *
    omega
  · intro u hu hy hm hd
    have := jan4 u hu hm hd
    have hs := daysTo_step (civilYear T).1
    rw [hy, hs] at this
    have hb : before (timeIsLeap (civilYear T).1) 12 = if timeIsLeap (civilYear T).1 then 366 else 365 := by
      unfold before daysBefore; cases timeIsLeap (civilYear T).1 <;> decide
    have hlt : (civilYear T).2 < before (timeIsLeap (civilYear T).1) 12 := by
      rw [hb]
      rcases c4 with h' | ⟨h', h''⟩
      · split <;> omega
      · rw [if_pos h'']; omega
    generalize before (timeIsLeap (civilYear T).1) 12 = L at *
    generalize daysTo ((civilYear T).1 - zeroYear) = D at *
    generalize (civilYear T).2 = yd at *
    generalize wall t / 86400 = a at *
    generalize wall u / 86400 = b at *
    unfold monday at *
    omega

example : InEra ⟨1609459200, 0, utc⟩ ∧ Gives showEnv ⟨1609459200, 0, utc⟩ 'W' (· = b!"53") ∧
    Gives showEnv ⟨1609459200, 0, utc⟩ 'o' (· = b!"2020") :=
  ⟨⟨by decide, by decide⟩, ⟨_, by decide +kernel, rfl⟩, ⟨_, by decide +kernel, rfl⟩⟩

/-! ## Times of day -/

theorem hour12_dial (t : Time) : Dial t.hour (if t.hour % 12 = 0 then 12 else t.hour % 12).toNat ∧
    0 ≤ (if t.hour % 12 = 0 then 12 else t.hour % 12) ∧ (if t.hour % 12 = 0 then 12 else t.hour % 12) ≤ 12 := by
  obtain ⟨a, b, -⟩ := clock_exact t
  unfold Dial
  split <;> omega

theorem appendInt_itoa {n : Int} (h : 0 ≤ n) : appendInt 0 n = itoa n := by
  unfold appendInt itoa; rfl

/-- H, G, h, g, i, s, u: hour, hour on the dial, minute, second, microsecond. -/
theorem C74_clock (env : Env) (t : Time) (hn : ValidNanos t) :
    Gives env t 'H' (Padded 2 · t.hour.toNat) ∧ Gives env t 'G' (Plain · t.hour) ∧
    Gives env t 'h' (fun text => ∃ k : Nat, Dial t.hour k ∧ Padded 2 text k) ∧
    Gives env t 'g' (fun text => ∃ k : Nat, Dial t.hour k ∧ Plain text k) ∧
    Gives env t 'i' (Padded 2 · t.minute.toNat) ∧ Gives env t 's' (Padded 2 · t.second.toNat) ∧
    Gives env t 'u' (Padded 6 · (t.nsec / 1000).toNat) := by
  obtain ⟨a, b, c, d, e, f, -⟩ := clock_exact t
  obtain ⟨d1, d2, d3⟩ := hour12_dial t
  refine ⟨gives rfl (by decide) (padded (by omega) (by omega) (by omega)).1, gives rfl (by decide) (itoa_plain _), ?_, ?_,
    gives rfl (by decide) (padded (by omega) (by omega) (by omega)).1,
    gives rfl (by decide) (padded (by omega) (by omega) (by omega)).1, ?_⟩
  · refine gives (s := formatHour12 2 t) rfl (by decide) ⟨_, d1, ?_⟩
    exact (padded (w := 2) (by omega) d2 (by omega)).2
  · refine gives (s := formatHour12 0 t) rfl (by decide) ⟨_, d1, ?_⟩
    unfold formatHour12
    simp only []
    rw [appendInt_itoa d2, Int.toNat_of_nonneg d2]
    exact itoa_plain _
  · refine gives (s := appendInt 6 (t.nsec.tdiv 1000)) rfl (by decide) ?_
    obtain ⟨n0, n1⟩ := hn
    rw [Int.tdiv_eq_ediv_of_nonneg n0]
    exact (padded (w := 6) (by omega) (by omega) (by omega)).2

/-- a, A, f, P: before and after noon; the hour on the dial with the minutes if there are any; both together, with words
for noon and midnight. -/
theorem C74_dial (env : Env) (t : Time) :
    Gives env t 'a' (fun text => (t.hour < 12 → text = env.loc.get b!"a.m.") ∧ (12 ≤ t.hour → text = env.loc.get b!"p.m.")) ∧
    Gives env t 'A' (fun text => (t.hour < 12 → text = env.loc.get b!"AM") ∧ (12 ≤ t.hour → text = env.loc.get b!"PM")) ∧
    (∀ g i f : Bytes, dateFormat env t b!"g" = .ok g → dateFormat env t b!"i" = .ok i → dateFormat env t b!"f" = .ok f →
      f = if t.minute = 0 then g else g ++ b!":" ++ i) ∧
    (∀ f a p : Bytes, dateFormat env t b!"f" = .ok f → dateFormat env t b!"a" = .ok a → dateFormat env t b!"P" = .ok p →
      p = if t.minute = 0 ∧ t.hour = 0 then env.loc.get b!"midnight"
          else if t.minute = 0 ∧ t.hour = 12 then env.loc.get b!"noon" else f ++ b!" " ++ a) := by
  have one : ∀ (c : Char) (s x : Bytes), letter env t c = some (.ok s) → c ≠ '\\' → dateFormat env t (encodeRune c) = .ok x → x = s := by
    intro c s x hl hc hx
    obtain ⟨y, hy, rfl⟩ := gives (P := (· = s)) hl hc rfl
    rw [hy] at hx; injection hx with hx; exact hx.symm
  obtain ⟨-, -, c, d, -⟩ := clock_exact t
  refine ⟨gives (s := letter_a env t) rfl (by decide) ?_, gives (s := letter_A env t) rfl (by decide) ?_, ?_, ?_⟩
  · unfold letter_a
    constructor
    · intro h; rw [if_neg (by omega)]
    · intro h; rw [if_pos (by omega)]
  · unfold letter_A
    constructor
    · intro h; rw [if_neg (by omega)]
    · intro h; rw [if_pos (by omega)]
  · intro g i f hg hi hf
    have eg := one 'g' _ g rfl (by decide) hg
    have ei := one 'i' _ i rfl (by decide) hi
    have ef := one 'f' _ f rfl (by decide) hf
    subst eg ei ef
    unfold letter_f
    have e : appendInt 2 t.minute = pad0 2 t.minute := by
      unfold appendInt pad0; rw [if_neg (by omega), if_neg (by omega)]
    rw [e]
    by_cases hm : t.minute = 0
    · rw [if_pos hm, if_neg (by omega)]
    · rw [if_neg hm, if_pos (by omega)]
  · intro f a p hf ha hp
    have ef := one 'f' _ f rfl (by decide) hf
    have ea := one 'a' _ a rfl (by decide) ha
    have ep := one 'P' _ p rfl (by decide) hp
    subst ef ea ep
    rfl

example : dateFormat showEnv ⟨46800, 0, utc⟩ b!"P" = .ok b!"1 p.m." ∧ dateFormat showEnv ⟨43200, 0, utc⟩ b!"P" = .ok b!"noon" ∧
    dateFormat showEnv ⟨43260, 0, utc⟩ b!"P" = .ok b!"12:01 p.m." := by
  refine ⟨by decide +kernel, by decide +kernel, by decide +kernel⟩

/-- U, Z, O: the Unix time, the offset of the zone in seconds, and in hours and minutes. -/
theorem C74_zone (env : Env) (t : Time) (h : -360000 < t.loc.offset t.unix) (h' : t.loc.offset t.unix < 360000) :
    Gives env t 'U' (Plain · t.unix) ∧ Gives env t 'Z' (Plain · (t.loc.offset t.unix)) ∧
    Gives env t 'O' (fun text => ∃ (hh mm : Bytes) (h m : Nat), Padded 2 hh h ∧ Padded 2 mm m ∧ m < 60 ∧
      ((t.loc.offset t.unix ≤ -60 ∧ text = b!"-" ++ hh ++ mm ∧ (t.loc.offset t.unix).natAbs / 60 = h * 60 + m) ∨
       (-60 < t.loc.offset t.unix ∧ text = b!"+" ++ hh ++ mm ∧ (t.loc.offset t.unix).natAbs / 60 = h * 60 + m))) := by
  refine ⟨gives rfl (by decide) (itoa_plain _), gives rfl (by decide) (itoa_plain _), ?_⟩
  refine gives (s := formatZone t) rfl (by decide) ?_
  unfold formatZone
  simp only []
  generalize t.loc.offset t.unix = o at *
  have hz : (o.tdiv 60).natAbs = o.natAbs / 60 := by rw [Int.natAbs_tdiv]; rfl
  have hs : o.tdiv 60 < 0 ↔ o ≤ -60 := by
    rcases Int.lt_or_le o 0 with hn | hn
    · obtain ⟨p, rfl⟩ : ∃ p : Int, o = -p := ⟨-o, by omega⟩
      rw [Int.neg_tdiv, Int.tdiv_eq_ediv_of_nonneg (by omega)]
      omega
    · rw [Int.tdiv_eq_ediv_of_nonneg hn]
      omega
  rw [hz]
  refine ⟨_, _, _, _, (padded (w := 2) (n := ((o.natAbs / 60 : Nat) : Int) / 60) (by omega) (by omega) (by omega)).2,
    (padded (w := 2) (n := ((o.natAbs / 60 : Nat) : Int) % 60) (by omega) (by omega) (by omega)).2, by omega, ?_⟩
  by_cases hc : o ≤ -60
  · left
    rw [if_pos (hs.mpr hc)]
    exact ⟨hc, rfl, by omega⟩
  · right
    rw [if_neg (fun hx => hc (hs.mp hx))]
    exact ⟨by omega, rfl, by omega⟩

example : Gives showEnv ⟨0, 0, ⟨fun _ => b!"IST", fun _ => 19800⟩⟩ 'O' (· = b!"+0530") := ⟨_, by decide +kernel, rfl⟩

/-- I: never summer time in a zone whose offset does not change. -/
theorem C74_no_summer (env : Env) (t : Time) (h : ∀ a b : Int, t.loc.offset a = t.loc.offset b) :
    Gives env t 'I' (· = b!"0") := by
  refine gives (s := letter_I t) rfl (by decide) ?_
  unfold letter_I
  simp only []
  rw [h (timeDate t.year 1 1 0 0 0 t.loc).unix t.unix, h (timeDate t.year 7 1 0 0 0 t.loc).unix t.unix]
  simp

example : ∀ a b : Int, utc.offset a = utc.offset b := fun _ _ => rfl

/-- I: in a zone with two offsets of which one is in force on 1 January and the other on 1 July, the text is 1 while the greater
one is in force, on either hemisphere. -/
theorem C74_summer (env : Env) (t : Time) {std dst : Int} (hlt : std < dst)
    (h : ∀ a : Int, t.loc.offset a = std ∨ t.loc.offset a = dst)
    (hy : t.loc.offset (timeDate t.year 1 1 0 0 0 t.loc).unix ≠ t.loc.offset (timeDate t.year 7 1 0 0 0 t.loc).unix) :
    Gives env t 'I' (· = if t.loc.offset t.unix = dst then b!"1" else b!"0") := by
  refine gives (s := letter_I t) rfl (by decide) ?_
  unfold letter_I
  simp only []
  have h0 := h t.unix
  have h1 := h (timeDate t.year 1 1 0 0 0 t.loc).unix
  have h2 := h (timeDate t.year 7 1 0 0 0 t.loc).unix
  generalize t.loc.offset t.unix = o at *
  generalize t.loc.offset (timeDate t.year 1 1 0 0 0 t.loc).unix = a at *
  generalize t.loc.offset (timeDate t.year 7 1 0 0 0 t.loc).unix = b at *
  rcases h0 with rfl | rfl <;> rcases h1 with rfl | rfl <;> rcases h2 with rfl | rfl
  all_goals first
    | exact absurd rfl hy
    | (simp only [gt_iff_lt, hlt, Int.lt_irrefl, if_true, if_false, Int.not_lt.mpr (Int.le_of_lt hlt), ne_eq,
        not_true_eq_false, not_false_eq_true, (Int.ne_of_lt hlt), (Int.ne_of_gt hlt)])

/-- A zone of the southern hemisphere. -/
example : let zone : Location := ⟨fun _ => b!"X", fun u => if 8000000 < u ∧ u < 24000000 then 0 else 3600⟩
    (∀ a : Int, zone.offset a = 0 ∨ zone.offset a = 3600) ∧
    zone.offset (timeDate 1970 1 1 0 0 0 zone).unix ≠ zone.offset (timeDate 1970 7 1 0 0 0 zone).unix ∧
    Gives showEnv ⟨100, 0, zone⟩ 'I' (· = b!"1") := by
  refine ⟨fun a => ?_, by decide +kernel, ⟨_, by decide +kernel, rfl⟩⟩
  simp only []
  split
  · exact .inl rfl
  · exact .inr rfl

/-- T, e: the name of the zone of the machine and of the zone of the time. -/
theorem C74_zone_names (env : Env) (t : Time) :
    Gives env t 'T' (· = env.localName) ∧ Gives env t 'e' (· = t.loc.name t.unix) :=
  ⟨gives rfl (by decide) rfl, gives rfl (by decide) rfl⟩

/-- r: day of the week, date, time and zone as in mails, with English names whatever the language. -/
theorem C74_mail (env : Env) (t : Time) (h0 : 0 ≤ t.year) (h1 : t.year ≤ 9999) :
    Gives env t 'r' fun text => ∃ (day month dd yyyy hh mm ss zone : Bytes),
      dayNames[t.weekday.toNat]? = some day ∧ monthNames[(t.month - 1).toNat]? = some month ∧
      Padded 2 dd t.day.toNat ∧ Padded 4 yyyy t.year.toNat ∧ Padded 2 hh t.hour.toNat ∧ Padded 2 mm t.minute.toNat ∧
      Padded 2 ss t.second.toNat ∧ dateFormat env t b!"O" = .ok zone ∧
      text = day.take 3 ++ b!", " ++ dd ++ b!" " ++ month.take 3 ++ b!" " ++ yyyy ++ b!" " ++ hh ++ b!":" ++ mm ++ b!":" ++ ss ++
        b!" " ++ zone := by
  have hw : 0 ≤ t.weekday ∧ t.weekday < 7 := by unfold Time.weekday; omega
  obtain ⟨d1, d2, d3, d4, -, -⟩ := date_exact t
  have hm := monthLength_range t.year t.month
  obtain ⟨c1, c2, c3, c4, c5, c6, -⟩ := clock_exact t
  have days : ∀ k : Fin 7, dayNames[k.val]? = some (dayNames[k.val]'(by simp [dayNames])) ∧
      shortDayNames.getD k.val [] = (dayNames[k.val]'(by simp [dayNames])).take 3 := by decide +kernel
  have mons : ∀ k : Fin 12, monthNames[k.val]? = some (monthNames[k.val]'(by simp [monthNames])) ∧
      shortMonthNames.getD k.val [] = (monthNames[k.val]'(by simp [monthNames])).take 3 := by decide +kernel
  obtain ⟨a1, a2⟩ := days ⟨t.weekday.toNat, by omega⟩
  obtain ⟨b1, b2⟩ := mons ⟨(t.month - 1).toNat, by omega⟩
  obtain ⟨z, hz, rfl⟩ : Gives env t 'O' (· = formatZone t) := gives rfl (by decide) rfl
  refine gives (s := formatRFC1123Z t) rfl (by decide) ⟨_, _, appendInt 2 t.day, appendInt 4 t.year, appendInt 2 t.hour,
    appendInt 2 t.minute, appendInt 2 t.second, formatZone t, a1, b1, (padded (by omega) (by omega) (by omega)).2,
    (padded (by omega) (by omega) (by omega)).2, (padded (by omega) (by omega) (by omega)).2,
    (padded (by omega) (by omega) (by omega)).2, (padded (by omega) (by omega) (by omega)).2, hz, ?_⟩
  unfold formatRFC1123Z
  rw [a2, b2]

example : dateFormat showEnv ⟨0, 0, utc⟩ b!"r" = .ok b!"Thu, 01 Jan 1970 00:00:00 +0000" ∧ (⟨0, 0, utc⟩ : Time).year = 1970 := by
  refine ⟨by decide +kernel, by decide +kernel⟩

end Verif.Props.DateLetters
