import Verif.Proofs.Humanize.DateFormat
import Verif.Proofs.Go.Digits
import Verif.Props.Localizer
import Verif.Props.Numbers
import Verif.Model.Catalog.Json
import Verif.Spec.Since
import Mathlib.Algebra.Order.Field.Basic
import Mathlib.Tactic.Linarith
import Mathlib.Tactic.FieldSimp
/-!
# Date formats: C56, C57
-/
namespace Verif.Props.DateFormat
open Verif.Go Verif.Model.Humanize Verif.Spec.DateFormat Verif.Spec.Decimal Verif.Proofs.Go Verif.Proofs.Humanize
open Verif.Spec.Humanize Verif.Props.Numbers

/-! ## C56 -/

/-- C56, the copying: every format falls into literals, escaped characters, format letters and perhaps a last
backslash.  The text consists of the literals and the escaped characters as they are, and in place of each letter a text
that depends on the letter only. -/
theorem C56_copied (env : Env) (t : Time) :
    ∃ value : Char → Bytes, ∀ f : Bytes, ∃ (pieces : List Piece) (tail : List Char), Reads (runes f) pieces tail ∧
      ∀ text : Bytes, dateFormat env t f = .ok text →
        text = pieces.flatMap (Piece.text encodeRune value) ++ utf8 tail := by
  refine ⟨value env t, fun f => ?_⟩
  obtain ⟨ps, tl, h1, h2, h3⟩ := exists_reads _ (runes f) (Nat.le_refl _)
  refine ⟨ps, tl, ⟨h1, h2, h3⟩, fun text ht => ?_⟩
  unfold dateFormat at ht
  rw [h3] at ht
  obtain ⟨e1, e2⟩ := formatRunes_reads env t tl h2 ps h1
  by_cases hM : Piece.letter 'M' ∈ ps ∧ runes (env.loc.get (nameOf months3 t.month)) = []
  · rw [e1 hM] at ht; exact absurd ht (by simp)
  · rw [e2 hM] at ht; injection ht with ht; exact ht.symm

/-- The parts of a format are determined by it. -/
theorem C56_unambiguous {cs : List Char} : ∀ {p q : List Piece} {s r : List Char}, Reads cs p s → Reads cs q r → p = q ∧ s = r := by
  intro p
  induction p generalizing cs with
  | nil =>
    rintro q s r ⟨-, hs, h1⟩ ⟨hq, hr, h2⟩
    cases q with
    | nil =>
      refine ⟨rfl, ?_⟩
      simp at h1 h2; rw [← h1, ← h2]
    | cons a q =>
      exfalso
      simp only [List.flatMap_nil, List.nil_append] at h1
      subst h1
      have ha := hq a List.mem_cons_self
      rcases hs with rfl | rfl
      · cases a <;> simp [Piece.source] at h2
      · cases a with
        | lit c => simp [Piece.source] at h2; exact ha.2 h2.1.symm
        | esc c => simp [Piece.source] at h2
        | letter c =>
          simp [Piece.source] at h2
          exact backslash_not_letter (by rw [h2.1]; exact ha)
  | cons a p ih =>
    rintro q s r ⟨hp, hs, h1⟩ ⟨hq, hr, h2⟩
    have ha := hp a List.mem_cons_self
    cases q with
    | nil =>
      exfalso
      simp only [List.flatMap_nil, List.nil_append] at h2
      subst h2
      rcases hr with rfl | rfl
      · cases a <;> simp [Piece.source] at h1
      · cases a with
        | lit c => simp [Piece.source] at h1; exact ha.2 h1.1.symm
        | esc c => simp [Piece.source] at h1
        | letter c =>
          simp [Piece.source] at h1
          exact backslash_not_letter (by rw [h1.1]; exact ha)
    | cons b q =>
      have hb := hq b List.mem_cons_self
      have hp' : ∀ x ∈ p, x.Ok := fun x hx => hp x (List.mem_cons_of_mem _ hx)
      have hq' : ∀ x ∈ q, x.Ok := fun x hx => hq x (List.mem_cons_of_mem _ hx)
      rw [h1] at h2
      clear h1
      have hbs := backslash_not_letter
      cases a <;> cases b <;> simp only [Piece.source, List.flatMap_cons, List.cons_append, List.nil_append, List.append_assoc,
        List.cons.injEq] at h2 <;> simp only [Piece.Ok] at ha hb
      · obtain ⟨rfl, h2⟩ := h2
        obtain ⟨rfl, rfl⟩ := ih ⟨hp', hs, rfl⟩ ⟨hq', hr, h2⟩
        exact ⟨rfl, rfl⟩
      · exact absurd h2.1 ha.2
      · exact absurd (h2.1 ▸ hb) ha.1
      · exact absurd h2.1.symm hb.2
      · obtain ⟨-, rfl, h2⟩ := h2
        obtain ⟨rfl, rfl⟩ := ih ⟨hp', hs, rfl⟩ ⟨hq', hr, h2⟩
        exact ⟨rfl, rfl⟩
      · exact absurd (h2.1 ▸ hb) hbs
      · exact absurd (h2.1 ▸ ha) hb.1
      · exact absurd (h2.1 ▸ ha) hbs
      · obtain ⟨rfl, h2⟩ := h2
        obtain ⟨rfl, rfl⟩ := ih ⟨hp', hs, rfl⟩ ⟨hq', hr, h2⟩
        exact ⟨rfl, rfl⟩

example : Reads (runes b!"H\\H:i\\") [.letter 'H', .esc 'H', .lit ':', .letter 'i'] ['\\'] ∧
    dateFormat showEnv ⟨3661, 0, utc⟩ b!"H\\H:i\\" = .ok b!"01H:01\\" := by
  refine ⟨by decide +kernel, by decide +kernel⟩

/-- A text without format letters and backslashes is its own date. -/
theorem C56_plain (env : Env) (t : Time) (cs : List Char) (h : ∀ c ∈ cs, c ∉ formatLetters ∧ c ≠ '\\') :
    dateFormat env t (utf8 cs) = .ok (utf8 cs) := by
  unfold dateFormat
  rw [runes_utf8]
  obtain ⟨-, e2⟩ := formatRunes_reads env t [] (Or.inl rfl) (cs.map .lit) (by
    intro p hp
    obtain ⟨c, hc, rfl⟩ := List.mem_map.mp hp
    exact h c hc)
  have e : (cs.map Piece.lit).flatMap Piece.source ++ [] = cs := by
    simp [List.flatMap_map, Piece.source]
  rw [e] at e2
  rw [e2 (by simp)]
  simp [List.flatMap_map, Piece.text, utf8]

example : dateFormat showEnv ⟨0, 0, utc⟩ (utf8 ['ö', ' ', '9']) = .ok (utf8 ['ö', ' ', '9']) := by decide +kernel

/-- A text in which every character is escaped is copied, whatever it is. -/
theorem C56_escaped (env : Env) (t : Time) (cs : List Char) :
    dateFormat env t (utf8 (cs.flatMap fun c => ['\\', c])) = .ok (utf8 cs) := by
  unfold dateFormat
  rw [runes_utf8]
  obtain ⟨-, e2⟩ := formatRunes_reads env t [] (Or.inl rfl) (cs.map .esc) (by
    intro p hp
    obtain ⟨c, hc, rfl⟩ := List.mem_map.mp hp
    trivial)
  have e : (cs.map Piece.esc).flatMap Piece.source ++ [] = cs.flatMap fun c => ['\\', c] := by
    simp [List.flatMap_map, Piece.source]
  rw [e] at e2
  rw [e2 (by simp)]
  simp [List.flatMap_map, Piece.text, utf8]

/-- Bytes that are no UTF-8 are not copied: they become U+FFFD. -/
theorem C56_invalid_negation : ¬ ∀ (env : Env) (t : Time) (f : Bytes),
    (∀ b ∈ f, 0x80 ≤ b.toNat) → dateFormat env t f = .ok f := by
  intro h
  have := h showEnv ⟨0, 0, utc⟩ [0xff] (by decide)
  exact absurd this (by decide +kernel)

/-- C56, the panics: a format panics iff it has the letter M and the localizer gives the empty text for the
abbreviation of the month. -/
theorem C56_panic_iff (env : Env) (t : Time) (f : Bytes) (pieces : List Piece) (tail : List Char)
    (h : Reads (runes f) pieces tail) :
    (∃ x : Fault, dateFormat env t f = .error x) ↔
      .letter 'M' ∈ pieces ∧ env.loc.get (nameOf months3 t.month) = [] := by
  obtain ⟨h1, h2, h3⟩ := h
  unfold dateFormat
  rw [h3, ← runes_eq_nil]
  obtain ⟨e1, e2⟩ := formatRunes_reads env t tail h2 pieces h1
  constructor
  · rintro ⟨x, hx⟩
    by_contra hM
    rw [e2 hM] at hx
    exact absurd hx (by simp)
  · intro hM
    exact ⟨_, e1 hM⟩

/-- The keys under which the abbreviations are looked up are not empty. -/
theorem months3_ne (t : Time) : nameOf months3 t.month ≠ [] := by
  obtain ⟨h1, h2, -⟩ := date_exact t
  generalize t.month = m at *
  obtain ⟨k, rfl⟩ : ∃ k : Nat, m = k := ⟨m.toNat, by omega⟩
  have : ∀ k : Fin 13, 1 ≤ k.val → nameOf months3 (k.val : Int) ≠ [] := by decide +kernel
  exact this ⟨k, by omega⟩ (by simp only; omega)

/-- C56 without panics, if the localizer gives a text for every text.  Missing: localizers that give the empty text
(`C56_negation`). -/
theorem C56_no_panic_partial (env : Env) (hl : ∀ m : Bytes, m ≠ [] → env.loc.get m ≠ []) (t : Time) (f : Bytes) :
    ∃ text : Bytes, dateFormat env t f = .ok text := by
  obtain ⟨ps, tl, h⟩ := exists_reads _ (runes f) (Nat.le_refl _)
  cases hd : dateFormat env t f with
  | ok s => exact ⟨s, rfl⟩
  | error x => exact absurd ((C56_panic_iff env t f ps tl h).mp ⟨x, hd⟩).2 (hl _ (months3_ne t))

example : (∀ m : Bytes, m ≠ [] → showEnv.loc.get m ≠ []) ∧ dateFormat showEnv ⟨0, 0, utc⟩ b!"j M" = .ok b!"1 jan" :=
  ⟨fun _ h => h, by decide +kernel⟩

/-- The full claim is false: with a localizer that gives empty texts the letter M panics. -/
theorem C56_negation : ¬ ∀ (env : Env) (t : Time) (f : Bytes), ∃ text : Bytes, dateFormat env t f = .ok text := by
  intro h
  obtain ⟨s, hs⟩ := h { showEnv with loc := { showLoc with get := fun _ => [] } } ⟨0, 0, utc⟩ b!"M"
  have : dateFormat { showEnv with loc := { showLoc with get := fun _ => [] } } ⟨0, 0, utc⟩ b!"M" = .error .indexOutOfRange := by
    decide +kernel
  rw [this] at hs
  exact absurd hs (by simp)

/-- Which localizers meet the hypothesis: those whose print function prints a text without arguments to a text, and
whose catalogs never give the empty text. -/
theorem C56_localizer {L N V : Type} [DecidableEq L] {w : Verif.Model.Spreak.World L N V}
    {l : Verif.Model.Spreak.Localizer L N} (hs : l.bundle.source.isSource = true)
    (hw : ∀ (lang : L) (m : Bytes), m ≠ [] → w.print lang m [] ≠ [])
    (hc : ∀ loc : Verif.Model.Spreak.Locale L N, loc = l.locale ∨ loc = l.bundle.fallback →
      ∀ (d : Bytes) (cat : Verif.Model.Spreak.Catalog L N), loc.catalogs.get? d = some (some cat) →
        ∀ ctx id : Bytes, cat.lookup ctx id ≠ .ok [])
    {domain ctx id s : Bytes} (hid : id ≠ []) {tr : List (Verif.Model.Spreak.Err L)} {e : Option (Verif.Model.Spreak.Err L)}
    (h : l.lookupSingular w domain ctx id [] = .ok (tr, s, e)) : s ≠ [] := by
  have key : ∀ loc : Verif.Model.Spreak.Locale L N, loc = l.locale ∨ loc = l.bundle.fallback →
      ∀ (cb : Bool) (tr : List (Verif.Model.Spreak.Err L)) (t : Bytes),
        loc.lookupSingular w cb domain ctx id [] = .ok (tr, .ok t) → t ≠ [] := by
    intro loc hloc cb tr t ht
    unfold Verif.Model.Spreak.Locale.lookupSingular at ht
    split at ht
    · injection ht with ht; injection ht with _ ht; injection ht with ht; rw [← ht]; exact hw _ _ hid
    · split at ht
      · injection ht with ht; injection ht with _ ht; exact absurd ht (by simp)
      · exact absurd ht (by simp)
      · rename_i cat hcat
        split at ht
        · injection ht with ht; injection ht with _ ht; exact absurd ht (by simp)
        · rename_i u hu
          injection ht with ht; injection ht with _ ht; injection ht with ht; rw [← ht]
          exact hw _ _ fun h0 => hc loc hloc domain cat hcat ctx id (h0 ▸ hu)
  have src : ∀ cb : Bool, l.bundle.source.lookupSingular w cb domain ctx id [] =
      .ok ([], .ok (w.print l.bundle.source.language id [])) := by
    intro cb
    unfold Verif.Model.Spreak.Locale.lookupSingular
    rw [if_pos hs]
  unfold Verif.Model.Spreak.Localizer.lookupSingular at h
  rw [src] at h
  split at h
  · exact absurd h (by simp)
  · rename_i h1
    injection h with h; injection h with _ h; injection h with h _; rw [← h]
    exact key _ (Or.inl rfl) _ _ _ h1
  · split at h
    · split at h
      · exact absurd h (by simp)
      · rename_i h1
        injection h with h; injection h with _ h; injection h with h _; rw [← h]
        exact key _ (Or.inr rfl) _ _ _ h1
      · injection h with h; injection h with _ h; injection h with h _; rw [← h]
        exact hw _ _ hid
    · injection h with h; injection h with _ h; injection h with h _; rw [← h]
      exact hw _ _ hid

/-- The catalogs of the package meet it: a lookup without error gives a text. -/
theorem C56_catalogs :
    (∀ (c : Verif.Model.Catalog.GettextCatalog) (ctx id : Bytes), (c.lookup ctx id).2 = none → (c.lookup ctx id).1 ≠ []) ∧
    (∀ (c : Verif.Model.Catalog.JsonCatalog) (ctx id : Bytes), (c.lookup ctx id).2 = none → (c.lookup ctx id).1 ≠ []) := by
  constructor
  · intro c ctx id
    unfold Verif.Model.Catalog.GettextCatalog.lookup Verif.Model.Catalog.GettextCatalog.getMessage
    intro h h'
    cases h1 : c.lookupMap.get? ctx with
    | none => simp [h1] at h
    | some inner =>
      cases h2 : inner.get? id with
      | none => simp [h1, h2] at h
      | some msg =>
        cases h3 : msg.get? 0 with
        | none => simp [h1, h2, h3] at h
        | some tr =>
          by_cases h4 : tr = []
          · simp [h1, h2, h3, h4] at h
          · simp [h1, h2, h3, h4] at h'
  · intro c ctx id
    unfold Verif.Model.Catalog.JsonCatalog.lookup Verif.Model.Catalog.JsonCatalog.getTranslation
    intro h h'
    simp only [] at h h'
    generalize (if ctx ≠ [] then id ++ b!"_" ++ ctx else id) = key at *
    cases h1 : c.lookupMap.get? ctx with
    | none => simp [h1] at h
    | some inner =>
      cases h2 : inner.get? key with
      | none => simp [h1, h2] at h
      | some msg =>
        cases h3 : msg.tr.get? Verif.Model.Catalog.other with
        | none => simp [h1, h2, h3] at h
        | some tr =>
          by_cases h4 : tr = []
          · simp [h1, h2, h3, h4] at h
          · simp [h1, h2, h3, h4] at h'

/-! ## C57 -/

theorem two {s : Bytes} {n : Nat} (h : Padded 2 s n) : ∃ a b : UInt8, s = [a, b] := by
  match s, h.1 with
  | [a, b], _ => exact ⟨a, b, rfl⟩

theorem four {s : Bytes} {n : Nat} (h : Padded 4 s n) : ∃ a b c d : UInt8, s = [a, b, c, d] := by
  match s, h.1 with
  | [a, b, c, d], _ => exact ⟨a, b, c, d, rfl⟩

theorem letter_c (env : Env) (t : Time) : dateFormat env t b!"c" = .ok (formatIso t ++ itoa t.nsec) := by
  have : dateFormat env t b!"c" = .ok (formatIso t ++ itoa t.nsec ++ []) := rfl
  rw [this, List.append_nil]

/-- What the letter c gives, up to the fraction: 20 characters for the date and the time of day, then the count of
nanoseconds without leading zeros. -/
theorem iso_parts (t : Time) (h0 : 0 ≤ t.year) (h1 : t.year ≤ 9999) (r : Bytes) (hr : Digits r (natVal r)) :
    IsoDenotes (formatIso t ++ r) t.year t.month t.day t.hour t.minute t.second ((natVal r : ℚ) / 10 ^ r.length) ∧
      (formatIso t ++ r).drop 20 = r := by
  obtain ⟨m1, m2, d1, d2, -, -⟩ := date_exact t
  obtain ⟨k1, k2, k3, k4, k5, k6, -⟩ := clock_exact t
  have d3 : t.day ≤ 31 := by
    refine Int.le_trans d2 ?_
    unfold Verif.Spec.Calendar.monthLength
    split
    · split <;> omega
    · split <;> omega
  have py := (padded (w := 4) (n := t.year) (by omega) h0 (by omega)).2
  have pm := (padded (w := 2) (n := t.month) (by omega) (by omega) (by omega)).2
  have pd := (padded (w := 2) (n := t.day) (by omega) (by omega) (by omega)).2
  have ph := (padded (w := 2) (n := t.hour) (by omega) (by omega) (by omega)).2
  have pi := (padded (w := 2) (n := t.minute) (by omega) (by omega) (by omega)).2
  have ps := (padded (w := 2) (n := t.second) (by omega) (by omega) (by omega)).2
  obtain ⟨y1, y2, y3, y4, ey⟩ := four py
  obtain ⟨mo1, mo2, em⟩ := two pm
  obtain ⟨da1, da2, ed⟩ := two pd
  obtain ⟨h1', h2', eh⟩ := two ph
  obtain ⟨i1, i2, ei⟩ := two pi
  obtain ⟨s1, s2, es⟩ := two ps
  rw [ey] at py
  rw [em] at pm
  rw [ed] at pd
  rw [eh] at ph
  rw [ei] at pi
  rw [es] at ps
  have e : formatIso t ++ r = y1 :: y2 :: y3 :: y4 :: 0x2d :: mo1 :: mo2 :: 0x2d :: da1 :: da2 :: 0x54 :: h1' :: h2' ::
      0x3a :: i1 :: i2 :: 0x3a :: s1 :: s2 :: 0x2e :: r := by
    unfold formatIso
    rw [ey, em, ed, eh, ei, es]
    rfl
  rw [e]
  exact ⟨⟨py, rfl, pm, rfl, pd, rfl, ph, rfl, pi, rfl, ps, rfl, hr, rfl⟩, rfl⟩

/-- The digits of the fraction: the count of nanoseconds. -/
theorem nsec_digits {t : Time} (h : ValidNanos t) : Digits (itoa t.nsec) t.nsec.toNat ∧ itoa t.nsec = natDigits 0 t.nsec.toNat := by
  obtain ⟨h0, -⟩ := h
  have e : t.nsec.natAbs = t.nsec.toNat := by omega
  unfold itoa
  rw [if_neg (by omega), e]
  exact ⟨natDigits_spec _ _, rfl⟩

theorem fraction_eq {n k : Nat} (hk : n < 10 ^ k) (h9 : n < 10 ^ 9) (hlen : ∀ j : Nat, 0 < j → (n < 10 ^ j ↔ k ≤ j)) :
    (n : ℚ) / 10 ^ k = (n : ℚ) / 10 ^ 9 ↔ n = 0 ∨ 10 ^ 8 ≤ n := by
  have hk9 : k ≤ 9 := (hlen 9 (by omega)).mp h9
  constructor
  · intro h
    by_contra hc
    have h8 : n < 10 ^ 8 ∧ n ≠ 0 := by omega
    have hk8 : k ≤ 8 := (hlen 8 (by omega)).mp h8.1
    have hn : (n : ℚ) ≠ 0 := by exact_mod_cast h8.2
    have hpow : (10 : ℚ) ^ k = 10 ^ 9 := by
      rw [div_eq_div_iff (by positivity) (by positivity)] at h
      exact (mul_left_cancel₀ hn h).symm
    have hp : (10 : Nat) ^ k = 10 ^ 9 := by exact_mod_cast hpow
    have := Nat.pow_right_injective (show 2 ≤ 10 by omega) hp
    omega
  · rintro (rfl | h)
    · simp
    · have : k = 9 := by
        by_contra hne
        have h8 := (hlen 8 (by omega)).mpr (by omega)
        omega
      rw [this]

/-- C57: the letter c denotes the formatted time iff its nanoseconds are 0 or have nine digits.  The full claim
is that it always does. -/
theorem C57_denotes_iff (env : Env) (t : Time) (hn : ValidNanos t) (h0 : 0 ≤ t.year) (h1 : t.year ≤ 9999) (text : Bytes)
    (ht : dateFormat env t b!"c" = .ok text) :
    IsoDenotes text t.year t.month t.day t.hour t.minute t.second ((t.nsec : ℚ) / 10 ^ 9) ↔
      t.nsec = 0 ∨ 100000000 ≤ t.nsec := by
  rw [letter_c] at ht
  injection ht with ht
  subst ht
  obtain ⟨hd, hi⟩ := nsec_digits hn
  have hv : natVal (itoa t.nsec) = t.nsec.toNat := hd.2.2
  obtain ⟨p1, p2⟩ := iso_parts t h0 h1 (itoa t.nsec) (by rw [hv]; exact hd)
  have hq : ((t.nsec : Int) : ℚ) = ((t.nsec.toNat : Nat) : ℚ) := by
    have : t.nsec = ((t.nsec.toNat : Nat) : Int) := by have := hn.1; omega
    exact_mod_cast congrArg (fun z : Int => (z : ℚ)) this
  have hlen : ∀ j : Nat, 0 < j → (t.nsec.toNat < 10 ^ j ↔ (itoa t.nsec).length ≤ j) := by
    intro j hj; rw [hi]; exact (natDigits_le hj).symm
  have hk : t.nsec.toNat < 10 ^ (itoa t.nsec).length := (hlen _ (by rw [hi]; exact natDigits_pos _ _)).mpr (Nat.le_refl _)
  have key := fraction_eq hk (by have := hn.2; omega) hlen
  have tail : (t.nsec.toNat = 0 ∨ 10 ^ 8 ≤ t.nsec.toNat) ↔ (t.nsec = 0 ∨ 100000000 ≤ t.nsec) := by
    have := hn.1; omega
  rw [← tail, ← key]
  constructor
  · intro h
    have hf := h.fraction
    rw [p2, hv, hq] at hf
    exact hf
  · intro h
    rw [hq, ← h]
    have := p1
    rw [hv] at this
    exact this

/-- C57 for full seconds and from a tenth of a second on.
Missing: the other times, for which it is false (`C57_negation`). -/
theorem C57_denotes_partial (env : Env) (t : Time) (hn : ValidNanos t) (h0 : 0 ≤ t.year) (h1 : t.year ≤ 9999)
    (hx : t.nsec = 0 ∨ 100000000 ≤ t.nsec) :
    ∃ text : Bytes, dateFormat env t b!"c" = .ok text ∧
      IsoDenotes text t.year t.month t.day t.hour t.minute t.second ((t.nsec : ℚ) / 10 ^ 9) :=
  ⟨_, letter_c env t, (C57_denotes_iff env t hn h0 h1 _ (letter_c env t)).mpr hx⟩

example : ValidNanos ⟨0, 250000000, utc⟩ ∧ (⟨0, 250000000, utc⟩ : Time).year = 1970 ∧
    dateFormat showEnv ⟨0, 250000000, utc⟩ b!"c" = .ok b!"1970-01-01T00:00:00.250000000" := by
  refine ⟨⟨by decide, by decide⟩, by decide +kernel, by decide +kernel⟩

/-- The claim is false: 50 milliseconds are printed as if they were 500. -/
theorem C57_negation : ¬ ∀ (env : Env) (t : Time), ValidNanos t → 0 ≤ t.year → t.year ≤ 9999 →
    ∃ text : Bytes, dateFormat env t b!"c" = .ok text ∧
      IsoDenotes text t.year t.month t.day t.hour t.minute t.second ((t.nsec : ℚ) / 10 ^ 9) := by
  intro h
  obtain ⟨s, h1, h2⟩ := h showEnv ⟨0, 50000000, utc⟩ ⟨by decide, by decide⟩ (by decide +kernel) (by decide +kernel)
  have := (C57_denotes_iff showEnv ⟨0, 50000000, utc⟩ ⟨by decide, by decide⟩ (by decide +kernel) (by decide +kernel) s h1).mp h2
  revert this
  decide

example : dateFormat showEnv ⟨0, 50000000, utc⟩ b!"c" = .ok b!"1970-01-01T00:00:00.50000000" := by decide +kernel

/-- Six digits for the microseconds, as claimed, are never right: when the fraction has six digits, the text
denotes another time. -/
theorem C57_six_negation (env : Env) (t : Time) (hn : ValidNanos t) (h0 : 0 ≤ t.year) (h1 : t.year ≤ 9999) (text : Bytes)
    (ht : dateFormat env t b!"c" = .ok text) (h6 : (text.drop 20).length = 6) :
    ¬ IsoDenotes text t.year t.month t.day t.hour t.minute t.second ((t.nsec : ℚ) / 10 ^ 9) := by
  rw [C57_denotes_iff env t hn h0 h1 text ht]
  rw [letter_c] at ht
  injection ht with ht
  subst ht
  obtain ⟨hd, hi⟩ := nsec_digits hn
  obtain ⟨-, p2⟩ := iso_parts t h0 h1 (itoa t.nsec) (by rw [hd.2.2]; exact hd)
  rw [p2, hi] at h6
  have a := (natDigits_le (n := t.nsec.toNat) (k := 6) (by omega)).mp (by omega)
  have b : ¬ t.nsec.toNat < 10 ^ 5 := fun hc => by
    have := (natDigits_le (n := t.nsec.toNat) (k := 5) (by omega)).mpr hc
    omega
  have := hn.1
  omega

example : (b!"1970-01-01T00:00:00.123456".drop 20).length = 6 ∧
    dateFormat showEnv ⟨0, 123456, utc⟩ b!"c" = .ok b!"1970-01-01T00:00:00.123456" := by
  refine ⟨by decide, by decide +kernel⟩

end Verif.Props.DateFormat
