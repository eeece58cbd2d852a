import Verif.Proofs.Humanize.DateFormat
import Verif.Proofs.Go.Digits
import Verif.Proofs.Calendar
import Verif.Spec.Locales
/-!
# When formatted dates tell times apart

A format is read from the left.  Numbers of fixed width, numbers before something that is not a digit, and names from a
table none of which is the beginning of another can be cut off one after the other.
-/
namespace Verif.Proofs.Humanize
open Verif.Go Verif.Model.Humanize Verif.Spec.DateFormat Verif.Spec.Decimal Verif.Spec.Locales Verif.Proofs.Go
open Verif.Proofs.Calendar

/-! ## Digits -/

/-- A decimal digit. -/
def digitB (b : UInt8) : Bool := 48 ≤ b.toNat && b.toNat ≤ 57

/-- The text does not begin with a digit. -/
def stopB : Bytes → Bool
  | [] => true
  | b :: _ => !digitB b

theorem digits_all {s : Bytes} {n : Nat} (h : Digits s n) : ∀ b ∈ s, digitB b = true := by
  intro b hb
  have := h.2.1 b hb
  simp only [digitB, Bool.and_eq_true, decide_eq_true_eq]
  omega

/-- A number ends where the digits end. -/
theorem cut_digits : ∀ {x y r s : Bytes}, (∀ b ∈ x, digitB b = true) → (∀ b ∈ y, digitB b = true) → stopB r = true →
    stopB s = true → x ++ r = y ++ s → x = y ∧ r = s
  | [], [], _, _, _, _, _, _, h => ⟨rfl, h⟩
  | [], b :: y, r, s, _, hy, hr, _, h => by
    exfalso
    rw [List.nil_append] at h
    subst h
    simp [stopB, hy b List.mem_cons_self] at hr
  | a :: x, [], r, s, hx, _, _, hs, h => by
    exfalso
    rw [List.nil_append] at h
    subst h
    simp [stopB, hx a List.mem_cons_self] at hs
  | a :: x, b :: y, r, s, hx, hy, hr, hs, h => by
    simp only [List.cons_append, List.cons.injEq] at h
    obtain ⟨rfl, h⟩ := h
    obtain ⟨rfl, rfl⟩ := cut_digits (fun c hc => hx c (List.mem_cons_of_mem _ hc)) (fun c hc => hy c (List.mem_cons_of_mem _ hc))
      hr hs h
    exact ⟨rfl, rfl⟩

/-- Equal texts stand for equal numbers. -/
theorem digits_inj {s : Bytes} {m n : Nat} (h : Digits s m) (h' : Digits s n) : m = n := h.2.2.symm.trans h'.2.2

/-! ## Codes -/

/-- No entry is, with the same text behind it, the beginning of another one. -/
def codeB (tbl : List Bytes) (lits : Bytes) : Bool :=
  tbl.all fun v => tbl.all fun w => v == w || !List.isPrefixOf (v ++ lits) (w ++ lits)

theorem cut_code {tbl : List Bytes} {lits : Bytes} (h : codeB tbl lits = true) {v w r s : Bytes} (hv : v ∈ tbl) (hw : w ∈ tbl)
    (e : v ++ (lits ++ r) = w ++ (lits ++ s)) : v = w := by
  have one : ∀ {v w r s : Bytes}, v ∈ tbl → w ∈ tbl → (v ++ lits) ++ r = (w ++ lits) ++ s → v.length ≤ w.length → v = w := by
    intro v w r s hv hw e hl
    have h1 := List.all_eq_true.mp (List.all_eq_true.mp h v hv) w hw
    simp only [Bool.or_eq_true, beq_iff_eq, Bool.not_eq_true'] at h1
    rcases h1 with h1 | h1
    · exact h1
    · exfalso
      have p1 : (v ++ lits) <+: (v ++ lits) ++ r := List.prefix_append _ _
      have p2 : (w ++ lits) <+: (v ++ lits) ++ r := by rw [e]; exact List.prefix_append _ _
      have := List.prefix_of_prefix_length_le p1 p2 (by simp only [List.length_append]; omega)
      rw [List.isPrefixOf_iff_prefix.mpr this] at h1
      cases h1
  rw [← List.append_assoc, ← List.append_assoc] at e
  rcases Nat.le_total v.length w.length with hl | hl
  · exact one hv hw e hl
  · exact (one hw hv e.symm hl).symm

/-! ## The letters -/

/-- The texts of a letter that stands for a name. -/
def nameTable (x : Texts) : Char → List Bytes
  | 'F' => x.months
  | 'E' => x.alternative
  | 'N' => x.abbreviated
  | 'M' => x.short
  | 'l' => x.days
  | 'a' => [x.am, x.pm]
  | 'A' => [x.bigAm, x.bigPm]
  | _ => []

/-- The place of the text in the table. -/
def nameIndex (t : Time) : Char → Nat
  | 'l' => t.weekday.toNat
  | 'a' => if t.hour < 12 then 0 else 1
  | 'A' => if t.hour < 12 then 0 else 1
  | _ => (t.month - 1).toNat

theorem month_lookup {x : List Bytes} {g : Bytes → Bytes} {t : Time} {tbl : GoMap Int Bytes} {names : List Bytes}
    (hx : x = names.map g) (hn : ∀ k : Fin 12, names[k.val]? = some (nameOf tbl ((k.val : Int) + 1))) :
    x[(t.month - 1).toNat]? = some (g (nameOf tbl t.month)) := by
  obtain ⟨h1, h2, -⟩ := date_exact t
  have h := hn ⟨(t.month - 1).toNat, by omega⟩
  have e : (((t.month - 1).toNat : Nat) : Int) + 1 = t.month := by omega
  simp only [e] at h
  rw [hx, List.getElem?_map, h]
  rfl

theorem name_value {env : Env} {x : Texts} (hs : Serves env x) (t : Time) {c : Char} (hc : c ∈ ['F', 'E', 'N', 'M', 'l', 'a', 'A']) :
    (nameTable x c)[nameIndex t c]? = some (value env t c) ∧ ∃ s, letter env t c = some (.ok s) := by
  obtain ⟨h1, h2, -⟩ := date_exact t
  simp only [List.mem_cons, List.not_mem_nil, or_false] at hc
  rcases hc with rfl | rfl | rfl | rfl | rfl | rfl | rfl
  · exact ⟨month_lookup (tbl := months) hs.months (by decide +kernel), _, rfl⟩
  · exact ⟨month_lookup (tbl := months) hs.alternative (by decide +kernel), _, rfl⟩
  · exact ⟨month_lookup (tbl := monthsAp) hs.abbreviated (by decide +kernel), _, rfl⟩
  · have hlt : (t.month - 1).toNat < x.short.length := by rw [hs.twelve]; omega
    have table : ∀ k : Fin 12, ∃ name : Bytes, monthNames[k.val]? = some name ∧
        nameOf months3 ((k.val : Int) + 1) = lowerFirst (name.take 3) := by
      intro k
      refine ⟨monthNames[k.val]'(by simp [monthNames]), List.getElem?_eq_getElem _, ?_⟩
      revert k
      decide +kernel
    obtain ⟨name, n1, n2⟩ := table ⟨(t.month - 1).toNat, by omega⟩
    have e : (((t.month - 1).toNat : Nat) : Int) + 1 = t.month := by omega
    simp only [e] at n1 n2
    obtain ⟨r, rest, g1, g2⟩ := hs.short _ name _ n1 (List.getElem?_eq_getElem hlt)
    have hv : letter env t 'M' = some (.ok (utf8 (env.toUpper r :: rest))) := by
      rw [letter_M_eq]
      unfold letter_M
      rw [n2, g1, runes_utf8]
    refine ⟨?_, _, hv⟩
    show x.short[(t.month - 1).toNat]? = _
    unfold value
    rw [hv, List.getElem?_eq_getElem hlt, g2]
  · refine ⟨?_, _, rfl⟩
    have hw : 0 ≤ t.weekday ∧ t.weekday < 7 := by unfold Time.weekday; omega
    have table : ∀ k : Fin 7, dayNames[k.val]? = some (nameOf weekdays ((6 + (k.val : Int)).tmod 7)) := by decide +kernel
    have h := table ⟨t.weekday.toNat, by omega⟩
    have e : ((t.weekday.toNat : Nat) : Int) = t.weekday := by omega
    simp only [e] at h
    show x.days[t.weekday.toNat]? = _
    rw [hs.days, List.getElem?_map, h]
    rfl
  · refine ⟨?_, _, rfl⟩
    show [x.am, x.pm][if t.hour < 12 then 0 else 1]? = some (letter_a env t)
    unfold letter_a
    rw [← hs.am, ← hs.pm]
    by_cases h : t.hour < 12
    · rw [if_pos h, if_neg (by omega)]; rfl
    · rw [if_neg h, if_pos (by omega)]; rfl
  · refine ⟨?_, _, rfl⟩
    show [x.bigAm, x.bigPm][if t.hour < 12 then 0 else 1]? = some (letter_A env t)
    unfold letter_A
    rw [← hs.bigAm, ← hs.bigPm]
    by_cases h : t.hour < 12
    · rw [if_pos h, if_neg (by omega)]; rfl
    · rw [if_neg h, if_pos (by omega)]; rfl

/-- A year that is written with four digits. -/
def FourDigits (t : Time) : Prop := 0 ≤ t.year ∧ t.year ≤ 9999

/-- The hour on the dial. -/
def dial (t : Time) : Int := if t.hour % 12 = 0 then 12 else t.hour % 12

theorem dial_range (t : Time) : 1 ≤ dial t ∧ dial t ≤ 12 := by
  obtain ⟨a, b, -⟩ := clock_exact t
  unfold dial
  split <;> omega

/-- The letters for numbers of fixed width. -/
theorem fixed_value (env : Env) (t : Time) (ht : FourDigits t) :
    Padded 2 (value env t 'd') t.day.toNat ∧ Padded 2 (value env t 'm') t.month.toNat ∧
    Padded 2 (value env t 'H') t.hour.toNat ∧ Padded 2 (value env t 'i') t.minute.toNat ∧
    Padded 2 (value env t 'h') (dial t).toNat ∧ Padded 4 (value env t 'Y') t.year.toNat := by
  obtain ⟨h1, h2, h3, h4, -, -⟩ := date_exact t
  have := monthLength_range t.year t.month
  obtain ⟨a, b, c, d, -⟩ := clock_exact t
  have := dial_range t
  obtain ⟨y1, y2⟩ := ht
  refine ⟨(padded (n := t.day) (by omega) (by omega) (by omega)).1, (padded (n := t.month) (by omega) (by omega) (by omega)).1,
    (padded (n := t.hour) (by omega) (by omega) (by omega)).1, (padded (n := t.minute) (by omega) (by omega) (by omega)).1,
    (padded (n := dial t) (by omega) (by omega) (by omega)).2, (padded (n := t.year) (by omega) (by omega) (by omega)).1⟩

theorem plain_digits {n : Int} (h : 0 ≤ n) : Digits (itoa n) n.toNat := by
  rcases itoa_plain n with ⟨-, h', -⟩ | ⟨h', -⟩
  · exact h'
  · omega

/-- The letters for numbers that are as long as they need to be. -/
theorem plain_value (env : Env) (t : Time) :
    Digits (value env t 'j') t.day.toNat ∧ Digits (value env t 'n') t.month.toNat ∧ Digits (value env t 'G') t.hour.toNat ∧
    Digits (value env t 'g') (dial t).toNat := by
  obtain ⟨h1, h2, h3, h4, -, -⟩ := date_exact t
  obtain ⟨a, b, c, d, -⟩ := clock_exact t
  have := dial_range t
  exact ⟨plain_digits (by omega), plain_digits (by omega), plain_digits (by omega), plain_digits (n := dial t) (by omega)⟩

/-! ## Reading a format -/

/-- The parts of a format. -/
def pieces : List Char → List Piece
  | '\\' :: c :: r => .esc c :: pieces r
  | c :: r => (if c ∈ formatLetters then .letter c else .lit c) :: pieces r
  | [] => []

/-- The text of the parts. -/
def output (env : Env) (t : Time) (ps : List Piece) : Bytes := ps.flatMap (Piece.text encodeRune (value env t))

/-- The text that the parts begin with, whatever the time, and the parts behind it. -/
def constant : List Piece → Bytes × List Piece
  | .lit c :: ps => (encodeRune c ++ (constant ps).1, (constant ps).2)
  | .esc c :: ps => (encodeRune c ++ (constant ps).1, (constant ps).2)
  | ps => ([], ps)

theorem output_constant (env : Env) (t : Time) : ∀ ps, output env t ps = (constant ps).1 ++ output env t (constant ps).2
  | [] => rfl
  | .lit c :: ps => by
    have := output_constant env t ps
    unfold output at *
    simp only [List.flatMap_cons, Piece.text, constant, List.append_assoc]
    rw [this]
  | .esc c :: ps => by
    have := output_constant env t ps
    unfold output at *
    simp only [List.flatMap_cons, Piece.text, constant, List.append_assoc]
    rw [this]
  | .letter c :: ps => rfl

/-- The parts can be read off the text, from left to right. -/
def readableB (x : Texts) : List Piece → Bool
  | [] => true
  | .lit _ :: ps => readableB x ps
  | .esc _ :: ps => readableB x ps
  | .letter c :: ps =>
    (if c ∈ ['d', 'm', 'H', 'i', 'h', 'Y'] then true
     else if c ∈ ['j', 'n', 'G', 'g'] then
       (ps.isEmpty || (!(constant ps).1.isEmpty && stopB (constant ps).1))
     else if c ∈ ['F', 'E', 'N', 'M', 'l', 'a', 'A'] then ps.isEmpty || codeB (nameTable x c) (constant ps).1
     else (c == 'P' || c == 'T') && ps.isEmpty) && readableB x ps

theorem stop_append {a b : Bytes} (h : a ≠ []) (hs : stopB a = true) : stopB (a ++ b) = true := by
  cases a with
  | nil => exact absurd rfl h
  | cons c a => exact hs

theorem readable {env : Env} {x : Texts} (hs : Serves env x) {t u : Time} (ht : FourDigits t) (hu : FourDigits u) :
    ∀ ps : List Piece, readableB x ps = true → output env t ps = output env u ps →
      ∀ c, Piece.letter c ∈ ps → value env t c = value env u c
  | [], _, _, c, hc => nomatch hc
  | .lit a :: ps, h, e, c, hc => by
    have e : encodeRune a ++ output env t ps = encodeRune a ++ output env u ps := e
    refine readable hs ht hu ps h (List.append_cancel_left e) c ?_
    rcases List.mem_cons.mp hc with h' | h'
    · cases h'
    · exact h'
  | .esc a :: ps, h, e, c, hc => by
    have e : encodeRune a ++ output env t ps = encodeRune a ++ output env u ps := e
    refine readable hs ht hu ps h (List.append_cancel_left e) c ?_
    rcases List.mem_cons.mp hc with h' | h'
    · cases h'
    · exact h'
  | .letter a :: ps, h, e, c, hc => by
    have e : value env t a ++ output env t ps = value env u a ++ output env u ps := e
    rw [readableB, Bool.and_eq_true] at h
    obtain ⟨h1, h2⟩ := h
    have key : value env t a = value env u a := by
      by_cases hf : a ∈ ['d', 'm', 'H', 'i', 'h', 'Y']
      · refine (List.append_inj e ?_).1
        obtain ⟨t1, t2, t3, t4, t5, t6⟩ := fixed_value env t ht
        obtain ⟨u1, u2, u3, u4, u5, u6⟩ := fixed_value env u hu
        simp only [List.mem_cons, List.not_mem_nil, or_false] at hf
        rcases hf with rfl | rfl | rfl | rfl | rfl | rfl
        · rw [t1.1, u1.1]
        · rw [t2.1, u2.1]
        · rw [t3.1, u3.1]
        · rw [t4.1, u4.1]
        · rw [t5.1, u5.1]
        · rw [t6.1, u6.1]
      · rw [if_neg hf] at h1
        by_cases hn : a ∈ ['j', 'n', 'G', 'g']
        · rw [if_pos hn] at h1
          have hd : ∀ v, ∃ k, Digits (value env v a) k := by
            intro v
            obtain ⟨d1, d2, d3, d4⟩ := plain_value env v
            simp only [List.mem_cons, List.not_mem_nil, or_false] at hn
            rcases hn with rfl | rfl | rfl | rfl
            · exact ⟨_, d1⟩
            · exact ⟨_, d2⟩
            · exact ⟨_, d3⟩
            · exact ⟨_, d4⟩
          have hstop : ∀ v, stopB (output env v ps) = true := by
            intro v
            rw [Bool.or_eq_true, Bool.and_eq_true] at h1
            rcases h1 with h1 | ⟨h1, h1'⟩
            · rw [List.isEmpty_iff] at h1; subst h1; rfl
            · rw [output_constant]
              refine stop_append (fun h0 => ?_) h1'
              rw [h0] at h1
              cases h1
          obtain ⟨k, hk⟩ := hd t
          obtain ⟨k', hk'⟩ := hd u
          exact (cut_digits (digits_all hk) (digits_all hk') (hstop t) (hstop u) e).1
        · rw [if_neg hn] at h1
          by_cases hm : a ∈ ['F', 'E', 'N', 'M', 'l', 'a', 'A']
          · rw [if_pos hm, Bool.or_eq_true] at h1
            rcases h1 with h1 | h1
            · rw [List.isEmpty_iff] at h1; subst h1
              simpa [output] using e
            · rw [output_constant env t, output_constant env u] at e
              exact cut_code h1 (List.mem_of_getElem? (name_value hs t hm).1) (List.mem_of_getElem? (name_value hs u hm).1) e
          · rw [if_neg hm, Bool.and_eq_true, List.isEmpty_iff] at h1
            obtain ⟨-, h1⟩ := h1
            subst h1
            simpa [output] using e
    rcases List.mem_cons.mp hc with h' | h'
    · injection h' with h'
      rw [h']
      exact key
    · rw [key] at e
      exact readable hs ht hu ps h2 (List.append_cancel_left e) c h'

/-! ## From the letters to the time -/

theorem padded_inj {w : Nat} {s : Bytes} {m n : Nat} (h : Padded w s m) (h' : Padded w s n) : m = n := digits_inj h.2 h'.2

theorem same_day {env : Env} {t u : Time} (ht : FourDigits t) (hu : FourDigits u) {c : Char} (hc : c ∈ ['d', 'j'])
    (e : value env t c = value env u c) : t.day = u.day := by
  obtain ⟨-, -, t3, -⟩ := date_exact t
  obtain ⟨-, -, u3, -⟩ := date_exact u
  simp only [List.mem_cons, List.not_mem_nil, or_false] at hc
  rcases hc with rfl | rfl
  · have h1 := (fixed_value env t ht).1
    rw [e] at h1
    have := padded_inj h1 (fixed_value env u hu).1
    omega
  · have h1 := (plain_value env t).1
    rw [e] at h1
    have := digits_inj h1 (plain_value env u).1
    omega

theorem same_year {env : Env} {t u : Time} (ht : FourDigits t) (hu : FourDigits u) (e : value env t 'Y' = value env u 'Y') :
    t.year = u.year := by
  have h1 := (fixed_value env t ht).2.2.2.2.2
  rw [e] at h1
  have := padded_inj h1 (fixed_value env u hu).2.2.2.2.2
  obtain ⟨t1, t2⟩ := ht
  obtain ⟨u1, u2⟩ := hu
  omega

theorem same_name {env : Env} {x : Texts} (hs : Serves env x) {t u : Time} {c : Char}
    (hc : c ∈ ['F', 'E', 'N', 'M', 'l', 'a', 'A']) (hn : (nameTable x c).Nodup) (e : value env t c = value env u c) :
    nameIndex t c = nameIndex u c := by
  have h1 := (name_value hs t hc).1
  have h2 := (name_value hs u hc).1
  rw [← e] at h2
  obtain ⟨l1, g1⟩ := List.getElem?_eq_some_iff.mp h1
  obtain ⟨l2, g2⟩ := List.getElem?_eq_some_iff.mp h2
  exact (List.Nodup.getElem_inj_iff hn).mp (g1.trans g2.symm)

theorem same_month {env : Env} {x : Texts} (hs : Serves env x) {t u : Time} (ht : FourDigits t) (hu : FourDigits u) {c : Char}
    (hc : c ∈ ['m', 'n'] ∨ c ∈ ['F', 'E', 'N', 'M'] ∧ (nameTable x c).Nodup) (e : value env t c = value env u c) :
    t.month = u.month := by
  obtain ⟨t1, t2, -⟩ := date_exact t
  obtain ⟨u1, u2, -⟩ := date_exact u
  rcases hc with hc | ⟨hc, hn⟩
  · simp only [List.mem_cons, List.not_mem_nil, or_false] at hc
    rcases hc with rfl | rfl
    · have h1 := (fixed_value env t ht).2.1
      rw [e] at h1
      have := padded_inj h1 (fixed_value env u hu).2.1
      omega
    · have h1 := (plain_value env t).2.1
      rw [e] at h1
      have := digits_inj h1 (plain_value env u).2.1
      omega
  · have h := same_name hs (by revert hc; simp only [List.mem_cons, List.not_mem_nil, or_false]; tauto) hn e
    simp only [List.mem_cons, List.not_mem_nil, or_false] at hc
    have h : (t.month - 1).toNat = (u.month - 1).toNat := by
      rcases hc with rfl | rfl | rfl | rfl <;> exact h
    omega

theorem same_minute {env : Env} {t u : Time} (ht : FourDigits t) (hu : FourDigits u) (e : value env t 'i' = value env u 'i') :
    t.minute = u.minute := by
  obtain ⟨-, -, t3, -⟩ := clock_exact t
  obtain ⟨-, -, u3, -⟩ := clock_exact u
  have h1 := (fixed_value env t ht).2.2.2.1
  rw [e] at h1
  have := padded_inj h1 (fixed_value env u hu).2.2.2.1
  omega

theorem same_hour24 {env : Env} {t u : Time} (ht : FourDigits t) (hu : FourDigits u) {c : Char} (hc : c ∈ ['H', 'G'])
    (e : value env t c = value env u c) : t.hour = u.hour := by
  obtain ⟨t1, -⟩ := clock_exact t
  obtain ⟨u1, -⟩ := clock_exact u
  simp only [List.mem_cons, List.not_mem_nil, or_false] at hc
  rcases hc with rfl | rfl
  · have h1 := (fixed_value env t ht).2.2.1
    rw [e] at h1
    have := padded_inj h1 (fixed_value env u hu).2.2.1
    omega
  · have h1 := (plain_value env t).2.2.1
    rw [e] at h1
    have := digits_inj h1 (plain_value env u).2.2.1
    omega

theorem hour_of_dial {t u : Time} (h : dial t = dial u) (hh : t.hour < 12 ↔ u.hour < 12) : t.hour = u.hour := by
  obtain ⟨t1, t2, -⟩ := clock_exact t
  obtain ⟨u1, u2, -⟩ := clock_exact u
  unfold dial at h
  split at h <;> split at h <;> omega

theorem same_dial {env : Env} {t u : Time} (ht : FourDigits t) (hu : FourDigits u) {c : Char} (hc : c ∈ ['h', 'g'])
    (e : value env t c = value env u c) : dial t = dial u := by
  have := dial_range t
  have := dial_range u
  simp only [List.mem_cons, List.not_mem_nil, or_false] at hc
  rcases hc with rfl | rfl
  · have h1 := (fixed_value env t ht).2.2.2.2.1
    rw [e] at h1
    have := padded_inj h1 (fixed_value env u hu).2.2.2.2.1
    omega
  · have h1 := (plain_value env t).2.2.2
    rw [e] at h1
    have := digits_inj h1 (plain_value env u).2.2.2
    omega

theorem same_half {env : Env} {x : Texts} (hs : Serves env x) {t u : Time} {c : Char}
    (hc : c ∈ ['a', 'A']) (hn : (nameTable x c).Nodup) (e : value env t c = value env u c) : t.hour < 12 ↔ u.hour < 12 := by
  have h := same_name hs (by revert hc; simp only [List.mem_cons, List.not_mem_nil, or_false]; tauto) hn e
  simp only [List.mem_cons, List.not_mem_nil, or_false] at hc
  have h : (if t.hour < 12 then 0 else 1) = (if u.hour < 12 then 0 else 1) := by
    rcases hc with rfl | rfl <;> exact h
  split at h <;> split at h <;> omega

/-! ## The letter P -/

/-- The words for `P` tell midnight, noon, morning and afternoon apart. -/
def wordsB (x : Texts) : Bool := x.am != x.pm && x.midnight != x.noon && stopB x.midnight && stopB x.noon

/-- `P` apart from noon and midnight. -/
def clockText (env : Env) (t : Time) : Bytes :=
  value env t 'g' ++ ((if 0 < t.minute then b!":" ++ value env t 'i' else []) ++ (b!" " ++ value env t 'a'))

theorem letter_P_eq (env : Env) (t : Time) : value env t 'P' =
    if t.minute = 0 ∧ t.hour = 0 then env.loc.get b!"midnight" else if t.minute = 0 ∧ t.hour = 12 then env.loc.get b!"noon"
    else clockText env t := by
  show letter_P env t = _
  unfold letter_P clockText letter_f
  obtain ⟨-, -, c, d, -⟩ := clock_exact t
  have e : appendInt 2 t.minute = pad0 2 t.minute := by
    unfold appendInt pad0; rw [if_neg (by omega), if_neg (by omega)]
  have e1 : value env t 'g' = formatHour12 0 t := rfl
  have e2 : value env t 'i' = pad0 2 t.minute := rfl
  have e3 : value env t 'a' = letter_a env t := rfl
  rw [e, e1, e2, e3]
  split
  · rfl
  · split
    · rfl
    · split <;> simp

theorem clock_start (env : Env) (t : Time) (s : Bytes) (hs : stopB s = true) : clockText env t ≠ s := by
  rintro rfl
  have hd := (plain_value env t).2.2.2
  unfold clockText at hs
  cases hv : value env t 'g' with
  | nil => exact hd.1 hv
  | cons b r =>
    rw [hv] at hs
    have := digits_all hd b (by rw [hv]; exact List.mem_cons_self)
    simp [stopB, this] at hs

theorem same_P {env : Env} {x : Texts} (hs : Serves env x) (hw : wordsB x = true) {t u : Time} (ht : FourDigits t)
    (hu : FourDigits u) (e : value env t 'P' = value env u 'P') : t.hour = u.hour ∧ t.minute = u.minute := by
  obtain ⟨-, -, t3, t4, -⟩ := clock_exact t
  obtain ⟨-, -, u3, u4, -⟩ := clock_exact u
  simp only [wordsB, Bool.and_eq_true, bne_iff_ne, ne_eq] at hw
  obtain ⟨⟨⟨w1, w2⟩, w3⟩, w4⟩ := hw
  rw [hs.midnight, hs.noon] at w2
  rw [hs.midnight] at w3
  rw [hs.noon] at w4
  rw [letter_P_eq, letter_P_eq] at e
  by_cases tm : t.minute = 0 ∧ t.hour = 0
  · rw [if_pos tm] at e
    by_cases um : u.minute = 0 ∧ u.hour = 0
    · omega
    · rw [if_neg um] at e
      by_cases un : u.minute = 0 ∧ u.hour = 12
      · rw [if_pos un] at e; exact absurd e w2
      · rw [if_neg un] at e; exact absurd e.symm (clock_start env u _ w3)
  · rw [if_neg tm] at e
    by_cases tn : t.minute = 0 ∧ t.hour = 12
    · rw [if_pos tn] at e
      by_cases um : u.minute = 0 ∧ u.hour = 0
      · rw [if_pos um] at e; exact absurd e.symm w2
      · rw [if_neg um] at e
        by_cases un : u.minute = 0 ∧ u.hour = 12
        · omega
        · rw [if_neg un] at e; exact absurd e.symm (clock_start env u _ w4)
    · rw [if_neg tn] at e
      by_cases um : u.minute = 0 ∧ u.hour = 0
      · rw [if_pos um] at e; exact absurd e (clock_start env t _ w3)
      · rw [if_neg um] at e
        by_cases un : u.minute = 0 ∧ u.hour = 12
        · rw [if_pos un] at e; exact absurd e (clock_start env t _ w4)
        · rw [if_neg un] at e
          unfold clockText at e
          have stop : ∀ (v : Time) (r : Bytes), stopB ((if 0 < v.minute then b!":" ++ value env v 'i' else []) ++ (b!" " ++ r)) = true := by
            intro v r; split <;> rfl
          obtain ⟨g, e⟩ := cut_digits (digits_all (plain_value env t).2.2.2) (digits_all (plain_value env u).2.2.2) (stop t _) (stop u _) e
          have hd := same_dial ht hu (by decide) g
          have fin : value env t 'a' = value env u 'a' → t.hour = u.hour := fun h =>
            hour_of_dial hd (same_half hs (by decide) (by simpa [nameTable] using w1) h)
          by_cases hm : 0 < t.minute
          · rw [if_pos hm] at e
            by_cases hm' : 0 < u.minute
            · rw [if_pos hm'] at e
              have e := List.append_cancel_left (as := b!":") (by simpa using e)
              obtain ⟨e1, e2⟩ := List.append_inj e (by rw [(fixed_value env t ht).2.2.2.1.1, (fixed_value env u hu).2.2.2.1.1])
              exact ⟨fin (List.cons.inj e2).2, same_minute ht hu e1⟩
            · rw [if_neg hm'] at e
              simp at e
          · rw [if_neg hm] at e
            by_cases hm' : 0 < u.minute
            · rw [if_pos hm'] at e
              simp at e
            · rw [if_neg hm'] at e
              exact ⟨fin (List.append_cancel_left (List.append_cancel_left e)), by omega⟩

/-! ## Formats -/

/-- The parts contain a letter. -/
def hasB (ps : List Piece) (c : Char) : Bool := ps.contains (.letter c)

def dayB (ps : List Piece) : Bool := ['d', 'j'].any (hasB ps)
def yearB (ps : List Piece) : Bool := hasB ps 'Y'
def monthB (x : Texts) (ps : List Piece) : Bool :=
  ['m', 'n'].any (hasB ps) || ['F', 'E', 'N', 'M'].any fun c => hasB ps c && decide (nameTable x c).Nodup
def wordB (x : Texts) (ps : List Piece) : Bool := hasB ps 'P' && wordsB x
def hourB (x : Texts) (ps : List Piece) : Bool :=
  ['H', 'G'].any (hasB ps) || (['h', 'g'].any (hasB ps) && ['a', 'A'].any fun c => hasB ps c && decide (nameTable x c).Nodup) ||
    wordB x ps
def minuteB (x : Texts) (ps : List Piece) : Bool := hasB ps 'i' || wordB x ps

/-- What a format is for can be read off its text. -/
def kindB (x : Texts) (ps : List Piece) : Kind → Bool
  | .date | .shortDate => dayB ps && monthB x ps && yearB ps
  | .time => hourB x ps && minuteB x ps
  | .dateTime | .shortDatetime => dayB ps && monthB x ps && yearB ps && hourB x ps && minuteB x ps
  | .yearMonth => monthB x ps && yearB ps
  | .monthDay => dayB ps && monthB x ps

/-- The format that a keyword selects. -/
def formatOf (f : FormatData) : Kind → Bytes
  | .date => f.dateFormat
  | .time => f.timeFormat
  | .dateTime => f.dateTimeFormat
  | .yearMonth => f.yearMonthFormat
  | .monthDay => f.monthDayFormat
  | .shortDate => f.shortDateFormat
  | .shortDatetime => f.shortDatetimeFormat

theorem formatTime_kind (env : Env) (f : FormatData) (t : Time) (k : Kind) :
    formatTime env f t k.keyword = dateFormat env t (formatOf f k) := by
  cases k <;> rfl

/-- The whole check for a format. -/
def apartB (x : Texts) (f : Bytes) (k : Kind) : Bool :=
  decide (Reads (runes f) (pieces (runes f)) []) && readableB x (pieces (runes f)) && kindB x (pieces (runes f)) k

theorem dateFormat_output {env : Env} {x : Texts} (hs : Serves env x) {f : Bytes} (h : Reads (runes f) (pieces (runes f)) [])
    (v : Time) : dateFormat env v f = .ok (output env v (pieces (runes f))) := by
  obtain ⟨h1, -, h3⟩ := h
  unfold dateFormat
  have := (formatRunes_reads env v [] (Or.inl rfl) (pieces (runes f)) h1).2 ?_
  · rw [← h3] at this
    rw [this]
    simp [output]
  · rintro ⟨-, h0⟩
    obtain ⟨s, hM⟩ := (name_value hs v (c := 'M') (by decide)).2
    rw [letter_M_eq] at hM
    unfold letter_M at hM
    rw [h0] at hM
    cases hM

/-- Formats whose letters have the same texts give the same text. -/
theorem output_congr {env : Env} {t u : Time} : ∀ ps : List Piece,
    (∀ c, Piece.letter c ∈ ps → value env t c = value env u c) → output env t ps = output env u ps
  | [], _ => rfl
  | p :: ps, h => by
    have ih := output_congr ps fun c hc => h c (List.mem_cons_of_mem _ hc)
    unfold output at *
    rw [List.flatMap_cons, List.flatMap_cons, ih]
    cases p with
    | lit c => rfl
    | esc c => rfl
    | letter c => simp only [Piece.text]; rw [h c List.mem_cons_self]

theorem apart {env : Env} {x : Texts} (hs : Serves env x) {f : Bytes} {k : Kind} (h : apartB x f k = true) {t u : Time}
    (ht : FourDigits t) (hu : FourDigits u) :
    ∃ a b : Bytes, dateFormat env t f = .ok a ∧ dateFormat env u f = .ok b ∧ (a = b → k.Agree t u) := by
  simp only [apartB, Bool.and_eq_true, decide_eq_true_eq] at h
  obtain ⟨⟨h1, hr⟩, hk⟩ := h
  have out := dateFormat_output (env := env) hs h1
  refine ⟨_, _, out t, out u, fun e => ?_⟩
  have all := readable hs ht hu _ hr e
  generalize pieces (runes f) = ps at *
  have has : ∀ {c}, hasB ps c = true → value env t c = value env u c := fun hc => all _ (by simpa [hasB] using hc)
  have any : ∀ {l : List Char}, l.any (hasB ps) = true → ∃ c ∈ l, value env t c = value env u c := by
    intro l hl
    obtain ⟨c, hc, h⟩ := List.any_eq_true.mp hl
    exact ⟨c, hc, has h⟩
  have day : dayB ps = true → t.day = u.day := by
    intro h
    obtain ⟨c, hc, h⟩ := any h
    exact same_day ht hu hc h
  have year : yearB ps = true → t.year = u.year := fun h => same_year ht hu (has h)
  have month : monthB x ps = true → t.month = u.month := by
    intro h
    rcases Bool.or_eq_true _ _ ▸ h with h | h
    · obtain ⟨c, hc, h⟩ := any h
      exact same_month hs ht hu (.inl hc) h
    · obtain ⟨c, hc, h⟩ := List.any_eq_true.mp h
      rw [Bool.and_eq_true, decide_eq_true_eq] at h
      exact same_month hs ht hu (.inr ⟨hc, h.2⟩) (has h.1)
  have word : wordB x ps = true → t.hour = u.hour ∧ t.minute = u.minute := by
    intro h
    rw [wordB, Bool.and_eq_true] at h
    exact same_P hs h.2 ht hu (has h.1)
  have hour : hourB x ps = true → t.hour = u.hour := by
    intro h
    rw [hourB, Bool.or_eq_true, Bool.or_eq_true, Bool.and_eq_true] at h
    rcases h with (h | ⟨h, h'⟩) | h
    · obtain ⟨c, hc, h⟩ := any h
      exact same_hour24 ht hu hc h
    · obtain ⟨c, hc, h⟩ := any h
      obtain ⟨d, hd, h'⟩ := List.any_eq_true.mp h'
      rw [Bool.and_eq_true, decide_eq_true_eq] at h'
      exact hour_of_dial (same_dial ht hu hc h) (same_half hs hd h'.2 (has h'.1))
    · exact (word h).1
  have minute : minuteB x ps = true → t.minute = u.minute := by
    intro h
    rw [minuteB, Bool.or_eq_true] at h
    rcases h with h | h
    · exact same_minute ht hu (has h)
    · exact (word h).2
  cases k <;> simp only [kindB, Bool.and_eq_true] at hk
  · exact ⟨year hk.2, month hk.1.2, day hk.1.1⟩
  · exact ⟨hour hk.1, minute hk.2⟩
  · exact ⟨year hk.1.1.2, month hk.1.1.1.2, day hk.1.1.1.1, hour hk.1.2, minute hk.2⟩
  · exact ⟨year hk.2, month hk.1⟩
  · exact ⟨month hk.2, day hk.1⟩
  · exact ⟨year hk.2, month hk.1.2, day hk.1.1⟩
  · exact ⟨year hk.1.1.2, month hk.1.1.1.2, day hk.1.1.1.1, hour hk.1.2, minute hk.2⟩

end Verif.Proofs.Humanize
