import Verif.Proofs.Cldr.Total
import Verif.Spec.CldrSamples
/-! Samples of CLDR plural rules: enumeration of ranges, termination, and the texts of the grammar. -/
namespace Verif.Proofs.Cldr
open Verif.Go Verif.Model.Cldr Verif.Spec.Cldr Verif.Cldr

/-! ## Numbers in fixed point notation -/

theorem lastDigits_length : ∀ k m, (lastDigits k m).length = k
  | 0, _ => rfl
  | k + 1, m => by simp [lastDigits, lastDigits_length k]

theorem lastDigits_digit : ∀ k m, ∀ c ∈ lastDigits k m, c.isDigit = true
  | 0, _, c, h => by cases h
  | k + 1, m, c, h => by
    simp only [lastDigits, List.mem_append, List.mem_cons, List.not_mem_nil, or_false] at h
    rcases h with h | rfl
    · exact lastDigits_digit k _ c h
    · have : ∀ n : Fin 10, n.val.digitChar.isDigit = true := by decide
      exact this ⟨m % 10, by omega⟩

/-- The carry runs through the places. -/
theorem increment_lastDigits (l : List Char) : ∀ k m,
    increment (l ++ lastDigits k m) =
      (if m % 10 ^ k + 1 = 10 ^ k then increment l else l) ++ lastDigits k (m + 1) ∨ k = 0
  | 0, _ => .inr rfl
  | k + 1, m => by
    left
    have hp : 10 ^ (k + 1) = 10 * 10 ^ k := by rw [Nat.pow_succ, Nat.mul_comm]
    have hm : m % 10 ^ (k + 1) = m % 10 + 10 * (m / 10 % 10 ^ k) := by rw [hp, Nat.mod_mul]
    simp only [lastDigits]
    rcases Nat.lt_or_ge (m % 10) 9 with h9 | h9
    · obtain ⟨a, b, c⟩ := digit_succ (m % 10) h9
      rw [← List.append_assoc, increment_snoc a b, c, if_neg (by omega)]
      rw [show (m + 1) / 10 = m / 10 by omega, show (m + 1) % 10 = m % 10 + 1 by omega, List.append_assoc]
    · have h9 : m % 10 = 9 := by omega
      rw [h9, show (9 : Nat).digitChar = '9' from rfl, ← List.append_assoc, increment_snoc_nine]
      rw [show (m + 1) / 10 = m / 10 + 1 by omega, show (m + 1) % 10 = 0 by omega,
        show (0 : Nat).digitChar = '0' from rfl, ← List.append_assoc]
      congr 1
      rcases increment_lastDigits l k (m / 10) with h | rfl
      · rw [h]
        congr 1
        by_cases hc : m / 10 % 10 ^ k + 1 = 10 ^ k
        · rw [if_pos hc, if_pos (by omega)]
        · rw [if_neg hc, if_neg (by omega)]
      · simp only [lastDigits, List.append_nil]
        rw [if_pos (by simp at hm ⊢; omega)]

theorem increment_point (l : List Char) : increment (l ++ ['.']) = increment l ++ ['.'] := by
  unfold increment
  simp only [List.reverse_append, List.reverse_cons, List.reverse_nil, List.nil_append, List.cons_append]
  rw [show incRev ('.' :: l.reverse) = ('.' :: (incRev l.reverse).1, (incRev l.reverse).2) from rfl]
  cases (incRev l.reverse).2 <;> simp

theorem increment_fixed {x : Fixed} (hx : x.WF) : increment x.text = ({ x with value := x.value + 1 } : Fixed).text := by
  obtain ⟨p, k, m⟩ := x
  cases p with
  | false =>
    have : k = 0 := hx rfl
    subst this
    simp [Fixed.text, increment_dec]
  | true =>
    simp only [Fixed.text, if_true]
    have hpos : 0 < 10 ^ k := Nat.pow_pos (by decide)
    rw [show dec (m / 10 ^ k) ++ '.' :: lastDigits k m = (dec (m / 10 ^ k) ++ ['.']) ++ lastDigits k m by simp]
    rcases increment_lastDigits (dec (m / 10 ^ k) ++ ['.']) k m with h | rfl
    · rw [h]
      by_cases hc : m % 10 ^ k + 1 = 10 ^ k
      · rw [if_pos hc, increment_point, increment_dec]
        have : (m + 1) / 10 ^ k = m / 10 ^ k + 1 := by
          rw [show m + 1 = 10 ^ k * (m / 10 ^ k + 1) by
            have := Nat.div_add_mod m (10 ^ k)
            rw [Nat.mul_add]; omega]
          exact Nat.mul_div_cancel_left _ hpos
        rw [this]; simp
      · rw [if_neg hc]
        have : (m + 1) / 10 ^ k = m / 10 ^ k := by
          have h1 := Nat.div_add_mod m (10 ^ k)
          have h2 := Nat.mod_lt m hpos
          rw [show m + 1 = (m % 10 ^ k + 1) + 10 ^ k * (m / 10 ^ k) by omega,
            Nat.add_mul_div_left _ _ hpos, Nat.div_eq_of_lt (by omega)]
          omega
        rw [this]; simp
    · simp only [lastDigits, List.append_nil, increment_point, Nat.pow_zero, Nat.div_one, increment_dec]

theorem lastDigits_val : ∀ k m, Spec.Cldr.digitsVal (lastDigits k m) = m % 10 ^ k
  | 0, m => by simp [lastDigits, Spec.Cldr.digitsVal, Nat.mod_one]
  | k + 1, m => by
    have hd : ∀ n : Fin 10, n.val.digitChar.toNat - '0'.toNat = n.val := by decide
    have hp : 10 ^ (k + 1) = 10 * 10 ^ k := by rw [Nat.pow_succ, Nat.mul_comm]
    have ih := lastDigits_val k (m / 10)
    unfold Spec.Cldr.digitsVal at ih ⊢
    rw [lastDigits, List.foldl_append, ih, hp, Nat.mod_mul]
    simp only [List.foldl_cons, List.foldl_nil]
    have := hd ⟨m % 10, by omega⟩
    simp only [] at this
    omega

/-- A text is read in one way only. -/
theorem fixed_inj {x y : Fixed} (hx : x.WF) (hy : y.WF) (h : x.text = y.text) : x = y := by
  obtain ⟨p, k, m⟩ := x
  obtain ⟨q, l, n⟩ := y
  have hno : ∀ n, '.' ∉ dec n := fun n => not_mem_digits (fun c hc => dec_digit n c hc) (by decide)
  cases p <;> cases q
  · have : k = 0 := hx rfl
    have : l = 0 := hy rfl
    subst k l
    simp only [Fixed.text, Nat.pow_zero, Nat.div_one, Bool.false_eq_true, if_false, List.append_nil] at h
    rw [dec_inj h]
  · simp only [Fixed.text, Bool.false_eq_true, if_false, List.append_nil, if_true] at h
    exact absurd (h ▸ (by simp : '.' ∈ dec (n / 10 ^ l) ++ '.' :: lastDigits l n)) (hno _)
  · simp only [Fixed.text, Bool.false_eq_true, if_false, List.append_nil, if_true] at h
    exact absurd (h ▸ (by simp : '.' ∈ dec (m / 10 ^ k) ++ '.' :: lastDigits k m)) (hno _)
  · simp only [Fixed.text, if_true] at h
    have h1 := cut_some (c := '.') (hno (m / 10 ^ k)) (b := lastDigits k m)
    rw [h, cut_some (c := '.') (hno (n / 10 ^ l))] at h1
    simp only [Option.some.injEq, Prod.mk.injEq] at h1
    have hkl : k = l := by
      have := congrArg List.length h1.2
      simpa [lastDigits_length] using this.symm
    subst hkl
    have hv := congrArg Spec.Cldr.digitsVal h1.2
    rw [lastDigits_val, lastDigits_val] at hv
    have hq := dec_inj h1.1
    have e1 := Nat.div_add_mod m (10 ^ k)
    have e2 := Nat.div_add_mod n (10 ^ k)
    rw [show m = n by rw [← e1, ← e2, hq, hv]]

/-! ## Enumerating a range -/

theorem loop_up {b : Fixed} (hb : b.WF) : ∀ (j m f : Nat), m + j = b.value → j < f →
    sampleLoop b.text f ({ b with value := m } : Fixed).text =
      .ok ((List.range (j + 1)).map fun i => ({ b with value := m + i } : Fixed).text)
  | 0, m, f, h, hf => by
    obtain ⟨f, rfl⟩ : ∃ n, f = n + 1 := ⟨f - 1, by omega⟩
    have : m = b.value := by omega
    subst this
    simp [sampleLoop]
  | j + 1, m, f, h, hf => by
    obtain ⟨f, rfl⟩ : ∃ n, f = n + 1 := ⟨f - 1, by omega⟩
    have hw : ({ b with value := m } : Fixed).WF := hb
    have hne : ({ b with value := m } : Fixed).text ≠ b.text := fun he => by
      have := congrArg Fixed.value (fixed_inj hw hb he)
      simp only [] at this; omega
    have ih := loop_up hb j (m + 1) f (by omega) (by omega)
    simp only [sampleLoop, if_neg hne, increment_fixed hw, ih, bind, Except.bind]
    rw [List.range_succ_eq_map (n := j + 1)]
    simp only [List.map_cons, List.map_map, Nat.add_zero]
    congr 2
    apply List.map_congr_left
    intro x _
    simp only [Function.comp]
    congr 2; omega

theorem loop_never {a b : Fixed} (ha : a.WF) (hb : b.WF) (h : ¬ Ascending a b) (f : Nat) :
    sampleLoop b.text f a.text = .error .hang := by
  induction f generalizing a with
  | zero => rfl
  | succ f ih =>
    have hne : a.text ≠ b.text := fun he => by
      have := fixed_inj ha hb he
      subst this
      exact h ⟨rfl, rfl, Nat.le_refl _⟩
    have := ih (a := { a with value := a.value + 1 }) ha fun hu => h ⟨hu.1, hu.2.1, by have := hu.2.2; simp only [] at this; omega⟩
    simp only [sampleLoop, if_neg hne, increment_fixed ha, this, bind, Except.bind]

theorem fixed_no_tilde (x : Fixed) : '~' ∉ x.text := by
  unfold Fixed.text
  rw [List.mem_append, not_or]
  refine ⟨not_mem_digits (fun c hc => dec_digit _ c hc) (by decide), ?_⟩
  split
  · simp only [List.mem_cons, not_or]
    exact ⟨by decide, not_mem_digits (fun c hc => lastDigits_digit _ _ c hc) (by decide)⟩
  · simp

theorem range_up {a b : Fixed} (hb : b.WF) (h : Ascending a b) {budget : Nat} (hbud : b.value - a.value < budget) :
    parseSampleRange budget (a.text ++ '~' :: b.text) = .ok ((between a b).map Fixed.text) := by
  unfold parseSampleRange
  rw [cut_some (fixed_no_tilde a)]
  obtain ⟨p, k, m⟩ := a
  obtain ⟨q, l, n⟩ := b
  obtain ⟨h1, h2, h3⟩ := h
  simp only [] at h1 h2 h3 hbud
  subst h1 h2
  have := loop_up (b := ⟨p, k, n⟩) hb (n - m) m budget (by simp only []; omega) hbud
  simp only [between, List.map_map] at this ⊢
  exact this

theorem range_never {a b : Fixed} (ha : a.WF) (hb : b.WF) (h : ¬ Ascending a b) (budget : Nat) :
    parseSampleRange budget (a.text ++ '~' :: b.text) = .error .hang := by
  unfold parseSampleRange
  rw [cut_some (fixed_no_tilde a)]
  exact loop_never ha hb h budget

/-! ## What the scanner takes for a range -/

theorem snoc_ind {P : List Char → Prop} (nil : P []) (snoc : ∀ l c, P l → P (l ++ [c])) (l : List Char) : P l := by
  have : ∀ l : List Char, P l.reverse := by
    intro l
    induction l with
    | nil => exact nil
    | cons c l ih => rw [List.reverse_cons]; exact snoc _ _ ih
  simpa using this l.reverse

theorem of_takeWhile {p : Char → Bool} : ∀ {l : List Char} {x : Char}, x ∈ l.takeWhile p → p x = true
  | c :: l, x, h => by
    rw [List.takeWhile_cons] at h
    split at h
    · rcases List.mem_cons.mp h with rfl | h
      · assumption
      · exact of_takeWhile h
    · cases h

theorem digit_back {c : Char} (h : c.isDigit = true) : (c.toNat - '0'.toNat).digitChar = c ∧ c.toNat - '0'.toNat < 10 := by
  have hr := digit_range h
  have h0 : '0'.toNat = 48 := rfl
  have : ∀ n : Fin 10, n.val.digitChar = Char.ofNat (n.val + 48) := by decide
  have h1 := this ⟨c.toNat - 48, by omega⟩
  simp only [] at h1
  rw [show c.toNat - 48 + 48 = c.toNat by omega, Char.ofNat_toNat] at h1
  exact ⟨h1, by omega⟩

theorem snoc_digits {ds : List Char} {c : Char} (h : ∀ x ∈ ds ++ [c], x.isDigit = true) :
    (∀ x ∈ ds, x.isDigit = true) ∧ c.isDigit = true :=
  ⟨fun x hx => h x (by simp [hx]), h c (by simp)⟩

theorem digitsVal_snoc (ds : List Char) (c : Char) :
    Spec.Cldr.digitsVal (ds ++ [c]) = Spec.Cldr.digitsVal ds * 10 + (c.toNat - '0'.toNat) := by
  simp [Spec.Cldr.digitsVal, List.foldl_append]

theorem lastDigits_of {ds : List Char} (h : ∀ c ∈ ds, c.isDigit = true) (q : Nat) :
    lastDigits ds.length (Spec.Cldr.digitsVal ds + 10 ^ ds.length * q) = ds := by
  induction ds using snoc_ind with
  | nil => rfl
  | snoc ds c ih =>
    obtain ⟨h1, h2⟩ := snoc_digits h
    obtain ⟨h3, h4⟩ := digit_back h2
    rw [List.length_append, List.length_singleton, lastDigits, digitsVal_snoc]
    have e : Spec.Cldr.digitsVal ds * 10 + (c.toNat - '0'.toNat) + 10 ^ (ds.length + 1) * q =
        (c.toNat - '0'.toNat) + 10 * (Spec.Cldr.digitsVal ds + 10 ^ ds.length * q) := by
      rw [Nat.pow_succ, Nat.mul_add, Nat.mul_comm (10 ^ ds.length) 10, Nat.mul_assoc]; omega
    rw [e, Nat.add_mul_div_left _ _ (by decide), Nat.div_eq_of_lt h4, Nat.zero_add, ih h1, Nat.add_mul_mod_self_left,
      Nat.mod_eq_of_lt h4, h3]

/-- Digits without a leading zero are the notation of their value. -/
theorem dec_of {c : Char} (hc : c ≠ '0') : ∀ {ds : List Char}, (∀ x ∈ c :: ds, x.isDigit = true) →
    dec (Spec.Cldr.digitsVal (c :: ds)) = c :: ds := by
  intro ds
  induction ds using snoc_ind with
  | nil =>
    intro h
    obtain ⟨h3, h4⟩ := digit_back (h c (by simp))
    have : Spec.Cldr.digitsVal [c] = c.toNat - '0'.toNat := by simp [Spec.Cldr.digitsVal]
    rw [this]
    unfold dec
    rw [Nat.toDigits_of_lt_base h4, h3]
  | snoc ds d ih =>
    intro h
    rw [show c :: (ds ++ [d]) = (c :: ds) ++ [d] from rfl] at h ⊢
    obtain ⟨h1, h2⟩ := snoc_digits h
    obtain ⟨h3, h4⟩ := digit_back h2
    have hih := ih h1
    have hpos : 0 < Spec.Cldr.digitsVal (c :: ds) := by
      rcases Nat.eq_zero_or_pos (Spec.Cldr.digitsVal (c :: ds)) with h | h
      · rw [h] at hih
        have : dec 0 = ['0'] := by decide
        rw [this] at hih
        exact absurd (List.cons.inj hih).1.symm hc
      · exact h
    rw [digitsVal_snoc]
    unfold dec at hih ⊢
    rw [Nat.toDigits_of_base_le (by decide) (by omega), show
      (Spec.Cldr.digitsVal (c :: ds) * 10 + (d.toNat - '0'.toNat)) / 10 = Spec.Cldr.digitsVal (c :: ds) by omega, hih,
      show (Spec.Cldr.digitsVal (c :: ds) * 10 + (d.toNat - '0'.toNat)) % 10 = d.toNat - '0'.toNat by omega, h3]

theorem fixed_of {ip fp : List Char} {q : Nat} (hq : dec q = ip) (p : Bool) (hfp : ∀ c ∈ fp, c.isDigit = true)
    (hp : p = false → fp = []) : ∃ x : Fixed, x.WF ∧ x.text = ip ++ if p then '.' :: fp else [] := by
  refine ⟨⟨p, fp.length, Spec.Cldr.digitsVal fp + 10 ^ fp.length * q⟩, fun h => by simp [hp h], ?_⟩
  simp only [Fixed.text, lastDigits_of hfp]
  rw [Nat.add_mul_div_left _ _ (Nat.pow_pos (by decide)), Nat.div_eq_of_lt (digitsVal_lt hfp), Nat.zero_add, hq]

theorem side_fixed {s : List Char} (h : reSampleSide s = true) : ∃ x : Fixed, x.WF ∧ x.text = s := by
  have fin : ∀ (ip r : List Char) (q : Nat), dec q = ip → optFraction r = true → ∃ x : Fixed, x.WF ∧ x.text = ip ++ r := by
    intro ip r q hq hr
    unfold optFraction at hr
    split at hr
    · simpa using fixed_of (fp := []) hq false (by simp) (fun _ => rfl)
    · rename_i r
      simpa using fixed_of (fp := r) hq true (fun c hc => List.all_eq_true.mp hr c hc) (by simp)
    · cases hr
  unfold reSampleSide at h
  split at h
  · cases h
  · rename_i r hr
    unfold afterInt at hr
    split at hr
    · cases hr
      exact fin ['0'] r 0 (by decide) h
    · rename_i c t h0
      split at hr
      · rename_i hd
        cases hr
        have hne : c ≠ '0' := fun e => h0 e
        have hds : ∀ x ∈ c :: t.takeWhile Char.isDigit, x.isDigit = true := by
          intro x hx
          rcases List.mem_cons.mp hx with rfl | hx
          · exact hd
          · exact of_takeWhile hx
        have := fin (c :: t.takeWhile Char.isDigit) _ _ (dec_of hne hds) h
        rwa [List.cons_append, List.takeWhile_append_dropWhile] at this
      · cases hr
    · cases hr

theorem cut_parts {c : Char} : ∀ {s a b : List Char}, cut c s = some (a, b) → s = a ++ c :: b ∧ c ∉ a := by
  intro s a b h
  unfold cut at h
  split at h
  · cases h
  · rename_i x after hd
    simp only [Option.some.injEq, Prod.mk.injEq] at h
    obtain ⟨rfl, rfl⟩ := h
    have hx : x = c := by
      have := List.head_dropWhile_not (fun x => decide (x ≠ c)) (l := s) (by rw [hd]; simp)
      simp only [hd, List.head_cons] at this
      simpa using this
    refine ⟨?_, fun hm => by simpa using of_takeWhile hm⟩
    have := List.takeWhile_append_dropWhile (p := fun x => decide (x ≠ c)) (l := s)
    rw [hd, hx] at this
    exact this.symm

theorem range_fixed {s : List Char} (h : reSampleRange s = true) :
    ∃ a b : Fixed, a.WF ∧ b.WF ∧ s = a.text ++ '~' :: b.text := by
  unfold reSampleRange at h
  split at h
  · cases h
  · rename_i a b hc
    rw [Bool.and_eq_true] at h
    obtain ⟨x, hx, rfl⟩ := side_fixed h.1
    obtain ⟨y, hy, rfl⟩ := side_fixed h.2
    exact ⟨x, y, hx, hy, (cut_parts hc).1⟩

/-! ## Every text whose ranges go upwards -/

theorem one_tilde {a b l n : List Char} (ha : '~' ∉ a) (hb : '~' ∉ b) (h : l ++ '~' :: n = a ++ '~' :: b) : l = a ∧ n = b := by
  have hl : '~' ∉ l := by
    intro hl
    have hc := congrArg (List.count '~') h
    simp only [List.count_append, List.count_cons_self, List.count_eq_zero.mpr ha, List.count_eq_zero.mpr hb] at hc
    have := List.count_pos_iff.mpr hl
    omega
  have h1 := cut_some (c := '~') hl (b := n)
  rw [h, cut_some (c := '~') ha] at h1
  simp only [Option.some.injEq, Prod.mk.injEq] at h1
  exact ⟨h1.1.symm, h1.2.symm⟩

theorem fixed_count (x : Fixed) : x.text.count '.' ≤ 1 := by
  have h1 : '.' ∉ dec (x.value / 10 ^ x.places) := not_mem_digits (fun c hc => dec_digit _ c hc) (by decide)
  have h2 : '.' ∉ lastDigits x.places x.value := not_mem_digits (fun c hc => lastDigits_digit _ _ c hc) (by decide)
  unfold Fixed.text
  split <;> simp [List.count_append, List.count_eq_zero.mpr h1, List.count_eq_zero.mpr h2]

theorem range_no_dots (a b : Fixed) (u v : List Char) : a.text ++ '~' :: b.text ≠ u ++ '.' :: '.' :: v := by
  intro h
  have key : ∀ (x : Fixed) (u v : List Char), x.text ≠ u ++ '.' :: '.' :: v := by
    intro x u v h
    have := fixed_count x
    rw [h] at this
    simp only [List.count_append, List.count_cons_self] at this
    omega
  rcases List.append_eq_append_iff.mp h with ⟨w, h1, h2⟩ | ⟨w, h1, h2⟩
  · cases w with
    | nil => simp at h2
    | cons c w =>
      simp only [List.cons_append, List.cons.injEq] at h2
      exact key b w v h2.2
  · match w, h1, h2 with
    | [], _, h2 => simp at h2
    | [c], _, h2 => simp at h2
    | c :: d :: w, h1, h2 =>
      simp only [List.cons_append, List.cons.injEq] at h2
      obtain ⟨rfl, rfl, _⟩ := h2
      exact key a u w h1

theorem _root_.Verif.Spec.Cldr.Occurs.cons {toks : List (List Char)} {a b : Fixed} (w : List Char) (h : Occurs toks a b) : Occurs (w :: toks) a b := by
  obtain ⟨T, R, rfl | rfl⟩ := h
  · exact ⟨w :: T, R, .inl rfl⟩
  · exact ⟨w :: T, R, .inr rfl⟩

theorem _root_.Verif.Spec.Cldr.Occurs.app {toks : List (List Char)} {a b : Fixed} (p : List (List Char)) (h : Occurs toks a b) : Occurs (p ++ toks) a b := by
  induction p with
  | nil => exact h
  | cons w p ih => exact ih.cons w

theorem classify_sampleRange {s : List Char} (h : classify s = .sampleRange) : reSampleRange s = true := by
  unfold classify at h
  split at h
  · cases h
  split at h
  · cases h
  split at h
  · cases h
  split at h
  · assumption
  · cases h

theorem scanNumber_occurs {lit : List Char} {rest : List (List Char)} (h : (scanNumber lit rest).1 = .sampleRange) :
    ∃ a b : Fixed, a.WF ∧ b.WF ∧ (scanNumber lit rest).2.1 = a.text ++ '~' :: b.text ∧ Occurs (lit :: rest) a b := by
  unfold scanNumber at h ⊢
  split at h
  · rename_i next rest'
    split at h
    · rename_i hn
      simp only [if_pos hn]
      split at h
      · cases h
      · rename_i next' rest''
        obtain ⟨a, b, ha, hb, e⟩ := range_fixed (classify_sampleRange h)
        refine ⟨a, b, ha, hb, e, [], rest'', .inr ?_⟩
        rcases hn with rfl | rfl
        · rw [List.append_assoc] at e
          exact absurd e.symm (range_no_dots a b lit next')
        · rw [List.append_assoc] at e
          obtain ⟨rfl, rfl⟩ := one_tilde (fixed_no_tilde a) (fixed_no_tilde b) e
          rfl
    · rename_i hn
      simp only [if_neg hn]
      obtain ⟨a, b, ha, hb, e⟩ := range_fixed (classify_sampleRange h)
      exact ⟨a, b, ha, hb, e, [], next :: rest', .inl (by rw [← e]; rfl)⟩
  · obtain ⟨a, b, ha, hb, e⟩ := range_fixed (classify_sampleRange h)
    exact ⟨a, b, ha, hb, e, [], [], .inl (by rw [← e]; rfl)⟩

theorem scan_occurs : ∀ (toks : List (List Char)), (scan toks).1 = .sampleRange →
    ∃ a b : Fixed, a.WF ∧ b.WF ∧ (scan toks).2.1 = a.text ++ '~' :: b.text ∧ Occurs toks a b
  | [], h => by cases h
  | lit :: rest, h => by
    have ih := scan_occurs rest
    simp only [scan] at h ⊢
    split at h
    · cases h
    rename_i h1; rw [if_neg h1]
    split at h
    · cases h
    rename_i h1; rw [if_neg h1]
    split at h
    · cases h
    rename_i h1; rw [if_neg h1]
    split at h
    · cases h
    rename_i h1; rw [if_neg h1]
    split at h
    · cases h
    rename_i h1; rw [if_neg h1]
    split at h
    · cases h
    rename_i h1; rw [if_neg h1]
    split at h
    · cases h
    rename_i h1; rw [if_neg h1]
    split at h
    · rename_i h2
      rw [if_pos h2]
      obtain ⟨a, b, ha, hb, e, ho⟩ := ih h
      exact ⟨a, b, ha, hb, e, ho.cons lit⟩
    · rename_i h2
      rw [if_neg h2]
      exact scanNumber_occurs h

theorem scan_suffix : ∀ (toks : List (List Char)), ∃ p, toks = p ++ (scan toks).2.2
  | [] => ⟨[], rfl⟩
  | lit :: rest => by
    obtain ⟨p, hp⟩ := scan_suffix rest
    have key : ∃ p, lit :: rest = p ++ rest := ⟨[lit], rfl⟩
    simp only [scan]
    split
    · exact key
    split
    · exact key
    split
    · exact key
    split
    · exact key
    split
    · exact key
    split
    · exact key
    split
    · exact key
    split
    · exact ⟨lit :: p, by rw [List.cons_append, ← hp]⟩
    · unfold scanNumber
      split
      · split
        · split
          · rename_i next rest' hn
            exact ⟨[lit, next], rfl⟩
          · rename_i next rest' hn next' rest''
            exact ⟨[lit, next, next'], rfl⟩
        · exact key
      · exact key

/-- The state comes from the words `toks`. -/
def From (toks : List (List Char)) (st : PState) : Prop := ∃ p R, toks = p ++ R ∧ st = stateOf R

theorem from_next {toks : List (List Char)} {st st' : PState} (h : From toks st) (hs : scanNext st = .ok st') : From toks st' := by
  obtain ⟨p, R, rfl, rfl⟩ := h
  obtain ⟨q, hq⟩ := scan_suffix R
  refine ⟨p ++ q, (scan R).2.2, ?_, scanNext_ok hs⟩
  rw [List.append_assoc, ← hq]

theorem from_range {toks : List (List Char)} {st : PState} (h : From toks st) (ht : st.tok = .sampleRange) :
    ∃ a b : Fixed, a.WF ∧ b.WF ∧ st.lit = a.text ++ '~' :: b.text ∧ Occurs toks a b := by
  obtain ⟨p, R, rfl, rfl⟩ := h
  obtain ⟨a, b, ha, hb, e, ho⟩ := scan_occurs R ht
  exact ⟨a, b, ha, hb, e, ho.app p⟩

section
variable {C : PState → Prop} (hC : ∀ {st st'}, C st → scanNext st = .ok st' → C st')
include hC

theorem closed_value {st st' : PState} {v : Int} (hi : C st) (h : value st = .ok (v, st')) : C st' := by
  unfold value at h
  split at h
  · cases h
  · simp only [bind, Except.bind] at h
    cases hs : scanNext st with
    | error e => rw [hs] at h; cases h
    | ok s => rw [hs] at h; cases h; exact hC hi hs

theorem closed_expression {st st' : PState} {x : ExprNode} (hi : C st) (h : expression st = .ok (x, st')) : C st' := by
  unfold expression at h
  split at h
  · cases h
  · simp only [bind, Except.bind] at h
    cases hs : scanNext st with
    | error e => rw [hs] at h; cases h
    | ok s =>
      rw [hs] at h
      have h1 := hC hi hs
      simp only [] at h
      split at h
      · cases hs2 : scanNext s with
        | error e => rw [hs2] at h; cases h
        | ok s2 =>
          rw [hs2] at h
          simp only [] at h
          cases hv : value s2 with
          | error e => rw [hv] at h; cases h
          | ok q => rw [hv] at h; obtain ⟨v, s3⟩ := q; cases h; exact closed_value hC (hC h1 hs2) hv
      · cases h; exact h1

theorem closed_item {st st' : PState} {x : Item} (hi : C st) (h : item st = .ok (x, st')) : C st' := by
  unfold item at h
  split at h
  · simp only [bind, Except.bind] at h
    cases hv : value st with
    | error e => rw [hv] at h; cases h
    | ok p => rw [hv] at h; obtain ⟨v, s⟩ := p; cases h; exact closed_value hC hi hv
  · split at h
    · unfold rangeExpression at h
      split at h
      · cases h
      · split at h
        · split at h
          · cases h
          · simp only [bind, Except.bind] at h
            cases hs : scanNext st with
            | error e => rw [hs] at h; cases h
            | ok s => rw [hs] at h; cases h; exact hC hi hs
        · cases h
    · cases h

theorem closed_rangeList : ∀ (f : Nat) {st st' : PState} {x : List Item}, C st → rangeList f st = .ok (x, st') → C st'
  | 0, _, _, _, _, h => by cases h
  | f + 1, st, st', x, hi, h => by
    simp only [rangeList, bind, Except.bind] at h
    cases hv : item st with
    | error e => rw [hv] at h; cases h
    | ok p =>
      rw [hv] at h
      obtain ⟨y, s⟩ := p
      have h1 := closed_item hC hi hv
      simp only [] at h
      split at h
      · cases hr : rangeList f s with
        | error e => rw [hr] at h; cases h
        | ok q =>
          rw [hr] at h
          obtain ⟨ys, s2⟩ := q
          cases h
          exact closed_rangeList f h1 hr
      · cases h; exact h1

theorem closed_relation {f : Nat} {st st' : PState} {n : Node} (hi : C st) (h : relation f st = .ok (n, st')) : C st' := by
  simp only [relation, bind, Except.bind] at h
  cases hv : expression st with
  | error e => rw [hv] at h; cases h
  | ok p =>
    rw [hv] at h
    obtain ⟨x, s⟩ := p
    have h1 := closed_expression hC hi hv
    simp only [] at h
    split at h
    · cases h
    · cases hs : scanNext s with
      | error e => rw [hs] at h; cases h
      | ok s2 =>
        rw [hs] at h
        simp only [] at h
        cases hr : rangeList f s2 with
        | error e => rw [hr] at h; cases h
        | ok q =>
          rw [hr] at h
          obtain ⟨ys, s3⟩ := q
          cases h
          exact closed_rangeList hC f (hC h1 hs) hr

theorem closed_andCondition : ∀ (f : Nat) {st st' : PState} {n : Node}, C st → andCondition f st = .ok (n, st') → C st'
  | 0, _, _, _, _, h => by cases h
  | f + 1, st, st', n, hi, h => by
    simp only [andCondition, bind, Except.bind] at h
    cases hv : relation f st with
    | error e => rw [hv] at h; cases h
    | ok p =>
      rw [hv] at h
      obtain ⟨x, s⟩ := p
      have h1 := closed_relation hC hi hv
      simp only [] at h
      split at h
      · cases hs : scanNext s with
        | error e => rw [hs] at h; cases h
        | ok s2 =>
          rw [hs] at h
          simp only [] at h
          cases hr : andCondition f s2 with
          | error e => rw [hr] at h; cases h
          | ok q =>
            rw [hr] at h
            obtain ⟨y, s3⟩ := q
            cases h
            exact closed_andCondition f (hC h1 hs) hr
      · cases h; exact h1

theorem closed_condition : ∀ (f : Nat) {st st' : PState} {n : Node}, C st → condition f st = .ok (n, st') → C st'
  | 0, _, _, _, _, h => by cases h
  | f + 1, st, st', n, hi, h => by
    simp only [condition, bind, Except.bind] at h
    cases hv : andCondition f st with
    | error e => rw [hv] at h; cases h
    | ok p =>
      rw [hv] at h
      obtain ⟨x, s⟩ := p
      have h1 := closed_andCondition hC f hi hv
      simp only [] at h
      split at h
      · cases hs : scanNext s with
        | error e => rw [hs] at h; cases h
        | ok s2 =>
          rw [hs] at h
          simp only [] at h
          cases hr : condition f s2 with
          | error e => rw [hr] at h; cases h
          | ok q =>
            rw [hr] at h
            obtain ⟨y, s3⟩ := q
            cases h
            exact closed_condition f (hC h1 hs) hr
      · cases h; exact h1

end

/-- A budget that suffices for all ranges that occur. -/
def Enough (toks : List (List Char)) (budget : Nat) : Prop :=
  ∀ a b : Fixed, a.WF → b.WF → Occurs toks a b → Ascending a b ∧ b.value - a.value < budget

theorem samplesLoop_enough {toks : List (List Char)} {budget : Nat} (he : Enough toks budget) :
    ∀ (f : Nat) (st : PState), From toks st → samplesLoop budget f st ≠ .error .hang
  | 0, _, _ => by simp [samplesLoop]
  | f + 1, st, hi => by
    have step : ∀ {α : Type} (g : List (List Char) → Except PErr α), (∀ x, g x ≠ .error .hang) →
        (do let st' ← scanNext st; let r ← samplesLoop budget f st'; g r) ≠ .error PErr.hang := by
      intro α g hg h
      simp only [bind, Except.bind] at h
      cases h2 : scanNext st with
      | error e => rw [h2] at h; have := scanNext_err h2; subst this; cases h
      | ok st2 =>
        rw [h2] at h
        have ih := samplesLoop_enough he f st2 (from_next hi h2)
        simp only [] at h
        cases hr : samplesLoop budget f st2 with
        | error e => rw [hr] at h; cases h; exact ih hr
        | ok q => rw [hr] at h; exact hg _ h
    intro h
    unfold samplesLoop at h
    split at h
    · cases h
    · simp only [bind, Except.bind] at h
      cases h2 : scanNext st with
      | error e => rw [h2] at h; have := scanNext_err h2; subst this; cases h
      | ok st2 => rw [h2] at h; exact samplesLoop_enough he f st2 (from_next hi h2) h
    · exact step _ (fun x => by simp) h
    · exact step _ (fun x => by simp) h
    · rename_i ht
      obtain ⟨a, b, ha, hb, e, ho⟩ := from_range hi ht
      obtain ⟨hu, hw⟩ := he a b ha hb ho
      simp only [bind, Except.bind, e, range_up hb hu hw] at h
      exact step (fun r => .ok ((between a b).map Fixed.text ++ r)) (fun x => by simp) h
    · cases h

theorem parseTokens_enough {toks : List (List Char)} {budget : Nat} (he : Enough toks budget) :
    parseTokens budget toks ≠ .error .hang := by
  intro h
  unfold parseTokens at h
  simp only [bind, Except.bind] at h
  have hsm : ∀ st, From toks st → samples budget (toks.length + 3) st ≠ .error .hang := by
    intro st hi
    unfold samples
    split
    · simp
    · split
      · simp
      · exact samplesLoop_enough he _ st hi
  cases h1 : scanNext ⟨.eof, [], toks⟩ with
  | error e => rw [h1] at h; have := scanNext_err h1; subst this; cases h
  | ok st =>
    rw [h1] at h
    have hi : From toks st := ⟨[], toks, rfl, scanNext_ok h1⟩
    simp only [] at h
    have hs : size st ≤ toks.length := by
      have := scanNext_less h1
      unfold size
      split
      · omega
      · rename_i hne
        rcases this with h | h
        · exact absurd h hne
        · exact h
    split at h
    · have hc := condition_fine (toks.length + 3) st (by omega)
      cases h2 : condition (toks.length + 3) st with
      | error e => rw [h2] at h hc; simp only [Fine] at hc; subst hc; cases h
      | ok p =>
        obtain ⟨n, st1⟩ := p
        rw [h2] at h
        simp only [] at h
        cases h3 : samples budget (toks.length + 3) st1 with
        | error e => rw [h3] at h; cases h; exact hsm st1 (closed_condition from_next _ hi h2) h3
        | ok q => rw [h3] at h; cases h
    · cases h3 : samples budget (toks.length + 3) st with
      | error e => rw [h3] at h; cases h; exact hsm st hi h3
      | ok q => rw [h3] at h; cases h

theorem fixed_value_lt {x : Fixed} : x.value < 10 ^ x.text.length ∨ ¬ x.WF := by
  by_cases hx : x.WF
  · left
    obtain ⟨p, k, m⟩ := x
    have hq : m / 10 ^ k < 10 ^ (dec (m / 10 ^ k)).length :=
      (Nat.length_toDigits_le_iff (b := 10) (by decide) (List.length_pos_iff.mpr (dec_ne _))).mp (Nat.le_refl _)
    have hk : k ≤ (if p = true then '.' :: lastDigits k m else []).length := by
      cases p with
      | false => simp [show k = 0 from hx rfl]
      | true => simp [lastDigits_length]
    simp only [Fixed.text, List.length_append]
    refine Nat.lt_of_lt_of_le ?_ (Nat.pow_le_pow_right (by decide) (Nat.add_le_add_left hk _))
    rw [Nat.pow_add]
    exact (Nat.div_lt_iff_lt_mul (Nat.pow_pos (by decide))).mp hq
  · exact .inr hx

theorem fieldsAux_length (sep : Char → Bool) : ∀ (s cur w : List Char), w ∈ fieldsAux sep s cur → w.length ≤ s.length + cur.length
  | [], cur, w, hw => by
    simp only [fieldsAux] at hw
    split at hw
    · cases hw
    · simp only [List.mem_cons, List.not_mem_nil, or_false] at hw
      subst hw
      simp
  | x :: s, cur, w, hw => by
    simp only [fieldsAux] at hw
    split at hw
    · split at hw
      · have := fieldsAux_length sep s [] w hw
        simp only [List.length_cons, List.length_nil] at this ⊢; omega
      · rcases List.mem_cons.mp hw with rfl | hw
        · simp
        · have := fieldsAux_length sep s [] w hw
          simp only [List.length_cons, List.length_nil] at this ⊢; omega
    · have := fieldsAux_length sep s (x :: cur) w hw
      simp only [List.length_cons] at this ⊢; omega

theorem occurs_length {text : List Char} {a b : Fixed} (h : Occurs (generateTokens text) a b) : b.text.length ≤ text.length := by
  obtain ⟨T, R, h | h⟩ := h
  · have := fieldsAux_length _ text [] (a.text ++ '~' :: b.text) (by unfold generateTokens at h; rw [h]; simp)
    simp only [List.length_append, List.length_cons, List.length_nil] at this; omega
  · have := fieldsAux_length _ text [] b.text (by unfold generateTokens at h; rw [h]; simp)
    simpa using this

theorem parse_returns {text : List Char}
    (h : ∀ a b : Fixed, a.WF → b.WF → Occurs (generateTokens text) a b → Ascending a b) {budget : Nat} (hb : 10 ^ text.length ≤ budget) :
    parse budget text ≠ .error .hang := by
  refine parseTokens_enough fun a b ha hb' ho => ⟨h a b ha hb' ho, ?_⟩
  have h1 : b.value < 10 ^ b.text.length := fixed_value_lt.resolve_right (not_not_intro hb')
  have h2 := Nat.pow_le_pow_right (n := 10) (by decide) (occurs_length ho)
  omega

/-! ## The texts of the grammar -/

theorem fixed_head (x : Fixed) : ∃ c r, x.text = c :: r ∧ c.isDigit = true := by
  obtain ⟨c, r, hw, hc, _⟩ := digits_cons (dec_ne (x.value / 10 ^ x.places)) (dec_digit _)
  exact ⟨c, _, by rw [Fixed.text, hw]; rfl, hc⟩

theorem sampleValue_of_int {n : Nat} {r : List Char} {x : Char} (hx : x.isDigit = false) :
    reSampleValue (dec n ++ x :: r) =
      ((if n = 0 then optFraction (x :: r) else optC optFraction (x :: r)) || (match x :: r with
        | '.' :: r => optC (· = []) (r.dropWhile Char.isDigit)
        | _ => false)) := by
  rcases Nat.eq_zero_or_pos n with rfl | hp
  · rfl
  · have ha := afterInt_dec n x hx r
    obtain ⟨c, t, hd, h0⟩ := dec_head hp
    rw [if_neg (by omega)]
    rw [hd] at ha ⊢
    simp only [List.cons_append] at ha ⊢
    unfold reSampleValue
    split
    · rename_i he; exact absurd (List.cons.inj he).1 h0
    · rw [ha]; rfl

theorem reValue_not {s : List Char} {c : Char} (h : c ∈ s) (hc : c.isDigit = false) : reValue s = false := by
  simp only [reValue, Bool.and_eq_false_iff]
  right
  rw [List.all_eq_false]
  exact ⟨c, h, by simp [hc]⟩

theorem classify_fixed {x : Fixed} (hx : x.WF) : classify x.text = .value ∨ classify x.text = .sampleValue := by
  obtain ⟨p, k, m⟩ := x
  cases p with
  | false => left; simp [Fixed.text, classify_dec]
  | true =>
    right
    unfold classify
    rw [if_neg (by rw [reValue_not (c := '.') (by simp [Fixed.text]) (by decide)]; simp), if_pos]
    simp only [Fixed.text, if_true]
    rw [sampleValue_of_int (by decide)]
    have : optFraction ('.' :: lastDigits k m) = true := List.all_eq_true.mpr (lastDigits_digit k m)
    split <;> simp [optC, this]

theorem classify_compact {x : Fixed} (h : x.point = true ∨ 0 < x.value) (hx : x.WF) (e : Nat) :
    classify (x.text ++ 'c' :: dec e) = .sampleValue := by
  obtain ⟨p, k, m⟩ := x
  unfold classify
  rw [if_neg (by rw [reValue_not (c := 'c') (by simp) (by decide)]; simp), if_pos]
  cases p with
  | false =>
    have : k = 0 := hx rfl
    subst this
    simp only [Bool.false_eq_true, false_or] at h
    simp only [Fixed.text, Nat.pow_zero, Nat.div_one, Bool.false_eq_true, if_false, List.append_nil]
    rw [sampleValue_of_int (by decide), if_neg (by omega)]
    simp [optC, dropWhile_digits (dec_digit e), optFraction]
  | true =>
    simp only [Fixed.text, if_true, List.append_assoc, List.cons_append]
    rw [sampleValue_of_int (by decide)]
    simp only [dropWhile_app (lastDigits_digit k m), List.dropWhile_cons_of_neg (show ¬ 'c'.isDigit = true by decide), optC,
      dropWhile_digits (dec_digit e), decide_true, Bool.or_true]

theorem classify_sample_range {a b : Fixed} (ha : a.WF) (hb : b.WF) : classify (a.text ++ '~' :: b.text) = .sampleRange := by
  have side : ∀ {x : Fixed}, x.WF → reSampleSide x.text = true := by
    intro x hx
    obtain ⟨p, k, m⟩ := x
    unfold reSampleSide
    cases p with
    | false =>
      have : k = 0 := hx rfl
      subst this
      simp only [Fixed.text, Nat.pow_zero, Nat.div_one, Bool.false_eq_true, if_false, List.append_nil]
      rcases Nat.eq_zero_or_pos m with rfl | hp
      · rfl
      · obtain ⟨c, t, hd, h0⟩ := dec_head hp
        have hdig := dec_digit m
        rw [hd] at hdig ⊢
        have : afterInt (c :: t) = some [] := by
          unfold afterInt
          split
          · rename_i he; exact absurd (List.cons.inj he).1 h0
          · rename_i he
            cases he
            rw [if_pos (hdig c (by simp)), dropWhile_digits fun x hx => hdig x (by simp [hx])]
          · rename_i he; cases he
        rw [this]; rfl
    | true =>
      simp only [Fixed.text, if_true]
      rw [afterInt_dec _ _ (by decide)]
      exact List.all_eq_true.mpr (lastDigits_digit k m)
  unfold classify
  have h1 : reValue (a.text ++ '~' :: b.text) = false := reValue_not (c := '~') (by simp) (by decide)
  have h4 : reSampleRange (a.text ++ '~' :: b.text) = true := by
    unfold reSampleRange
    rw [cut_some (fixed_no_tilde a)]
    simp [side ha, side hb]
  have h2 : reSampleValue (a.text ++ '~' :: b.text) = false := by
    generalize b.text = bt
    obtain ⟨p, k, m⟩ := a
    cases p with
    | false =>
      simp only [Fixed.text, Bool.false_eq_true, if_false, List.append_nil]
      rw [sampleValue_of_int (by decide)]
      split <;> simp [optC, optFraction]
    | true =>
      simp only [Fixed.text, if_true, List.append_assoc, List.cons_append]
      rw [sampleValue_of_int (by decide)]
      have hf : optFraction ('.' :: (lastDigits k m ++ '~' :: bt)) = false := by
        simp only [optFraction]
        rw [List.all_eq_false]
        exact ⟨'~', by simp, by decide⟩
      simp only [dropWhile_app (lastDigits_digit k m), List.dropWhile_cons_of_neg (show ¬ '~'.isDigit = true by decide), optC, hf]
      simp
  have h3 : reRange (a.text ++ '~' :: b.text) = false := by
    obtain ⟨p, k, m⟩ := a
    unfold reRange
    simp only [Bool.and_eq_false_iff]
    right
    cases p with
    | false =>
      simp only [Fixed.text, Bool.false_eq_true, if_false, List.append_nil]
      rw [dropWhile_app (dec_digit _), List.dropWhile_cons_of_neg (by decide)]
      rfl
    | true =>
      simp only [Fixed.text, if_true, List.append_assoc, List.cons_append]
      rw [dropWhile_app (dec_digit _), List.dropWhile_cons_of_neg (by decide)]
      have hd := lastDigits_digit k m
      cases hl : lastDigits k m with
      | nil => rfl
      | cons d ds =>
        rw [hl] at hd
        have : d ≠ '.' := digit_ne (hd d (by simp)) rfl
        simp only [List.cons_append]
        split
        · rename_i he
          simp only [List.cons.injEq, true_and] at he
          exact absurd he.1 this
        · rfl
  simp [h1, h2, h3, h4]

/-- A word of the samples. -/
inductive Atom
  | marker (decimal : Bool)
  | sample (s : Sample)
  | more

def Atom.text : Atom → List Char
  | .marker d => if d then ['@', 'd', 'e', 'c', 'i', 'm', 'a', 'l'] else ['@', 'i', 'n', 't', 'e', 'g', 'e', 'r']
  | .sample s => s.text
  | .more => ['…']

def Atom.numbers : Atom → List (List Char)
  | .sample s => s.numbers
  | _ => []

def Atom.WF : Atom → Prop
  | .sample s => s.WF
  | _ => True

theorem sample_head (s : Sample) : ∃ c r, s.text = c :: r ∧ c.isDigit = true := by
  cases s with
  | one x => exact fixed_head x
  | compact x e => obtain ⟨c, r, h, hc⟩ := fixed_head x; exact ⟨c, _, by rw [Sample.text, h]; rfl, hc⟩
  | range a b => obtain ⟨c, r, h, hc⟩ := fixed_head a; exact ⟨c, _, by rw [Sample.text, h]; rfl, hc⟩

theorem atoms_noCont (A : List Atom) : NoCont (A.map Atom.text) := by
  cases A with
  | nil => intro t r h; cases h
  | cons x A =>
    rw [List.map_cons]
    cases x with
    | marker d => cases d <;> exact noCont_of_head (by decide) (by decide)
    | sample s =>
      obtain ⟨c, r, h, hc⟩ := sample_head s
      rw [Atom.text, h]
      exact noCont_of_head (digit_ne hc rfl) (digit_ne hc rfl)
    | more => exact noCont_of_head (by decide) (by decide)

def sampleTok : Sample → Tok
  | .range _ _ => .sampleRange
  | s => classify s.text

theorem sampleTok_one {s : Sample} (hs : s.WF) : (sampleTok s = .value ∨ sampleTok s = .sampleValue) ∧ s.numbers = [s.text] ∨
    ∃ a b, s = .range a b := by
  cases s with
  | one x => exact .inl ⟨classify_fixed hs, rfl⟩
  | compact x e => exact .inl ⟨.inr (classify_compact hs.2 hs.1 e), rfl⟩
  | range a b => exact .inr ⟨a, b, rfl⟩

theorem stateOf_sample {s : Sample} (hs : s.WF) (A : List Atom) :
    stateOf (s.text :: A.map Atom.text) = ⟨sampleTok s, s.text, A.map Atom.text⟩ := by
  obtain ⟨c, r, h, hc⟩ := sample_head s
  rw [stateOf_number h hc (atoms_noCont A)]
  cases s with
  | range a b => rw [show classify (Sample.text (.range a b)) = .sampleRange from classify_sample_range hs.1 hs.2]; rfl
  | one x => rfl
  | compact x e => rfl

theorem stateOf_marker (d : Bool) (R : List (List Char)) : stateOf ((Atom.marker d).text :: R) = ⟨.sample, (Atom.marker d).text, R⟩ := by
  cases d <;> simp [stateOf, scan, lower, Atom.text]

theorem stateOf_more (R : List (List Char)) : stateOf (['…'] :: R) = stateOf R := by
  simp [stateOf, scan, lower]

theorem atoms_known : ∀ (A : List Atom), (∀ x ∈ A, x.WF) → (stateOf (A.map Atom.text)).tok ≠ .unknown
  | [], _ => by simp [stateOf, scan]
  | .marker d :: A, _ => by rw [List.map_cons, stateOf_marker]; simp
  | .more :: A, h => by
    rw [List.map_cons, Atom.text, stateOf_more]
    exact atoms_known A fun x hx => h x (List.mem_cons_of_mem _ hx)
  | .sample s :: A, h => by
    have hs : s.WF := h (.sample s) List.mem_cons_self
    rw [List.map_cons, Atom.text, stateOf_sample hs]
    rcases sampleTok_one hs with ⟨h | h, _⟩ | ⟨a, b, rfl⟩
    · simp [h]
    · simp [h]
    · simp [sampleTok]

theorem atoms_next {A : List Atom} (h : ∀ x ∈ A, x.WF) (t : Tok) (l : List Char) :
    scanNext ⟨t, l, A.map Atom.text⟩ = .ok (stateOf (A.map Atom.text)) :=
  scanNext_eq (atoms_known A h)

/-- The ranges go upwards, and the budget suffices for them. -/
def AtomsUp (budget : Nat) (A : List Atom) : Prop := ∀ a b, Atom.sample (.range a b) ∈ A → Ascending a b ∧ b.value - a.value < budget

theorem atoms_loop {budget : Nat} : ∀ (A : List Atom) (f : Nat), (∀ x ∈ A, x.WF) → A.length < f → AtomsUp budget A →
    samplesLoop budget f (stateOf (A.map Atom.text)) = .ok (A.flatMap Atom.numbers)
  | [], f, _, hf, _ => by
    obtain ⟨f, rfl⟩ : ∃ n, f = n + 1 := ⟨f - 1, by simp at hf; omega⟩
    rfl
  | .marker d :: A, f, h, hf, hu => by
    obtain ⟨f, rfl⟩ : ∃ n, f = n + 1 := ⟨f - 1, by simp at hf; omega⟩
    have h' := fun x hx => h x (List.mem_cons_of_mem _ hx)
    have ih := atoms_loop A f h' (by simp at hf; omega) (fun a b hm => hu a b (List.mem_cons_of_mem _ hm))
    rw [List.map_cons, stateOf_marker]
    simp only [samplesLoop, atoms_next h', bind, Except.bind, ih]
    rfl
  | .more :: A, f, h, hf, hu => by
    rw [List.map_cons, Atom.text, stateOf_more]
    exact atoms_loop A f (fun x hx => h x (List.mem_cons_of_mem _ hx)) (by simp at hf; omega)
      (fun a b hm => hu a b (List.mem_cons_of_mem _ hm))
  | .sample s :: A, f, h, hf, hu => by
    obtain ⟨f, rfl⟩ : ∃ n, f = n + 1 := ⟨f - 1, by simp at hf; omega⟩
    have h' := fun x hx => h x (List.mem_cons_of_mem _ hx)
    have ih := atoms_loop A f h' (by simp at hf; omega) (fun a b hm => hu a b (List.mem_cons_of_mem _ hm))
    have hs : s.WF := h (.sample s) List.mem_cons_self
    rw [List.map_cons, Atom.text, stateOf_sample hs, List.flatMap_cons]
    rcases sampleTok_one hs with ⟨ht, hn⟩ | ⟨a, b, rfl⟩
    · rcases ht with ht | ht
      · simp only [samplesLoop, ht, atoms_next h', bind, Except.bind, ih, Atom.numbers, hn]
        rfl
      · simp only [samplesLoop, ht, atoms_next h', bind, Except.bind, ih, Atom.numbers, hn]
        rfl
    · obtain ⟨hup, hb⟩ := hu a b List.mem_cons_self
      simp only [samplesLoop, sampleTok, Sample.text, range_up hs.2 hup hb, atoms_next h', bind, Except.bind, ih]
      rfl

theorem atoms_hang {budget : Nat} {a b : Fixed} (hn : ¬ Ascending a b) : ∀ (A : List Atom) (f : Nat), (∀ x ∈ A, x.WF) → A.length < f →
    Atom.sample (.range a b) ∈ A → samplesLoop budget f (stateOf (A.map Atom.text)) = .error .hang
  | .marker d :: A, f, h, hf, hm => by
    obtain ⟨f, rfl⟩ : ∃ n, f = n + 1 := ⟨f - 1, by simp at hf; omega⟩
    have h' := fun x hx => h x (List.mem_cons_of_mem _ hx)
    have ih := atoms_hang (budget := budget) hn A f h' (by simp at hf; omega) (by simpa using hm)
    rw [List.map_cons, stateOf_marker]
    simp only [samplesLoop, atoms_next h', bind, Except.bind, ih]
  | .more :: A, f, h, hf, hm => by
    rw [List.map_cons, Atom.text, stateOf_more]
    exact atoms_hang hn A f (fun x hx => h x (List.mem_cons_of_mem _ hx)) (by simp at hf; omega) (by simpa using hm)
  | .sample s :: A, f, h, hf, hm => by
    obtain ⟨f, rfl⟩ : ∃ n, f = n + 1 := ⟨f - 1, by simp at hf; omega⟩
    have h' := fun x hx => h x (List.mem_cons_of_mem _ hx)
    have hs : s.WF := h (.sample s) List.mem_cons_self
    rw [List.map_cons, Atom.text, stateOf_sample hs]
    by_cases he : s = .range a b
    · subst he
      simp only [samplesLoop, sampleTok, Sample.text, range_never hs.1 hs.2 hn, bind, Except.bind]
    · have hm' : Atom.sample (.range a b) ∈ A := by
        rcases List.mem_cons.mp hm with h | h
        · exact absurd (by injection h with h; exact h.symm) he
        · exact h
      have ih := atoms_hang (budget := budget) hn A f h' (by simp at hf; omega) hm'
      rcases sampleTok_one hs with ⟨ht, _⟩ | ⟨c, d, rfl⟩
      · rcases ht with ht | ht <;> simp only [samplesLoop, ht, atoms_next h', bind, Except.bind, ih]
      · simp only [samplesLoop, sampleTok, bind, Except.bind]
        cases hp : parseSampleRange budget (Sample.range c d).text with
        | error e => have := parseSampleRange_err hp; subst this; rfl
        | ok vs => simp only [atoms_next h', ih]

/-! ## The words of the samples -/

def groupAtoms (g : Group) : List Atom := .marker g.decimal :: (g.samples.map .sample ++ if g.more then [.more] else [])

theorem fixed_chars {x : Fixed} : ∀ c ∈ x.text, sepc c = false := by
  intro c hc
  unfold Fixed.text at hc
  rcases List.mem_append.mp hc with hc | hc
  · exact digit_sepc (dec_digit _ c hc)
  · split at hc
    · rcases List.mem_cons.mp hc with rfl | hc
      · decide
      · exact digit_sepc (lastDigits_digit _ _ c hc)
    · cases hc

theorem words_sample (s : Sample) : Words s.text [s.text] := by
  obtain ⟨c, r, h, hc⟩ := sample_head s
  refine .word (by rw [h]; simp) ?_
  intro x hx
  cases s with
  | one y => exact fixed_chars x hx
  | compact y e =>
    rcases List.mem_append.mp hx with hx | hx
    · exact fixed_chars x hx
    · rcases List.mem_cons.mp hx with rfl | hx
      · decide
      · exact digit_sepc (dec_digit _ x hx)
  | range a b =>
    rcases List.mem_append.mp hx with hx | hx
    · exact fixed_chars x hx
    · rcases List.mem_cons.mp hx with rfl | hx
      · decide
      · exact fixed_chars x hx

theorem Words.gap {t : List Char} {b : List (List Char)} (h : Words t b) {c : Char} (hc : sepc c = true) : Words (c :: t) b := by
  intro r hr
  rw [← h r hr]
  simp [fieldsAux, hc]

theorem words_list : ∀ (ws : List (List Char)), ws ≠ [] → (∀ w ∈ ws, Words w [w]) → Words (sepBy [',', ' '] ws) ws
  | [], h, _ => absurd rfl h
  | [w], _, h => h w List.mem_cons_self
  | w :: w' :: ws, _, h => by
    have ih := words_list (w' :: ws) (by simp) fun x hx => h x (List.mem_cons_of_mem _ hx)
    have := (h w List.mem_cons_self).join (ih.gap (c := ' ') (by decide)) (c := ',') (by decide)
    simpa [sepBy] using this

theorem words_group {g : Group} (hg : g.WF) : Words g.text ((groupAtoms g).map Atom.text) := by
  have h1 : Words (if g.decimal then ['@', 'd', 'e', 'c', 'i', 'm', 'a', 'l'] else ['@', 'i', 'n', 't', 'e', 'g', 'e', 'r'])
      [(Atom.marker g.decimal).text] := by
    cases g.decimal <;> exact .word (by decide) (by decide)
  have h2 : Words (sepBy [',', ' '] (g.samples.map Sample.text ++ if g.more then [['…']] else []))
      (g.samples.map Sample.text ++ if g.more then [['…']] else []) := by
    apply words_list
    · have := hg.1
      cases hs : g.samples with
      | nil => exact absurd hs this
      | cons => simp
    · intro w hw
      rcases List.mem_append.mp hw with hw | hw
      · obtain ⟨s, _, rfl⟩ := List.mem_map.mp hw
        exact words_sample s
      · split at hw
        · simp only [List.mem_cons, List.not_mem_nil, or_false] at hw
          subst hw
          exact .word (by decide) (by decide)
        · cases hw
  have := h1.join h2 (c := ' ') (by decide)
  unfold Group.text groupAtoms
  have e : (g.samples.map Atom.sample ++ if g.more then [Atom.more] else []).map Atom.text =
      g.samples.map Sample.text ++ if g.more then [['…']] else [] := by
    rw [List.map_append, List.map_map]
    congr 1
    split <;> rfl
  rw [List.map_cons, e]
  exact this

theorem words_samples : ∀ (gs : List Group), (∀ g ∈ gs, g.WF) →
    generateTokens (samplesText gs) = (gs.flatMap groupAtoms).map Atom.text
  | [], _ => rfl
  | g :: gs, h => by
    have ih := words_samples gs fun x hx => h x (List.mem_cons_of_mem _ hx)
    have hw := (words_group (h g List.mem_cons_self)).gap (c := ' ') (by decide)
    have := hw (samplesText gs) (by cases gs with
      | nil => exact .inl rfl
      | cons g gs => exact .inr ⟨' ', _, rfl, by decide⟩)
    rw [List.flatMap_cons, List.map_append, ← ih]
    exact this

theorem group_numbers (gs : List Group) :
    (gs.flatMap groupAtoms).flatMap Atom.numbers = gs.flatMap fun g => g.samples.flatMap Sample.numbers := by
  induction gs with
  | nil => rfl
  | cons g gs ih =>
    rw [List.flatMap_cons, List.flatMap_append, ih, List.flatMap_cons]
    congr 1
    simp only [groupAtoms, List.flatMap_cons, Atom.numbers, List.nil_append, List.flatMap_append, List.flatMap_map]
    split <;> simp [Atom.numbers]

theorem group_range {gs : List Group} {a b : Fixed} :
    Atom.sample (.range a b) ∈ gs.flatMap groupAtoms ↔ ∃ g ∈ gs, Sample.range a b ∈ g.samples := by
  simp only [List.mem_flatMap, groupAtoms, List.mem_cons, List.mem_append, List.mem_map]
  constructor
  · rintro ⟨g, hg, h | ⟨s, hs, h⟩ | h⟩
    · cases h
    · injection h with h; subst h; exact ⟨g, hg, hs⟩
    · split at h
      · simp at h
      · cases h
  · rintro ⟨g, hg, h⟩
    exact ⟨g, hg, .inr (.inl ⟨_, h, rfl⟩)⟩

theorem group_wf {gs : List Group} (h : ∀ g ∈ gs, g.WF) : ∀ x ∈ gs.flatMap groupAtoms, x.WF := by
  intro x hx
  obtain ⟨g, hg, hx⟩ := List.mem_flatMap.mp hx
  simp only [groupAtoms, List.mem_cons, List.mem_append, List.mem_map] at hx
  rcases hx with rfl | ⟨s, hs, rfl⟩ | hx
  · trivial
  · exact (h g hg).2 s hs
  · split at hx
    · simp only [List.mem_cons, List.not_mem_nil, or_false] at hx; subst hx; trivial
    · cases hx

theorem group_samples {gs : List Group} (hg : ∀ g ∈ gs, g.WF) {budget f : Nat} (hf : (gs.flatMap groupAtoms).length < f) :
    ((∀ a b, (∃ g ∈ gs, Sample.range a b ∈ g.samples) → Ascending a b ∧ b.value - a.value < budget) →
      samples budget f (stateOf (generateTokens (samplesText gs))) = .ok (gs.flatMap fun g => g.samples.flatMap Sample.numbers)) ∧
    (¬ Upwards gs → samples budget f (stateOf (generateTokens (samplesText gs))) = .error .hang) := by
  rw [words_samples gs hg]
  cases gs with
  | nil => exact ⟨fun _ => rfl, fun h => absurd (fun g hg => by cases hg) h⟩
  | cons g gs =>
    have ht : (stateOf (((g :: gs).flatMap groupAtoms).map Atom.text)).tok = .sample := by
      rw [List.flatMap_cons, groupAtoms, List.cons_append, List.map_cons, stateOf_marker]
    unfold samples
    rw [if_neg (by rw [ht]; decide), if_neg (by rw [ht]; simp)]
    refine ⟨fun h => ?_, fun h => ?_⟩
    · rw [atoms_loop _ f (group_wf hg) hf fun a b hm => h a b (group_range.mp hm), group_numbers]
    · have : ∃ a b, (∃ g' ∈ g :: gs, Sample.range a b ∈ g'.samples) ∧ ¬ Ascending a b := by
        apply Classical.byContradiction
        intro hne
        refine h fun g' hg' a b hr => Classical.byContradiction fun hn => hne ⟨a, b, ⟨g', hg', hr⟩, hn⟩
      obtain ⟨a, b, hr, hn⟩ := this
      exact atoms_hang hn _ f (group_wf hg) hf (group_range.mpr hr)

end Verif.Proofs.Cldr
