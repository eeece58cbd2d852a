import Verif.Proofs.Cldr.Decimal
/-! The parser reads the text of a condition as that condition. -/
namespace Verif.Proofs.Cldr
open Verif.Go Verif.Model.Cldr Verif.Spec.Cldr Verif.Cldr

/-! ## Decimal numbers -/

theorem dec_ne (n : Nat) : dec n ≠ [] := Nat.toDigits_ne_nil

theorem dec_digit (n : Nat) : ∀ c ∈ dec n, c.isDigit = true := fun _ hc =>
  Nat.isDigit_of_mem_toDigits (by decide) (by decide) hc

theorem dec_val (n : Nat) : Spec.Cldr.digitsVal (dec n) = n := by
  have h : Nat.ofDigitChars 10 (Nat.toDigits 10 n) 0 = n := Nat.ofDigitChars_ten_toDigits
  rw [Nat.ofDigitChars_eq_foldl] at h
  have e : (fun (a : Nat) (c : Char) => a * 10 + (c.toNat - '0'.toNat)) =
    (fun sofar c => 10 * sofar + (c.toNat - '0'.toNat)) := by
    funext a c; rw [Nat.mul_comm]
  unfold Spec.Cldr.digitsVal dec
  rw [e]; exact h

theorem digitChar_ne_zero (n : Nat) (h0 : 0 < n) (h : n < 10) : n.digitChar ≠ '0' := by
  have : ∀ n : Fin 10, 0 < n.val → n.val.digitChar ≠ '0' := by decide
  exact this ⟨n, h⟩ h0

theorem digit_range {c : Char} (h : c.isDigit = true) : 48 ≤ c.toNat ∧ c.toNat ≤ 57 := by
  simp [Char.isDigit] at h
  exact ⟨UInt32.le_iff_toNat_le.mp h.1, UInt32.le_iff_toNat_le.mp h.2⟩

theorem dec_head {n : Nat} (h : 0 < n) : ∃ c r, dec n = c :: r ∧ c ≠ '0' := by
  induction n using Nat.strongRecOn with
  | ind n ih =>
    unfold dec at *
    rcases Nat.lt_or_ge n 10 with hl | hg
    · exact ⟨_, [], Nat.toDigits_of_lt_base hl, digitChar_ne_zero n h hl⟩
    · obtain ⟨c, r, hc, h0⟩ := ih (n / 10) (Nat.div_lt_self h (by decide)) (Nat.div_pos hg (by decide))
      rw [Nat.toDigits_of_base_le (by decide) hg, hc]
      exact ⟨c, _, rfl, h0⟩

/-! ## Splitting into words -/

def sepc (c : Char) : Bool := isSpace c || c = ','

/-- `s` consists of the words `ws`. -/
def Words (s : List Char) (ws : List (List Char)) : Prop :=
  ∀ r, (r = [] ∨ ∃ c r', r = c :: r' ∧ sepc c = true) → fieldsAux sepc (s ++ r) [] = ws ++ fieldsAux sepc r []

theorem fieldsAux_word (w : List Char) (hw : ∀ c ∈ w, sepc c = false) (r cur : List Char) :
    fieldsAux sepc (w ++ r) cur = fieldsAux sepc r (w.reverse ++ cur) := by
  induction w generalizing cur with
  | nil => rfl
  | cons c w ih =>
    simp only [List.cons_append, fieldsAux]
    rw [if_neg (by rw [hw c List.mem_cons_self]; simp), ih fun x hx => hw x (List.mem_cons_of_mem _ hx)]
    simp

theorem Words.word {w : List Char} (h0 : w ≠ []) (hw : ∀ c ∈ w, sepc c = false) : Words w [w] := by
  intro r hr
  rw [fieldsAux_word w hw]
  rcases hr with rfl | ⟨c, r', rfl, hc⟩
  · simp [fieldsAux, h0]
  · simp [fieldsAux, h0, hc]

theorem Words.join {s t : List Char} {a b : List (List Char)} (hs : Words s a) (ht : Words t b) {c : Char}
    (hc : sepc c = true) : Words (s ++ c :: t) (a ++ b) := by
  intro r hr
  rw [List.append_assoc, List.cons_append, hs _ (Or.inr ⟨c, t ++ r, rfl, hc⟩)]
  have : fieldsAux sepc (c :: (t ++ r)) [] = fieldsAux sepc (t ++ r) [] := by
    simp [fieldsAux, hc]
  rw [this, ht r hr, List.append_assoc]

theorem digit_sepc {c : Char} (h : c.isDigit = true) : sepc c = false := by
  have hr := digit_range h
  have hne : c ≠ ',' := digit_ne h rfl
  unfold sepc
  rw [decide_eq_false hne, Bool.or_false]
  simp only [isSpace, Bool.or_eq_false_iff, Bool.and_eq_false_iff, decide_eq_false_iff_not]
  omega

theorem words_dec (n : Nat) : Words (dec n) [dec n] :=
  .word (dec_ne n) fun c hc => digit_sepc (dec_digit n c hc)

/-! ## Words of a condition -/

def modWords : Option Nat → List (List Char)
  | none => []
  | some m => [['%'], dec m]

def cmpWord (neg : Bool) : List Char := if neg then ['!', '='] else ['=']

def relWords (r : Rel) : List (List Char) :=
  [r.opd.text] ++ modWords r.mod ++ [cmpWord r.neg] ++ r.items.map itemText

def conjWords : List Rel → List (List Char)
  | [] => []
  | [r] => relWords r
  | r :: rs => relWords r ++ ['a', 'n', 'd'] :: conjWords rs

def condWords : Cond → List (List Char)
  | [] => []
  | [c] => conjWords c
  | c :: cs => conjWords c ++ ['o', 'r'] :: condWords cs

theorem words_item (it : Nat × Option Nat) : Words (itemText it) [itemText it] := by
  obtain ⟨lo, hi⟩ := it
  cases hi with
  | none => exact words_dec lo
  | some hi =>
    refine .word (by simp [itemText, dec_ne]) ?_
    intro c hc
    simp only [itemText, List.mem_append, List.mem_cons, List.not_mem_nil, or_false] at hc
    rcases hc with (hc | rfl | rfl) | hc
    · exact digit_sepc (dec_digit _ c hc)
    · decide
    · decide
    · exact digit_sepc (dec_digit _ c hc)

theorem words_items : ∀ (its : List (Nat × Option Nat)), its ≠ [] →
    Words (sepBy [','] (its.map itemText)) (its.map itemText)
  | [], h => absurd rfl h
  | [it], _ => words_item it
  | it :: it' :: its, _ => by
    have ih := words_items (it' :: its) (by simp)
    have : sepBy [','] ((it :: it' :: its).map itemText) =
      itemText it ++ ',' :: sepBy [','] ((it' :: its).map itemText) := by
      simp [sepBy]
    rw [this]
    exact (words_item it).join ih (by decide)

theorem words_opd (o : Opd) : Words o.text [o.text] := by
  cases o <;> exact .word (by decide) (by decide)

theorem words_rel {r : Rel} (h : r.items ≠ []) : Words r.text (relWords r) := by
  have hi := words_items r.items h
  have hc : Words (cmpWord r.neg) [cmpWord r.neg] := by
    cases r.neg <;> exact .word (by decide) (by decide)
  have h1 := hc.join hi (c := ' ') (by decide)
  unfold Rel.text relWords
  cases hm : r.mod with
  | none =>
    have h2 := (words_opd r.opd).join h1 (c := ' ') (by decide)
    simp only [modWords, List.append_nil]
    cases hn : r.neg <;> simp only [hn, cmpWord] at h2 ⊢ <;> simpa using h2
  | some m =>
    have h2 := (words_dec m).join h1 (c := ' ') (by decide)
    have h3 := (Words.word (w := ['%']) (by decide) (by decide)).join h2 (c := ' ') (by decide)
    have h4 := (words_opd r.opd).join h3 (c := ' ') (by decide)
    simp only [modWords]
    cases hn : r.neg <;> simp only [hn, cmpWord] at h4 ⊢ <;> simpa using h4

theorem words_conj : ∀ (c : List Rel), c ≠ [] → (∀ r ∈ c, r.items ≠ []) →
    Words (conjText c) (conjWords c)
  | [], h, _ => absurd rfl h
  | [r], _, h => words_rel (h r List.mem_cons_self)
  | r :: r' :: rs, _, h => by
    have ih := words_conj (r' :: rs) (by simp) (fun x hx => h x (List.mem_cons_of_mem _ hx))
    have h2 := (Words.word (w := ['a', 'n', 'd']) (by decide) (by decide)).join ih (c := ' ') (by decide)
    have h3 := (words_rel (h r List.mem_cons_self)).join h2 (c := ' ') (by decide)
    have e1 : conjText (r :: r' :: rs) = r.text ++ ' ' :: (['a', 'n', 'd'] ++ ' ' :: conjText (r' :: rs)) := by
      simp [conjText, sepBy]
    have e2 : conjWords (r :: r' :: rs) = relWords r ++ ([['a', 'n', 'd']] ++ conjWords (r' :: rs)) := rfl
    rw [e1, e2]
    exact h3

theorem words_cond : ∀ (c : Cond), c ≠ [] → (∀ conj ∈ c, conj ≠ [] ∧ ∀ r ∈ conj, r.items ≠ []) →
    Words (Cond.text c) (condWords c)
  | [], h, _ => absurd rfl h
  | [c], _, h => words_conj c (h c List.mem_cons_self).1 (h c List.mem_cons_self).2
  | c :: c' :: cs, _, h => by
    have ih := words_cond (c' :: cs) (by simp) (fun x hx => h x (List.mem_cons_of_mem _ hx))
    have h2 := (Words.word (w := ['o', 'r']) (by decide) (by decide)).join ih (c := ' ') (by decide)
    have h1 := words_conj c (h c List.mem_cons_self).1 (h c List.mem_cons_self).2
    have h3 := h1.join h2 (c := ' ') (by decide)
    have e1 : Cond.text (c :: c' :: cs) = conjText c ++ ' ' :: (['o', 'r'] ++ ' ' :: Cond.text (c' :: cs)) := by
      simp [Cond.text, sepBy]
    have e2 : condWords (c :: c' :: cs) = conjWords c ++ ([['o', 'r']] ++ condWords (c' :: cs)) := rfl
    rw [e1, e2]
    exact h3

/-! ## Scanning the words -/

/-- The parser state after reading one token. -/
def stateOf (toks : List (List Char)) : PState := ⟨(scan toks).1, (scan toks).2.1, (scan toks).2.2⟩

theorem scanNext_eq {st : PState} (_ : (stateOf st.rest).tok ≠ .unknown) :
    scanNext st = .ok (stateOf st.rest) := by
  unfold scanNext scanToken
  exact if_neg (by decide)

/-- The next word does not continue a number. -/
def NoCont (R : List (List Char)) : Prop := ∀ t r, R = t :: r → t ≠ ['.', '.'] ∧ t ≠ ['~']

theorem lower_digit {c : Char} (h : c.isDigit = true) : lower c = c := by
  have hr := digit_range h
  unfold lower
  rw [if_neg, if_neg]
  · omega
  · rintro ⟨h1, _⟩
    have h1' : ('A' : Char).toNat ≤ c.toNat := UInt32.le_iff_toNat_le.mp h1
    have : ('A' : Char).toNat = 65 := rfl
    omega

/-- A word that begins with a digit is not a keyword. -/
theorem scan_digit {c : Char} {w : List Char} {R : List (List Char)} (h : c.isDigit = true) :
    scan ((c :: w) :: R) = scanNumber (c :: w) R := by
  have hne : ∀ (x : Char) (y : List Char), x.isDigit = false → ((c :: w).map lower = x :: y) = False := by
    intro x y hx
    rw [List.map_cons, lower_digit h, eq_iff_iff, iff_false]
    intro he
    exact digit_ne h hx (List.cons.inj he).1
  simp only [scan]
  simp only [hne _ _ (rfl : 'n'.isDigit = false), hne _ _ (rfl : 'i'.isDigit = false),
    hne _ _ (rfl : 'v'.isDigit = false), hne _ _ (rfl : 'w'.isDigit = false),
    hne _ _ (rfl : 'f'.isDigit = false), hne _ _ (rfl : 't'.isDigit = false),
    hne _ _ (rfl : 'c'.isDigit = false), hne _ _ (rfl : 'e'.isDigit = false),
    hne _ _ (rfl : '='.isDigit = false), hne _ _ (rfl : '%'.isDigit = false),
    hne _ _ (rfl : 'm'.isDigit = false), hne _ _ (rfl : '!'.isDigit = false),
    hne _ _ (rfl : '@'.isDigit = false), hne _ _ (rfl : 'a'.isDigit = false),
    hne _ _ (rfl : 'o'.isDigit = false), hne _ _ (rfl : '…'.isDigit = false),
    hne _ _ (rfl : '.'.isDigit = false), or_self, if_false]

theorem scanNumber_noCont {w : List Char} {R : List (List Char)} (h : NoCont R) :
    scanNumber w R = (classify w, w, R) := by
  unfold scanNumber
  cases R with
  | nil => rfl
  | cons t r =>
    have := h t r rfl
    simp only [this.1, this.2, or_self, if_false]

theorem stateOf_number {w : List Char} {R : List (List Char)} {c : Char} {r : List Char} (hw : w = c :: r)
    (hc : c.isDigit = true) (h : NoCont R) : stateOf (w :: R) = ⟨classify w, w, R⟩ := by
  subst hw
  unfold stateOf
  rw [scan_digit hc, scanNumber_noCont h]

theorem classify_dec (n : Nat) : classify (dec n) = .value := by
  unfold classify
  rw [if_pos]
  simp only [reValue, Bool.and_eq_true, decide_eq_true_eq, List.all_eq_true]
  exact ⟨dec_ne n, dec_digit n⟩

theorem stateOf_dec (n : Nat) {R : List (List Char)} (h : NoCont R) :
    stateOf (dec n :: R) = ⟨.value, dec n, R⟩ := by
  obtain ⟨c, r, hw, hc, _⟩ := digits_cons (dec_ne n) (dec_digit n)
  rw [stateOf_number hw hc h, classify_dec]

theorem afterInt_dec (n : Nat) (x : Char) (hx : x.isDigit = false) (r : List Char) :
    afterInt (dec n ++ x :: r) = some (x :: r) := by
  rcases Nat.eq_zero_or_pos n with rfl | hp
  · rfl
  · obtain ⟨c, t, hd, h0⟩ := dec_head hp
    have hdig := dec_digit n
    rw [hd] at hdig ⊢
    have hc := hdig c List.mem_cons_self
    simp only [List.cons_append]
    unfold afterInt
    split
    · rename_i he; exact absurd (List.cons.inj he).1 h0
    · rename_i he
      cases he
      rw [if_pos hc, dropWhile_app fun x hx => hdig x (List.mem_cons_of_mem _ hx),
        List.dropWhile_cons_of_neg (by rw [hx]; simp)]
    · rename_i he; cases he

theorem optFraction_dots (r : List Char) : optFraction ('.' :: '.' :: r) = false := rfl

theorem reSampleValue_range (lo : Nat) (r : List Char) : reSampleValue (dec lo ++ '.' :: '.' :: r) = false := by
  rcases Nat.eq_zero_or_pos lo with rfl | hp
  · rfl
  · have ha := afterInt_dec lo '.' rfl ('.' :: r)
    obtain ⟨c, t, hd, h0⟩ := dec_head hp
    rw [hd] at ha ⊢
    simp only [List.cons_append] at ha ⊢
    unfold reSampleValue
    split
    · rename_i he; exact absurd (List.cons.inj he).1 h0
    · rw [ha]; rfl

theorem classify_range (lo : Nat) {hi : Nat} (h : 0 < hi) :
    classify (dec lo ++ '.' :: '.' :: dec hi) = .valueRange := by
  unfold classify
  have h1 : reValue (dec lo ++ '.' :: '.' :: dec hi) = false := by
    simp only [reValue, Bool.and_eq_false_iff]
    right
    rw [List.all_eq_false]
    exact ⟨'.', by simp, by decide⟩
  obtain ⟨c, t, hd, h0⟩ := dec_head h
  have hdig := dec_digit hi
  rw [hd] at hdig
  have h2 : reRange (dec lo ++ '.' :: '.' :: dec hi) = true := by
    unfold reRange
    rw [takeWhile_app (dec_digit lo), dropWhile_app (dec_digit lo), List.dropWhile_cons_of_neg (by decide), hd]
    simp only [Bool.and_eq_true, decide_eq_true_eq, List.all_eq_true]
    refine ⟨?_, ⟨h0, hdig c List.mem_cons_self⟩, fun x hx => hdig x (List.mem_cons_of_mem _ hx)⟩
    intro he
    exact dec_ne lo (List.append_eq_nil_iff.mp he).1
  simp only [h1, h2, reSampleValue_range, Bool.false_eq_true, if_false, if_true]

theorem stateOf_range (lo : Nat) {hi : Nat} (h : 0 < hi) {R : List (List Char)} (hR : NoCont R) :
    stateOf (itemText (lo, some hi) :: R) = ⟨.valueRange, itemText (lo, some hi), R⟩ := by
  obtain ⟨c, r, hw, hc, _⟩ := digits_cons (dec_ne lo) (dec_digit lo)
  have hw' : itemText (lo, some hi) = c :: (r ++ '.' :: '.' :: dec hi) := by simp [itemText, hw]
  rw [stateOf_number hw' hc hR]
  have : itemText (lo, some hi) = dec lo ++ '.' :: '.' :: dec hi := by simp [itemText]
  rw [this, classify_range lo h]

theorem item_digit (it : Nat × Option Nat) : ∃ c r, itemText it = c :: r ∧ c.isDigit = true := by
  obtain ⟨lo, hi⟩ := it
  obtain ⟨c, r, hw, hc, _⟩ := digits_cons (dec_ne lo) (dec_digit lo)
  cases hi with
  | none => exact ⟨c, r, hw, hc⟩
  | some hi => exact ⟨c, r ++ '.' :: '.' :: dec hi, by simp [itemText, hw], hc⟩

theorem noCont_of_head {c : Char} {w : List Char} {R : List (List Char)} (h1 : c ≠ '.') (h2 : c ≠ '~') :
    NoCont ((c :: w) :: R) := by
  intro t r he
  cases he
  exact ⟨fun h => h1 (List.cons.inj h).1, fun h => h2 (List.cons.inj h).1⟩

theorem noCont_item (it : Nat × Option Nat) (R : List (List Char)) : NoCont (itemText it :: R) := by
  obtain ⟨c, r, hw, hc⟩ := item_digit it
  rw [hw]
  exact noCont_of_head (digit_ne hc rfl) (digit_ne hc rfl)

/-- What follows a relation: nothing, a connective, or the samples. -/
inductive Follow : List (List Char) → Prop
  | nil : Follow []
  | and {R} : Follow (['a', 'n', 'd'] :: R)
  | or {R} : Follow (['o', 'r'] :: R)
  | integer {R} : Follow (['@', 'i', 'n', 't', 'e', 'g', 'e', 'r'] :: R)
  | decimal {R} : Follow (['@', 'd', 'e', 'c', 'i', 'm', 'a', 'l'] :: R)

theorem Follow.noCont {R} (h : Follow R) : NoCont R := by
  cases h with
  | nil => intro t r he; cases he
  | _ => exact noCont_of_head (by decide) (by decide)

theorem Follow.tok {R} (h : Follow R) : (stateOf R).tok ≠ .unknown ∧ (stateOf R).tok ≠ .value ∧
    (stateOf R).tok ≠ .valueRange := by
  cases h <;> exact ⟨by simp [stateOf, scan, lower], by simp [stateOf, scan, lower], by simp [stateOf, scan, lower]⟩

/-! ## Parsing the words -/

def astItem : Nat × Option Nat → Item
  | (k, none) => .value k
  | (lo, some hi) => .range lo hi

def astExpr (r : Rel) : ExprNode :=
  match r.mod with
  | none => .operand r.opd.text
  | some m => .modulo r.opd.text m

def astRel (r : Rel) : Node := .rel (astExpr r) r.neg (r.items.map astItem)

def astConj : List Rel → Node
  | [] => .rel (.operand []) true []
  | [r] => astRel r
  | r :: rs => .and (astRel r) (astConj rs)

def astCond : Cond → Node
  | [] => .rel (.operand []) false []
  | [c] => astConj c
  | c :: cs => .or (astConj c) (astCond cs)

theorem satInt_dec {n : Nat} (h : n < 2 ^ 63) : satInt (dec n) = n := by
  unfold satInt
  rw [digitsVal_eq, dec_val, if_pos h]

theorem splitRange_dec (lo hi : Nat) : splitRange (dec lo ++ '.' :: '.' :: dec hi) = some (dec lo, dec hi) := by
  have h := dec_digit lo
  generalize dec lo = l at h
  induction l with
  | nil => rfl
  | cons c l ih =>
    have hc := digit_ne (h c List.mem_cons_self) (rfl : '.'.isDigit = false)
    have ih := ih fun x hx => h x (List.mem_cons_of_mem _ hx)
    simp only [List.cons_append]
    unfold splitRange
    split
    · rename_i he; exact absurd (List.cons.inj he).1 hc
    · rename_i he; cases he; rw [ih]; rfl
    · rename_i he; cases he

theorem item_parse {b : Nat} (hb : b ≤ 2 ^ 63) {it : Nat × Option Nat} (hwf : itemWF b it) {R : List (List Char)}
    (hn : NoCont R) (hR : (stateOf R).tok ≠ .unknown) :
    item (stateOf (itemText it :: R)) = .ok (astItem it, stateOf R) := by
  obtain ⟨lo, hi⟩ := it
  cases hi with
  | none =>
    have hlo : lo < b := hwf
    have e : itemText (lo, none) = dec lo := rfl
    have hs : scanNext ⟨.value, dec lo, R⟩ = .ok (stateOf R) := scanNext_eq (by exact hR)
    rw [e, stateOf_dec lo hn]
    simp only [item, value, if_true, ne_eq, not_true_eq_false, if_false, hs, bind, Except.bind,
      satInt_dec (show lo < 2 ^ 63 by omega), astItem]
  | some hi =>
    obtain ⟨h1, h2, h3⟩ := (hwf : lo ≤ hi ∧ 0 < hi ∧ hi < b)
    have hs : scanNext ⟨.valueRange, itemText (lo, some hi), R⟩ = .ok (stateOf R) :=
      scanNext_eq (by exact hR)
    have e : itemText (lo, some hi) = dec lo ++ '.' :: '.' :: dec hi := by simp [itemText]
    have hp1 : parseInt (dec lo) = some (lo : Int) := by
      rw [parseInt_digits (dec_ne lo) (dec_digit lo) (by rw [dec_val]; omega), dec_val]
    have hp2 : parseInt (dec hi) = some (hi : Int) := by
      rw [parseInt_digits (dec_ne hi) (dec_digit hi) (by rw [dec_val]; omega), dec_val]
    have hsp : splitRange (itemText (lo, some hi)) = some (dec lo, dec hi) := by
      rw [e]; exact splitRange_dec lo hi
    rw [stateOf_range lo h2 hn]
    simp only [item, rangeExpression, hsp, hp1, hp2, reduceCtorEq, if_false, if_true]
    rw [if_neg (by omega), hs]
    rfl

theorem rangeList_parse {b : Nat} (hb : b ≤ 2 ^ 63) {R : List (List Char)} (hR : Follow R) :
    ∀ (its : List (Nat × Option Nat)) (f : Nat), its ≠ [] → (∀ it ∈ its, itemWF b it) → its.length ≤ f →
      rangeList f (stateOf (its.map itemText ++ R)) = .ok (its.map astItem, stateOf R)
  | [], _, h, _, _ => absurd rfl h
  | [it], f, _, hw, hf => by
    obtain ⟨f, rfl⟩ : ∃ k, f = k + 1 := ⟨f - 1, by simp at hf; omega⟩
    have := item_parse hb (hw it List.mem_cons_self) hR.noCont hR.tok.1
    simp only [List.map_cons, List.map_nil, List.cons_append, List.nil_append, rangeList, this, bind,
      Except.bind]
    rw [if_neg (by intro h; rcases h with h | h; exact hR.tok.2.2 h; exact hR.tok.2.1 h)]
  | it :: it' :: its, f, _, hw, hf => by
    obtain ⟨f, rfl⟩ : ∃ k, f = k + 1 := ⟨f - 1, by simp at hf; omega⟩
    have ih := rangeList_parse hb hR (it' :: its) f (by simp)
      (fun x hx => hw x (List.mem_cons_of_mem _ hx)) (by simp at hf ⊢; omega)
    have hst : (stateOf (itemText it' :: (its.map itemText ++ R))).tok = .valueRange ∨
        (stateOf (itemText it' :: (its.map itemText ++ R))).tok = .value := by
      have hnc : NoCont (its.map itemText ++ R) := by
        cases its with
        | nil => exact hR.noCont
        | cons x xs => exact noCont_item x _
      have hwf := hw it' (by simp)
      obtain ⟨lo, hi⟩ := it'
      cases hi with
      | none => right; exact congrArg PState.tok (stateOf_dec lo hnc)
      | some hi => left; exact congrArg PState.tok (stateOf_range lo hwf.2.1 hnc)
    have h1 := item_parse hb (hw it List.mem_cons_self)
      (R := itemText it' :: (its.map itemText ++ R)) (noCont_item it' _)
      (by rcases hst with h | h <;> rw [h] <;> decide)
    simp only [List.map_cons, List.cons_append] at ih ⊢
    simp only [rangeList, h1, bind, Except.bind]
    rw [if_pos hst, ih]

theorem stateOf_opd (o : Opd) (R : List (List Char)) : stateOf (o.text :: R) = ⟨.operand, o.text, R⟩ := by
  cases o <;> rfl

theorem stateOf_rem (R : List (List Char)) : stateOf (['%'] :: R) = ⟨.rem, ['%'], R⟩ := rfl

theorem stateOf_cmp (neg : Bool) (R : List (List Char)) :
    stateOf (cmpWord neg :: R) = ⟨if neg then .notEqual else .equal, cmpWord neg, R⟩ := by
  cases neg <;> rfl

theorem noCont_cmp (neg : Bool) (R : List (List Char)) : NoCont (cmpWord neg :: R) := by
  cases neg <;> exact noCont_of_head (by decide) (by decide)

theorem cmp_tok (neg : Bool) (R : List (List Char)) : (stateOf (cmpWord neg :: R)).tok ≠ .unknown := by
  cases neg <;> rw [stateOf_cmp] <;> simp

theorem items_tok {b : Nat} {its : List (Nat × Option Nat)} (h0 : its ≠ []) (hw : ∀ it ∈ its, itemWF b it)
    {R : List (List Char)} (hR : NoCont R) : (stateOf (its.map itemText ++ R)).tok ≠ .unknown := by
  cases its with
  | nil => exact absurd rfl h0
  | cons it its =>
    have hnc : NoCont (its.map itemText ++ R) := by
      cases its with
      | nil => exact hR
      | cons x xs => exact noCont_item x _
    have hwf := hw it List.mem_cons_self
    obtain ⟨lo, hi⟩ := it
    simp only [List.map_cons, List.cons_append]
    cases hi with
    | none => rw [show itemText (lo, none) = dec lo from rfl, stateOf_dec lo hnc]; simp
    | some hi => rw [stateOf_range lo hwf.2.1 hnc]; simp

theorem expression_parse {b : Nat} (hb : b ≤ 2 ^ 63) {r : Rel} (hw : r.WF b) (R : List (List Char)) :
    expression (stateOf ([r.opd.text] ++ modWords r.mod ++ cmpWord r.neg :: R)) =
      .ok (astExpr r, stateOf (cmpWord r.neg :: R)) := by
  simp only [List.cons_append, List.nil_append]
  rw [stateOf_opd]
  unfold expression astExpr
  simp only [ne_eq, not_true_eq_false, if_false]
  have hcmp := cmp_tok r.neg R
  cases hm : r.mod with
  | none =>
    have hs : scanNext ⟨.operand, r.opd.text, cmpWord r.neg :: R⟩ = .ok (stateOf (cmpWord r.neg :: R)) :=
      scanNext_eq (by exact hcmp)
    simp only [modWords, List.nil_append, hs, bind, Except.bind]
    rw [if_neg]
    rw [stateOf_cmp]
    cases r.neg <;> simp
  | some m =>
    have hmb := (hw.2.2 m hm).2
    have hs1 : scanNext ⟨.operand, r.opd.text, ['%'] :: dec m :: cmpWord r.neg :: R⟩ =
        .ok (stateOf (['%'] :: dec m :: cmpWord r.neg :: R)) := scanNext_eq (by
      show (stateOf (['%'] :: dec m :: cmpWord r.neg :: R)).tok ≠ .unknown
      rw [stateOf_rem]; simp)
    have hd := stateOf_dec m (noCont_cmp r.neg R)
    have hs2 : scanNext ⟨.rem, ['%'], dec m :: cmpWord r.neg :: R⟩ = .ok (stateOf (dec m :: cmpWord r.neg :: R)) :=
      scanNext_eq (by
        show (stateOf (dec m :: cmpWord r.neg :: R)).tok ≠ .unknown
        rw [hd]; simp)
    have hs3 : scanNext ⟨.value, dec m, cmpWord r.neg :: R⟩ = .ok (stateOf (cmpWord r.neg :: R)) :=
      scanNext_eq (by exact hcmp)
    simp only [modWords, List.cons_append, List.nil_append, hs1, bind, Except.bind, stateOf_rem, if_true,
      hs2, hd, value, ne_eq, not_true_eq_false, if_false, hs3, satInt_dec (show m < 2 ^ 63 by omega)]

theorem relWords_len (r : Rel) : r.items.length + 2 ≤ (relWords r).length := by
  simp [relWords]

theorem relation_parse {b : Nat} (hb : b ≤ 2 ^ 63) {r : Rel} (hw : r.WF b) {R : List (List Char)} (hR : Follow R)
    {f : Nat} (hf : r.items.length ≤ f) :
    relation f (stateOf (relWords r ++ R)) = .ok (astRel r, stateOf R) := by
  have e : relWords r ++ R = [r.opd.text] ++ modWords r.mod ++ cmpWord r.neg :: (r.items.map itemText ++ R) := by
    simp [relWords]
  have hx := expression_parse hb hw (r.items.map itemText ++ R)
  have hl := rangeList_parse hb hR r.items f hw.1 hw.2.1 hf
  have hs : scanNext ⟨if r.neg then .notEqual else .equal, cmpWord r.neg, r.items.map itemText ++ R⟩ =
      .ok (stateOf (r.items.map itemText ++ R)) := scanNext_eq (by exact items_tok hw.1 hw.2.1 hR.noCont)
  unfold relation
  rw [e, hx]
  simp only [bind, Except.bind, stateOf_cmp, hs, hl]
  rw [if_neg]
  · unfold astRel
    cases r.neg <;> rfl
  · cases r.neg <;> decide

theorem stateOf_and (R : List (List Char)) : stateOf (['a', 'n', 'd'] :: R) = ⟨.and, ['a', 'n', 'd'], R⟩ := rfl

theorem stateOf_or (R : List (List Char)) : stateOf (['o', 'r'] :: R) = ⟨.or, ['o', 'r'], R⟩ := rfl

theorem relWords_tok (r : Rel) (R : List (List Char)) : (stateOf (relWords r ++ R)).tok = .operand := by
  simp only [relWords, List.append_assoc, List.cons_append, List.nil_append]
  rw [stateOf_opd]

theorem conjWords_tok {c : List Rel} (h : c ≠ []) (R : List (List Char)) :
    (stateOf (conjWords c ++ R)).tok = .operand := by
  match c, h with
  | [r], _ => exact relWords_tok r R
  | r :: r' :: rs, _ =>
    simp only [conjWords, List.append_assoc]
    exact relWords_tok r _

theorem condWords_tok {c : Cond} (h : c ≠ []) (h' : ∀ x ∈ c, x ≠ []) (R : List (List Char)) :
    (stateOf (condWords c ++ R)).tok = .operand := by
  match c, h with
  | [r], _ => exact conjWords_tok (h' r List.mem_cons_self) R
  | r :: r' :: rs, _ =>
    simp only [condWords, List.append_assoc]
    exact conjWords_tok (h' r List.mem_cons_self) _

/-- What follows a conjunction. -/
def Follow2 (R : List (List Char)) : Prop := Follow R ∧ (stateOf R).tok ≠ .and

theorem andCondition_parse {b : Nat} (hb : b ≤ 2 ^ 63) {R : List (List Char)} (hR : Follow2 R) :
    ∀ (c : List Rel) (f : Nat), c ≠ [] → (∀ r ∈ c, r.WF b) → (conjWords c).length ≤ f →
      andCondition f (stateOf (conjWords c ++ R)) = .ok (astConj c, stateOf R)
  | [], _, h, _, _ => absurd rfl h
  | [r], f, _, hw, hf => by
    have hlen := relWords_len r
    have hf' : (relWords r).length ≤ f := hf
    obtain ⟨f, rfl⟩ : ∃ k, f = k + 1 := ⟨f - 1, by omega⟩
    have := relation_parse hb (hw r List.mem_cons_self) hR.1 (f := f) (by omega)
    simp only [conjWords, andCondition, this, bind, Except.bind]
    rw [if_neg hR.2]
    rfl
  | r :: r' :: rs, f, _, hw, hf => by
    have hlen := relWords_len r
    have hcw : conjWords (r :: r' :: rs) = relWords r ++ ['a', 'n', 'd'] :: conjWords (r' :: rs) := rfl
    have hl2 : (conjWords (r :: r' :: rs)).length = (relWords r).length + ((conjWords (r' :: rs)).length + 1) := by
      rw [hcw]; simp
    obtain ⟨f, rfl⟩ : ∃ k, f = k + 1 := ⟨f - 1, by omega⟩
    have ih := andCondition_parse hb hR (r' :: rs) f (by simp) (fun x hx => hw x (List.mem_cons_of_mem _ hx))
      (by omega)
    have hrel := relation_parse hb (hw r List.mem_cons_self)
      (R := ['a', 'n', 'd'] :: (conjWords (r' :: rs) ++ R)) .and (f := f) (by omega)
    have hs : scanNext ⟨.and, ['a', 'n', 'd'], conjWords (r' :: rs) ++ R⟩ = .ok (stateOf (conjWords (r' :: rs) ++ R)) :=
      scanNext_eq (by
        show (stateOf (conjWords (r' :: rs) ++ R)).tok ≠ .unknown
        rw [conjWords_tok (by simp)]; decide)
    rw [hcw, List.append_assoc, List.cons_append]
    simp only [andCondition, hrel, bind, Except.bind, stateOf_and, if_true, hs, ih]
    rfl

/-- What follows a condition: nothing or the samples. -/
inductive Tail : List (List Char) → Prop
  | nil : Tail []
  | integer {R} : Tail (['@', 'i', 'n', 't', 'e', 'g', 'e', 'r'] :: R)
  | decimal {R} : Tail (['@', 'd', 'e', 'c', 'i', 'm', 'a', 'l'] :: R)

theorem Tail.follow2 {R} (h : Tail R) : Follow2 R := by
  cases h with
  | nil => exact ⟨.nil, by decide⟩
  | integer => exact ⟨.integer, by simp [stateOf, scan, lower]⟩
  | decimal => exact ⟨.decimal, by simp [stateOf, scan, lower]⟩

theorem Tail.not_or {R} (h : Tail R) : (stateOf R).tok ≠ .or := by
  cases h <;> simp [stateOf, scan, lower]

theorem conjWords_pos {c : List Rel} (h : c ≠ []) : 1 ≤ (conjWords c).length := by
  match c, h with
  | [r], _ => have := relWords_len r; simp only [conjWords]; omega
  | r :: r' :: rs, _ => have := relWords_len r; simp only [conjWords, List.length_append]; omega

theorem condition_parse {b : Nat} (hb : b ≤ 2 ^ 63) {R : List (List Char)} (hR : Tail R) :
    ∀ (c : Cond) (f : Nat), c ≠ [] → (∀ conj ∈ c, conj ≠ [] ∧ ∀ r ∈ conj, r.WF b) →
      (condWords c).length < f →
      condition f (stateOf (condWords c ++ R)) = .ok (astCond c, stateOf R)
  | [], _, h, _, _ => absurd rfl h
  | [c], f, _, hw, hf => by
    obtain ⟨f, rfl⟩ : ∃ k, f = k + 1 := ⟨f - 1, by omega⟩
    have hf' : (conjWords c).length < f + 1 := hf
    have hc := hw c List.mem_cons_self
    have := andCondition_parse hb hR.follow2 c f hc.1 hc.2 (by omega)
    simp only [condWords, condition, this, bind, Except.bind]
    rw [if_neg hR.not_or]
    rfl
  | c :: c' :: cs, f, _, hw, hf => by
    have hcw : condWords (c :: c' :: cs) = conjWords c ++ ['o', 'r'] :: condWords (c' :: cs) := rfl
    have hl2 : (condWords (c :: c' :: cs)).length = (conjWords c).length + ((condWords (c' :: cs)).length + 1) := by
      rw [hcw]; simp
    obtain ⟨f, rfl⟩ : ∃ k, f = k + 1 := ⟨f - 1, by omega⟩
    have hc := hw c List.mem_cons_self
    have ih := condition_parse hb hR (c' :: cs) f (by simp) (fun x hx => hw x (List.mem_cons_of_mem _ hx))
      (by omega)
    have hconj := andCondition_parse hb (R := ['o', 'r'] :: (condWords (c' :: cs) ++ R)) ⟨.or, by rw [stateOf_or]; simp⟩ c f
      hc.1 hc.2 (by omega)
    have hs : scanNext ⟨.or, ['o', 'r'], condWords (c' :: cs) ++ R⟩ = .ok (stateOf (condWords (c' :: cs) ++ R)) :=
      scanNext_eq (by
        show (stateOf (condWords (c' :: cs) ++ R)).tok ≠ .unknown
        rw [condWords_tok (by simp) (fun x hx => (hw x (List.mem_cons_of_mem _ hx)).1)]; decide)
    rw [hcw, List.append_assoc, List.cons_append]
    simp only [condition, hconj, bind, Except.bind, stateOf_or, if_true, hs, ih]
    rfl

/-- The text of a condition, followed by the samples. -/
theorem parse_cond {b : Nat} (hb : b ≤ 2 ^ 63) {c : Cond} (hw : c.WF b) (budget : Nat) {s : List Char}
    (hs : s = [] ∨ ∃ x r, s = x :: r ∧ sepc x = true) (ht : Tail (generateTokens s)) :
    parse budget (c.text ++ s) =
      (samples budget ((condWords c).length + (generateTokens s).length + 3) (stateOf (generateTokens s))).map
        (fun ss => ⟨some (astCond c), ss⟩) := by
  have hwords : generateTokens (c.text ++ s) = condWords c ++ generateTokens s :=
    words_cond c hw.1 (fun x hx => ⟨(hw.2 x hx).1, fun r hr => ((hw.2 x hx).2 r hr).1⟩) s hs
  unfold parse
  rw [hwords]
  generalize generateTokens s = R at *
  have htok := condWords_tok hw.1 (fun x hx => (hw.2 x hx).1) R
  have hs : scanNext ⟨.eof, [], condWords c ++ R⟩ = .ok (stateOf (condWords c ++ R)) :=
    scanNext_eq (by show (stateOf (condWords c ++ R)).tok ≠ .unknown; rw [htok]; decide)
  unfold parseTokens
  simp only [hs, bind, Except.bind]
  rw [if_pos (by rw [htok]; decide), condition_parse hb ht c _ hw.1 hw.2 (by simp; omega)]
  simp only [List.length_append]
  cases samples budget ((condWords c).length + R.length + 3) (stateOf R) <;> rfl

/-- The text of a condition without samples. -/
theorem parse_cond_plain {b : Nat} (hb : b ≤ 2 ^ 63) {c : Cond} (hw : c.WF b) (budget : Nat) :
    parse budget c.text = .ok ⟨some (astCond c), []⟩ := by
  have h := parse_cond hb hw budget (s := []) (Or.inl rfl) .nil
  rw [List.append_nil] at h
  rw [h]
  rfl

end Verif.Proofs.Cldr
