import Verif.Go.Quote
import Verif.Proofs.Utf8
/-!
# Quoted texts can be told apart
-/
namespace Verif.Proofs.Quote
open Verif.Go

/-! ## What is quoted: characters and stray bytes -/

inductive Item
  | bad (b : UInt8)
  | char (c : Char)

def Item.bytes : Item → Bytes
  | .bad b => [b]
  | .char c => encodeRune c

def Item.quoted (print : Char → Bool) : Item → Bytes
  | .bad b => b!"\\x" ++ hexDigits 2 b.toNat
  | .char c => quoteRune print c

def Item.Ok : Item → Prop
  | .bad b => 0x80 ≤ b.toNat
  | .char _ => True

theorem quoteAux_items (print : Char → Bool) : ∀ (f : Nat) (s : Bytes), s.length ≤ f →
    ∃ is : List Item, (∀ i ∈ is, i.Ok) ∧ is.flatMap Item.bytes = s ∧ is.flatMap (Item.quoted print) = quoteAux print f s := by
  intro f
  induction f with
  | zero =>
    intro s hs
    have : s = [] := List.length_eq_zero_iff.1 (by omega)
    exact ⟨[], by simp, by rw [this]; rfl, rfl⟩
  | succ f ih =>
    intro s hs
    match s, hs with
    | [], _ => exact ⟨[], by simp, rfl, rfl⟩
    | b :: bs, hs =>
      rw [quoteAux]
      by_cases h : (decodeRune (b :: bs)).1 = runeError ∧ (decodeRune (b :: bs)).2 = 1
      · rw [if_pos h]
        obtain ⟨is, h1, h2, h3⟩ := ih bs (by simp at hs; omega)
        refine ⟨.bad b :: is, ?_, by simp [Item.bytes, h2], by rw [List.flatMap_cons, h3]; rfl⟩
        intro i hi
        rcases List.mem_cons.1 hi with rfl | hi
        · show 0x80 ≤ b.toNat
          apply Classical.byContradiction
          intro hb
          rw [decodeRune_ascii _ _ (by omega)] at h
          have := congrArg Char.toNat h.1
          rw [toNat_ofNat_of_valid (by omega)] at this
          have e : runeError.toNat = 0xFFFD := by decide
          omega
        · exact h1 i hi
      · rw [if_neg h]
        have hp := decodeRune_size_pos b bs
        obtain ⟨is, h1, h2, h3⟩ := ih ((b :: bs).drop (decodeRune (b :: bs)).2) (by simp at hs ⊢; omega)
        refine ⟨.char (decodeRune (b :: bs)).1 :: is, ?_, ?_, by rw [List.flatMap_cons, h3]; rfl⟩
        · intro i hi
          rcases List.mem_cons.1 hi with rfl | hi
          · trivial
          · exact h1 i hi
        · rw [List.flatMap_cons, h2]
          show encodeRune _ ++ _ = _
          rw [← decodeRune_sound b bs h, List.take_append_drop]

/-! ## Reading items back -/

def unhex (b : UInt8) : Nat := if b.toNat < 0x40 then b.toNat - 0x30 else b.toNat - 0x57

theorem unhex_lowerHex (n : Nat) : unhex (lowerHex n) = n % 16 := by
  have h : n % 16 < 16 := Nat.mod_lt _ (by omega)
  unfold unhex lowerHex
  generalize n % 16 = k at h
  rcases k with _ | _ | _ | _ | _ | _ | _ | _ | _ | _ | _ | _ | _ | _ | _ | _ | k <;> first | decide | omega

/-- The value of hexadecimal digits. -/
def hexValue (s : Bytes) : Nat := s.foldl (fun n b => n * 16 + unhex b) 0

theorem hexDigits_length (k n : Nat) : (hexDigits k n).length = k := by
  induction k with
  | zero => rfl
  | succ k ih => simp [hexDigits, ih]

theorem foldl_hex (k n a : Nat) : (hexDigits k n).foldl (fun n b => n * 16 + unhex b) a = a * 16 ^ k + n % 16 ^ k := by
  induction k generalizing a with
  | zero => simp [hexDigits, Nat.mod_one]
  | succ k ih =>
    rw [hexDigits, List.foldl_cons, ih, unhex_lowerHex, Nat.mod_pow_succ, Nat.add_mul, Nat.pow_succ, Nat.mul_comm (16 ^ k) 16,
      ← Nat.mul_assoc, Nat.mul_comm (16 ^ k)]
    omega

theorem hexValue_digits {k n : Nat} (h : n < 16 ^ k) : hexValue (hexDigits k n) = n := by
  unfold hexValue
  rw [foldl_hex, Nat.mod_eq_of_lt h]; omega

/-- An item of a quoted text and the rest. -/
def readItem (s : Bytes) : Item × Bytes :=
  match s with
  | 0x5c :: c :: r =>
    if c = 0x78 then
      (if hexValue (r.take 2) < 0x80 then .char (Char.ofNat (hexValue (r.take 2))) else .bad (UInt8.ofNat (hexValue (r.take 2))),
        r.drop 2)
    else if c = 0x75 then (.char (Char.ofNat (hexValue (r.take 4))), r.drop 4)
    else if c = 0x55 then (.char (Char.ofNat (hexValue (r.take 8))), r.drop 8)
    else if c = 0x61 then (.char (Char.ofNat 7), r)
    else if c = 0x62 then (.char (Char.ofNat 8), r)
    else if c = 0x66 then (.char (Char.ofNat 12), r)
    else if c = 0x6e then (.char (Char.ofNat 10), r)
    else if c = 0x72 then (.char (Char.ofNat 13), r)
    else if c = 0x74 then (.char (Char.ofNat 9), r)
    else if c = 0x76 then (.char (Char.ofNat 11), r)
    else (.char (Char.ofNat c.toNat), r)
  | s => (.char (decodeRune s).1, s.drop (decodeRune s).2)

theorem take_hex (k n : Nat) (r : Bytes) : (hexDigits k n ++ r).take k = hexDigits k n := by
  rw [List.take_append_of_le_length (by rw [hexDigits_length]; omega), List.take_of_length_le (by rw [hexDigits_length]; omega)]

theorem drop_hex (k n : Nat) (r : Bytes) : (hexDigits k n ++ r).drop k = r := by
  have := drop_append_length (hexDigits k n) r
  rwa [hexDigits_length] at this

theorem char_of {c : Char} {n : Nat} (h : c.toNat = n) : Char.ofNat n = c := by rw [← h, Char.ofNat_toNat]

theorem head_plain {c : Char} (h : c ≠ '\\') (r : Bytes) : ∀ x y, encodeRune c ++ r ≠ 0x5c :: x :: y := by
  intro x y e
  have h1 := decodeRune_encodeRune c r
  rw [e, decodeRune_ascii _ _ (by decide)] at h1
  have := (Prod.mk.inj h1).1
  exact h (this.symm.trans (by decide))

theorem readItem_quoted (print : Char → Bool) {i : Item} (hi : i.Ok) (r : Bytes) : readItem (i.quoted print ++ r) = (i, r) := by
  cases i with
  | bad b =>
    have hb : (0x80 : Nat) ≤ b.toNat := hi
    have hlt := b.toNat_lt
    simp only [Item.quoted, List.cons_append, List.nil_append, readItem, if_true, take_hex, drop_hex]
    rw [hexValue_digits (by omega), if_neg (by omega)]
    simp
  | char c =>
    simp only [Item.quoted, quoteRune]
    have plain : c ≠ '\\' → readItem (encodeRune c ++ r) = (.char c, r) := by
      intro h
      unfold readItem
      split
      · rename_i e; exact absurd e (head_plain h r _ _)
      · rw [decodeRune_encodeRune]; simp only [drop_append_length]
    split
    · rename_i h
      rcases h with rfl | rfl <;> rfl
    · rename_i h0
      split
      · exact plain fun h => h0 (.inr h)
      repeat' split
      · rename_i h; simp only [List.cons_append, List.nil_append, readItem]; rw [← char_of h]; rfl
      · rename_i h; simp only [List.cons_append, List.nil_append, readItem]; rw [← char_of h]; rfl
      · rename_i h; simp only [List.cons_append, List.nil_append, readItem]; rw [← char_of h]; rfl
      · rename_i h; simp only [List.cons_append, List.nil_append, readItem]; rw [← char_of h]; rfl
      · rename_i h; simp only [List.cons_append, List.nil_append, readItem]; rw [← char_of h]; rfl
      · rename_i h; simp only [List.cons_append, List.nil_append, readItem]; rw [← char_of h]; rfl
      · rename_i h; simp only [List.cons_append, List.nil_append, readItem]; rw [← char_of h]; rfl
      · rename_i h
        simp only [List.cons_append, List.nil_append, readItem, if_true, take_hex, drop_hex]
        rw [hexValue_digits (by omega), if_pos (by omega), Char.ofNat_toNat]
      · rename_i h
        simp only [List.cons_append, List.nil_append, readItem, if_true, take_hex, drop_hex]
        rw [if_neg (by decide), hexValue_digits (by omega), Char.ofNat_toNat]
      · rename_i h
        have hv : c.toNat < 0x110000 := by
          have := c.valid
          unfold UInt32.isValidChar Nat.isValidChar at this
          have e : c.toNat = c.val.toNat := rfl
          omega
        simp only [List.cons_append, List.nil_append, readItem, if_true, take_hex, drop_hex]
        rw [if_neg (by decide), if_neg (by decide), hexValue_digits (by omega), Char.ofNat_toNat]

/-- No item starts like the closing quote. -/
theorem quoted_head (print : Char → Bool) (i : Item) (r : Bytes) (x : Bytes) : i.quoted print ++ r ≠ 0x22 :: x := by
  cases i with
  | bad b => simp [Item.quoted]
  | char c =>
    simp only [Item.quoted, quoteRune]
    split
    · simp
    · rename_i h0
      split
      · intro e
        have h1 := decodeRune_encodeRune c r
        rw [e, decodeRune_ascii _ _ (by decide)] at h1
        exact h0 (.inl ((Prod.mk.inj h1).1.symm.trans (by decide)))
      · repeat' split
        all_goals simp

theorem items_inj (print : Char → Bool) : ∀ (is js : List Item) {x y : Bytes}, (∀ i ∈ is, i.Ok) → (∀ j ∈ js, j.Ok) →
    is.flatMap (Item.quoted print) ++ 0x22 :: x = js.flatMap (Item.quoted print) ++ 0x22 :: y → is = js ∧ x = y := by
  intro is
  induction is with
  | nil =>
    intro js x y _ _ h
    cases js with
    | nil => simpa using h
    | cons j js =>
      rw [List.flatMap_cons, List.append_assoc] at h
      exact absurd h.symm (quoted_head print j _ _)
  | cons i is ih =>
    intro js x y hi hj h
    cases js with
    | nil =>
      rw [List.flatMap_cons, List.append_assoc] at h
      exact absurd h (quoted_head print i _ _)
    | cons j js =>
      rw [List.flatMap_cons, List.flatMap_cons, List.append_assoc, List.append_assoc] at h
      have h' := congrArg readItem h
      rw [readItem_quoted print (hi i List.mem_cons_self), readItem_quoted print (hj j List.mem_cons_self)] at h'
      obtain ⟨rfl, h2⟩ := Prod.mk.inj h'
      obtain ⟨rfl, e⟩ := ih js (fun a ha => hi a (List.mem_cons_of_mem _ ha)) (fun a ha => hj a (List.mem_cons_of_mem _ ha)) h2
      exact ⟨rfl, e⟩

/-- A quoted text ends where it ends, and says what was quoted. -/
theorem quote_inj {print : Char → Bool} {s t x y : Bytes} (h : quote print s ++ x = quote print t ++ y) : s = t ∧ x = y := by
  obtain ⟨is, h1, h2, h3⟩ := quoteAux_items print s.length s (Nat.le_refl _)
  obtain ⟨js, k1, k2, k3⟩ := quoteAux_items print t.length t (Nat.le_refl _)
  unfold quote at h
  rw [← h3, ← k3] at h
  simp only [List.append_assoc, List.cons_append, List.nil_append, List.cons.injEq, true_and] at h
  obtain ⟨rfl, e⟩ := items_inj print is js h1 k1 h
  exact ⟨h2.symm.trans k2, e⟩

/-! ## What is written -/

theorem hexDigits_utf8 (k n : Nat) : ∃ cs : List Char, hexDigits k n = utf8 cs ∧ ∀ c ∈ cs, 0x20 ≤ c.toNat ∧ c.toNat < 0x7f := by
  have hd : ∀ m : Nat, m < 16 → lowerHex m = UInt8.ofNat (Char.ofNat (lowerHex m).toNat).toNat ∧
      encodeRune (Char.ofNat (lowerHex m).toNat) = [lowerHex m] ∧ 0x20 ≤ (Char.ofNat (lowerHex m).toNat).toNat ∧
      (Char.ofNat (lowerHex m).toNat).toNat < 0x7f := by decide
  induction k with
  | zero => exact ⟨[], rfl, by simp⟩
  | succ k ih =>
    obtain ⟨cs, h1, h2⟩ := ih
    have e : lowerHex (n / 16 ^ k) = lowerHex (n / 16 ^ k % 16) := by unfold lowerHex; rw [Nat.mod_mod]
    obtain ⟨_, h4, h5⟩ := hd (n / 16 ^ k % 16) (Nat.mod_lt _ (by omega))
    refine ⟨Char.ofNat (lowerHex (n / 16 ^ k % 16)).toNat :: cs, ?_, ?_⟩
    · rw [hexDigits, h1, utf8_cons, h4, e]; rfl
    · intro c hc
      rcases List.mem_cons.1 hc with rfl | hc
      · exact h5
      · exact h2 c hc

theorem quoted_utf8 {print : Char → Bool} (hp : ∀ c : Char, 0x20 ≤ c.toNat → c.toNat < 0x7f → print c = true) (i : Item) :
    ∃ cs : List Char, i.quoted print = utf8 cs ∧ ∀ c ∈ cs, print c = true := by
  have hex : ∀ (m : Char) (k n : Nat), 0x20 ≤ m.toNat ∧ m.toNat < 0x7f → ∃ cs : List Char,
      0x5c :: (encodeRune m ++ hexDigits k n) = utf8 cs ∧ ∀ c ∈ cs, print c = true := by
    intro m k n hm
    obtain ⟨cs, h1, h2⟩ := hexDigits_utf8 k n
    refine ⟨'\\' :: m :: cs, by rw [utf8_cons, utf8_cons, h1]; rfl, ?_⟩
    intro c hc
    simp only [List.mem_cons] at hc
    rcases hc with rfl | rfl | hc
    · exact hp _ (by decide) (by decide)
    · exact hp _ hm.1 hm.2
    · exact hp _ (h2 c hc).1 (h2 c hc).2
  have two : ∀ (m : Char), 0x20 ≤ m.toNat ∧ m.toNat < 0x7f → ∃ cs : List Char,
      0x5c :: encodeRune m = utf8 cs ∧ ∀ c ∈ cs, print c = true := by
    intro m hm
    obtain ⟨cs, h1, h2⟩ := hex m 0 0 hm
    exact ⟨cs, by rw [← h1, hexDigits, List.append_nil], h2⟩
  cases i with
  | bad b => exact hex 'x' _ _ (by decide)
  | char c =>
    show ∃ cs : List Char, quoteRune print c = utf8 cs ∧ _
    by_cases h0 : c = '"' ∨ c = '\\'
    · rw [quoteRune, if_pos h0]
      exact two c (by rcases h0 with rfl | rfl <;> decide)
    by_cases h1 : print c = true
    · rw [quoteRune, if_neg h0, if_pos h1]
      exact ⟨[c], by simp, by simpa using h1⟩
    rw [quoteRune, if_neg h0, if_neg h1]
    by_cases h : c.toNat = 7
    · rw [if_pos h]; exact two 'a' (by decide)
    rw [if_neg h]
    by_cases h : c.toNat = 8
    · rw [if_pos h]; exact two 'b' (by decide)
    rw [if_neg h]
    by_cases h : c.toNat = 12
    · rw [if_pos h]; exact two 'f' (by decide)
    rw [if_neg h]
    by_cases h : c.toNat = 10
    · rw [if_pos h]; exact two 'n' (by decide)
    rw [if_neg h]
    by_cases h : c.toNat = 13
    · rw [if_pos h]; exact two 'r' (by decide)
    rw [if_neg h]
    by_cases h : c.toNat = 9
    · rw [if_pos h]; exact two 't' (by decide)
    rw [if_neg h]
    by_cases h : c.toNat = 11
    · rw [if_pos h]; exact two 'v' (by decide)
    rw [if_neg h]
    by_cases h : c.toNat < 0x20 ∨ c.toNat = 0x7f
    · rw [if_pos h]; exact hex 'x' _ _ (by decide)
    rw [if_neg h]
    by_cases h : c.toNat < 0x10000
    · rw [if_pos h]; exact hex 'u' _ _ (by decide)
    rw [if_neg h]
    exact hex 'U' _ _ (by decide)

/-- A quoted text is valid and has nothing but printable characters. -/
theorem quote_printable {print : Char → Bool} (hp : ∀ c : Char, 0x20 ≤ c.toNat → c.toNat < 0x7f → print c = true) (s : Bytes) :
    ∃ cs : List Char, quote print s = utf8 cs ∧ ∀ c ∈ cs, print c = true := by
  obtain ⟨is, _, _, h3⟩ := quoteAux_items print s.length s (Nat.le_refl _)
  have key : ∀ is : List Item, ∃ cs : List Char, is.flatMap (Item.quoted print) = utf8 cs ∧ ∀ c ∈ cs, print c = true := by
    intro is
    induction is with
    | nil => exact ⟨[], rfl, by simp⟩
    | cons i is ih =>
      obtain ⟨cs, h1, h2⟩ := quoted_utf8 hp i
      obtain ⟨ds, k1, k2⟩ := ih
      refine ⟨cs ++ ds, by rw [List.flatMap_cons, h1, k1, utf8_append], ?_⟩
      intro c hc
      rcases List.mem_append.1 hc with hc | hc
      · exact h2 c hc
      · exact k2 c hc
  obtain ⟨cs, h1, h2⟩ := key is
  refine ⟨'"' :: cs ++ ['"'], ?_, ?_⟩
  · unfold quote
    rw [← h3, h1, utf8_append, utf8_cons]; rfl
  · intro c hc
    simp only [List.cons_append, List.mem_cons, List.mem_append, List.not_mem_nil, or_false] at hc
    rcases hc with rfl | hc | rfl
    · exact hp _ (by decide) (by decide)
    · exact h2 c hc
    · exact hp _ (by decide) (by decide)

/-- Printable texts without quotes and backslashes are only put in quotes. -/
theorem quote_plain {print : Char → Bool} : ∀ {cs : List Char}, (∀ c ∈ cs, print c = true ∧ c ≠ '"' ∧ c ≠ '\\') →
    quote print (utf8 cs) = b!"\"" ++ utf8 cs ++ b!"\"" := by
  intro cs h
  have key : ∀ (cs : List Char) (f : Nat), (utf8 cs).length ≤ f → (∀ c ∈ cs, print c = true ∧ c ≠ '"' ∧ c ≠ '\\') →
      quoteAux print f (utf8 cs) = utf8 cs := by
    intro cs
    induction cs with
    | nil => intro f _ _; cases f <;> rfl
    | cons c cs ih =>
      intro f hf hc
      have hp := encodeRune_length_pos c
      rw [utf8_cons, List.length_append] at hf
      match f, hf with
      | 0, hf => omega
      | f + 1, hf =>
        obtain ⟨h1, h2, h3⟩ := hc c List.mem_cons_self
        obtain ⟨b, bs, hb⟩ := encodeRune_append_eq_cons c (utf8 cs)
        have hd := decodeRune_encodeRune c (utf8 cs)
        rw [utf8_cons, hb, quoteAux, ← hb, hd, if_neg, drop_append_length, ih f (by omega) fun x hx => hc x (List.mem_cons_of_mem _ hx)]
        · unfold quoteRune
          rw [if_neg (by simp [h2, h3]), if_pos h1]
        · rintro ⟨e1, e2⟩
          have e1 : c = runeError := e1
          have e2 : (encodeRune c).length = 1 := e2
          rw [e1] at e2
          revert e2; decide
  unfold quote
  rw [key cs _ (Nat.le_refl _) h]

end Verif.Proofs.Quote
