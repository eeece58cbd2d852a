import Verif.Go.Utf8
/-! Lemmas about the UTF-8 codec. -/
namespace Verif.Go

theorem char_valid (c : Char) : c.toNat < 0xD800 ∨ (0xDFFF < c.toNat ∧ c.toNat < 0x110000) := by
  exact c.valid

theorem toNat_ofNat_of_valid {n : Nat} (h : n < 0xD800 ∨ (0xDFFF < n ∧ n < 0x110000)) :
    (Char.ofNat n).toNat = n := by
  have hv : n.isValidChar := by simpa [Nat.isValidChar] using h
  simp [Char.ofNat, hv, Char.toNat, Char.ofNatAux]

theorem ofNat_toNat (c : Char) : Char.ofNat c.toNat = c := by simp

theorem char_ext {c d : Char} (h : c.toNat = d.toNat) : c = d := by
  rw [← ofNat_toNat c, ← ofNat_toNat d, h]

theorem byte_ext {a b : UInt8} (h : a.toNat = b.toNat) : a = b := UInt8.toNat_inj.mp h

theorem decodeRune_ascii (b : UInt8) (bs : Bytes) (h : b.toNat < 0x80) :
    decodeRune (b :: bs) = (Char.ofNat b.toNat, 1) := by
  simp [decodeRune, h]

/-- Decoding an encoded rune gives the rune back, whatever follows. -/
theorem decodeRune_encodeRune (c : Char) (rest : Bytes) :
    decodeRune (encodeRune c ++ rest) = (c, (encodeRune c).length) := by
  have hv := char_valid c
  have hc := ofNat_toNat c
  unfold encodeRune
  generalize hn : c.toNat = n at *
  by_cases h1 : n < 0x80
  · simp [h1, decodeRune]
    have : n % 256 = n := by omega
    simp [this, h1, hc]
  by_cases h2 : n < 0x800
  · have e0 : (0xC0 + n / 64) % 256 = 0xC0 + n / 64 := by omega
    have e1 : (0x80 + n % 64) % 256 = 0x80 + n % 64 := by omega
    simp only [h1, h2, if_false, if_true, decodeRune, List.cons_append, List.nil_append]
    simp only [UInt8.toNat_ofNat', List.take_succ_cons, List.map_cons, decodeMulti]
    simp only [Nat.reducePow, e0, e1]
    rw [if_neg (by omega), if_pos (by simp; omega)]
    rw [if_neg (by simp [secondOk]; (repeat' split) <;> simp <;> omega), if_pos (by simp; omega)]
    have : (0xC0 + n / 64 - 0xC0) * 64 + (0x80 + n % 64 - 0x80) = n := by omega
    simp only [this, hc]; rfl
  by_cases h3 : n < 0x10000
  · have e0 : (0xE0 + n / 4096) % 256 = 0xE0 + n / 4096 := by omega
    have e1 : (0x80 + n / 64 % 64) % 256 = 0x80 + n / 64 % 64 := by omega
    have e2 : (0x80 + n % 64) % 256 = 0x80 + n % 64 := by omega
    simp only [h1, h2, h3, if_false, if_true, decodeRune, List.cons_append, List.nil_append]
    simp only [UInt8.toNat_ofNat', List.take_succ_cons, List.map_cons, decodeMulti]
    simp only [Nat.reducePow, e0, e1, e2]
    rw [if_neg (by omega), if_pos (by simp; omega)]
    rw [if_neg (by simp [secondOk]; (repeat' split) <;> simp <;> omega), if_neg (by simp; omega)]
    rw [if_neg (by simp [contOk]; omega), if_pos (by simp; omega)]
    have : (0xE0 + n / 4096 - 0xE0) * 4096 + (0x80 + n / 64 % 64 - 0x80) * 64
      + (0x80 + n % 64 - 0x80) = n := by omega
    simp only [this, hc]; rfl
  · have e0 : (0xF0 + n / 262144) % 256 = 0xF0 + n / 262144 := by omega
    have e1 : (0x80 + n / 4096 % 64) % 256 = 0x80 + n / 4096 % 64 := by omega
    have e2 : (0x80 + n / 64 % 64) % 256 = 0x80 + n / 64 % 64 := by omega
    have e3 : (0x80 + n % 64) % 256 = 0x80 + n % 64 := by omega
    simp only [h1, h2, h3, if_false, decodeRune, List.cons_append, List.nil_append]
    simp only [UInt8.toNat_ofNat', List.take_succ_cons, List.map_cons, decodeMulti]
    simp only [Nat.reducePow, e0, e1, e2, e3]
    rw [if_neg (by omega), if_pos (by simp; omega)]
    rw [if_neg (by simp [secondOk]; (repeat' split) <;> simp <;> omega), if_neg (by simp; omega)]
    rw [if_neg (by simp [contOk]; omega), if_neg (by simp; omega)]
    rw [if_neg (by simp [contOk]; omega), if_pos (by simp; omega)]
    have : (0xF0 + n / 262144 - 0xF0) * 262144 + (0x80 + n / 4096 % 64 - 0x80) * 4096
      + (0x80 + n / 64 % 64 - 0x80) * 64 + (0x80 + n % 64 - 0x80) = n := by omega
    simp only [this, hc]; rfl

theorem encodeRune_length_pos (c : Char) : 0 < (encodeRune c).length := by
  unfold encodeRune; dsimp only; repeat' split
  all_goals simp

theorem encodeRune_ne_nil (c : Char) : encodeRune c ≠ [] := by
  intro h; have := encodeRune_length_pos c; simp [h] at this

theorem runeError_toNat : runeError.toNat = 0xFFFD := by decide

theorem decodeRune_size_pos (b : UInt8) (bs : Bytes) : 0 < (decodeRune (b :: bs)).2 := by
  unfold decodeRune; dsimp only
  repeat' split
  all_goals try simp
  rename_i n k h
  unfold decodeMulti at h
  repeat' split at h
  all_goals simp at h
  all_goals omega

/-- A successfully decoded rune is the prefix of the input. -/
theorem decodeRune_sound (b : UInt8) (bs : Bytes)
    (h : ¬ ((decodeRune (b :: bs)).1 = runeError ∧ (decodeRune (b :: bs)).2 = 1)) :
    (b :: bs).take (decodeRune (b :: bs)).2 = encodeRune (decodeRune (b :: bs)).1 := by
  have hb := b.toNat_lt
  by_cases h1 : b.toNat < 0x80
  · rw [decodeRune_ascii _ _ h1]
    have hn := toNat_ofNat_of_valid (n := b.toNat) (by omega)
    simp [encodeRune, hn, h1]
  · by_cases h2 : (0xC2 ≤ b.toNat && b.toNat ≤ 0xF4) = true
    rotate_left
    · exfalso; apply h; simp only [decodeRune, h1, h2]; simp
    · cases hd : decodeMulti b.toNat ((bs.take 3).map UInt8.toNat) with
      | none => exfalso; apply h; simp only [decodeRune, h1, h2, hd]; simp
      | some p =>
        obtain ⟨n, k⟩ := p
        have e : decodeRune (b :: bs) = (Char.ofNat n, k) := by
          simp only [decodeRune, h1, h2, hd]; simp
        rw [e]
        clear h e
        simp only [Bool.and_eq_true, decide_eq_true_eq] at h2
        match bs, hd with
        | [], hd => simp [decodeMulti] at hd
        | [b1], hd =>
          have hb1 := b1.toNat_lt
          simp only [List.take_succ_cons, List.take_nil, List.map_cons, List.map_nil, decodeMulti] at hd
          repeat' split at hd
          all_goals simp at hd
          rename_i hs hl
          obtain ⟨hn, hk⟩ := hd
          simp [secondOk] at hs hl
          have hs' : 0x80 ≤ b1.toNat ∧ b1.toNat ≤ 0xBF := by
            revert hs; (repeat' split) <;> simp <;> omega
          have hv := toNat_ofNat_of_valid (n := n) (by omega)
          subst hk
          simp only [encodeRune, hv]
          rw [if_neg (by omega), if_pos (by omega)]
          simp only [List.take_succ_cons, List.take_zero, List.take_nil]
          refine List.cons_eq_cons.2 ⟨by apply byte_ext; simp; omega, ?_⟩
          refine List.cons_eq_cons.2 ⟨by apply byte_ext; simp; omega, rfl⟩
        | [b1, b2], hd =>
          have hb1 := b1.toNat_lt
          have hb2 := b2.toNat_lt
          simp only [List.take_succ_cons, List.take_nil, List.map_cons, List.map_nil, decodeMulti] at hd
          split at hd
          · simp at hd
          rename_i hs
          simp [secondOk] at hs
          split at hd
          · rename_i hl
            simp at hd hl
            obtain ⟨hn, hk⟩ := hd
            have hs' : 0x80 ≤ b1.toNat ∧ b1.toNat ≤ 0xBF := by
              revert hs; (repeat' split) <;> simp <;> omega
            have hv := toNat_ofNat_of_valid (n := n) (by omega)
            subst hk
            simp only [encodeRune, hv]
            rw [if_neg (by omega), if_pos (by omega)]
            simp only [List.take_succ_cons, List.take_zero]
            refine List.cons_eq_cons.2 ⟨by apply byte_ext; simp; omega, ?_⟩
            refine List.cons_eq_cons.2 ⟨by apply byte_ext; simp; omega, rfl⟩
          · repeat' split at hd
            all_goals simp at hd
            rename_i hl hc hm
            simp [contOk] at hl hc hm
            obtain ⟨hn, hk⟩ := hd
            have hs' : (0x80 ≤ b1.toNat ∧ b1.toNat ≤ 0xBF) ∧ (b.toNat = 0xE0 → 0xA0 ≤ b1.toNat)
                ∧ (b.toNat = 0xED → b1.toNat ≤ 0x9F) := by
              revert hs; (repeat' split) <;> simp <;> omega
            have hv := toNat_ofNat_of_valid (n := n) (by omega)
            subst hk
            simp only [encodeRune, hv]
            rw [if_neg (by omega), if_neg (by omega), if_pos (by omega)]
            simp only [List.take_succ_cons, List.take_zero, List.take_nil]
            refine List.cons_eq_cons.2 ⟨by apply byte_ext; simp; omega, ?_⟩
            refine List.cons_eq_cons.2 ⟨by apply byte_ext; simp; omega, ?_⟩
            refine List.cons_eq_cons.2 ⟨by apply byte_ext; simp; omega, rfl⟩
        | b1 :: b2 :: b3 :: bs, hd =>
          have hb1 := b1.toNat_lt
          have hb2 := b2.toNat_lt
          have hb3 := b3.toNat_lt
          simp only [List.take_succ_cons, List.take_zero, List.map_cons, List.map_nil, decodeMulti] at hd
          split at hd
          · simp at hd
          rename_i hs
          simp [secondOk] at hs
          split at hd
          · rename_i hl
            simp at hd hl
            obtain ⟨hn, hk⟩ := hd
            have hs' : 0x80 ≤ b1.toNat ∧ b1.toNat ≤ 0xBF := by
              revert hs; (repeat' split) <;> simp <;> omega
            have hv := toNat_ofNat_of_valid (n := n) (by omega)
            subst hk
            simp only [encodeRune, hv]
            rw [if_neg (by omega), if_pos (by omega)]
            simp only [List.take_succ_cons, List.take_zero]
            refine List.cons_eq_cons.2 ⟨by apply byte_ext; simp; omega, ?_⟩
            refine List.cons_eq_cons.2 ⟨by apply byte_ext; simp; omega, rfl⟩
          rename_i hl
          simp at hl
          split at hd
          · simp at hd
          rename_i hc
          simp [contOk] at hc
          split at hd
          · rename_i hm
            simp at hd hm
            obtain ⟨hn, hk⟩ := hd
            have hs' : (0x80 ≤ b1.toNat ∧ b1.toNat ≤ 0xBF) ∧ (b.toNat = 0xE0 → 0xA0 ≤ b1.toNat)
                ∧ (b.toNat = 0xED → b1.toNat ≤ 0x9F) := by
              revert hs; (repeat' split) <;> simp <;> omega
            have hv := toNat_ofNat_of_valid (n := n) (by omega)
            subst hk
            simp only [encodeRune, hv]
            rw [if_neg (by omega), if_neg (by omega), if_pos (by omega)]
            simp only [List.take_succ_cons, List.take_zero]
            refine List.cons_eq_cons.2 ⟨by apply byte_ext; simp; omega, ?_⟩
            refine List.cons_eq_cons.2 ⟨by apply byte_ext; simp; omega, ?_⟩
            refine List.cons_eq_cons.2 ⟨by apply byte_ext; simp; omega, rfl⟩
          rename_i hm
          simp at hm
          repeat' split at hd
          all_goals simp at hd
          rename_i hc3 hq
          simp [contOk] at hc3 hq
          obtain ⟨hn, hk⟩ := hd
          have hs' : (0x80 ≤ b1.toNat ∧ b1.toNat ≤ 0xBF) ∧ (b.toNat = 0xF0 → 0x90 ≤ b1.toNat)
              ∧ (b.toNat = 0xF4 → b1.toNat ≤ 0x8F) := by
            revert hs; (repeat' split) <;> simp <;> omega
          have hv := toNat_ofNat_of_valid (n := n) (by omega)
          subst hk
          simp only [encodeRune, hv]
          rw [if_neg (by omega), if_neg (by omega), if_neg (by omega)]
          simp only [List.take_succ_cons, List.take_zero]
          refine List.cons_eq_cons.2 ⟨by apply byte_ext; simp; omega, ?_⟩
          refine List.cons_eq_cons.2 ⟨by apply byte_ext; simp; omega, ?_⟩
          refine List.cons_eq_cons.2 ⟨by apply byte_ext; simp; omega, ?_⟩
          refine List.cons_eq_cons.2 ⟨by apply byte_ext; simp; omega, rfl⟩

theorem drop_append_length {α} (l r : List α) : (l ++ r).drop l.length = r := by simp

theorem encodeRune_append_eq_cons (c : Char) (rest : Bytes) :
    ∃ b bs, encodeRune c ++ rest = b :: bs := by
  cases h : encodeRune c with
  | nil => exact absurd h (encodeRune_ne_nil c)
  | cons b bs => exact ⟨b, bs ++ rest, rfl⟩

theorem runesAux_utf8 (cs : List Char) : ∀ f, (utf8 cs).length ≤ f → runesAux f (utf8 cs) = cs := by
  induction cs with
  | nil => intro f _; cases f <;> simp [utf8, runesAux]
  | cons c cs ih =>
    intro f hf
    have hu : utf8 (c :: cs) = encodeRune c ++ utf8 cs := by simp [utf8]
    have hp := encodeRune_length_pos c
    rw [hu] at hf ⊢
    simp at hf
    match f with
    | 0 => omega
    | f + 1 =>
      obtain ⟨b, bs, hb⟩ := encodeRune_append_eq_cons c (utf8 cs)
      rw [hb, runesAux, ← hb, decodeRune_encodeRune]
      simp only [drop_append_length]
      rw [ih f (by omega)]

/-- Ranging over valid UTF-8 visits exactly its runes. -/
theorem runes_utf8 (cs : List Char) : runes (utf8 cs) = cs := runesAux_utf8 cs _ (Nat.le_refl _)

theorem utf8_injective {a b : List Char} (h : utf8 a = utf8 b) : a = b := by
  rw [← runes_utf8 a, ← runes_utf8 b, h]

@[simp] theorem utf8_nil : utf8 [] = [] := rfl
@[simp] theorem utf8_cons (c : Char) (cs : List Char) : utf8 (c :: cs) = encodeRune c ++ utf8 cs := by
  simp [utf8]
@[simp] theorem utf8_append (a b : List Char) : utf8 (a ++ b) = utf8 a ++ utf8 b := by
  simp [utf8]

end Verif.Go

namespace Verif.Go

/-! ### Decoding is local: an ASCII byte is never swallowed -/

theorem secondOk_ascii {n0 x : Nat} (h : x < 0x80) : secondOk n0 x = false := by
  unfold secondOk
  repeat' split
  all_goals (simp; omega)

theorem contOk_ascii {x : Nat} (h : x < 0x80) : contOk x = false := by
  unfold contOk; simp; omega

theorem decodeMulti_size {n0 : Nat} {l : List Nat} {n k : Nat} (h : decodeMulti n0 l = some (n, k)) :
    k ≤ l.length + 1 := by
  unfold decodeMulti at h
  repeat' split at h
  all_goals first | contradiction | (simp at h; simp; omega)

theorem decodeRune_size_le (b : UInt8) (bs : Bytes) : (decodeRune (b :: bs)).2 ≤ (b :: bs).length := by
  unfold decodeRune
  dsimp only
  split
  · simp
  · split
    · split
      · rename_i n k h
        have := decodeMulti_size h
        simp at this ⊢; omega
      · simp
    · simp

theorem decodeMulti_ascii (n0 : Nat) (l : List Nat) (x : Nat) (r : List Nat) (h : x < 0x80) (hl : l.length ≤ 3) :
    decodeMulti n0 ((l ++ x :: r).take 3) = decodeMulti n0 l := by
  match l, hl with
  | [], _ => simp [decodeMulti, secondOk_ascii h]
  | [a], _ =>
    simp [decodeMulti, contOk_ascii h]
  | [a, b], _ =>
    simp [decodeMulti, contOk_ascii h]
  | [a, b, c], _ => rfl

theorem decodeRune_append_ascii (b : UInt8) (a : Bytes) (x : UInt8) (r : Bytes) (h : x.toNat < 0x80) :
    decodeRune (b :: a ++ x :: r) = decodeRune (b :: a) := by
  unfold decodeRune
  dsimp only [List.cons_append]
  have : decodeMulti b.toNat (((a ++ x :: r).take 3).map UInt8.toNat) = decodeMulti b.toNat ((a.take 3).map UInt8.toNat) := by
    by_cases hl : 3 ≤ a.length
    · rw [List.take_append_of_le_length hl]
    · have e : a.take 3 = a := List.take_of_length_le (by omega)
      rw [e, List.map_take, List.map_append, List.map_cons]
      exact decodeMulti_ascii _ _ _ _ h (by simp; omega)
  rw [this]

theorem runesAux_enough : ∀ (f : Nat) (s : Bytes), s.length ≤ f → runesAux f s = runes s := by
  have key : ∀ (n : Nat) (s : Bytes), s.length ≤ n → ∀ f g, s.length ≤ f → s.length ≤ g → runesAux f s = runesAux g s := by
    intro n
    induction n with
    | zero =>
      intro s hs f g _ _
      have : s = [] := List.length_eq_zero_iff.1 (by omega)
      subst this
      cases f <;> cases g <;> rfl
    | succ n ih =>
      intro s hs f g hf hg
      cases s with
      | nil => cases f <;> cases g <;> rfl
      | cons b bs =>
        cases f with
        | zero => simp at hf
        | succ f =>
          cases g with
          | zero => simp at hg
          | succ g =>
            have hp := decodeRune_size_pos b bs
            simp only [List.length_cons] at hs hf hg
            have e : ∀ m, runesAux (m + 1) (b :: bs) =
              (decodeRune (b :: bs)).1 :: runesAux m ((b :: bs).drop (decodeRune (b :: bs)).2) := fun _ => rfl
            rw [e, e, ih _ ?_ f g ?_ ?_]
            all_goals (rw [List.length_drop, List.length_cons]; omega)
  intro f s h
  exact key s.length s (Nat.le_refl _) f s.length h (Nat.le_refl _)

theorem runes_cons (b : UInt8) (bs : Bytes) :
    runes (b :: bs) = (decodeRune (b :: bs)).1 :: runes ((b :: bs).drop (decodeRune (b :: bs)).2) := by
  have hp := decodeRune_size_pos b bs
  rw [← runesAux_enough bs.length ((b :: bs).drop (decodeRune (b :: bs)).2) (by simp; omega)]
  rfl

/-- A string is split into runes independently before and after an ASCII byte. -/
theorem runes_append_ascii (x : UInt8) (h : x.toNat < 0x80) (r : Bytes) :
    ∀ a : Bytes, runes (a ++ x :: r) = runes a ++ Char.ofNat x.toNat :: runes r := by
  intro a
  generalize hn : a.length = n
  induction n using Nat.strongRecOn generalizing a with
  | _ n ih =>
    cases a with
    | nil =>
      rw [List.nil_append, runes_cons, decodeRune_ascii x r h]
      rfl
    | cons b a =>
      rw [List.cons_append, runes_cons b (a ++ x :: r), runes_cons b a]
      have e := decodeRune_append_ascii b a x r h
      rw [List.cons_append] at e
      rw [e]
      have hle := decodeRune_size_le b a
      have hp := decodeRune_size_pos b a
      rw [← List.cons_append, List.drop_append_of_le_length hle,
        ih _ (by rw [← hn]; simp; omega) _ rfl]
      rfl

end Verif.Go
