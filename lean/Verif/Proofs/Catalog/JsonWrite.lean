import Verif.Proofs.Catalog.JsonRead
/-! What `quote`, `compactFrom` and `indentFrom` write. -/
namespace Verif.Proofs.JsonText
open Verif.Go Verif.Model.Catalog Verif.Spec.JsonText

/-! ## Strings -/

theorem hex_hexDigit {v : Nat} (h : v < 16) : Hex (hexDigit v) v := by
  have : ∀ i : Fin 16, lowerDigits[i.1]? = some (hexDigit i.1) := by decide
  exact .inl (this ⟨v, h⟩)

theorem piece_escapeCode {c : Char} (h : c.toNat < 0x10000) : Piece (escapeCode c.toNat) (encodeRune c) := by
  refine Piece.code _ c ⟨_, _, _, _, _, _, _, _, rfl, hex_hexDigit (v := c.toNat / 4096 % 16) (by omega),
    hex_hexDigit (v := c.toNat / 256 % 16) (by omega), hex_hexDigit (v := c.toNat / 16 % 16) (by omega),
    hex_hexDigit (v := c.toNat % 16) (by omega), by omega⟩

theorem encodeRune_ascii {b : UInt8} (h : b.toNat < 0x80) : encodeRune (Char.ofNat b.toNat) = [b] := by
  have hn := toNat_ofNat_of_valid (n := b.toNat) (by omega)
  simp [encodeRune, hn, h]

theorem piece_ascii {b : UInt8} (h : b.toNat < 0x80) :
    Piece (if htmlSafe b then [b] else escapeByte b) (encodeRune (Char.ofNat b.toNat)) := by
  have hn := toNat_ofNat_of_valid (n := b.toNat) (by omega)
  by_cases hs : htmlSafe b = true
  · rw [if_pos hs, encodeRune_ascii h]
    have e := encodeRune_ascii h
    have hb : b ≠ 0x22 ∧ b ≠ 0x5C ∧ 0x20 ≤ b.toNat := by
      simp only [htmlSafe, Bool.and_eq_true, decide_eq_true_eq, UInt8.le_iff_toNat_le] at hs
      exact ⟨by simpa using hs.1.1.1.1.2, by simpa using hs.1.1.1.2, by simpa using hs.1.1.1.1.1.1⟩
    have := Piece.plain (Char.ofNat b.toNat) (by rw [hn]; exact hb.2.2)
      (fun e => hb.1 (byte_ext (by rw [← hn, e]; rfl))) (fun e => hb.2.1 (byte_ext (by rw [← hn, e]; rfl)))
    rwa [e] at this
  · rw [if_neg hs, escapeByte]
    rw [encodeRune_ascii h]
    by_cases h1 : b = 0x5C ∨ b = 0x22
    · rw [if_pos h1]
      exact .short b b (by rcases h1 with rfl | rfl <;> decide)
    rw [if_neg h1]
    by_cases h2 : b = 0x08
    · subst h2; exact .short 0x62 _ (by decide)
    rw [if_neg h2]
    by_cases h3 : b = 0x0C
    · subst h3; exact .short 0x66 _ (by decide)
    rw [if_neg h3]
    by_cases h4 : b = 0x0A
    · subst h4; exact .short 0x6E _ (by decide)
    rw [if_neg h4]
    by_cases h5 : b = 0x0D
    · subst h5; exact .short 0x72 _ (by decide)
    rw [if_neg h5]
    by_cases h6 : b = 0x09
    · subst h6; exact .short 0x74 _ (by decide)
    rw [if_neg h6]
    have := piece_escapeCode (c := Char.ofNat b.toNat) (by omega)
    rwa [hn, encodeRune_ascii h] at this

theorem body_quoteAux : ∀ (f : Nat) (s : Bytes), s.length ≤ f → Body (quoteAux f s) (utf8 (runes s))
  | 0, s, h => by
    have : s = [] := List.length_eq_zero_iff.1 (by omega)
    subst this
    exact .nil
  | _ + 1, [], _ => .nil
  | f + 1, b :: bs, h => by
    rw [runes_cons, utf8_cons]
    have hp := decodeRune_size_pos b bs
    simp only [List.length_cons] at h
    rw [quoteAux]
    by_cases hb : b.toNat < 0x80
    · rw [if_pos hb, decodeRune_ascii b bs hb]
      exact .cons (piece_ascii hb) (body_quoteAux f bs (by omega))
    · rw [if_neg hb]
      refine .cons ?_ (body_quoteAux f _ (by rw [List.length_drop, List.length_cons]; omega))
      by_cases he : (decodeRune (b :: bs)).1 = runeError ∧ (decodeRune (b :: bs)).2 = 1
      · rw [if_pos he, he.1]
        exact piece_escapeCode (c := runeError) (by decide)
      · rw [if_neg he]
        by_cases hl : (decodeRune (b :: bs)).1.toNat = 0x2028 ∨ (decodeRune (b :: bs)).1.toNat = 0x2029
        · rw [if_pos hl]
          exact piece_escapeCode (by omega)
        · rw [if_neg hl, decodeRune_sound b bs he]
          have hc : 0x80 ≤ (decodeRune (b :: bs)).1.toNat := by
            obtain ⟨x, xs, e, e1, _⟩ := encodeRune_cons (decodeRune (b :: bs)).1
            have ht := decodeRune_sound b bs he
            rw [e] at ht
            obtain ⟨k, hk⟩ : ∃ k, (decodeRune (b :: bs)).2 = k + 1 := ⟨_, (Nat.succ_pred_eq_of_pos hp).symm⟩
            rw [hk, List.take_succ_cons] at ht
            have hx := (List.cons.inj ht).1
            rcases Nat.lt_or_ge (decodeRune (b :: bs)).1.toNat 0x80 with hlt | hge
            · have := e1 hlt
              rw [← hx] at this
              omega
            · exact hge
          refine .plain _ (by omega) (fun e => ?_) (fun e => ?_) <;> (rw [e] at hc; exact absurd hc (by decide))

/-- The quoted text of a string stands for the string, with malformed bytes replaced. -/
theorem str_quote (s : Bytes) : Str (quote s) (sanitize s) := ⟨_, rfl, body_quoteAux _ s (Nat.le_refl _)⟩

/-! ## Bytes that the scanners copy -/

/-- A byte that means nothing inside a string. -/
def Inert (c : UInt8) : Prop := c ≠ 0x3C ∧ c ≠ 0x3E ∧ c ≠ 0x26 ∧ c ≠ 0xE2 ∧ c ≠ 0x5C ∧ c ≠ 0x22

theorem compactFrom_inert (rest : Bytes) : ∀ (l : Bytes), (∀ c ∈ l, Inert c) →
    compactFrom .str (l ++ rest) = l ++ compactFrom .str rest
  | [], _ => rfl
  | c :: l, h => by
    obtain ⟨h1, h2, h3, h4, h5, h6⟩ := h c List.mem_cons_self
    rw [List.cons_append, compactFrom, if_neg (by simp [h1, h2, h3]), if_neg (fun e => h4 e.1), if_neg h5, if_neg h6,
      compactFrom_inert rest l fun d hd => h d (List.mem_cons_of_mem _ hd), List.cons_append]

theorem indentFrom_plain (d : Nat) (need : Bool) (rest : Bytes) : ∀ (l : Bytes), (∀ c ∈ l, c ≠ 0x5C ∧ c ≠ 0x22) →
    indentFrom .str d need (l ++ rest) = l ++ indentFrom .str d need rest
  | [], _ => rfl
  | c :: l, h => by
    obtain ⟨h5, h6⟩ := h c List.mem_cons_self
    rw [List.cons_append, indentFrom, if_neg h5, if_neg h6,
      indentFrom_plain d need rest l fun d hd => h d (List.mem_cons_of_mem _ hd), List.cons_append]

theorem inert_hex {c : UInt8} {v : Nat} (h : Hex c v) : Inert c := by
  have h1 := (hexValue_hex h).1
  refine ⟨?_, ?_, ?_, ?_, ?_, ?_⟩ <;> (rintro rfl; exact absurd h1 (by simp [hexValue]))

theorem inert_hex4 {ds : Bytes} {n : Nat} (h : Hex4 ds n) : ∀ c ∈ ds, Inert c := by
  obtain ⟨a, b, c, d, va, vb, vc, vd, rfl, ha, hb, hc, hd, _⟩ := h
  simp only [List.mem_cons, List.not_mem_nil, or_false]
  rintro x (rfl | rfl | rfl | rfl)
  · exact inert_hex ha
  · exact inert_hex hb
  · exact inert_hex hc
  · exact inert_hex hd

theorem inert_safe {l : Bytes} (h : ∀ c ∈ l, Inert c) : HtmlSafe l := by
  intro c hc hl
  obtain ⟨h1, h2, h3, _⟩ := h c hl
  simp only [List.mem_cons, List.not_mem_nil, or_false] at hc
  rcases hc with rfl | rfl | rfl
  · exact h1 rfl
  · exact h2 rfl
  · exact h3 rfl

theorem _root_.Verif.Spec.JsonText.HtmlSafe.append {a b : Bytes} (ha : HtmlSafe a) (hb : HtmlSafe b) : HtmlSafe (a ++ b) := by
  intro c hc h
  rcases List.mem_append.1 h with h | h
  · exact ha c hc h
  · exact hb c hc h

instance (t : Bytes) : Decidable (HtmlSafe t) := by unfold HtmlSafe; infer_instance

/-- The bytes of a character beyond ASCII: all of them at least 0x80, and 0xE2 only starts one of three bytes. -/
theorem encodeRune_high {c : Char} (h : 0x80 ≤ c.toNat) :
    (∀ b ∈ encodeRune c, 0x80 ≤ b.toNat) ∧
    ((∀ b ∈ encodeRune c, b ≠ 0xE2) ∨ ∃ x y, encodeRune c = [0xE2, x, y] ∧ x ≠ 0xE2 ∧ y ≠ 0xE2 ∧
      0x80 ≤ x.toNat ∧ 0x80 ≤ y.toNat ∧ c.toNat = 0x2000 + (x.toNat - 0x80) * 64 + (y.toNat - 0x80)) := by
  have hv := char_valid c
  have ne : ∀ n : Nat, n < 256 → n ≠ 0xE2 → UInt8.ofNat n ≠ 0xE2 := by
    intro n h1 h2 e
    have := congrArg UInt8.toNat e
    simp at this
    omega
  have ge : ∀ n : Nat, n < 256 → 0x80 ≤ n → 0x80 ≤ (UInt8.ofNat n).toNat := by
    intro n h1 h2
    simp
    omega
  unfold encodeRune
  dsimp only
  rw [if_neg (by omega)]
  split
  · constructor
    · simp only [List.mem_cons, List.not_mem_nil, or_false]
      rintro b (rfl | rfl) <;> exact ge _ (by omega) (by omega)
    · left
      simp only [List.mem_cons, List.not_mem_nil, or_false]
      rintro b (rfl | rfl) <;> exact ne _ (by omega) (by omega)
  split
  · constructor
    · simp only [List.mem_cons, List.not_mem_nil, or_false]
      rintro b (rfl | rfl | rfl) <;> exact ge _ (by omega) (by omega)
    · by_cases he : c.toNat / 4096 = 2
      · right
        refine ⟨_, _, by rw [he]; rfl, ne _ (by omega) (by omega), ne _ (by omega) (by omega), ge _ (by omega) (by omega),
          ge _ (by omega) (by omega), ?_⟩
        simp
        omega
      · left
        simp only [List.mem_cons, List.not_mem_nil, or_false]
        rintro b (rfl | rfl | rfl) <;> exact ne _ (by omega) (by omega)
  · constructor
    · simp only [List.mem_cons, List.not_mem_nil, or_false]
      rintro b (rfl | rfl | rfl | rfl) <;> exact ge _ (by omega) (by omega)
    · left
      simp only [List.mem_cons, List.not_mem_nil, or_false]
      rintro b (rfl | rfl | rfl | rfl) <;> exact ne _ (by omega) (by omega)

theorem inert_high {b : UInt8} (h : 0x80 ≤ b.toNat) (he : b ≠ 0xE2) : Inert b := by
  refine ⟨?_, ?_, ?_, he, ?_, ?_⟩ <;> (rintro rfl; exact absurd h (by decide))

theorem body_piece {a m : Bytes} (h : Piece a m) : Body a m := by
  have := Body.cons h .nil
  simpa using this

/-- Compacting keeps what a character of a string stands for. -/
theorem compactFrom_piece {a m : Bytes} (h : Piece a m) : ∃ a', Piece a' m ∧ HtmlSafe a' ∧
    ∀ rest, compactFrom .str (a ++ rest) = a' ++ compactFrom .str rest := by
  cases h with
  | plain c h1 h2 h3 =>
    by_cases ha : c.toNat < 0x80
    · obtain ⟨b, hb⟩ : ∃ b : UInt8, b.toNat = c.toNat := ⟨UInt8.ofNat c.toNat, by simp; omega⟩
      have e : encodeRune c = [b] := by
        have := encodeRune_ascii (b := b) (by omega)
        rwa [hb, ofNat_toNat] at this
      by_cases hh : b = 0x3C ∨ b = 0x3E ∨ b = 0x26
      · refine ⟨escapeCode b.toNat, hb ▸ piece_escapeCode (by omega), ?_, fun rest => ?_⟩
        · rcases hh with rfl | rfl | rfl <;> decide
        · rw [e, List.cons_append, List.nil_append, compactFrom, if_pos hh]
      · refine ⟨_, .plain c h1 h2 h3, ?_, fun rest => ?_⟩
        · rw [e]
          intro x hx hm
          rw [List.mem_singleton] at hm
          subst hm
          simp only [List.mem_cons, List.not_mem_nil, or_false] at hx
          exact hh hx
        · rw [e]
          refine compactFrom_inert rest _ fun x hx => ?_
          rw [List.mem_singleton] at hx
          subst hx
          refine ⟨fun e => hh (.inl e), fun e => hh (.inr (.inl e)), fun e => hh (.inr (.inr e)), ?_, ?_, ?_⟩
          · rintro rfl; exact absurd hb (by rw [show (0xE2 : UInt8).toNat = 0xE2 from rfl]; omega)
          · rintro rfl; exact h3 (char_ext hb.symm)
          · rintro rfl; exact h2 (char_ext hb.symm)
    · obtain ⟨hg, hn⟩ := encodeRune_high (c := c) (by omega)
      rcases hn with hn | ⟨x, y, e, hx, hy, gx, gy, hc⟩
      · have hi : ∀ b ∈ encodeRune c, Inert b := fun b hb => inert_high (hg b hb) (hn b hb)
        exact ⟨_, .plain c h1 h2 h3, inert_safe hi, fun rest => compactFrom_inert rest _ hi⟩
      · by_cases hl : (x = 0x80 ∧ y = 0xA8) ∨ (x = 0x80 ∧ y = 0xA9)
        · have hc' : (x = 0x80 ∧ y = 0xA8 ∧ c.toNat = 0x2028) ∨ (x = 0x80 ∧ y = 0xA9 ∧ c.toNat = 0x2029) := by
            rcases hl with ⟨rfl, rfl⟩ | ⟨rfl, rfl⟩
            · exact .inl ⟨rfl, rfl, by simpa using hc⟩
            · exact .inr ⟨rfl, rfl, by simpa using hc⟩
          have hcode := piece_escapeCode (c := c) (by omega)
          refine ⟨_, hcode, ?_, fun rest => ?_⟩
          · rcases hc' with ⟨_, _, h⟩ | ⟨_, _, h⟩ <;> (rw [h]; decide)
          · rw [e]
            rcases hc' with ⟨rfl, rfl, h⟩ | ⟨rfl, rfl, h⟩ <;>
              (rw [h, List.cons_append, compactFrom, if_neg (by decide), if_pos (by simp)]; rfl)
        · refine ⟨_, .plain c h1 h2 h3, ?_, fun rest => ?_⟩
          · intro b hb hm
            have := hg b hm
            simp only [List.mem_cons, List.not_mem_nil, or_false] at hb
            rcases hb with rfl | rfl | rfl <;> exact absurd this (by decide)
          · have hi : ∀ b ∈ [x, y], Inert b := by
              simp only [List.mem_cons, List.not_mem_nil, or_false]
              rintro b (rfl | rfl)
              · exact inert_high gx hx
              · exact inert_high gy hy
            rw [e, List.cons_append, compactFrom, if_neg (by decide), if_neg (by simpa using not_or.1 hl), if_neg (by decide),
              if_neg (by decide), compactFrom_inert rest _ hi]
            rfl
  | short e x he =>
    refine ⟨_, .short e x he, ?_, fun rest => ?_⟩
    · revert he
      simp only [shortEscapes, List.mem_cons, Prod.mk.injEq, List.not_mem_nil, or_false]
      rintro (⟨rfl, rfl⟩ | ⟨rfl, rfl⟩ | ⟨rfl, rfl⟩ | ⟨rfl, rfl⟩ | ⟨rfl, rfl⟩ | ⟨rfl, rfl⟩ | ⟨rfl, rfl⟩ | ⟨rfl, rfl⟩) <;> decide
    · rw [List.cons_append, compactFrom, if_neg (by decide), if_neg (fun h => absurd h.1 (by decide)), if_pos rfl]
      rfl
  | code ds c hh =>
    refine ⟨_, .code ds c hh, .append (by decide) (inert_safe (inert_hex4 hh)), fun rest => ?_⟩
    rw [List.append_assoc, List.cons_append, compactFrom, if_neg (by decide), if_neg (fun h => absurd h.1 (by decide)), if_pos rfl,
      List.cons_append, compactFrom, List.nil_append, compactFrom_inert rest ds (inert_hex4 hh)]
    rfl
  | pair hs ls hi lo c h1 h2 h3 h4 h5 h6 h7 =>
    refine ⟨_, .pair hs ls hi lo c h1 h2 h3 h4 h5 h6 h7,
      .append (.append (.append (by decide) (inert_safe (inert_hex4 h1))) (by decide)) (inert_safe (inert_hex4 h2)), fun rest => ?_⟩
    rw [List.append_assoc, List.append_assoc, List.append_assoc, List.cons_append, compactFrom, if_neg (by decide),
      if_neg (fun h => absurd h.1 (by decide)), if_pos rfl, List.cons_append, compactFrom, List.nil_append,
      compactFrom_inert _ hs (inert_hex4 h1), List.cons_append, compactFrom, if_neg (by decide),
      if_neg (fun h => absurd h.1 (by decide)), if_pos rfl, List.cons_append, compactFrom, List.nil_append,
      compactFrom_inert _ ls (inert_hex4 h2)]
    simp

theorem compactFrom_body {b s : Bytes} (h : Body b s) : ∃ b', Body b' s ∧ HtmlSafe b' ∧
    ∀ rest, compactFrom .str (b ++ rest) = b' ++ compactFrom .str rest := by
  induction h with
  | nil => exact ⟨[], .nil, (fun _ _ h => nomatch h), fun _ => rfl⟩
  | cons hp _ ih =>
    obtain ⟨a', h1, h2, h3⟩ := compactFrom_piece hp
    obtain ⟨b', i1, i2, i3⟩ := ih
    exact ⟨a' ++ b', .cons h1 i1, h2.append i2, fun rest => by rw [List.append_assoc, h3, i3, List.append_assoc]⟩

theorem compactFrom_string {t s : Bytes} (h : Str t s) : ∃ t', Str t' s ∧ HtmlSafe t' ∧
    ∀ rest, compactFrom .out (t ++ rest) = t' ++ compactFrom .out rest := by
  obtain ⟨b, rfl, hb⟩ := h
  obtain ⟨b', h1, h2, h3⟩ := compactFrom_body hb
  refine ⟨0x22 :: b' ++ [0x22], ⟨b', rfl, h1⟩, .append (.append (a := [0x22]) (by decide) h2) (by decide), fun rest => ?_⟩
  rw [List.append_assoc, List.cons_append, compactFrom, if_neg (by decide), if_pos rfl, h3, List.singleton_append,
    compactFrom, if_neg (by decide), if_neg (fun h => absurd h.1 (by decide)), if_neg (by decide), if_pos rfl]
  simp

theorem indentFrom_piece {a m : Bytes} (h : Piece a m) (d : Nat) (need : Bool) (rest : Bytes) :
    indentFrom .str d need (a ++ rest) = a ++ indentFrom .str d need rest := by
  cases h with
  | plain c h1 h2 h3 =>
    refine indentFrom_plain d need rest _ fun b hb => ?_
    by_cases ha : c.toNat < 0x80
    · obtain ⟨x, hx⟩ : ∃ b : UInt8, b.toNat = c.toNat := ⟨UInt8.ofNat c.toNat, by simp; omega⟩
      have e : encodeRune c = [x] := by
        have := encodeRune_ascii (b := x) (by omega)
        rwa [hx, ofNat_toNat] at this
      rw [e, List.mem_singleton] at hb
      subst hb
      exact ⟨by rintro rfl; exact h3 (char_ext hx.symm), by rintro rfl; exact h2 (char_ext hx.symm)⟩
    · have := (encodeRune_high (c := c) (by omega)).1 b hb
      exact ⟨by rintro rfl; exact absurd this (by decide), by rintro rfl; exact absurd this (by decide)⟩
  | short e x he =>
    rw [List.cons_append, indentFrom, if_pos rfl]
    rfl
  | code ds c hh =>
    rw [List.append_assoc, List.cons_append, indentFrom, if_pos rfl, List.cons_append, indentFrom, List.nil_append,
      indentFrom_plain d need rest ds fun c hc => (inert_hex4 hh c hc).2.2.2.2]
    · rfl
    all_goals simp
  | pair hs ls hi lo c h1 h2 h3 h4 h5 h6 h7 =>
    rw [List.append_assoc, List.append_assoc, List.append_assoc, List.cons_append, indentFrom, if_pos rfl, List.cons_append,
      indentFrom, List.nil_append, indentFrom_plain d need _ hs fun c hc => (inert_hex4 h1 c hc).2.2.2.2,
      List.cons_append, indentFrom, if_pos rfl, List.cons_append,
      indentFrom, List.nil_append, indentFrom_plain d need _ ls fun c hc => (inert_hex4 h2 c hc).2.2.2.2]
    all_goals simp

theorem indentFrom_body {b s : Bytes} (h : Body b s) (d : Nat) (need : Bool) (rest : Bytes) :
    indentFrom .str d need (b ++ rest) = b ++ indentFrom .str d need rest := by
  induction h with
  | nil => rfl
  | cons hp _ ih => rw [List.append_assoc, indentFrom_piece hp, ih, List.append_assoc]

theorem indentFrom_string {t s : Bytes} (h : Str t s) (d : Nat) (rest : Bytes) :
    indentFrom .out d false (t ++ rest) = t ++ indentFrom .out d false rest := by
  obtain ⟨b, rfl, hb⟩ := h
  rw [List.append_assoc, List.cons_append, indentFrom, if_neg (by decide), if_neg (by decide)]
  simp only [Bool.false_eq_true, if_false, List.nil_append]
  rw [if_neg (by decide), if_neg (by decide), if_neg (by decide), if_pos trivial, indentFrom_body hb, List.singleton_append,
    indentFrom, if_neg (by decide), if_pos rfl]
  simp

/-! ## Values -/

mutual

/-- The text of a value without white space. -/
inductive Tight : Bytes → Json → Prop
  | null : Tight b!"null" .null
  | str {t s} : Str t s → Tight t (.str s)
  | empty : Tight b!"{}" (.obj [])
  | obj {t fs} : TightMembers t fs → Tight (0x7B :: t ++ [0x7D]) (.obj fs)

/-- The members of an object without white space. -/
inductive TightMembers : Bytes → List (Bytes × Json) → Prop
  | one {kt vt k v} : Str kt k → Tight vt v → TightMembers (kt ++ 0x3A :: vt) [(k, v)]
  | cons {kt vt k v t fs} : Str kt k → Tight vt v → TightMembers t fs →
      TightMembers (kt ++ 0x3A :: (vt ++ 0x2C :: t)) ((k, v) :: fs)

end

theorem compactFrom_ws {w : Bytes} (h : Ws w) (rest : Bytes) : compactFrom .out (w ++ rest) = compactFrom .out rest := by
  induction w with
  | nil => rfl
  | cons c w ih =>
    have hc := h c List.mem_cons_self
    have : isWs c = true := by
      revert hc
      simp only [List.mem_cons, List.not_mem_nil, or_false]
      rintro (rfl | rfl | rfl | rfl) <;> decide
    rw [List.cons_append, compactFrom, if_pos this, ih fun d hd => h d (List.mem_cons_of_mem _ hd)]

theorem compactFrom_out {c : UInt8} (h1 : isWs c = false) (h2 : c ≠ 0x22) (rest : Bytes) :
    compactFrom .out (c :: rest) = c :: compactFrom .out rest := by
  rw [compactFrom, if_neg (by rw [h1]; decide), if_neg h2]

mutual

theorem compactFrom_denotes {t : Bytes} {j : Json} : Denotes t j → ∃ t', Tight t' j ∧ HtmlSafe t' ∧
    ∀ rest, compactFrom .out (t ++ rest) = t' ++ compactFrom .out rest
  | .null => ⟨_, .null, by decide, fun rest => by
      simp only [List.cons_append, List.nil_append]
      rw [compactFrom_out (by decide) (by decide), compactFrom_out (by decide) (by decide),
        compactFrom_out (by decide) (by decide), compactFrom_out (by decide) (by decide)]⟩
  | .str hs => by
    obtain ⟨t', h1, h2, h3⟩ := compactFrom_string hs
    exact ⟨t', .str h1, h2, h3⟩
  | .empty (w := w) hw => ⟨_, .empty, by decide, fun rest => by
      rw [List.append_assoc, List.cons_append, compactFrom_out (by decide) (by decide), compactFrom_ws hw,
        List.singleton_append, compactFrom_out (by decide) (by decide)]
      rfl⟩
  | .obj hm => by
    obtain ⟨t', h1, h2, h3⟩ := compactFrom_members hm
    refine ⟨_, .obj h1, .append (.append (a := [0x7B]) (by decide) h2) (by decide), fun rest => ?_⟩
    rw [List.append_assoc, List.cons_append, compactFrom_out (by decide) (by decide), h3,
        List.singleton_append, compactFrom_out (by decide) (by decide)]
    simp

theorem compactFrom_members {t : Bytes} {fs : List (Bytes × Json)} : Members t fs → ∃ t', TightMembers t' fs ∧ HtmlSafe t' ∧
    ∀ rest, compactFrom .out (t ++ rest) = t' ++ compactFrom .out rest
  | .one w1 w2 w3 w4 hk hv => by
    obtain ⟨kt, k1, k2, k3⟩ := compactFrom_string hk
    obtain ⟨vt, v1, v2, v3⟩ := compactFrom_denotes hv
    refine ⟨_, .one k1 v1, .append k2 (.append (a := [0x3A]) (by decide) v2), fun rest => ?_⟩
    simp only [List.append_assoc, List.cons_append, List.nil_append]
    rw [compactFrom_ws w1, k3, compactFrom_ws w2, compactFrom_out (by decide) (by decide), compactFrom_ws w3, v3, compactFrom_ws w4]
  | .cons w1 w2 w3 w4 hk hv hm => by
    obtain ⟨kt, k1, k2, k3⟩ := compactFrom_string hk
    obtain ⟨vt, v1, v2, v3⟩ := compactFrom_denotes hv
    obtain ⟨t', m1, m2, m3⟩ := compactFrom_members hm
    refine ⟨_, .cons k1 v1 m1, .append k2 (.append (a := [0x3A]) (by decide)
      (v2.append (.append (a := [0x2C]) (by decide) m2))), fun rest => ?_⟩
    simp only [List.append_assoc, List.cons_append, List.nil_append]
    rw [compactFrom_ws w1, k3, compactFrom_ws w2, compactFrom_out (by decide) (by decide), compactFrom_ws w3, v3, compactFrom_ws w4,
      compactFrom_out (by decide) (by decide), m3]

end

theorem ws_nil : Ws [] := fun _ h => nomatch h

mutual

theorem denotes_tight {t : Bytes} {j : Json} : Tight t j → Denotes t j
  | .null => .null
  | .str h => .str h
  | .empty => .empty ws_nil
  | .obj h => .obj (members_tight h)

theorem members_tight {t : Bytes} {fs : List (Bytes × Json)} : TightMembers t fs → Members t fs
  | .one (kt := kt) (vt := vt) hk hv => by
    have := Members.one ws_nil ws_nil ws_nil ws_nil hk (denotes_tight hv)
    simpa using this
  | .cons hk hv hm => by
    have := Members.cons ws_nil ws_nil ws_nil ws_nil hk (denotes_tight hv) (members_tight hm)
    simpa using this

end

theorem newline_eq (d : Nat) : newline d = line d := by
  unfold newline line
  have : (List.replicate d b!"  ").flatten = List.replicate (2 * d) 0x20 := by
    induction d with
    | zero => rfl
    | succ d ih => rw [List.replicate_succ, List.flatten_cons, ih, show 2 * (d + 1) = 2 * d + 1 + 1 by omega]; rfl
  rw [this]; rfl

/-- The first byte of a text without white space. -/
def Starts (t : Bytes) : Prop := ∃ c r, t = c :: r ∧ isWs c = false ∧ c ≠ 0x7D ∧ c ≠ 0x5D

theorem starts_string {t s : Bytes} (h : Str t s) : Starts t := by
  obtain ⟨b, rfl, _⟩ := h
  exact ⟨0x22, _, rfl, by decide, by decide, by decide⟩

theorem indentFrom_need {t : Bytes} (h : Starts t) (d : Nat) (rest : Bytes) :
    indentFrom .out d true (t ++ rest) = line (d + 1) ++ indentFrom .out (d + 1) false (t ++ rest) := by
  obtain ⟨c, r, rfl, h1, h2, h3⟩ := h
  rw [List.cons_append, indentFrom, if_neg (by rw [h1]; decide), if_neg (by simp [h2, h3])]
  have e : ¬ (isWs c = true) := by rw [h1]; decide
  have e' : ¬ (c = 0x7D ∨ c = 0x5D) := by simp [h2, h3]
  rw [indentFrom.eq_2 _ false]
  simp only [if_true, newline_eq, e, e', if_false, Bool.false_eq_true, List.nil_append]

theorem indentFrom_comma (d : Nat) (rest : Bytes) :
    indentFrom .out d false (0x2C :: rest) = 0x2C :: line d ++ indentFrom .out d false rest := by
  rw [indentFrom, if_neg (by decide), if_neg (by decide)]
  simp only [Bool.false_eq_true, if_false, List.nil_append]
  rw [if_neg (by decide), if_pos trivial, newline_eq]

theorem indentFrom_colon (d : Nat) (rest : Bytes) :
    indentFrom .out d false (0x3A :: rest) = 0x3A :: 0x20 :: indentFrom .out d false rest := by
  rw [indentFrom, if_neg (by decide), if_neg (by decide)]
  simp only [Bool.false_eq_true, if_false, List.nil_append]
  rw [if_neg (by decide), if_neg (by decide), if_pos trivial]

theorem indentFrom_open (d : Nat) (rest : Bytes) :
    indentFrom .out d false (0x7B :: rest) = 0x7B :: indentFrom .out d true rest := by
  rw [indentFrom, if_neg (by decide), if_neg (by decide)]
  simp only [Bool.false_eq_true, if_false, List.nil_append]
  rw [if_pos (by decide)]

theorem indentFrom_close (d : Nat) (rest : Bytes) :
    indentFrom .out (d + 1) false (0x7D :: rest) = line d ++ 0x7D :: indentFrom .out d false rest := by
  rw [indentFrom, if_neg (by decide), if_pos (by decide)]
  simp only [Bool.false_eq_true, if_false]
  rw [newline_eq]
  rfl

theorem indentFrom_letter {c : UInt8} (h : c = 0x6E ∨ c = 0x75 ∨ c = 0x6C) (d : Nat) (rest : Bytes) :
    indentFrom .out d false (c :: rest) = c :: indentFrom .out d false rest := by
  rcases h with rfl | rfl | rfl <;>
  · rw [indentFrom, if_neg (by decide), if_neg (by decide)]
    simp only [Bool.false_eq_true, if_false, List.nil_append]
    rw [if_neg (by decide), if_neg (by decide), if_neg (by decide), if_neg (by decide)]

mutual

theorem indentFrom_tight {t : Bytes} {j : Json} : Tight t j → ∀ d, ∃ t', Layout d t' j ∧
    ∀ rest, indentFrom .out d false (t ++ rest) = t' ++ indentFrom .out d false rest
  | .null, d => ⟨_, .null, fun rest => by
      simp only [List.cons_append, List.nil_append]
      rw [indentFrom_letter (by decide), indentFrom_letter (by decide), indentFrom_letter (by decide), indentFrom_letter (by decide)]⟩
  | .str hs, d => ⟨_, .str hs, indentFrom_string hs d⟩
  | .empty, d => ⟨_, .empty, fun rest => by
      simp only [List.cons_append, List.nil_append]
      rw [indentFrom_open, indentFrom, if_neg (by decide), if_pos (by decide), if_pos rfl]⟩
  | .obj hm, d => by
    obtain ⟨u, h1, h2, h3⟩ := indentFrom_members hm (d + 1)
    refine ⟨_, .obj h1, fun rest => ?_⟩
    rw [List.append_assoc, List.cons_append, indentFrom_open, indentFrom_need h2, h3, List.singleton_append, indentFrom_close]
    simp

theorem indentFrom_members {t : Bytes} {fs : List (Bytes × Json)} : TightMembers t fs → ∀ d, ∃ u,
    Rows d (line d ++ u) fs ∧ Starts t ∧ ∀ rest, indentFrom .out d false (t ++ rest) = u ++ indentFrom .out d false rest
  | .one (kt := kt) hk hv, d => by
    obtain ⟨vt, v1, v2⟩ := indentFrom_tight hv d
    refine ⟨kt ++ b!": " ++ vt, ?_, ?_, fun rest => ?_⟩
    · have := Rows.one hk v1
      simpa only [List.append_assoc] using this
    · obtain ⟨c, r, rfl, h⟩ := starts_string hk
      exact ⟨c, _, rfl, h⟩
    · simp only [List.append_assoc, List.cons_append, List.nil_append]
      rw [indentFrom_string hk, indentFrom_colon, v2]
  | .cons (kt := kt) hk hv hm, d => by
    obtain ⟨vt, v1, v2⟩ := indentFrom_tight hv d
    obtain ⟨u, m1, m2, m3⟩ := indentFrom_members hm d
    refine ⟨kt ++ b!": " ++ vt ++ b!"," ++ (line d ++ u), ?_, ?_, fun rest => ?_⟩
    · have := Rows.cons hk v1 m1
      simpa only [List.append_assoc] using this
    · obtain ⟨c, r, rfl, h⟩ := starts_string hk
      exact ⟨c, _, rfl, h⟩
    · simp only [List.append_assoc, List.cons_append, List.nil_append]
      rw [indentFrom_string hk, indentFrom_colon, v2, indentFrom_comma, m3]
      simp

end

theorem ws_line (d : Nat) : Ws (line d) := by
  intro c hc
  unfold line at hc
  rcases List.mem_append.1 hc with h | h
  · rw [List.mem_singleton] at h; subst h; decide
  · rw [List.eq_of_mem_replicate h]; decide

theorem ws_space : Ws b!" " := by
  intro c hc
  rw [List.mem_singleton] at hc; subst hc; decide

theorem _root_.Verif.Spec.JsonText.Ws.append {a b : Bytes} (ha : Ws a) (hb : Ws b) : Ws (a ++ b) := fun c hc =>
  (List.mem_append.1 hc).elim (ha c) (hb c)

theorem members_ws {w : Bytes} (hw : Ws w) {t : Bytes} {fs : List (Bytes × Json)} : Members t fs → Members (t ++ w) fs
  | .one h1 h2 h3 h4 hk hv => by
    have := Members.one h1 h2 h3 (Ws.append h4 hw) hk hv
    simpa only [List.append_assoc] using this
  | .cons h1 h2 h3 h4 hk hv hm => by
    have := Members.cons h1 h2 h3 h4 hk hv (members_ws hw hm)
    simpa only [List.append_assoc] using this

mutual

theorem denotes_layout {d : Nat} {t : Bytes} {j : Json} : Layout d t j → Denotes t j
  | .null => .null
  | .str h => .str h
  | .empty => .empty ws_nil
  | .obj h => by
    have := Denotes.obj (members_ws (ws_line d) (members_rows h))
    simpa using this

theorem members_rows {d : Nat} {t : Bytes} {fs : List (Bytes × Json)} : Rows d t fs → Members t fs
  | .one hk hv => by
    have := Members.one (ws_line d) ws_nil ws_space ws_nil hk (denotes_layout hv)
    simpa only [List.append_assoc, List.append_nil, List.cons_append, List.nil_append] using this
  | .cons hk hv hm => by
    have := Members.cons (ws_line d) ws_nil ws_space ws_nil hk (denotes_layout hv) (members_rows hm)
    simpa only [List.append_assoc, List.append_nil, List.cons_append, List.nil_append] using this

end

end Verif.Proofs.JsonText
