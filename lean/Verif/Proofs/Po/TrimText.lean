import Verif.Proofs.Po.Trim
import Verif.Proofs.Wrap
/-! `strings.TrimSpace`, `strings.Split` and `strings.FieldsFunc` on valid UTF-8. -/
namespace Verif.Proofs.Po
open Verif.Go Verif.Model.Po Verif.Spec.Wrap

theorem isSpace_mem (c : Char) : isSpace c = true ↔ encodeRune c ∈ spaceEncodings := by
  have hs : spaceEncodings = ([0x09, 0x0A, 0x0B, 0x0C, 0x0D, 0x20, 0x85, 0xA0, 0x1680, 0x2000, 0x2001, 0x2002, 0x2003, 0x2004, 0x2005,
    0x2006, 0x2007, 0x2008, 0x2009, 0x200A, 0x2028, 0x2029, 0x202F, 0x205F, 0x3000] : List Nat).map
      fun n => encodeRune (Char.ofNat n) := by decide +kernel
  have hn : ∀ n ∈ ([0x09, 0x0A, 0x0B, 0x0C, 0x0D, 0x20, 0x85, 0xA0, 0x1680, 0x2000, 0x2001, 0x2002, 0x2003, 0x2004, 0x2005,
    0x2006, 0x2007, 0x2008, 0x2009, 0x200A, 0x2028, 0x2029, 0x202F, 0x205F, 0x3000] : List Nat),
      isSpace (Char.ofNat n) = true := by decide +kernel
  rw [hs, List.mem_map]
  constructor
  · intro h
    refine ⟨c.toNat, ?_, by rw [ofNat_toNat]⟩
    unfold isSpace at h
    simp only [Bool.or_eq_true, Bool.and_eq_true, decide_eq_true_eq] at h
    simp only [List.mem_cons, List.not_mem_nil, or_false]
    omega
  · rintro ⟨n, hm, he⟩
    have : c = Char.ofNat n := by
      have := utf8_injective (a := [c]) (b := [Char.ofNat n]) (by simp [he])
      simpa using this
    rw [this]; exact hn n hm

theorem enc_of_space {e : Bytes} (he : e ∈ spaceEncodings) : ∃ c, isSpace c = true ∧ e = encodeRune c := by
  have hs : ∀ e ∈ spaceEncodings, isSpace (decodeRune e).1 = true ∧ e = encodeRune (decodeRune e).1 := by decide +kernel
  exact ⟨_, hs e he⟩

theorem spaces_utf8 {cs : List Char} (h : ∀ c ∈ cs, isSpace c = true) : Spaces (utf8 cs) :=
  ⟨cs.map encodeRune, by
    intro x hx
    obtain ⟨c, hc, rfl⟩ := List.mem_map.1 hx
    exact (isSpace_mem c).1 (h c hc), by rw [utf8, List.flatMap_def]⟩

theorem trimLeft_utf8 (cs : List Char) : trimLeft (utf8 cs) = utf8 (cs.dropWhile isSpace) := by
  induction cs with
  | nil => rfl
  | cons c cs ih =>
    rw [List.dropWhile_cons]
    split
    · rename_i h
      rw [utf8_cons, trimLeft_enc ((isSpace_mem c).1 h), ih]
    · rename_i h
      refine trimLeft_none ?_
      intro e he hp
      obtain ⟨d, hd, rfl⟩ := enc_of_space he
      obtain ⟨r, hr⟩ := hp
      have h1 := decodeRune_encodeRune d r
      rw [hr, utf8_cons, decodeRune_encodeRune] at h1
      simp only [Prod.mk.injEq] at h1
      rw [h1.1] at h
      exact h hd

/-- The first byte of a rune starts it, the others continue it. -/
theorem encodeRune_shape (c : Char) : ∃ h t, encodeRune c = h :: t ∧ isCont h = false ∧ ∀ b ∈ t, isCont b = true := by
  have hv := char_valid c
  unfold encodeRune
  dsimp only
  generalize c.toNat = n at *
  unfold isCont
  split
  · refine ⟨_, _, rfl, ?_, nofun⟩
    simp; omega
  split
  · refine ⟨_, _, rfl, ?_, ?_⟩
    · simp; omega
    · intro b hb; simp at hb; subst hb; simp; omega
  split
  · refine ⟨_, _, rfl, ?_, ?_⟩
    · simp; omega
    · intro b hb; simp at hb; rcases hb with rfl | rfl <;> simp <;> omega
  · refine ⟨_, _, rfl, ?_, ?_⟩
    · simp; omega
    · intro b hb; simp at hb; rcases hb with rfl | rfl | rfl <;> simp <;> omega

theorem suffix_le {a b s : Bytes} {h h' : UInt8} {t t' : Bytes} (ha : a = h :: t) (hb : b = h' :: t')
    (hh : isCont h = false) (ht' : ∀ x ∈ t', isCont x = true) (h1 : a <:+ s) (h2 : b <:+ s) : b.length ≤ a.length := by
  apply Nat.le_of_not_lt
  intro hl
  have hs : a <:+ b := List.suffix_of_suffix_length_le h1 h2 (by omega)
  obtain ⟨p, hp⟩ := hs
  cases p with
  | nil => rw [List.nil_append] at hp; rw [hp] at hl; omega
  | cons x p =>
    rw [hb] at hp
    have := (List.cons.inj hp).2
    have hm : h ∈ t' := by rw [← this, ha]; simp
    rw [ht' h hm] at hh
    cases hh

theorem trimRight_utf8_last (cs : List Char) (c : Char) (h : isSpace c = false) :
    trimRight (utf8 (cs ++ [c])) = utf8 (cs ++ [c]) := by
  obtain ⟨b, ⟨xs, hx, rfl⟩, e, _⟩ := trimRight_spec (utf8 (cs ++ [c]))
  rcases List.eq_nil_or_concat xs with rfl | ⟨ys, y, rfl⟩
  · simpa using e.symm
  · exfalso
    rw [List.concat_eq_append] at *
    have hy := hx y (by simp)
    obtain ⟨d, hd, hde⟩ := enc_of_space hy
    have s1 : encodeRune d <:+ utf8 (cs ++ [c]) := by
      rw [e, ← hde]
      exact ⟨trimRight (utf8 (cs ++ [c])) ++ ys.flatten, by simp⟩
    have s2 : encodeRune c <:+ utf8 (cs ++ [c]) := ⟨utf8 cs, by simp⟩
    obtain ⟨h1, t1, e1, n1, k1⟩ := encodeRune_shape d
    obtain ⟨h2, t2, e2, n2, k2⟩ := encodeRune_shape c
    have l1 := suffix_le e1 e2 n1 k2 s1 s2
    have l2 := suffix_le e2 e1 n2 k1 s2 s1
    have hs := List.suffix_of_suffix_length_le s1 s2 (by omega)
    have he := hs.eq_of_length (by omega)
    have : isSpace c = true := by rw [isSpace_mem, ← he, ← hde]; exact hy
    rw [this] at h; cases h

/-- A text without white space at its ends. -/
theorem trimSpace_utf8 {cs : List Char} (h1 : ∀ c ∈ cs.head?, isSpace c = false) (h2 : ∀ c ∈ cs.getLast?, isSpace c = false) :
    trimSpace (utf8 cs) = utf8 cs := by
  unfold trimSpace
  have : cs.dropWhile isSpace = cs := by
    cases cs with
    | nil => rfl
    | cons c cs => rw [List.dropWhile_cons_of_neg]; rw [h1 c rfl]; simp
  rw [trimLeft_utf8, this]
  rcases List.eq_nil_or_concat cs with rfl | ⟨ds, d, rfl⟩
  · rfl
  · rw [List.concat_eq_append] at *
    exact trimRight_utf8_last ds d (h2 d (by simp))

theorem mem_takeWhile {p : Char → Bool} {l : List Char} {c : Char} (h : c ∈ l.takeWhile p) : p c = true := by
  have := List.all_takeWhile (l := l) (p := p)
  rw [List.all_eq_true] at this
  exact this c h

/-- White space at the ends of a text. -/
theorem trimSpace_chars (cs : List Char) : ∃ a m b, cs = a ++ m ++ b ∧ (∀ c ∈ a, isSpace c = true) ∧
    (∀ c ∈ b, isSpace c = true) ∧ trimSpace (utf8 cs) = utf8 m := by
  have hr : ∀ ds : List Char, ∃ m b, ds = m ++ b ∧ (∀ c ∈ b, isSpace c = true) ∧ trimRight (utf8 ds) = utf8 m := by
    intro ds
    refine ⟨(ds.reverse.dropWhile isSpace).reverse, (ds.reverse.takeWhile isSpace).reverse, ?_, ?_, ?_⟩
    · rw [← List.reverse_append, List.takeWhile_append_dropWhile, List.reverse_reverse]
    · intro c hc
      rw [List.mem_reverse] at hc
      exact mem_takeWhile hc
    · have e : ds = (ds.reverse.dropWhile isSpace).reverse ++ (ds.reverse.takeWhile isSpace).reverse := by
        rw [← List.reverse_append, List.takeWhile_append_dropWhile, List.reverse_reverse]
      have hb : ∀ c ∈ (ds.reverse.takeWhile isSpace).reverse, isSpace c = true := by
        intro c hc; rw [List.mem_reverse] at hc; exact mem_takeWhile hc
      have : trimRight (utf8 ds) = trimRight (utf8 (ds.reverse.dropWhile isSpace).reverse) := by
        conv => lhs; rw [e]
        rw [utf8_append, trimRight_spaces (spaces_utf8 hb)]
      rw [this]
      cases hd : ds.reverse.dropWhile isSpace with
      | nil => rfl
      | cons x xs =>
        rw [List.reverse_cons]
        apply trimRight_utf8_last
        have := List.head?_dropWhile_not isSpace ds.reverse
        rw [hd] at this
        simpa using this
  obtain ⟨m, b, h1, h2, h3⟩ := hr (cs.dropWhile isSpace)
  refine ⟨cs.takeWhile isSpace, m, b, ?_, fun c hc => mem_takeWhile hc, h2, ?_⟩
  · rw [List.append_assoc, ← h1, List.takeWhile_append_dropWhile]
  · unfold trimSpace; rw [trimLeft_utf8, h3]

end Verif.Proofs.Po
