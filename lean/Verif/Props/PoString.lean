import Verif.Proofs.PoString
/-!
# Properties C01 - C05: PO strings (catalog/po/po_string.go)
-/
namespace Verif.Props.PoString
open Verif.Go Verif.Spec.PoString Verif.Model.PoString

/-- The strings PO escapes can represent: valid UTF-8 without a control byte that has no named
escape. -/
def Representable (s : Bytes) : Prop := ValidUtf8 s ∧ ∀ b ∈ s, ¬ BadByte b

/-! ## C01 round trip -/

/-- **C01** Encoding a representable string at any width succeeds, and decoding the result
terminates and gives back exactly the string (and nothing else). -/
theorem C01_round_trip (s : Bytes) (w : Int) (hs : Representable s) :
    ∃ t, encodePoString s w = .ok t ∧ Decodes t s ∧ ∀ r, Decodes t r → r = s := by
  obtain ⟨⟨cs, rfl⟩, hbad⟩ := hs
  rcases encodePoString_cases (utf8 cs) w with ⟨css, h1, h2, h3, h4⟩ | ⟨hb, _⟩
  · rw [runes_utf8] at h2
    have := decodes_join (assembled css) (assembled_ne_nil h3) (assembled_allEnc h4)
    rw [assembled_flatten, h2] at this
    exact ⟨_, h1, this, fun r hr => decodes_unique hr this⟩
  · obtain ⟨b, hm, hb⟩ := (bad_rune_iff_bad_byte _).1 hb
    exact absurd hb (hbad b hm)

/-- Without the UTF-8 hypothesis the round trip normalises: every malformed byte becomes U+FFFD,
nothing else changes. -/
theorem C01_round_trip_any_bytes (s : Bytes) (w : Int) (hs : ∀ b ∈ s, ¬ BadByte b) :
    ∃ t, encodePoString s w = .ok t ∧ Decodes t (utf8 (runes s)) := by
  rcases encodePoString_cases s w with ⟨css, h1, h2, h3, h4⟩ | ⟨hb, _⟩
  · have := decodes_join (assembled css) (assembled_ne_nil h3) (assembled_allEnc h4)
    rw [assembled_flatten, h2] at this
    exact ⟨_, h1, this⟩
  · obtain ⟨b, hm, hb⟩ := (bad_rune_iff_bad_byte _).1 hb
    exact absurd hb (hs b hm)

/-- Consequence: two different representable strings never have a common encoding, even at
different widths. -/
theorem C01_injective (s s' : Bytes) (w w' : Int) (hs : Representable s) (hs' : Representable s')
    (t : Bytes) (h : encodePoString s w = .ok t) (h' : encodePoString s' w' = .ok t) : s = s' := by
  obtain ⟨u, h1, h2, _⟩ := C01_round_trip s w hs
  obtain ⟨u', h1', h2', _⟩ := C01_round_trip s' w' hs'
  rw [h] at h1; rw [h'] at h1'
  simp at h1 h1'
  subst h1; subst h1'
  exact decodes_unique h2 h2'

example : Representable (utf8 "Grüße, \"Welt\"\\\n\tzwei".toList) :=
  ⟨⟨_, rfl⟩, by decide +kernel⟩

example : encodePoString b!"one two\nthree" 9 =
    .ok b!"\"\"\n\"one two\\n\"\n\"three\"" := by decide +kernel

/-! ## C02 shape -/

/-- **C02** A successful encoding is a block of quoted lines. -/
theorem C02_quoted_block (s : Bytes) (w : Int) (t : Bytes) (h : encodePoString s w = .ok t) :
    QuotedBlock t := by
  rcases encodePoString_cases s w with ⟨css, h1, _, h3, h4⟩ | ⟨_, he⟩
  · rw [h] at h1
    simp at h1
    subst h1
    match css, h3 with
    | [l], _ =>
      left
      simpa [assembled, join] using quotedLine_encLine l (h4 l (by simp))
    | l :: m :: ms, _ =>
      right
      refine ⟨encLine l, (m :: ms).map encLine, ?_, ?_⟩
      · intro x hx
        rw [← List.map_cons] at hx
        obtain ⟨y, hy, rfl⟩ := List.mem_map.1 hx
        exact quotedLine_encLine y (h4 y hy)
      · have : assembled (l :: m :: ms) = [] :: l :: m :: ms := by simp [assembled]
        rw [this, List.map_cons, join_cons_flatMap, encLine_nil]
        simp
  · rw [h] at he; simp at he

/-- Read back line by line: every line of the encoding starts and ends with a quote, and holds no
further unescaped quote. -/
theorem C02_every_line_quoted (s : Bytes) (w : Int) (t line : Bytes) (h : encodePoString s w = .ok t)
    (hl : IsLineOf line t) : QuotedLine line := by
  rcases encodePoString_cases s w with ⟨css, h1, _, h3, h4⟩ | ⟨_, he⟩
  · rw [h] at h1
    simp at h1
    subst h1
    have ha := assembled_allEnc h4
    rw [← mem_splitByte_iff, splitByte_join _ _ (by simpa using assembled_ne_nil h3)] at hl
    · obtain ⟨x, hx, rfl⟩ := List.mem_map.1 hl
      exact quotedLine_encLine x (ha x hx)
    · intro l hl
      obtain ⟨x, hx, rfl⟩ := List.mem_map.1 hl
      exact encLine_no_newline x (ha x hx)
  · rw [h] at he; simp at he

example : encodePoString b!"a\"b" 0 = .ok b!"\"a\\\"b\"" := by decide +kernel
example : IsLineOf b!"\"three\"" b!"\"\"\n\"one two\\n\"\n\"three\"" :=
  (mem_splitByte_iff _ _).1 (by decide +kernel)

/-! ## C03 termination -/

/-- **C03 is false of the code**: on the line `"\"` the decoder never returns, whatever the
number of steps granted. -/
theorem C03_negation : ∃ text : Bytes, DecodeHangs text := by
  refine ⟨b!"\"\\\"", ?_⟩
  intro fuel
  cases hd : decodePoStringFuel fuel b!"\"\\\"" with
  | none => rfl
  | some r =>
    exfalso
    have hne : ¬ (b!"\"\\\"" = b!"\"\"") := by decide
    have e : splitByte 0x0a (b!"\"\\\"") = [b!"\"\\\""] := by decide
    unfold decodePoStringFuel at hd
    rw [if_neg hne, e] at hd
    have : ∃ f r, decodeLine f (b!"\"\\\"") = some r := by
      cases h : decodeLine fuel (b!"\"\\\"") with
      | some x => exact ⟨fuel, x, h⟩
      | none => simp [decodeLines, h] at hd
    exact (decodeLine_returns_iff _).1 this ⟨[], b!"\\", [], by decide, by simp, by simp, by decide⟩

/-- **C03 (partial)** Exact characterisation of termination: decoding returns if and only if no
line of the text has a dangling backslash before its last quote. Missing for the full property:
the lines with a dangling backslash, on which the code loops (see `C03_negation`). -/
theorem C03_terminates_partial (text : Bytes) :
    (∃ r, Decodes text r) ↔ ∀ line, IsLineOf line text → ¬ Dangling line := by
  have hl : (∃ f rs, decodeLines f (splitByte 0x0a text) = some rs) ↔
      ∀ line, IsLineOf line text → ¬ Dangling line := by
    rw [decodeLines_returns]
    constructor
    · intro h line hline
      exact (decodeLine_returns_iff line).1 (h line ((mem_splitByte_iff _ _).2 hline))
    · intro h line hline
      exact (decodeLine_returns_iff line).2 (h line ((mem_splitByte_iff _ _).1 hline))
  rw [← hl]
  constructor
  · rintro ⟨r, f, h⟩
    unfold decodePoStringFuel at h
    split at h
    · rename_i e; subst e; exact ⟨0, [[]], by decide⟩
    · cases h1 : decodeLines f (splitByte 0x0a text) with
      | none => rw [h1] at h; simp at h
      | some rs => exact ⟨f, rs, h1⟩
  · rintro ⟨f, rs, h⟩
    by_cases he : text = b!"\"\""
    · exact ⟨[], 0, by rw [he]; decide⟩
    · exact ⟨rs.flatMap id, f, by unfold decodePoStringFuel; rw [if_neg he, h]⟩

/-- Hanging and returning are complementary: the decoder hangs exactly on a dangling line. -/
theorem C03_hangs_iff (text : Bytes) :
    DecodeHangs text ↔ ∃ line, IsLineOf line text ∧ Dangling line := by
  have h := C03_terminates_partial text
  constructor
  · intro hh
    refine Classical.byContradiction fun hn => ?_
    obtain ⟨r, f, hf⟩ := h.2 (fun line hl hd => hn ⟨line, hl, hd⟩)
    rw [hh f] at hf; simp at hf
  · rintro ⟨line, hl, hd⟩ fuel
    cases hd' : decodePoStringFuel fuel text with
    | none => rfl
    | some r => exact absurd hd (h.1 ⟨r, fuel, hd'⟩ line hl)

example : Decodes b!"msgid \"a\\\\\"\n\"b\"" b!"a\\b" := ⟨10, by decide +kernel⟩
example : Dangling b!"msgid \"a\\\"" := ⟨b!"msgid ", b!"a\\", [], by decide, by decide, by decide, by decide⟩

/-! ## C04 panics -/

/-- **C04 is false of the code**: `EncodePoString("\x00", 0)` panics. -/
theorem C04_negation : encodePoString [0x00] 0 = .error .indexOutOfRange := by decide +kernel

/-- **C04 (partial)** Exact characterisation: the encoder panics if and only if the string
contains a control byte without named escape, at any position and any width. Missing for the full
property: those strings. -/
theorem C04_no_panic_partial (s : Bytes) (w : Int) :
    (∃ t, encodePoString s w = .ok t) ↔ ∀ b ∈ s, ¬ BadByte b := by
  constructor
  · rintro ⟨t, h⟩ b hb hbad
    obtain ⟨c, hc, hn⟩ := (bad_rune_iff_bad_byte s).2 ⟨b, hb, hbad⟩
    rcases encodePoString_cases s w with ⟨css, _, h2, _, h4⟩ | ⟨_, he⟩
    · rw [← h2] at hc
      obtain ⟨l, hl, hcl⟩ := List.mem_flatten.1 hc
      exact hn (h4 l hl c hcl)
    · rw [h] at he; simp at he
  · intro h
    obtain ⟨t, ht, _⟩ := C01_round_trip_any_bytes s w h
    exact ⟨t, ht⟩

/-- The only fault is the table index out of range. -/
theorem C04_only_fault (s : Bytes) (w : Int) (f : Fault) (h : encodePoString s w = .error f) :
    f = .indexOutOfRange ∧ ∃ b ∈ s, BadByte b := by
  rcases encodePoString_cases s w with ⟨css, h1, _, _, _⟩ | ⟨hb, he⟩
  · rw [h] at h1; simp at h1
  · rw [h] at he; simp at he
    exact ⟨he, (bad_rune_iff_bad_byte s).1 hb⟩

example : ∀ b ∈ b!"tab\tbell" ++ [0x07, 0xff, 0x7f], ¬ BadByte b := by decide +kernel
example : BadByte 0x1b := by decide

/-! ## C05 valid UTF-8 -/

/-- **C05** Whatever the decoder returns is valid UTF-8. -/
theorem C05_valid_utf8 (text r : Bytes) (h : Decodes text r) : ValidUtf8 r := by
  obtain ⟨f, h⟩ := h
  unfold decodePoStringFuel at h
  split at h
  · simp at h; subst h; exact ⟨[], rfl⟩
  · cases h1 : decodeLines f (splitByte 0x0a text) with
    | none => rw [h1] at h; simp at h
    | some rs =>
      rw [h1] at h
      obtain rfl := Option.some.inj h
      exact decodeLines_valid h1

/-- The hypothesis is met by malformed input: a lone continuation byte and a surrogate. -/
example : Decodes ([0x22, 0x80, 0xed, 0xa0, 0x80, 0x5c, 0x6e, 0x22])
    (utf8 ['�', '�', '�', '�', '\n']) := ⟨20, by decide +kernel⟩

end Verif.Props.PoString
