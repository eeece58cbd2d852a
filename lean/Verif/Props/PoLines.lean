import Verif.Proofs.PoLines
/-!
# C113: the lines of an encoded PO string

Where `EncodePoString` ends a line, for every text and every width.
-/
namespace Verif.Props.PoLines
open Verif.Go Verif.Model.PoString Verif.Spec.PoString Verif.Spec.Wrap Verif.Spec.PoLines Verif.Proofs.PoLines

theorem encodable_of {s : Bytes} (hs : ∀ b ∈ s, ¬ BadByte b) : ∀ c ∈ runes s, Encodable c := by
  intro c hc
  refine Classical.byContradiction fun hn => ?_
  obtain ⟨b, hb, hbad⟩ := (bad_rune_iff_bad_byte s).1 ⟨c, hc, hn⟩
  exact hs b hb hbad

/-- **C113** `EncodePoString` writes exactly the lines of the specification: paragraphs, and in each
paragraph as many words as fit; a single line stands alone, several lines stand below `""`. -/
theorem C113_lines (s : Bytes) (w : Int) (hs : ∀ b ∈ s, ¬ BadByte b) :
    encodePoString s w = .ok (block (textLines w (runes s))) :=
  encodePoString_lines s w (encodable_of hs)

/-- The lines together are the text. -/
theorem C113_text (s : List Char) (w : Int) : (textLines w s).flatten = s := textLines_flatten w s

/-- Every line fits: it is not longer than the width, but for the last word of a paragraph, which is
added unchecked, and single words. -/
theorem C113_width (s : List Char) (w : Int) (hw : 0 < w) : ∀ l ∈ textLines w s, LineFits w l :=
  textLines_fits hw s

/-- No line ends without need: it ends with a newline character, or it ends with a blank before a
word, and it is full or that word with its blanks does not fit. -/
theorem C113_breaks (s : List Char) (w : Int) : Consecutive (BreakNeeded w) (textLines w s) :=
  textLines_breaks w s

/-- Without a positive width only newline characters end a line. -/
theorem C113_no_width (s : List Char) (w : Int) (hw : w ≤ 0) :
    ∀ l ∈ textLines w s, ∃ p ∈ paragraphs s, l = p ∨ l = p ++ ['\n'] := by
  unfold textLines
  generalize paragraphs s = ps
  induction ps with
  | nil => simp [paragraphLines]
  | cons p ps ih =>
    intro l hl
    rw [paragraphLines_cons] at hl
    rcases List.mem_append.1 hl with hl | hl
    · simp only [if_pos hw, List.mem_singleton] at hl
      refine ⟨p, by simp, ?_⟩
      subst hl
      split
      · exact .inl (by simp)
      · exact .inr rfl
    · obtain ⟨q, hq, h⟩ := ih l hl
      exact ⟨q, by simp [hq], h⟩

/-- The width is not a bound: the last word of a paragraph is added unchecked. -/
theorem C113_last_word_unchecked : ∃ s : List Char, ∃ w : Int, 0 < w ∧ ∃ l ∈ textLines w s,
    w < l.length ∧ 1 < (words l).length :=
  ⟨"aa bbbbbb".toList, 5, by decide, "aa bbbbbb".toList, by decide +kernel, by decide, by decide +kernel⟩

example : ∀ b ∈ b!"some words here\nand more", ¬ BadByte b := by decide +kernel
example : textLines 8 "some words  here\nand more".toList =
    ["some ".toList, "words  ".toList, "here\n".toList, "and more".toList] := by decide +kernel
example : encodePoString b!"some words  here\nand more\n" 8 =
    .ok b!"\"\"\n\"some \"\n\"words  \"\n\"here\\n\"\n\"and more\\n\"" := by decide +kernel
example : encodePoString b!"a \"b\"\n" 0 = .ok b!"\"a \\\"b\\\"\\n\"" := by decide +kernel

end Verif.Props.PoLines
