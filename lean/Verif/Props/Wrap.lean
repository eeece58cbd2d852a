import Verif.Proofs.Wrap
/-!
# Property C06: wrapping of comments (catalog/po/wrap.go)
-/
namespace Verif.Props.Wrap
open Verif.Go Verif.Spec.Wrap Verif.Model.Wrap Verif.Model.PoString

/-- The words of the wrapped lines, read line by line. -/
def wrappedWords (s : Bytes) (width : Int) : List (List Char) :=
  (wrapString s width).flatMap (fun l => words (runes l))

/-- **C06 is false of the code**: two leading blanks and the width 4 split the word `abcdef`. -/
theorem C06_negation : ∃ s : Bytes, ∃ width : Int, 0 < width ∧
    wrappedWords s width ≠ words (runes s) :=
  ⟨b!"  abcdef", 4, by decide, by decide +kernel⟩

/-- What the witness turns into. -/
example : wrapString b!"  abcdef" 4 = [b!"  ab", b!"cdef"] := by decide +kernel

/-- The words of the wrapped lines are the words of the text, or a line starts with blanks and a
word that do not fit together and there are more words than in the text. -/
theorem words_cases (s : Bytes) (width : Int) (hw : 0 < width) :
    ((∀ p ∈ paragraphs (runes s), GoodStart width p) ∧ wrappedWords s width = words (runes s)) ∨
      ((∃ p ∈ paragraphs (runes s), ¬ GoodStart width p) ∧
        (words (runes s)).length < (wrappedWords s width).length) := by
  obtain ⟨ls, l, w, sp, a, h⟩ := foldl_inv width (WordInv width (runes s)) (word_step width (runes s)) (runes s) [] _ _ _ _ _
    abs_init ⟨⟨by simp, by simp⟩, .inl ⟨[], [], by simp, by simp, by simp,
      .inl ⟨rfl, .inr (.inl rfl), .inl ⟨rfl, rfl, by simp⟩⟩⟩⟩
  rw [List.nil_append] at h
  have hf := word_final h
  unfold wrappedWords wrapString
  rw [if_neg (by omega), abs_finish a, List.flatMap_map]
  simpa only [runes_utf8] using hf

/-- **C06 (partial)** The words are kept, in order, unsplit and unjoined, for every width and
every text in which each line with leading blanks either has its blanks and first word fit
together up to one character or has blanks that fill the width. Missing: the other texts, for which
it is false (`C06_negation`, `C06_words_kept_iff`). -/
theorem C06_words_kept_partial (s : Bytes) (width : Int)
    (h : 0 < width → ∀ p ∈ paragraphs (runes s), GoodStart width p) :
    wrappedWords s width = words (runes s) := by
  by_cases hw : width ≤ 0
  · unfold wrappedWords wrapString
    rw [if_pos hw, ← words_paragraphs, ← runes_splitByte, List.flatMap_map]
  · rcases words_cases s width (by omega) with h1 | ⟨⟨p, hp, hn⟩, _⟩
    · exact h1.2
    · exact absurd (h (by omega) p hp) hn

/-- The words are kept exactly if no line starts with fewer blanks than the width followed by a word
that makes the line more than one character too long. -/
theorem C06_words_kept_iff (s : Bytes) (width : Int) :
    wrappedWords s width = words (runes s) ↔ (0 < width → ∀ p ∈ paragraphs (runes s), GoodStart width p) := by
  refine ⟨fun h hw => ?_, C06_words_kept_partial s width⟩
  rcases words_cases s width hw with h1 | ⟨_, hlt⟩
  · exact h1.1
  · rw [h] at hlt; exact absurd hlt (Nat.lt_irrefl _)

/-- There are never fewer words than in the text: words are split, not joined or dropped. -/
theorem C06_words_not_lost (s : Bytes) (width : Int) :
    (words (runes s)).length ≤ (wrappedWords s width).length := by
  by_cases hw : 0 < width
  · rcases words_cases s width hw with h1 | ⟨_, hlt⟩
    · exact Nat.le_of_eq (by rw [h1.2])
    · exact Nat.le_of_lt hlt
  · exact Nat.le_of_eq (by rw [C06_words_kept_partial s width (fun h => absurd h hw)])

/-- One character more than the width is not split off, two are. -/
example : wrapString b!"  abc" 4 = [b!"  abc"] ∧ wrapString b!"  abcd" 4 = [b!"  ab", b!"cd"] ∧
    GoodStart 4 "  abc".toList ∧ ¬ GoodStart 4 "  abcd".toList := by decide +kernel

/-- Texts whose lines do not start with blanks are always wrapped faithfully. -/
theorem C06_words_kept_no_leading_blank (s : Bytes) (width : Int)
    (h : ∀ p ∈ paragraphs (runes s), leading p = []) : wrappedWords s width = words (runes s) :=
  C06_words_kept_partial s width (fun _ p hp => .inl (h p hp))

/-- For every text and width nothing but white space is dropped or inserted: the characters that
are not breakable white space come out in the same order. -/
theorem C06_characters_kept (s : Bytes) (width : Int) :
    ((wrapString s width).flatMap runes).filter (fun c => !isBreak c) =
      (runes s).filter (fun c => !isBreak c) := by
  unfold wrapString
  by_cases hw : width ≤ 0
  · rw [if_pos hw]
    generalize hn : s.length = n
    clear hw
    induction n using Nat.strongRecOn generalizing s with
    | _ n ih =>
      by_cases hm : (0x0a : UInt8) ∈ s
      · obtain ⟨a, b, h1, h2⟩ := exists_first _ _ hm
        rw [h1, splitByte_line _ _ _ h2, runes_append_ascii 0x0a (by decide), List.flatMap_cons,
          List.filter_append, List.filter_append, ih b.length (by rw [← hn, h1]; simp; omega) b rfl,
          List.filter_cons_of_neg (by decide)]
      · rw [splitByte_of_not_mem _ _ hm]; simp
  · rw [if_neg hw]
    obtain ⟨ls, l, w, sp, a, sh, h1⟩ := foldl_inv width Content (content_step width) (runes s) [] _ _ _ _ _
      abs_init ⟨⟨by simp, by simp⟩, rfl⟩
    rw [List.nil_append] at h1
    rw [abs_finish a, ← h1, List.flatMap_map]
    simp only [runes_utf8, List.flatMap_append, List.flatMap_cons, List.flatMap_nil, List.append_nil]
    have e : ls.flatMap (fun a => a) = ls.flatten := by rw [List.flatMap_def]; simp
    rw [e]
    split
    · rename_i h; subst h; simp
    · simp [not_break_filter sp sh.space]

/-- The width is respected: a line longer than the width has at most one word. -/
theorem C06_width (s : Bytes) (width : Int) (hw : 0 < width) :
    ∀ l ∈ wrapString s width, ((runes l).length : Int) ≤ width ∨ (words (runes l)).length ≤ 1 := by
  unfold wrapString
  rw [if_neg (by omega)]
  obtain ⟨ls, l, w, sp, a, sh, h1, h2, h3⟩ := foldl_inv width (WidthInv width) (width_step width) (runes s) [] _ _ _ _ _
    abs_init ⟨⟨by simp, by simp⟩, by simp, fits_nil _, by simp⟩
  rw [abs_finish a]
  intro x hx
  obtain ⟨y, hy, rfl⟩ := List.mem_map.1 hx
  rw [runes_utf8]
  rcases List.mem_append.1 hy with hy | hy
  · exact h1 y hy
  · simp only [List.mem_singleton] at hy
    subst hy
    split
    · rename_i h; subst h; simpa [Fits] using h2
    · rename_i h; exact h3 h

example : ∀ p ∈ paragraphs (runes b!"some words  here\n two\n       x"), GoodStart 6 p := by decide +kernel
example : wrapString b!"some words  here\n two" 6 = [b!"some", b!"words", b!"here", b!" two"] := by
  decide +kernel
example : wrappedWords b!"some words  here\n two" 6 =
    ["some".toList, "words".toList, "here".toList, "two".toList] := by decide +kernel

end Verif.Props.Wrap
