import Verif.Proofs.CommentLines
/-!
# C114: the lines of a wrapped comment

Where `wrapString`, which the PO encoder uses for comments, ends a line, for every text and width.
-/
namespace Verif.Props.CommentLines
open Verif.Go Verif.Model.Wrap Verif.Spec.Wrap Verif.Spec.CommentLines Verif.Proofs.CommentLines

/-- **C114** The lines of a comment are exactly those of the specification, character by character. -/
theorem C114_lines (s : Bytes) (w : Int) : (wrapString s w).map runes = commentLines w (runes s) :=
  wrapString_lines s w

/-- For a positive width the lines are valid UTF-8, whatever the comment is. -/
theorem C114_bytes (s : Bytes) (w : Int) (hw : 0 < w) : wrapString s w = (commentLines w (runes s)).map utf8 :=
  wrapString_lines_utf8 s w hw

/-- Wrapping again changes nothing: the lines of a comment without blanks at the beginning of a
paragraph, each wrapped to the same width, stay as they are. -/
theorem C114_again (s : Bytes) (w : Int) (hw : 0 < w) (h : ∀ p ∈ paragraphs (runes s), leading p = []) :
    (wrapString s w).flatMap (fun l => wrapString l w) = wrapString s w := by
  have key : ∀ l ∈ wrapString s w, wrapString l w = [l] := by
    intro l hl
    rw [C114_bytes s w hw] at hl
    obtain ⟨m, hm, rfl⟩ := List.mem_map.1 hl
    unfold commentLines at hm
    rw [if_neg (by omega)] at hm
    obtain ⟨p, hp, hm⟩ := List.mem_flatMap.1 hm
    have hs := para_settled (width := w) p (by
      intro hn
      have : ∀ s : List Char, ∀ p ∈ paragraphs s, '\n' ∉ p := by
        intro s
        induction s with
        | nil => simp [paragraphs]
        | cons c s ih =>
          unfold paragraphs
          by_cases hc : c = '\n'
          · rw [if_pos hc]
            intro p hp
            rcases List.mem_cons.1 hp with hp | hp
            · subst hp; simp
            · exact ih p hp
          · rw [if_neg hc]
            cases hq : paragraphs s with
            | nil => intro p hp; simp at hp; subst hp; simpa using Ne.symm hc
            | cons q qs =>
              rw [hq] at ih
              intro p hp
              rcases List.mem_cons.1 hp with hp | hp
              · subst hp
                intro hm
                rcases List.mem_cons.1 hm with hm | hm
                · exact hc hm.symm
                · exact ih q (by simp) hm
              · exact ih p (by simp [hp])
      exact this _ p hp hn) (h p hp) m hm
    have hnl : '\n' ∉ m := by
      rcases hs with rfl | ⟨_, _, h3, _⟩
      · simp
      · exact h3
    have hpm : paragraphs m = [m] := by
      obtain ⟨p, ps, h1, h2⟩ := paragraphs_append m [] hnl
      have h1 : p = [] ∧ ps = [] := by simpa [paragraphs] using h1
      simpa [h1.1, h1.2] using h2
    rw [C114_bytes _ w hw, runes_utf8]
    unfold commentLines
    rw [if_neg (by omega), hpm]
    simp [settled_para hs]
  generalize wrapString s w = ls at key
  induction ls with
  | nil => rfl
  | cons l ls ih =>
    rw [List.flatMap_cons, key l (by simp), ih (fun m hm => key m (by simp [hm]))]
    rfl

/-- Not so for a paragraph that starts with blanks: blanks that fill a line are lost when it is wrapped again. -/
theorem C114_again_negation : ∃ s : Bytes, ∃ w : Int, 0 < w ∧
    (wrapString s w).flatMap (fun l => wrapString l w) ≠ wrapString s w :=
  ⟨b!"    ab", 4, by decide, by decide +kernel⟩

example : commentLines 6 "  some words  here\n two \n     xyz".toList =
    ["  some".toList, "words".toList, "here".toList, " two".toList, "     x".toList, "yz".toList] := by decide +kernel
example : commentLines 4 "    ab".toList = ["    ".toList, "ab".toList] := by decide +kernel
example : ∀ p ∈ paragraphs (runes b!"some words  here\ntwo "), leading p = [] := by decide +kernel
example : wrapString b!"some words  here\ntwo " 11 = [b!"some words", b!"here", b!"two"] := by decide +kernel

end Verif.Props.CommentLines
