import Verif.Model.Wrap
import Verif.Spec.Wrap
import Verif.Proofs.PoString
import Verif.Proofs.Bytes
/-! Helper lemmas about comment wrapping. -/
namespace Verif.Model.Wrap
open Verif.Go Verif.Model.PoString Verif.Spec.Wrap

/-! ### Words -/

theorem wordsFrom_append_break (xs : List Char) (b : Char) (ys : List Char) (hb : isBreak b = true) :
    ∀ cur, wordsFrom cur (xs ++ b :: ys) = wordsFrom cur xs ++ words ys := by
  induction xs with
  | nil => intro cur; simp [wordsFrom, hb, words]
  | cons x xs ih =>
    intro cur
    simp only [List.cons_append, wordsFrom]
    split
    · rw [ih]; simp
    · rw [ih]

theorem wordsFrom_word (w : List Char) (hw : ∀ c ∈ w, isBreak c = false) :
    ∀ cur, wordsFrom cur w = if cur ++ w = [] then [] else [cur ++ w] := by
  induction w with
  | nil => intro cur; simp [wordsFrom]
  | cons c cs ih =>
    intro cur
    unfold wordsFrom
    rw [if_neg (by simp [hw c List.mem_cons_self]), ih (fun x hx => hw x (List.mem_cons_of_mem _ hx))]
    simp

theorem words_word (w : List Char) (hw : ∀ c ∈ w, isBreak c = false) :
    words w = if w = [] then [] else [w] := by
  unfold words; rw [wordsFrom_word w hw]; simp

theorem wordsFrom_append_breaks (sp : List Char) (hs : ∀ c ∈ sp, isBreak c = true) (xs : List Char) :
    ∀ cur, wordsFrom cur (xs ++ sp) = wordsFrom cur xs := by
  induction xs with
  | nil =>
    induction sp with
    | nil => simp
    | cons b sp ih =>
      intro cur
      have h2 := ih (fun x hx => hs x (List.mem_cons_of_mem _ hx)) []
      simp only [List.nil_append] at h2 ⊢
      simp only [wordsFrom, hs b List.mem_cons_self, if_true, h2]
      simp
  | cons x xs ih =>
    intro cur
    simp only [List.cons_append, wordsFrom, ih]

theorem words_append_breaks (xs sp : List Char) (hs : ∀ c ∈ sp, isBreak c = true) :
    words (xs ++ sp) = words xs := wordsFrom_append_breaks sp hs xs []

theorem words_breaks (sp : List Char) (hs : ∀ c ∈ sp, isBreak c = true) : words sp = [] := by
  have := words_append_breaks [] sp hs
  simpa [words, wordsFrom] using this

theorem words_snoc_break (xs : List Char) (b : Char) (hb : isBreak b = true) :
    words (xs ++ [b]) = words xs := words_append_breaks xs [b] (by simpa using hb)

/-- A separated word adds exactly one word. -/
theorem words_sep_word (l w : List Char) (hl : l = [] ∨ ∃ b, l.getLast? = some b ∧ isBreak b = true)
    (hw : ∀ c ∈ w, isBreak c = false) : words (l ++ w) = words l ++ words w := by
  rcases hl with hl | ⟨b, hb, hbb⟩
  · subst hl; simp [words, wordsFrom]
  · have hne : l ≠ [] := by intro h; rw [h] at hb; simp at hb
    have : l = l.dropLast ++ [b] := by
      conv => lhs; rw [← List.dropLast_concat_getLast hne]
      rw [List.getLast?_eq_some_getLast hne] at hb
      simp at hb; rw [hb]
    rw [this, List.append_assoc]
    unfold words
    rw [List.singleton_append, wordsFrom_append_break _ _ _ hbb, wordsFrom_append_breaks [b] (by simpa using hbb)]
    rfl

/-- One step of `scan`. -/
def scanStep (st : List (List Char) × List Char) (c : Char) : List (List Char) × List Char :=
  if isBreak c then (if st.2 = [] then st.1 else st.1 ++ [st.2], []) else (st.1, st.2 ++ [c])

/-- Completed words and the word under construction. -/
def scan (p : List Char) : List (List Char) × List Char :=
  p.foldl scanStep ([], [])

theorem scan_snoc (p : List Char) (c : Char) : scan (p ++ [c]) =
    if isBreak c then (if (scan p).2 = [] then (scan p).1 else (scan p).1 ++ [(scan p).2], [])
    else ((scan p).1, (scan p).2 ++ [c]) := by
  unfold scan; rw [List.foldl_append]; rfl

theorem foldl_scan (p : List Char) : ∀ D cur,
    (p.foldl scanStep (D, cur)).1 ++ (if (p.foldl scanStep (D, cur)).2 = [] then [] else [(p.foldl scanStep (D, cur)).2])
      = D ++ wordsFrom cur p := by
  induction p with
  | nil => intro D cur; by_cases h : cur = [] <;> simp [wordsFrom, h]
  | cons c cs ih =>
    intro D cur
    rw [List.foldl_cons]
    unfold wordsFrom
    by_cases hb : isBreak c = true
    · have : scanStep (D, cur) c = (if cur = [] then D else D ++ [cur], []) := by simp [scanStep, hb]
      rw [this, ih, if_pos hb]
      split <;> simp
    · have : scanStep (D, cur) c = (D, cur ++ [c]) := by simp [scanStep, hb]
      rw [this, ih, if_neg hb]

theorem words_eq_scan (p : List Char) :
    words p = (scan p).1 ++ (if (scan p).2 = [] then [] else [(scan p).2]) := by
  have := foldl_scan p [] []
  unfold scan words
  rw [this]; simp

/-! ### Abstract states -/

/-- `b` holds the characters `cs`. -/
def Holds (b : SB) (cs : List Char) : Prop := b.buff = utf8 cs ∧ b.len = cs.length

theorem holds_empty : Holds SB.empty [] := ⟨rfl, rfl⟩

theorem holds_writeRune {b : SB} {cs : List Char} (h : Holds b cs) (c : Char) :
    Holds (b.writeRune c) (cs ++ [c]) := by
  refine ⟨?_, by simp [SB.writeRune, h.2]⟩
  simp [SB.writeRune, h.1]

theorem holds_writeInto {b w : SB} {cs ds : List Char} (h : Holds b cs) (h' : Holds w ds) :
    Holds (b.writeInto w).1 [] ∧ Holds (b.writeInto w).2 (ds ++ cs) := by
  refine ⟨⟨rfl, rfl⟩, by simp [SB.writeInto, h.1, h'.1], by simp [SB.writeInto, h.2, h'.2]⟩

/-- Character level view of a state. -/
structure Abs (st : St) (ls : List (List Char)) (l w sp : List Char) : Prop where
  lines : st.lines = ls.map utf8
  line : Holds st.line l
  word : Holds st.word w
  space : Holds st.space sp

theorem abs_flush {st ls l w sp} (a : Abs st ls l w sp) : Abs (flush st) ls (l ++ sp ++ w) [] [] := by
  have h1 := holds_writeInto a.space a.line
  have h2 := holds_writeInto a.word h1.2
  exact ⟨a.lines, h2.2, h2.1, h1.1⟩

theorem abs_newline {st ls l w sp} (a : Abs st ls l w sp) :
    Abs (newline st) (ls ++ [l ++ (if w = [] then [] else sp) ++ w]) [] [] [] := by
  unfold newline
  have hw : st.word.len = 0 ↔ w = [] := by rw [a.word.2]; exact List.length_eq_zero_iff
  by_cases h : w = []
  · have := abs_flush (st := { st with space := SB.empty }) ⟨a.lines, a.line, a.word, holds_empty⟩
    simp only [if_pos (hw.2 h), if_pos h]
    refine ⟨?_, holds_empty, this.word, this.space⟩
    have h1 := this.lines
    have h2 := this.line.1
    show (flush _).lines ++ [(flush _).line.buff] = _
    rw [h1, h2]; simp
  · have := abs_flush a
    have hn : ¬ st.word.len = 0 := fun e => h (hw.1 e)
    simp only [if_neg hn, if_neg h]
    refine ⟨?_, holds_empty, this.word, this.space⟩
    show (flush _).lines ++ [(flush _).line.buff] = _
    rw [this.lines, this.line.1]; simp

theorem abs_space {st ls l w sp} (a : Abs st ls l w sp) (c : Char) :
    if w = [] then Abs (space st c) ls l w (sp ++ [c]) else Abs (space st c) ls (l ++ sp ++ w) [] [c] := by
  unfold space
  by_cases h : w = []
  · rw [if_pos h]
    have hn : ¬ st.word.len > 0 := by rw [a.word.2, h]; simp
    simp only [if_neg hn]
    exact ⟨a.lines, a.line, a.word, holds_writeRune a.space c⟩
  · rw [if_neg h]
    have hp : st.word.len > 0 := by rw [a.word.2]; exact List.length_pos_iff.2 h
    simp only [if_pos hp]
    have := abs_flush a
    exact ⟨this.lines, this.line, this.word, by simpa using holds_writeRune this.space c⟩

/-- The four outcomes of `other`. -/
theorem abs_other {st ls l w sp} (a : Abs st ls l w sp) (width : Int) (c : Char) :
    (((l.length + sp.length + w.length : Nat) : Int) < width ∧ Abs (other width st c) ls l (w ++ [c]) sp) ∨
    (((l.length + sp.length + w.length : Nat) : Int) ≥ width ∧ l ≠ [] ∧
      Abs (other width st c) (ls ++ [l]) [] (w ++ [c]) []) ∨
    (((sp.length + w.length : Nat) : Int) ≥ width ∧ l = [] ∧ sp ≠ [] ∧
      Abs (other width st c) ls (sp ++ w) [c] []) ∨
    (((w.length : Nat) : Int) ≥ width ∧ l = [] ∧ sp = [] ∧
      Abs (other width st c) ls [] (w ++ [c]) []) := by
  unfold other
  by_cases h : (st.line.len + st.space.len + st.word.len : Int) ≥ width
  · simp only [if_pos h]
    have h' : ((l.length + sp.length + w.length : Nat) : Int) ≥ width := by
      rw [a.line.2, a.space.2, a.word.2] at h; omega
    by_cases hl : l = []
    · subst hl
      have he : emitLine st = st := by
        unfold emitLine; rw [if_neg (by rw [a.line.2]; simp)]
      rw [he]
      by_cases hs : sp = []
      · subst hs
        have hk : keepBlanks st = st := by
          unfold keepBlanks; rw [if_neg (by rw [a.space.2]; simp)]
        rw [hk]
        right; right; right
        refine ⟨by simpa using h', rfl, rfl, a.lines, a.line, holds_writeRune a.word c, a.space⟩
      · have hk : keepBlanks st = flush st := by
          unfold keepBlanks; rw [if_pos (by rw [a.space.2]; exact List.length_pos_iff.2 hs)]
        rw [hk]
        have := abs_flush a
        right; right; left
        refine ⟨by simpa using h', rfl, hs, this.lines, by simpa using this.line,
          by simpa using holds_writeRune this.word c, this.space⟩
    · have he : emitLine st = { st with lines := st.lines ++ [st.line.buff], line := SB.empty, space := SB.empty } := by
        unfold emitLine; rw [if_pos (by rw [a.line.2]; exact List.length_pos_iff.2 hl)]
      have hk : keepBlanks (emitLine st) = emitLine st := by
        rw [he]; unfold keepBlanks; rw [if_neg (by simp [SB.empty])]
      rw [hk, he]
      right; left
      refine ⟨h', hl, ?_, holds_empty, holds_writeRune a.word c, holds_empty⟩
      show st.lines ++ [st.line.buff] = _
      rw [a.lines, a.line.1]; simp
  · simp only [if_neg h]
    left
    refine ⟨by rw [a.line.2, a.space.2, a.word.2] at h; omega, a.lines, a.line, holds_writeRune a.word c, a.space⟩

theorem abs_finish {st ls l w sp} (a : Abs st ls l w sp) :
    finish st = (ls ++ [l ++ (if w = [] then [] else sp) ++ w]).map utf8 := by
  unfold finish
  by_cases h : w = []
  · have hn : ¬ st.word.len > 0 := by rw [a.word.2, h]; simp
    simp only [if_neg hn]
    rw [a.lines, a.line.1, h]; simp
  · have hp : st.word.len > 0 := by rw [a.word.2]; exact List.length_pos_iff.2 h
    simp only [if_pos hp]
    have := abs_flush a
    rw [this.lines, this.line.1]; simp [h]

/-- Induction principle: an invariant over (consumed, remaining, abstract state). -/
theorem foldl_inv (width : Int) (P : List Char → List Char → List (List Char) → List Char → List Char → List Char → Prop)
    (hstep : ∀ p c r st ls l w sp, Abs st ls l w sp → P p (c :: r) ls l w sp →
      ∃ ls' l' w' sp', Abs (step width st c) ls' l' w' sp' ∧ P (p ++ [c]) r ls' l' w' sp') :
    ∀ r p st ls l w sp, Abs st ls l w sp → P p r ls l w sp →
      ∃ ls' l' w' sp', Abs (r.foldl (step width) st) ls' l' w' sp' ∧ P (p ++ r) [] ls' l' w' sp' := by
  intro r
  induction r with
  | nil => intro p st ls l w sp a h; exact ⟨ls, l, w, sp, a, by simpa using h⟩
  | cons c r ih =>
    intro p st ls l w sp a h
    obtain ⟨ls', l', w', sp', a', h'⟩ := hstep p c r st ls l w sp a h
    obtain ⟨ls2, l2, w2, sp2, a2, h2⟩ := ih (p ++ [c]) _ ls' l' w' sp' a' h'
    exact ⟨ls2, l2, w2, sp2, a2, by simpa using h2⟩

theorem isBreak_iff (c : Char) : isBreak c = true ↔ (isSpace c = true ∧ c ≠ nbsp) := by
  unfold isBreak nbsp; simp

theorem isBreak_newline : isBreak '\n' = true := by decide

theorem isBreak_false_of {c : Char} (h : ¬ (isSpace c = true ∧ c ≠ nbsp)) : isBreak c = false := by
  cases hb : isBreak c with
  | false => rfl
  | true => exact absurd ((isBreak_iff c).1 hb) h

/-- General facts about the buffers that hold for all inputs. -/
structure Shape (w sp : List Char) : Prop where
  word : ∀ c ∈ w, isBreak c = false
  space : ∀ c ∈ sp, isBreak c = true

theorem not_break_filter (w : List Char) (h : ∀ c ∈ w, isBreak c = true) : w.filter (fun c => !isBreak c) = [] := by
  rw [List.filter_eq_nil_iff]; intro c hc; simp [h c hc]

/-! ### Content -/

def Content (p _r : List Char) (ls : List (List Char)) (l w sp : List Char) : Prop :=
  Shape w sp ∧ (ls.flatten ++ l ++ w).filter (fun c => !isBreak c) = p.filter (fun c => !isBreak c)

theorem content_step (width : Int) : ∀ p c r st ls l w sp, Abs st ls l w sp → Content p (c :: r) ls l w sp →
      ∃ ls' l' w' sp', Abs (step width st c) ls' l' w' sp' ∧ Content (p ++ [c]) r ls' l' w' sp' := by
  intro p c r st ls l w sp a ⟨sh, hc⟩
  have hsp := not_break_filter sp sh.space
  unfold step
  split
  · rename_i hn
    refine ⟨_, _, _, _, abs_newline a, ⟨by simp, by simp⟩, ?_⟩
    subst hn
    rw [List.filter_append (l₁ := p), ← hc]
    split
    · rename_i hw; subst hw; simp [isBreak_newline]
    · simp [isBreak_newline, hsp]
  · split
    · rename_i hb
      have hb := (isBreak_iff c).2 hb
      have := abs_space a c
      by_cases hw : w = []
      · rw [if_pos hw] at this
        refine ⟨_, _, _, _, this, ⟨sh.word, ?_⟩, ?_⟩
        · intro x hx; rcases List.mem_append.1 hx with hx | hx
          · exact sh.space x hx
          · simp at hx; rw [hx]; exact hb
        · rw [List.filter_append (l₁ := p), ← hc]; simp [hb]
      · rw [if_neg hw] at this
        refine ⟨_, _, _, _, this, ⟨by simp, by simpa using hb⟩, ?_⟩
        rw [List.filter_append (l₁ := p), ← hc]; simp [hb, hsp]
    · rename_i hb
      have hb := isBreak_false_of hb
      have hw' : ∀ x ∈ w ++ [c], isBreak x = false := by
        intro x hx; rcases List.mem_append.1 hx with hx | hx
        · exact sh.word x hx
        · simp at hx; rw [hx]; exact hb
      rcases abs_other a width c with ⟨_, h⟩ | ⟨_, _, h⟩ | ⟨_, hl, _, h⟩ | ⟨_, hl, _, h⟩
      · exact ⟨_, _, _, _, h, ⟨hw', sh.space⟩, by rw [List.filter_append (l₁ := p), ← hc]; simp⟩
      · exact ⟨_, _, _, _, h, ⟨hw', by simp⟩, by rw [List.filter_append (l₁ := p), ← hc]; simp⟩
      · refine ⟨_, _, _, _, h, ⟨by simpa using hb, by simp⟩, ?_⟩
        rw [List.filter_append (l₁ := p), ← hc]; subst hl; simp [hsp]
      · exact ⟨_, _, _, _, h, ⟨hw', by simp⟩, by rw [List.filter_append (l₁ := p), ← hc]; simp [hl]⟩

/-! ### Width -/

/-- A line fits, or has at most one word. -/
def Fits (width : Int) (l : List Char) : Prop := (l.length : Int) ≤ width ∨ (words l).length ≤ 1

def WidthInv (width : Int) (_p _r : List Char) (ls : List (List Char)) (l w sp : List Char) : Prop :=
  Shape w sp ∧ (∀ x ∈ ls, Fits width x) ∧ Fits width l ∧ (w ≠ [] → Fits width (l ++ sp ++ w))

theorem fits_nil (width : Int) : Fits width [] := .inr (by simp [words, wordsFrom])

theorem fits_word (width : Int) (w : List Char) (h : ∀ c ∈ w, isBreak c = false) : Fits width w := by
  right; rw [words_word w h]; split <;> simp

theorem fits_blanks_word (width : Int) (sp w : List Char) (hs : ∀ c ∈ sp, isBreak c = true)
    (h : ∀ c ∈ w, isBreak c = false) : Fits width (sp ++ w) := by
  right
  rw [words_sep_word sp w ?_ h, words_breaks sp hs, words_word w h]
  · split <;> simp
  · rcases List.eq_nil_or_concat sp with e | ⟨i, b, e⟩
    · exact .inl e
    · right; exact ⟨b, by rw [e]; simp, hs b (by rw [e]; simp)⟩

theorem width_step (width : Int) : ∀ p c r st ls l w sp, Abs st ls l w sp → WidthInv width p (c :: r) ls l w sp →
      ∃ ls' l' w' sp', Abs (step width st c) ls' l' w' sp' ∧ WidthInv width (p ++ [c]) r ls' l' w' sp' := by
  intro p c r st ls l w sp a ⟨sh, h1, h2, h3⟩
  unfold step
  split
  · refine ⟨_, _, _, _, abs_newline a, ⟨by simp, by simp⟩, ?_, fits_nil _, by simp⟩
    intro x hx
    rcases List.mem_append.1 hx with hx | hx
    · exact h1 x hx
    · simp only [List.mem_singleton] at hx; subst hx
      split
      · rename_i hw; subst hw; simpa using h2
      · rename_i hw; exact h3 hw
  · split
    · rename_i hb
      have hb := (isBreak_iff c).2 hb
      have := abs_space a c
      by_cases hw : w = []
      · rw [if_pos hw] at this
        refine ⟨_, _, _, _, this, ⟨sh.word, ?_⟩, h1, h2, fun h => absurd hw h⟩
        intro x hx; rcases List.mem_append.1 hx with hx | hx
        · exact sh.space x hx
        · simp at hx; rw [hx]; exact hb
      · rw [if_neg hw] at this
        exact ⟨_, _, _, _, this, ⟨by simp, by simpa using hb⟩, h1, h3 hw, by simp⟩
    · rename_i hb
      have hb := isBreak_false_of hb
      have hw' : ∀ x ∈ w ++ [c], isBreak x = false := by
        intro x hx; rcases List.mem_append.1 hx with hx | hx
        · exact sh.word x hx
        · simp at hx; rw [hx]; exact hb
      rcases abs_other a width c with ⟨hlt, h⟩ | ⟨_, _, h⟩ | ⟨_, hl, _, h⟩ | ⟨_, hl, _, h⟩
      · refine ⟨_, _, _, _, h, ⟨hw', sh.space⟩, h1, h2, fun _ => .inl ?_⟩
        simp; omega
      · refine ⟨_, _, _, _, h, ⟨hw', by simp⟩, ?_, fits_nil _, fun _ => by simpa using fits_word width _ hw'⟩
        intro x hx
        rcases List.mem_append.1 hx with hx | hx
        · exact h1 x hx
        · simp at hx; rw [hx]; exact h2
      · refine ⟨_, _, _, _, h, ⟨by simpa using hb, by simp⟩, h1, fits_blanks_word width sp w sh.space sh.word, fun _ => ?_⟩
        have := fits_blanks_word width sp (w ++ [c]) sh.space hw'
        simpa using this
      · exact ⟨_, _, _, _, h, ⟨hw', by simp⟩, h1, fits_nil _, fun _ => by simpa using fits_word width _ hw'⟩

/-! ### Words are kept -/

theorem paragraphs_ne_nil (s : List Char) : paragraphs s ≠ [] := by
  cases s with
  | nil => simp [paragraphs]
  | cons c cs => unfold paragraphs; split; · simp
                 · split <;> simp

/-- The head paragraph of `q ++ r`, for `q` without newline, starts with `q`. -/
theorem paragraphs_append (q r : List Char) (hq : '\n' ∉ q) :
    ∃ p ps, paragraphs r = p :: ps ∧ paragraphs (q ++ r) = (q ++ p) :: ps := by
  induction q with
  | nil =>
    cases h : paragraphs r with
    | nil => exact absurd h (paragraphs_ne_nil r)
    | cons p ps => exact ⟨p, ps, rfl, by simpa using h⟩
  | cons c q ih =>
    simp at hq
    obtain ⟨p, ps, h1, h2⟩ := ih hq.2
    refine ⟨p, ps, h1, ?_⟩
    simp only [List.cons_append]
    unfold paragraphs
    rw [if_neg (fun e => hq.1 e.symm), h2]

theorem takeWhile_append_all (f : Char → Bool) (xs ys : List Char) (h : ∀ x ∈ xs, f x = true) :
    (xs ++ ys).takeWhile f = xs ++ ys.takeWhile f ∧ (xs ++ ys).dropWhile f = ys.dropWhile f := by
  induction xs with
  | nil => simp
  | cons x xs ih =>
    have hx := h x List.mem_cons_self
    have := ih (fun y hy => h y (List.mem_cons_of_mem _ hy))
    simp [hx, this.1, this.2]

/-- Leading blanks and first word of a paragraph that starts with blanks and word characters. -/
theorem start_of (sp w t : List Char) (c : Char) (hs : ∀ x ∈ sp, isBreak x = true)
    (hw : ∀ x ∈ w ++ [c], isBreak x = false) :
    leading (sp ++ w ++ c :: t) = sp ∧ w.length + 1 ≤ (firstWord (sp ++ w ++ c :: t)).length := by
  have e : sp ++ w ++ c :: t = sp ++ (w ++ [c] ++ t) := by simp
  obtain ⟨y, ys, hy, hyb⟩ : ∃ y ys, w ++ [c] ++ t = y :: ys ∧ isBreak y = false := by
    cases w with
    | nil => exact ⟨c, t, rfl, hw c (by simp)⟩
    | cons x xs => exact ⟨x, xs ++ [c] ++ t, rfl, hw x (by simp)⟩
  obtain ⟨h1, h2⟩ := takeWhile_append_all isBreak sp (w ++ [c] ++ t) hs
  have h3 : (w ++ [c] ++ t).takeWhile isBreak = [] := by rw [hy]; simp [hyb]
  have h4 : (w ++ [c] ++ t).dropWhile isBreak = w ++ [c] ++ t := by rw [hy]; simp [hyb]
  constructor
  · unfold leading; rw [e, h1, h3]; simp
  · unfold firstWord
    rw [e, h2, h4, (takeWhile_append_all _ (w ++ [c]) t (fun x hx => by simp [hw x hx])).1]
    simp

/-- The leading blanks and the first word of a paragraph that are followed by nothing or a blank. -/
theorem start_done (sp w t : List Char) (hs : ∀ x ∈ sp, isBreak x = true)
    (hw : ∀ x ∈ w, isBreak x = false) (hne : w ≠ [] ∨ t = []) (ht : t = [] ∨ ∃ b t', t = b :: t' ∧ isBreak b = true) :
    leading (sp ++ w ++ t) = sp ∧ firstWord (sp ++ w ++ t) = w := by
  obtain ⟨h1, h2⟩ := takeWhile_append_all isBreak sp (w ++ t) hs
  have h3 : (w ++ t).takeWhile isBreak = [] ∧ (w ++ t).dropWhile isBreak = w ++ t := by
    cases w with
    | nil => rcases hne with h | h
             · exact absurd rfl h
             · subst h; simp
    | cons x xs => have := hw x (by simp); simp [this]
  have h4 : t.takeWhile (fun c => !isBreak c) = [] := by
    rcases ht with h | ⟨b, t', h, hb⟩ <;> subst h
    · rfl
    · simp [hb]
  constructor
  · unfold leading; rw [List.append_assoc, h1, h3.1]; simp
  · unfold firstWord
    rw [List.append_assoc, h2, h3.2, (takeWhile_append_all _ w t (fun x hx => by simp [hw x hx])).1, h4]
    simp

theorem words_nil : words [] = [] := rfl

/-- The line ends with a blank, or will before the next word is added. -/
def Sep (l sp : List Char) : Prop := sp ≠ [] ∨ l = [] ∨ ∃ b, l.getLast? = some b ∧ isBreak b = true

/-- The line holds blanks and the beginning `v` of a word, whose next character is `w`. -/
def Joined (width : Int) (l w sp sp0 v : List Char) : Prop :=
  l = sp0 ++ v ∧ sp = [] ∧ w.length = 1 ∧ (∀ c ∈ sp0, isBreak c = true) ∧ (∀ c ∈ v, isBreak c = false) ∧
    sp0 ≠ [] ∧ v ≠ [] ∧ width ≤ (l.length : Int)

/-- No word has been split; `q` is the part of the current paragraph that has been read, `A` are the
paragraphs before it. -/
def Exact (width : Int) (s p r : List Char) (ls : List (List Char)) (l w sp : List Char) : Prop :=
  ∃ A q, '\n' ∉ q ∧ paragraphs s = A ++ paragraphs (q ++ r) ∧ (∀ x ∈ A, GoodStart width x) ∧
    ((scan p = (ls.flatMap words ++ words l, w) ∧ Sep l sp ∧
        ((l = [] ∧ q = sp ++ w ∧ (w ≠ [] → sp ≠ [] ∧ (sp.length + w.length : Int) ≤ width)) ∨
          ((∀ t, GoodStart width (q ++ t)) ∧ (l = [] → sp = [] ∧ w ≠ [])))) ∨
      ∃ sp0 v, Joined width l w sp sp0 v ∧ scan p = (ls.flatMap words, v ++ w) ∧ q = sp0 ++ v ++ w ∧
        (sp0.length + v.length : Int) = width)

/-- A word has been split. -/
def Split (width : Int) (s p : List Char) (ls : List (List Char)) (l w sp : List Char) : Prop :=
  (∃ x ∈ paragraphs s, ¬ GoodStart width x) ∧
    ((Sep l sp ∧ ((scan p).2 ≠ [] → w ≠ []) ∧
        (scan p).1.length < (ls.flatMap words).length + (words l).length) ∨
      ∃ sp0 v, Joined width l w sp sp0 v ∧ (scan p).1.length < (ls.flatMap words).length)

def WordInv (width : Int) (s p r : List Char) (ls : List (List Char)) (l w sp : List Char) : Prop :=
  Shape w sp ∧ (Exact width s p r ls l w sp ∨ Split width s p ls l w sp)

theorem sep_of {l sp : List Char} (hs : ∀ c ∈ sp, isBreak c = true)
    (h : sp ≠ [] ∨ l = [] ∨ ∃ b, l.getLast? = some b ∧ isBreak b = true) :
    l ++ sp = [] ∨ ∃ b, (l ++ sp).getLast? = some b ∧ isBreak b = true := by
  rcases List.eq_nil_or_concat sp with e | ⟨i, b, e⟩
  · subst e
    rcases h with h | h | h
    · exact absurd rfl h
    · left; simp [h]
    · right; simpa using h
  · right; exact ⟨b, by rw [e]; simp, hs b (by rw [e]; simp)⟩

theorem words_joined {width : Int} {l w sp sp0 v : List Char} (h : Joined width l w sp sp0 v)
    (hw : ∀ c ∈ w, isBreak c = false) :
    words l = [v] ∧ words (l ++ sp ++ w) = [v ++ w] ∧ l ≠ [] ∧ w ≠ [] := by
  obtain ⟨hl, hs, h1, h2, h3, h4, h5, _⟩ := h
  have hsep : sp0 = [] ∨ ∃ b, sp0.getLast? = some b ∧ isBreak b = true := by
    have := sep_of (l := []) h2 (.inl h4); simpa using this
  have hvw : ∀ c ∈ v ++ w, isBreak c = false := by
    intro c hc; rcases List.mem_append.1 hc with hc | hc
    · exact h3 c hc
    · exact hw c hc
  subst hl; subst hs
  refine ⟨?_, ?_, by simp [h4], by intro h; subst h; simp at h1⟩
  · rw [words_sep_word sp0 v hsep h3, words_breaks sp0 h2, words_word v h3, if_neg h5]; simp
  · rw [show sp0 ++ v ++ [] ++ w = sp0 ++ (v ++ w) by simp, words_sep_word sp0 (v ++ w) hsep hvw, words_breaks sp0 h2,
      words_word _ hvw, if_neg (by simp [h5])]; simp

/-- The paragraphs after the current one has ended. -/
theorem paragraphs_end (q r : List Char) (hq : '\n' ∉ q) : paragraphs (q ++ '\n' :: r) = q :: paragraphs r := by
  obtain ⟨p', ps, e1, e2⟩ := paragraphs_append q ('\n' :: r) hq
  have : paragraphs ('\n' :: r) = [] :: paragraphs r := by simp [paragraphs]
  rw [this] at e1
  simp at e1
  rw [e2, e1.1, e1.2]; simp

/-- A paragraph that is over before a word is split starts well. -/
theorem exact_good {width : Int} {p : List Char} {ls : List (List Char)} {l w sp : List Char} (sh : Shape w sp)
    {q : List Char}
    (h : (scan p = (ls.flatMap words ++ words l, w) ∧ Sep l sp ∧
        ((l = [] ∧ q = sp ++ w ∧ (w ≠ [] → sp ≠ [] ∧ (sp.length + w.length : Int) ≤ width)) ∨
          ((∀ t, GoodStart width (q ++ t)) ∧ (l = [] → sp = [] ∧ w ≠ [])))) ∨
      ∃ sp0 v, Joined width l w sp sp0 v ∧ scan p = (ls.flatMap words, v ++ w) ∧ q = sp0 ++ v ++ w ∧
        (sp0.length + v.length : Int) = width) (t : List Char) (ht : t = [] ∨ w ≠ [] ∧ ∃ b t', t = b :: t' ∧ isBreak b = true) :
    GoodStart width (q ++ t) := by
  have ht' : t = [] ∨ ∃ b t', t = b :: t' ∧ isBreak b = true := by
    rcases ht with h | h
    · exact .inl h
    · exact .inr h.2
  rcases h with ⟨_, _, ⟨hl, hq, hw⟩ | ⟨hg, _⟩⟩ | ⟨sp0, v, hj, _, hq, hn⟩
  · obtain ⟨e1, e2⟩ := start_done sp w t sh.space sh.word (ht.elim .inr (fun h => .inl h.1)) ht'
    unfold GoodStart
    rw [hq, e1, e2]
    by_cases hw0 : w = []
    · subst hw0; simp; omega
    · right; left; have := (hw hw0).2; omega
  · exact hg t
  · obtain ⟨_, _, _, hwne⟩ := words_joined hj sh.word
    obtain ⟨hl, hs, h1, h2, h3, h4, h5, _⟩ := hj
    have hvw : ∀ c ∈ v ++ w, isBreak c = false := by
      intro c hc; rcases List.mem_append.1 hc with hc | hc
      · exact h3 c hc
      · exact sh.word c hc
    obtain ⟨e1, e2⟩ := start_done sp0 (v ++ w) t h2 hvw (.inl (by simp [h5])) ht'
    unfold GoodStart
    rw [hq, show sp0 ++ v ++ w ++ t = sp0 ++ (v ++ w) ++ t by simp, e1, e2]
    right; left
    simp; omega

theorem word_step (width : Int) (s : List Char) : ∀ p c r st ls l w sp, Abs st ls l w sp → WordInv width s p (c :: r) ls l w sp →
      ∃ ls' l' w' sp', Abs (step width st c) ls' l' w' sp' ∧ WordInv width s (p ++ [c]) r ls' l' w' sp' := by
  intro p c r st ls l w sp a ⟨sh, hinv⟩
  have hflush : Sep l sp → words (l ++ sp ++ w) = words l ++ words w := by
    intro h2
    rw [words_sep_word _ w (sep_of sh.space h2) sh.word, words_append_breaks l sp sh.space]
  have hlen : (words w).length = if w = [] then 0 else 1 := by
    rw [words_word w sh.word]; split <;> simp
  unfold step
  split
  · rename_i hn
    subst hn
    refine ⟨_, _, _, _, abs_newline a, ⟨by simp, by simp⟩, ?_⟩
    rcases hinv with ⟨A, q, hq, hs, hA, h⟩ | ⟨hbad, h⟩
    · left
      have hgood : GoodStart width q := by
        have := exact_good sh h [] (.inl rfl); simpa using this
      refine ⟨A ++ [q], [], by simp, ?_, ?_, .inl ⟨?_, .inr (.inl rfl), .inl ⟨rfl, rfl, by simp⟩⟩⟩
      · rw [hs, paragraphs_end q r hq]; simp
      · intro x hx; rcases List.mem_append.1 hx with hx | hx
        · exact hA x hx
        · simp at hx; subst hx; exact hgood
      · rw [scan_snoc, if_pos isBreak_newline]
        rcases h with ⟨h1, h2, _⟩ | ⟨sp0, v, hj, h1, _⟩
        · rw [h1]
          by_cases hw : w = []
          · subst hw; simp [words, wordsFrom]
          · simp only [if_neg hw]
            rw [List.flatMap_append]
            simp only [List.flatMap_cons, List.flatMap_nil, List.append_nil, hflush h2, words_word w sh.word, if_neg hw]
            simp [words, wordsFrom]
        · obtain ⟨_, e2, _, hwne⟩ := words_joined hj sh.word
          rw [h1]
          simp only [if_neg hwne, if_neg (show v ++ w ≠ [] by simp [hwne])]
          rw [List.flatMap_append]
          simp only [List.flatMap_cons, List.flatMap_nil, List.append_nil, e2]
          simp [words, wordsFrom]
    · right
      refine ⟨hbad, .inl ⟨.inr (.inl rfl), ?_, ?_⟩⟩
      · rw [scan_snoc, if_pos isBreak_newline]; simp
      · rw [scan_snoc, if_pos isBreak_newline, List.flatMap_append]
        simp only [List.flatMap_cons, List.flatMap_nil, List.append_nil, List.length_append]
        rcases h with ⟨h2, h3, h4⟩ | ⟨sp0, v, hj, h4⟩
        · by_cases hw : w = []
          · subst hw
            have : (scan p).2 = [] := by
              exact Decidable.byContradiction (fun hc => h3 hc rfl)
            simp [-List.length_flatMap, words_nil, this]; omega
          · rw [if_neg hw, hflush h2, List.length_append, hlen, if_neg hw]
            split
            · simp [-List.length_flatMap, words_nil]; omega
            · simp [-List.length_flatMap, words_nil]; omega
        · obtain ⟨_, e2, _, hwne⟩ := words_joined hj sh.word
          rw [if_neg hwne, e2]
          split
          · simp [-List.length_flatMap, words_nil]; omega
          · simp [-List.length_flatMap, words_nil]; omega
  · rename_i hnl
    split
    · rename_i hb
      have hb := (isBreak_iff c).2 hb
      have := abs_space a c
      by_cases hw : w = []
      · rw [if_pos hw] at this
        have hsp' : ∀ x ∈ sp ++ [c], isBreak x = true := by
          intro x hx; rcases List.mem_append.1 hx with hx | hx
          · exact sh.space x hx
          · simp at hx; rw [hx]; exact hb
        subst hw
        refine ⟨_, _, _, _, this, ⟨by simp, hsp'⟩, ?_⟩
        rcases hinv with ⟨A, q, hq, hs, hA, h⟩ | ⟨hbad, h⟩
        · left
          refine ⟨A, q ++ [c], by simp [hq, Ne.symm hnl], by simpa using hs, hA, ?_⟩
          rcases h with ⟨h1, h2, h3⟩ | ⟨sp0, v, hj, _⟩
          · refine .inl ⟨by rw [scan_snoc, if_pos hb, h1]; simp, .inl (by simp), ?_⟩
            rcases h3 with ⟨hl, hqe, _⟩ | ⟨hg, hl⟩
            · exact .inl ⟨hl, by rw [hqe]; simp, by simp⟩
            · refine .inr ⟨fun t => by have := hg (c :: t); simpa using this, fun h => absurd rfl (hl h).2⟩
          · exact absurd rfl (words_joined hj sh.word).2.2.2
        · right
          refine ⟨hbad, .inl ⟨.inl (by simp), by rw [scan_snoc, if_pos hb]; simp, ?_⟩⟩
          rw [scan_snoc, if_pos hb]
          rcases h with ⟨h2, h3, h4⟩ | ⟨sp0, v, hj, _⟩
          · have : (scan p).2 = [] := by
              exact Decidable.byContradiction (fun hc => h3 hc rfl)
            simp [-List.length_flatMap, words_nil, this]; omega
          · exact absurd rfl (words_joined hj sh.word).2.2.2
      · rw [if_neg hw] at this
        refine ⟨_, _, _, _, this, ⟨by simp, by simpa using hb⟩, ?_⟩
        rcases hinv with ⟨A, q, hq, hs, hA, h⟩ | ⟨hbad, h⟩
        · left
          refine ⟨A, q ++ [c], by simp [hq, Ne.symm hnl], by simpa using hs, hA, .inl ⟨?_, .inl (by simp), .inr ⟨?_, ?_⟩⟩⟩
          · rw [scan_snoc, if_pos hb]
            rcases h with ⟨h1, h2, _⟩ | ⟨sp0, v, hj, h1, _⟩
            · rw [h1]; simp only [if_neg hw, hflush h2, words_word w sh.word]; simp
            · rw [h1, (words_joined hj sh.word).2.1]; simp [hw]
          · intro t
            have := exact_good sh h (c :: t) (.inr ⟨hw, c, t, rfl, hb⟩)
            simpa using this
          · intro hl; exact absurd hl (by simp [hw])
        · right
          refine ⟨hbad, .inl ⟨.inl (by simp), by rw [scan_snoc, if_pos hb]; simp, ?_⟩⟩
          rw [scan_snoc, if_pos hb]
          rcases h with ⟨h2, h3, h4⟩ | ⟨sp0, v, hj, h4⟩
          · rw [hflush h2, List.length_append, hlen, if_neg hw]
            split
            · simp [-List.length_flatMap, words_nil]; omega
            · simp [-List.length_flatMap, words_nil]; omega
          · rw [(words_joined hj sh.word).2.1]
            split
            · simp [-List.length_flatMap, words_nil]; omega
            · simp [-List.length_flatMap, words_nil]; omega
    · rename_i hb
      have hb := isBreak_false_of hb
      have hw' : ∀ x ∈ w ++ [c], isBreak x = false := by
        intro x hx; rcases List.mem_append.1 hx with hx | hx
        · exact sh.word x hx
        · simp at hx; rw [hx]; exact hb
      have hs1 : (scan (p ++ [c])) = ((scan p).1, (scan p).2 ++ [c]) := by
        rw [scan_snoc, if_neg (by simp [hb])]
      have hjl : ∀ sp0 v, Joined width l w sp sp0 v → ¬ ((l.length + sp.length + w.length : Nat) : Int) < width := by
        intro sp0 v hj
        have := hj.2.2.2.2.2.2.2
        omega
      -- the state after the beginning of a word has been joined to the blanks
      have hmk : l = [] → sp ≠ [] → w ≠ [] → (sp.length + w.length : Nat) ≥ width →
          Joined width (sp ++ w) [c] [] sp w := by
        intro _ h1 h2 h3
        exact ⟨rfl, rfl, rfl, sh.space, sh.word, h1, h2, by simpa using h3⟩
      rcases hinv with ⟨A, q, hq, hs, hA, h⟩ | ⟨hbad, h⟩
      · have hq' : '\n' ∉ q ++ [c] := by simp [hq, Ne.symm hnl]
        have hs' : paragraphs s = A ++ paragraphs (q ++ [c] ++ r) := by simpa using hs
        rcases h with ⟨h1, h2, h3⟩ | ⟨sp0, v, hj, h1, hqe, hn⟩
        · have hscan : scan (p ++ [c]) = (ls.flatMap words ++ words l, w ++ [c]) := by rw [hs1, h1]
          have hset : ∀ {t0}, (l = [] → t0) → (∀ t, GoodStart width (q ++ t)) → ∀ t, GoodStart width (q ++ [c] ++ t) := by
            intro _ _ hg t; have := hg (c :: t); simpa using this
          rcases abs_other a width c with ⟨hlt, h⟩ | ⟨_, hl, h⟩ | ⟨hge, hl, hsp, h⟩ | ⟨_, hl, hsp, h⟩
          · refine ⟨_, _, _, _, h, ⟨hw', sh.space⟩, .inl ⟨A, q ++ [c], hq', hs', hA, .inl ⟨hscan, h2, ?_⟩⟩⟩
            rcases h3 with ⟨hl, hqe, hwx⟩ | ⟨hg, hl⟩
            · by_cases hsp : sp = []
              · right
                by_cases hwe : w = []
                · refine ⟨fun t => .inl ?_, fun _ => ⟨hsp, by simp⟩⟩
                  rw [hqe, hsp, hwe]; simp [leading, hb]
                · exact absurd hsp (hwx hwe).1
              · left
                refine ⟨hl, by rw [hqe]; simp, fun _ => ⟨hsp, ?_⟩⟩
                subst hl; simp at hlt ⊢; omega
            · exact .inr ⟨hset (t0 := True) (fun _ => trivial) hg, fun h => ⟨(hl h).1, by simp⟩⟩
          · refine ⟨_, _, _, _, h, ⟨hw', by simp⟩, .inl ⟨A, q ++ [c], hq', hs', hA, .inl ⟨?_, .inr (.inl rfl), ?_⟩⟩⟩
            · rw [hscan]; simp [words, wordsFrom]
            · rcases h3 with ⟨hl', _⟩ | ⟨hg, _⟩
              · exact absurd hl' hl
              · exact .inr ⟨hset (t0 := True) (fun _ => trivial) hg, fun _ => ⟨rfl, by simp⟩⟩
          · rcases h3 with ⟨_, hqe, hwx⟩ | ⟨_, hl'⟩
            · by_cases hw : w = []
              · subst hw; subst hl
                refine ⟨_, _, _, _, h, ⟨by simpa using hb, by simp⟩, .inl ⟨A, q ++ [c], hq', hs', hA, .inl ⟨?_, ?_, .inr ⟨?_, ?_⟩⟩⟩⟩
                · rw [hscan]; simp [words_breaks sp sh.space]; rfl
                · have := sep_of (l := []) sh.space (.inl hsp)
                  rcases this with h | h
                  · exact absurd (by simpa using h) hsp
                  · right; right; simpa using h
                · intro t
                  obtain ⟨e1, _⟩ := start_of sp [] t c sh.space (by simpa using hb)
                  right; right
                  rw [show q ++ [c] ++ t = sp ++ [] ++ c :: t by rw [hqe]; simp, e1]
                  simpa using hge
                · intro h; exact absurd h (by simp [hsp])
              · refine ⟨_, _, _, _, h, ⟨by simpa using hb, by simp⟩, .inl ⟨A, q ++ [c], hq', hs', hA, .inr ⟨sp, w,
                  hmk hl hsp hw (by exact_mod_cast hge), ?_, by rw [hqe], ?_⟩⟩⟩
                · rw [hscan, hl]; simp [words, wordsFrom]
                · have := (hwx hw).2
                  simp at hge; omega
            · exact absurd (hl' hl).1 hsp
          · subst hl; subst hsp
            refine ⟨_, _, _, _, h, ⟨hw', by simp⟩, .inl ⟨A, q ++ [c], hq', hs', hA, .inl ⟨hscan, .inr (.inl rfl), .inr ⟨?_, fun _ => ⟨rfl, by simp⟩⟩⟩⟩⟩
            rcases h3 with ⟨_, hqe, hwx⟩ | ⟨hg, _⟩
            · by_cases hw : w = []
              · intro t; left; rw [hqe, hw]; simp [leading, hb]
              · exact absurd rfl (hwx hw).1
            · exact hset (t0 := True) (fun _ => trivial) hg
        · obtain ⟨e1, e2, hlne, hwne⟩ := words_joined hj sh.word
          rcases abs_other a width c with ⟨hlt, h⟩ | ⟨_, hl, h⟩ | ⟨hge, hl, hsp, h⟩ | ⟨_, hl, hsp, h⟩
          · exact absurd hlt (hjl _ _ hj)
          · refine ⟨_, _, _, _, h, ⟨hw', by simp⟩, .inr ⟨?_, .inl ⟨.inr (.inl rfl), fun _ => by simp, ?_⟩⟩⟩
            · obtain ⟨t, ps, _, ep⟩ := paragraphs_append (q ++ [c]) r hq'
              refine ⟨q ++ [c] ++ t, by rw [hs', ep]; simp, ?_⟩
              obtain ⟨_, _, k1, k2, k3, k4, k5, _⟩ := hj
              have hvw : ∀ x ∈ v ++ w ++ [c], isBreak x = false := by
                intro x hx
                rw [List.append_assoc] at hx
                rcases List.mem_append.1 hx with hx | hx
                · exact k3 x hx
                · exact hw' x hx
              obtain ⟨s1, s2⟩ := start_of sp0 (v ++ w) t c k2 hvw
              unfold GoodStart
              rw [show q ++ [c] ++ t = sp0 ++ (v ++ w) ++ c :: t by rw [hqe]; simp, s1]
              have hv := List.length_pos_iff.2 k5
              rw [List.length_append] at s2
              rintro (g | g | g)
              · exact k4 g
              · omega
              · omega
            · rw [hs1, h1, List.flatMap_append]; simp [-List.length_flatMap, words_nil, e1]
          · exact absurd hl hlne
          · exact absurd hl hlne
      · rcases h with ⟨h2, h3, h4⟩ | ⟨sp0, v, hj, h4⟩
        · rcases abs_other a width c with ⟨hlt, h⟩ | ⟨_, hl, h⟩ | ⟨hge, hl, hsp, h⟩ | ⟨_, hl, hsp, h⟩
          · exact ⟨_, _, _, _, h, ⟨hw', sh.space⟩, .inr ⟨hbad, .inl ⟨h2, fun _ => by simp, by rw [hs1]; exact h4⟩⟩⟩
          · refine ⟨_, _, _, _, h, ⟨hw', by simp⟩, .inr ⟨hbad, .inl ⟨.inr (.inl rfl), fun _ => by simp, ?_⟩⟩⟩
            rw [hs1, List.flatMap_append]; simp [-List.length_flatMap, words_nil]; omega
          · subst hl
            have h4' : (scan p).1.length < (ls.flatMap words).length := by simpa [words, wordsFrom] using h4
            by_cases hw : w = []
            · subst hw
              refine ⟨_, _, _, _, h, ⟨by simpa using hb, by simp⟩, .inr ⟨hbad, .inl ⟨?_, fun _ => by simp, ?_⟩⟩⟩
              · have := sep_of (l := []) sh.space (.inl hsp)
                rcases this with h | h
                · exact absurd (by simpa using h) hsp
                · right; right; simpa using h
              · rw [hs1]; simp only []; omega
            · exact ⟨_, _, _, _, h, ⟨by simpa using hb, by simp⟩, .inr ⟨hbad, .inr ⟨sp, w,
                hmk rfl hsp hw (by exact_mod_cast hge), by rw [hs1]; exact h4'⟩⟩⟩
          · subst hl; subst hsp
            exact ⟨_, _, _, _, h, ⟨hw', by simp⟩, .inr ⟨hbad, .inl ⟨.inr (.inl rfl), fun _ => by simp, by rw [hs1]; exact h4⟩⟩⟩
        · obtain ⟨e1, e2, hlne, hwne⟩ := words_joined hj sh.word
          rcases abs_other a width c with ⟨hlt, h⟩ | ⟨_, hl, h⟩ | ⟨hge, hl, hsp, h⟩ | ⟨_, hl, hsp, h⟩
          · exact absurd hlt (hjl _ _ hj)
          · refine ⟨_, _, _, _, h, ⟨hw', by simp⟩, .inr ⟨hbad, .inl ⟨.inr (.inl rfl), fun _ => by simp, ?_⟩⟩⟩
            rw [hs1, List.flatMap_append]; simp [-List.length_flatMap, words_nil]; omega
          · exact absurd hl hlne
          · exact absurd hl hlne

/-- The words of the lines left at the end, against the words of the text. -/
theorem word_final {width : Int} {s : List Char} {ls : List (List Char)} {l w sp : List Char}
    (h : WordInv width s s [] ls l w sp) :
    let out := (ls ++ [l ++ (if w = [] then [] else sp) ++ w]).flatMap words
    ((∀ x ∈ paragraphs s, GoodStart width x) ∧ out = words s) ∨
      ((∃ x ∈ paragraphs s, ¬ GoodStart width x) ∧ (words s).length < out.length) := by
  obtain ⟨sh, h⟩ := h
  have hflush : Sep l sp → words (l ++ sp ++ w) = words l ++ words w := by
    intro h2
    rw [words_sep_word _ w (sep_of sh.space h2) sh.word, words_append_breaks l sp sh.space]
  have hlen : (words w).length = if w = [] then 0 else 1 := by
    rw [words_word w sh.word]; split <;> simp
  simp only [List.flatMap_append, List.flatMap_cons, List.flatMap_nil, List.append_nil]
  rw [words_eq_scan s]
  rcases h with ⟨A, q, hq, hs, hA, h⟩ | ⟨hbad, h⟩
  · left
    constructor
    · have hgood : GoodStart width q := by
        have := exact_good sh h [] (.inl rfl); simpa using this
      obtain ⟨p', ps, e1, e2⟩ := paragraphs_append q [] hq
      simp [paragraphs] at e1
      rw [hs, e2, e1.1, e1.2]
      intro x hx
      rcases List.mem_append.1 hx with hx | hx
      · exact hA x hx
      · simp at hx; rw [hx]; exact hgood
    · rcases h with ⟨h1, h2, _⟩ | ⟨sp0, v, hj, h1, _⟩
      · rw [h1]
        by_cases hw : w = []
        · subst hw; simp
        · simp only [if_neg hw, hflush h2, words_word w sh.word]; simp
      · obtain ⟨_, e2, _, hwne⟩ := words_joined hj sh.word
        rw [h1, if_neg hwne, e2]; simp [hwne]
  · right
    refine ⟨hbad, ?_⟩
    simp only [List.length_append]
    rcases h with ⟨h2, h3, h4⟩ | ⟨sp0, v, hj, h4⟩
    · by_cases hw : w = []
      · subst hw
        have : (scan s).2 = [] := by
          exact Decidable.byContradiction (fun hc => h3 hc rfl)
        simp [-List.length_flatMap, words_nil, this]; omega
      · rw [if_neg hw, hflush h2, List.length_append, hlen, if_neg hw]
        split <;> simp [-List.length_flatMap, words_nil] <;> omega
    · obtain ⟨_, e2, _, hwne⟩ := words_joined hj sh.word
      rw [if_neg hwne, e2]
      split <;> simp [-List.length_flatMap, words_nil] <;> omega

end Verif.Model.Wrap

namespace Verif.Model.Wrap
open Verif.Go Verif.Model.PoString Verif.Spec.Wrap

theorem abs_init : Abs ⟨[], SB.empty, SB.empty, SB.empty⟩ [] [] [] [] :=
  ⟨rfl, holds_empty, holds_empty, holds_empty⟩

/-- Splitting at newlines before or after decoding is the same. -/
theorem runes_splitByte (s : Bytes) : (splitByte 0x0a s).map runes = paragraphs (runes s) := by
  generalize hn : s.length = n
  induction n using Nat.strongRecOn generalizing s with
  | _ n ih =>
    by_cases hm : (0x0a : UInt8) ∈ s
    · obtain ⟨a, b, h1, h2⟩ := exists_first _ _ hm
      rw [h1, splitByte_line _ _ _ h2, runes_append_ascii 0x0a (by decide)]
      have hnl : '\n' ∉ runes a := by
        intro hc
        have := (runesAux_small a.length a (Nat.le_refl _) 10 (by decide)).1 ⟨'\n', hc, rfl⟩
        exact h2 this
      obtain ⟨p, ps, e1, e2⟩ := paragraphs_append (runes a) (Char.ofNat (UInt8.toNat 0x0a) :: runes b) hnl
      have e3 : paragraphs (Char.ofNat (UInt8.toNat 0x0a) :: runes b) = [] :: paragraphs (runes b) := by
        have : Char.ofNat (UInt8.toNat 0x0a) = '\n' := by decide
        rw [this]; simp [paragraphs]
      rw [e3] at e1
      simp at e1
      rw [e2, e1.1, ← e1.2, List.map_cons, ih b.length (by rw [← hn, h1]; simp; omega) b rfl]
      simp
    · rw [splitByte_of_not_mem _ _ hm]
      have hnl : '\n' ∉ runes s := by
        intro hc
        have := (runesAux_small s.length s (Nat.le_refl _) 10 (by decide)).1 ⟨'\n', hc, rfl⟩
        exact hm this
      obtain ⟨p, ps, e1, e2⟩ := paragraphs_append (runes s) [] hnl
      simp [paragraphs] at e1
      rw [List.append_nil, e1.1, e1.2] at e2
      simpa using e2.symm

theorem first_newline (s : List Char) (hm : '\n' ∈ s) : ∃ a b, s = a ++ '\n' :: b ∧ '\n' ∉ a := by
  induction s with
  | nil => simp at hm
  | cons c cs ih2 =>
    by_cases hc : c = '\n'
    · exact ⟨[], cs, by simp [hc], by simp⟩
    · have hm' : '\n' ∈ cs := by
        rcases List.mem_cons.1 hm with h | h
        · exact absurd h.symm hc
        · exact h
      obtain ⟨a, b, h1, h2⟩ := ih2 hm'
      exact ⟨c :: a, b, by simp [h1], by simp [h2, Ne.symm hc]⟩

theorem words_paragraphs (s : List Char) : (paragraphs s).flatMap words = words s := by
  generalize hn : s.length = n
  induction n using Nat.strongRecOn generalizing s with
  | _ n ih =>
    by_cases hm : '\n' ∈ s
    · obtain ⟨a, b, h1, h2⟩ := first_newline s hm
      obtain ⟨p, ps, e1, e2⟩ := paragraphs_append a ('\n' :: b) h2
      have e3 : paragraphs ('\n' :: b) = [] :: paragraphs b := by simp [paragraphs]
      rw [e3] at e1
      simp at e1
      rw [h1, e2, e1.1, ← e1.2, List.flatMap_cons, ih b.length (by rw [← hn, h1]; simp; omega) b rfl]
      unfold words
      rw [wordsFrom_append_break _ _ _ isBreak_newline]
      simp [words]
    · obtain ⟨p, ps, e1, e2⟩ := paragraphs_append s [] hm
      simp [paragraphs] at e1
      rw [List.append_nil, e1.1, e1.2] at e2
      rw [e2]; simp

end Verif.Model.Wrap
