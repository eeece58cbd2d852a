import Verif.Proofs.Wrap
import Verif.Spec.CommentLines
/-! Helper lemmas for the lines of a wrapped comment. -/
namespace Verif.Proofs.CommentLines
open Verif.Go Verif.Model.PoString Verif.Model.Wrap Verif.Spec.Wrap Verif.Spec.CommentLines

theorem spaced_cons (c : Char) (cs : List Char) : spaced (c :: cs) =
    match spaced cs with
    | [] => if isBreak c then [] else [([], [c])]
    | (b, w) :: ws =>
      if isBreak c then (c :: b, w) :: ws
      else if b = [] then ([], c :: w) :: ws
      else ([], [c]) :: (b, w) :: ws := rfl

/-- Blanks belong to the word behind them. -/
theorem spaced_blank {c : Char} (hc : isBreak c = true) (cs : List Char) : spaced (c :: cs) =
    match spaced cs with
    | [] => []
    | (b, w) :: ws => (c :: b, w) :: ws := by
  rw [spaced_cons]
  cases spaced cs with
  | nil => simp [hc]
  | cons x ws => obtain ⟨b, w⟩ := x; simp [hc]

theorem spaced_blanks {sp : List Char} (hs : ∀ c ∈ sp, isBreak c = true) (cs : List Char) : spaced (sp ++ cs) =
    match spaced cs with
    | [] => []
    | (b, w) :: ws => (sp ++ b, w) :: ws := by
  induction sp with
  | nil => cases h : spaced cs <;> simp [h]
  | cons c sp ih =>
    rw [List.cons_append, spaced_blank (hs c (by simp)), ih (fun d hd => hs d (by simp [hd]))]
    cases spaced cs <;> rfl

/-- A text that starts with a word. -/
theorem spaced_word {c : Char} (hc : isBreak c = false) (cs : List Char) :
    ∃ x ws, spaced (c :: cs) = ([], c :: x) :: ws := by
  rw [spaced_cons]
  cases spaced cs with
  | nil => exact ⟨[], [], by simp [hc]⟩
  | cons y ws =>
    obtain ⟨b, w⟩ := y
    by_cases hb : b = []
    · exact ⟨w, ws, by simp [hc, hb]⟩
    · exact ⟨[], (b, w) :: ws, by simp [hc, hb]⟩

theorem spaced_word_cons {c : Char} (hc : isBreak c = false) {cs x : List Char} {ws : List (List Char × List Char)}
    (h : spaced cs = ([], x) :: ws) : spaced (c :: cs) = ([], c :: x) :: ws := by
  rw [spaced_cons, h]; simp [hc]

theorem spaced_words {w : List Char} (hw : ∀ c ∈ w, isBreak c = false) {cs x : List Char} {ws : List (List Char × List Char)}
    (h : spaced cs = ([], x) :: ws) : spaced (w ++ cs) = ([], w ++ x) :: ws := by
  induction w with
  | nil => exact h
  | cons c w ih => exact spaced_word_cons (hw c (by simp)) (ih (fun d hd => hw d (by simp [hd])))

/-- Reading on in a word. -/
theorem spaced_grow {w : List Char} (hw : ∀ c ∈ w, isBreak c = false) {c : Char} (hc : isBreak c = false) (cs : List Char) :
    ∃ x ws, spaced (w ++ c :: cs) = ([], w ++ c :: x) :: ws := by
  obtain ⟨x, ws, h⟩ := spaced_word hc cs
  exact ⟨x, ws, spaced_words hw h⟩

/-- A word ends at a blank. -/
theorem spaced_end {w : List Char} (hw : ∀ c ∈ w, isBreak c = false) (hne : w ≠ []) {c : Char} (hc : isBreak c = true)
    (cs : List Char) : spaced (w ++ c :: cs) = ([], w) :: spaced (c :: cs) := by
  induction w with
  | nil => exact absurd rfl hne
  | cons d w ih =>
    have hd := hw d (by simp)
    cases w with
    | nil =>
      rw [List.cons_append, List.nil_append, spaced_cons]
      rw [spaced_blank hc]
      cases spaced cs with
      | nil => simp [hd]
      | cons y ws => simp [hd]
    | cons e w =>
      exact spaced_word_cons hd (ih (fun x hx => hw x (by simp [hx])) (by simp))

theorem spaced_only {w : List Char} (hw : ∀ c ∈ w, isBreak c = false) (hne : w ≠ []) : spaced w = [([], w)] := by
  induction w with
  | nil => exact absurd rfl hne
  | cons d w ih =>
    have hd := hw d (by simp)
    cases w with
    | nil => rw [spaced_cons]; simp [spaced, hd]
    | cons e w => exact spaced_word_cons hd (ih (fun x hx => hw x (by simp [hx])) (by simp))

theorem spaced_only_blanks {sp : List Char} (hs : ∀ c ∈ sp, isBreak c = true) : spaced sp = [] := by
  have := spaced_blanks hs []
  rw [List.append_nil] at this
  rw [this]; rfl

/-- What the rest of the paragraph gives, in each state of the loop. -/
inductive Inv (width : Int) : (l w sp : List Char) → (List Char → List (List Char)) → Prop
  | first (w sp : List Char) (f : List Char → List (List Char)) (h : sp = [] ∨ w = [] ∨ (sp.length + w.length : Int) ≤ width)
      (hf : ∀ p, f p = paragraphLines width (sp ++ w ++ p)) : Inv width [] w sp f
  | next (l w sp : List Char) (f : List Char → List (List Char)) (hl : l ≠ [])
      (h : w = [] ∨ (l.length + sp.length + w.length : Int) ≤ width)
      (hf : ∀ p, f p = fillWords width l (spaced (sp ++ w ++ p))) : Inv width l w sp f
  | cut (s0 w0 : List Char) (c : Char) (f : List Char → List (List Char)) (hs : s0 ≠ []) (hs0 : ∀ c ∈ s0, isBreak c = true)
      (hw0 : ∀ c ∈ w0, isBreak c = false)
      (hr : w0.length = (width - s0.length).toNat) (hl : width ≤ (s0.length + w0.length : Int))
      (hf : ∀ p, f p = paragraphLines width (s0 ++ w0 ++ c :: p)) : Inv width (s0 ++ w0) [c] [] f

theorem para_only_blanks (width : Int) {sp : List Char} (hs : ∀ c ∈ sp, isBreak c = true) :
    paragraphLines width sp = [[]] := by
  unfold paragraphLines; rw [spaced_only_blanks hs]

theorem para_word {width : Int} {sp w ps : List Char} {ws : List (List Char × List Char)} (hs : ∀ c ∈ sp, isBreak c = true)
    (h : spaced ps = ([], w) :: ws) : paragraphLines width (sp ++ ps) =
    if sp ≠ [] ∧ (width - sp.length).toNat + 1 < w.length then
      (sp ++ w.take (width - sp.length).toNat) :: fillWords width (w.drop (width - sp.length).toNat) ws
    else fillWords width (sp ++ w) ws := by
  unfold paragraphLines
  rw [spaced_blanks hs, h]
  simp

/-- At the end of a paragraph the line is closed. -/
theorem inv_end {width : Int} (hwd : 0 < width) {l w sp : List Char} {f : List Char → List (List Char)} (i : Inv width l w sp f) (sh : Shape w sp) :
    f [] = [l ++ (if w = [] then [] else sp) ++ w] := by
  cases i with
  | first _ _ _ h hf =>
    rw [hf, List.append_nil]
    by_cases hw : w = []
    · subst hw
      rw [List.append_nil, para_only_blanks width sh.space]; rfl
    · rw [para_word sh.space (spaced_only sh.word hw), if_neg, if_neg hw]
      · rfl
      · rintro ⟨h1, h2⟩
        rcases h with h | h | h
        · exact h1 h
        · exact hw h
        · omega
  | next _ _ _ _ hl h hf =>
    rw [hf, List.append_nil]
    by_cases hw : w = []
    · subst hw
      rw [List.append_nil, spaced_only_blanks sh.space, if_pos rfl]
      simp [fillWords]
    · rw [spaced_blanks sh.space, spaced_only sh.word hw, if_neg hw]
      simp only [List.append_nil]
      have := h.resolve_left hw
      rw [fillWords, if_pos this, fillWords]
  | cut s0 w0 c _ hs hs0 hw0 hr hl hf =>
    rw [hf, List.append_assoc]
    have hcw : ∀ d ∈ w0 ++ [c], isBreak d = false := by
      intro d hd
      rcases List.mem_append.1 hd with hd | hd
      · exact hw0 d hd
      · exact sh.word d hd
    rw [para_word hs0 (spaced_only hcw (by simp)), if_neg]
    · simp [fillWords]
    · rintro ⟨_, h2⟩
      rw [List.length_append] at h2
      simp at h2; omega

theorem shape_snoc_word {w sp : List Char} (sh : Shape w sp) {c : Char} (hc : isBreak c = false) : ∀ d ∈ w ++ [c], isBreak d = false := by
  intro d hd
  rcases List.mem_append.1 hd with hd | hd
  · exact sh.word d hd
  · simp at hd; subst hd; exact hc

theorem shape_snoc_space {w sp : List Char} (sh : Shape w sp) {c : Char} (hc : isBreak c = true) : ∀ d ∈ sp ++ [c], isBreak d = true := by
  intro d hd
  rcases List.mem_append.1 hd with hd | hd
  · exact sh.space d hd
  · simp at hd; subst hd; exact hc

/-- A blank is read. -/
theorem inv_space {width : Int} (hwd : 0 < width) {l w sp : List Char} {f : List Char → List (List Char)} (i : Inv width l w sp f)
    (sh : Shape w sp) {c : Char} (hc : isBreak c = true) :
    (w = [] → Inv width l w (sp ++ [c]) (fun p => f (c :: p))) ∧
    (w ≠ [] → Inv width (l ++ sp ++ w) [] [c] (fun p => f (c :: p))) := by
  cases i with
  | first _ _ _ h hf =>
    constructor
    · intro hw
      subst hw
      exact .first _ _ _ (.inr (.inl rfl)) (fun p => by rw [hf]; simp)
    · intro hw
      refine .next _ _ _ _ (by simp [hw]) (.inl rfl) (fun p => ?_)
      rw [hf, List.append_assoc, para_word sh.space (spaced_end sh.word hw hc p), if_neg]
      · simp
      · rintro ⟨h1, h2⟩
        rcases h with h | h | h
        · exact h1 h
        · exact hw h
        · omega
  | next _ _ _ _ hl h hf =>
    constructor
    · intro hw
      subst hw
      exact .next _ _ _ _ hl (.inl rfl) (fun p => by rw [hf]; simp)
    · intro hw
      refine .next _ _ _ _ (by simp [hw]) (.inl rfl) (fun p => ?_)
      rw [hf, List.append_assoc, spaced_blanks sh.space, spaced_end sh.word hw hc p]
      simp only [List.append_nil]
      have := h.resolve_left hw
      rw [fillWords, if_pos this]
      rfl
  | cut s0 w0 d _ hs hs0 hw0 hr hl hf =>
    constructor
    · intro hw; cases hw
    · intro hw
      refine .next _ _ _ _ (by simp [hs]) (.inl rfl) (fun p => ?_)
      have hcw : ∀ e ∈ w0 ++ [d], isBreak e = false := by
        intro e he
        rcases List.mem_append.1 he with he | he
        · exact hw0 e he
        · exact sh.word e he
      have e : s0 ++ w0 ++ d :: c :: p = s0 ++ (w0 ++ [d] ++ c :: p) := by simp
      rw [hf, e, para_word hs0 (spaced_end hcw (by simp) hc p), if_neg]
      · simp
      · rintro ⟨_, h2⟩
        rw [List.length_append] at h2
        simp at h2; omega

/-- A character of a word is read: `E` are the lines that are closed. -/
theorem inv_other {width : Int} (hwd : 0 < width) {l w sp : List Char} {f : List Char → List (List Char)} (i : Inv width l w sp f)
    (sh : Shape w sp) {c : Char} (hc : isBreak c = false) :
    (((l.length + sp.length + w.length : Nat) : Int) < width → Inv width l (w ++ [c]) sp (fun p => f (c :: p))) ∧
    (((l.length + sp.length + w.length : Nat) : Int) ≥ width → l ≠ [] →
      ∃ g, Inv width [] (w ++ [c]) [] g ∧ ∀ p, f (c :: p) = l :: g p) ∧
    (((sp.length + w.length : Nat) : Int) ≥ width → l = [] → sp ≠ [] → Inv width (sp ++ w) [c] [] (fun p => f (c :: p))) ∧
    (l = [] → sp = [] → Inv width [] (w ++ [c]) [] (fun p => f (c :: p))) := by
  have hfirst : Inv width [] (w ++ [c]) [] (fun p => paragraphLines width (w ++ c :: p)) :=
    .first _ _ _ (.inl rfl) (fun p => by simp)
  have hpara : ∀ p, ∃ x ws, spaced (w ++ c :: p) = ([], w ++ c :: x) :: ws ∧
      paragraphLines width (w ++ c :: p) = fillWords width (w ++ c :: x) ws := by
    intro p
    obtain ⟨x, ws, h⟩ := spaced_grow sh.word hc p
    refine ⟨x, ws, h, ?_⟩
    have := para_word (width := width) (sp := []) (by simp) h
    simpa using this
  cases i with
  | first _ _ _ h hf =>
    refine ⟨?_, fun _ h => absurd rfl h, ?_, ?_⟩
    · intro hlt
      refine .first _ _ _ (.inr (.inr ?_)) (fun p => by rw [hf]; simp)
      simp only [List.length_nil, List.length_append, List.length_singleton] at hlt ⊢
      omega
    · intro hge _ hs
      refine .cut sp w c _ hs sh.space sh.word ?_ (by omega) (fun p => by rw [hf])
      rcases h with h | h | h
      · exact absurd h hs
      · subst h; simp only [List.length_nil] at hge ⊢; omega
      · omega
    · intro _ hs
      subst hs
      exact .first _ _ _ (.inl rfl) (fun p => by rw [hf]; simp)
  | next _ _ _ _ hl h hf =>
    refine ⟨?_, ?_, fun _ h => absurd h hl, fun h => absurd h hl⟩
    · intro hlt
      refine .next _ _ _ _ hl (.inr ?_) (fun p => by rw [hf]; simp)
      simp only [List.length_append, List.length_singleton]
      omega
    · intro hge _
      refine ⟨_, hfirst, fun p => ?_⟩
      obtain ⟨x, ws, h1, h2⟩ := hpara p
      rw [h2, hf, List.append_assoc, spaced_blanks sh.space, h1]
      simp only [List.append_nil]
      rw [fillWords, if_neg]
      simp only [List.length_append, List.length_cons]
      omega
  | cut s0 w0 d _ hs hs0 hw0 hr hl hf =>
    have hne : s0 ++ w0 ≠ [] := by simp [hs]
    refine ⟨?_, ?_, fun _ h => absurd h hne, fun h => absurd h hne⟩
    · intro hlt
      exfalso
      simp only [List.length_append, List.length_singleton, List.length_nil] at hlt
      omega
    · intro _ _
      refine ⟨_, hfirst, fun p => ?_⟩
      have hcw : ∀ e ∈ w0 ++ [d], isBreak e = false := by
        intro e he
        rcases List.mem_append.1 he with he | he
        · exact hw0 e he
        · exact sh.word e he
      obtain ⟨x, ws, h1, h2⟩ := hpara p
      have h3 : spaced (w0 ++ d :: c :: p) = ([], w0 ++ d :: c :: x) :: ws := spaced_words hw0 h1
      rw [hf, List.append_assoc, para_word hs0 h3, if_pos, h2]
      · rw [← hr]; simp
      · refine ⟨hs, ?_⟩
        simp only [List.length_append, List.length_cons]
        omega

/-- The whole text. -/
theorem foldl_lines {width : Int} (hwd : 0 < width) (r : List Char) : ∀ (st : St) (ls : List (List Char)) (l w sp : List Char)
    (f : List Char → List (List Char)), Abs st ls l w sp → Shape w sp → Inv width l w sp f →
    finish (r.foldl (step width) st) = (ls ++ (match paragraphs r with
      | [] => []
      | p :: ps => f p ++ ps.flatMap (paragraphLines width))).map utf8 := by
  induction r with
  | nil =>
    intro st ls l w sp f a sh i
    rw [List.foldl_nil, abs_finish a]
    simp only [paragraphs, List.flatMap_nil, List.append_nil]
    rw [inv_end hwd i sh]
  | cons c r ih =>
    intro st ls l w sp f a sh i
    rw [List.foldl_cons]
    have hpc : paragraphs (c :: r) = if c = '\n' then [] :: paragraphs r
        else match paragraphs r with
          | [] => [[c]]
          | p :: ps => (c :: p) :: ps := rfl
    obtain ⟨q, qs, hq⟩ : ∃ q qs, paragraphs r = q :: qs := by
      cases h : paragraphs r with
      | nil => exact absurd h (paragraphs_ne_nil r)
      | cons q qs => exact ⟨q, qs, rfl⟩
    rw [hq] at ih hpc
    by_cases h1 : c = '\n'
    · rw [if_pos h1] at hpc
      rw [hpc]
      rw [show step width st c = newline st from if_pos h1]
      have a' := abs_newline a
      rw [ih _ _ _ _ _ (fun p => paragraphLines width p) a' ⟨by simp, by simp⟩ (.first _ _ _ (.inl rfl) (fun p => by simp))]
      simp only []
      rw [inv_end hwd i sh]
      simp
    · rw [if_neg h1] at hpc
      rw [hpc]
      have hst : step width st c = if isSpace c = true ∧ c ≠ nbsp then space st c else other width st c := if_neg h1
      rw [hst]
      by_cases h2 : isSpace c = true ∧ c ≠ nbsp
      · rw [if_pos h2]
        have hb := (isBreak_iff c).2 h2
        have a' := abs_space a c
        have i' := inv_space hwd i sh hb
        by_cases hw : w = []
        · rw [if_pos hw] at a'
          rw [ih _ _ _ _ _ _ a' ⟨sh.word, shape_snoc_space sh hb⟩ (i'.1 hw)]
        · rw [if_neg hw] at a'
          rw [ih _ _ _ _ _ _ a' ⟨by simp, by simpa using hb⟩ (i'.2 hw)]
      · rw [if_neg h2]
        have hb := isBreak_false_of h2
        obtain ⟨i1, i2, i3, i4⟩ := inv_other hwd i sh hb
        have shw := shape_snoc_word sh hb
        rcases abs_other a width c with ⟨g1, a'⟩ | ⟨g1, g2, a'⟩ | ⟨g1, g2, g3, a'⟩ | ⟨g1, g2, g3, a'⟩
        · rw [ih _ _ _ _ _ _ a' ⟨shw, sh.space⟩ (i1 g1)]
        · obtain ⟨g, ig, hg⟩ := i2 g1 g2
          rw [ih _ _ _ _ _ _ a' ⟨shw, by simp⟩ ig]
          simp only []
          rw [hg]
          simp
        · rw [ih _ _ _ _ _ _ a' ⟨by simpa using hb, by simp⟩ (i3 g1 g2 g3)]
        · rw [ih _ _ _ _ _ _ a' ⟨shw, by simp⟩ (i4 g2 g3)]

theorem wrapString_lines (s : Bytes) (width : Int) :
    (wrapString s width).map runes = commentLines width (runes s) := by
  unfold wrapString commentLines
  by_cases hw : width ≤ 0
  · rw [if_pos hw, if_pos hw, runes_splitByte]
  · rw [if_neg hw, if_neg hw,
      foldl_lines (by omega) (runes s) _ [] [] [] [] (fun p => paragraphLines width p) abs_init ⟨by simp, by simp⟩
        (.first _ _ _ (.inl rfl) (fun p => by simp))]
    cases hp : paragraphs (runes s) with
    | nil => exact absurd hp (paragraphs_ne_nil _)
    | cons q qs => simp [Function.comp_def, runes_utf8]

theorem wrapString_lines_utf8 (s : Bytes) (width : Int) (hw : 0 < width) :
    wrapString s width = (commentLines width (runes s)).map utf8 := by
  unfold wrapString commentLines
  rw [if_neg (by omega), if_neg (by omega),
      foldl_lines hw (runes s) _ [] [] [] [] (fun p => paragraphLines width p) abs_init ⟨by simp, by simp⟩
        (.first _ _ _ (.inl rfl) (fun p => by simp))]
  cases hp : paragraphs (runes s) with
  | nil => exact absurd hp (paragraphs_ne_nil _)
  | cons q qs => simp

/-! ### Wrapping again -/

/-- The text of words with their blanks. -/
def textOf (ws : List (List Char × List Char)) : List Char := ws.flatMap (fun x => x.1 ++ x.2)

theorem textOf_spaced (p : List Char) (h : ∀ c, p.getLast? = some c → isBreak c = false) : textOf (spaced p) = p := by
  induction p with
  | nil => rfl
  | cons c p ih =>
    rw [spaced_cons]
    cases p with
    | nil => simp [spaced, textOf, h c (by simp)]
    | cons d p =>
      have ih := ih (fun e he => h e (by simpa using he))
      cases hs : spaced (d :: p) with
      | nil => rw [hs] at ih; simp [textOf] at ih
      | cons y ws =>
        obtain ⟨b, w⟩ := y
        rw [hs] at ih
        simp only []
        split
        · rw [← ih]; simp [textOf]
        · split
          · rename_i hb; rw [← ih]; simp [textOf, hb]
          · rw [← ih]; simp [textOf]

theorem fillWords_all {width : Int} : ∀ (ws : List (List Char × List Char)) (cur : List Char),
    (cur.length + (textOf ws).length : Int) ≤ width → fillWords width cur ws = [cur ++ textOf ws] := by
  intro ws
  induction ws with
  | nil => intro cur _; simp [fillWords, textOf]
  | cons x ws ih =>
    obtain ⟨b, w⟩ := x
    intro cur h
    simp only [textOf, List.flatMap_cons, List.length_append] at h
    rw [fillWords, if_pos (by omega), ih _ (by simp only [textOf, List.length_append]; omega)]
    simp [textOf]

/-- A line that stays as it is when wrapped again. -/
def Settled (width : Int) (l : List Char) : Prop :=
  l = [] ∨ ((∀ c, l.head? = some c → isBreak c = false) ∧ (∀ c, l.getLast? = some c → isBreak c = false) ∧ '\n' ∉ l ∧
    ((l.length : Int) ≤ width ∨ ∀ c ∈ l, isBreak c = false))

theorem settled_para {width : Int} {l : List Char} (h : Settled width l) : paragraphLines width l = [l] := by
  rcases h with rfl | ⟨h1, h2, _, h3⟩
  · rfl
  · cases l with
    | nil => rfl
    | cons c l =>
      have hc := h1 c rfl
      rcases h3 with h3 | h3
      · have ht := textOf_spaced (c :: l) h2
        obtain ⟨x, ws, hs⟩ := spaced_word hc l
        have hp := para_word (width := width) (sp := []) (by simp) hs
        rw [List.nil_append] at hp
        rw [hp, if_neg (fun h => h.1 rfl), List.nil_append]
        rw [hs] at ht
        have ht' : c :: x ++ textOf ws = c :: l := by simpa [textOf] using ht
        rw [fillWords_all, ht']
        rw [← ht'] at h3
        rw [List.length_append] at h3
        omega
      · have hp := para_word (width := width) (sp := []) (by simp) (spaced_only h3 (by simp))
        rw [List.nil_append] at hp
        rw [hp, if_neg (fun h => h.1 rfl)]
        rfl

/-- The words of a text without newline. -/
def GoodWords (ws : List (List Char × List Char)) : Prop :=
  ∀ x ∈ ws, (∀ c ∈ x.1, isBreak c = true ∧ c ≠ '\n') ∧ (∀ c ∈ x.2, isBreak c = false) ∧ x.2 ≠ []

theorem spaced_good (p : List Char) (hn : '\n' ∉ p) : GoodWords (spaced p) := by
  induction p with
  | nil => simp [spaced, GoodWords]
  | cons c p ih =>
    have ih := ih (fun h => hn (by simp [h]))
    have hcn : c ≠ '\n' := fun h => hn (by simp [h])
    rw [spaced_cons]
    cases hs : spaced p with
    | nil =>
      simp only []
      split
      · simp [GoodWords]
      · rename_i hc
        intro x hx
        simp only [List.mem_singleton] at hx
        subst hx
        exact ⟨by simp, by simpa using hc, by simp⟩
    | cons y ws =>
      obtain ⟨b, w⟩ := y
      rw [hs] at ih
      have h0 := ih (b, w) (by simp)
      simp only []
      split
      · rename_i hc
        intro x hx
        rcases List.mem_cons.1 hx with hx | hx
        · subst hx
          refine ⟨?_, h0.2.1, h0.2.2⟩
          intro d hd
          rcases List.mem_cons.1 hd with hd | hd
          · subst hd; exact ⟨hc, hcn⟩
          · exact h0.1 d hd
        · exact ih x (by simp [hx])
      · rename_i hc
        have hc : isBreak c = false := by simpa using hc
        split
        · intro x hx
          rcases List.mem_cons.1 hx with hx | hx
          · subst hx
            refine ⟨by simp, ?_, by simp⟩
            intro d hd
            rcases List.mem_cons.1 hd with hd | hd
            · subst hd; exact hc
            · exact h0.2.1 d hd
          · exact ih x (by simp [hx])
        · intro x hx
          rcases List.mem_cons.1 hx with hx | hx
          · subst hx
            exact ⟨by simp, by simpa using hc, by simp⟩
          · exact ih x hx

theorem settled_word {width : Int} {w : List Char} (hw : ∀ c ∈ w, isBreak c = false) : Settled width w := by
  refine .inr ⟨fun c h => hw c (List.mem_of_head? h), fun c h => hw c (List.mem_of_getLast? h), ?_, .inr hw⟩
  intro h
  have := hw _ h
  rw [isBreak_newline] at this
  cases this

theorem fillWords_settled {width : Int} : ∀ (ws : List (List Char × List Char)) (cur : List Char), GoodWords ws →
    cur ≠ [] → Settled width cur → ∀ l ∈ fillWords width cur ws, Settled width l := by
  intro ws
  induction ws with
  | nil => intro cur _ _ h l hl; simp [fillWords] at hl; subst hl; exact h
  | cons x ws ih =>
    obtain ⟨b, w⟩ := x
    intro cur hg hne hs l hl
    have hg' : GoodWords ws := fun y hy => hg y (by simp [hy])
    obtain ⟨hb, hw, hwne⟩ := hg (b, w) (by simp)
    rw [fillWords] at hl
    by_cases hfit : (cur.length + b.length + w.length : Int) ≤ width
    · rw [if_pos hfit] at hl
      refine ih _ hg' (by simp [hne]) ?_ l hl
      obtain ⟨h1, h2, h3, h4⟩ := hs.resolve_left hne
      refine .inr ⟨?_, ?_, ?_, .inl (by simp only [List.length_append]; omega)⟩
      · intro c hc
        cases cur with
        | nil => exact absurd rfl hne
        | cons d cur => exact h1 c (by simpa using hc)
      · intro c hc
        rw [List.getLast?_append] at hc
        cases hl : w.getLast? with
        | none => simp at hl; exact absurd hl hwne
        | some d =>
          rw [hl] at hc
          simp at hc
          subst hc
          exact hw d (List.mem_of_getLast? hl)
      · intro hm
        rcases List.mem_append.1 hm with hm | hm
        · rcases List.mem_append.1 hm with hm | hm
          · exact h3 hm
          · exact (hb _ hm).2 rfl
        · have := hw _ hm
          rw [isBreak_newline] at this
          cases this
    · rw [if_neg hfit] at hl
      rcases List.mem_cons.1 hl with hl | hl
      · subst hl; exact hs
      · exact ih _ hg' hwne (settled_word hw) l hl

theorem para_settled {width : Int} (p : List Char) (hn : '\n' ∉ p) (hlead : leading p = []) :
    ∀ l ∈ paragraphLines width p, Settled width l := by
  cases p with
  | nil => intro l hl; simp [paragraphLines, spaced] at hl; subst hl; exact .inl rfl
  | cons c p =>
    have hc : isBreak c = false := by
      unfold leading at hlead
      cases h : isBreak c with
      | false => rfl
      | true => rw [List.takeWhile_cons_of_pos h] at hlead; cases hlead
    have hg := spaced_good _ hn
    obtain ⟨x, ws, hs⟩ := spaced_word hc p
    have hp := para_word (width := width) (sp := []) (by simp) hs
    rw [List.nil_append] at hp
    rw [hp, if_neg (fun h => h.1 rfl), List.nil_append]
    rw [hs] at hg
    exact fillWords_settled ws _ (fun y hy => hg y (by simp [hy])) (by simp) (settled_word (hg ([], c :: x) (by simp)).2.1)

end Verif.Proofs.CommentLines
