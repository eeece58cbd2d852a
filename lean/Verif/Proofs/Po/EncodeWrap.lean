import Verif.Model.Po.Encoder
import Verif.Props.Wrap
import Verif.Proofs.Po.TrimText
import Verif.Proofs.Po.FileRead
import Verif.Proofs.PoString
import Verif.Spec.PoFile
/-! Helper lemmas for writing PO files: wrapped comments. -/
namespace Verif.Proofs.Po
open Verif.Go Verif.Model.Wrap Verif.Model.PoString Verif.Spec.Wrap Verif.Spec.PoFile

/-! ## Words -/

/-- `join` on characters. -/
def joinC (sep : List Char) : List (List Char) → List Char
  | [] => []
  | [l] => l
  | l :: ls => l ++ sep ++ joinC sep ls

theorem joinC_cons {sep l : List Char} {ls : List (List Char)} (h : ls ≠ []) : joinC sep (l :: ls) = l ++ sep ++ joinC sep ls := by
  cases ls with
  | nil => exact absurd rfl h
  | cons => rfl

theorem joinC_snoc {sep l : List Char} {ls : List (List Char)} (h : ls ≠ []) : joinC sep (ls ++ [l]) = joinC sep ls ++ sep ++ l := by
  induction ls with
  | nil => exact absurd rfl h
  | cons a ls ih =>
    cases ls with
    | nil => simp [joinC]
    | cons b ls =>
      rw [List.cons_append, joinC_cons (ls := b :: ls ++ [l]) (by simp), ih (by simp), joinC_cons (ls := b :: ls) (by simp)]
      simp

theorem utf8_joinC (sep : List Char) (ls : List (List Char)) : utf8 (joinC sep ls) = join (utf8 sep) (ls.map utf8) := by
  induction ls with
  | nil => rfl
  | cons a ls ih =>
    cases ls with
    | nil => rfl
    | cons b ls =>
      rw [joinC_cons (by simp), utf8_append, utf8_append, ih]
      rfl

theorem fieldsFrom_sep {sep : Char → Bool} {s : Char} (hs : sep s = true) (xs ys : List Char) : ∀ cur,
    fieldsFrom sep cur (xs ++ s :: ys) = fieldsFrom sep cur xs ++ fieldsFrom sep [] ys := by
  induction xs with
  | nil => intro cur; rw [List.nil_append]; simp only [fieldsFrom, if_pos hs]
  | cons x xs ih =>
    intro cur
    rw [List.cons_append, fieldsFrom, fieldsFrom]
    split
    · rw [ih, List.append_assoc]
    · rw [ih]

theorem fieldsFrom_word {sep : Char → Bool} {xs : List Char} (h : ∀ c ∈ xs, sep c = false) : ∀ cur,
    fieldsFrom sep cur xs = if cur ++ xs = [] then [] else [cur ++ xs] := by
  induction xs with
  | nil => intro cur; simp [fieldsFrom]
  | cons x xs ih =>
    intro cur
    rw [fieldsFrom, if_neg (by rw [h x List.mem_cons_self]; simp), ih (fun c hc => h c (List.mem_cons_of_mem _ hc))]
    simp

theorem fieldsFrom_left {sep : Char → Bool} {a : List Char} (h : ∀ c ∈ a, sep c = true) (xs : List Char) :
    fieldsFrom sep [] (a ++ xs) = fieldsFrom sep [] xs := by
  induction a with
  | nil => rfl
  | cons c a ih =>
    rw [List.cons_append, fieldsFrom, if_pos (h c List.mem_cons_self), ih fun d hd => h d (List.mem_cons_of_mem _ hd)]
    rfl

theorem fieldsFrom_right {sep : Char → Bool} {b : List Char} (h : ∀ c ∈ b, sep c = true) (xs : List Char) :
    fieldsFrom sep [] (xs ++ b) = fieldsFrom sep [] xs := by
  cases b with
  | nil => rw [List.append_nil]
  | cons c b =>
    have := fieldsFrom_left (sep := sep) (a := b) (fun d hd => h d (List.mem_cons_of_mem _ hd)) []
    rw [List.append_nil] at this
    rw [fieldsFrom_sep (h c List.mem_cons_self), this]
    simp [fieldsFrom]

theorem fieldsFrom_joinC {sep : Char → Bool} {s : Char} {t : List Char} (hs : sep s = true) (ht : ∀ c ∈ t, sep c = true)
    (ls : List (List Char)) : fieldsFrom sep [] (joinC (s :: t) ls) = ls.flatMap (fieldsFrom sep []) := by
  induction ls with
  | nil => rfl
  | cons a ls ih =>
    cases ls with
    | nil => simp [joinC]
    | cons b ls =>
      rw [joinC_cons (by simp), List.append_assoc, List.cons_append, fieldsFrom_sep hs, fieldsFrom_left ht, ih]
      rfl

theorem fieldsAux_utf8 (p : Char → Bool) (cs : List Char) : ∀ (f : Nat) (cur : List Char), (utf8 cs).length ≤ f →
    fieldsAux p f (utf8 cur) (utf8 cs) = (fieldsFrom p cur cs).map utf8 := by
  have hnil : ∀ cur : List Char, (if utf8 cur = [] then [] else [utf8 cur]) = (if cur = [] then [] else [cur]).map utf8 := by
    intro cur
    by_cases h : cur = []
    · simp [h]
    · rw [if_neg (fun e => h (utf8_eq_nil.1 e)), if_neg h]; rfl
  induction cs with
  | nil =>
    intro f cur _
    cases f with
    | zero => exact hnil cur
    | succ f => exact hnil cur
  | cons c cs ih =>
    intro f cur hf
    have hp := encodeRune_length_pos c
    rw [utf8_cons, List.length_append] at hf
    match f with
    | 0 => omega
    | f + 1 =>
      obtain ⟨b, bs, hb⟩ := encodeRune_append_eq_cons c (utf8 cs)
      rw [utf8_cons, hb, fieldsAux, ← hb, decodeRune_encodeRune]
      simp only [drop_append_length, List.take_left']
      rw [fieldsFrom]
      by_cases hc : p c = true
      · rw [if_pos hc, if_pos hc, List.map_append, ← hnil]
        congr 1
        exact ih f [] (by omega)
      · rw [if_neg hc, if_neg hc]
        have : utf8 cur ++ encodeRune c = utf8 (cur ++ [c]) := by simp
        rw [this]
        exact ih f (cur ++ [c]) (by omega)

theorem fieldsFunc_utf8 (p : Char → Bool) (cs : List Char) : fieldsFunc p (utf8 cs) = (fieldsFrom p [] cs).map utf8 :=
  fieldsAux_utf8 p cs _ [] (Nat.le_refl _)

theorem wordsFrom_fields (cs : List Char) : ∀ cur, (∀ c ∈ cur, isBreak c = false) →
    (wordsFrom cur cs).flatMap (fieldsFrom isSpace []) = fieldsFrom isSpace [] (cur ++ cs) := by
  induction cs with
  | nil =>
    intro cur _
    rw [wordsFrom, List.append_nil]
    split
    · subst_vars; rfl
    · simp
  | cons c cs ih =>
    intro cur hcur
    rw [wordsFrom]
    split
    · rename_i hb
      have hs : isSpace c = true := ((isBreak_iff c).1 hb).1
      rw [List.flatMap_append, ih [] nofun, fieldsFrom_sep hs, List.nil_append]
      congr 1
      split
      · subst_vars; rfl
      · simp
    · rename_i hb
      rw [ih]
      · simp
      · intro d hd
        rcases List.mem_append.1 hd with h | h
        · exact hcur d h
        · simp at h; subst h; simpa using hb

theorem words_fields (cs : List Char) : (words cs).flatMap (fieldsFrom isSpace []) = fieldsFrom isSpace [] cs :=
  wordsFrom_fields cs [] nofun

/-! ## Lines -/

theorem newline_utf8 {x : List Char} (h : '\n' ∉ x) : (0x0a : UInt8) ∉ utf8 x := by
  intro hm
  unfold utf8 at hm
  obtain ⟨c, hc, hb⟩ := List.mem_flatMap.1 hm
  by_cases h8 : c.toNat < 0x80
  · rw [encodeRune_ascii c h8] at hb
    have : c.toNat = 0x0a := by
      simp at hb
      have := congrArg UInt8.toNat hb
      simp at this; omega
    have : c = '\n' := char_ext this
    exact h (this ▸ hc)
  · have := encodeRune_multi c (by omega) _ hb
    simp at this

theorem splitByte_prefix {sep : UInt8} {a b : Bytes} (h : sep ∉ a) :
    ∃ l ls, splitByte sep b = l :: ls ∧ splitByte sep (a ++ b) = (a ++ l) :: ls := by
  induction a with
  | nil =>
    obtain ⟨l, ls, e⟩ := List.exists_cons_of_ne_nil (splitByte_ne_nil sep b)
    exact ⟨l, ls, e, e⟩
  | cons x a ih =>
    obtain ⟨l, ls, h1, h2⟩ := ih fun e => h (List.mem_cons_of_mem _ e)
    refine ⟨l, ls, h1, ?_⟩
    rw [List.cons_append, splitByte, if_neg (fun e => h (by rw [e]; exact List.mem_cons_self)), h2]
    rfl

theorem splitByte_utf8 (cs : List Char) : splitByte 0x0a (utf8 cs) = (paragraphs cs).map utf8 := by
  induction cs with
  | nil => rfl
  | cons c cs ih =>
    rw [utf8_cons, paragraphs]
    split
    · subst_vars
      have : encodeRune '\n' = [0x0a] := by decide
      rw [this, List.singleton_append, splitByte, if_pos rfl, ih]
      rfl
    · rename_i hc
      have hn : (0x0a : UInt8) ∉ encodeRune c := by
        have := newline_utf8 (x := [c]) (by simp; exact fun e => hc e.symm)
        simpa using this
      obtain ⟨l, ls, h1, h2⟩ := splitByte_prefix (b := utf8 cs) hn
      rw [h2]
      rw [ih] at h1
      cases hp : paragraphs cs with
      | nil => rw [hp] at h1; cases h1
      | cons p ps =>
        rw [hp] at h1
        obtain ⟨rfl, rfl⟩ := List.cons.inj h1
        simp

theorem paragraphs_no_newline (cs : List Char) : ∀ p ∈ paragraphs cs, '\n' ∉ p := by
  induction cs with
  | nil => simp [paragraphs]
  | cons c cs ih =>
    rw [paragraphs]
    split
    · intro p hp
      rcases List.mem_cons.1 hp with rfl | hp
      · simp
      · exact ih p hp
    · rename_i hc
      cases hps : paragraphs cs with
      | nil => simp; exact fun e => hc e.symm
      | cons q qs =>
        rw [hps] at ih
        intro p hp
        rcases List.mem_cons.1 hp with rfl | hp
        · have := ih q List.mem_cons_self
          simp only [List.mem_cons, not_or]
          exact ⟨fun e => hc e.symm, this⟩
        · exact ih p (List.mem_cons_of_mem _ hp)

theorem joinC_paragraphs (cs : List Char) : joinC ['\n'] (paragraphs cs) = cs := by
  induction cs with
  | nil => rfl
  | cons c cs ih =>
    rw [paragraphs]
    split
    · subst_vars
      rw [joinC_cons (paragraphs_ne_nil cs), ih]; rfl
    · cases hps : paragraphs cs with
      | nil => exact absurd hps (paragraphs_ne_nil cs)
      | cons q qs =>
        rw [hps] at ih
        cases qs with
        | nil => simp only [joinC] at ih ⊢; rw [ih]
        | cons r qs =>
          rw [joinC_cons (by simp)] at ih ⊢
          simp only [List.cons_append, ih]

/-! ## Wrapped lines -/

def NoNewline (_p _r : List Char) (ls : List (List Char)) (l w sp : List Char) : Prop :=
  (∀ x ∈ ls, '\n' ∉ x) ∧ '\n' ∉ l ∧ '\n' ∉ w ∧ '\n' ∉ sp

theorem noNewline_step (width : Int) : ∀ p c r st ls l w sp, Abs st ls l w sp → NoNewline p (c :: r) ls l w sp →
    ∃ ls' l' w' sp', Abs (step width st c) ls' l' w' sp' ∧ NoNewline (p ++ [c]) r ls' l' w' sp' := by
  intro p c r st ls l w sp a ⟨h1, h2, h3, h4⟩
  have hsn : ∀ (ls : List (List Char)) (y : List Char), (∀ x ∈ ls, '\n' ∉ x) → '\n' ∉ y → ∀ x ∈ ls ++ [y], '\n' ∉ x := by
    intro ls y h hy x hx
    rcases List.mem_append.1 hx with hx | hx
    · exact h x hx
    · simp at hx; subst hx; exact hy
  unfold step
  split
  · refine ⟨_, _, _, _, abs_newline a, hsn _ _ h1 ?_, by simp, by simp, by simp⟩
    split <;> simp [h2, h3, h4]
  · rename_i hc
    have hc' : '\n' ≠ c := fun e => hc e.symm
    split
    · have := abs_space a c
      split at this
      · exact ⟨_, _, _, _, this, h1, h2, h3, by simp [h4, hc']⟩
      · exact ⟨_, _, _, _, this, h1, by simp [h2, h3, h4], by simp, by simp [hc']⟩
    · rcases abs_other a width c with ⟨_, a'⟩ | ⟨_, _, a'⟩ | ⟨_, _, _, a'⟩ | ⟨_, _, _, a'⟩
      · exact ⟨_, _, _, _, a', h1, h2, by simp [h3, hc'], h4⟩
      · exact ⟨_, _, _, _, a', hsn _ _ h1 h2, by simp, by simp [h3, hc'], by simp⟩
      · exact ⟨_, _, _, _, a', h1, by simp [h3, h4], by simp [hc'], by simp⟩
      · exact ⟨_, _, _, _, a', h1, by simp, by simp [h3, hc'], by simp⟩

/-- The lines of a wrapped text. -/
theorem wrap_chars (cs : List Char) (width : Int) :
    ∃ css, wrapString (utf8 cs) width = css.map utf8 ∧ css ≠ [] ∧ ∀ x ∈ css, '\n' ∉ x := by
  unfold wrapString
  by_cases hw : width ≤ 0
  · rw [if_pos hw]
    exact ⟨paragraphs cs, splitByte_utf8 cs, paragraphs_ne_nil cs, paragraphs_no_newline cs⟩
  · rw [if_neg hw, runes_utf8]
    obtain ⟨ls, l, w, sp, a, h1, h2, h3, h4⟩ := foldl_inv width NoNewline (noNewline_step width) cs [] _ _ _ _ _
      abs_init ⟨by simp, by simp, by simp, by simp⟩
    refine ⟨_, abs_finish a, by simp, ?_⟩
    intro x hx
    rcases List.mem_append.1 hx with hx | hx
    · exact h1 x hx
    · simp at hx; subst hx
      split <;> simp [h2, h3, h4]

/-! ## Lines that fit -/

def Keeps (width : Int) (ls0 : List (List Char)) (p r : List Char) (ls : List (List Char)) (l w sp : List Char) : Prop :=
  Shape w sp ∧ ls = ls0 ∧ l ++ sp ++ w = p ∧ '\n' ∉ r ∧ ((p ++ r).length : Int) ≤ width ∧ (w = [] → sp = [] → l = [])

theorem keeps_step (width : Int) (ls0 : List (List Char)) : ∀ p c r st ls l w sp, Abs st ls l w sp →
    Keeps width ls0 p (c :: r) ls l w sp →
    ∃ ls' l' w' sp', Abs (step width st c) ls' l' w' sp' ∧ Keeps width ls0 (p ++ [c]) r ls' l' w' sp' := by
  intro p c r st ls l w sp a ⟨sh, h1, h2, h3, h4, h5⟩
  have hc : c ≠ '\n' := fun e => h3 (by rw [e]; exact List.mem_cons_self)
  have hr : '\n' ∉ r := fun e => h3 (List.mem_cons_of_mem _ e)
  have hlen : ((p ++ [c] ++ r).length : Int) ≤ width := by simpa using h4
  unfold step
  rw [if_neg hc]
  split
  · rename_i hs
    have hb := (isBreak_iff c).2 hs
    have := abs_space a c
    split at this
    · rename_i hw
      refine ⟨_, _, _, _, this, ⟨sh.word, ?_⟩, h1, ?_, hr, hlen, by simp⟩
      · intro d hd
        rcases List.mem_append.1 hd with h | h
        · exact sh.space d h
        · simp at h; subst h; exact hb
      · rw [← h2, hw]; simp
    · refine ⟨_, _, _, _, this, ⟨by simp, by simpa using hb⟩, h1, ?_, hr, hlen, by simp⟩
      rw [← h2]; simp
  · rename_i hs
    have hb := isBreak_false_of hs
    rcases abs_other a width c with ⟨_, a'⟩ | ⟨h, _, a'⟩ | ⟨h, hl, _, a'⟩ | ⟨h, hl, hsp, a'⟩
    · refine ⟨_, _, _, _, a', ⟨?_, sh.space⟩, h1, ?_, hr, hlen, by simp⟩
      · intro d hd
        rcases List.mem_append.1 hd with h | h
        · exact sh.word d h
        · simp at h; subst h; exact hb
      · rw [← h2]; simp
    all_goals
      exfalso
      rw [← h2] at hlen
      simp at hlen
      subst_vars
      simp at *
      omega

theorem wrap_fits {width : Int} (ps : List (List Char)) (hne : ps ≠ [])
    (hn : ∀ p ∈ ps, '\n' ∉ p ∧ (p.length : Int) ≤ width ∧ ∀ c ∈ p.getLast?, isBreak c = false) :
    ∀ st ls, Abs st ls [] [] [] → finish ((joinC ['\n'] ps).foldl (step width) st) = (ls ++ ps).map utf8 := by
  have key : ∀ p, ('\n' ∉ p ∧ (p.length : Int) ≤ width ∧ ∀ c ∈ p.getLast?, isBreak c = false) → ∀ st ls, Abs st ls [] [] [] →
      ∃ l w sp, Abs (p.foldl (step width) st) ls l w sp ∧ l ++ (if w = [] then [] else sp) ++ w = p := by
    intro p ⟨h1, h2, h3⟩ st ls a
    obtain ⟨ls', l, w, sp, a', sh, e1, e2, _, _, e3⟩ := foldl_inv width (Keeps width ls) (keeps_step width ls) p [] st ls [] [] []
      a ⟨⟨nofun, nofun⟩, rfl, rfl, h1, by simpa using h2, fun _ _ => rfl⟩
    subst e1
    rw [List.nil_append] at e2
    refine ⟨l, w, sp, a', ?_⟩
    split
    · rename_i hw0
      subst hw0
      rcases List.eq_nil_or_concat sp with rfl | ⟨i, b, rfl⟩
      · exact e2
      · exfalso
        rw [List.concat_eq_append] at *
        have hb := sh.space b (by simp)
        rw [h3 b (by rw [← e2]; simp)] at hb
        cases hb
    · exact e2
  induction ps with
  | nil => exact absurd rfl hne
  | cons p ps ih =>
    intro st ls a
    obtain ⟨l, w, sp, a', e⟩ := key p (hn p List.mem_cons_self) st ls a
    cases ps with
    | nil =>
      rw [joinC, abs_finish a', e]
    | cons q ps =>
      rw [joinC_cons (by simp), List.foldl_append, List.foldl_append]
      have hnl : Abs (['\n'].foldl (step width) (p.foldl (step width) st)) (ls ++ [p]) [] [] [] := by
        have := abs_newline a'
        rw [e] at this
        exact this
      rw [ih (by simp) (fun x hx => hn x (List.mem_cons_of_mem _ hx)) _ _ hnl]
      simp

/-- Lines that fit stay as they are. -/
theorem wrap_same (cs : List Char) (width : Int)
    (h : 0 < width → ∀ p ∈ paragraphs cs, (p.length : Int) ≤ width ∧ ∀ c ∈ p.getLast?, isBreak c = false) :
    wrapString (utf8 cs) width = (paragraphs cs).map utf8 := by
  unfold wrapString
  by_cases hw : width ≤ 0
  · rw [if_pos hw, splitByte_utf8]
  · rw [if_neg hw, runes_utf8]
    have := wrap_fits (width := width) (paragraphs cs) (paragraphs_ne_nil cs)
      (fun p hp => ⟨paragraphs_no_newline cs p hp, h (by omega) p hp⟩) _ [] abs_init
    rw [joinC_paragraphs] at this
    exact this

/-! ## Words separated by single spaces -/

theorem word_fold (width : Int) (x : List Char) (hx : ∀ c ∈ x, isBreak c = false) : ∀ st ls l w sp, Abs st ls l w sp →
    (l = [] → sp = []) → ∃ ls' l' sp', Abs (x.foldl (step width) st) ls' l' (w ++ x) sp' ∧
      ((ls' = ls ∧ l' = l ∧ sp' = sp) ∨ (l ≠ [] ∧ ls' = ls ++ [l] ∧ l' = [] ∧ sp' = [])) := by
  induction x with
  | nil => intro st ls l w sp a _; exact ⟨ls, l, sp, by simpa using a, .inl ⟨rfl, rfl, rfl⟩⟩
  | cons c x ih =>
    intro st ls l w sp a hl
    have hc := hx c List.mem_cons_self
    have hx' : ∀ c ∈ x, isBreak c = false := fun d hd => hx d (List.mem_cons_of_mem _ hd)
    have hstep : step width st c = other width st c := by
      unfold step
      rw [if_neg (by rintro rfl; rw [isBreak_newline] at hc; cases hc), if_neg]
      intro h
      rw [(isBreak_iff c).2 h] at hc; cases hc
    rw [List.foldl_cons, hstep]
    rcases abs_other a width c with ⟨_, a'⟩ | ⟨_, hne, a'⟩ | ⟨_, hl', hsp, a'⟩ | ⟨_, hl', hsp, a'⟩
    · obtain ⟨ls', l', sp', a2, h2⟩ := ih hx' _ _ _ _ _ a' hl
      exact ⟨ls', l', sp', by simpa using a2, h2⟩
    · obtain ⟨ls', l', sp', a2, h2⟩ := ih hx' _ _ _ _ _ a' (fun _ => rfl)
      refine ⟨ls', l', sp', by simpa using a2, .inr ?_⟩
      rcases h2 with ⟨rfl, rfl, rfl⟩ | ⟨h, _⟩
      · exact ⟨hne, rfl, rfl, rfl⟩
      · exact absurd rfl h
    · exact absurd (hl hl') hsp
    · subst hl'; subst hsp
      obtain ⟨ls', l', sp', a2, h2⟩ := ih hx' _ _ _ _ _ a' hl
      exact ⟨ls', l', sp', by simpa using a2, h2⟩

theorem group_fold (width : Int) (vs : List (List Char)) (hne : vs ≠ []) (hv : ∀ v ∈ vs, v ≠ [] ∧ ∀ c ∈ v, isBreak c = false) :
    ∀ st (gs : List (List (List Char))) (g : List (List Char)),
      Abs st (gs.map (joinC [' '])) (joinC [' '] g) [] (if g = [] then [] else [' ']) → (∀ v ∈ g, v ≠ []) → (∀ x ∈ gs, x ≠ []) →
      ∃ gs' : List (List (List Char)), finish ((joinC [' '] vs).foldl (step width) st) = gs'.map (fun x => utf8 (joinC [' '] x)) ∧
        gs'.flatten = gs.flatten ++ g ++ vs ∧ (∀ x ∈ gs', x ≠ []) := by
  induction vs with
  | nil => exact absurd rfl hne
  | cons v vs ih =>
    intro st gs g a hg hgs
    obtain ⟨hv0, hvb⟩ := hv v List.mem_cons_self
    have hgn : joinC [' '] g = [] → g = [] := by
      intro h
      match g, hg with
      | [], _ => rfl
      | [x], hg => exact absurd h (hg x List.mem_cons_self)
      | x :: y :: r, _ => rw [joinC_cons (by simp)] at h; simp at h
    obtain ⟨ls', l', sp', a', h⟩ := word_fold width v hvb st _ _ _ _ a (fun e => by rw [if_pos (hgn e)])
    rw [List.nil_append] at a'
    -- the groups after the word
    have hnew : ∃ (gs2 : List (List (List Char))) (g2 : List (List Char)), gs2.flatten ++ g2 = gs.flatten ++ g ++ [v] ∧ ls' = gs2.map (joinC [' ']) ∧ l' ++ sp' ++ v = joinC [' '] g2 ∧
        g2 ≠ [] ∧ (∀ x ∈ g2, x ≠ []) ∧ (∀ x ∈ gs2, x ≠ []) := by
      rcases h with ⟨rfl, rfl, rfl⟩ | ⟨hl, rfl, rfl, rfl⟩
      · refine ⟨gs, g ++ [v], by simp, rfl, ?_, by simp, ?_, hgs⟩
        · by_cases hg0 : g = []
          · subst hg0; simp [joinC]
          · rw [if_neg hg0, joinC_snoc hg0]
        · intro x hx
          rcases List.mem_append.1 hx with hx | hx
          · exact hg x hx
          · simp at hx; subst hx; exact hv0
      · have hg0 : g ≠ [] := by rintro rfl; exact hl rfl
        refine ⟨gs ++ [g], [v], by simp, by simp, by simp [joinC], by simp, by simpa using hv0, ?_⟩
        intro x hx
        rcases List.mem_append.1 hx with hx | hx
        · exact hgs x hx
        · simp at hx; subst hx; exact hg0
    obtain ⟨gs2, g2, e1, e2, e3, e4, e5, e6⟩ := hnew
    cases vs with
    | nil =>
      refine ⟨gs2 ++ [g2], ?_, by simpa using e1, ?_⟩
      · rw [joinC, abs_finish a', if_neg hv0, e3, e2]
        simp
      · intro x hx
        rcases List.mem_append.1 hx with hx | hx
        · exact e6 x hx
        · simp at hx; subst hx; exact e4
    | cons v' vs =>
      rw [joinC_cons (by simp), List.foldl_append, List.foldl_append]
      have hsp : Abs ([' '].foldl (step width) (v.foldl (step width) st)) (gs2.map (joinC [' '])) (joinC [' '] g2) []
          (if g2 = [] then [] else [' ']) := by
        have := abs_space a' ' '
        rw [if_neg hv0, e3, e2] at this
        rw [if_neg e4]
        exact this
      obtain ⟨gs', k1, k2, k3⟩ := ih (by simp) (fun x hx => hv x (List.mem_cons_of_mem _ hx)) _ gs2 g2 hsp e5 e6
      refine ⟨gs', k1, ?_, k3⟩
      rw [k2, e1]; simp

/-- Words separated by single spaces are distributed over lines. -/
theorem wrap_groups (width : Int) (vs : List (List Char)) (hne : vs ≠ []) (hv : ∀ v ∈ vs, v ≠ [] ∧ ∀ c ∈ v, isBreak c = false) :
    ∃ gs : List (List (List Char)), wrapString (utf8 (joinC [' '] vs)) width = gs.map (fun x => utf8 (joinC [' '] x)) ∧
      gs.flatten = vs ∧ ∀ x ∈ gs, x ≠ [] := by
  unfold wrapString
  by_cases hw : width ≤ 0
  · rw [if_pos hw]
    refine ⟨[vs], ?_, by simp, by simpa using hne⟩
    rw [splitByte_none]
    · rfl
    · apply newline_utf8
      intro hm
      clear hne
      induction vs with
      | nil => cases hm
      | cons v vs ih =>
        have hvn : '\n' ∉ v := by
          intro h
          have := (hv v List.mem_cons_self).2 _ h
          rw [isBreak_newline] at this; cases this
        cases vs with
        | nil => exact hvn hm
        | cons v' vs =>
          rw [joinC_cons (by simp)] at hm
          rcases List.mem_append.1 hm with hm | hm
          · rcases List.mem_append.1 hm with hm | hm
            · exact hvn hm
            · simp at hm
          · exact ih (fun x hx => hv x (List.mem_cons_of_mem _ hx)) hm
  · rw [if_neg hw, runes_utf8]
    obtain ⟨gs, h1, h2, h3⟩ := group_fold width vs hne hv _ [] [] abs_init nofun nofun
    exact ⟨gs, h1, by simpa using h2, h3⟩

end Verif.Proofs.Po
