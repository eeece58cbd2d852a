import Verif.Proofs.PoString
import Verif.Proofs.Wrap
import Verif.Spec.PoLines
/-! Helper lemmas for the lines of an encoded PO string. -/
namespace Verif.Proofs.PoLines
open Verif.Go Verif.Model.PoString Verif.Spec.PoString Verif.Spec.Wrap Verif.Spec.PoLines

/-! ### Units -/

theorem units_cons (c : Char) (cs : List Char) : units (c :: cs) =
    match units cs with
    | [] => [[c]]
    | u :: us => if isBreak c ∧ ¬ (u.head?.any isBreak) then [c] :: u :: us else (c :: u) :: us := rfl

/-- The first unit starts with the first character. -/
theorem units_head (c : Char) (cs : List Char) : ∃ x us, units (c :: cs) = (c :: x) :: us := by
  rw [units_cons]
  cases units cs with
  | nil => exact ⟨[], [], rfl⟩
  | cons u us =>
    by_cases h : isBreak c ∧ ¬ (u.head?.any isBreak)
    · simp only []; rw [if_pos h]; exact ⟨[], u :: us, rfl⟩
    · simp only []; rw [if_neg h]; exact ⟨u, us, rfl⟩

theorem units_ne_nil (c : Char) (cs : List Char) : units (c :: cs) ≠ [] := by
  obtain ⟨x, us, h⟩ := units_head c cs
  rw [h]; simp

/-- A character that is not a blank belongs to the unit behind it. -/
theorem units_word_cons {c : Char} (h : isBreak c = false) {cs u : List Char} {us : List (List Char)}
    (e : units cs = u :: us) : units (c :: cs) = (c :: u) :: us := by
  rw [units_cons, e]
  simp [h]

theorem units_word {w : List Char} (h : ∀ c ∈ w, isBreak c = false) {cs u : List Char} {us : List (List Char)}
    (e : units cs = u :: us) : units (w ++ cs) = (w ++ u) :: us := by
  induction w with
  | nil => exact e
  | cons c w ih =>
    exact units_word_cons (h c (by simp)) (ih (fun d hd => h d (by simp [hd])))

theorem units_only_word {w : List Char} (h : ∀ c ∈ w, isBreak c = false) (hne : w ≠ []) : units w = [w] := by
  induction w with
  | nil => exact absurd rfl hne
  | cons c w ih =>
    cases w with
    | nil => rfl
    | cons d w => exact units_word_cons (h c (by simp)) (ih (fun e he => h e (by simp [he])) (by simp))

theorem units_blank_end {sp : List Char} (h : ∀ c ∈ sp, isBreak c = true) (hne : sp ≠ []) : units sp = [sp] := by
  induction sp with
  | nil => exact absurd rfl hne
  | cons c sp ih =>
    cases sp with
    | nil => rfl
    | cons d sp =>
      rw [units_cons, ih (fun e he => h e (by simp [he])) (by simp)]
      simp [h d (by simp)]

/-- Blanks before a word are the end of a unit. -/
theorem units_blanks {sp : List Char} (h : ∀ c ∈ sp, isBreak c = true) (hne : sp ≠ []) {c : Char}
    (hc : isBreak c = false) (cs : List Char) : units (sp ++ c :: cs) = sp :: units (c :: cs) := by
  induction sp with
  | nil => exact absurd rfl hne
  | cons d sp ih =>
    obtain ⟨x, us, hu⟩ := units_head c cs
    cases sp with
    | nil =>
      rw [List.cons_append, List.nil_append, units_cons, hu]
      simp [h d (by simp), hc]
    | cons e sp =>
      rw [List.cons_append, units_cons, ih (fun e he => h e (by simp [he])) (by simp)]
      simp [h e (by simp)]

theorem units_done {w sp : List Char} (hw : ∀ c ∈ w, isBreak c = false) (hs : ∀ c ∈ sp, isBreak c = true)
    (hne : w ++ sp ≠ []) : units (w ++ sp) = [w ++ sp] := by
  by_cases h : sp = []
  · subst h
    simp only [List.append_nil] at hne ⊢
    exact units_only_word hw hne
  · exact units_word hw (units_blank_end hs h)

theorem units_next {w sp : List Char} (hw : ∀ c ∈ w, isBreak c = false) (hs : ∀ c ∈ sp, isBreak c = true)
    (hne : sp ≠ []) {c : Char} (hc : isBreak c = false) (cs : List Char) :
    units (w ++ sp ++ c :: cs) = (w ++ sp) :: units (c :: cs) := by
  rw [List.append_assoc]
  exact units_word hw (units_blanks hs hne hc cs)

/-- The first unit of a text that starts with a word and blanks. -/
theorem units_first {w sp : List Char} (hw : ∀ c ∈ w, isBreak c = false) (hs : ∀ c ∈ sp, isBreak c = true)
    (hne : sp ≠ []) : ∀ p : List Char, ∃ y us, (∀ c ∈ y, isBreak c = true) ∧ units (w ++ sp ++ p) = (w ++ sp ++ y) :: us := by
  intro p
  induction p generalizing sp with
  | nil => exact ⟨[], [], by simp, by simpa using units_done hw hs (by simp [hne])⟩
  | cons c p ih =>
    by_cases hc : isBreak c = true
    · have hs' : ∀ d ∈ sp ++ [c], isBreak d = true := by
        intro d hd
        rcases List.mem_append.1 hd with hd | hd
        · exact hs d hd
        · simp at hd; subst hd; exact hc
      obtain ⟨y, us, h1, h2⟩ := ih (sp := sp ++ [c]) hs' (by simp)
      exact ⟨c :: y, us, by simpa [hc] using h1, by simpa using h2⟩
    · exact ⟨[], units (c :: p), by simp, by
        simpa using units_next hw hs hne (by simpa using hc) p⟩

/-- What a list of units looks like: words with blanks behind them; only the first one may have no
word and only the last one may have no blank. -/
def GoodUnits : Bool → List (List Char) → Prop
  | _, [] => True
  | first, u :: us => (∃ w sp, u = w ++ sp ∧ (∀ c ∈ w, isBreak c = false) ∧ (∀ c ∈ sp, isBreak c = true) ∧
      (first = false → w ≠ []) ∧ (us ≠ [] → sp ≠ []) ∧ u ≠ []) ∧ GoodUnits false us

theorem goodUnits_true {b : Bool} {us : List (List Char)} (h : GoodUnits b us) : GoodUnits true us := by
  cases us with
  | nil => trivial
  | cons u us =>
    obtain ⟨⟨w, sp, h1, h2, h3, h4, h5, h6⟩, h7⟩ := h
    exact ⟨⟨w, sp, h1, h2, h3, (fun e => nomatch e), h5, h6⟩, h7⟩

theorem units_good (p : List Char) : GoodUnits true (units p) ∧
    (p.head?.any (fun c => !isBreak c) = true → GoodUnits false (units p)) := by
  induction p with
  | nil => exact ⟨trivial, fun _ => trivial⟩
  | cons c p ih =>
    rw [units_cons]
    cases hu : units p with
    | nil =>
      by_cases hc : isBreak c = true
      · exact ⟨⟨⟨[], [c], rfl, by simp, by simpa using hc, by simp, by simp, by simp⟩, trivial⟩, by simp [hc]⟩
      · exact ⟨⟨⟨[c], [], rfl, by simpa using hc, by simp, by simp, by simp, by simp⟩, trivial⟩,
          fun _ => ⟨⟨[c], [], rfl, by simpa using hc, by simp, by simp, by simp, by simp⟩, trivial⟩⟩
    | cons u us =>
      rw [hu] at ih
      simp only []
      obtain ⟨⟨⟨w, sp, h1, h2, h3, _, h5, h6⟩, h7⟩, h8⟩ := ih
      have hp : p.head? = u.head? := by
        cases p with
        | nil => cases hu
        | cons d p =>
          obtain ⟨x, vs, hv⟩ := units_head d p
          rw [hv] at hu
          injection hu with hu _
          subst hu; rfl
      by_cases hc : isBreak c ∧ ¬ (u.head?.any isBreak)
      · rw [if_pos hc]
        refine ⟨⟨⟨[], [c], rfl, by simp, by simpa using hc.1, by simp, by simp, by simp⟩, h8 ?_⟩, by simp [hc.1]⟩
        rw [hp]
        cases u with
        | nil => exact absurd rfl h6
        | cons d u => simpa using hc.2
      · rw [if_neg hc]
        by_cases hb : isBreak c = true
        · -- the unit behind consists of blanks
          have hw : w = [] := by
            cases w with
            | nil => rfl
            | cons d w =>
              exfalso; apply hc
              refine ⟨hb, ?_⟩
              rw [h1]; simp [h2 d (by simp)]
          subst hw
          refine ⟨⟨⟨[], c :: sp, by rw [h1]; rfl, by simp, ?_, by simp, by simp, by simp⟩, h7⟩, by simp [hb]⟩
          intro d hd
          rcases List.mem_cons.1 hd with hd | hd
          · rw [hd]; exact hb
          · exact h3 d hd
        · have : GoodUnits false ((c :: u) :: us) := by
            refine ⟨⟨c :: w, sp, by rw [h1]; rfl, ?_, h3, by simp, h5, by simp⟩, h7⟩
            intro d hd
            rcases List.mem_cons.1 hd with hd | hd
            · rw [hd]; simpa using hb
            · exact h2 d hd
          exact ⟨goodUnits_true this, fun _ => this⟩

theorem units_flatten (p : List Char) : (units p).flatten = p := by
  induction p with
  | nil => rfl
  | cons c p ih =>
    rw [units_cons]
    cases hu : units p with
    | nil => rw [hu] at ih; simp at ih; subst ih; rfl
    | cons u us =>
      rw [hu] at ih
      simp only []
      split <;> · rw [← ih]; simp

theorem getLast?_append_ne (xs : List Char) {ys : List Char} (h : ys ≠ []) : (xs ++ ys).getLast? = ys.getLast? := by
  rw [List.getLast?_append]
  cases hl : ys.getLast? with
  | none => simp at hl; exact absurd hl h
  | some c => rfl

theorem endsBlank_append_iff {w sp : List Char} (hw : ∀ c ∈ w, isBreak c = false) (hs : ∀ c ∈ sp, isBreak c = true) :
    endsBlank (w ++ sp) = true ↔ sp ≠ [] := by
  unfold endsBlank
  by_cases h : sp = []
  · subst h
    simp only [List.append_nil, ne_eq, not_true_eq_false, iff_false]
    cases hl : w.getLast? with
    | none => simp
    | some c => simp [hw c (List.mem_of_getLast? hl)]
  · rw [getLast?_append_ne _ h]
    cases hl : sp.getLast? with
    | none => simp at hl; exact absurd hl h
    | some c => simp [hs c (List.mem_of_getLast? hl), h]

/-! ### Filling lines -/

theorem fill_flatten (width : Int) (tail : List Char) (us : List (List Char)) : ∀ cur,
    (fill width tail cur us).flatten = cur ++ us.flatten ++ tail := by
  induction us with
  | nil => intro cur; simp [fill]
  | cons u us ih =>
    intro cur
    unfold fill
    repeat' split
    · simp [ih]
    · simp [ih]
    · rename_i h; simp [ih, h.1]
    · simp [ih]

/-- The first line starts with the line so far. -/
theorem fill_head (width : Int) (tail : List Char) (us : List (List Char)) : ∀ cur,
    ∃ rest more, fill width tail cur us = (cur ++ rest) :: more := by
  induction us with
  | nil => intro cur; exact ⟨tail, [], rfl⟩
  | cons u us ih =>
    intro cur
    unfold fill
    repeat' split
    · exact ⟨[], _, by simp; rfl⟩
    · exact ⟨[], _, by simp; rfl⟩
    · rename_i h; exact ⟨u, _, by simp [h.1]; rfl⟩
    · obtain ⟨rest, more, h⟩ := ih (cur ++ u)
      exact ⟨u ++ rest, more, by rw [h]; simp⟩

/-- The first line starts with the first unit. -/
theorem fill_head_unit (width : Int) (tail u : List Char) (us : List (List Char)) :
    ∃ rest more, fill width tail [] (u :: us) = (u ++ rest) :: more := by
  unfold fill
  simp only [ne_eq, not_true_eq_false, false_and, if_false, true_and, List.nil_append]
  split
  · exact ⟨[], _, by simp; rfl⟩
  · exact fill_head width tail us u

/-- The last line ends with the tail. -/
theorem fill_last (width : Int) (tail : List Char) (us : List (List Char)) : ∀ cur,
    ∃ ls l, fill width tail cur us = ls ++ [l ++ tail] := by
  induction us with
  | nil => intro cur; exact ⟨[], cur, rfl⟩
  | cons u us ih =>
    intro cur
    unfold fill
    repeat' split
    · obtain ⟨ls, l, h⟩ := ih []; exact ⟨cur :: u :: ls, l, by rw [h]; rfl⟩
    · obtain ⟨ls, l, h⟩ := ih u; exact ⟨cur :: ls, l, by rw [h]; rfl⟩
    · obtain ⟨ls, l, h⟩ := ih []; exact ⟨u :: ls, l, by rw [h]; rfl⟩
    · exact ih _

theorem words_unit {w sp : List Char} (hw : ∀ c ∈ w, isBreak c = false) (hs : ∀ c ∈ sp, isBreak c = true) :
    (words (w ++ sp)).length ≤ 1 := by
  rw [Verif.Model.Wrap.words_append_breaks _ _ hs, Verif.Model.Wrap.words_word _ hw]
  split <;> simp

theorem fits_unit (width : Int) {tail w sp : List Char} (ht : tail = [] ∨ tail = ['\n']) (hw : ∀ c ∈ w, isBreak c = false)
    (hs : ∀ c ∈ sp, isBreak c = true) : LineFits width (w ++ sp ++ tail) :=
  ⟨w ++ sp, [], tail, by simp, ht, by simp, .inr ⟨rfl, words_unit hw hs⟩⟩

theorem fits_short {width : Int} {l tail : List Char} (ht : tail = [] ∨ tail = ['\n']) (h : (l.length : Int) ≤ width) :
    LineFits width (l ++ tail) := ⟨l, [], tail, by simp, ht, by simp, .inl h⟩

theorem fill_fits (width : Int) (tail : List Char) (ht : tail = [] ∨ tail = ['\n']) (us : List (List Char)) :
    ∀ cur, GoodUnits true us → (us = [] → LineFits width (cur ++ tail)) →
      (us ≠ [] → cur = [] ∨ (cur.length : Int) ≤ width) →
      ∀ l ∈ fill width tail cur us, LineFits width l := by
  induction us with
  | nil =>
    intro cur _ h _ l hl
    simp only [fill, List.mem_singleton] at hl
    subst hl; exact h rfl
  | cons u us ih =>
    intro cur hg _ h0
    obtain ⟨⟨w, sp, h1, h2, h3, _, h5, _⟩, h7⟩ := hg
    have h7 := goodUnits_true h7
    have h0 := h0 (by simp)
    have hu : LineFits width u := by
      have := fits_unit width (tail := []) (.inl rfl) h2 h3
      rw [List.append_nil, ← h1] at this; exact this
    have hut : LineFits width (u ++ tail) := by
      rw [h1]; exact fits_unit width ht h2 h3
    intro l hl
    unfold fill at hl
    by_cases c1 : cur ≠ [] ∧ endsBlank u ∧ width < cur.length + u.length
    · rw [if_pos c1] at hl
      have hcur : LineFits width cur := by
        have := fits_short (tail := []) (.inl rfl) (h0.resolve_left c1.1)
        rwa [List.append_nil] at this
      by_cases c2 : us ≠ [] ∧ width ≤ u.length + 1
      · rw [if_pos c2] at hl
        rcases List.mem_cons.1 hl with hl | hl
        · subst hl; exact hcur
        · rcases List.mem_cons.1 hl with hl | hl
          · subst hl; exact hu
          · exact ih [] h7 (fun e => absurd e c2.1) (fun _ => .inl rfl) l hl
      · rw [if_neg c2] at hl
        rcases List.mem_cons.1 hl with hl | hl
        · subst hl; exact hcur
        · refine ih u h7 (fun _ => hut) (fun e => .inr ?_) l hl
          have : ¬ width ≤ u.length + 1 := fun h => c2 ⟨e, h⟩
          omega
    · rw [if_neg c1] at hl
      by_cases c2 : cur = [] ∧ us ≠ [] ∧ width ≤ u.length + 1
      · rw [if_pos c2] at hl
        rcases List.mem_cons.1 hl with hl | hl
        · subst hl; exact hu
        · exact ih [] h7 (fun e => absurd e c2.2.1) (fun _ => .inl rfl) l hl
      · rw [if_neg c2] at hl
        refine ih (cur ++ u) h7 ?_ ?_ l hl
        · intro e
          by_cases hc : cur = []
          · subst hc; exact hut
          · by_cases he : sp = []
            · subst he
              refine ⟨cur, u, tail, rfl, ht, ?_, .inl (h0.resolve_left hc)⟩
              rw [h1, List.append_nil]; exact h2
            · have hb : endsBlank u = true := by rw [h1]; exact (endsBlank_append_iff h2 h3).2 he
              have : ¬ width < cur.length + u.length := fun h => c1 ⟨hc, hb, h⟩
              exact fits_short ht (by rw [List.length_append]; omega)
        · intro e
          right
          rw [List.length_append]
          by_cases hc : cur = []
          · have : ¬ width ≤ u.length + 1 := fun h => c2 ⟨hc, e, h⟩
            subst hc; simp only [List.length_nil]; omega
          · have hb : endsBlank u = true := by rw [h1]; exact (endsBlank_append_iff h2 h3).2 (h5 e)
            have : ¬ width < cur.length + u.length := fun h => c1 ⟨hc, hb, h⟩
            omega

/-- The first line of what follows starts with a word. -/
theorem starts_word {us : List (List Char)} (hg : GoodUnits false us) (hne : us ≠ []) (width : Int) (tail : List Char) :
    ∃ d m more, fill width tail [] us = (d :: m) :: more ∧ isBreak d = false := by
  cases us with
  | nil => exact absurd rfl hne
  | cons u us =>
    obtain ⟨⟨w, sp, h1, h2, h3, h4, h5, h6⟩, h7⟩ := hg
    obtain ⟨rest, more, h⟩ := fill_head_unit width tail u us
    cases w with
    | nil => exact absurd rfl (h4 rfl)
    | cons d w =>
      exact ⟨d, w ++ sp ++ rest, more, by rw [h, h1]; simp, h2 d (by simp)⟩

theorem fill_breaks (width : Int) (tail : List Char) (us : List (List Char)) :
    ∀ cur, (∀ u ∈ us, '\n' ∉ u) → (cur = [] → GoodUnits true us) → (cur ≠ [] → GoodUnits false us) →
      (us ≠ [] → cur ≠ [] → endsBlank cur = true) →
      Consecutive (BreakNeeded width) (fill width tail cur us) := by
  induction us with
  | nil => intro cur _ _ _ _; simp [fill, Consecutive]
  | cons u us ih =>
    intro cur hn g1 g2 hb
    have hn' : ∀ v ∈ us, '\n' ∉ v := fun v hv => hn v (by simp [hv])
    have hg : GoodUnits true (u :: us) := by
      by_cases hc : cur = []
      · exact g1 hc
      · exact goodUnits_true (g2 hc)
    obtain ⟨⟨w, sp, h1, h2, h3, _, h5, h6⟩, h7⟩ := hg
    have hblank : us ≠ [] → endsBlank u = true := fun e => by
      rw [h1]; exact (endsBlank_append_iff h2 h3).2 (h5 e)
    -- a unit that fills a line
    have alone : us ≠ [] → width ≤ u.length + 1 → Consecutive (BreakNeeded width) (u :: fill width tail [] us) := by
      intro e hw
      have i := ih [] hn' (fun _ => goodUnits_true h7) (fun h => absurd rfl h) (fun _ h => absurd rfl h)
      obtain ⟨d, m, more, hf, hd⟩ := starts_word h7 e width tail
      rw [hf] at i ⊢
      exact ⟨.inr ⟨hblank e, by simp [hd], .inl hw⟩, i⟩
    unfold fill
    by_cases c1 : cur ≠ [] ∧ endsBlank u ∧ width < cur.length + u.length
    · rw [if_pos c1]
      obtain ⟨⟨w, sp, h1, h2, h3, h4, _, _⟩, _⟩ := g2 c1.1
      have hsp : sp ≠ [] := (endsBlank_append_iff h2 h3).1 (by rw [← h1]; exact c1.2.1)
      have key : ∀ rest, BreakNeeded width cur (u ++ rest) := by
        intro rest
        refine .inr ⟨hb (by simp) c1.1, ?_, .inr ⟨w, sp, rest, by rw [h1], h2, hsp, ?_, ?_⟩⟩
        · cases w with
          | nil => exact absurd rfl (h4 rfl)
          | cons d w => rw [h1]; simp [h2 d (by simp)]
        · intro c hc
          refine ⟨h3 c hc, ?_⟩
          rintro rfl
          exact hn u (by simp) (by rw [h1]; exact List.mem_append_right _ hc)
        · have := c1.2.2
          rw [h1, List.length_append] at this
          omega
      by_cases c2 : us ≠ [] ∧ width ≤ u.length + 1
      · rw [if_pos c2]
        exact ⟨by simpa using key [], alone c2.1 c2.2⟩
      · rw [if_neg c2]
        have i := ih u hn' (fun e => absurd e h6) (fun _ => h7) (fun e _ => hblank e)
        obtain ⟨rest, more, hf⟩ := fill_head width tail us u
        rw [hf] at i ⊢
        exact ⟨key rest, i⟩
    · rw [if_neg c1]
      by_cases c2 : cur = [] ∧ us ≠ [] ∧ width ≤ u.length + 1
      · rw [if_pos c2]
        exact alone c2.2.1 c2.2.2
      · rw [if_neg c2]
        refine ih (cur ++ u) hn' (fun e => absurd (List.append_eq_nil_iff.1 e).2 h6) (fun _ => h7) (fun e _ => ?_)
        have := hblank e
        unfold endsBlank at this ⊢
        rw [getLast?_append_ne _ h6]; exact this

/-! ### Paragraphs -/

theorem paragraphLines_cons (cut : List Char → List Char → List (List Char)) (p : List Char) (ps : List (List Char)) :
    paragraphLines cut (p :: ps) =
      cut (if ps = [] then [] else ['\n']) p ++ paragraphLines cut ps := by
  cases ps with
  | nil => simp [paragraphLines]
  | cons q ps => simp [paragraphLines]

theorem paragraphs_cons (c : Char) (cs : List Char) : paragraphs (c :: cs) =
    if c = '\n' then [] :: paragraphs cs
    else match paragraphs cs with
      | [] => [[c]]
      | p :: ps => (c :: p) :: ps := rfl

theorem paragraphs_no_newline (s : List Char) : ∀ p ∈ paragraphs s, '\n' ∉ p := by
  induction s with
  | nil => simp [paragraphs]
  | cons c s ih =>
    rw [paragraphs_cons]
    by_cases h : c = '\n'
    · rw [if_pos h]
      intro p hp
      rcases List.mem_cons.1 hp with hp | hp
      · subst hp; simp
      · exact ih p hp
    · rw [if_neg h]
      cases hp : paragraphs s with
      | nil => intro p hm; simp at hm; subst hm; simpa using Ne.symm h
      | cons q qs =>
        rw [hp] at ih
        intro p hm
        rcases List.mem_cons.1 hm with hm | hm
        · subst hm
          intro hc
          rcases List.mem_cons.1 hc with hc | hc
          · exact h hc.symm
          · exact ih q (by simp) hc
        · exact ih p (by simp [hm])

theorem paragraphLines_flatten (cut : List Char → List Char → List (List Char))
    (hc : ∀ t p, (cut t p).flatten = p ++ t) (s : List Char) :
    (paragraphLines cut (paragraphs s)).flatten = s := by
  induction s with
  | nil => simp [paragraphs, paragraphLines, hc]
  | cons c s ih =>
    rw [paragraphs_cons]
    by_cases h : c = '\n'
    · rw [if_pos h, paragraphLines_cons, if_neg (Verif.Model.Wrap.paragraphs_ne_nil s), List.flatten_append, hc, ih, h]
      rfl
    · rw [if_neg h]
      cases hp : paragraphs s with
      | nil => exact absurd hp (Verif.Model.Wrap.paragraphs_ne_nil s)
      | cons q qs =>
        rw [hp] at ih
        simp only []
        rw [paragraphLines_cons, List.flatten_append, hc] at ih ⊢
        rw [List.cons_append, List.cons_append, ih]

theorem consecutive_append {R : List Char → List Char → Prop} : ∀ (xs ys : List (List Char)),
    Consecutive R xs → Consecutive R ys → (∀ x ∈ xs.getLast?, ∀ y ∈ ys.head?, R x y) → Consecutive R (xs ++ ys)
  | [], _, _, h, _ => h
  | [x], [], _, _, _ => by simp [Consecutive]
  | [x], y :: ys, _, h, h2 => ⟨h2 x (by simp) y (by simp), h⟩
  | x :: x' :: xs, ys, h, h', h2 =>
    ⟨h.1, consecutive_append (x' :: xs) ys h.2 h' (by
      intro z hz y hy
      exact h2 z (by simpa using hz) y hy)⟩

theorem textLines_flatten (width : Int) (s : List Char) : (textLines width s).flatten = s := by
  refine paragraphLines_flatten _ ?_ s
  intro t p
  split
  · simp
  · rw [fill_flatten, units_flatten]; simp

theorem textLines_fits {width : Int} (hw : 0 < width) (s : List Char) : ∀ l ∈ textLines width s, LineFits width l := by
  unfold textLines
  generalize paragraphs s = ps
  induction ps with
  | nil => simp [paragraphLines]
  | cons p ps ih =>
    intro l hl
    rw [paragraphLines_cons] at hl
    rcases List.mem_append.1 hl with hl | hl
    · rw [if_neg (by omega)] at hl
      refine fill_fits width _ ?_ (units p) [] (units_good p).1 ?_ (fun _ => .inl rfl) l hl
      · split
        · exact .inl rfl
        · exact .inr rfl
      · intro _
        exact fits_short (by split <;> simp) (by simp; omega)
    · exact ih l hl

theorem textLines_breaks (width : Int) (s : List Char) :
    Consecutive (BreakNeeded width) (textLines width s) := by
  have hn := paragraphs_no_newline s
  unfold textLines
  revert hn
  generalize paragraphs s = ps
  induction ps with
  | nil => intro _; simp [paragraphLines, Consecutive]
  | cons p ps ih =>
    intro hn
    rw [paragraphLines_cons]
    refine consecutive_append _ _ ?_ (ih (fun q hq => hn q (by simp [hq]))) ?_
    · split
      · simp [Consecutive]
      · refine fill_breaks width _ (units p) [] ?_ (fun _ => (units_good p).1) (fun h => absurd rfl h) (fun _ h => absurd rfl h)
        intro u hu hm
        apply hn p (by simp)
        rw [← units_flatten p]
        exact List.mem_flatten.2 ⟨u, hu, hm⟩
    · intro x hx y hy
      cases ps with
      | nil => simp [paragraphLines] at hy
      | cons q qs =>
        left
        simp only [if_neg (List.cons_ne_nil q qs)] at hx
        split at hx
        · simp at hx; subst hx; simp
        · obtain ⟨ls, l, hf⟩ := fill_last width ['\n'] (units p) []
          rw [hf] at hx
          simp at hx; subst hx; simp

/-! ### The encoder -/

theorem escaped_eq (c : Char) : escaped c = escChar c := by
  unfold escaped escChar
  dsimp only
  split
  all_goals first
    | (rename_i h; rw [h]; rfl)
    | skip
  rename_i h1 h2 h3 h4 h5 h6 h7 h8 h9
  rw [if_neg (fun h => h.elim h9 h8), if_neg h4, if_neg h7, if_neg h3, if_neg h1, if_neg h2, if_neg h6, if_neg h5]
  simp

theorem quoted_eq (l : List Char) : quoted l = encLine l := by
  unfold quoted encLine quote
  rw [show escaped = escChar from funext escaped_eq]

/-- The buffers of the wrapping encoder hold these texts. -/
structure Sim (st : WrapState) (ls : List (List Char)) (l w sp : List Char) : Prop where
  lines : st.lines = ls.map encLine
  line : st.line = ⟨utf8 l, l.length⟩
  word : st.word = ⟨utf8 w, w.length⟩
  space : st.space = ⟨utf8 sp, sp.length⟩

theorem sim_flush {st : WrapState} {ls : List (List Char)} {l w sp : List Char} (h : Sim st ls l w sp) :
    Sim (flushWord st) ls (l ++ w ++ sp) [] [] ∧ (flushWord st).currentLen = st.currentLen := by
  refine ⟨⟨h.lines, ?_, rfl, rfl⟩, rfl⟩
  simp [flushWord, SB.writeInto, h.line, h.word, h.space, Nat.add_assoc]

theorem sim_newLine {st : WrapState} {ls : List (List Char)} {l w sp : List Char} (h : Sim st ls l w sp)
    (he : ∀ c ∈ l, Encodable c) : ∃ st', createNewLine st = .ok st' ∧ Sim st' (ls ++ [l]) [] w sp ∧ st'.currentLen = 0 := by
  rcases createNewLine_cases (st := st) (L := l) (by rw [h.line]) with ⟨_, e⟩ | ⟨⟨c, hc, hn⟩, _⟩
  · exact ⟨_, e, ⟨by simp [h.lines], rfl, h.word, h.space⟩, rfl⟩
  · exact absurd (he c hc) hn

/-- What one step of the loop does to the texts, for a blank. -/
theorem sim_space {width : Int} {st : WrapState} {ls : List (List Char)} {l w sp : List Char} (h : Sim st ls l w sp)
    (hl : st.currentLen = l.length) (he : ∀ c ∈ l, Encodable c) (c : Char) :
    ∃ st', wrapSpace width st c = .ok st' ∧
      ((l ≠ [] ∧ width < (l.length + w.length + sp.length + 1 : Int) ∧ Sim st' (ls ++ [l]) [] w (sp ++ [c])) ∨
       ((l = [] ∨ (l.length + w.length + sp.length + 1 : Int) ≤ width) ∧ Sim st' ls l w (sp ++ [c]))) := by
  unfold wrapSpace
  have hpos : st.currentLen > 0 ↔ l ≠ [] := by
    rw [hl]
    constructor
    · rintro h rfl; simp at h
    · intro h; have := List.length_pos_iff.2 h; omega
  have hsp : ∀ (s : WrapState) (m : List (List Char)) (k : List Char), Sim s m k w sp →
      Sim { s with space := s.space.writeRune c } m k w (sp ++ [c]) := by
    intro s m k hs
    exact ⟨hs.lines, hs.line, hs.word, by simp only [hs.space, writeRune_utf8]⟩
  by_cases h1 : st.currentLen + st.word.len + st.space.len - 1 ≥ width ∧ st.currentLen > 0
  · rw [show breakIfFull width st = createNewLine st from if_pos h1]
    obtain ⟨st2, e2, s2, c2⟩ := sim_newLine h he
    rw [e2, bind_ok]
    have : breakIfFull width { st2 with space := st2.space.writeRune c } =
        .ok { st2 with space := st2.space.writeRune c } := if_neg (by
      rintro ⟨_, h⟩; simp [c2] at h)
    rw [this]
    refine ⟨_, rfl, .inl ⟨hpos.1 h1.2, ?_, hsp _ _ _ s2⟩⟩
    have := h1.1
    rw [h.word, h.space, hl] at this
    simp only [] at this
    omega
  · rw [show breakIfFull width st = .ok st from if_neg h1, bind_ok]
    have s2 := hsp _ _ _ h
    by_cases h3 : st.currentLen + st.word.len + (st.space.writeRune c).len - 1 ≥ width ∧ st.currentLen > 0
    · rw [show breakIfFull width { st with space := st.space.writeRune c } = createNewLine { st with space := st.space.writeRune c }
        from if_pos h3]
      obtain ⟨st4, e4, s4, _⟩ := sim_newLine s2 he
      refine ⟨st4, e4, .inl ⟨hpos.1 h3.2, ?_, s4⟩⟩
      have := h3.1
      rw [h.word, h.space, hl] at this
      simp only [SB.writeRune] at this
      omega
    · rw [show breakIfFull width { st with space := st.space.writeRune c } = .ok { st with space := st.space.writeRune c }
        from if_neg h3]
      refine ⟨_, rfl, .inr ⟨?_, s2⟩⟩
      by_cases hn : l = []
      · exact .inl hn
      · right
        have : ¬ (st.currentLen + st.word.len + (st.space.writeRune c).len - 1 ≥ width) := fun h => h3 ⟨h, hpos.2 hn⟩
        rw [h.word, h.space, hl] at this
        simp only [SB.writeRune] at this
        omega

/-- What one step of the loop does to the texts, for a character of a word. -/
theorem sim_other {width : Int} {st : WrapState} {ls : List (List Char)} {l w sp : List Char} (h : Sim st ls l w sp)
    (hl : st.currentLen = l.length) (he : ∀ c ∈ l ++ w ++ sp, Encodable c) (c : Char) :
    ∃ st', wrapOther width st c = .ok st' ∧
      ((sp = [] ∧ Sim st' ls l (w ++ [c]) []) ∨
       (sp ≠ [] ∧ l = [] ∧ width ≤ (w ++ sp).length + 1 ∧ Sim st' (ls ++ [w ++ sp]) [] [c] []) ∨
       (sp ≠ [] ∧ ¬ (l = [] ∧ width ≤ (w ++ sp).length + 1) ∧ Sim st' ls (l ++ (w ++ sp)) [c] [])) := by
  unfold wrapOther
  have hw : ∀ (s : WrapState) (m : List (List Char)) (k x : List Char), Sim s m k x [] →
      Sim { s with word := s.word.writeRune c } m k (x ++ [c]) [] := by
    intro s m k x hs
    exact ⟨hs.lines, hs.line, by simp only [hs.word, writeRune_utf8], hs.space⟩
  by_cases hs : sp = []
  · subst hs
    rw [show startWord width st = .ok st from if_neg (by rw [h.space]; simp), bind_ok]
    exact ⟨_, rfl, .inl ⟨rfl, hw _ _ _ _ h⟩⟩
  · have hgt : st.space.len > 0 := by
      rw [h.space]; exact List.length_pos_iff.2 hs
    rw [show startWord width st = (breakBeforeWord width st >>= fun s => .ok (flushWord s)) from if_pos hgt]
    by_cases h1 : st.currentLen + st.word.len + st.space.len + 1 ≥ width ∧ st.currentLen = 0
    · rw [show breakBeforeWord width st = createNewLine (flushWord st) from if_pos h1]
      have hl0 : l = [] := by
        have := h1.2; rw [hl] at this
        exact List.length_eq_zero_iff.1 (by omega)
      subst hl0
      obtain ⟨st2, e2, s2, _⟩ := sim_newLine (sim_flush h).1 he
      rw [e2, bind_ok, bind_ok]
      refine ⟨_, rfl, .inr (.inl ⟨hs, rfl, ?_, ?_⟩)⟩
      · have := h1.1
        rw [h.word, h.space, hl] at this
        simp only [List.length_nil, List.length_append] at this ⊢
        omega
      · have := hw _ _ _ _ (sim_flush s2).1
        simpa using this
    · rw [show breakBeforeWord width st = .ok st from if_neg h1, bind_ok, bind_ok]
      refine ⟨_, rfl, .inr (.inr ⟨hs, ?_, ?_⟩)⟩
      · rintro ⟨rfl, h2⟩
        apply h1
        rw [h.word, h.space, hl]
        simp only [List.length_nil, List.length_append] at h2 ⊢
        exact ⟨by omega, rfl⟩
      · have := hw _ _ _ _ (sim_flush h).1
        simpa using this

/-- What the rest of a text adds to the lines, given the line so far and the unit so far. -/
def restLines (width : Int) (l x r : List Char) : List (List Char) :=
  match paragraphs r with
  | [] => []
  | p :: ps => fill width (if ps = [] then [] else ['\n']) l (units (x ++ p)) ++
      paragraphLines (fun tail p => fill width tail [] (units p)) ps

theorem restLines_nil (width : Int) (l x : List Char) : restLines width l x [] = fill width [] l (units x) := by
  simp [restLines, paragraphs, paragraphLines]

theorem restLines_newline (width : Int) (l x r : List Char) : restLines width l x ('\n' :: r) =
    fill width ['\n'] l (units x) ++ restLines width [] [] r := by
  unfold restLines
  rw [paragraphs_cons, if_pos rfl]
  simp only []
  rw [if_neg (Verif.Model.Wrap.paragraphs_ne_nil r), List.append_nil]
  cases hp : paragraphs r with
  | nil => exact absurd hp (Verif.Model.Wrap.paragraphs_ne_nil r)
  | cons q qs => rw [paragraphLines_cons]; simp

theorem restLines_cons (width : Int) (r : List Char) {c : Char} (hc : c ≠ '\n') : ∃ p ps, paragraphs r = p :: ps ∧
    (∀ l x, restLines width l x r = fill width (if ps = [] then [] else ['\n']) l (units (x ++ p)) ++
      paragraphLines (fun tail p => fill width tail [] (units p)) ps) ∧
    (∀ l x, restLines width l x (c :: r) = fill width (if ps = [] then [] else ['\n']) l (units (x ++ c :: p)) ++
      paragraphLines (fun tail p => fill width tail [] (units p)) ps) := by
  cases hp : paragraphs r with
  | nil => exact absurd hp (Verif.Model.Wrap.paragraphs_ne_nil r)
  | cons q qs =>
    refine ⟨q, qs, rfl, ?_, ?_⟩
    · intro l x; unfold restLines; rw [hp]
    · intro l x; unfold restLines; rw [paragraphs_cons, if_neg hc, hp]

theorem fill_go {width : Int} {tail cur u : List Char} {us : List (List Char)}
    (h1 : ¬ (cur ≠ [] ∧ endsBlank u ∧ width < cur.length + u.length))
    (h2 : ¬ (cur = [] ∧ us ≠ [] ∧ width ≤ u.length + 1)) :
    fill width tail cur (u :: us) = fill width tail (cur ++ u) us := by
  rw [fill, if_neg h1, if_neg h2]

theorem fill_alone {width : Int} {tail u : List Char} {us : List (List Char)}
    (h2 : us ≠ [] ∧ width ≤ u.length + 1) :
    fill width tail [] (u :: us) = u :: fill width tail [] us := by
  have h1 : ¬ (([] : List Char) ≠ [] ∧ endsBlank u ∧ width < ([] : List Char).length + u.length) := fun h => h.1 rfl
  rw [fill, if_neg h1]
  exact if_pos ⟨rfl, h2⟩

/-- The last unit of a paragraph closes the line. -/
theorem fill_done {width : Int} {tail l w sp : List Char} (hw : ∀ c ∈ w, isBreak c = false) (hs : ∀ c ∈ sp, isBreak c = true)
    (hfit : sp ≠ [] → l = [] ∨ (l.length + w.length + sp.length : Int) ≤ width) :
    fill width tail l (units (w ++ sp)) = [l ++ w ++ sp ++ tail] := by
  by_cases h : w ++ sp = []
  · rw [h]
    have := List.append_eq_nil_iff.1 h
    simp [units, fill, this.1, this.2]
  · rw [units_done hw hs h]
    rw [fill_go ?_ (by rintro ⟨_, h, _⟩; exact h rfl)]
    · simp [fill]
    · rintro ⟨h1, h2, h3⟩
      have := (hfit ((endsBlank_append_iff hw hs).1 h2)).resolve_left h1
      rw [List.length_append] at h3
      omega

/-- A unit that does not fit goes to the next line. -/
theorem fill_break {width : Int} {tail l u : List Char} (us : List (List Char)) (hl : l ≠ []) (hu : endsBlank u = true)
    (h : width < l.length + u.length) : fill width tail l (u :: us) = l :: fill width tail [] (u :: us) := by
  have h1 : l ≠ [] ∧ endsBlank u ∧ width < l.length + u.length := ⟨hl, hu, h⟩
  by_cases c : us ≠ [] ∧ width ≤ u.length + 1
  · rw [fill_alone c, fill, if_pos h1, if_pos c]
  · rw [fill_go (cur := []) (fun h => h.1 rfl) (fun h => c h.2), fill, if_pos h1, if_neg c, List.nil_append]

theorem wrapLoop_lines (width : Int) (r : List Char) : ∀ (st : WrapState) (ls : List (List Char)) (l w sp : List Char),
    Sim st ls l w sp → (∀ c ∈ w, isBreak c = false) → (∀ c ∈ sp, isBreak c = true) →
    (sp ≠ [] → l = [] ∨ (l.length + w.length + sp.length : Int) ≤ width) →
    (∀ c ∈ l ++ w ++ sp ++ r, Encodable c) →
    ∃ st' ls' l' w' sp', wrapLoop width r st = .ok st' ∧ Sim st' ls' l' w' sp' ∧
      (∀ c ∈ l' ++ w' ++ sp', Encodable c) ∧
      ls' ++ [l' ++ w' ++ sp'] = ls ++ restLines width l (w ++ sp) r := by
  induction r with
  | nil =>
    intro st ls l w sp h hw hs hf he
    refine ⟨st, ls, l, w, sp, rfl, h, by simpa using he, ?_⟩
    rw [restLines_nil, fill_done hw hs hf]
    simp
  | cons c r ih =>
    intro st ls l w sp h hw hs hf he
    unfold wrapLoop wrapStep
    have hlws : ∀ d ∈ l ++ w ++ sp, Encodable d := fun d hd => he d (List.mem_append_left _ hd)
    have hlen : Sim (setLen st) ls l w sp := ⟨h.lines, h.line, h.word, h.space⟩
    have hcl : (setLen st).currentLen = l.length := by simp [setLen, h.line]
    have hr : ∀ d ∈ c :: r, Encodable d := fun d hd => he d (List.mem_append_right _ hd)
    by_cases h1 : c = '\n'
    · subst h1
      rw [if_pos rfl, restLines_newline, fill_done hw hs hf]
      have s1 := (sim_flush h).1
      have s2 : Sim { flushWord st with line := (flushWord st).line.writeRune '\n' } ls (l ++ w ++ sp ++ ['\n']) [] [] :=
        ⟨s1.lines, by simp only [s1.line, writeRune_utf8], s1.word, s1.space⟩
      obtain ⟨st2, e2, s3, _⟩ := sim_newLine s2 (by
        intro d hd
        rcases List.mem_append.1 hd with hd | hd
        · exact hlws d hd
        · simp at hd; subst hd; decide)
      rw [show wrapNewline st = .ok st2 from e2, bind_ok]
      obtain ⟨st', ls', l', w', sp', e1, s4, e3, e4⟩ := ih st2 _ [] [] [] s3 (by simp) (by simp) (by simp)
        (by intro d hd; exact hr d (by simpa using Or.inr hd))
      exact ⟨st', ls', l', w', sp', e1, s4, e3, by rw [e4]; simp⟩
    · rw [if_neg h1]
      obtain ⟨p, ps, hp, e1, e2⟩ := restLines_cons width r h1
      by_cases h2 : isSpace c = true ∧ c ≠ nbsp
      · rw [if_pos h2]
        have hbc : isBreak c = true := (Verif.Model.Wrap.isBreak_iff c).2 h2
        have hs' : ∀ d ∈ sp ++ [c], isBreak d = true := by
          intro d hd
          rcases List.mem_append.1 hd with hd | hd
          · exact hs d hd
          · simp at hd; subst hd; exact hbc
        obtain ⟨st2, es, hst⟩ := sim_space (width := width) hlen hcl
          (fun d hd => hlws d (by simp [hd])) c
        rw [es, bind_ok]
        rcases hst with ⟨hne, hlt, s2⟩ | ⟨hfit, s2⟩
        · obtain ⟨st', ls', l', w', sp', f1, f2, f3, f4⟩ := ih st2 _ _ _ _ s2 hw hs' (fun _ => .inl rfl) (by
            intro d hd
            simp only [List.nil_append, List.append_assoc, List.mem_append, List.mem_singleton] at hd
            rcases hd with hd | hd | hd | hd
            · exact hlws d (by simp [hd])
            · exact hlws d (by simp [hd])
            · exact hr d (by simp [hd])
            · exact hr d (by simp [hd]))
          refine ⟨st', ls', l', w', sp', f1, f2, f3, ?_⟩
          rw [f4, e1, e2]
          obtain ⟨y, us, hy, hu⟩ := units_first hw hs' (by simp) p
          have e3 : w ++ sp ++ c :: p = w ++ (sp ++ [c]) ++ p := by simp
          rw [e3, hu, fill_break us hne]
          · simp
          · rw [List.append_assoc]
            refine (endsBlank_append_iff hw ?_).2 (by simp)
            intro d hd
            rcases List.mem_append.1 hd with hd | hd
            · exact hs' d hd
            · exact hy d hd
          · simp only [List.length_append, List.length_singleton]
            omega
        · obtain ⟨st', ls', l', w', sp', f1, f2, f3, f4⟩ := ih st2 _ _ _ _ s2 hw hs'
            (fun _ => hfit.imp id (fun h => by simp only [List.length_append, List.length_singleton]; omega)) (by
            intro d hd; exact he d (by simpa using hd))
          refine ⟨st', ls', l', w', sp', f1, f2, f3, ?_⟩
          rw [f4, e1, e2]
          simp
      · rw [if_neg h2]
        have hbc : isBreak c = false := Verif.Model.Wrap.isBreak_false_of h2
        obtain ⟨st2, es, hst⟩ := sim_other (width := width) hlen hcl hlws c
        rw [es, bind_ok]
        rcases hst with ⟨hsp, s2⟩ | ⟨hsp, hl0, hle, s2⟩ | ⟨hsp, hno, s2⟩
        · subst hsp
          obtain ⟨st', ls', l', w', sp', f1, f2, f3, f4⟩ := ih st2 _ _ _ _ s2 (by
            intro d hd
            rcases List.mem_append.1 hd with hd | hd
            · exact hw d hd
            · simp at hd; subst hd; exact hbc) (by simp) (fun h => absurd rfl h) (by
            intro d hd; exact he d (by simpa using hd))
          refine ⟨st', ls', l', w', sp', f1, f2, f3, ?_⟩
          rw [f4, e1, e2]
          simp
        · subst hl0
          obtain ⟨st', ls', l', w', sp', f1, f2, f3, f4⟩ := ih st2 _ _ _ _ s2 (by simpa using hbc) (by simp)
            (fun h => absurd rfl h) (by
            intro d hd; exact hr d (by simpa using hd))
          refine ⟨st', ls', l', w', sp', f1, f2, f3, ?_⟩
          rw [f4, e1, e2, units_next hw hs hsp hbc p]
          rw [fill_alone ⟨units_ne_nil c p, hle⟩]
          simp
        · obtain ⟨st', ls', l', w', sp', f1, f2, f3, f4⟩ := ih st2 _ _ _ _ s2 (by simpa using hbc) (by simp)
            (fun h => absurd rfl h) (by
            intro d hd; exact he d (by simpa using hd))
          refine ⟨st', ls', l', w', sp', f1, f2, f3, ?_⟩
          rw [f4, e1, e2, units_next hw hs hsp hbc p]
          rw [fill_go ?_ (by rintro ⟨h, _, h'⟩; exact hno ⟨h, h'⟩)]
          · simp
          · rintro ⟨hne, _, hlt⟩
            have := (hf hsp).resolve_left hne
            rw [List.length_append] at hlt
            omega

theorem withoutWrapLoop_lines (r : List Char) : ∀ (ls : List (List Char)) (b : List Char),
    (∀ c ∈ b ++ r, Encodable c) →
    ∃ ls' b', withoutWrapLoop r (ls.map encLine) (utf8 b) = .ok (ls'.map encLine, utf8 b') ∧ (∀ c ∈ b', Encodable c) ∧
      ∃ p ps, paragraphs r = p :: ps ∧
      ls' ++ [b'] = ls ++ ([b ++ p ++ (if ps = [] then [] else ['\n'])] ++ paragraphLines (fun tail p => [p ++ tail]) ps) := by
  induction r with
  | nil =>
    intro ls b he
    exact ⟨ls, b, rfl, by simpa using he, [], [], rfl, by simp [paragraphLines]⟩
  | cons c r ih =>
    intro ls b he
    unfold withoutWrapLoop
    rw [paragraphs_cons]
    by_cases h : c = '\n'
    · subst h
      rw [if_pos rfl, if_pos rfl]
      have hb : ∀ d ∈ b, Encodable d := fun d hd => he d (by simp [hd])
      rw [escapePoString_utf8 b hb, bind_ok]
      have e : ls.map encLine ++ [quote (b.flatMap escChar ++ b!"\\n")] = (ls ++ [b ++ ['\n']]).map encLine := by
        simp [encLine, escChar]
      rw [e]
      obtain ⟨ls', b', h1, h2, p, ps, h3, h4⟩ := ih (ls ++ [b ++ ['\n']]) [] (fun d hd => he d (by
        simp only [List.nil_append] at hd; simp [hd]))
      refine ⟨ls', b', h1, h2, [], paragraphs r, rfl, ?_⟩
      rw [h4, h3, paragraphLines_cons]
      simp
    · rw [if_neg h, if_neg h]
      have e : utf8 b ++ encodeRune c = utf8 (b ++ [c]) := by simp
      rw [e]
      obtain ⟨ls', b', h1, h2, p, ps, h3, h4⟩ := ih ls (b ++ [c]) (by simpa using he)
      refine ⟨ls', b', h1, h2, c :: p, ps, by rw [h3], ?_⟩
      rw [h4]; simp

theorem getLast?_snoc (ls : List (List Char)) (x : List Char) : (ls ++ [x]).getLast? = some x := by simp

/-- Assembling the lines: the remainder is only added if it is not empty or the only line. -/
theorem assemble_block (ls : List (List Char)) (x : List Char) :
    assemble (if utf8 x ≠ [] ∨ (ls.map encLine).length = 0 then ls.map encLine ++ [quote (x.flatMap escChar)]
      else ls.map encLine) = block (ls ++ [x]) ∨ ∃ l ∈ ls, l = [] := by
  by_cases hne : ∃ l ∈ ls, l = []
  · exact .inr hne
  left
  have hls : ∀ l ∈ ls, l ≠ [] := fun l hl e => hne ⟨l, hl, e⟩
  have hq : quote (x.flatMap escChar) = encLine x := rfl
  rw [hq]
  have hblock : ∀ css : List (List Char), css ≠ [] → join [0x0a] ((assembled css).map encLine) =
      stacked css := by
    have hj : ∀ (y : Bytes) (ys : List (List Char)), join [0x0a] (y :: ys.map encLine) =
        y ++ ys.flatMap (fun l => b!"\n" ++ quoted l) := by
      intro y ys
      induction ys generalizing y with
      | nil => simp [join]
      | cons z zs ih =>
        rw [List.map_cons, join, ih]
        · simp [quoted_eq]
        · simp
    intro css hc
    match css, hc with
    | [l], _ => simp [assembled, join, quoted_eq, stacked]
    | a :: b :: r, _ =>
      have : assembled (a :: b :: r) = [] :: a :: b :: r := by simp [assembled]
      rw [this, List.map_cons, hj, encLine_nil]
      rfl
  by_cases hx : x = []
  · subst hx
    by_cases hl : ls = []
    · subst hl
      rfl
    · rw [if_neg (by simp [hl])]
      rw [assemble_enc ls hl (fun _ => hls), hblock ls hl]
      unfold block dropEmptyLast
      rw [if_pos ⟨by simp; exact List.length_pos_iff.2 hl, by simp⟩, List.dropLast_concat]
  · have hu : utf8 x ≠ [] := fun e => hx (utf8_eq_nil.1 e)
    rw [if_pos (.inl hu)]
    have e : ls.map encLine ++ [encLine x] = (ls ++ [x]).map encLine := by simp
    rw [e, assemble_enc _ (by simp) ?_, hblock _ (by simp)]
    · unfold block dropEmptyLast
      rw [if_neg (by simp [hx])]
    · intro _ l hl
      rcases List.mem_append.1 hl with hl | hl
      · exact hls l hl
      · simp at hl; subst hl; exact hx

/-- Only the last line of a filled paragraph can be empty. -/
theorem fill_init_ne (width : Int) (tail : List Char) (us : List (List Char)) (hu : ∀ u ∈ us, u ≠ []) : ∀ cur,
    ∃ ls l, fill width tail cur us = ls ++ [l ++ tail] ∧ ∀ m ∈ ls, m ≠ [] := by
  induction us with
  | nil => intro cur; exact ⟨[], cur, rfl, by simp⟩
  | cons u us ih =>
    have ih := ih (fun v hv => hu v (by simp [hv]))
    have hu0 := hu u (by simp)
    intro cur
    unfold fill
    repeat' split
    · rename_i h1 h2
      obtain ⟨ls, l, h, hm⟩ := ih []
      exact ⟨cur :: u :: ls, l, by rw [h]; rfl, by simpa using ⟨h1.1, hu0, hm⟩⟩
    · rename_i h1 h2
      obtain ⟨ls, l, h, hm⟩ := ih u
      exact ⟨cur :: ls, l, by rw [h]; rfl, by simpa using ⟨h1.1, hm⟩⟩
    · obtain ⟨ls, l, h, hm⟩ := ih []
      exact ⟨u :: ls, l, by rw [h]; rfl, by simpa using ⟨hu0, hm⟩⟩
    · exact ih _

theorem goodUnits_ne {b : Bool} {us : List (List Char)} (h : GoodUnits b us) : ∀ u ∈ us, u ≠ [] := by
  induction us generalizing b with
  | nil => simp
  | cons u us ih =>
    obtain ⟨⟨w, sp, _, _, _, _, _, h6⟩, h7⟩ := h
    intro v hv
    rcases List.mem_cons.1 hv with hv | hv
    · subst hv; exact h6
    · exact ih h7 v hv

theorem textLines_init_ne (width : Int) (s : List Char) :
    ∃ ls l, textLines width s = ls ++ [l] ∧ ∀ m ∈ ls, m ≠ [] := by
  unfold textLines
  have hp := Verif.Model.Wrap.paragraphs_ne_nil s
  revert hp
  generalize paragraphs s = ps
  induction ps with
  | nil => intro h; exact absurd rfl h
  | cons p ps ih =>
    intro _
    rw [paragraphLines_cons]
    have h1 : ∀ t, ∃ ls l, (if width ≤ 0 then [p ++ t] else fill width t [] (units p)) = ls ++ [l ++ t] ∧
        ∀ m ∈ ls, m ≠ [] := by
      intro t
      split
      · exact ⟨[], p, rfl, by simp⟩
      · exact fill_init_ne width t (units p) (goodUnits_ne (units_good p).1) []
    obtain ⟨ls, l, h, hm⟩ := h1 (if ps = [] then [] else ['\n'])
    rw [h]
    by_cases hps : ps = []
    · subst hps
      exact ⟨ls, l, by simp [paragraphLines], hm⟩
    · obtain ⟨ls2, l2, h2, hm2⟩ := ih hps
      rw [h2]
      refine ⟨ls ++ [l ++ ['\n']] ++ ls2, l2, by simp [hps], ?_⟩
      intro m hmm
      rcases List.mem_append.1 hmm with hmm | hmm
      · rcases List.mem_append.1 hmm with hmm | hmm
        · exact hm m hmm
        · simp at hmm; subst hmm; simp
      · exact hm2 m hmm

/-- The encoder writes the lines of the text. -/
theorem encodePoString_lines (s : Bytes) (width : Int) (he : ∀ c ∈ runes s, Encodable c) :
    encodePoString s width = .ok (block (textLines width (runes s))) := by
  obtain ⟨tl, tx, ht, htn⟩ := textLines_init_ne width (runes s)
  unfold encodePoString
  by_cases hw : width ≤ 0
  · simp only [if_pos hw]
    unfold encodeWithoutWrap
    obtain ⟨ls, b, h1, h2, p, ps, h3, h4⟩ := withoutWrapLoop_lines (runes s) [] [] (by simpa using he)
    rw [show withoutWrapLoop (runes s) [] [] = _ from h1, bind_ok]
    have ht' : textLines width (runes s) = ls ++ [b] := by
      unfold textLines
      simp only [if_pos hw]
      rw [h3, paragraphLines_cons, h4]; simp
    rw [ht] at ht'
    obtain ⟨rfl, hb⟩ := List.append_inj' ht' rfl
    simp at hb; subst hb
    have ha := (assemble_block tl tx).resolve_right (by rintro ⟨l, hl, rfl⟩; exact htn _ hl rfl)
    rw [ht, ← ha]
    dsimp only
    rw [escapePoString_utf8 _ h2]
    split
    · rw [bind_ok, bind_ok]
    · rw [bind_ok]
  · simp only [if_neg hw]
    unfold encodeWithWrap
    obtain ⟨st, ls, l, w, sp, h1, h2, h3, h4⟩ := wrapLoop_lines width (runes s) ⟨[], SB.empty, SB.empty, SB.empty, 0⟩
      [] [] [] [] ⟨rfl, rfl, rfl, rfl⟩ (by simp) (by simp) (by simp) (by simpa using he)
    rw [h1, bind_ok]
    have s2 := (sim_flush h2).1
    have ht' : textLines width (runes s) = ls ++ [l ++ w ++ sp] := by
      rw [h4]
      unfold textLines restLines
      simp only [if_neg hw]
      cases hp : paragraphs (runes s) with
      | nil => exact absurd hp (Verif.Model.Wrap.paragraphs_ne_nil _)
      | cons q qs => rw [paragraphLines_cons]; simp
    rw [ht] at ht'
    obtain ⟨rfl, hb⟩ := List.append_inj' ht' rfl
    simp only [List.cons.injEq, and_true] at hb; subst hb
    have ha := (assemble_block tl (l ++ w ++ sp)).resolve_right (by rintro ⟨l, hl, rfl⟩; exact htn _ hl rfl)
    rw [ht, ← ha]
    dsimp only
    rw [s2.line, s2.lines]
    dsimp only
    rw [escapePoString_utf8 _ h3]
    split
    · rw [bind_ok, bind_ok]
    · rw [bind_ok]

end Verif.Proofs.PoLines
