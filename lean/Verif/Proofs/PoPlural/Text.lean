import Verif.Proofs.PoPlural.Grammar
import Verif.Spec.PoPluralText
/-! The scanner on texts with NUL and underscores, and the parser on all texts. -/
namespace Verif.Proofs.PoPlural.Text
open Verif.Model.PoPlural Verif.Spec.PoPlural Verif.Proofs.PoPlural

/-! ## Scanning -/

theorem while_nul (p : Char → Bool) (l s : List Char) (hp : ∀ c ∈ l, p c = true)
    (h0 : ∀ c ∈ l, c ≠ '\x00') : scanWhile p (l ++ NUL :: s) = (l, s) := by
  induction l with
  | nil => simp [scanWhile, NUL]
  | cons c l ih =>
    have := ih (fun d hd => hp d (List.mem_cons_of_mem _ hd)) (fun d hd => h0 d (List.mem_cons_of_mem _ hd))
    simp [scanWhile, h0 c (by simp), hp c (by simp), this]

theorem while_inv (p : Char → Bool) (cs : List Char) :
    ∃ l tail s, cs = l ++ (tail ++ s) ∧ scanWhile p cs = (l, s) ∧ (∀ c ∈ l, p c = true) ∧
      ((tail = [] ∧ ∀ c, s.head? = some c → p c = false ∧ c ≠ '\x00') ∨ tail = [NUL]) := by
  induction cs with
  | nil => exact ⟨[], [], [], rfl, rfl, by simp, .inl ⟨rfl, by simp⟩⟩
  | cons c cs ih =>
    by_cases hc : c = '\x00'
    · exact ⟨[], [NUL], cs, by simp [hc, NUL], by simp [scanWhile, hc], by simp, .inr rfl⟩
    · by_cases hp : p c = true
      · obtain ⟨l, tail, s, h1, h2, h3, h4⟩ := ih
        refine ⟨c :: l, tail, s, by rw [h1]; rfl, by simp [scanWhile, hc, hp, h2], ?_, h4⟩
        intro x hx
        rcases List.mem_cons.mp hx with rfl | hx
        · exact hp
        · exact h3 x hx
      · refine ⟨[], [], c :: cs, rfl, by simp [scanWhile, hc, hp], by simp, .inl ⟨rfl, ?_⟩⟩
        intro d hd
        simp only [List.head?_cons, Option.some.injEq] at hd
        subst hd
        exact ⟨by simpa using hp, hc⟩

/-- The continuation loops: on the rest of a token and its tail. -/
theorem while_tail (p : Char → Bool) (l tail s : List Char) (hp : ∀ c ∈ l, p c = true) (h0 : ∀ c ∈ l, c ≠ '\x00')
    (h : (tail = [] ∧ ∀ c, s.head? = some c → p c = false ∧ c ≠ '\x00') ∨ tail = [NUL]) :
    scanWhile p (l ++ (tail ++ s)) = (l, s) := by
  rcases h with ⟨rfl, h⟩ | rfl
  · exact scanWhile_append p l s hp h0 h
  · exact while_nul p l s hp h0

theorem scan_written (t : T) (tail s : List Char) (hw : t.Written) (hm : Tail t tail s) :
    scan (t.text ++ (tail ++ s)) = (tokOf t, s) := by
  cases t with
  | word k w =>
    have hl := word_letters k w hw
    cases w with
    | nil => exact absurd rfl (word_ne_nil k _ hw)
    | cons c l =>
      obtain ⟨a1, a2, a3⟩ := alpha_facts c (hl c (by simp))
      have hsc : scanWhile (fun d => isLetter d || d = '_') (l ++ (tail ++ s)) = (l, s) := by
        apply while_tail
        · intro d hd
          simp [isLetter_iff, hl d (by simp [hd])]
        · intro d hd
          exact (alpha_facts d (hl d (by simp [hd]))).1
        · rcases hm with ⟨ht, h1, h2⟩ | ⟨ht, _⟩
          · refine .inl ⟨ht, fun d hd => ?_⟩
            have := h1 d hd
            refine ⟨?_, fun e => h2 trivial (by rw [hd, e]; rfl)⟩
            simp only [isLetter_iff]
            simp only [not_or] at this
            simp [this]
          · exact .inr ht
      have := wordTok_name k (c :: l) hw
      simp [T.text, scan, a1, a2, a3, hsc, this]
  | num ds =>
    obtain ⟨c, l, rfl, hc, hd⟩ := hw
    obtain ⟨a1, a2, a3⟩ := digit_facts c hc
    have hsc : scanWhile (fun d => Model.PoPlural.isDigit d || d = '_') (l ++ (tail ++ s)) = (l, s) := by
      apply while_tail
      · intro d hd'
        rcases hd d hd' with h | h <;> simp [isDigit_iff, h]
      · intro d hd'
        rcases hd d hd' with h | h
        · exact (digit_facts d h).1
        · rw [h]; decide
      · rcases hm with ⟨ht, h1, h2⟩ | ⟨ht, _⟩
        · refine .inl ⟨ht, fun d hd' => ?_⟩
          have := h1 d hd'
          refine ⟨?_, fun e => h2 trivial (by rw [hd', e]; rfl)⟩
          simp only [isDigit_iff]
          simp only [not_or] at this
          simp [this]
        · exact .inr ht
    have h4 : Model.PoPlural.isDigit c = true := hc
    simp [T.text, scan, a1, a2, a3, hsc, h4, tokOf]
  | bin o =>
    rcases hm with ⟨rfl, hm, _⟩ | ⟨_, h⟩
    · rw [List.nil_append]
      cases o
      case gt =>
        have e : scan (T.text (.bin .gt) ++ s) = scanOp '>' s := rfl
        rw [e, scanOp_one _ _ (by simp) hm]; rfl
      case lt =>
        have e : scan (T.text (.bin .lt) ++ s) = scanOp '<' s := rfl
        rw [e, scanOp_one _ _ (by simp) hm]; rfl
      all_goals rfl
    · exact h.elim
  | assign =>
    rcases hm with ⟨rfl, hm, _⟩ | ⟨_, h⟩
    · rw [List.nil_append]
      have e : scan (T.text .assign ++ s) = scanOp '=' s := rfl
      rw [e, scanOp_one _ _ (by simp) hm]; rfl
    · exact h.elim
  | _ =>
    rcases hm with ⟨rfl, hm, _⟩ | ⟨_, h⟩
    · rfl
    · exact h.elim

theorem written_head (t : T) (hw : t.Written) : ∃ c r, t.text = c :: r ∧ c ≠ '\x00' ∧ isWs c = false := by
  cases t with
  | num ds =>
    obtain ⟨c, l, rfl, hc, _⟩ := hw
    obtain ⟨a1, a2, _⟩ := digit_facts c hc
    exact ⟨c, l, rfl, a1, a2⟩
  | word k w => exact text_head (.word k w) hw
  | bin o => exact text_head (.bin o) trivial
  | assign => exact text_head .assign trivial
  | semi => exact text_head .semi trivial
  | quest => exact text_head .quest trivial
  | colon => exact text_head .colon trivial
  | lp => exact text_head .lp trivial
  | rp => exact text_head .rp trivial

theorem scan_blank_nul (b s : List Char) (hne : b ≠ []) (hw : ∀ c ∈ b, Blank c) : scan (b ++ NUL :: s) = (.ws, s) := by
  cases b with
  | nil => exact absurd rfl hne
  | cons c w =>
    have h1 := blank_ne_nul c (hw c (by simp))
    have h2 := (isWs_iff c).mpr (hw c (by simp))
    have := while_nul isWs w s (fun d hd => (isWs_iff d).mpr (hw d (by simp [hd])))
      (fun d hd => blank_ne_nul d (hw d (by simp [hd])))
    simp [scan, h1, h2, this]

theorem next_of_ws {cs r : List Char} (h : scan cs = (.ws, r)) : next cs = scan r := by
  unfold next; rw [h]

theorem next_of_not_ws {cs : List Char} (h : (scan cs).1 ≠ .ws) : next cs = scan cs := by
  unfold next
  split
  · rename_i r hr; exact absurd (congrArg Prod.fst hr) h
  · rfl

theorem next_reads (t : T) (ts : List T) (text : List Char) (h : Reads (t :: ts) text) :
    ∃ s, next text = (tokOf t, s) ∧ Reads ts s ∧ s.length < text.length := by
  cases h with
  | cons g t tail ts s hg hw hm hs =>
    have hscan := scan_written t tail s hw hm
    obtain ⟨c, r, e, a, b⟩ := written_head t hw
    refine ⟨s, ?_, hs, by simp [e]; omega⟩
    rcases hg with hg | ⟨bl, hne, hb, rfl⟩
    · by_cases hn : g = []
      · subst hn
        rw [List.nil_append, next_of_not_ws (by rw [hscan]; exact (tokOf_facts t).1), hscan]
      · rw [next_of_ws (scan_blank g _ hn hg (by
          intro d hd
          simp [e] at hd
          subst hd
          exact ⟨b, a⟩)), hscan]
    · rw [List.append_assoc, List.singleton_append, next_of_ws (scan_blank_nul bl _ hne hb), hscan]

theorem next_ends (s : List Char) (h : Ends s) : (next s).1 = .eof := by
  rcases h with h | ⟨junk, rfl⟩ | ⟨b, hne, hb, rfl | ⟨junk, rfl⟩⟩
  · exact next_spells_nil s (.nil s h)
  · rfl
  · rw [next_of_ws (scan_blank_nul b [] hne hb)]; rfl
  · rw [next_of_ws (scan_blank_nul b _ hne hb)]; rfl

/-- What the scanner returns. -/
theorem scan_cases (cs : List Char) :
    ((scan cs).1 = .eof ∧ (cs = [] ∨ ∃ j, cs = NUL :: j)) ∨ (scan cs).1 = .failure ∨
    ((scan cs).1 = .ws ∧ ∃ w, w ≠ [] ∧ (∀ c ∈ w, Blank c) ∧ ((cs = w ++ (scan cs).2 ∧
      ∀ c, (scan cs).2.head? = some c → isWs c = false ∧ c ≠ '\x00') ∨ cs = w ++ NUL :: (scan cs).2)) ∨
    ∃ (t : T) (tail : List Char), t.Written ∧ Tail t tail (scan cs).2 ∧ cs = t.text ++ (tail ++ (scan cs).2) ∧
      (scan cs).1 = tokOf t := by
  cases cs with
  | nil => exact .inl ⟨rfl, .inl rfl⟩
  | cons c cs =>
    by_cases h0 : c = '\x00'
    · subst h0; exact .inl ⟨rfl, .inr ⟨cs, rfl⟩⟩
    right
    by_cases hws : isWs c = true
    · right; left
      have e : scan (c :: cs) = (.ws, (scanWhile isWs cs).2) := by simp [scan, h0, hws]
      obtain ⟨l, tail, s, h1, h2, h3, h4⟩ := while_inv isWs cs
      rw [e, h2]
      refine ⟨rfl, c :: l, by simp, ?_, ?_⟩
      · intro x hx
        rcases List.mem_cons.mp hx with rfl | hx
        · exact (isWs_iff _).mp hws
        · exact (isWs_iff _).mp (h3 x hx)
      · rcases h4 with ⟨rfl, h4⟩ | rfl
        · exact .inl ⟨by rw [h1]; rfl, h4⟩
        · exact .inr (by rw [h1]; rfl)
    · by_cases hl : isLetter c = true
      · have e : scan (c :: cs) = (wordTok (c :: (scanWhile (fun d => isLetter d || d = '_') cs).1),
            (scanWhile (fun d => isLetter d || d = '_') cs).2) := by simp [scan, h0, hws, hl]
        obtain ⟨l, tail, s, h1, h2, h3, h4⟩ := while_inv (fun d => isLetter d || d = '_') cs
        rw [e, h2]
        rcases wordTok_inv (c :: l) with hf | ⟨k, g1, g2⟩
        · left; exact hf
        · right; right
          refine ⟨.word k _, tail, g1, ?_, by rw [h1]; rfl, g2⟩
          rcases h4 with ⟨rfl, h4⟩ | rfl
          · refine .inl ⟨rfl, fun x hx => ?_, fun _ hx => (h4 _ hx).2 rfl⟩
            have := (h4 x hx).1
            simp [isLetter_iff] at this
            simp [this]
          · exact .inr ⟨rfl, trivial⟩
      · by_cases hd : Model.PoPlural.isDigit c = true
        · have e : scan (c :: cs) = (.value (c :: (scanWhile (fun d => Model.PoPlural.isDigit d || d = '_') cs).1),
            (scanWhile (fun d => Model.PoPlural.isDigit d || d = '_') cs).2) := by simp [scan, h0, hws, hl, hd]
          obtain ⟨l, tail, s, h1, h2, h3, h4⟩ := while_inv (fun d => Model.PoPlural.isDigit d || d = '_') cs
          rw [e, h2]
          right; right
          refine ⟨.num _, tail, ⟨c, l, rfl, hd, fun d hdl => ?_⟩, ?_, by rw [h1]; rfl, rfl⟩
          · have := h3 d hdl
            simpa [isDigit_iff] using this
          · rcases h4 with ⟨rfl, h4⟩ | rfl
            · refine .inl ⟨rfl, fun x hx => ?_, fun _ hx => (h4 _ hx).2 rfl⟩
              have := (h4 x hx).1
              simp [isDigit_iff] at this
              simp [this]
            · exact .inr ⟨rfl, trivial⟩
        · have hrest : (scan (c :: cs)) = if c = '%' then (.op .rem, cs)
              else if c = '?' then (.question, cs)
              else if c = ':' then (.colon, cs)
              else if c = ';' then (.semicolon, cs)
              else if c = '(' then (.lparen, cs)
              else if c = ')' then (.rparen, cs)
              else if c = '&' ∨ c = '!' ∨ c = '|' ∨ c = '<' ∨ c = '>' ∨ c = '=' then scanOp c cs
              else (.failure, cs) := by simp [scan, h0, hws, hl, hd]
          rw [hrest]
          have short : ∀ t : T, ¬ t.Long → (∀ s, NoMerge t s) → ∀ s, Tail t [] s :=
            fun t h1 h2 s => .inl ⟨rfl, h2 s, fun h => (h1 h).elim⟩
          by_cases h1 : c = '%'
          · subst h1; right; right
            exact ⟨.bin .rem, [], trivial, short (.bin .rem) id (fun _ => trivial) _, rfl, rfl⟩
          rw [if_neg h1]
          by_cases h1 : c = '?'
          · subst h1; right; right
            exact ⟨.quest, [], trivial, short (.quest) id (fun _ => trivial) _, rfl, rfl⟩
          rw [if_neg h1]
          by_cases h1 : c = ':'
          · subst h1; right; right
            exact ⟨.colon, [], trivial, short (.colon) id (fun _ => trivial) _, rfl, rfl⟩
          rw [if_neg h1]
          by_cases h1 : c = ';'
          · subst h1; right; right
            exact ⟨.semi, [], trivial, short (.semi) id (fun _ => trivial) _, rfl, rfl⟩
          rw [if_neg h1]
          by_cases h1 : c = '('
          · subst h1; right; right
            exact ⟨.lp, [], trivial, short (.lp) id (fun _ => trivial) _, rfl, rfl⟩
          rw [if_neg h1]
          by_cases h1 : c = ')'
          · subst h1; right; right
            exact ⟨.rp, [], trivial, short (.rp) id (fun _ => trivial) _, rfl, rfl⟩
          rw [if_neg h1]
          by_cases h1 : c = '&' ∨ c = '!' ∨ c = '|' ∨ c = '<' ∨ c = '>' ∨ c = '='
          · rw [if_pos h1]
            rcases scanOp_inv c cs with hf | ⟨t, g1, g2, g3, g4⟩
            · left; exact hf
            · right; right
              have hlong : ¬ t.Long ∧ t.Written := by
                cases t with
                | word k w =>
                  obtain ⟨d, r, ed, _, _⟩ := text_head (.word k w) g1
                  rw [ed] at g3
                  have hdc : c = d := by injection g3
                  have := word_letters k w g1 d (by
                    have : w = d :: r := ed
                    rw [this]; simp)
                  rw [← hdc, ← isLetter_iff] at this
                  exact absurd this hl
                | num ds =>
                  obtain ⟨hne, hall⟩ := g1
                  cases ds with
                  | nil => exact absurd rfl hne
                  | cons d r =>
                    have hdc : c = d := by injection g3
                    have := hall d (by simp)
                    rw [← hdc] at this
                    exact absurd this hd
                | _ => exact ⟨id, trivial⟩
              exact ⟨t, [], hlong.2, .inl ⟨rfl, g2, fun h => (hlong.1 h).elim⟩, g3, g4⟩
          · rw [if_neg h1]; left; rfl

/-- What `next` returns. -/
theorem next_cases (cs : List Char) :
    ((next cs).1 = .eof ∧ Ends cs) ∨ (next cs).1 = .failure ∨ (next cs).1 = .ws ∨
    ∃ t : T, t.Written ∧ (next cs).1 = tokOf t ∧ ∀ ts, Reads ts (next cs).2 → Reads (t :: ts) cs := by
  by_cases hws : (scan cs).1 = .ws
  · have e : next cs = scan (scan cs).2 := next_of_ws (Prod.ext hws rfl)
    rcases scan_cases cs with ⟨h1, _⟩ | h | ⟨_, w, h1, h2, h3⟩ | ⟨t, _, _, _, _, h4⟩
    · rw [h1] at hws; cases hws
    · rw [h] at hws; cases hws
    · rw [e]
      rcases scan_cases (scan cs).2 with ⟨g1, g2⟩ | g | ⟨g, _⟩ | ⟨t, tail, g1, g2, g3, g4⟩
      · left
        refine ⟨g1, ?_⟩
        rcases h3 with ⟨h3, h4⟩ | h3
        · rcases g2 with g2 | ⟨j, g2⟩
          · rw [h3, g2, List.append_nil]; exact .inl h2
          · exact absurd rfl (h4 NUL (by rw [g2]; rfl)).2
        · refine .inr (.inr ⟨w, h1, h2, ?_⟩)
          rcases g2 with g2 | ⟨j, g2⟩
          · exact .inl (by rw [h3, g2])
          · exact .inr ⟨j, by rw [h3, g2]⟩
      · exact .inr (.inl g)
      · exact .inr (.inr (.inl g))
      · refine .inr (.inr (.inr ⟨t, g1, g4, fun ts hts => ?_⟩))
        rcases h3 with ⟨h3, h4⟩ | h3
        · have := Reads.cons w t tail ts _ (.inl h2) g1 g2 hts
          rw [← g3, ← h3] at this
          exact this
        · have := Reads.cons (w ++ [NUL]) t tail ts _ (.inr ⟨w, h1, h2, rfl⟩) g1 g2 hts
          rw [← g3, List.append_assoc, List.singleton_append, ← h3] at this
          exact this
    · rw [h4] at hws; exact absurd hws (tokOf_facts t).1
  · rw [next_of_not_ws hws]
    rcases scan_cases cs with ⟨h1, h2⟩ | h | ⟨h, _⟩ | ⟨t, tail, g1, g2, g3, g4⟩
    · refine .inl ⟨h1, ?_⟩
      rcases h2 with rfl | ⟨j, rfl⟩
      · exact .inl (by simp)
      · exact .inr (.inl ⟨j, rfl⟩)
    · exact .inr (.inl h)
    · exact absurd h hws
    · refine .inr (.inr (.inr ⟨t, g1, g4, fun ts hts => ?_⟩))
      have := Reads.cons [] t tail ts _ (.inl (by simp)) g1 g2 hts
      rw [← g3, List.nil_append] at this
      exact this

end Verif.Proofs.PoPlural.Text
