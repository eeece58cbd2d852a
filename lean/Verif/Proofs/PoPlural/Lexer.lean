import Verif.Model.PoPlural.Scanner
import Verif.Spec.PoPlural
/-! Lexer lemmas: `next` reads exactly the tokens a text spells, and what it reads is spelled. -/
namespace Verif.Proofs.PoPlural
open Verif.Model.PoPlural Verif.Spec.PoPlural

/-- Operators of the specification as operators of the model. -/
def opOf : BinOp → Op
  | .and => .and | .or => .or | .eq => .eq | .ne => .ne | .gt => .gt | .ge => .ge
  | .lt => .lt | .le => .le | .rem => .rem

def tokOf : T → Tok
  | .word .n _ => .operand
  | .word .nplurals _ => .nplurals
  | .word .plural _ => .plural
  | .num ds => .value ds
  | .bin o => .op (opOf o)
  | .assign => .assign
  | .semi => .semicolon
  | .quest => .question
  | .colon => .colon
  | .lp => .lparen
  | .rp => .rparen

theorem isDigit_iff (c : Char) : Model.PoPlural.isDigit c = c.isDigit := rfl

theorem isLetter_iff (c : Char) : isLetter c = c.isAlpha := by
  unfold isLetter Char.isAlpha
  rw [Bool.or_comm]
  unfold Char.isUpper Char.isLower
  rw [Bool.decide_and]
  rfl

theorem isWs_iff (c : Char) : isWs c = true ↔ Blank c := by
  simp [isWs, Blank, or_assoc]

theorem lower_eq (c : Char) : lower c = c.toLower := by
  by_cases h : c.toNat < 128
  · have key : ∀ n : Fin 128, lower (Char.ofNat n) = (Char.ofNat n).toLower := by decide +kernel
    have := key ⟨c.toNat, h⟩
    simpa using this
  · have h1 : ¬ ('A' ≤ c ∧ c ≤ 'Z') := by
      rintro ⟨_, b⟩
      have : c.toNat ≤ 90 := b
      omega
    unfold lower Char.toLower
    rw [if_neg h1]
    split
    · rename_i hn
      exact absurd hn h1
    · rfl

theorem scanWhile_append (p : Char → Bool) (l s : List Char) (hp : ∀ c ∈ l, p c = true)
    (h0 : ∀ c ∈ l, c ≠ '\x00') (hs : ∀ c, s.head? = some c → p c = false ∧ c ≠ '\x00') :
    scanWhile p (l ++ s) = (l, s) := by
  induction l with
  | nil =>
    cases s with
    | nil => rfl
    | cons c s =>
      obtain ⟨a, b⟩ := hs c rfl
      simp [scanWhile, a, b]
  | cons c l ih =>
    have := ih (fun d hd => hp d (List.mem_cons_of_mem _ hd))
      (fun d hd => h0 d (List.mem_cons_of_mem _ hd))
    simp [scanWhile, h0 c (by simp), hp c (by simp), this]

theorem scanWhile_inv (p : Char → Bool) (cs : List Char) (h0 : '\x00' ∉ cs) :
    cs = (scanWhile p cs).1 ++ (scanWhile p cs).2 ∧ (∀ c ∈ (scanWhile p cs).1, p c = true) ∧
      (∀ c, (scanWhile p cs).2.head? = some c → p c = false) := by
  induction cs with
  | nil => simp [scanWhile]
  | cons c cs ih =>
    have hc : c ≠ '\x00' := fun e => h0 (by simp [e])
    obtain ⟨a, b, d⟩ := ih (fun h => h0 (List.mem_cons_of_mem _ h))
    by_cases hp : p c = true
    · have e : scanWhile p (c :: cs) = (c :: (scanWhile p cs).1, (scanWhile p cs).2) := by
        simp [scanWhile, hc, hp]
      rw [e]
      refine ⟨by simp [← a], ?_, d⟩
      intro x hx
      rcases List.mem_cons.mp hx with rfl | hx
      · exact hp
      · exact b x hx
    · have e : scanWhile p (c :: cs) = ([], c :: cs) := by simp [scanWhile, hc, hp]
      rw [e]
      simp at hp
      simp [hp]

theorem scanWhile_length (p : Char → Bool) (cs : List Char) :
    (scanWhile p cs).2.length ≤ cs.length := by
  induction cs with
  | nil => simp [scanWhile]
  | cons c cs ih =>
    unfold scanWhile
    split
    · simp
    · split
      · simp; omega
      · simp

theorem wordTok_name (k : Kw) (w : List Char) (h : w.map Char.toLower = k.name) :
    wordTok w = tokOf (.word k w) := by
  have e : w.map lower = k.name := by rw [← h]; exact List.map_congr_left (fun c _ => lower_eq c)
  unfold wordTok
  rw [e]
  cases k <;> rfl

theorem letter_of_lower (c d : Char) (h : c.toLower = d) (hd : 'a' ≤ d ∧ d ≤ 'z') :
    c.isAlpha = true := by
  unfold Char.toLower at h
  split at h
  · rename_i hc
    simp only [Char.isAlpha, Bool.or_eq_true]
    left
    simp [Char.isUpper]
    exact hc
  · subst h
    simp only [Char.isAlpha, Bool.or_eq_true]
    right
    simp only [Char.isLower, Bool.and_eq_true, decide_eq_true_eq]
    exact hd

theorem kw_letters (k : Kw) : ∀ d ∈ k.name, 'a' ≤ d ∧ d ≤ 'z' := by
  cases k <;> decide

theorem word_letters (k : Kw) (w : List Char) (h : w.map Char.toLower = k.name) :
    ∀ c ∈ w, c.isAlpha = true := by
  intro c hc
  have : c.toLower ∈ k.name := by rw [← h]; exact List.mem_map_of_mem hc
  exact letter_of_lower c _ rfl (kw_letters k _ this)

theorem word_ne_nil (k : Kw) (w : List Char) (h : w.map Char.toLower = k.name) : w ≠ [] := by
  rintro rfl
  cases k <;> simp [Kw.name] at h

theorem alpha_facts (c : Char) (h : c.isAlpha = true) :
    c ≠ '\x00' ∧ isWs c = false ∧ isLetter c = true := by
  refine ⟨?_, ?_, by rw [isLetter_iff]; exact h⟩
  · rintro rfl; exact absurd h (by decide)
  · rw [Bool.eq_false_iff]
    intro hw
    rcases (isWs_iff c).mp hw with rfl | rfl | rfl <;> exact absurd h (by decide)

theorem digit_facts (c : Char) (h : c.isDigit = true) :
    c ≠ '\x00' ∧ isWs c = false ∧ isLetter c = false := by
  refine ⟨?_, ?_, ?_⟩
  · rintro rfl; exact absurd h (by decide)
  · rw [Bool.eq_false_iff]
    intro hw
    rcases (isWs_iff c).mp hw with rfl | rfl | rfl <;> exact absurd h (by decide)
  · rw [isLetter_iff, Bool.eq_false_iff]
    intro ha
    simp only [Char.isDigit, Char.isAlpha, Char.isUpper, Char.isLower, Bool.or_eq_true,
      Bool.and_eq_true, decide_eq_true_eq, ge_iff_le, UInt32.le_iff_toNat_le] at h ha
    have e1 : UInt32.toNat 'A'.val = 65 := by decide
    have e2 : UInt32.toNat 'a'.val = 97 := by decide
    have e3 : UInt32.toNat '9'.val = 57 := by decide
    omega

theorem twoChar_none (c d : Char) (h : (c = '=' ∨ c = '<' ∨ c = '>') ∧ d ≠ '=') :
    twoChar c d = none := by
  obtain ⟨hc, hd⟩ := h
  rcases hc with rfl | rfl | rfl <;> simp [twoChar, hd]

theorem scanOp_one (c : Char) (s : List Char) (h : c = '=' ∨ c = '<' ∨ c = '>')
    (hs : s.head? ≠ some '=') : scanOp c s = (oneChar c, s) := by
  cases s with
  | nil => rfl
  | cons d s =>
    have : d ≠ '=' := by intro e; simp [e] at hs
    simp [scanOp, twoChar_none c d ⟨h, this⟩]

/-- Scanning the spelling of a token. -/
theorem scan_token (t : T) (s : List Char) (hw : t.WF) (hm : NoMerge t s)
    (h0 : s.head? ≠ some '\x00') : scan (t.text ++ s) = (tokOf t, s) := by
  cases t with
  | word k w =>
    have hl := word_letters k w hw
    cases w with
    | nil => exact absurd rfl (word_ne_nil k _ hw)
    | cons c l =>
      obtain ⟨a1, a2, a3⟩ := alpha_facts c (hl c (by simp))
      have hsc : scanWhile (fun d => isLetter d || d = '_') (l ++ s) = (l, s) := by
        apply scanWhile_append
        · intro d hd
          simp [isLetter_iff, hl d (by simp [hd])]
        · intro d hd
          exact (alpha_facts d (hl d (by simp [hd]))).1
        · intro d hd
          have := hm d hd
          refine ⟨?_, fun e => h0 (by rw [hd, e])⟩
          simp only [isLetter_iff]
          simp only [not_or] at this
          simp [this]
      have := wordTok_name k (c :: l) hw
      simp [T.text, scan, a1, a2, a3, hsc, this]
  | num ds =>
    obtain ⟨hne, hd⟩ := hw
    cases ds with
    | nil => exact absurd rfl hne
    | cons c l =>
      obtain ⟨a1, a2, a3⟩ := digit_facts c (hd c (by simp))
      have hsc : scanWhile (fun d => Model.PoPlural.isDigit d || d = '_') (l ++ s) = (l, s) := by
        apply scanWhile_append
        · intro d hd'
          simp [isDigit_iff, hd d (by simp [hd'])]
        · intro d hd'
          exact (digit_facts d (hd d (by simp [hd']))).1
        · intro d hd'
          have := hm d hd'
          refine ⟨?_, fun e => h0 (by rw [hd', e])⟩
          simp only [isDigit_iff]
          simp only [not_or] at this
          simp [this]
      have h4 : Model.PoPlural.isDigit c = true := hd c (by simp)
      simp [T.text, scan, a1, a2, a3, hsc, h4, tokOf]
  | bin o =>
    cases o
    case gt => 
      have e : scan (T.text (.bin .gt) ++ s) = scanOp '>' s := rfl
      rw [e, scanOp_one _ _ (by simp) hm]; rfl
    case lt => 
      have e : scan (T.text (.bin .lt) ++ s) = scanOp '<' s := rfl
      rw [e, scanOp_one _ _ (by simp) hm]; rfl
    all_goals rfl
  | assign =>
    have e : scan (T.text .assign ++ s) = scanOp '=' s := rfl
    rw [e, scanOp_one _ _ (by simp) hm]; rfl
  | _ => rfl

theorem text_head (t : T) (hw : t.WF) : ∃ c r, t.text = c :: r ∧ c ≠ '\x00' ∧ isWs c = false := by
  cases t with
  | word k w =>
    cases w with
    | nil => exact absurd rfl (word_ne_nil k _ hw)
    | cons c l =>
      obtain ⟨a1, a2, _⟩ := alpha_facts c (word_letters k _ hw c (by simp))
      exact ⟨c, l, rfl, a1, a2⟩
  | num ds =>
    obtain ⟨hne, hd⟩ := hw
    cases ds with
    | nil => exact absurd rfl hne
    | cons c l =>
      obtain ⟨a1, a2, _⟩ := digit_facts c (hd c (by simp))
      exact ⟨c, l, rfl, a1, a2⟩
  | bin o => cases o <;> exact ⟨_, _, rfl, by decide, by decide⟩
  | _ => exact ⟨_, _, rfl, by decide, by decide⟩

theorem blank_ne_nul (c : Char) (h : Blank c) : c ≠ '\x00' := by
  rcases h with rfl | rfl | rfl <;> decide

theorem spells_head (ts : List T) (s : List Char) (h : Spells ts s) : s.head? ≠ some '\x00' := by
  cases h with
  | nil w hw =>
    cases s with
    | nil => simp
    | cons c s => simpa using blank_ne_nul c (hw c (by simp))
  | cons w t ts s hw ht _ _ =>
    cases w with
    | nil =>
      obtain ⟨c, r, e, a, _⟩ := text_head t ht
      simpa [e] using a
    | cons c w => simpa using blank_ne_nul c (hw c (by simp))

theorem scan_blank (w s : List Char) (hne : w ≠ []) (hw : ∀ c ∈ w, Blank c)
    (hs : ∀ c, s.head? = some c → isWs c = false ∧ c ≠ '\x00') : scan (w ++ s) = (.ws, s) := by
  cases w with
  | nil => exact absurd rfl hne
  | cons c w =>
    have h1 := blank_ne_nul c (hw c (by simp))
    have h2 := (isWs_iff c).mpr (hw c (by simp))
    have := scanWhile_append isWs w s (fun d hd => (isWs_iff d).mpr (hw d (by simp [hd])))
      (fun d hd => blank_ne_nul d (hw d (by simp [hd]))) hs
    simp [scan, h1, h2, this]

theorem tokOf_facts (t : T) : tokOf t ≠ .ws ∧ tokOf t ≠ .eof ∧ tokOf t ≠ .failure := by
  cases t with
  | word k w => cases k <;> simp [tokOf]
  | _ => simp [tokOf]

theorem next_spells (t : T) (ts : List T) (text : List Char) (h : Spells (t :: ts) text) :
    ∃ s, next text = (tokOf t, s) ∧ Spells ts s ∧ s.length < text.length := by
  cases h with
  | cons w t ts s hw ht hm hs =>
    have h0 := spells_head ts s hs
    have hscan := scan_token t s ht hm h0
    obtain ⟨c, r, e, a, b⟩ := text_head t ht
    refine ⟨s, ?_, hs, by simp [e]; omega⟩
    by_cases hn : w = []
    · subst hn
      have := (tokOf_facts t).1
      unfold next
      rw [List.nil_append, hscan]
      split
      · rename_i r hr
        exact absurd (congrArg Prod.fst hr) this
      · rfl
    · have hb := scan_blank w (t.text ++ s) hn hw (by
        intro d hd
        simp [e] at hd
        subst hd
        exact ⟨b, a⟩)
      unfold next
      rw [List.append_assoc, hb]
      exact hscan

theorem next_spells_nil (text : List Char) (h : Spells [] text) : (next text).1 = .eof := by
  cases h with
  | nil w hw =>
    by_cases hn : text = []
    · subst hn; rfl
    · have hb := scan_blank text [] hn hw (by simp)
      rw [List.append_nil] at hb
      unfold next; rw [hb]; rfl

/-- No NUL and no underscore. -/
def Clean (cs : List Char) : Prop := '\x00' ∉ cs ∧ '_' ∉ cs

theorem Clean.tail {c : Char} {cs : List Char} (h : Clean (c :: cs)) : Clean cs :=
  ⟨fun m => h.1 (List.mem_cons_of_mem _ m), fun m => h.2 (List.mem_cons_of_mem _ m)⟩

theorem Clean.right {a b : List Char} (h : Clean (a ++ b)) : Clean b :=
  ⟨fun m => h.1 (List.mem_append_right _ m), fun m => h.2 (List.mem_append_right _ m)⟩

theorem wordTok_inv (w : List Char) :
    wordTok w = .failure ∨ ∃ k, w.map Char.toLower = k.name ∧ wordTok w = tokOf (.word k w) := by
  have e : w.map lower = w.map Char.toLower := List.map_congr_left (fun c _ => lower_eq c)
  unfold wordTok
  simp only [e]
  by_cases h1 : w.map Char.toLower = "nplurals".toList
  · right; exact ⟨.nplurals, h1, by rw [if_pos h1]; rfl⟩
  · by_cases h2 : w.map Char.toLower = "plural".toList
    · right; exact ⟨.plural, h2, by rw [if_neg h1, if_pos h2]; rfl⟩
    · by_cases h3 : w.map Char.toLower = "n".toList
      · right; exact ⟨.n, h3, by rw [if_neg h1, if_neg h2, if_pos h3]; rfl⟩
      · left; rw [if_neg h1, if_neg h2, if_neg h3]

theorem scanOp_inv (c : Char) (cs : List Char) :
    (scanOp c cs).1 = .failure ∨ ∃ t : T, t.WF ∧ NoMerge t (scanOp c cs).2 ∧
      c :: cs = t.text ++ (scanOp c cs).2 ∧ (scanOp c cs).1 = tokOf t := by
  have one : ∀ r : List Char, r.head? ≠ some '=' →
      oneChar c = .failure ∨ ∃ t : T, t.WF ∧ NoMerge t r ∧ c :: r = t.text ++ r ∧ oneChar c = tokOf t := by
    intro r hr
    by_cases h1 : c = '<'
    · subst h1; right; exact ⟨.bin .lt, trivial, hr, rfl, rfl⟩
    · by_cases h2 : c = '>'
      · subst h2; right; exact ⟨.bin .gt, trivial, hr, rfl, rfl⟩
      · by_cases h3 : c = '='
        · subst h3; right; exact ⟨.assign, trivial, hr, rfl, rfl⟩
        · left; simp [oneChar, h1, h2, h3]
  cases cs with
  | nil => exact one [] (by simp)
  | cons d ds =>
    by_cases h : (c = '!' ∧ d = '=') ∨ (c = '&' ∧ d = '&') ∨ (c = '=' ∧ d = '=') ∨
        (c = '|' ∧ d = '|') ∨ (c = '>' ∧ d = '=') ∨ (c = '<' ∧ d = '=')
    · right
      rcases h with ⟨rfl, rfl⟩ | ⟨rfl, rfl⟩ | ⟨rfl, rfl⟩ | ⟨rfl, rfl⟩ | ⟨rfl, rfl⟩ | ⟨rfl, rfl⟩
      · exact ⟨.bin .ne, trivial, trivial, rfl, rfl⟩
      · exact ⟨.bin .and, trivial, trivial, rfl, rfl⟩
      · exact ⟨.bin .eq, trivial, trivial, rfl, rfl⟩
      · exact ⟨.bin .or, trivial, trivial, rfl, rfl⟩
      · exact ⟨.bin .ge, trivial, trivial, rfl, rfl⟩
      · exact ⟨.bin .le, trivial, trivial, rfl, rfl⟩
    · simp only [not_or] at h
      have hn : twoChar c d = none := by simp [twoChar, h]
      have e : scanOp c (d :: ds) = (oneChar c, d :: ds) := by simp [scanOp, hn]
      rw [e]
      by_cases hd : d = '='
      · subst hd
        left
        simp at h
        simp [oneChar, h]
      · exact one (d :: ds) (by simpa using hd)

/-- What the scanner returns on a clean text. -/
theorem scan_inv (cs : List Char) (hc : Clean cs) :
    ((scan cs).1 = .eof ∧ cs = []) ∨ (scan cs).1 = .failure ∨
    ((scan cs).1 = .ws ∧ ∃ w, cs = w ++ (scan cs).2 ∧ (∀ c ∈ w, Blank c) ∧
      (∀ c, (scan cs).2.head? = some c → isWs c = false)) ∨
    ∃ t : T, t.WF ∧ NoMerge t (scan cs).2 ∧ cs = t.text ++ (scan cs).2 ∧ (scan cs).1 = tokOf t := by
  cases cs with
  | nil => left; exact ⟨rfl, rfl⟩
  | cons c cs =>
    have h0 : c ≠ '\x00' := fun e => hc.1 (by simp [e])
    have hr := hc.tail
    right
    by_cases hws : isWs c = true
    · right; left
      have e : scan (c :: cs) = (.ws, (scanWhile isWs cs).2) := by simp [scan, h0, hws]
      obtain ⟨a, b, d⟩ := scanWhile_inv isWs cs hr.1
      rw [e]
      refine ⟨rfl, c :: (scanWhile isWs cs).1, by simp [← a], ?_, d⟩
      intro x hx
      rcases List.mem_cons.mp hx with rfl | hx
      · exact (isWs_iff _).mp hws
      · exact (isWs_iff _).mp (b x hx)
    · by_cases hl : isLetter c = true
      · have e : scan (c :: cs) = (wordTok (c :: (scanWhile (fun d => isLetter d || d = '_') cs).1),
            (scanWhile (fun d => isLetter d || d = '_') cs).2) := by simp [scan, h0, hws, hl]
        obtain ⟨a, b, d⟩ := scanWhile_inv (fun d => isLetter d || d = '_') cs hr.1
        rw [e]
        rcases wordTok_inv (c :: (scanWhile (fun d => isLetter d || d = '_') cs).1) with hf | ⟨k, h1, h2⟩
        · left; exact hf
        · right; right
          refine ⟨.word k _, h1, ?_, ?_, h2⟩
          · intro x hx
            have := d x hx
            simp [isLetter_iff] at this
            simp [this]
          · simp [T.text, ← a]
      · by_cases hd : Model.PoPlural.isDigit c = true
        · have e : scan (c :: cs) = (.value (c :: (scanWhile (fun d => Model.PoPlural.isDigit d || d = '_') cs).1),
            (scanWhile (fun d => Model.PoPlural.isDigit d || d = '_') cs).2) := by simp [scan, h0, hws, hl, hd]
          obtain ⟨a, b, d⟩ := scanWhile_inv (fun d => Model.PoPlural.isDigit d || d = '_') cs hr.1
          rw [e]
          right; right
          refine ⟨.num _, ⟨by simp, ?_⟩, ?_, ?_, rfl⟩
          · intro x hx
            rcases List.mem_cons.mp hx with rfl | hx
            · exact hd
            · have h1 := b x hx
              have h2 : x ≠ '_' := by
                rintro rfl
                apply hr.2
                rw [a]; exact List.mem_append_left _ hx
              simp only [h2, decide_false, Bool.or_false] at h1
              exact h1
          · intro x hx
            have := d x hx
            simp [isDigit_iff] at this
            simp [this]
          · simp [T.text, ← a]
        · have hrest : (scan (c :: cs)) = if c = '%' then (.op .rem, cs)
              else if c = '?' then (.question, cs)
              else if c = ':' then (.colon, cs)
              else if c = ';' then (.semicolon, cs)
              else if c = '(' then (.lparen, cs)
              else if c = ')' then (.rparen, cs)
              else if c = '&' ∨ c = '!' ∨ c = '|' ∨ c = '<' ∨ c = '>' ∨ c = '=' then scanOp c cs
              else (.failure, cs) := by simp [scan, h0, hws, hl, hd]
          rw [hrest]
          by_cases h1 : c = '%'
          · subst h1; right; right; exact ⟨.bin .rem, trivial, trivial, rfl, rfl⟩
          rw [if_neg h1]
          by_cases h1 : c = '?'
          · subst h1; right; right; exact ⟨.quest, trivial, trivial, rfl, rfl⟩
          rw [if_neg h1]
          by_cases h1 : c = ':'
          · subst h1; right; right; exact ⟨.colon, trivial, trivial, rfl, rfl⟩
          rw [if_neg h1]
          by_cases h1 : c = ';'
          · subst h1; right; right; exact ⟨.semi, trivial, trivial, rfl, rfl⟩
          rw [if_neg h1]
          by_cases h1 : c = '('
          · subst h1; right; right; exact ⟨.lp, trivial, trivial, rfl, rfl⟩
          rw [if_neg h1]
          by_cases h1 : c = ')'
          · subst h1; right; right; exact ⟨.rp, trivial, trivial, rfl, rfl⟩
          rw [if_neg h1]
          by_cases h1 : c = '&' ∨ c = '!' ∨ c = '|' ∨ c = '<' ∨ c = '>' ∨ c = '='
          · rw [if_pos h1]
            rcases scanOp_inv c cs with h | h
            · left; exact h
            · right; right; exact h
          · rw [if_neg h1]; left; rfl

/-- What `next` returns on a clean text. -/
theorem next_inv (cs : List Char) (hc : Clean cs) :
    ((next cs).1 = .eof ∧ Spells [] cs) ∨ (next cs).1 = .failure ∨
    ∃ t : T, t.WF ∧ (next cs).1 = tokOf t ∧ Clean (next cs).2 ∧
      ∀ ts, Spells ts (next cs).2 → Spells (t :: ts) cs := by
  have case0 : ∀ (w r : List Char), (∀ c ∈ w, Blank c) → Clean r → (scan r).1 ≠ .ws →
      ((scan r).1 = .eof ∧ Spells [] (w ++ r)) ∨ (scan r).1 = .failure ∨
      ∃ t : T, t.WF ∧ (scan r).1 = tokOf t ∧ Clean (scan r).2 ∧
      ∀ ts, Spells ts (scan r).2 → Spells (t :: ts) (w ++ r) := by
    intro w r hw hr hn
    rcases scan_inv r hr with ⟨h1, h2⟩ | h | ⟨h, _⟩ | ⟨t, h1, h2, h3, h4⟩
    · left; refine ⟨h1, ?_⟩; subst h2; rw [List.append_nil]; exact .nil w hw
    · right; left; exact h
    · exact absurd h hn
    · right; right
      refine ⟨t, h1, h4, ?_, ?_⟩
      · rw [h3] at hr; exact hr.right
      · intro ts hts
        have := Spells.cons w t ts _ hw h1 h2 hts
        rw [List.append_assoc, ← h3] at this
        exact this
  by_cases hws : (scan cs).1 = .ws
  · have e : next cs = scan (scan cs).2 := by
      unfold next
      split
      · rename_i r hr; rw [hr]
      · rename_i hr; exact (hr (scan cs).2 (Prod.ext hws rfl)).elim
    rcases scan_inv cs hc with ⟨h1, h2⟩ | h | ⟨_, w, h1, h2, h3⟩ | ⟨t, _, _, _, h4⟩
    · simp [h1] at hws
    · simp [h] at hws
    · have hr : Clean (scan cs).2 := by rw [h1] at hc; exact hc.right
      have hn : (scan (scan cs).2).1 ≠ .ws := by
        intro hcon
        rcases scan_inv _ hr with ⟨g1, _⟩ | g | ⟨_, w', g1, g2, g3⟩ | ⟨t, _, _, _, g4⟩
        · simp [g1] at hcon
        · simp [g] at hcon
        · cases hsc : (scan cs).2 with
          | nil => rw [hsc] at hcon; simp [scan] at hcon
          | cons d ds =>
            have g := h3 d (by simp [hsc])
            have g0 : d ≠ '\x00' := by rintro rfl; exact hr.1 (by simp [hsc])
            rw [hsc] at hcon
            unfold scan at hcon
            simp only [if_neg g0, g, Bool.false_eq_true, if_false] at hcon
            split at hcon
            · rcases wordTok_inv (d :: (scanWhile (fun d => isLetter d || d = '_') ds).1) with hf | ⟨k, _, hk⟩
              · simp [hf] at hcon
              · simp only [hk] at hcon; exact (tokOf_facts _).1 hcon
            · repeat' split at hcon
              all_goals try (simp at hcon; done)
              rcases scanOp_inv d ds with hf | ⟨t, _, _, _, hk⟩
              · rw [hf] at hcon; cases hcon
              · rw [hk] at hcon; exact (tokOf_facts _).1 hcon
        · rw [g4] at hcon; exact (tokOf_facts t).1 hcon
      have := case0 w _ h2 hr hn
      rw [← h1, ← e] at this
      exact this
    · rw [h4] at hws; exact absurd hws (tokOf_facts t).1
  · have e : next cs = scan cs := by
      unfold next
      split
      · rename_i r hr; exact absurd (congrArg Prod.fst hr) hws
      · rfl
    have := case0 [] cs (by simp) hc hws
    rw [← e] at this
    exact this

/-! Scanning consumes input. -/

theorem scanOp_length (c : Char) (cs : List Char) : (scanOp c cs).2.length ≤ cs.length := by
  cases cs with
  | nil => simp [scanOp]
  | cons d ds =>
    simp only [scanOp]
    split <;> simp

theorem scan_length (cs : List Char) : (scan cs).2.length ≤ cs.length ∧
    ((scan cs).1 ≠ .eof → (scan cs).2.length < cs.length) := by
  cases cs with
  | nil => simp [scan]
  | cons c cs =>
    have : (scan (c :: cs)).2.length ≤ cs.length := by
      simp only [scan]
      repeat' split
      all_goals first
        | exact Nat.le_refl _
        | exact scanWhile_length _ _
        | exact scanOp_length _ _
    simp only [List.length_cons]
    omega

theorem next_length (cs : List Char) : (next cs).2.length ≤ cs.length ∧
    ((next cs).1 ≠ .eof → (next cs).2.length < cs.length) := by
  unfold next
  split
  · rename_i r hr
    have h1 := scan_length cs
    have h2 := scan_length r
    rw [hr] at h1
    simp at h1
    omega
  · exact scan_length cs

end Verif.Proofs.PoPlural
