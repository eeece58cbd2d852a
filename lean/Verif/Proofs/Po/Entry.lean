import Verif.Spec.PoEntry
import Verif.Proofs.Po.Parser
import Verif.Proofs.Po.Trim
/-!
# Reading of well-formed entries
-/
namespace Verif.Proofs.Po
open Verif.Go Verif.Model.PoString Verif.Spec.PoString Verif.Spec.PoEntry
open Verif.Model.Po hiding Field

/-! ## Quoted texts -/

theorem escapes_letter : ∀ p ∈ escapes, ∃ e, encodeRune p.1 = [e] ∧ ∃ x, unescapeLetter e = some x ∧
    encodeRune p.2 = [x] ∧ p.1.toNat ≠ 0x0a := by
  intro p hp
  simp only [escapes, List.mem_cons, List.not_mem_nil, or_false] at hp
  rcases hp with rfl | rfl | rfl | rfl | rfl | rfl | rfl | rfl | rfl | rfl | rfl
  all_goals exact ⟨_, rfl, _, rfl, by decide, by decide⟩

theorem utf8_cons (c : Char) (cs : List Char) : utf8 (c :: cs) = encodeRune c ++ utf8 cs := by
  unfold utf8; rw [List.flatMap_cons]

theorem utf8_append (a b : List Char) : utf8 (a ++ b) = utf8 a ++ utf8 b := by
  unfold utf8; rw [List.flatMap_append]

theorem unescLoop_means {cs ds : List Char} (h : Means cs ds) : ∀ f out, (utf8 cs).length ≤ f →
    unescLoop f (utf8 cs) out = some (out ++ utf8 ds) := by
  induction h with
  | nil => intro f out _; cases f <;> simp [unescLoop, utf8]
  | @plain c cs ds _ h2 _ _ ih =>
    intro f out hf
    rw [utf8_cons] at hf ⊢
    have := encodeRune_length_pos c
    rw [List.length_append] at hf
    match f with
    | 0 => omega
    | f + 1 =>
      rw [unescLoop_rune f c _ out (fun e => h2 (char_ext e)), ih f _ (by omega), utf8_cons]
      simp
  | @escape e c cs ds he _ ih =>
    intro f out hf
    obtain ⟨x, hx, y, hy, hc, _⟩ := escapes_letter _ he
    have h5c : encodeRune '\\' = [0x5c] := by decide
    simp only [utf8_cons, h5c, hx, hc, List.cons_append, List.nil_append, List.length_cons] at hf ⊢
    match f with
    | 0 => omega
    | f + 1 =>
      rw [unescLoop_cons, if_pos rfl]
      simp only [hy]
      rw [ih f _ (by omega)]
      simp

theorem means_no_newline {cs ds : List Char} (h : Means cs ds) : (0x0a : UInt8) ∉ utf8 cs := by
  have key : ∀ c : Char, c.toNat ≠ 0x0a → (0x0a : UInt8) ∉ encodeRune c := by
    intro c hc hm
    by_cases h1 : c.toNat < 0x80
    · rw [encodeRune_ascii c h1] at hm
      simp only [List.mem_singleton] at hm
      exact hc ((ofNat_eq_iff (k := 0x0a) (by omega) (by omega)).1 hm.symm)
    · have := encodeRune_multi c (by omega) _ hm
      simp at this
  induction h with
  | nil => simp [utf8]
  | @plain c cs ds _ _ h3 _ ih =>
    rw [utf8_cons, List.mem_append]
    rintro (h | h)
    · exact key c (fun e => h3 (char_ext e)) h
    · exact ih h
  | @escape e c cs ds he _ ih =>
    obtain ⟨x, hx, y, hy, hc, hn⟩ := escapes_letter _ he
    rw [utf8_cons, utf8_cons, List.mem_append, List.mem_append]
    rintro (h | h | h)
    · exact key '\\' (by decide) h
    · exact key e hn h
    · exact ih h

/-- A quoted text is decoded to its value, whatever stands before the quote. -/
theorem decode_quoted {q : Quoted} (h : Means q.body q.value) {pre : Bytes} (h1 : (0x22 : UInt8) ∉ pre)
    (h2 : (0x0a : UInt8) ∉ pre) : decode (pre ++ q.text) = .ok (utf8 q.value) := by
  rw [decode_ok]
  have hl := decodeLine_quoted (utf8 q.body).length (a := pre) (m := utf8 q.body) (b := []) h1 (by simp)
  have hu := unescapePoBytes_eq _ _ _ (unescLoop_means h (utf8 q.body).length [] (Nat.le_refl _))
  rw [hu] at hl
  have he : pre ++ [0x22] ++ utf8 q.body ++ [0x22] ++ [] = pre ++ q.text := by simp [Quoted.text]
  refine ⟨(utf8 q.body).length, ?_⟩
  unfold decodePoStringFuel
  by_cases ht : pre ++ q.text = b!"\"\""
  · rw [if_pos ht]
    rw [he, ht] at hl
    have : decodeLine (utf8 q.body).length b!"\"\"" = some [] := by
      rw [show b!"\"\"" = [] ++ [0x22] ++ [] ++ [0x22] ++ [] from rfl, decodeLine_quoted _ (by simp) (by simp)]
      rfl
    rw [this] at hl
    simpa using hl
  · rw [if_neg ht, splitByte_of_not_mem]
    · simp only [decodeLines]
      rw [← he, hl]
      simp
    · have := means_no_newline h
      simp [Quoted.text, h2, this]

theorem decode_text {q : Quoted} (h : Means q.body q.value) : decode q.text = .ok (utf8 q.value) :=
  decode_quoted (pre := []) h (by simp) (by simp)

theorem blank_isBlankByte {s : Bytes} (h : Blank s) : ∀ b ∈ s, isBlankByte b = true := by
  intro b hb
  rcases h b hb with rfl | rfl | rfl <;> decide

theorem blank_spaces {s : Bytes} (h : Blank s) : Spaces s := by
  refine ⟨s.map fun b => [b], ?_, ?_⟩
  · intro x hx
    obtain ⟨b, hb, rfl⟩ := List.mem_map.1 hx
    rcases h b hb with rfl | rfl | rfl <;> decide
  · induction s with
    | nil => rfl
    | cons b s ih => simp only [List.map_cons, List.flatten_cons]; rw [← ih (fun x hx => h x (List.mem_cons_of_mem _ hx))]; rfl

theorem dropWhile_blank {gap : Bytes} (h : Blank gap) {x : UInt8} (hx : isBlankByte x = false) (s : Bytes) :
    (gap ++ x :: s).dropWhile isBlankByte = x :: s := by
  induction gap with
  | nil => rw [List.nil_append, List.dropWhile_cons_of_neg (by simp [hx])]
  | cons b gap ih =>
    rw [List.cons_append, List.dropWhile_cons_of_pos (blank_isBlankByte h b List.mem_cons_self)]
    exact ih fun y hy => h y (List.mem_cons_of_mem _ hy)

theorem matchQuoted_text (q : Quoted) : matchQuoted q.text = true := by
  unfold Quoted.text
  simp only [matchQuoted]
  rw [List.reverse_append]
  rfl

theorem matchGap {gap : Bytes} (h : Blank gap) (q : Quoted) :
    matchBlanks1 matchQuoted (0x20 :: (gap ++ q.text)) = true := by
  have e : (gap ++ q.text).dropWhile isBlankByte = q.text := dropWhile_blank h (by decide) _
  simp only [matchBlanks1]
  rw [e, matchQuoted_text]
  rfl

theorem matchGap0 {gap : Bytes} (h : Blank gap) (q : Quoted) :
    matchBlanks matchQuoted (0x20 :: (gap ++ q.text)) = true := by
  have e : (0x20 :: (gap ++ q.text)).dropWhile isBlankByte = q.text := by
    rw [List.dropWhile_cons_of_pos (by decide)]
    exact dropWhile_blank h (by decide) _
  unfold matchBlanks
  rw [e, matchQuoted_text]

/-! ## Tokens of lines -/

theorem tokensFrom_line {ignore w : Bool} {last t : Token} {l x : Bytes} (hx : trimSpace l = x) (hne : x ≠ [])
    (ht : lineToken ignore last x = some t) (ls : List Bytes) :
    tokensFrom ignore w last (l :: ls) = (t, x) :: tokensFrom ignore false t ls := by
  rw [tokensFrom, if_neg (by unfold isBlankLine; rw [hx]; simpa using hne), hx, ht]

theorem tokensFrom_skip {ignore w : Bool} {last : Token} {l x : Bytes} (hx : trimSpace l = x) (hne : x ≠ [])
    (ht : lineToken ignore last x = none) (ls : List Bytes) :
    tokensFrom ignore w last (l :: ls) = tokensFrom ignore false last ls := by
  rw [tokensFrom, if_neg (by unfold isBlankLine; rw [hx]; simpa using hne), hx, ht]

theorem quoted_trim {q : Quoted} (h : q.WF) : trimSpace q.line = q.text := by
  unfold Quoted.line Quoted.text
  exact trimSpace_around (blank_spaces h.1) (blank_spaces h.2.1) (by decide) (by decide) _

theorem lineToken_quoted (ignore : Bool) (last : Token) (q : Quoted) (h : continuation last ≠ .none) :
    lineToken ignore last q.text = some (continuation last) := by
  have hm : scanMessage last q.text = continuation last := by
    have hr : reMsgLine q.text = true := by
      unfold reMsgLine matchBlanks
      rw [show q.text.dropWhile isBlankByte = q.text from List.dropWhile_cons_of_neg (by decide)]
      exact matchQuoted_text q
    have hl : q.text.getLast? = some 0x22 := by
      unfold Quoted.text
      rw [← List.cons_append, List.getLast?_append]
      rfl
    have h1 : hasPrefix q.text b!"msgid " = false := rfl
    have h2 : hasPrefix q.text b!"msgstr" = false := rfl
    have h3 : hasPrefix q.text b!"msgid_plural " = false := rfl
    have h4 : hasPrefix q.text b!"msgctxt " = false := rfl
    have h5 : hasPrefix q.text b!"\"" = true := rfl
    unfold scanMessage
    rw [if_neg (by simp [h1]), if_neg (by simp [h2]), if_neg (by simp [h3]), if_neg (by simp [h4]),
      if_pos ⟨h5, hl, hr⟩]
  unfold lineToken
  rw [if_neg (by unfold Quoted.text; simp), hm]
  split
  · contradiction
  · rfl

/-! ## Fields -/

/-- The tokens of a field with keyword `kw` and keyword token `t`. -/
def fieldToks (kw : Bytes) (t : Token) (f : Field) : List Tok :=
  (t, kw ++ (0x20 :: (f.gap ++ f.first.text))) :: f.rest.map fun q => (continuation t, q.text)

theorem tokens_rest (ignore : Bool) {t : Token} (hc : continuation t ≠ .none)
    (hcc : continuation (continuation t) = continuation t) (ls : List Bytes) (rest : List Quoted)
    (h : ∀ q ∈ rest, q.WF) : ∀ last, (last = t ∨ last = continuation t) → ∃ last',
      tokensFrom ignore false last (rest.map Quoted.line ++ ls) =
        rest.map (fun q => (continuation t, q.text)) ++ tokensFrom ignore false last' ls := by
  induction rest with
  | nil => intro last _; exact ⟨last, rfl⟩
  | cons q rest ih =>
    intro last hl
    obtain ⟨last', h'⟩ := ih (fun y hy => h y (List.mem_cons_of_mem _ hy)) (continuation t) (.inr rfl)
    refine ⟨last', ?_⟩
    have hcl : continuation last = continuation t := by rcases hl with rfl | rfl; rfl; exact hcc
    rw [List.map_cons, List.cons_append, tokensFrom_line (quoted_trim (h q List.mem_cons_self))
      (by simp [Quoted.text]) (lineToken_quoted ignore last q (by rw [hcl]; exact hc)), hcl, h']
    rfl

theorem tokens_field {ignore w : Bool} {last t : Token} {kw kw' : Bytes} {f : Field} (hf : f.WF) (hkw : kw = 0x6d :: kw')
    (hc : continuation t ≠ .none) (hcc : continuation (continuation t) = continuation t)
    (ht : lineToken ignore last (kw ++ (0x20 :: (f.gap ++ f.first.text))) = some t) (ls : List Bytes) :
    ∃ last', tokensFrom ignore w last (f.lines kw ++ ls) =
      fieldToks kw t f ++ tokensFrom ignore false last' ls := by
  obtain ⟨h1, h2, h3⟩ := hf
  obtain ⟨last', h'⟩ := tokens_rest ignore hc hcc ls f.rest h3 t (.inl rfl)
  refine ⟨last', ?_⟩
  have hx : trimSpace (f.first.indent ++ (kw ++ (0x20 :: (f.gap ++ f.first.text))) ++ f.first.trail) =
      kw ++ (0x20 :: (f.gap ++ f.first.text)) := by
    have e : kw ++ (0x20 :: (f.gap ++ f.first.text)) =
        0x6d :: ((kw' ++ (0x20 :: (f.gap ++ 0x22 :: utf8 f.first.body))) ++ [0x22]) := by
      simp [hkw, Quoted.text]
    rw [e]
    exact trimSpace_around (blank_spaces h2.1) (blank_spaces h2.2.1) (by decide) (by decide) _
  unfold Field.lines
  rw [List.cons_append, tokensFrom_line hx (by simp) ht, h']
  rfl

theorem blank_no_quote {s : Bytes} (h : Blank s) : (0x22 : UInt8) ∉ s := by
  intro hm; rcases h _ hm with e | e | e <;> exact absurd e (by decide)

theorem blank_no_newline {s : Bytes} (h : Blank s) : (0x0a : UInt8) ∉ s := by
  intro hm; rcases h _ hm with e | e | e <;> exact absurd e (by decide)

theorem decode_gap {f : Field} (hf : f.WF) : decode (f.gap ++ f.first.text) = .ok (utf8 f.first.value) :=
  decode_quoted hf.2.1.2.2 (blank_no_quote hf.1) (blank_no_newline hf.1)

/-! ### Classification of the keyword lines -/

theorem not_both {a : Bool} {p : Prop} (h : a = false) : ¬ (a = true ∧ p) := by simp [h]

theorem not_true {a : Bool} (h : a = false) : ¬ a = true := by simp [h]

theorem lineToken_context {ignore : Bool} {last : Token} {gap : Bytes} (h : Blank gap) (q : Quoted) :
    lineToken ignore last (b!"msgctxt" ++ (0x20 :: (gap ++ q.text))) = some .msgContext := by
  have hm : scanMessage last (b!"msgctxt" ++ (0x20 :: (gap ++ q.text))) = .msgContext := by
    have h1 : hasPrefix (b!"msgctxt" ++ (0x20 :: (gap ++ q.text))) b!"msgid " = false := rfl
    have h2 : hasPrefix (b!"msgctxt" ++ (0x20 :: (gap ++ q.text))) b!"msgstr" = false := rfl
    have h3 : hasPrefix (b!"msgctxt" ++ (0x20 :: (gap ++ q.text))) b!"msgid_plural " = false := rfl
    have h4 : hasPrefix (b!"msgctxt" ++ (0x20 :: (gap ++ q.text))) b!"msgctxt " = true := rfl
    have h5 : reMsgContext (b!"msgctxt" ++ (0x20 :: (gap ++ q.text))) = true := matchGap h q
    unfold scanMessage
    rw [if_neg (not_both h1), if_neg (not_true h2), if_neg (not_both h3), if_pos ⟨h4, h5⟩]
  unfold lineToken
  rw [if_neg (by simp), hm]

theorem lineToken_id {ignore : Bool} {last : Token} {gap : Bytes} (h : Blank gap) (q : Quoted) :
    lineToken ignore last (b!"msgid" ++ (0x20 :: (gap ++ q.text))) = some .msgID := by
  have hm : scanMessage last (b!"msgid" ++ (0x20 :: (gap ++ q.text))) = .msgID := by
    have h1 : hasPrefix (b!"msgid" ++ (0x20 :: (gap ++ q.text))) b!"msgid " = true := rfl
    have h5 : reMsgID (b!"msgid" ++ (0x20 :: (gap ++ q.text))) = true := matchGap h q
    unfold scanMessage
    rw [if_pos ⟨h1, h5⟩]
  unfold lineToken
  rw [if_neg (by simp), hm]

theorem lineToken_idPlural {ignore : Bool} {last : Token} {gap : Bytes} (h : Blank gap) (q : Quoted) :
    lineToken ignore last (b!"msgid_plural" ++ (0x20 :: (gap ++ q.text))) = some .msgIDPlural := by
  have hm : scanMessage last (b!"msgid_plural" ++ (0x20 :: (gap ++ q.text))) = .msgIDPlural := by
    have h1 : hasPrefix (b!"msgid_plural" ++ (0x20 :: (gap ++ q.text))) b!"msgid " = false := rfl
    have h2 : hasPrefix (b!"msgid_plural" ++ (0x20 :: (gap ++ q.text))) b!"msgstr" = false := rfl
    have h3 : hasPrefix (b!"msgid_plural" ++ (0x20 :: (gap ++ q.text))) b!"msgid_plural " = true := rfl
    have h5 : reMsgIDPlural (b!"msgid_plural" ++ (0x20 :: (gap ++ q.text))) = true := matchGap h q
    unfold scanMessage
    rw [if_neg (not_both h1), if_neg (not_true h2), if_pos ⟨h3, h5⟩]
  unfold lineToken
  rw [if_neg (by simp), hm]

theorem lineToken_str {ignore : Bool} {last : Token} {gap : Bytes} (h : Blank gap) (q : Quoted) :
    lineToken ignore last (b!"msgstr" ++ (0x20 :: (gap ++ q.text))) = some .msgStr := by
  have hm : scanMessage last (b!"msgstr" ++ (0x20 :: (gap ++ q.text))) = .msgStr := by
    have h1 : hasPrefix (b!"msgstr" ++ (0x20 :: (gap ++ q.text))) b!"msgid " = false := rfl
    have h2 : hasPrefix (b!"msgstr" ++ (0x20 :: (gap ++ q.text))) b!"msgstr" = true := rfl
    have h5 : reMsgStr (b!"msgstr" ++ (0x20 :: (gap ++ q.text))) = true := matchGap0 h q
    unfold scanMessage
    rw [if_neg (not_both h1), if_pos h2, if_pos (.inr h5)]
  unfold lineToken
  rw [if_neg (by simp), hm]

theorem dropWhile_digits {ds : Bytes} (h : ∀ d ∈ ds, isDigit d = true) {x : UInt8} (hx : isDigit x = false) (s : Bytes) :
    (ds ++ x :: s).dropWhile isDigit = x :: s := by
  induction ds with
  | nil => rw [List.nil_append, List.dropWhile_cons_of_neg (by simp [hx])]
  | cons b ds ih =>
    rw [List.cons_append, List.dropWhile_cons_of_pos (h b List.mem_cons_self)]
    exact ih fun y hy => h y (List.mem_cons_of_mem _ hy)

theorem lineToken_strPlural {ignore : Bool} {last : Token} {ds gap : Bytes} (hi : IndexOk ds) (h : Blank gap) (q : Quoted) :
    lineToken ignore last ((b!"msgstr[" ++ ds ++ b!"]") ++ (0x20 :: (gap ++ q.text))) = some .msgStrPlural := by
  obtain ⟨hne, hd, _⟩ := hi
  match ds, hne with
  | d :: ds, _ =>
    have e : (b!"msgstr[" ++ (d :: ds) ++ b!"]") ++ (0x20 :: (gap ++ q.text)) =
        b!"msgstr[" ++ (d :: (ds ++ 0x5d :: (0x20 :: (gap ++ q.text)))) := by simp
    rw [e]
    generalize hy : (0x20 :: (gap ++ q.text)) = y
    have hm : scanMessage last (b!"msgstr[" ++ (d :: (ds ++ 0x5d :: y))) = .msgStrPlural := by
      have h1 : hasPrefix (b!"msgstr[" ++ (d :: (ds ++ 0x5d :: y))) b!"msgid " = false := rfl
      have h2 : hasPrefix (b!"msgstr[" ++ (d :: (ds ++ 0x5d :: y))) b!"msgstr" = true := rfl
      have h4 : reMsgStr (b!"msgstr[" ++ (d :: (ds ++ 0x5d :: y))) = false := rfl
      have h6 : ¬ b!"msgstr[" ++ (d :: (ds ++ 0x5d :: y)) = b!"msgstr \"\"" := by simp
      have h5 : reMsgStrPlural (b!"msgstr[" ++ (d :: (ds ++ 0x5d :: y))) = true := by
        have a : reMsgStrPlural (b!"msgstr[" ++ (d :: (ds ++ 0x5d :: y))) =
          (isDigit d && match (ds ++ 0x5d :: y).dropWhile isDigit with
            | 0x5d :: r => matchBlanks matchQuoted r
            | _ => false) := rfl
        rw [a, hd d List.mem_cons_self, dropWhile_digits (fun x hx => hd x (List.mem_cons_of_mem _ hx)) (by decide),
          ← hy]
        exact matchGap0 h q
      unfold scanMessage
      rw [if_neg (not_both h1), if_pos h2, if_neg (not_or.2 ⟨h6, not_true h4⟩), if_pos h5]
    unfold lineToken
    rw [if_neg (by simp), hm]

/-! ### The effect on the message -/

theorem messageLoop_step {m m' : Message} {tok : Token} {lit : Bytes} {ts : List Tok} (he : tok.endsMessage = false)
    (hs : messageStep m tok lit = .ok m') : messageLoop m ((tok, lit) :: ts) = messageLoop m' ts := by
  rw [messageLoop, he, hs]; rfl

theorem value_cons (a : List Char) (q : Quoted) (rest : List Quoted) :
    utf8 a ++ utf8 q.value ++ utf8 (rest.flatMap Quoted.value) =
      utf8 a ++ utf8 ((q :: rest).flatMap Quoted.value) := by
  rw [List.flatMap_cons, utf8_append, List.append_assoc]

theorem rest_context (R : List Tok) (rest : List Quoted) (h : ∀ q ∈ rest, q.WF) : ∀ m : Message,
    messageLoop m (rest.map (fun q => (Token.msgContextLine, q.text)) ++ R) =
      messageLoop { m with context := m.context ++ utf8 (rest.flatMap Quoted.value) } R := by
  induction rest with
  | nil => intro m; simp [utf8]
  | cons q rest ih =>
    intro m
    rw [List.map_cons, List.cons_append, messageLoop_step (m' := { m with context := m.context ++ utf8 q.value }) rfl,
      ih (fun y hy => h y (List.mem_cons_of_mem _ hy)), List.flatMap_cons, utf8_append, List.append_assoc]
    simp only [messageStep, decode_text (h q List.mem_cons_self).2.2, Res.bind]

theorem rest_id (R : List Tok) (rest : List Quoted) (h : ∀ q ∈ rest, q.WF) : ∀ m : Message,
    messageLoop m (rest.map (fun q => (Token.msgIDLine, q.text)) ++ R) =
      messageLoop { m with id := m.id ++ utf8 (rest.flatMap Quoted.value) } R := by
  induction rest with
  | nil => intro m; simp [utf8]
  | cons q rest ih =>
    intro m
    rw [List.map_cons, List.cons_append, messageLoop_step (m' := { m with id := m.id ++ utf8 q.value }) rfl,
      ih (fun y hy => h y (List.mem_cons_of_mem _ hy)), List.flatMap_cons, utf8_append, List.append_assoc]
    simp only [messageStep, decode_text (h q List.mem_cons_self).2.2, Res.bind]

theorem rest_idPlural (R : List Tok) (rest : List Quoted) (h : ∀ q ∈ rest, q.WF) : ∀ m : Message,
    messageLoop m (rest.map (fun q => (Token.msgIDPluralLine, q.text)) ++ R) =
      messageLoop { m with idPlural := m.idPlural ++ utf8 (rest.flatMap Quoted.value) } R := by
  induction rest with
  | nil => intro m; simp [utf8]
  | cons q rest ih =>
    intro m
    rw [List.map_cons, List.cons_append, messageLoop_step (m' := { m with idPlural := m.idPlural ++ utf8 q.value }) rfl,
      ih (fun y hy => h y (List.mem_cons_of_mem _ hy)), List.flatMap_cons, utf8_append, List.append_assoc]
    simp only [messageStep, decode_text (h q List.mem_cons_self).2.2, Res.bind]

theorem set_fresh {str : GoMap Int Bytes} {k : Int} (h : k ∉ str.keys) (v : Bytes) : str.set k v = str ++ [(k, v)] := by
  induction str with
  | nil => rfl
  | cons p str ih =>
    obtain ⟨a, b⟩ := p
    rw [GoMap.keys_cons, List.mem_cons, not_or] at h
    rw [GoMap.set, if_neg (fun e => h.1 e.symm), ih h.2]
    rfl

theorem set_last {str : GoMap Int Bytes} {k : Int} (h : k ∉ str.keys) (v v' : Bytes) :
    GoMap.set (str ++ [(k, v)]) k v' = str ++ [(k, v')] := by
  induction str with
  | nil => simp [GoMap.set]
  | cons p str ih =>
    obtain ⟨a, b⟩ := p
    rw [GoMap.keys_cons, List.mem_cons, not_or] at h
    rw [List.cons_append, GoMap.set, if_neg (fun e => h.1 e.symm), ih h.2]
    rfl

theorem strAt_last {str : GoMap Int Bytes} {k : Int} (h : k ∉ str.keys) (v : Bytes) :
    strAt (str ++ [(k, v)]) k = v := by
  unfold strAt
  induction str with
  | nil => simp [GoMap.get?]
  | cons p str ih =>
    obtain ⟨a, b⟩ := p
    rw [GoMap.keys_cons, List.mem_cons, not_or] at h
    rw [List.cons_append, GoMap.get?, if_neg (fun e => h.1 e.symm), ih h.2]

theorem set_set (m : GoMap Int Bytes) (k : Int) (v w : Bytes) : (m.set k v).set k w = m.set k w := by
  induction m with
  | nil => simp [GoMap.set]
  | cons p m ih =>
    obtain ⟨a, b⟩ := p
    simp only [GoMap.set]
    split
    · simp [GoMap.set]
    · rename_i h
      rw [GoMap.set, if_neg h, ih]

theorem rest_str (R : List Tok) (str : GoMap Int Bytes) (rest : List Quoted) (h : ∀ q ∈ rest, q.WF) :
    ∀ (m : Message) (v : Bytes),
    messageLoop { m with str := str.set 0 v } (rest.map (fun q => (Token.msgStrLine, q.text)) ++ R) =
      messageLoop { m with str := str.set 0 (v ++ utf8 (rest.flatMap Quoted.value)) } R := by
  induction rest with
  | nil => intro m v; simp [utf8]
  | cons q rest ih =>
    intro m v
    rw [List.map_cons, List.cons_append,
      messageLoop_step (m' := { m with str := str.set 0 (v ++ utf8 q.value) }) rfl,
      ih (fun y hy => h y (List.mem_cons_of_mem _ hy)), List.flatMap_cons, utf8_append, List.append_assoc]
    simp only [messageStep, decode_text (h q List.mem_cons_self).2.2, Res.bind]
    rw [set_set]
    have : strAt (str.set 0 v) 0 = v := by unfold strAt; rw [GoMap.get?_set, if_pos rfl]; rfl
    rw [this]

theorem field_context {f : Field} (hf : f.WF) (m : Message) (R : List Tok) :
    messageLoop m (fieldToks b!"msgctxt" .msgContext f ++ R) = messageLoop { m with context := f.value } R := by
  unfold fieldToks
  rw [List.cons_append, messageLoop_step (m' := { m with context := utf8 f.first.value }) rfl]
  · show messageLoop _ (f.rest.map (fun q => (Token.msgContextLine, q.text)) ++ R) = _
    rw [rest_context R f.rest hf.2.2, ← utf8_append]
    rfl
  · have : from? 8 (b!"msgctxt" ++ (0x20 :: (f.gap ++ f.first.text))) = .ok (f.gap ++ f.first.text) := by
      unfold from?; rw [if_pos (by simp)]; rfl
    simp only [messageStep, this, Res.bind, decode_gap hf]

theorem field_id {f : Field} (hf : f.WF) (m : Message) (R : List Tok) :
    messageLoop m (fieldToks b!"msgid" .msgID f ++ R) = messageLoop { m with id := f.value } R := by
  unfold fieldToks
  rw [List.cons_append, messageLoop_step (m' := { m with id := utf8 f.first.value }) rfl]
  · show messageLoop _ (f.rest.map (fun q => (Token.msgIDLine, q.text)) ++ R) = _
    rw [rest_id R f.rest hf.2.2, ← utf8_append]
    rfl
  · have : from? 6 (b!"msgid" ++ (0x20 :: (f.gap ++ f.first.text))) = .ok (f.gap ++ f.first.text) := by
      unfold from?; rw [if_pos (by simp)]; rfl
    simp only [messageStep, this, Res.bind, decode_gap hf]

theorem field_idPlural {f : Field} (hf : f.WF) (m : Message) (R : List Tok) :
    messageLoop m (fieldToks b!"msgid_plural" .msgIDPlural f ++ R) = messageLoop { m with idPlural := f.value } R := by
  unfold fieldToks
  rw [List.cons_append, messageLoop_step (m' := { m with idPlural := utf8 f.first.value }) rfl]
  · show messageLoop _ (f.rest.map (fun q => (Token.msgIDPluralLine, q.text)) ++ R) = _
    rw [rest_idPlural R f.rest hf.2.2, ← utf8_append]
    rfl
  · have : from? 13 (b!"msgid_plural" ++ (0x20 :: (f.gap ++ f.first.text))) = .ok (f.gap ++ f.first.text) := by
      unfold from?; rw [if_pos (by simp)]; rfl
    simp only [messageStep, this, Res.bind, decode_gap hf]

theorem field_str {f : Field} (hf : f.WF) (m : Message) (R : List Tok) :
    messageLoop m (fieldToks b!"msgstr" .msgStr f ++ R) = messageLoop { m with str := m.str.set 0 f.value } R := by
  unfold fieldToks
  rw [List.cons_append, messageLoop_step (m' := { m with str := m.str.set 0 (utf8 f.first.value) }) rfl]
  · show messageLoop _ (f.rest.map (fun q => (Token.msgStrLine, q.text)) ++ R) = _
    rw [rest_str R m.str f.rest hf.2.2, ← utf8_append]
    rfl
  · have : from? 7 (b!"msgstr" ++ (0x20 :: (f.gap ++ f.first.text))) = .ok (f.gap ++ f.first.text) := by
      unfold from?; rw [if_pos (by simp)]; rfl
    simp only [messageStep, this, Res.bind, decode_gap hf]

theorem digit_bounds {d : UInt8} (h : isDigit d = true) : 48 ≤ d.toNat ∧ d.toNat ≤ 57 := by
  unfold isDigit at h; simpa using h

theorem atoi_index {ds : Bytes} (h : IndexOk ds) : atoi ds = some (digitsValue ds : Int) := by
  obtain ⟨hne, hd, hv⟩ := h
  have hall : ds.all isDigit = true := by simpa using hd
  have e : atoi ds = atoiDigits false ds := by
    unfold atoi
    split
    · exact absurd (hd _ List.mem_cons_self) (by decide)
    · exact absurd (hd _ List.mem_cons_self) (by decide)
    · rfl
  rw [e]
  unfold atoiDigits
  rw [if_pos ⟨hne, hall⟩]
  simp only [Bool.false_eq_true, if_false]
  rw [if_pos (by omega)]

/-- The first line of `msgstr[i]`. -/
theorem step_strPlural {f : Field} (hf : f.WF) {ds : Bytes} (hi : IndexOk ds) (m : Message) :
    messageStep m .msgStrPlural ((b!"msgstr[" ++ ds ++ b!"]") ++ (0x20 :: (f.gap ++ f.first.text))) =
      .ok { m with str := m.str.set (digitsValue ds : Int) (utf8 f.first.value) } := by
  have hd5 : (0x5d : UInt8) ∉ ds := fun hm => absurd (hi.2.1 _ hm) (by decide)
  have hlen : 0 < ds.length := List.length_pos_iff.2 hi.1
  have el : (b!"msgstr[" ++ ds ++ b!"]") ++ (0x20 :: (f.gap ++ f.first.text)) =
      (b!"msgstr[" ++ ds) ++ 0x5d :: (0x20 :: (f.gap ++ f.first.text)) := by simp
  have i1 : indexByte? 0x5b ((b!"msgstr[" ++ ds ++ b!"]") ++ (0x20 :: (f.gap ++ f.first.text))) = some 6 := rfl
  have i2 : indexByte? 0x5d ((b!"msgstr[" ++ ds ++ b!"]") ++ (0x20 :: (f.gap ++ f.first.text))) =
      some (7 + ds.length) := by
    rw [el, indexByte?_first]
    · simp; omega
    · simp [hd5]
  have hs : slice ((b!"msgstr[" ++ ds ++ b!"]") ++ (0x20 :: (f.gap ++ f.first.text))) (6 + 1) (7 + ds.length) = ds := by
    rw [el]
    unfold slice
    rw [List.take_append_of_le_length (by simp; omega), List.take_of_length_le (by simp; omega)]
    rfl
  have hfrom : ∃ pre, from? 10 ((b!"msgstr[" ++ ds ++ b!"]") ++ (0x20 :: (f.gap ++ f.first.text))) =
      .ok (pre ++ f.first.text) ∧ (0x22 : UInt8) ∉ pre ∧ (0x0a : UInt8) ∉ pre := by
    have e2 : (b!"msgstr[" ++ ds ++ b!"]") ++ (0x20 :: (f.gap ++ f.first.text)) =
      ((b!"msgstr[" ++ ds ++ b!"]") ++ (0x20 :: f.gap)) ++ f.first.text := by simp
    refine ⟨((b!"msgstr[" ++ ds ++ b!"]") ++ (0x20 :: f.gap)).drop 10, ?_, ?_, ?_⟩
    · unfold from?
      rw [if_pos (by simp; omega), e2, List.drop_append_of_le_length (by simp; omega)]
    · intro hm
      have := List.mem_of_mem_drop hm
      simp only [List.mem_append, List.mem_cons] at this
      have hq : (0x22 : UInt8) ∉ ds := fun hm => absurd (hi.2.1 _ hm) (by decide)
      have := blank_no_quote hf.1
      simp_all
    · intro hm
      have := List.mem_of_mem_drop hm
      simp only [List.mem_append, List.mem_cons] at this
      have hq : (0x0a : UInt8) ∉ ds := fun hm => absurd (hi.2.1 _ hm) (by decide)
      have := blank_no_newline hf.1
      simp_all
  obtain ⟨pre, hf1, hf2, hf3⟩ := hfrom
  simp only [messageStep, pluralStep, i1, i2, hs, atoi_index hi, hf1, Res.bind, decode_quoted hf.2.1.2.2 hf2 hf3]
  rw [if_pos (by omega)]

end Verif.Proofs.Po
