import Verif.Model.Po.Parser
import Verif.Proofs.PoString
import Verif.Proofs.Bytes
/-!
# Lemmas about the PO scanner and parser: tokens, locality, panics
-/
namespace Verif.Proofs.Po
open Verif.Go Verif.Model.Po Verif.Model.PoString Verif.Spec.PoString

/-! ## `Res` -/

theorem bind_assoc {α β γ : Type} (r : Res α) (k : α → Res β) (l : β → Res γ) :
    (r.bind k).bind l = r.bind fun a => (k a).bind l := by
  cases r <;> rfl

theorem bind_ok {α : Type} (r : Res α) : r.bind .ok = r := by cases r <;> rfl

theorem bind_eq_ok {α β : Type} {r : Res α} {k : α → Res β} {b : β} :
    r.bind k = .ok b ↔ ∃ a, r = .ok a ∧ k a = .ok b := by
  cases r <;> simp [Res.bind]

theorem bind_eq_eof {α β : Type} {r : Res α} {k : α → Res β} :
    r.bind k = .eof ↔ r = .eof ∨ ∃ a, r = .ok a ∧ k a = .eof := by
  cases r <;> simp [Res.bind]

theorem bind_eq_panic {α β : Type} {r : Res α} {k : α → Res β} :
    r.bind k = .panic ↔ r = .panic ∨ ∃ a, r = .ok a ∧ k a = .panic := by
  cases r <;> simp [Res.bind]

theorem bind_eq_hang {α β : Type} {r : Res α} {k : α → Res β} :
    r.bind k = .hang ↔ r = .hang ∨ ∃ a, r = .ok a ∧ k a = .hang := by
  cases r <;> simp [Res.bind]

/-! ## Decoding -/

theorem decodeLine_enough {l : Bytes} {f : Nat} {r : Bytes} (h : decodeLine f l = some r) {g : Nat}
    (hg : l.length ≤ g) : decodeLine g l = some r := by
  rcases line_cases l with hl | ⟨a, b, e, h1, h2⟩ | ⟨a, m, b, e, h1, h2⟩
  · rw [decodeLine_none_quote g hl]; rw [decodeLine_none_quote f hl] at h; exact h
  · subst e; rw [decodeLine_one_quote g h1 h2]; rw [decodeLine_one_quote f h1 h2] at h; exact h
  · have hst : escState false m = false := by
      cases hs : escState false m with
      | false => rfl
      | true =>
        exact absurd ⟨a, m, b, e, h1, h2, (escState_iff m).1 hs⟩ ((decodeLine_returns_iff l).1 ⟨f, r, h⟩)
    obtain ⟨r', hr⟩ := unescLoop_returns m.length m [] (Nat.le_refl _) hst
    have hg' : decodeLine g l = some r' := by
      rw [e, decodeLine_quoted _ h1 h2]
      refine unescapePoBytes_mono (f := m.length) ?_ (unescapePoBytes_eq _ _ _ hr)
      rw [e] at hg; simp at hg; omega
    have a1 := decodeLine_mono (Nat.le_max_left f g) h
    have a2 := decodeLine_mono (Nat.le_max_right f g) hg'
    rw [a1] at a2
    rw [hg', ← a2]

theorem decodeLines_enough : ∀ {ls : List Bytes} {f : Nat} {rs : List Bytes}, decodeLines f ls = some rs →
    ∀ {g : Nat}, (∀ l ∈ ls, l.length ≤ g) → decodeLines g ls = some rs := by
  intro ls
  induction ls with
  | nil => intro f rs h g _; exact h
  | cons l ls ih =>
    intro f rs h g hg
    unfold decodeLines at h ⊢
    cases h1 : decodeLine f l with
    | none => rw [h1] at h; simp at h
    | some x =>
      rw [h1] at h
      simp only at h
      cases h2 : decodeLines f ls with
      | none => rw [h2] at h; simp at h
      | some xs =>
        rw [h2] at h
        rw [decodeLine_enough h1 (hg l List.mem_cons_self), ih h2 (fun y hy => hg y (List.mem_cons_of_mem _ hy))]
        exact h

theorem splitByte_length (sep : UInt8) (s : Bytes) : ∀ l ∈ splitByte sep s, l.length ≤ s.length := by
  induction s with
  | nil => intro l hl; simp [splitByte] at hl; simp [hl]
  | cons c cs ih =>
    intro l hl
    unfold splitByte at hl
    split at hl
    · rcases List.mem_cons.1 hl with e | hl
      · simp [e]
      · have := ih l hl; simp; omega
    · split at hl
      · simp at hl; simp [hl]
      · rename_i l' ls he
        rw [he] at ih
        rcases List.mem_cons.1 hl with e | hl
        · have := ih l' List.mem_cons_self; simp [e]; omega
        · have := ih l (List.mem_cons_of_mem _ hl); simp; omega

/-- `decode` is `DecodePoString`: it gives the result if there is one … -/
theorem decode_ok (t r : Bytes) : decode t = .ok r ↔ Decodes t r := by
  unfold decode
  constructor
  · intro h
    cases hd : decodePoStringFuel t.length t with
    | none => rw [hd] at h; cases h
    | some x => rw [hd] at h; cases h; exact ⟨_, hd⟩
  · rintro ⟨f, h⟩
    have : decodePoStringFuel t.length t = some r := by
      unfold decodePoStringFuel at h ⊢
      split at h
      · rename_i e; rw [if_pos e]; exact h
      · rename_i e
        rw [if_neg e]
        cases hd : decodeLines f (splitByte 0x0a t) with
        | none => rw [hd] at h; cases h
        | some rs => rw [hd] at h; rw [decodeLines_enough hd (splitByte_length _ _)]; exact h
    rw [this]

/-- … and `hang` if the decoder does not return. -/
theorem decode_hang (t : Bytes) : decode t = .hang ↔ DecodeHangs t := by
  constructor
  · intro h f
    cases hd : decodePoStringFuel f t with
    | none => rfl
    | some r => rw [(decode_ok t r).2 ⟨f, hd⟩] at h; cases h
  · intro h; unfold decode; rw [h t.length]

/-! ## Tokens -/

theorem tokensFrom_ws (ignore : Bool) (last : Token) (ls : List Bytes) :
    tokensFrom ignore true last ls = tokensFrom ignore false last (ls.dropWhile isBlankLine) := by
  induction ls with
  | nil => rfl
  | cons l ls ih =>
    by_cases h : isBlankLine l = true
    · rw [List.dropWhile_cons_of_pos h, ← ih, tokensFrom, if_pos h, if_pos rfl]
    · rw [List.dropWhile_cons_of_neg h, tokensFrom, tokensFrom, if_neg h, if_neg h]

/-- The token list is what repeated calls of `scan` deliver. -/
theorem tokens_scan (ignore : Bool) (last : Token) (ls : List Bytes) :
    tokensFrom ignore false last ls = match scan ignore last ls with
      | (.eof, _, _) => []
      | (t, lit, rest) => (t, lit) :: tokensFrom ignore false t rest := by
  induction ls with
  | nil => rfl
  | cons l ls ih =>
    rw [tokensFrom, scan]
    by_cases h : isBlankLine l = true
    · rw [if_pos h, if_pos h, if_neg (by simp), tokensFrom_ws]
    · rw [if_neg h, if_neg h]
      cases ht : lineToken ignore last (trimSpace l) with
      | none => exact ih
      | some t =>
        have : t ≠ .eof := by
          rintro rfl
          unfold lineToken at ht
          split at ht
          · unfold scanComment at ht
            repeat' split at ht
            all_goals first | cases ht | skip
            injection ht with ht
            unfold commentToken prevContinuation at ht
            repeat' split at ht
            all_goals cases ht
          · revert ht
            unfold scanMessage continuation
            repeat' split
            all_goals simp
        cases t <;> first | rfl | exact absurd rfl this

/-! ## Consuming tokens -/

theorem decode_ne_eof (t : Bytes) : decode t ≠ .eof := by unfold decode; split <;> simp
theorem decode_ne_error (t : Bytes) (e : ParseError) : decode t ≠ .error e := by unfold decode; split <;> simp
theorem decode_ne_panic (t : Bytes) : decode t ≠ .panic := by unfold decode; split <;> simp
theorem from?_ne_eof (k : Nat) (t : Bytes) : from? k t ≠ .eof := by unfold from?; split <;> simp

theorem commentStep_ne_eof (c : Comment) (t : Token) (lit : Bytes) : commentStep c t lit ≠ .eof := by
  unfold commentStep decodePrev
  split <;> simp [bind_eq_eof, from?_ne_eof] <;> intros <;> (try split) <;>
    simp [bind_eq_eof, decode_ne_eof]

theorem messageStep_ne_eof (m : Message) (t : Token) (lit : Bytes) : messageStep m t lit ≠ .eof := by
  unfold messageStep pluralStep
  repeat' split
  all_goals simp [bind_eq_eof, from?_ne_eof, decode_ne_eof]

theorem messageLoop_ne_eof (ts : List Tok) : ∀ m, messageLoop m ts ≠ .eof := by
  induction ts with
  | nil => intro m; simp [messageLoop]
  | cons t ts ih =>
    intro m
    obtain ⟨tok, lit⟩ := t
    rw [messageLoop]
    split
    · simp
    · simp [bind_eq_eof, messageStep_ne_eof, ih]

theorem messageLoop_length {ts : List Tok} : ∀ {m m' : Message} {r : List Tok},
    messageLoop m ts = .ok (m', r) → r.length ≤ ts.length ∧ (ts ≠ [] → r.length < ts.length) := by
  induction ts with
  | nil => intro m m' r h; simp [messageLoop] at h; simp [h.2]
  | cons t ts ih =>
    intro m m' r h
    obtain ⟨tok, lit⟩ := t
    rw [messageLoop] at h
    split at h
    · cases h; simp
    · obtain ⟨a, _, h2⟩ := bind_eq_ok.1 h
      have := ih h2
      simp; omega

theorem parseComment_length {ts : List Tok} : ∀ {c c' : Comment} {r : List Tok},
    parseComment c ts = .ok (c', r) → r.length ≤ ts.length ∧ r ≠ [] := by
  induction ts with
  | nil => intro c c' r h; cases h
  | cons t ts ih =>
    intro c c' r h
    obtain ⟨tok, lit⟩ := t
    rw [parseComment] at h
    split at h
    · cases h
    · split at h
      · obtain ⟨a, _, h2⟩ := bind_eq_ok.1 h
        have := ih h2
        simp; exact ⟨by omega, this.2⟩
      · cases h; simp

theorem parseMessage_length {ts r : List Tok} {m : Message} (h : parseMessage ts = .ok (m, r)) :
    r.length < ts.length := by
  match ts, h with
  | (tok, lit) :: ts, h =>
    rw [parseMessage] at h
    split at h
    · obtain ⟨⟨c, r'⟩, h1, h2⟩ := bind_eq_ok.1 h
      have a := parseComment_length h1
      have b := (messageLoop_length h2).2 a.2
      omega
    · exact (messageLoop_length h).2 (by simp)

/-! ## The loop of `parseFile` -/

theorem fileLoop_enough (u : Unicode) : ∀ (f g : Nat) (st : PState) (ts : List Tok), ts.length < f → ts.length < g →
    fileLoop u f st ts = fileLoop u g st ts := by
  intro f
  induction f with
  | zero => intro g st ts h; omega
  | succ f ih =>
    intro g st ts hf hg
    match g with
    | g + 1 =>
      rw [fileLoop, fileLoop]
      cases h : parseMessage ts with
      | ok p =>
        obtain ⟨m, r⟩ := p
        have := parseMessage_length h
        simp only
        cases hs : store u st m with
        | ok st' => exact ih g st' r (by omega) (by omega)
        | _ => rfl
      | _ => rfl

/-- The loop with enough iterations. -/
def loop (u : Unicode) (st : PState) (ts : List Tok) : Res PState := fileLoop u (ts.length + 1) st ts

theorem loop_eq (u : Unicode) (st : PState) (ts : List Tok) : loop u st ts =
    match parseMessage ts with
    | .eof => .ok st
    | .error e => .error e
    | .panic => .panic
    | .hang => .hang
    | .ok (m, rest) => (store u st m).bind fun st => loop u st rest := by
  unfold loop
  rw [fileLoop]
  cases h : parseMessage ts with
  | ok p =>
    obtain ⟨m, r⟩ := p
    have := parseMessage_length h
    simp only
    cases hs : store u st m with
    | ok st' => exact fileLoop_enough u _ _ _ _ (by omega) (by omega)
    | _ => rfl
  | _ => rfl

theorem loop_nil (u : Unicode) (st : PState) : loop u st [] = .ok st := rfl

/-! ## Locality -/

/-- The token of a blank line. -/
abbrev ws : Tok := (.whitespace, [])

theorem messageLoop_ws (A B : List Tok) : ∀ m,
    match messageLoop m A with
    | .ok (m', r) => messageLoop m (A ++ ws :: B) = .ok (m', r ++ ws :: B) ∨
        (r = [] ∧ messageLoop m (A ++ ws :: B) = .ok (m', B))
    | e => messageLoop m (A ++ ws :: B) = e := by
  induction A with
  | nil => intro m; right; exact ⟨rfl, rfl⟩
  | cons t A ih =>
    intro m
    obtain ⟨tok, lit⟩ := t
    simp only [List.cons_append, messageLoop]
    by_cases h : tok.endsMessage = true
    · rw [if_pos h, if_pos h]; left; rfl
    · rw [if_neg h, if_neg h]
      cases hs : messageStep m tok lit with
      | ok a => exact ih a
      | _ => rfl

theorem parseComment_ws (A B : List Tok) : ∀ c,
    match parseComment c A with
    | .ok (c', r) => parseComment c (A ++ ws :: B) = .ok (c', r ++ ws :: B)
    | .eof => ∃ c', parseComment c (A ++ ws :: B) = .ok (c', ws :: B)
    | e => parseComment c (A ++ ws :: B) = e := by
  induction A with
  | nil => intro c; exact ⟨c, rfl⟩
  | cons t A ih =>
    intro c
    obtain ⟨tok, lit⟩ := t
    simp only [List.cons_append, parseComment]
    by_cases h : tok = .failure
    · rw [if_pos h, if_pos h]
    · rw [if_neg h, if_neg h]
      by_cases h2 : tok.isComment = true
      · rw [if_pos h2, if_pos h2]
        cases hs : commentStep c tok lit with
        | ok a => exact ih a
        | eof => exact absurd hs (commentStep_ne_eof _ _ _)
        | _ => rfl
      · rw [if_neg h2, if_neg h2]; rfl

theorem parseMessage_ws (A B : List Tok) :
    match parseMessage A with
    | .ok (m', r) => parseMessage (A ++ ws :: B) = .ok (m', r ++ ws :: B) ∨
        (r = [] ∧ parseMessage (A ++ ws :: B) = .ok (m', B))
    | .eof => ∃ m', parseMessage (A ++ ws :: B) = .ok (m', B) ∧ m'.id = [] ∧ m'.str = []
    | e => parseMessage (A ++ ws :: B) = e := by
  match A with
  | [] => exact ⟨.new, rfl, rfl, rfl⟩
  | (tok, lit) :: A =>
    rw [List.cons_append, parseMessage, parseMessage]
    by_cases h : tok.isComment = true
    · rw [if_pos h, if_pos h]
      have hc := parseComment_ws ((tok, lit) :: A) B .new
      cases hp : parseComment .new ((tok, lit) :: A) with
      | ok p =>
        obtain ⟨c, r⟩ := p
        rw [hp] at hc
        simp only [List.cons_append] at hc
        rw [hc]
        simp only [Res.bind]
        have := messageLoop_ws r B { Message.new with comment := some c }
        cases hm : messageLoop { Message.new with comment := some c } r with
        | eof => exact absurd hm (messageLoop_ne_eof _ _)
        | _ => rw [hm] at this; exact this
      | eof =>
        rw [hp] at hc
        obtain ⟨c, hc⟩ := hc
        rw [List.cons_append] at hc
        rw [hc]
        exact ⟨_, rfl, rfl, rfl⟩
      | _ =>
        rw [hp] at hc
        simp only [List.cons_append] at hc
        rw [hc]
        rfl
    · rw [if_neg h, if_neg h]
      have := messageLoop_ws ((tok, lit) :: A) B .new
      cases hp : messageLoop .new ((tok, lit) :: A) with
      | eof => exact absurd hp (messageLoop_ne_eof _ _)
      | _ => rw [hp] at this; exact this

theorem store_empty (u : Unicode) (st : PState) (m : Message) (h1 : m.id = []) (h2 : m.str = []) :
    store u st m = .ok st := by
  unfold store; rw [if_pos h1, if_pos h2]

/-- A blank line separates: what follows it is read as if it stood alone, on top of what has been stored. -/
theorem loop_ws (u : Unicode) (B : List Tok) : ∀ (n : Nat) (A : List Tok), A.length ≤ n → ∀ st,
    loop u st (A ++ ws :: B) = (loop u st A).bind fun st => loop u st B := by
  intro n
  induction n with
  | zero =>
    intro A hA st
    have : A = [] := List.length_eq_zero_iff.1 (by omega)
    subst this
    rw [List.nil_append, loop_eq]
    rfl
  | succ n ih =>
    intro A hA st
    rw [loop_eq, loop_eq u st A]
    have h := parseMessage_ws A B
    cases hp : parseMessage A with
    | ok p =>
      obtain ⟨m, r⟩ := p
      have hl := parseMessage_length hp
      rw [hp] at h
      rcases h with h | ⟨hr, h⟩
      · rw [h]
        simp only
        rw [bind_assoc]
        congr 1
        funext st'
        exact ih r (by omega) st'
      · rw [h]
        subst hr
        simp only
        rw [bind_assoc]
        rfl
    | eof =>
      rw [hp] at h
      obtain ⟨m, h, h1, h2⟩ := h
      rw [h]
      simp only
      rw [store_empty u st m h1 h2]
    | _ => rw [hp] at h; rw [h]; rfl

theorem loop_ws_cons (u : Unicode) (st : PState) (B : List Tok) : loop u st (ws :: B) = loop u st B :=
  loop_ws u B 0 [] (Nat.le_refl _) st

/-! ## Locality of the scanner -/

theorem lineToken_fresh (ignore : Bool) (l : Bytes) : lineToken ignore .whitespace l = lineToken ignore .eof l := rfl

theorem tokensFrom_fresh (ignore w : Bool) (ls : List Bytes) :
    tokensFrom ignore w .whitespace ls = tokensFrom ignore w .eof ls := by
  induction ls generalizing w with
  | nil => rfl
  | cons l ls ih =>
    rw [tokensFrom, tokensFrom, lineToken_fresh]
    split
    · split
      · exact ih _
      · rfl
    · split
      · exact ih _
      · rfl

theorem loop_tokens_ws (u : Unicode) (ignore : Bool) (st : PState) (ls : List Bytes) :
    loop u st (tokensFrom ignore true .whitespace ls) = loop u st (tokens ignore ls) := by
  unfold tokens
  rw [tokensFrom_fresh]
  match ls with
  | [] => rfl
  | l :: ls =>
    rw [tokensFrom, tokensFrom]
    split
    · rw [if_pos rfl, if_neg (by simp), loop_ws_cons, tokensFrom_fresh]
    · rfl

theorem tokensFrom_blank (ignore w : Bool) (last : Token) {b : Bytes} (hb : isBlankLine b = true) (ls : List Bytes) :
    tokensFrom ignore w last (b :: ls) =
      if w then tokensFrom ignore true last ls else ws :: tokensFrom ignore true .whitespace ls := by
  rw [tokensFrom, if_pos hb]

theorem tokensFrom_append (ignore : Bool) (b : Bytes) (M : List Bytes) (hb : isBlankLine b = true) (L : List Bytes) :
    ∀ w last, (w = true → last = .whitespace) →
    (tokensFrom ignore w last (L ++ b :: M) = tokensFrom ignore w last L ++ ws :: tokensFrom ignore true .whitespace M) ∨
    (tokensFrom ignore w last (L ++ b :: M) = tokensFrom ignore w last L ++ tokensFrom ignore true .whitespace M ∧
      ((∃ A, tokensFrom ignore w last L = A ++ [ws]) ∨ (w = true ∧ tokensFrom ignore w last L = []))) := by
  induction L with
  | nil =>
    intro w last h
    cases w with
    | true =>
      right
      rw [h rfl]
      refine ⟨?_, .inr ⟨rfl, rfl⟩⟩
      rw [List.nil_append, tokensFrom_blank _ _ _ hb, if_pos rfl]
      rfl
    | false =>
      left
      rw [List.nil_append, tokensFrom_blank _ _ _ hb, if_neg (by simp)]
      rfl
  | cons l L ih =>
    intro w last h
    rw [List.cons_append, tokensFrom, tokensFrom]
    by_cases hl : isBlankLine l = true
    · rw [if_pos hl, if_pos hl]
      cases w with
      | true =>
        rw [if_pos rfl, if_pos rfl]
        exact ih true last h
      | false =>
        rw [if_neg (by simp), if_neg (by simp)]
        rcases ih true .whitespace (fun _ => rfl) with e | ⟨e, ⟨A, hA⟩ | ⟨_, hA⟩⟩
        · left; rw [e]; rfl
        · right; rw [e]; exact ⟨rfl, .inl ⟨ws :: A, by rw [hA]; rfl⟩⟩
        · right; rw [e]; exact ⟨rfl, .inl ⟨[], by rw [hA]; rfl⟩⟩
    · rw [if_neg hl, if_neg hl]
      cases ht : lineToken ignore last (trimSpace l) with
      | none =>
        rcases ih false last (by simp) with e | ⟨e, ⟨A, hA⟩ | ⟨hw, _⟩⟩
        · left; exact e
        · right; exact ⟨e, .inl ⟨A, hA⟩⟩
        · cases hw
      | some t =>
        rcases ih false t (by simp) with e | ⟨e, ⟨A, hA⟩ | ⟨hw, _⟩⟩
        · left; simp only; rw [e]; rfl
        · right; simp only; rw [e]; exact ⟨rfl, .inl ⟨(t, trimSpace l) :: A, by rw [hA]; rfl⟩⟩
        · cases hw

/-- The loop of the parser over some lines. -/
def run (u : Unicode) (ignore : Bool) (st : PState) (ls : List Bytes) : Res PState := loop u st (tokens ignore ls)

/-- The text before a blank line and the text after it are read one after the other. -/
theorem run_blank (u : Unicode) (ignore : Bool) (st : PState) (L M : List Bytes) (b : Bytes)
    (hb : isBlankLine b = true) :
    run u ignore st (L ++ b :: M) = (run u ignore st L).bind fun st => run u ignore st M := by
  unfold run
  rcases tokensFrom_append ignore b M hb L false .eof (by simp) with e | ⟨e, ⟨A, hA⟩ | ⟨hw, _⟩⟩
  · unfold tokens
    rw [e, loop_ws u _ _ _ (Nat.le_refl _)]
    congr 1
    funext st'
    exact loop_tokens_ws u ignore st' M
  · unfold tokens
    rw [e, hA, List.append_assoc, List.singleton_append, loop_ws u _ _ _ (Nat.le_refl _),
      loop_ws u [] _ _ (Nat.le_refl _), bind_assoc]
    congr 1
    funext st'
    exact loop_tokens_ws u ignore st' M
  · cases hw

theorem run_nil (u : Unicode) (ignore : Bool) (st : PState) : run u ignore st [] = .ok st := rfl

theorem run_blank_cons (u : Unicode) (ignore : Bool) (st : PState) (M : List Bytes) (b : Bytes)
    (hb : isBlankLine b = true) : run u ignore st (b :: M) = run u ignore st M :=
  run_blank u ignore st [] M b hb

theorem parseLines_run (u : Unicode) (ignore : Bool) (ls : List Bytes) :
    parseLines u ignore ls = (run u ignore ⟨none, []⟩ ls).bind finish := by
  unfold parseLines run
  cases h : tokens ignore ls with
  | nil => rfl
  | cons t ts => rfl

end Verif.Proofs.Po
