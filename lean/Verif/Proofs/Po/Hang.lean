import Verif.Proofs.Po.Blocks
import Verif.Spec.PoHang
/-!
# When the PO parser does not return: tokens
-/
namespace Verif.Proofs.Po
open Verif.Go Verif.Model.PoString Verif.Spec.PoString Verif.Spec.PoEntry
open Verif.Model.Po hiding Field

/-- The last token. -/
def lastTok (d : Token) (ts : List Tok) : Token := (ts.getLast?.map (·.1)).getD d

theorem lastTok_nil (d : Token) : lastTok d [] = d := rfl

theorem lastTok_cons (d : Token) (t : Tok) (ts : List Tok) : lastTok d (t :: ts) = lastTok t.1 ts := by
  unfold lastTok
  rw [List.getLast?_cons]
  cases h : ts.getLast? <;> rfl

theorem lastTok_append (d : Token) (a b : List Tok) : lastTok d (a ++ b) = lastTok (lastTok d a) b := by
  induction a generalizing d with
  | nil => rfl
  | cons t a ih => rw [List.cons_append, lastTok_cons, ih, lastTok_cons]

theorem lastTok_indep {ts : List Tok} (h : ts ≠ []) (d d' : Token) : lastTok d ts = lastTok d' ts := by
  match ts, h with
  | t :: ts, _ => rw [lastTok_cons, lastTok_cons]

/-- A token of a message. -/
def Token.inMessage (t : Token) : Bool := continuation t ≠ .none

theorem inMessage_not_ends {t : Token} (h : Token.inMessage t = true) : t.endsMessage = false := by
  cases t <;> first | rfl | cases h

/-! ## Steps -/

theorem messageStep_ok {m m' : Message} {t : Token} {lit : Bytes} (h : messageStep m t lit = .ok m') :
    Token.inMessage t = true ∧ (m.str ≠ [] → m'.str ≠ []) ∧ (t = .msgStrPlural ∨ t = .msgStrPluralLine → m'.str ≠ []) := by
  have hset : ∀ (s : GoMap Int Bytes) i v, s.set i v ≠ [] := by
    intro s i v
    cases s with
    | nil => simp [GoMap.set]
    | cons p s => unfold GoMap.set; split <;> simp
  cases t <;> simp only [messageStep] at h
  all_goals first | cases h | skip
  case msgStrPlural =>
    unfold pluralStep at h
    split at h
    · split at h
      · split at h
        · cases h
        · obtain ⟨l, _, h⟩ := bind_eq_ok.1 h
          obtain ⟨r, _, h⟩ := bind_eq_ok.1 h
          cases h
          exact ⟨rfl, fun _ => hset _ _ _, fun _ => hset _ _ _⟩
      · cases h
    · cases h
  case msgStrPluralLine =>
    split at h
    · cases h
    · obtain ⟨r, _, h⟩ := bind_eq_ok.1 h
      cases h
      exact ⟨rfl, fun _ => hset _ _ _, fun _ => hset _ _ _⟩
  case msgContextLine | msgIDLine | msgIDPluralLine =>
    obtain ⟨r, _, h⟩ := bind_eq_ok.1 h
    cases h
    exact ⟨rfl, fun h => h, by simp⟩
  case msgStrLine =>
    obtain ⟨r, _, h⟩ := bind_eq_ok.1 h
    cases h
    exact ⟨rfl, fun _ => hset _ _ _, by simp⟩
  case msgStr =>
    obtain ⟨l, _, h⟩ := bind_eq_ok.1 h
    obtain ⟨r, _, h⟩ := bind_eq_ok.1 h
    cases h
    exact ⟨rfl, fun _ => hset _ _ _, by simp⟩
  all_goals
    obtain ⟨l, _, h⟩ := bind_eq_ok.1 h
    obtain ⟨r, _, h⟩ := bind_eq_ok.1 h
    cases h
    exact ⟨rfl, fun h => h, by simp⟩

/-- Whether a step succeeds depends on whether there is a translation, and not on anything else. -/
theorem messageStep_mono {m m1 m2 : Message} {t : Token} {lit : Bytes} (h : messageStep m t lit = .ok m1)
    (hs : m.str ≠ [] → m2.str ≠ []) : ∃ m3, messageStep m2 t lit = .ok m3 ∧ (m1.str ≠ [] → m3.str ≠ []) := by
  have hset : ∀ (s : GoMap Int Bytes) i v, s.set i v ≠ [] := by
    intro s i v
    cases s with
    | nil => simp [GoMap.set]
    | cons p s => unfold GoMap.set; split <;> simp
  cases t <;> simp only [messageStep] at h ⊢
  all_goals first | cases h | skip
  case msgStrPlural =>
    unfold pluralStep at h ⊢
    split at h
    · split at h
      · rename_i hle
        split at h
        · cases h
        · obtain ⟨l, h1, h⟩ := bind_eq_ok.1 h
          obtain ⟨r, h2, h⟩ := bind_eq_ok.1 h
          simp only [if_pos hle, h1, Res.bind, h2]
          exact ⟨_, rfl, fun _ => hset _ _ _⟩
      · cases h
    · cases h
  case msgStrPluralLine =>
    split at h
    · cases h
    · rename_i hl
      obtain ⟨r, h1, h⟩ := bind_eq_ok.1 h
      cases h
      have : m2.str.length ≠ 0 := by
        have : m.str ≠ [] := by intro e; rw [e] at hl; exact hl rfl
        have := hs this
        intro e
        exact this (List.length_eq_zero_iff.1 e)
      rw [if_neg this, h1]
      exact ⟨_, rfl, fun _ => hset _ _ _⟩
  case msgContextLine | msgIDLine | msgIDPluralLine =>
    obtain ⟨r, h1, h⟩ := bind_eq_ok.1 h
    cases h
    rw [h1]
    exact ⟨_, rfl, hs⟩
  case msgStrLine =>
    obtain ⟨r, h1, h⟩ := bind_eq_ok.1 h
    rw [h1]
    exact ⟨_, rfl, fun _ => hset _ _ _⟩
  case msgStr =>
    obtain ⟨l, h1, h⟩ := bind_eq_ok.1 h
    obtain ⟨r, h2, h⟩ := bind_eq_ok.1 h
    simp only [h1, Res.bind, h2]
    exact ⟨_, rfl, fun _ => hset _ _ _⟩
  all_goals
    obtain ⟨l, h1, h⟩ := bind_eq_ok.1 h
    obtain ⟨r, h2, h⟩ := bind_eq_ok.1 h
    cases h
    simp only [h1, Res.bind, h2]
    exact ⟨_, rfl, hs⟩

theorem messageLoop_mono : ∀ (ts : List Tok) {m m1 m2 : Message}, (∀ t ∈ ts, t.1.endsMessage = false) →
    messageLoop m ts = .ok (m1, []) → (m.str ≠ [] → m2.str ≠ []) →
    ∃ m3, (∀ TB, messageLoop m2 (ts ++ TB) = messageLoop m3 TB) ∧ (m1.str ≠ [] → m3.str ≠ []) := by
  intro ts
  induction ts with
  | nil => intro m m1 m2 _ h hs; simp only [messageLoop] at h; cases h; exact ⟨m2, fun _ => rfl, hs⟩
  | cons t ts ih =>
    intro m m1 m2 hn h hs
    obtain ⟨tok, lit⟩ := t
    have he : tok.endsMessage = false := hn _ List.mem_cons_self
    rw [messageLoop, if_neg (by simp [he])] at h
    obtain ⟨a, h1, h2⟩ := bind_eq_ok.1 h
    obtain ⟨b, h3, h4⟩ := messageStep_mono h1 hs
    obtain ⟨c, h5, h6⟩ := ih (fun t ht => hn t (List.mem_cons_of_mem _ ht)) h2 h4
    refine ⟨c, fun TB => ?_, h6⟩
    rw [List.cons_append, messageLoop, if_neg (by simp [he]), h3]
    exact h5 TB

/-- A message ends with a token that ends messages, or with the last token. -/
theorem messageLoop_open : ∀ (ts : List Tok) {m m' : Message} {r : List Tok}, messageLoop m ts = .ok (m', r) →
    (∃ pre e, ts = pre ++ e :: r ∧ e.1.endsMessage = true ∧ ∀ TB, messageLoop m (pre ++ e :: TB) = .ok (m', TB)) ∨
    (r = [] ∧ (∀ t ∈ ts, Token.inMessage t.1 = true) ∧ (∀ TB, messageLoop m (ts ++ TB) = messageLoop m' TB) ∧
      (m.str ≠ [] → m'.str ≠ []) ∧
      (lastTok .eof ts = .msgStrPlural ∨ lastTok .eof ts = .msgStrPluralLine → m'.str ≠ [])) := by
  intro ts
  induction ts with
  | nil => intro m m' r h; simp only [messageLoop] at h; cases h; exact .inr ⟨rfl, by simp, fun _ => rfl, id, by simp [lastTok]⟩
  | cons t ts ih =>
    intro m m' r h
    obtain ⟨tok, lit⟩ := t
    rw [messageLoop] at h
    by_cases he : tok.endsMessage = true
    · rw [if_pos he] at h
      cases h
      exact .inl ⟨[], (tok, lit), rfl, he, fun TB => by rw [List.nil_append, messageLoop, if_pos he]⟩
    · rw [if_neg he] at h
      obtain ⟨a, h1, h2⟩ := bind_eq_ok.1 h
      obtain ⟨k1, k2, k3⟩ := messageStep_ok h1
      rcases ih h2 with ⟨pre, e, rfl, hee, hT⟩ | ⟨rfl, hin, hT, hs, hl⟩
      · exact .inl ⟨(tok, lit) :: pre, e, rfl, hee, fun TB => by
          rw [List.cons_append, messageLoop, if_neg he, h1]; exact hT TB⟩
      · refine .inr ⟨rfl, ?_, fun TB => by rw [List.cons_append, messageLoop, if_neg he, h1]; exact hT TB,
          fun h => hs (k2 h), ?_⟩
        · intro t ht
          rcases List.mem_cons.1 ht with rfl | ht
          · exact k1
          · exact hin t ht
        · rw [lastTok_cons]
          cases ts with
          | nil => exact fun h => hs (k3 h)
          | cons x ts => rw [lastTok_indep (by simp) tok .eof]; exact hl

/-- A comment at the end of the file. -/
theorem parseComment_open : ∀ (ts : List Tok) {c : Comment}, parseComment c ts = .eof →
    (∀ t ∈ ts, t.1.isComment = true) ∧ ∃ c', ∀ TB, parseComment c (ts ++ TB) = parseComment c' TB := by
  intro ts
  induction ts with
  | nil => intro c _; exact ⟨by simp, c, fun _ => rfl⟩
  | cons t ts ih =>
    intro c h
    obtain ⟨tok, lit⟩ := t
    rw [parseComment] at h
    split at h
    · cases h
    · rename_i hf
      split at h
      · rename_i hc
        rcases bind_eq_eof.1 h with h | ⟨a, h1, h2⟩
        · exact absurd h (commentStep_ne_eof _ _ _)
        · obtain ⟨i1, c', i2⟩ := ih h2
          refine ⟨?_, c', fun TB => ?_⟩
          · intro t ht
            rcases List.mem_cons.1 ht with rfl | ht
            · exact hc
            · exact i1 t ht
          · rw [List.cons_append, parseComment, if_neg hf, if_pos hc, h1]; exact i2 TB
      · cases h

theorem parseComment_append : ∀ (ts : List Tok) {c c' : Comment} {r : List Tok}, parseComment c ts = .ok (c', r) →
    ∃ C x r', r = x :: r' ∧ ts = C ++ r ∧ (∀ t ∈ C, t.1.isComment = true) ∧ x.1.isComment = false ∧ parseComment c C = .eof ∧
      ∀ TB, parseComment c (C ++ x :: TB) = .ok (c', x :: TB) := by
  intro ts
  induction ts with
  | nil => intro c c' r h; cases h
  | cons t ts ih =>
    intro c c' r h
    obtain ⟨tok, lit⟩ := t
    rw [parseComment] at h
    split at h
    · cases h
    · rename_i hf
      split at h
      · rename_i hc
        obtain ⟨a, h1, h2⟩ := bind_eq_ok.1 h
        obtain ⟨C, x, r', e, rfl, hC, hh, hE, hT⟩ := ih h2
        refine ⟨(tok, lit) :: C, x, r', e, rfl, ?_, hh, ?_, fun TB => ?_⟩
        · intro t ht
          rcases List.mem_cons.1 ht with rfl | ht
          · exact hc
          · exact hC t ht
        · rw [parseComment, if_neg hf, if_pos hc, h1]; exact hE
        · rw [List.cons_append, parseComment, if_neg hf, if_pos hc, h1]; exact hT TB
      · rename_i hc
        cases h
        exact ⟨[], (tok, lit), ts, rfl, rfl, by simp, by simpa using hc, rfl, fun TB => by
          rw [List.nil_append, parseComment, if_neg hf, if_neg hc]⟩

/-! ## Open ends -/

/-- The loop within a comment. -/
def inComment (u : Unicode) (st : PState) (c : Comment) (ts : List Tok) : Res PState :=
  match parseComment c ts with
  | .eof => .ok st
  | .error e => .error e
  | .panic => .panic
  | .hang => .hang
  | .ok (c, ts) => cont u st { Message.new with comment := some c } ts

theorem cont_eq (u : Unicode) (st : PState) (m : Message) (ts : List Tok) : cont u st m ts =
    match messageLoop m ts with
    | .eof => .ok st
    | .error e => .error e
    | .panic => .panic
    | .hang => .hang
    | .ok (m, rest) => (store u st m).bind fun st => loop u st rest := by
  unfold cont
  cases h : messageLoop m ts with
  | eof => exact absurd h (messageLoop_ne_eof _ _)
  | _ => rfl

theorem loop_start (u : Unicode) (st : PState) {tok : Token} (lit : Bytes) (ts : List Tok) (h : tok.isComment = false) :
    loop u st ((tok, lit) :: ts) = cont u st .new ((tok, lit) :: ts) := by
  rw [loop_eq, cont_eq, parseMessage, if_neg (by simp [h])]
  cases messageLoop .new ((tok, lit) :: ts) <;> rfl

theorem loop_comment (u : Unicode) (st : PState) {tok : Token} (lit : Bytes) (ts : List Tok) (h : tok.isComment = true) :
    loop u st ((tok, lit) :: ts) = inComment u st .new ((tok, lit) :: ts) := by
  rw [loop_eq, parseMessage, if_pos h]
  unfold inComment
  cases hp : parseComment .new ((tok, lit) :: ts) with
  | ok p =>
    obtain ⟨c, r⟩ := p
    simp only [cont_eq]
    change (match messageLoop { Message.new with comment := some c } r with
      | .eof => Res.ok st
      | .error e => .error e
      | .panic => .panic
      | .hang => .hang
      | .ok (m, rest) => (store u st m).bind fun st => loop u st rest) = _
    cases messageLoop { Message.new with comment := some c } r <;> rfl
  | _ => rfl

/-- The state of the parser after tokens that are accepted: within a message, between messages, or in a comment. -/
theorem loop_open (u : Unicode) : ∀ (n : Nat) (TA : List Tok), TA.length ≤ n → ∀ {st st1 : PState}, loop u st TA = .ok st1 →
    (∃ m st', Token.inMessage (lastTok .eof TA) = true ∧
      (lastTok .eof TA = .msgStrPlural ∨ lastTok .eof TA = .msgStrPluralLine → m.str ≠ []) ∧
      ∀ TB, loop u st (TA ++ TB) = cont u st' m TB) ∨
    ((TA = [] ∨ (lastTok .eof TA).endsMessage = true) ∧ ∃ st',
      ((∀ TB, loop u st (TA ++ TB) = loop u st' TB) ∨ ∃ c, ∀ TB, loop u st (TA ++ TB) = inComment u st' c TB)) := by
  intro n
  induction n with
  | zero =>
    intro TA hn st st1 _
    have : TA = [] := List.length_eq_zero_iff.1 (by omega)
    subst this
    exact .inr ⟨.inl rfl, st, .inl fun _ => rfl⟩
  | succ n ih =>
    intro TA hn st st1 h
    match TA, hn, h with
    | [], _, _ => exact .inr ⟨.inl rfl, st, .inl fun _ => rfl⟩
    | (tok, lit) :: TA, hn, h =>
      -- the messages after the first one
      have step : ∀ {m : Message} {X C : List Tok}, (tok, lit) :: TA = C ++ X → cont u st m X = .ok st1 →
          (X ≠ []) → (∀ TB, loop u st ((tok, lit) :: TA ++ TB) = cont u st m (X ++ TB)) →
          (∃ m st', Token.inMessage (lastTok .eof ((tok, lit) :: TA)) = true ∧
            (lastTok .eof ((tok, lit) :: TA) = .msgStrPlural ∨ lastTok .eof ((tok, lit) :: TA) = .msgStrPluralLine → m.str ≠ []) ∧
            ∀ TB, loop u st ((tok, lit) :: TA ++ TB) = cont u st' m TB) ∨
          (((tok, lit) :: TA = [] ∨ (lastTok .eof ((tok, lit) :: TA)).endsMessage = true) ∧ ∃ st',
            ((∀ TB, loop u st ((tok, lit) :: TA ++ TB) = loop u st' TB) ∨
              ∃ c, ∀ TB, loop u st ((tok, lit) :: TA ++ TB) = inComment u st' c TB)) := by
        intro m X C hX hc hne hT
        unfold cont at hc
        obtain ⟨⟨m', r⟩, h1, h2⟩ := bind_eq_ok.1 hc
        simp only at h2
        have hlast : lastTok .eof ((tok, lit) :: TA) = lastTok .eof X := by
          rw [hX, lastTok_append, lastTok_indep hne]
        rcases messageLoop_open X h1 with ⟨pre, e, hpre, hee, hTB⟩ | ⟨hr, hin, hTB, _, hl⟩
        · obtain ⟨st2, h3, h4⟩ := bind_eq_ok.1 h2
          have hlen : r.length ≤ n := by
            have : ((tok, lit) :: TA).length = C.length + (pre.length + (r.length + 1)) := by rw [hX, hpre]; simp
            omega
          have hL : ∀ TB, loop u st ((tok, lit) :: TA ++ TB) = loop u st2 (r ++ TB) := by
            intro TB
            rw [hT, cont, hpre, List.append_assoc, List.cons_append, hTB]
            simp only [Res.bind, h3]
          have hlast2 : lastTok .eof X = lastTok e.1 r := by rw [hpre, lastTok_append, lastTok_cons]
          by_cases hr : r = []
          · subst hr
            refine .inr ⟨.inr (by rw [hlast, hlast2]; exact hee), st2, .inl ?_⟩
            exact hL
          · rw [hlast, hlast2, lastTok_indep hr e.1 .eof]
            rcases ih r hlen h4 with ⟨m, st', a, b, c⟩ | ⟨a, st', c⟩
            · exact .inl ⟨m, st', a, b, fun TB => by rw [hL, c]⟩
            · refine .inr ⟨.inr (a.resolve_left hr), st', ?_⟩
              rcases c with c | ⟨k, c⟩
              · exact .inl fun TB => by rw [hL, c]
              · exact .inr ⟨k, fun TB => by rw [hL, c]⟩
        · refine .inl ⟨m', st, ?_, by rw [hlast]; exact hl, fun TB => by rw [hT, cont, hTB]; rfl⟩
          rw [hlast]
          unfold lastTok
          cases hg : X.getLast? with
          | none => exact absurd (List.getLast?_eq_none_iff.1 hg) hne
          | some x => exact hin x (List.mem_of_getLast? hg)
      by_cases hc : tok.isComment = true
      · have hLC : ∀ TB, loop u st ((tok, lit) :: TA ++ TB) = inComment u st .new ((tok, lit) :: TA ++ TB) :=
          fun TB => loop_comment u st lit (TA ++ TB) hc
        have h' := h
        rw [loop_comment u st lit TA hc, inComment] at h'
        cases hp : parseComment .new ((tok, lit) :: TA) with
        | eof =>
          obtain ⟨a, c, b⟩ := parseComment_open _ hp
          refine .inr ⟨.inr ?_, st, .inr ⟨c, fun TB => by rw [hLC, inComment, b]; rfl⟩⟩
          unfold lastTok
          cases hg : ((tok, lit) :: TA).getLast? with
          | none => simp at hg
          | some x =>
            have := a x (List.mem_of_getLast? hg)
            simp [Token.endsMessage, this]
        | ok p =>
          obtain ⟨c, r⟩ := p
          rw [hp] at h'
          obtain ⟨C, x, r', rfl, e, hC, hh, _, hTB⟩ := parseComment_append _ hp
          exact step e h' (by simp) fun TB => by rw [hLC, inComment, e, List.append_assoc, List.cons_append, hTB]
        | _ => rw [hp] at h'; cases h'
      · have hc : tok.isComment = false := by simpa using hc
        rw [loop_start u st lit TA hc] at h
        exact step (C := []) rfl h (by simp) fun TB => loop_start u st lit (TA ++ TB) hc

/-- What the parser has read when it does not return. -/
theorem messageLoop_hang : ∀ (ts : List Tok) {m : Message}, messageLoop m ts = .hang →
    ∃ TP t R m', ts = TP ++ t :: R ∧ (∀ x ∈ TP, Token.inMessage x.1 = true) ∧ messageLoop m TP = .ok (m', []) ∧
      t.1.endsMessage = false ∧ messageStep m' t.1 t.2 = .hang := by
  intro ts
  induction ts with
  | nil => intro m h; cases h
  | cons t ts ih =>
    intro m h
    obtain ⟨tok, lit⟩ := t
    rw [messageLoop] at h
    split at h
    · cases h
    · rename_i he
      rcases bind_eq_hang.1 h with h | ⟨a, h1, h2⟩
      · exact ⟨[], (tok, lit), ts, m, rfl, by simp, rfl, by simpa using he, h⟩
      · obtain ⟨TP, t, R, m', rfl, a1, a2, a3⟩ := ih h2
        refine ⟨(tok, lit) :: TP, t, R, m', rfl, ?_, ?_, a3⟩
        · intro x hx
          rcases List.mem_cons.1 hx with rfl | hx
          · exact (messageStep_ok h1).1
          · exact a1 x hx
        · rw [messageLoop, if_neg he, h1]; exact a2

theorem parseComment_hang : ∀ (ts : List Tok) {c : Comment}, parseComment c ts = .hang →
    ∃ C t R c', ts = C ++ t :: R ∧ parseComment c C = .eof ∧ t.1.isComment = true ∧ commentStep c' t.1 t.2 = .hang := by
  intro ts
  induction ts with
  | nil => intro c h; cases h
  | cons t ts ih =>
    intro c h
    obtain ⟨tok, lit⟩ := t
    rw [parseComment] at h
    split at h
    · cases h
    · rename_i hf
      split at h
      · rename_i hc
        rcases bind_eq_hang.1 h with h | ⟨a, h1, h2⟩
        · exact ⟨[], (tok, lit), ts, c, rfl, rfl, hc, h⟩
        · obtain ⟨C, t, R, c', rfl, b1, b2⟩ := ih h2
          exact ⟨(tok, lit) :: C, t, R, c', rfl, by rw [parseComment, if_neg hf, if_pos hc, h1]; exact b1, b2⟩
      · cases h

/-- A comment at the end of the file is dropped. -/
theorem loop_comments (u : Unicode) (st : PState) (C : List Tok) (h : parseComment .new C = .eof) :
    loop u st C = .ok st ∧ (C = [] ∨ (lastTok .eof C).endsMessage = true) := by
  have ha := (parseComment_open C h).1
  match C, h, ha with
  | [], _, _ => exact ⟨rfl, .inl rfl⟩
  | (tok, lit) :: C, h, ha =>
    refine ⟨?_, .inr ?_⟩
    · rw [loop_comment u st lit C (ha _ List.mem_cons_self), inComment, h]
    · unfold lastTok
      cases hg : ((tok, lit) :: C).getLast? with
      | none => simp at hg
      | some x =>
        have := ha x (List.mem_of_getLast? hg)
        simp [Token.endsMessage, this]

/-- The tokens before the one that is not read to its end. -/
theorem loop_hang (u : Unicode) : ∀ (n : Nat) (ts : List Tok), ts.length ≤ n → ∀ {st : PState}, loop u st ts = .hang →
    ∃ TA TP t R st', ts = TA ++ TP ++ t :: R ∧ loop u st TA = .ok st' ∧ (TA = [] ∨ (lastTok .eof TA).endsMessage = true) ∧
      ((TP = [] ∧ t.1.isComment = true ∧ ∃ c, commentStep c t.1 t.2 = .hang) ∨
       ((∀ x ∈ TP, Token.inMessage x.1 = true) ∧ t.1.endsMessage = false ∧ ∃ m m', m.str = [] ∧
          messageLoop m TP = .ok (m', []) ∧ messageStep m' t.1 t.2 = .hang)) := by
  intro n
  induction n with
  | zero =>
    intro ts hn st h
    have : ts = [] := List.length_eq_zero_iff.1 (by omega)
    subst this
    cases h
  | succ n ih =>
    intro ts hn st h
    match ts, hn, h with
    | [], _, h => cases h
    | (tok, lit) :: ts, hn, h =>
      -- the messages after the first one
      have more : ∀ {m : Message} {r pre : List Tok} {e : Tok}, ((store u st m).bind fun st => loop u st r) = .hang →
          (tok, lit) :: ts = pre ++ e :: r → e.1.endsMessage = true →
          (∀ TB, loop u st (pre ++ e :: TB) = (store u st m).bind fun st => loop u st TB) →
          ∃ TA TP t R st', (tok, lit) :: ts = TA ++ TP ++ t :: R ∧ loop u st TA = .ok st' ∧
            (TA = [] ∨ (lastTok .eof TA).endsMessage = true) ∧
            ((TP = [] ∧ t.1.isComment = true ∧ ∃ c, commentStep c t.1 t.2 = .hang) ∨
             ((∀ x ∈ TP, Token.inMessage x.1 = true) ∧ t.1.endsMessage = false ∧ ∃ m m', m.str = [] ∧
                messageLoop m TP = .ok (m', []) ∧ messageStep m' t.1 t.2 = .hang)) := by
        intro m r pre e hm he hee hpre
        rcases bind_eq_hang.1 hm with hm | ⟨st2, h1, h2⟩
        · exact absurd (show Fails .hang (store u st m) by rw [hm]; trivial) store_not_fails
        · have hlen : r.length ≤ n := by
            have := congrArg List.length he
            simp at this hn
            omega
          obtain ⟨TA, TP, t, R, st', rfl, a1, a2, a3⟩ := ih r hlen h2
          refine ⟨pre ++ e :: TA, TP, t, R, st', by rw [he]; simp, by rw [hpre, h1]; exact a1, .inr ?_, a3⟩
          rw [lastTok_append, lastTok_cons]
          rcases a2 with rfl | a2
          · exact hee
          · cases TA with
            | nil => exact hee
            | cons x TA => rw [lastTok_indep (by simp) e.1 .eof]; exact a2
      by_cases hc : tok.isComment = true
      · have hc' := hc
        rw [loop_comment u st lit ts hc, inComment] at h
        cases hp : parseComment .new ((tok, lit) :: ts) with
        | eof => rw [hp] at h; cases h
        | error e => rw [hp] at h; cases h
        | panic => rw [hp] at h; cases h
        | hang =>
          obtain ⟨C, t, R, c', e, b1, b2, b3⟩ := parseComment_hang _ hp
          have hC := loop_comments u st C b1
          exact ⟨C, [], t, R, st, by rw [e]; simp, hC.1, hC.2, .inl ⟨rfl, b2, c', b3⟩⟩
        | ok p =>
          obtain ⟨c, r⟩ := p
          rw [hp] at h
          simp only at h
          obtain ⟨C, x, r', rfl, e, hC, hx, hE, hTB⟩ := parseComment_append _ hp
          have hlC := loop_comments u st C hE
          have hC0 : ∃ C', C = (tok, lit) :: C' := by
            cases C with
            | nil =>
              rw [List.nil_append] at e
              obtain ⟨rfl, _⟩ := List.cons.inj e
              rw [hc] at hx; cases hx
            | cons y C => exact ⟨C, by rw [List.cons_append] at e; rw [(List.cons.inj e).1]⟩
          have hL : ∀ TB, loop u st (C ++ x :: TB) = cont u st { Message.new with comment := some c } (x :: TB) := by
            intro TB
            obtain ⟨C', rfl⟩ := hC0
            rw [List.cons_append, loop_comment u st lit _ hc, inComment, ← List.cons_append, hTB]
          unfold cont at h
          rcases bind_eq_hang.1 h with h | ⟨⟨m', r2⟩, h1, h2⟩
          · obtain ⟨TP, t, R, m', e2, b1, b2, b3, b4⟩ := messageLoop_hang _ h
            exact ⟨C, TP, t, R, st, by rw [e, e2]; simp, hlC.1, hlC.2, .inr ⟨b1, b3, _, m', rfl, b2, b4⟩⟩
          · simp only at h2
            rcases messageLoop_open _ h1 with ⟨pre, y, hpre, hee, hT⟩ | ⟨rfl, _⟩
            · refine more (pre := C ++ pre) h2 (by rw [e, hpre]; simp) hee fun TB => ?_
              have : ∃ z, pre ++ y :: TB = x :: z := by
                cases pre with
                | nil => rw [List.nil_append] at hpre; exact ⟨TB, by rw [(List.cons.inj hpre).1]; rfl⟩
                | cons w pre => rw [List.cons_append] at hpre; exact ⟨pre ++ y :: TB, by rw [(List.cons.inj hpre).1]; rfl⟩
              obtain ⟨z, hz⟩ := this
              rw [List.append_assoc, hz, hL, ← hz, cont, hT]
              rfl
            · rcases bind_eq_hang.1 h2 with h2 | ⟨s, _, h2⟩
              · exact absurd (show Fails .hang (store u st m') by rw [h2]; trivial) store_not_fails
              · cases h2
      · have hc : tok.isComment = false := by simpa using hc
        rw [loop_start u st lit ts hc] at h
        unfold cont at h
        rcases bind_eq_hang.1 h with h | ⟨⟨m', r2⟩, h1, h2⟩
        · obtain ⟨TP, t, R, m', e2, b1, b2, b3, b4⟩ := messageLoop_hang _ h
          exact ⟨[], TP, t, R, st, by rw [e2]; simp, rfl, .inl rfl, .inr ⟨b1, b3, _, m', rfl, b2, b4⟩⟩
        · simp only at h2
          rcases messageLoop_open _ h1 with ⟨pre, y, hpre, hee, hT⟩ | ⟨rfl, _⟩
          · refine more (pre := pre) h2 hpre hee fun TB => ?_
            have : ∃ z, pre ++ y :: TB = (tok, lit) :: z := by
              cases pre with
              | nil => rw [List.nil_append] at hpre; exact ⟨TB, by rw [(List.cons.inj hpre).1]; rfl⟩
              | cons w pre => rw [List.cons_append] at hpre; exact ⟨pre ++ y :: TB, by rw [(List.cons.inj hpre).1]; rfl⟩
            obtain ⟨z, hz⟩ := this
            rw [hz, loop_start u st lit z hc, ← hz, cont, hT]
            rfl
          · rcases bind_eq_hang.1 h2 with h2 | ⟨s, _, h2⟩
            · exact absurd (show Fails .hang (store u st m') by rw [h2]; trivial) store_not_fails
            · cases h2

end Verif.Proofs.Po
