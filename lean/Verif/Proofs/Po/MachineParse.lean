import Verif.Proofs.Po.Machine
/-!
# The parser with its state: comments and messages
-/
namespace Verif.Proofs.Po.Machine
open Verif.Go Verif.Model.Po Verif.Model.Po.Machine Verif.Proofs.Po

/-! ## Tokens: which token an error is about -/

/-- `run` fails with `e` as soon as it sees the token `t` after the tokens `pre`, and not earlier. -/
def Blame {α : Type} (run : List Tok → Res (α × List Tok)) (pre : List Tok) (t : Tok) (e : ParseError) : Prop :=
  (∀ post, run (pre ++ t :: post) = .error e) ∧ ∀ q, q <+: pre → run q = .eof ∨ ∃ a, run q = .ok (a, [])

theorem prefix_cons_cases {q pre : List Tok} {t : Tok} (h : q <+: t :: pre) : q = [] ∨ ∃ q', q = t :: q' ∧ q' <+: pre := by
  cases q with
  | nil => exact .inl rfl
  | cons a q =>
    obtain ⟨e, h'⟩ := List.cons_prefix_cons.1 h
    exact .inr ⟨q, by rw [e], h'⟩

theorem prefix_append_cases {B : List Tok} : ∀ {q A : List Tok}, q <+: A ++ B → q <+: A ∨ ∃ q', q = A ++ q' ∧ q' <+: B
  | q, [], h => .inr ⟨q, rfl, h⟩
  | [], _ :: _, _ => .inl List.nil_prefix
  | a :: q, x :: A, h => by
    obtain ⟨e, h'⟩ := List.cons_prefix_cons.1 h
    subst e
    rcases prefix_append_cases h' with h1 | ⟨q', h1, h2⟩
    · exact .inl (List.cons_prefix_cons.2 ⟨rfl, h1⟩)
    · exact .inr ⟨q', by rw [h1]; rfl, h2⟩

theorem blame_message_here {m : Message} {t : Tok} {e : ParseError} (he : t.1.endsMessage = false)
    (hs : messageStep m t.1 t.2 = .error e) : Blame (messageLoop m) [] t e := by
  refine ⟨fun post => ?_, fun q hq => ?_⟩
  · rw [List.nil_append, messageLoop, if_neg (by rw [he]; simp), hs]; rfl
  · rw [List.prefix_nil.1 hq]; exact .inr ⟨m, rfl⟩

theorem blame_message_next {m m' : Message} {t t' : Tok} {pre : List Tok} {e : ParseError} (he : t.1.endsMessage = false)
    (hs : messageStep m t.1 t.2 = .ok m') (h : Blame (messageLoop m') pre t' e) : Blame (messageLoop m) (t :: pre) t' e := by
  have hstep : ∀ ts, messageLoop m (t :: ts) = messageLoop m' ts := fun ts => by
    rw [messageLoop, if_neg (by rw [he]; simp), hs]; rfl
  refine ⟨fun post => ?_, fun q hq => ?_⟩
  · rw [List.cons_append, hstep]; exact h.1 post
  · rcases prefix_cons_cases hq with rfl | ⟨q', rfl, hq'⟩
    · exact .inr ⟨m, rfl⟩
    · rw [hstep]; exact h.2 q' hq'

/-- The same for `parseComment`, which sees the end of the tokens before that. -/
def BlameC (c : Comment) (pre : List Tok) (t : Tok) (e : ParseError) : Prop :=
  (∀ post, parseComment c (pre ++ t :: post) = .error e) ∧ ∀ q, q <+: pre → parseComment c q = .eof

theorem blame_comment_here {c : Comment} {t : Tok} (h : t.1 = .failure) : BlameC c [] t .position := by
  refine ⟨fun post => ?_, fun q hq => ?_⟩
  · rw [List.nil_append, parseComment, if_pos h]
  · rw [List.prefix_nil.1 hq, parseComment]

theorem comment_step {c c' : Comment} {t : Tok} (ht : t.1.isComment = true) (hs : commentStep c t.1 t.2 = .ok c')
    (ts : List Tok) : parseComment c (t :: ts) = parseComment c' ts := by
  rw [parseComment, if_neg (by intro h; rw [h] at ht; cases ht), if_pos ht, hs]; rfl

theorem blame_comment_next {c c' : Comment} {t t' : Tok} {pre : List Tok} {e : ParseError} (ht : t.1.isComment = true)
    (hs : commentStep c t.1 t.2 = .ok c') (h : BlameC c' pre t' e) : BlameC c (t :: pre) t' e := by
  refine ⟨fun post => ?_, fun q hq => ?_⟩
  · rw [List.cons_append, comment_step ht hs]; exact h.1 post
  · rcases prefix_cons_cases hq with rfl | ⟨q', rfl, hq'⟩
    · rw [parseComment]
    · rw [comment_step ht hs]; exact h.2 q' hq'

/-- What `parseComment` consumed: it does the same in front of every token at which it stops. -/
theorem comment_used : ∀ {ts : List Tok} {c c' : Comment} {rest : List Tok}, parseComment c ts = .ok (c', rest) →
    ∃ used t r, ts = used ++ rest ∧ rest = t :: r ∧ t.1.isComment = false ∧ t.1 ≠ .failure ∧
      (∀ x xs, x.1.isComment = false → x.1 ≠ .failure → parseComment c (used ++ x :: xs) = .ok (c', x :: xs)) ∧
      ∀ q, q <+: used → parseComment c q = .eof := by
  intro ts
  induction ts with
  | nil => intro c c' rest h; cases h
  | cons t ts ih =>
    intro c c' rest h
    obtain ⟨tok, lit⟩ := t
    by_cases hf : tok = .failure
    · rw [parseComment, if_pos hf] at h; cases h
    · by_cases hc : tok.isComment = true
      · rw [parseComment, if_neg hf, if_pos hc] at h
        obtain ⟨c1, h1, h2⟩ := bind_eq_ok.1 h
        obtain ⟨used, t, r, e1, e2, e3, e4, e5, e6⟩ := ih h2
        have hst := comment_step (t := (tok, lit)) hc h1
        refine ⟨(tok, lit) :: used, t, r, by rw [e1]; rfl, e2, e3, e4, ?_, ?_⟩
        · intro x xs hx hxf
          rw [List.cons_append, hst]; exact e5 x xs hx hxf
        · intro q hq
          rcases prefix_cons_cases hq with rfl | ⟨q', rfl, hq'⟩
          · rfl
          · rw [hst]; exact e6 q' hq'
      · rw [parseComment, if_neg hf, if_neg hc] at h
        cases h
        refine ⟨[], (tok, lit), ts, rfl, rfl, by simpa using hc, hf, ?_, ?_⟩
        · intro x xs hx hxf
          rw [List.nil_append, parseComment, if_neg hxf, if_neg (by rw [hx]; simp)]
        · intro q hq; rw [List.prefix_nil.1 hq]; rfl

/-- What `messageLoop` consumed if tokens are left. -/
theorem message_used : ∀ {ts : List Tok} {m m' : Message} {rest : List Tok}, messageLoop m ts = .ok (m', rest) →
    ∃ used, ts = used ++ rest ∧ (ts ≠ [] → used ≠ []) ∧ (rest ≠ [] → ∀ X, messageLoop m (used ++ X) = .ok (m', X)) ∧
      ∀ q, q <+: used → q ≠ used → ∃ m'', messageLoop m q = .ok (m'', []) := by
  intro ts
  induction ts with
  | nil =>
    intro m m' rest h; cases h
    exact ⟨[], rfl, fun h => absurd rfl h, fun h => absurd rfl h, fun q hq hne => absurd (List.prefix_nil.1 hq) hne⟩
  | cons t ts ih =>
    intro m m' rest h
    obtain ⟨tok, lit⟩ := t
    by_cases he : tok.endsMessage = true
    · rw [messageLoop, if_pos he] at h
      cases h
      refine ⟨[(tok, lit)], rfl, by simp, fun _ X => ?_, ?_⟩
      · rw [List.singleton_append, messageLoop, if_pos he]
      · intro q hq hne
        rcases prefix_cons_cases hq with rfl | ⟨q', rfl, hq'⟩
        · exact ⟨m, rfl⟩
        · rw [List.prefix_nil.1 hq'] at hne; exact absurd rfl hne
    · have hst : ∀ ts, messageLoop m ((tok, lit) :: ts) = (messageStep m tok lit).bind fun m => messageLoop m ts :=
        fun ts => by rw [messageLoop, if_neg he]
      rw [hst] at h
      obtain ⟨m1, h1, h2⟩ := bind_eq_ok.1 h
      obtain ⟨used, e1, e2, e3, e4⟩ := ih h2
      have hst' : ∀ ts, messageLoop m ((tok, lit) :: ts) = messageLoop m1 ts := fun ts => by rw [hst, h1]; rfl
      refine ⟨(tok, lit) :: used, by rw [e1]; rfl, by simp, fun hr X => ?_, ?_⟩
      · rw [List.cons_append, hst']; exact e3 hr X
      · intro q hq hne
        rcases prefix_cons_cases hq with rfl | ⟨q', rfl, hq'⟩
        · exact ⟨m, rfl⟩
        · rw [hst']; exact e4 q' hq' (fun h => hne (by rw [h]))

theorem parseMessage_eq {t : Tok} {ts : List Tok} : parseMessage (t :: ts) =
    if t.1.isComment then (parseComment .new (t :: ts)).bind fun (c, ts) => messageLoop { Message.new with comment := some c } ts
    else messageLoop .new (t :: ts) := by
  obtain ⟨tok, lit⟩ := t
  rfl

theorem head_same {pre : List Tok} {t h : Tok} {hs post : List Tok} (hh : pre ++ t :: post = h :: hs) (post' : List Tok) :
    ∃ z, pre ++ t :: post' = h :: z := by
  cases pre with
  | nil => simp only [List.nil_append] at hh ⊢; injection hh with h1 _; exact ⟨_, by rw [h1]⟩
  | cons a pre => simp only [List.cons_append] at hh ⊢; injection hh with h1 _; exact ⟨_, by rw [h1]⟩

theorem head_prefix {pre : List Tok} {t h : Tok} {hs post q : List Tok} (hh : pre ++ t :: post = h :: hs) (hq : q <+: pre) :
    q = [] ∨ ∃ z, q = h :: z := by
  cases q with
  | nil => exact .inl rfl
  | cons a q =>
    obtain ⟨z, hz⟩ := hq
    rw [← hz] at hh
    simp only [List.cons_append] at hh
    injection hh with h1 _
    exact .inr ⟨q, by rw [h1]⟩

theorem parseMessage_plain {h : Tok} (hc : h.1.isComment = false) (ts : List Tok) :
    parseMessage (h :: ts) = messageLoop .new (h :: ts) := by rw [parseMessage_eq, if_neg (by rw [hc]; simp)]

theorem parseMessage_comment {h : Tok} (hc : h.1.isComment = true) (ts : List Tok) :
    parseMessage (h :: ts) = (parseComment .new (h :: ts)).bind fun (c, ts) =>
      messageLoop { Message.new with comment := some c } ts := by rw [parseMessage_eq, if_pos hc]

theorem blame_parse_plain {pre : List Tok} {t h : Tok} {hs : List Tok} {e : ParseError} (hc : h.1.isComment = false)
    {post : List Tok} (hh : pre ++ t :: post = h :: hs) (hb : Blame (messageLoop .new) pre t e) : Blame parseMessage pre t e := by
  refine ⟨fun post' => ?_, fun q hq => ?_⟩
  · obtain ⟨z, hz⟩ := head_same hh post'
    have := hb.1 post'
    rw [hz] at this ⊢
    rw [parseMessage_plain hc]; exact this
  · rcases head_prefix hh hq with rfl | ⟨z, rfl⟩
    · exact .inl rfl
    · rw [parseMessage_plain hc]; exact hb.2 _ hq

theorem blame_parse_comment {pre : List Tok} {t h : Tok} {hs : List Tok} {e : ParseError} (hc : h.1.isComment = true)
    {post : List Tok} (hh : pre ++ t :: post = h :: hs) (hb : BlameC .new pre t e) : Blame parseMessage pre t e := by
  refine ⟨fun post' => ?_, fun q hq => ?_⟩
  · obtain ⟨z, hz⟩ := head_same hh post'
    have := hb.1 post'
    rw [hz] at this ⊢
    rw [parseMessage_comment hc, this]; rfl
  · rcases head_prefix hh hq with rfl | ⟨z, rfl⟩
    · exact .inl rfl
    · rw [parseMessage_comment hc, hb.2 _ hq]; exact .inl rfl

/-- An error in the second loop of `parseMessage`, after a comment. -/
theorem blame_parse_after {used pre : List Tok} {t h x : Tok} {hs xs post : List Tok} {c : Comment} {e : ParseError}
    (hc : h.1.isComment = true) (hu : used ++ (pre ++ t :: post) = h :: hs) (hx : pre ++ t :: post = x :: xs)
    (hxc : x.1.isComment = false) (hxf : x.1 ≠ .failure)
    (h1 : ∀ x xs, x.1.isComment = false → x.1 ≠ .failure → parseComment .new (used ++ x :: xs) = .ok (c, x :: xs))
    (h2 : ∀ q, q <+: used → parseComment .new q = .eof)
    (hb : Blame (messageLoop { Message.new with comment := some c }) pre t e) : Blame parseMessage (used ++ pre) t e := by
  have hused : ∃ us, used = h :: us := by
    cases used with
    | nil =>
      rw [List.nil_append, hx] at hu
      injection hu with e1 _
      rw [e1, hc] at hxc; cases hxc
    | cons a us => simp only [List.cons_append] at hu; injection hu with e1 _; exact ⟨us, by rw [e1]⟩
  obtain ⟨us, hus⟩ := hused
  have key : ∀ x xs, x.1.isComment = false → x.1 ≠ .failure → parseMessage (used ++ x :: xs) =
      messageLoop { Message.new with comment := some c } (x :: xs) := fun x xs a b => by
    have := h1 x xs a b
    rw [hus] at this ⊢
    rw [List.cons_append] at this ⊢
    rw [parseMessage_comment hc, this]; rfl
  refine ⟨fun post' => ?_, fun q hq => ?_⟩
  · obtain ⟨z, hz⟩ := head_same hx post'
    have := hb.1 post'
    rw [List.append_assoc, hz, key x z hxc hxf, ← hz]; exact this
  · rcases prefix_append_cases hq with hq | ⟨q', rfl, hq'⟩
    · have := h2 q hq
      cases q with
      | nil => exact .inl rfl
      | cons a q =>
        rw [hus] at hq
        obtain ⟨e1, _⟩ := List.cons_prefix_cons.1 hq
        subst e1
        rw [parseMessage_comment hc, this]; exact .inl rfl
    · rcases head_prefix hx hq' with rfl | ⟨z, rfl⟩
      · rw [List.append_nil]
        have := h2 used (List.prefix_refl _)
        rw [hus] at this ⊢
        rw [parseMessage_comment hc, this]; exact .inl rfl
      · rw [key x z hxc hxf]; exact hb.2 _ hq'

/-- What `parseMessage` consumed if tokens are left. -/
theorem parse_used {ts rest : List Tok} {m : Message} (h : parseMessage ts = .ok (m, rest)) :
    ∃ used, ts = used ++ rest ∧ (rest ≠ [] → ∀ X, parseMessage (used ++ X) = .ok (m, X)) ∧
      ∀ q, q <+: used → q ≠ used → parseMessage q = .eof ∨ ∃ m', parseMessage q = .ok (m', []) := by
  cases ts with
  | nil => cases h
  | cons t ts =>
    by_cases hc : t.1.isComment = true
    · rw [parseMessage_comment hc] at h
      obtain ⟨⟨c, r⟩, h1, h2⟩ := bind_eq_ok.1 h
      obtain ⟨used, x, xs, e1, e2, e3, e4, e5, e6⟩ := comment_used h1
      obtain ⟨used', f1, f2, f3, f4⟩ := message_used h2
      subst e2
      have hused : ∃ us, used = t :: us := by
        cases used with
        | nil =>
          rw [List.nil_append] at e1
          injection e1 with e1 _
          rw [← e1, hc] at e3; cases e3
        | cons a us => simp only [List.cons_append] at e1; injection e1 with e1 _; exact ⟨us, by rw [e1]⟩
      obtain ⟨us, hus⟩ := hused
      have hx : ∃ vs, used' = x :: vs := by
        cases used' with
        | nil => exact absurd rfl (f2 (by simp))
        | cons a vs => simp only [List.cons_append] at f1; injection f1 with e1 _; exact ⟨vs, by rw [e1]⟩
      obtain ⟨vs, hvs⟩ := hx
      have key : ∀ X, parseMessage (used ++ x :: X) = messageLoop { Message.new with comment := some c } (x :: X) := fun X => by
        have := e5 x X e3 e4
        rw [hus] at this ⊢
        rw [List.cons_append] at this ⊢
        rw [parseMessage_comment hc, this]; rfl
      refine ⟨used ++ used', by rw [e1, f1, List.append_assoc], fun hr X => ?_, ?_⟩
      · have := f3 hr X
        rw [hvs, List.cons_append] at this
        rw [hvs, List.append_assoc, List.cons_append, key, this]
      · intro q hq hne
        rcases prefix_append_cases hq with hq | ⟨q', rfl, hq'⟩
        · left
          have := e6 q hq
          cases q with
          | nil => rfl
          | cons a q =>
            rw [hus] at hq
            obtain ⟨e1, _⟩ := List.cons_prefix_cons.1 hq
            subst e1
            rw [parseMessage_comment hc, this]; rfl
        · cases q' with
          | nil =>
            left
            have := e6 used (List.prefix_refl _)
            rw [List.append_nil]
            rw [hus] at this ⊢
            rw [parseMessage_comment hc, this]; rfl
          | cons a q' =>
            right
            have hq'' := hq'
            rw [hvs] at hq''
            obtain ⟨e1, _⟩ := List.cons_prefix_cons.1 hq''
            subst e1
            rw [key]
            exact f4 _ hq' (fun h => hne (by rw [h]))
    · have hc : t.1.isComment = false := by simpa using hc
      rw [parseMessage_plain hc] at h
      obtain ⟨used, f1, f2, f3, f4⟩ := message_used h
      have hx : ∃ vs, used = t :: vs := by
        cases used with
        | nil => exact absurd rfl (f2 (by simp))
        | cons a vs => simp only [List.cons_append] at f1; injection f1 with e1 _; exact ⟨vs, by rw [e1]⟩
      obtain ⟨vs, hvs⟩ := hx
      refine ⟨used, f1, fun hr X => ?_, ?_⟩
      · have := f3 hr X
        rw [hvs, List.cons_append] at this ⊢
        rw [parseMessage_plain hc, this]
      · intro q hq hne
        cases q with
        | nil => left; rfl
        | cons a q =>
          right
          have hq' := hq
          rw [hvs] at hq'
          obtain ⟨e1, _⟩ := List.cons_prefix_cons.1 hq'
          subst e1
          rw [parseMessage_plain hc]
          exact f4 _ hq hne

/-- The lines of a message and the token that ends it. -/
theorem message_body : ∀ {ts rest : List Tok} {m0 m : Message}, messageLoop m0 ts = .ok (m, rest) →
    ∃ body term, ts = body ++ term ++ rest ∧ (body = [] → m = m0) ∧ (∀ y ∈ body, y.1.endsMessage = false) ∧
      messageLoop m0 body = .ok (m, []) ∧
      ((term = [] ∧ rest = []) ∨ ∃ x, term = [x] ∧ x.1.endsMessage = true ∧
        ∀ X, messageLoop m0 (body ++ [x] ++ X) = .ok (m, X)) := by
  intro ts
  induction ts with
  | nil =>
    intro rest m0 m h
    cases h
    exact ⟨[], [], rfl, fun _ => rfl, by simp, rfl, .inl ⟨rfl, rfl⟩⟩
  | cons t ts ih =>
    intro rest m0 m h
    rw [messageLoop] at h
    by_cases he : t.1.endsMessage = true
    · rw [if_pos he] at h
      cases h
      exact ⟨[], [t], rfl, fun _ => rfl, by simp, rfl, .inr ⟨t, rfl, he, fun X => by rw [List.nil_append, List.singleton_append, messageLoop, if_pos he]⟩⟩
    · rw [if_neg he] at h
      obtain ⟨m', h1, h2⟩ := bind_eq_ok.1 h
      have hstep : ∀ X, messageLoop m0 (t :: X) = messageLoop m' X := fun X => by rw [messageLoop, if_neg he, h1]; rfl
      obtain ⟨body, term, e1, _, e2, e3, e4⟩ := ih h2
      refine ⟨t :: body, term, by rw [e1]; rfl, by simp, List.forall_mem_cons.2 ⟨by simpa using he, e2⟩, by rw [hstep]; exact e3, ?_⟩
      rcases e4 with e4 | ⟨x, e4, e5, e6⟩
      · exact .inl e4
      · exact .inr ⟨x, e4, e5, fun X => by rw [List.cons_append, List.cons_append, hstep]; exact e6 X⟩

/-- The comment and the lines of a message, and the token that ends it. -/
theorem parse_body {ts rest : List Tok} {m : Message} (h : parseMessage ts = .ok (m, rest)) (hm : m.id ≠ [] ∨ m.str ≠ []) :
    ∃ body term, ts = body ++ term ++ rest ∧ (∃ b y, body = b ++ [y] ∧ y.1.endsMessage = false) ∧
      parseMessage body = .ok (m, []) ∧
      ((term = [] ∧ rest = []) ∨ ∃ x, term = [x] ∧ x.1.endsMessage = true ∧
        ∀ X, parseMessage (body ++ [x] ++ X) = .ok (m, X)) := by
  cases ts with
  | nil => cases h
  | cons t ts =>
    by_cases hc : t.1.isComment = true
    · rw [parseMessage_comment hc] at h
      obtain ⟨⟨c, r⟩, h1, h2⟩ := bind_eq_ok.1 h
      obtain ⟨used, x, xs, e1, e2, e3, e4, e5, _⟩ := comment_used h1
      obtain ⟨body, term, f1, f2, fe, f3, f4⟩ := message_body h2
      subst e2
      have hused : ∃ us, used = t :: us := by
        cases used with
        | nil =>
          rw [List.nil_append] at e1
          injection e1 with e1 _
          rw [← e1, hc] at e3; cases e3
        | cons a us => simp only [List.cons_append] at e1; injection e1 with e1 _; exact ⟨us, by rw [e1]⟩
      obtain ⟨us, hus⟩ := hused
      have key : ∀ X, parseMessage (used ++ x :: X) = messageLoop { Message.new with comment := some c } (x :: X) := fun X => by
        have := e5 x X e3 e4
        rw [hus] at this ⊢
        rw [List.cons_append] at this ⊢
        rw [parseMessage_comment hc, this]; rfl
      have hx : ∃ vs, body = x :: vs := by
        cases body with
        | nil =>
          exfalso
          have := f2 rfl
          subst this
          rcases hm with hm | hm <;> exact hm rfl
        | cons a vs => simp only [List.cons_append] at f1; injection f1 with e1 _; exact ⟨vs, by rw [e1]⟩
      obtain ⟨vs, hvs⟩ := hx
      subst hvs
      have hlast : ∃ b y, used ++ x :: vs = b ++ [y] ∧ y.1.endsMessage = false := by
        obtain ⟨b, y, hb⟩ := List.eq_nil_or_concat (x :: vs) |>.resolve_left (by simp)
        exact ⟨used ++ b, y, by rw [hb]; simp, fe y (by rw [hb]; simp)⟩
      refine ⟨used ++ x :: vs, term, by rw [e1, f1]; simp, hlast, by rw [key]; exact f3, ?_⟩
      rcases f4 with f4 | ⟨y, f4, f5, f6⟩
      · exact .inl f4
      · refine .inr ⟨y, f4, f5, fun X => ?_⟩
        have := f6 X
        rw [show used ++ x :: vs ++ [y] ++ X = used ++ x :: (vs ++ [y] ++ X) by simp, key]
        exact this
    · have hc : t.1.isComment = false := by simpa using hc
      rw [parseMessage_plain hc] at h
      obtain ⟨body, term, f1, f2, fe, f3, f4⟩ := message_body h
      have hx : ∃ vs, body = t :: vs := by
        cases body with
        | nil =>
          exfalso
          have := f2 rfl
          subst this
          rcases hm with hm | hm <;> exact hm rfl
        | cons a vs => simp only [List.cons_append] at f1; injection f1 with e1 _; exact ⟨vs, by rw [e1]⟩
      obtain ⟨vs, hvs⟩ := hx
      subst hvs
      have hlast : ∃ b y, t :: vs = b ++ [y] ∧ y.1.endsMessage = false := by
        obtain ⟨b, y, hb⟩ := List.eq_nil_or_concat (t :: vs) |>.resolve_left (by simp)
        exact ⟨b, y, by rw [hb]; simp, fe y (by rw [hb]; simp)⟩
      refine ⟨t :: vs, term, f1, hlast, by rw [parseMessage_plain hc]; exact f3, ?_⟩
      rcases f4 with f4 | ⟨y, f4, f5, f6⟩
      · exact .inl f4
      · refine .inr ⟨y, f4, f5, fun X => ?_⟩
        have := f6 X
        rw [List.cons_append, List.cons_append] at this ⊢
        rw [parseMessage_plain hc]
        exact this

end Verif.Proofs.Po.Machine
