import Verif.Proofs.Po.MachineParse
/-!
# The parser with its state follows the parser on tokens
-/
namespace Verif.Proofs.Po.Machine
open Verif.Go Verif.Model.Po Verif.Model.Po.Machine Verif.Proofs.Po

/-- The parser has consumed the tokens `c` of the lines `all` and will see the tokens `ts`. -/
inductive View (all : List Bytes) (c : List Tok) : List Tok → Parser → Prop
  | ready {ts p} : p.n = false → Inv all c p.s → tokens p.s.ignoreComments all = c ++ ts → View all c ts p
  | back {t ts p} : p.n = true → (p.lastToken, p.lastLiteral) = t → t.1 ≠ .eof → Inv all (c ++ [t]) p.s → Spot all c t p.s →
      tokens p.s.ignoreComments all = c ++ t :: ts → View all c (t :: ts) p
  | ended {p} : p.n = false → pending p.s = [] → Counted p.s → p.s.pos = all.length → p.s.text = [] → View all c [] p

/-- Everything that `scan` leaves alone. -/
def Same (p p' : Parser) : Prop :=
  p'.st = p.st ∧ p'.ignoreComments = p.ignoreComments ∧ p'.s.ignoreComments = p.s.ignoreComments

theorem Same.refl (p : Parser) : Same p p := ⟨rfl, rfl, rfl⟩

theorem Same.trans {p q r : Parser} (h : Same p q) (h' : Same q r) : Same p r :=
  ⟨h'.1.trans h.1, h'.2.1.trans h.2.1, h'.2.2.trans h.2.2⟩

/-- `scan` of the parser. -/
theorem View.scan {all : List Bytes} {c ts : List Tok} {p : Parser} (h : View all c ts p) {F : Nat} (hF : all.length + 1 < F) :
    (ts = [] ∧ ∃ lit p', p.scan F = .ok (.eof, lit) p' ∧ View all c [] p' ∧ p'.n = false ∧ p'.lastToken = .eof ∧ Same p p' ∧
      p'.s.pos = all.length ∧ p'.s.text = []) ∨
    ∃ t ts', ts = t :: ts' ∧ t.1 ≠ .eof ∧ ∃ p', p.scan F = .ok t p' ∧ View all (c ++ [t]) ts' p' ∧ p'.n = false ∧
      View all c (t :: ts') p'.unscan ∧ Spot all c t p'.s ∧ p'.lastToken = t.1 ∧ Same p p' ∧ p'.s.lastToken = t.1 := by
  cases h with
  | ready hn hi ht =>
    rcases hi.scan hF with ⟨lit, s', h1, h2, h3, h4, h5, h6, h7⟩ | ⟨t, s', h1, h2, h3, h4, h5⟩
    · left
      have : ts = [] := by
        rw [h2] at ht
        have := congrArg List.length ht
        simp at this
        exact this
      refine ⟨this, lit, { p with s := s', lastToken := .eof, lastLiteral := lit }, ?_, ?_, hn, rfl, ⟨rfl, rfl, h4⟩, h6, h7⟩
      · unfold Parser.scan; rw [hn, h1]; rfl
      · exact .ended hn h3 h5 h6 h7
    · right
      have hsp := h3.split
      rw [h5, ht, List.append_assoc] at hsp
      have hsp := List.append_cancel_left hsp
      have hts : ts = t :: tokensFrom p.s.ignoreComments false s'.lastToken (pending s') := hsp
      refine ⟨t, _, hts, h2, { p with s := s', lastToken := t.1, lastLiteral := t.2 }, ?_, ?_, hn, ?_, h4, rfl, ⟨rfl, rfl, h5⟩, (h3.last _ _ rfl).1⟩
      · unfold Parser.scan; rw [hn, h1]; rfl
      · refine .ready hn h3 ?_
        change tokens s'.ignoreComments all = _
        rw [h5, ht, hts]; simp
      · refine .back rfl rfl h2 h3 h4 ?_
        change tokens s'.ignoreComments all = _
        rw [h5, ht, hts]
  | back hn ht hne hi hs hts =>
    right
    rename_i t ts
    refine ⟨t, ts, rfl, hne, { p with n := false }, ?_, ?_, rfl, ?_, hs, congrArg (·.1) ht, ⟨rfl, rfl, rfl⟩, (hi.last _ _ rfl).1⟩
    · unfold Parser.scan; rw [hn, ht]; rfl
    · exact .ready rfl hi (by rw [hts]; simp)
    · exact .back rfl ht hne hi hs hts
  | ended hn hp hc hpos htext =>
    left
    obtain ⟨t, lit, s', h1, h2, h3, h4, h5, h6, h7, h8, h9⟩ := scan_spec F p.s hc (by rw [hp]; simp; omega)
    rw [hp] at h1
    have h1 : (Token.eof, [], []) = (t, lit, pending s') := h1
    injection h1 with e1 e2
    injection e2 with e2 e3
    subst e1 e2
    have hpos' : s'.pos = all.length := by
      have hn' := (h9 rfl).1
      have hn0 : p.s.n = false := (read_nil hp).2
      rw [hp, ← e3] at h6
      simp only [base, hn', hn0, Bool.false_eq_true, if_false, List.length_nil, Nat.add_zero, Nat.sub_zero] at h6
      exact h6.trans hpos
    refine ⟨rfl, [], { p with s := s', lastToken := .eof, lastLiteral := [] }, ?_, ?_, hn, rfl, ⟨rfl, rfl, h5⟩, hpos', (h9 rfl).2⟩
    · unfold Parser.scan; rw [hn, h2]; rfl
    · exact .ended hn e3.symm h3 hpos' (h9 rfl).2

/-- The machine ends like the parser on tokens; `Q` is asked of a state in which a result is returned,
`B` relates an error to the token it is about. -/
def Sim {α : Type} (all : List Bytes) (c ts : List Tok) (p : Parser) (Q : List Tok → Parser → Prop)
    (B : List Tok → Tok → ParseError → Prop) : Res (α × List Tok) → Out α → Prop
  | .ok (a, rest), o => ∃ used p', o = .ok a p' ∧ ts = used ++ rest ∧ View all (c ++ used) rest p' ∧ Q rest p' ∧ Same p p'
  | .eof, o => ∃ p', o = .eof p' ∧ p'.n = false ∧ Same p p'
  | .error e, o => ∃ pre t post p', o = .error e p'.s.pos p'.s.text p' ∧ ts = pre ++ t :: post ∧ p'.n = false ∧
      t.1 ≠ .whitespace ∧ Spot all (c ++ pre) t p'.s ∧ B pre t e ∧ Same p p'
  | .panic, o => ∃ p', o = .panic p' ∧ p'.n = false ∧ Same p p'
  | .hang, o => o = .hang

/-- Tokens consumed in front of a simulated run. -/
theorem Sim.append {α : Type} {all : List Bytes} {c ts pre0 : List Tok} {p p1 : Parser} {Q : List Tok → Parser → Prop}
    {B B' : List Tok → Tok → ParseError → Prop} {r : Res (α × List Tok)} {o : Out α}
    (h : Sim all (c ++ pre0) ts p1 Q B r o) (hs : Same p p1)
    (hB : ∀ pre x e post, ts = pre ++ x :: post → B pre x e → B' (pre0 ++ pre) x e) :
    Sim all c (pre0 ++ ts) p Q B' r o := by
  cases r with
  | ok x =>
    obtain ⟨a, rest⟩ := x
    obtain ⟨used, p', h1, h2, h3, h4, h5⟩ := h
    exact ⟨pre0 ++ used, p', h1, by rw [h2, List.append_assoc], by rw [List.append_assoc] at h3; exact h3, h4, hs.trans h5⟩
  | eof =>
    obtain ⟨p', h1, h2, h3⟩ := h
    exact ⟨p', h1, h2, hs.trans h3⟩
  | error e =>
    obtain ⟨pre, x, post, p', h1, h2, h3, h4, h5, h6, h7⟩ := h
    exact ⟨pre0 ++ pre, x, post, p', h1, by rw [h2, List.append_assoc], h3, h4, by rw [List.append_assoc] at h5; exact h5,
      hB _ _ _ _ h2 h6, hs.trans h7⟩
  | panic =>
    obtain ⟨p', h1, h2, h3⟩ := h
    exact ⟨p', h1, h2, hs.trans h3⟩
  | hang => exact h

/-- A step in front of a simulated run. -/
theorem Sim.cons {α : Type} {all : List Bytes} {c ts : List Tok} {t : Tok} {p p1 : Parser} {Q : List Tok → Parser → Prop}
    {B B' : List Tok → Tok → ParseError → Prop} {r : Res (α × List Tok)} {o : Out α}
    (h : Sim all (c ++ [t]) ts p1 Q B r o) (hs : Same p p1) (hB : ∀ pre x e, B pre x e → B' (t :: pre) x e) :
    Sim all c (t :: ts) p Q B' r o :=
  Sim.append (pre0 := [t]) h hs fun pre x e _ _ hb => hB pre x e hb

theorem bind_eq_error {α β : Type} {r : Res α} {k : α → Res β} {e : ParseError} :
    r.bind k = .error e ↔ r = .error e ∨ ∃ a, r = .ok a ∧ k a = .error e := by
  cases r <;> simp [Res.bind]

theorem commentStep_ne_error (c : Comment) (t : Token) (lit : Bytes) (e : ParseError) : commentStep c t lit ≠ .error e := by
  have hd : ∀ t e, decode t ≠ .error e := decode_ne_error
  have hf : ∀ k t e, from? k t ≠ .error e := fun k t e => by unfold from?; split <;> simp
  have hp : ∀ a b e, decodePrev a b ≠ .error e := fun a b e => by
    unfold decodePrev
    split
    · simp
    · intro h; rcases bind_eq_error.1 h with h | ⟨_, _, h⟩
      · exact hd _ _ h
      · cases h
  unfold commentStep
  split
  all_goals intro h
  all_goals first | cases h; done | skip
  all_goals
    rcases bind_eq_error.1 h with h | ⟨_, _, h⟩
    · exact hf _ _ _ h
    · first
      | cases h; done
      | (rcases bind_eq_error.1 h with h | ⟨_, _, h⟩
         · first | exact hd _ _ h | exact hp _ _ _ h
         · cases h)

/-- `parseComment`. -/
theorem sim_parseComment {all : List Bytes} {F : Nat} (hF : all.length + 1 < F) : ∀ (f : Nat) (ts c : List Tok) (cm : Comment) (p : Parser),
    ts.length < f → View all c ts p →
    Sim all c ts p (fun rest p' => p'.n = true ∧ rest ≠ []) (fun pre t e => BlameC cm pre t e)
      (parseComment cm ts) (p.parseComment F f cm) := by
  intro f
  induction f with
  | zero => intro ts c cm p h; omega
  | succ f ih =>
    intro ts c cm p hf hv
    unfold Parser.parseComment
    rcases hv.scan hF with ⟨rfl, lit, p', h1, h2, h3, h4, h5, h8⟩ | ⟨t, ts', rfl, hne, p', h1, h2, h3, h4, h5, h6, h7, h8⟩
    · rw [h1]
      exact ⟨p', rfl, h3, h5⟩
    · rw [h1]
      obtain ⟨tok, lit⟩ := t
      simp only [Out.bind, parseComment]
      rw [if_neg hne]
      by_cases hfail : tok = .failure
      · rw [if_pos hfail, if_pos hfail]
        exact ⟨[], (tok, lit), ts', p', rfl, rfl, h3, by rw [hfail]; simp, by rw [List.append_nil]; exact h5,
          blame_comment_here hfail, h7⟩
      · rw [if_neg hfail, if_neg hfail]
        by_cases hc : tok.isComment = true
        · rw [if_pos hc, if_pos hc]
          cases hs : commentStep cm tok lit with
          | ok cm' =>
            exact (ih ts' (c ++ [(tok, lit)]) cm' p' (by simp at hf; omega) h2).cons h7
              (fun pre x e h => blame_comment_next (t := (tok, lit)) hc hs h)
          | eof => exact absurd hs (commentStep_ne_eof _ _ _)
          | error e => exact absurd hs (commentStep_ne_error _ _ _ _)
          | panic => exact ⟨p', rfl, h3, h7⟩
          | hang => rfl
        · rw [if_neg hc, if_neg hc]
          exact ⟨[], p'.unscan, rfl, rfl, by rw [List.append_nil]; exact h4, ⟨rfl, by simp⟩, h7⟩

/-- What `parseMessage` returns. -/
def Ready (all : List Bytes) (rest : List Tok) (p : Parser) : Prop :=
  p.n = false ∧ (p.lastToken = .eof → rest = [] ∧ p.s.pos = all.length ∧ p.s.text = []) ∧
    (p.lastToken ≠ .eof → p.s.lastToken.endsMessage = true)

/-- The second loop of `parseMessage`. -/
theorem sim_messageLoop {all : List Bytes} {F : Nat} (hF : all.length + 1 < F) : ∀ (f : Nat) (ts c : List Tok) (m : Message) (p : Parser),
    ts.length < f → View all c ts p →
    Sim all c ts p (Ready all) (fun pre t e => Blame (messageLoop m) pre t e)
      (messageLoop m ts) (p.messageLoop F f m) := by
  intro f
  induction f with
  | zero => intro ts c m p h; omega
  | succ f ih =>
    intro ts c m p hf hv
    unfold Parser.messageLoop
    rcases hv.scan hF with ⟨rfl, lit, p', h1, h2, h3, h4, h5, h8⟩ | ⟨t, ts', rfl, hne, p', h1, h2, h3, h4, h5, h6, h7, h8⟩
    · rw [h1]
      exact ⟨[], p', rfl, rfl, by rw [List.append_nil]; exact h2, ⟨h3, fun _ => ⟨rfl, h8⟩, fun h => absurd h4 h⟩, h5⟩
    · rw [h1]
      obtain ⟨tok, lit⟩ := t
      simp only [Out.bind, messageLoop]
      by_cases hfail : tok = .failure
      · subst hfail
        rw [if_pos rfl, if_neg (by decide)]
        exact ⟨[], (.failure, lit), ts', p', rfl, rfl, h3, by simp, by rw [List.append_nil]; exact h5,
          blame_message_here (by rfl) rfl, h7⟩
      · rw [if_neg hfail]
        by_cases hc : tok.endsMessage = true
        · rw [if_pos hc, if_pos hc]
          exact ⟨[(tok, lit)], p', rfl, rfl, h2, ⟨h3, fun h => absurd (h6.symm.trans h) hne, fun _ => by rw [h8]; exact hc⟩, h7⟩
        · rw [if_neg hc, if_neg hc]
          have hc' : tok.endsMessage = false := by simpa using hc
          have hw : tok ≠ .whitespace := by rintro rfl; exact hc rfl
          cases hs : messageStep m tok lit with
          | ok m' =>
            exact (ih ts' (c ++ [(tok, lit)]) m' p' (by simp at hf; omega) h2).cons h7
              (fun pre x e h => blame_message_next (t := (tok, lit)) hc' hs h)
          | eof => exact absurd hs (messageStep_ne_eof _ _ _)
          | error e => exact ⟨[], (tok, lit), ts', p', rfl, rfl, h3, hw, by rw [List.append_nil]; exact h5,
              blame_message_here (t := (tok, lit)) hc' hs, h7⟩
          | panic => exact ⟨p', rfl, h3, h7⟩
          | hang => rfl

theorem tokensFrom_length (ign : Bool) : ∀ (ls : List Bytes) (w : Bool) (last : Token), (tokensFrom ign w last ls).length ≤ ls.length := by
  intro ls
  induction ls with
  | nil => intro w last; exact Nat.le_refl _
  | cons l ls ih =>
    intro w last
    rw [tokensFrom]
    split
    · split
      · exact Nat.le_trans (ih _ _) (Nat.le_succ _)
      · exact Nat.succ_le_succ (ih _ _)
    · split
      · exact Nat.le_trans (ih _ _) (Nat.le_succ _)
      · exact Nat.succ_le_succ (ih _ _)

theorem View.length {all : List Bytes} {c ts : List Tok} {p : Parser} (h : View all c ts p) : ts.length ≤ all.length := by
  have key : ∀ ign, (tokens ign all).length ≤ all.length := fun ign => tokensFrom_length ign all _ _
  cases h with
  | ready _ _ ht =>
    have := key p.s.ignoreComments
    rw [ht] at this; simp at this; omega
  | back _ _ _ _ _ ht =>
    have := key p.s.ignoreComments
    rw [ht] at this; simp at this ⊢; omega
  | ended => exact Nat.zero_le _

/-- The first loop of `parseMessage` stops in front of a token that is no comment. -/
theorem commentLoop_stop {all : List Bytes} {F : Nat} (hF : all.length + 1 < F) {c ts : List Tok} {t : Tok} {p : Parser}
    (hv : View all c (t :: ts) p) (hc : t.1.isComment = false) (f : Nat) (m : Message) :
    ∃ p', p.commentLoop F (f + 1) m = .ok m p' ∧ View all c (t :: ts) p' ∧ Same p p' := by
  rcases hv.scan hF with ⟨h, _⟩ | ⟨t', ts', e, hne, p', h1, h2, h3, h4, h5, h6, h7, h8⟩
  · cases h
  · cases e
    refine ⟨p'.unscan, ?_, h4, h7⟩
    unfold Parser.commentLoop
    rw [h1]
    simp only [Out.bind]
    rw [if_neg (by rw [hc]; simp)]

/-- `parseMessage`. -/
theorem sim_parseMessage {all : List Bytes} {F : Nat} (hF : all.length + 1 < F) {ts c : List Tok} {p : Parser} (hv : View all c ts p) :
    Sim all c ts p (Ready all) (fun pre t e => Blame parseMessage pre t e) (parseMessage ts) (p.parseMessage F) := by
  unfold Parser.parseMessage
  rcases hv.scan hF with ⟨rfl, lit, p', h1, h2, h3, h4, h5, h8⟩ | ⟨t, ts', rfl, hne, p', h1, h2, h3, h4, h5, h6, h7, h8⟩
  · rw [h1]
    exact ⟨p', rfl, h3, h5⟩
  · rw [h1]
    simp only [Out.bind]
    rw [if_neg hne]
    have hlen := hv.length
    obtain ⟨f, rfl⟩ : ∃ f, F = f + 2 := ⟨F - 2, by omega⟩
    by_cases hc : t.1.isComment = true
    · rw [parseMessage_comment hc]
      -- the comment
      rcases h4.scan hF with ⟨h, _⟩ | ⟨t', ts'', e, _, p2, g1, g2, g3, g4, g5, g6, g7, _⟩
      · cases h
      cases e
      have hs2 : Same p p2.unscan := h7.trans g7
      unfold Parser.commentLoop
      rw [g1]
      simp only [Out.bind]
      rw [if_pos hc]
      have sim := sim_parseComment hF (f + 2) (t :: ts') c Comment.new p2.unscan (by omega) g4
      cases hpc : parseComment .new (t :: ts') with
      | eof =>
        rw [hpc] at sim
        obtain ⟨p3, k1, k2, k3⟩ := sim
        rw [k1]
        exact ⟨p3, rfl, k2, hs2.trans k3⟩
      | error e =>
        rw [hpc] at sim
        obtain ⟨pre, x, post, p3, k1, k2, k3, k4, k5, k6, k7⟩ := sim
        rw [k1]
        exact ⟨pre, x, post, p3, rfl, k2, k3, k4, k5, blame_parse_comment hc k2.symm k6, hs2.trans k7⟩
      | panic =>
        rw [hpc] at sim
        obtain ⟨p3, k1, k2, k3⟩ := sim
        rw [k1]
        exact ⟨p3, rfl, k2, hs2.trans k3⟩
      | hang =>
        rw [hpc] at sim
        have sim : Parser.parseComment (f + 2) (f + 2) Comment.new p2.unscan = .hang := sim
        rw [sim]
        rfl
      | ok x =>
        obtain ⟨cm, rest⟩ := x
        rw [hpc] at sim
        obtain ⟨used0, p3, k1, k2, k3, ⟨k4, k5⟩, k6⟩ := sim
        obtain ⟨used, x, xs, e1, e2, e3, e4, e5, e6⟩ := comment_used hpc
        have : used0 = used := List.append_cancel_right (k2.symm.trans e1)
        subst this
        subst e2
        obtain ⟨p4, j1, j2, j3⟩ := commentLoop_stop hF k3 e3 f { Message.new with comment := some cm }
        rw [k1]
        simp only []
        rw [j1]
        simp only [Res.bind]
        rw [e1]
        have hl2 := j2.length
        refine Sim.append (sim_messageLoop hF (f + 2) (x :: xs) (c ++ used0) _ p4 (by omega) j2)
          ((hs2.trans k6).trans j3) ?_
        intro pre y e post hx hb
        exact blame_parse_after hc (by rw [← hx, ← e1]) hx.symm e3 e4 e5 e6 hb
    · have hc : t.1.isComment = false := by simpa using hc
      rw [parseMessage_plain hc]
      obtain ⟨p2, g1, g2, g3⟩ := commentLoop_stop hF h4 hc (f + 1) Message.new
      rw [g1]
      simp only []
      refine Sim.append (pre0 := []) (by
        rw [List.append_nil]
        exact sim_messageLoop hF (f + 2) (t :: ts') c _ p2 (by omega) g2) (h7.trans g3) ?_
      intro pre y e post hx hb
      exact blame_parse_plain hc hx.symm hb

/-! ## The file -/

/-- Errors about a single line. -/
def Positional (e : ParseError) : Prop := e = .position ∨ e = .badIndex

/-- The file loop fails because of the token `t` after the tokens `pre`. -/
def BlameF (u : Unicode) (st : PState) (pre : List Tok) (t : Tok) (e : ParseError) : Prop :=
  (∀ post, loop u st (pre ++ t :: post) = .error e) ∧ ∀ q, q <+: pre → ∀ e', Positional e' → loop u st q ≠ .error e'

theorem store_not_positional {u : Unicode} {st : PState} {m : Message} {e : ParseError} (he : Positional e) :
    store u st m ≠ .error e := by
  unfold store
  rcases he with rfl | rfl
  all_goals
    intro h
    repeat' split at h
    all_goals first | cases h; done | skip
    all_goals
      revert h
      simp only []
      split <;> simp

theorem loop_end {u : Unicode} {st : PState} {m : Message} {e : ParseError} (he : Positional e) :
    ((store u st m).bind fun st => loop u st []) ≠ .error e := by
  cases hs : store u st m with
  | ok st' => simp [Res.bind, loop_nil]
  | error e' => intro h; exact store_not_positional he (hs.trans h)
  | _ => simp [Res.bind]

theorem store_ne_eof {u : Unicode} {st : PState} {m : Message} : store u st m ≠ .eof := by
  unfold store
  intro h
  repeat' split at h
  all_goals first | cases h; done | skip
  all_goals
    revert h
    simp only []
    split <;> simp

theorem only_bind {α β : Type} {r : Res α} {k : α → Res β} (h1 : ∀ e, r = .error e → Positional e)
    (h2 : ∀ a e, k a = .error e → Positional e) : ∀ e, r.bind k = .error e → Positional e := by
  intro e h
  rcases bind_eq_error.1 h with h | ⟨a, _, h⟩
  · exact h1 e h
  · exact h2 a e h

theorem only_from (k : Nat) (t : Bytes) : ∀ e, from? k t = .error e → Positional e := by
  unfold from?; split <;> (intro e h; cases h)

theorem only_decode (t : Bytes) : ∀ e, decode t = .error e → Positional e := fun e h => absurd h (decode_ne_error t e)

theorem only_ok {α : Type} (a : α) : ∀ e, Res.ok a = .error e → Positional e := by intro e h; cases h

theorem only_step (m : Message) (tok : Token) (lit : Bytes) : ∀ e, messageStep m tok lit = .error e → Positional e := by
  unfold messageStep
  split <;> first
    | exact only_bind (only_from _ _) fun _ => only_bind (only_decode _) fun _ => only_ok _
    | exact only_bind (only_decode _) fun _ => only_ok _
    | skip
  · unfold pluralStep
    repeat' split
    all_goals first
      | exact only_bind (only_from _ _) fun _ => only_bind (only_decode _) fun _ => only_ok _
      | (intro e h; cases h; done)
      | (intro e h; cases h; exact .inr rfl)
  · split
    · intro e h; cases h; exact .inl rfl
    · exact only_bind (only_decode _) fun _ => only_ok _
  · intro e h; cases h; exact .inl rfl

/-- The errors of `parseMessage` are about a line. -/
theorem only_parseMessage (ts : List Tok) : ∀ e, parseMessage ts = .error e → Positional e := by
  have hm : ∀ (ts : List Tok) (m : Message), ∀ e, messageLoop m ts = .error e → Positional e := by
    intro ts
    induction ts with
    | nil => intro m e h; cases h
    | cons t ts ih =>
      intro m
      obtain ⟨tok, lit⟩ := t
      rw [messageLoop]
      split
      · intro e h; cases h
      · exact only_bind (only_step _ _ _) ih
  have hc : ∀ (ts : List Tok) (c : Comment), ∀ e, parseComment c ts = .error e → Positional e := by
    intro ts
    induction ts with
    | nil => intro c e h; cases h
    | cons t ts ih =>
      intro c
      obtain ⟨tok, lit⟩ := t
      rw [parseComment]
      split
      · intro e h; cases h; exact .inl rfl
      · split
        · exact only_bind (fun e h => absurd h (commentStep_ne_error _ _ _ _)) ih
        · intro e h; cases h
  match ts with
  | [] => intro e h; cases h
  | (tok, lit) :: ts =>
    rw [parseMessage]
    split
    · exact only_bind (hc _ _) fun _ => hm _ _
    · exact hm _ _

theorem store_error {u : Unicode} {st : PState} {m : Message} {e : ParseError} (h : store u st m = .error e) :
    m.id ≠ [] ∨ m.str ≠ [] := by
  by_cases h1 : m.id = []
  · by_cases h2 : m.str = []
    · unfold store at h
      rw [if_pos h1, if_pos h2] at h
      cases h
    · exact .inr h2
  · exact .inl h1

/-- The file loop fails because of the message in front of the token `term`. -/
def BlameE (u : Unicode) (st : PState) (body term rest : List Tok) (e : ParseError) : Prop :=
  loop u st body = .error e ∧ ((term = [] ∧ rest = []) ∨ ∃ x, term = [x] ∧ x.1.endsMessage = true ∧
    ∀ X, loop u st (body ++ [x] ++ X) = .error e)

/-- Outcome of the loop over the messages. -/
def FileSim (u : Unicode) (all : List Bytes) (c ts : List Tok) (p : Parser) : Res PState → Out Unit → Prop
  | .ok st', o => ∃ p', o = .ok () p' ∧ p'.st = st' ∧ p'.n = false ∧ p'.ignoreComments = p.ignoreComments
  | .eof, _ => False
  | .error e, o => ∃ p', o = .error e p'.s.pos p'.s.text p' ∧ p'.n = false ∧ p'.ignoreComments = p.ignoreComments ∧
      (Positional e → ∃ pre t post, ts = pre ++ t :: post ∧ t.1 ≠ .whitespace ∧ Spot all (c ++ pre) t p'.s ∧
        p'.s.ignoreComments = p.s.ignoreComments ∧ BlameF u p.st pre t e) ∧
      (¬ Positional e → ∃ body term rest, ts = body ++ term ++ rest ∧ View all (c ++ (body ++ term)) rest p' ∧
        Ready all rest p' ∧ (∃ b y, body = b ++ [y] ∧ y.1.endsMessage = false) ∧ p'.s.ignoreComments = p.s.ignoreComments ∧ BlameE u p.st body term rest e)
  | .panic, o => ∃ p', o = .panic p' ∧ p'.n = false ∧ p'.ignoreComments = p.ignoreComments
  | .hang, o => o = .hang

theorem sim_fileLoop {u : Unicode} {all : List Bytes} {F : Nat} (hF : all.length + 1 < F) : ∀ (f : Nat) (ts c : List Tok) (p : Parser),
    ts.length < f → View all c ts p → FileSim u all c ts p (loop u p.st ts) (p.fileLoop u F f) := by
  intro f
  induction f with
  | zero => intro ts c p h; omega
  | succ f ih =>
    intro ts c p hf hv
    have sim := sim_parseMessage hF hv
    rw [loop_eq]
    unfold Parser.fileLoop
    cases hpm : parseMessage ts with
    | eof =>
      rw [hpm] at sim
      obtain ⟨p', h1, h2, h3⟩ := sim
      rw [h1]
      exact ⟨p', rfl, h3.1, h2, h3.2.1⟩
    | panic =>
      rw [hpm] at sim
      obtain ⟨p', h1, h2, h3⟩ := sim
      rw [h1]
      exact ⟨p', rfl, h2, h3.2.1⟩
    | hang =>
      rw [hpm] at sim
      have sim : p.parseMessage F = .hang := sim
      rw [sim]; rfl
    | error e =>
      rw [hpm] at sim
      obtain ⟨pre, x, post, p', h1, h2, h3, h4, h5, h6, h7⟩ := sim
      rw [h1]
      refine ⟨p', rfl, h3, h7.2.1, fun _ => ⟨pre, x, post, h2, h4, h5, h7.2.2, fun post' => ?_, fun q hq e' he' => ?_⟩,
        fun h => absurd (only_parseMessage _ _ hpm) h⟩
      · rw [loop_eq, h6.1 post']
      · rw [loop_eq]
        rcases h6.2 q hq with hq' | ⟨m, hq'⟩
        · rw [hq']; simp
        · rw [hq']; exact loop_end he'
    | ok y =>
      obtain ⟨m, rest⟩ := y
      rw [hpm] at sim
      obtain ⟨used, p', h1, h2, h3, hrd, h6⟩ := sim
      have h4 := hrd.1
      rw [h1]
      simp only []
      rw [← h6.1]
      cases hs : store u p'.st m with
      | eof => exact absurd hs store_ne_eof
      | panic => exact ⟨p', rfl, h4, h6.2.1⟩
      | hang => rfl
      | error e =>
        refine ⟨p', rfl, h4, h6.2.1, fun he => absurd hs (store_not_positional he), fun _ => ?_⟩
        obtain ⟨body, term, e1, elast, e2, e3⟩ := parse_body hpm (store_error hs)
        have hu : used = body ++ term := List.append_cancel_right (h2.symm.trans e1)
        subst hu
        refine ⟨body, term, rest, h2, h3, hrd, elast, h6.2.2, ?_, ?_⟩
        · rw [loop_eq, e2]
          simp only []
          rw [← h6.1, hs]; rfl
        · rcases e3 with e3 | ⟨x, e3, e4, e5⟩
          · exact .inl e3
          · refine .inr ⟨x, e3, e4, fun X => ?_⟩
            rw [loop_eq, e5]
            simp only []
            rw [← h6.1, hs]; rfl
      | ok st' =>
        simp only [Res.bind, Parser.lift, Out.bind]
        by_cases hcond : m.id ≠ [] ∧ p'.lastToken = .eof
        · rw [if_pos hcond, (hrd.2.1 hcond.2).1, loop_nil]
          exact ⟨_, rfl, rfl, h4, h6.2.1⟩
        · rw [if_neg hcond]
          have hv' : View all (c ++ used) rest { p' with st := st' } := by
            cases h3 with
            | ready a b d => exact .ready a b d
            | back a b d e g i => exact .back a b d e g i
            | ended a b d e g => exact .ended a b d e g
          have hlt : rest.length < f := by
            have := parseMessage_length hpm; omega
          have := ih rest (c ++ used) { p' with st := st' } hlt hv'
          change FileSim u all (c ++ used) rest { p' with st := st' } (loop u st' rest) _ at this
          cases hl : loop u st' rest with
          | ok st'' =>
            rw [hl] at this
            obtain ⟨q, g1, g2, g3, g4⟩ := this
            exact ⟨q, g1, g2, g3, g4.trans h6.2.1⟩
          | eof => rw [hl] at this; exact this.elim
          | hang => rw [hl] at this; exact this
          | panic =>
            rw [hl] at this
            obtain ⟨q, g1, g2, g3⟩ := this
            exact ⟨q, g1, g2, g3.trans h6.2.1⟩
          | error e =>
            rw [hl] at this
            obtain ⟨q, g1, g2, g3, g4, g5⟩ := this
            obtain ⟨used', e1, e2, e3⟩ := parse_used hpm
            have : used' = used := List.append_cancel_right (e1.symm.trans h2)
            subst this
            refine ⟨q, g1, g2, g3.trans h6.2.1, fun he => ?_, fun he => ?_⟩
            rotate_left
            · obtain ⟨body, term, rest', k1, k2, krd, ⟨b, y, hb, hy⟩, k3, k4, k5⟩ := g5 he
              have hne : rest ≠ [] := by
                rintro rfl
                rw [loop_nil] at hl; cases hl
              have hrun : ∀ X, loop u p.st (used' ++ X) = loop u st' X := fun X => by
                rw [loop_eq, e2 hne]
                simp only []
                rw [← h6.1, hs]; rfl
              refine ⟨used' ++ body, term, rest', by rw [h2, k1]; simp, by simpa using k2, krd,
                ⟨used' ++ b, y, by rw [hb]; simp, hy⟩, k3.trans h6.2.2, by rw [hrun]; exact k4, ?_⟩
              rcases k5 with k5 | ⟨x, k5, k6, k7⟩
              · exact .inl k5
              · refine .inr ⟨x, k5, k6, fun X => ?_⟩
                rw [show used' ++ body ++ [x] ++ X = used' ++ (body ++ [x] ++ X) by simp, hrun]
                exact k7 X
            obtain ⟨pre, t, post, k1, k2, k3, k4, k5⟩ := g4 he
            have hne : rest ≠ [] := by rw [k1]; simp
            refine ⟨used' ++ pre, t, post, by rw [h2, k1, List.append_assoc], k2, by rw [← List.append_assoc]; exact k3,
              k4.trans h6.2.2, fun post' => ?_, fun z hz e' he' => ?_⟩
            · rw [List.append_assoc, loop_eq, e2 hne]
              simp only []
              rw [← h6.1, hs]
              exact k5.1 post'
            · rcases prefix_append_cases hz with hz | ⟨z', rfl, hz'⟩
              · by_cases hzu : z = used'
                · subst hzu
                  have := e2 hne []
                  rw [List.append_nil] at this
                  rw [loop_eq, this]
                  exact loop_end he'
                · rw [loop_eq]
                  rcases e3 z hz hzu with h | ⟨m', h⟩
                  · rw [h]; simp
                  · rw [h]; exact loop_end he'
              · rw [loop_eq, e2 hne]
                simp only []
                rw [← h6.1, hs]
                exact k5.2 z' hz' e' he'

end Verif.Proofs.Po.Machine
