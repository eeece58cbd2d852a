import Verif.Proofs.Po.MachineSim
import Verif.Props.PoParser
/-!
# The PO parser as a value with a state (C86, C87)

`Verif.Model.Po.Machine` has every field of the parser and of the scanner.  `Used u p`: the parser `p` can be the
result of `NewParser`, `SetIgnoreComments` and calls of `Parse`, whatever they were given and however they ended.
-/
namespace Verif.Props.PoState
open Verif.Go Verif.Model.Po Verif.Model.Po.Machine Verif.Proofs.Po Verif.Proofs.Po.Machine

/-- What the caller sees. -/
def result {α : Type} : Out α → Res α
  | .ok a _ => .ok a
  | .eof _ => .eof
  | .error e _ _ _ => .error e
  | .panic _ => .panic
  | .hang => .hang

/-- The parser afterwards, if the call ends (a panic may be recovered). -/
def after {α : Type} : Out α → Option Parser
  | .ok _ p | .eof p | .error _ _ _ p | .panic p => some p
  | .hang => none

/-- The states that a parser can be in between two calls. -/
inductive Used (u : Unicode) : Parser → Prop
  | new : Used u newParser
  | set {p : Parser} (ignore : Bool) : Used u p → Used u (p.setIgnoreComments ignore)
  | parse {p p' : Parser} (F : Nat) (lines : List Bytes) : Used u p → after (p.parse u F lines) = some p' → Used u p'

/-! ## No token is left over -/

/-- Nothing is put back, and the settings are those of `p`. -/
def Clean (p q : Parser) : Prop := q.n = false ∧ q.ignoreComments = p.ignoreComments

theorem scan_clean {F : Nat} {p p' : Parser} {a : Token × Bytes} (h : p.scan F = .ok a p') : Clean p p' := by
  unfold Parser.scan at h
  split at h
  · cases h; exact ⟨rfl, rfl⟩
  · next hn =>
    split at h
    · cases h
    · cases h; exact ⟨by simpa using hn, rfl⟩

theorem scan_ok {F : Nat} (p : Parser) : (∃ a p', p.scan F = .ok a p') ∨ p.scan F = .hang := by
  unfold Parser.scan
  split
  · exact .inl ⟨_, _, rfl⟩
  · split
    · exact .inr rfl
    · exact .inl ⟨_, _, rfl⟩

/-- `Ends ok p o`: the outcome `o` leaves a clean parser; if there is a result, `ok` holds instead. -/
def Ends {α : Type} (ok : Parser → Prop) (p : Parser) : Out α → Prop
  | .ok _ q => ok q ∧ q.ignoreComments = p.ignoreComments
  | .eof q | .error _ _ _ q | .panic q => Clean p q
  | .hang => True

theorem Ends.mono {α : Type} {ok : Parser → Prop} {p q : Parser} {o : Out α} (h : Ends ok q o)
    (hq : q.ignoreComments = p.ignoreComments) : Ends ok p o := by
  cases o with
  | hang => trivial
  | ok a r => exact ⟨h.1, h.2.trans hq⟩
  | eof r => exact ⟨h.1, h.2.trans hq⟩
  | error e l t r => exact ⟨h.1, h.2.trans hq⟩
  | panic r => exact ⟨h.1, h.2.trans hq⟩

theorem Ends.bind {α β : Type} {ok ok' : Parser → Prop} {p : Parser} {o : Out α} {k : α → Parser → Out β} (h : Ends ok p o)
    (hk : ∀ a q, ok q → q.ignoreComments = p.ignoreComments → Ends ok' p (k a q)) : Ends ok' p (o.bind k) := by
  cases o with
  | hang => trivial
  | ok a q => exact hk a q h.1 h.2
  | _ => exact h

theorem scan_ends (F : Nat) (p : Parser) : Ends (·.n = false) p (p.scan F) := by
  rcases scan_ok (F := F) p with ⟨a, p', h⟩ | h
  · rw [h]; exact scan_clean h
  · rw [h]; trivial

theorem lift_ends {α : Type} {p q : Parser} (hn : q.n = false) (hi : q.ignoreComments = p.ignoreComments) (r : Res α) :
    Ends (·.n = false) p (q.lift r) := by
  cases r <;> first | exact ⟨hn, hi⟩ | trivial

theorem parseComment_ends (F : Nat) : ∀ (f : Nat) (c : Comment) (p : Parser), Ends (fun _ => True) p (p.parseComment F f c) := by
  intro f
  induction f with
  | zero => intro c p; trivial
  | succ f ih =>
    intro c p
    unfold Parser.parseComment
    refine (scan_ends F p).bind ?_
    rintro ⟨tok, lit⟩ q hn hi
    simp only []
    split
    · exact ⟨hn, hi⟩
    · split
      · exact ⟨hn, hi⟩
      · split
        · refine (lift_ends hn hi _).bind ?_
          intro c' r _ hr
          exact (ih c' r).mono hr
        · exact ⟨trivial, hi⟩

theorem commentLoop_ends (F : Nat) : ∀ (f : Nat) (m : Message) (p : Parser), Ends (fun _ => True) p (p.commentLoop F f m) := by
  intro f
  induction f with
  | zero => intro c p; trivial
  | succ f ih =>
    intro c p
    unfold Parser.commentLoop
    refine (scan_ends F p).bind ?_
    rintro ⟨tok, lit⟩ q hn hi
    simp only []
    split
    · refine Ends.bind ((parseComment_ends F F _ _).mono (show q.unscan.ignoreComments = p.ignoreComments from hi)) ?_
      intro c' r _ hr
      exact (ih _ r).mono hr
    · exact ⟨trivial, hi⟩

theorem messageLoop_ends (F : Nat) : ∀ (f : Nat) (m : Message) (p : Parser), Ends (·.n = false) p (p.messageLoop F f m) := by
  intro f
  induction f with
  | zero => intro c p; trivial
  | succ f ih =>
    intro c p
    unfold Parser.messageLoop
    refine (scan_ends F p).bind ?_
    rintro ⟨tok, lit⟩ q hn hi
    simp only []
    split
    · exact ⟨hn, hi⟩
    · split
      · exact ⟨hn, hi⟩
      · refine (lift_ends hn hi _).bind ?_
        intro c' r _ hr
        exact (ih c' r).mono hr

theorem parseMessage_ends (F : Nat) (p : Parser) : Ends (·.n = false) p (p.parseMessage F) := by
  unfold Parser.parseMessage
  refine (scan_ends F p).bind ?_
  rintro ⟨tok, lit⟩ q hn hi
  simp only []
  split
  · exact ⟨hn, hi⟩
  · refine Ends.bind ((commentLoop_ends F F _ _).mono (show q.unscan.ignoreComments = p.ignoreComments from hi)) ?_
    intro m r _ hr
    exact (messageLoop_ends F F m r).mono hr

theorem fileLoop_ends (u : Unicode) (F : Nat) : ∀ (f : Nat) (p : Parser), Ends (·.n = false) p (p.fileLoop u F f) := by
  intro f
  induction f with
  | zero => intro p; trivial
  | succ f ih =>
    intro p
    unfold Parser.fileLoop
    have := parseMessage_ends F p
    split
    · next h => rw [h] at this; exact this
    · next h => rw [h] at this; exact this
    · next h => rw [h] at this; exact this
    · trivial
    · next m q h =>
      rw [h] at this
      refine (lift_ends this.1 this.2 _).bind ?_
      intro st r hn hr
      simp only []
      split
      · exact ⟨hn, hr⟩
      · exact (ih _).mono hr

theorem parse_ends (u : Unicode) (F : Nat) (p : Parser) (lines : List Bytes) : Ends (·.n = false) p (p.parse u F lines) := by
  unfold Parser.parse
  refine Ends.bind ((scan_ends F _).mono rfl) ?_
  rintro ⟨tok, lit⟩ q hn hi
  simp only []
  split
  · exact ⟨hn, hi⟩
  · refine Ends.bind ((fileLoop_ends u F F _).mono (show q.unscan.ignoreComments = p.ignoreComments from hi)) ?_
    intro _ r hr hr'
    exact lift_ends hr hr' _

theorem after_clean {u : Unicode} {F : Nat} {p p' : Parser} {lines : List Bytes} (h : after (p.parse u F lines) = some p') : Clean p p' := by
  have := parse_ends u F p lines
  revert h this
  cases p.parse u F lines with
  | hang => intro h; cases h
  | _ => intro h this; cases h; exact this

theorem Used.clean {u : Unicode} {p : Parser} (h : Used u p) : p.n = false := by
  induction h with
  | new => rfl
  | set _ _ ih => exact ih
  | parse _ _ _ h _ => exact (after_clean h).1

/-! ## The result -/

/-- `Parse` with the state, for a parser without a token put back. -/
theorem parse_spec_full {u : Unicode} {F : Nat} {p : Parser} (hn : p.n = false) {lines : List Bytes} (hF : lines.length + 1 < F) :
    result (p.parse u F lines) = parseLines u p.ignoreComments lines ∧
    (∀ e l t p', p.parse u F lines = .error e l t p' → Positional e → ∃ pre x, Spot lines pre x p'.s ∧ x.1 ≠ .whitespace ∧
      l = p'.s.pos ∧ t = p'.s.text ∧ p'.s.ignoreComments = p.ignoreComments ∧ BlameF u ⟨none, []⟩ pre x e) ∧
    ∀ e l t p', p.parse u F lines = .error e l t p' → (e = .duplicate ∨ e = .secondHeader) → ∃ body term rest,
      View lines (body ++ term) rest p' ∧ Ready lines rest p' ∧ (∃ b y, body = b ++ [y] ∧ y.1.endsMessage = false) ∧
      l = p'.s.pos ∧ t = p'.s.text ∧ p'.s.ignoreComments = p.ignoreComments ∧ BlameE u ⟨none, []⟩ body term rest e := by
  unfold Parser.parse
  have hv : View lines [] (tokens p.ignoreComments lines) { p.reset with s := newScanner p.ignoreComments lines } :=
    .ready hn (Inv.start _ _) rfl
  simp only []
  rcases hv.scan hF with ⟨hts, lit, p', h1, h2, h3, h4, h5, _⟩ | ⟨t, ts', hts, hne, p', h1, h2, h3, h4, h5, h6, h7, _⟩
  · rw [h1]
    simp only [Out.bind, if_true, Parser.lift]
    refine ⟨?_, ?_, ?_⟩
    · unfold parseLines; rw [hts]; rfl
    all_goals
      intro e l t p'' h he
      injection h with h _
      subst h
      rcases he with he | he <;> cases he
  · rw [h1]
    simp only [Out.bind]
    rw [if_neg hne]
    have hst : p'.unscan.st = ⟨none, []⟩ := h7.1
    have hign : p'.unscan.s.ignoreComments = p.ignoreComments := h7.2.2
    have hsim := sim_fileLoop (u := u) hF F (t :: ts') [] p'.unscan (by have := h4.length; omega) h4
    rw [hst] at hsim
    have hpl : parseLines u p.ignoreComments lines = (loop u ⟨none, []⟩ (t :: ts')).bind finish := by
      unfold parseLines; rw [hts]; rfl
    rw [hpl]
    unfold Parser.parseFile
    cases hl : loop u ⟨none, []⟩ (t :: ts') with
    | eof => rw [hl] at hsim; exact hsim.elim
    | hang =>
      rw [hl] at hsim
      have hsim : p'.unscan.fileLoop u F F = .hang := hsim
      rw [hsim]
      exact ⟨rfl, fun _ _ _ _ h => (by cases h), fun _ _ _ _ h => (by cases h)⟩
    | panic =>
      rw [hl] at hsim
      obtain ⟨q, k1, k2, k3⟩ := hsim
      rw [k1]
      exact ⟨rfl, fun _ _ _ _ h => (by cases h), fun _ _ _ _ h => (by cases h)⟩
    | ok st =>
      rw [hl] at hsim
      obtain ⟨q, k1, k2, k3, k4⟩ := hsim
      rw [k1]
      simp only [Res.bind, Out.bind]
      rw [k2]
      refine ⟨?_, ?_, ?_⟩
      · cases finish st <;> rfl
      all_goals
        intro e l t p'' h he
        exfalso
        have : finish st = .error e := by
          revert h
          cases finish st with
          | error e' => intro h; injection h with h; rw [h]
          | _ => intro h; cases h
        rcases finish_cases st with ⟨_, _, h3⟩ | ⟨f, h1, _⟩
        · rw [h3] at this
          injection this with this
          subst this
          rcases he with he | he <;> cases he
        · rw [h1] at this; cases this
    | error e =>
      rw [hl] at hsim
      obtain ⟨q, k1, k2, k3, k4, k5⟩ := hsim
      rw [k1]
      refine ⟨rfl, ?_, ?_⟩
      all_goals
        intro e' l t p'' h he
        injection h with e1 e2 e3 e4
        subst e1 e2 e3 e4
      · obtain ⟨pre, x, post, j1, j2, j3, j4, j5⟩ := k4 he
        exact ⟨pre, x, j3, j2, rfl, rfl, j4.trans hign, by rw [hst] at j5; exact j5⟩
      · obtain ⟨body, term, rest, _, j1, j2, j3, j4, j5⟩ := k5 (by rintro (h | h) <;> (subst h; rcases he with he | he <;> cases he))
        exact ⟨body, term, rest, by rwa [List.nil_append] at j1, j2, j3, rfl, rfl, j4.trans hign, by rw [hst] at j5; exact j5⟩

/-- … without the errors about entries. -/
theorem parse_spec {u : Unicode} {F : Nat} {p : Parser} (hn : p.n = false) {lines : List Bytes} (hF : lines.length + 1 < F) :
    result (p.parse u F lines) = parseLines u p.ignoreComments lines ∧
    ∀ e l t p', p.parse u F lines = .error e l t p' → Positional e → ∃ pre x, Spot lines pre x p'.s ∧ x.1 ≠ .whitespace ∧
      l = p'.s.pos ∧ t = p'.s.text ∧ p'.s.ignoreComments = p.ignoreComments ∧ BlameF u ⟨none, []⟩ pre x e := by
  obtain ⟨h1, h2, _⟩ := parse_spec_full hn hF
  exact ⟨h1, h2⟩

/-- `Parse` gives what a new parser with the same setting gives, whatever the parser was used for before. -/
theorem C86_reuse {u : Unicode} {p : Parser} (h : Used u p) (content : Bytes) :
    ∃ N, ∀ F, N ≤ F → result (p.parse u F (scanLines content)) = parse u p.ignoreComments content :=
  ⟨(scanLines content).length + 2, fun _ hF => (parse_spec h.clean (by omega)).1⟩

/-- `Parse` keeps the setting of `SetIgnoreComments`. -/
theorem C86_settings {u : Unicode} {F : Nat} {p p' : Parser} {lines : List Bytes} (h : after (p.parse u F lines) = some p') :
    p'.ignoreComments = p.ignoreComments := (after_clean h).2

/-- A broken file, then a good one: a parser that is used twice. -/
def broken : List Bytes := [b!"msgid \"a\"", b!"", b!"# note", b!"  msgid x", b!"msgstr \"b\""]

/-- … -/
def good : List Bytes := [b!"msgid \"a\"", b!"msgstr \"b\""]

/-- The parser after reading `broken` still holds its tokens and line numbers, and is `Used`. -/
example (u : Unicode) : ∃ p, after (newParser.parse u 9 broken) = some p ∧ p.lastToken = .failure ∧ p.s.pos = 4 ∧
    Used u p ∧ Used u (p.setIgnoreComments true) ∧
    result (p.parse u 9 good) = .ok ⟨some {}, [([], [(b!"a", { Message.new with id := b!"a", str := [(0, b!"b")] })])]⟩ := by
  refine ⟨_, rfl, rfl, rfl, .parse 9 broken .new rfl, .set true (.parse 9 broken .new rfl), by rfl⟩

/-! ## The line of an error -/

theorem loop_of_tokens' {u : Unicode} {ign : Bool} {lines : List Bytes} {e : ParseError} (hp : e ≠ .empty) :
    parseLines u ign lines = .error e ↔ loop u ⟨none, []⟩ (tokens ign lines) = .error e := by
  unfold parseLines
  cases ht : tokens ign lines with
  | nil =>
    rw [loop_nil]
    constructor
    · intro h; injection h with h; exact absurd h.symm hp
    · intro h; cases h
  | cons t ts =>
    change (loop u ⟨none, []⟩ (t :: ts)).bind finish = .error e ↔ _
    cases hl : loop u ⟨none, []⟩ (t :: ts) with
    | ok st =>
      simp only [Res.bind]
      constructor
      · intro h
        rcases finish_cases st with ⟨_, _, h3⟩ | ⟨f, h1, _⟩
        · rw [h3] at h; injection h with h; exact absurd h.symm hp
        · rw [h1] at h; cases h
      · intro h; cases h
    | _ => simp [Res.bind]

theorem loop_of_tokens {u : Unicode} {ign : Bool} {lines : List Bytes} {e : ParseError} (hp : Positional e) :
    parseLines u ign lines = .error e ↔ loop u ⟨none, []⟩ (tokens ign lines) = .error e :=
  loop_of_tokens' (by rintro rfl; rcases hp with hp | hp <;> cases hp)

/-- A file that cannot be parsed because of a line or of the number in `msgstr[...]`: the error shows the number of
this line and, if it is a `buildPosError`, its text.  Every file that starts with the lines up to this one is rejected
for the same reason, and no shorter beginning of the file is rejected because of one of its lines. -/
theorem C87_line_partial {u : Unicode} {p : Parser} (h : Used u p) {lines : List Bytes} {F : Nat} (hF : lines.length + 2 ≤ F)
    {e : ParseError} {l : Nat} {t : Bytes} {p' : Parser} (he : p.parse u F lines = .error e l t p')
    (hp : e = .position ∨ e = .badIndex) :
    1 ≤ l ∧ lines[l - 1]? = some t ∧ (∀ tail, parseLines u p.ignoreComments (lines.take l ++ tail) = .error e) ∧
      ∀ k, k < l → parseLines u p.ignoreComments (lines.take k) ≠ .error .position ∧
        parseLines u p.ignoreComments (lines.take k) ≠ .error .badIndex := by
  obtain ⟨pre, x, hs, hw, rfl, rfl, hi, hb⟩ := (parse_spec h.clean (by omega)).2 e l t p' he hp
  obtain ⟨_, h1, h2, h3, h4⟩ := hs hw
  rw [hi] at h3 h4
  refine ⟨h1, h2, fun tail => ?_, fun k hk => ?_⟩
  · obtain ⟨post, hpost⟩ := h4 tail
    rw [loop_of_tokens hp, hpost]
    exact hb.1 post
  · have hpre : tokens p.ignoreComments (lines.take k) <+: pre := by
      have := tokensFrom_prefix p.ignoreComments (lines.take k) ((lines.take (p'.s.pos - 1)).drop k) false .eof
      have e : lines.take k ++ (lines.take (p'.s.pos - 1)).drop k = lines.take (p'.s.pos - 1) := by
        have : lines.take k = (lines.take (p'.s.pos - 1)).take k := by rw [List.take_take, Nat.min_eq_left (by omega)]
        rw [this, List.take_append_drop]
      rw [e] at this
      rw [← h3]
      exact this
    constructor
    · rw [Ne, loop_of_tokens (.inl rfl)]; exact hb.2 _ hpre _ (.inl rfl)
    · rw [Ne, loop_of_tokens (.inr rfl)]; exact hb.2 _ hpre _ (.inr rfl)

/-- The hypotheses hold for `broken`, and for a number that `Atoi` rejects. -/
example (u : Unicode) : (∃ p, newParser.parse u 9 broken = .error .position 4 b!"  msgid x" p) ∧
    ∃ p, newParser.parse u 9 [b!"", b!"msgid \"a\"", b!"msgstr[99999999999999999999] \"b\""] =
      .error .badIndex 3 b!"msgstr[99999999999999999999] \"b\"" p :=
  ⟨⟨_, rfl⟩, ⟨_, by rfl⟩⟩

/-- The second entry with the id `a` has the lines 4 and 5. -/
def twice : List Bytes := [b!"msgid \"a\"", b!"msgstr \"1\"", b!"", b!"msgid \"a\"", b!"msgstr \"2\"", b!"",
  b!"msgid \"c\"", b!"msgstr \"3\""]

/-- Two headers; the second one has the lines 4 and 5. -/
def headers : List Bytes := [b!"msgid \"\"", b!"msgstr \"A: b\"", b!"", b!"msgid \"\"", b!"msgstr \"A: c\"", b!"",
  b!"msgid \"c\"", b!"msgstr \"3\""]

/-- The errors about a whole entry name a line that does not belong to it: the scanner has already read the next
entry.  The file is rejected without that line as well. -/
theorem C87_negation (u : Unicode) :
    (∃ p, newParser.parse u 12 twice = .error .duplicate 7 b!"msgid \"c\"" p) ∧
    parseLines u false (twice.take 5) = .error .duplicate ∧
    (∃ f, parseLines u false (twice.take 3 ++ twice.drop 6) = .ok f) ∧
    (∃ p, newParser.parse u 12 headers = .error .secondHeader 7 b!"msgid \"c\"" p) ∧
    parseLines u false (headers.take 5) = .error .secondHeader := by
  refine ⟨⟨_, by rfl⟩, by rfl, ⟨_, by rfl⟩, ⟨_, by rfl⟩, by rfl⟩

/-- The errors about a whole entry, for every file: the line shown is behind the entry.  The lines in front of
it are rejected for the same reason, as is every file that starts with the lines up to it; or the end of the file has
been reached, and the number of its last line is shown with an empty text. -/
theorem C87_entry_line {u : Unicode} {p : Parser} (h : Used u p) {lines : List Bytes} {F : Nat} (hF : lines.length + 2 ≤ F)
    {e : ParseError} {l : Nat} {t : Bytes} {p' : Parser} (he : p.parse u F lines = .error e l t p')
    (hp : e = .duplicate ∨ e = .secondHeader) :
    (1 ≤ l ∧ lines[l - 1]? = some t ∧ parseLines u p.ignoreComments (lines.take (l - 1)) = .error e ∧
      ∀ tail, parseLines u p.ignoreComments (lines.take l ++ tail) = .error e) ∨
    (l = lines.length ∧ t = []) := by
  have hne : e ≠ .empty := by rintro rfl; rcases hp with hp | hp <;> cases hp
  obtain ⟨body, term, rest, hv, hrd, ⟨b, y, hb, hy⟩, rfl, rfl, hi, hbl⟩ := (parse_spec_full h.clean (by omega)).2.2 e l t p' he hp
  cases hv with
  | ended _ _ _ h1 h2 => exact .inr ⟨h1, h2⟩
  | back hn => rw [hrd.1] at hn; cases hn
  | ready _ hinv htoks =>
    by_cases heof : p'.lastToken = .eof
    · exact .inr (hrd.2.1 heof).2
    have hends := hrd.2.2 heof
    rcases hbl.2 with ⟨rfl, _⟩ | ⟨x, rfl, hx, hX⟩
    · rw [List.append_nil, hb] at hinv
      rw [(hinv.last b y rfl).1, hy] at hends; cases hends
    · obtain ⟨hlast, hspot⟩ := hinv.last body x rfl
      by_cases hw : x.1 = .whitespace
      · cases hsn : p'.s.n with
        | false => exact .inr (hinv.ended (hlast.trans hw) hsn)
        | true =>
          left
          have hpos := hinv.counted hsn
          have hbase : base p'.s = p'.s.pos - 1 := by simp [base, hsn]
          have hpend : pending p'.s = p'.s.text :: p'.s.rest := by simp [pending, hsn]
          have hl := hinv.lines
          rw [hpend, hbase] at hl
          have hget : lines[p'.s.pos - 1]? = some p'.s.text := by
            have := congrArg List.head? hl
            rw [List.head?_drop] at this
            exact this.symm
          have htk := hinv.toks
          rw [hbase, hi] at htk
          refine ⟨hpos, hget, ?_, fun tail => ?_⟩
          · rw [loop_of_tokens' hne]
            have := htk []
            rw [List.append_nil] at this
            rw [this]
            exact hX _
          · rw [loop_of_tokens' hne]
            have e1 : lines.take p'.s.pos ++ tail = lines.take (p'.s.pos - 1) ++ (p'.s.text :: tail) := by
              have : lines.take p'.s.pos = lines.take (p'.s.pos - 1) ++ [p'.s.text] := by
                rw [show p'.s.pos = p'.s.pos - 1 + 1 by omega, List.take_add_one, Nat.add_sub_cancel, hget]; rfl
              rw [this]; simp
            rw [e1, htk]
            exact hX _
      · left
        obtain ⟨_, h1, h2, h3, h4⟩ := hspot hw
        rw [hi] at h3 h4
        refine ⟨h1, h2, ?_, fun tail => ?_⟩
        · rw [loop_of_tokens' hne, h3]; exact hbl.1
        · obtain ⟨post, hpost⟩ := h4 tail
          rw [loop_of_tokens' hne, hpost]
          have := hX post
          simpa using this

/-- The hypotheses hold for `twice`, with a line behind the entry, and for its first five lines, without one. -/
example (u : Unicode) : (∃ p, newParser.parse u 12 twice = .error .duplicate 7 b!"msgid \"c\"" p) ∧
    ∃ p, newParser.parse u 12 (twice.take 5) = .error .duplicate 5 [] p := ⟨⟨_, by rfl⟩, ⟨_, by rfl⟩⟩

end Verif.Props.PoState
