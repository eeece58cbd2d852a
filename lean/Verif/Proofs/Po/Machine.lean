import Verif.Model.Po.Machine
import Verif.Proofs.Po.Parser
/-!
# The parser with its state and the parser on tokens

First the scanner: reading lines with `read` and `unread` delivers the tokens of `Verif.Model.Po.tokens`.
-/
namespace Verif.Proofs.Po.Machine
open Verif.Go Verif.Model.Po Verif.Model.Po.Machine Verif.Proofs.Po

/-! ## The scanner -/

/-- The lines that `read` still delivers. -/
def pending (s : Scanner) : List Bytes := if s.n then s.text :: s.rest else s.rest

/-- The number of lines that `read` delivered for good. -/
def base (s : Scanner) : Nat := s.pos - (if s.n then 1 else 0)

/-- A pending line has been counted. -/
def Counted (s : Scanner) : Prop := s.n = true → 1 ≤ s.pos

theorem blank_iff (l : Bytes) : (l = [] ∨ trimSpace l = []) ↔ isBlankLine l = true := by
  unfold isBlankLine
  constructor
  · rintro (rfl | h)
    · decide
    · exact decide_eq_true h
  · exact fun h => .inr (of_decide_eq_true h)

/-- `read` takes the first pending line. -/
theorem read_nil {s : Scanner} (h : pending s = []) : s.read = (none, { s with text := [] }) ∧ s.n = false := by
  unfold pending at h
  split at h
  · cases h
  · next hn =>
    have hn : s.n = false := by simpa using hn
    refine ⟨?_, hn⟩
    unfold Scanner.read
    rw [hn, h]; rfl

theorem read_cons {s : Scanner} {l : Bytes} {ls : List Bytes} (hc : Counted s) (h : pending s = l :: ls) :
    ∃ s', s.read = (some l, s') ∧ s'.n = false ∧ s'.rest = ls ∧ s'.text = l ∧ s'.pos = base s + 1 ∧
      s'.lastToken = s.lastToken ∧ s'.ignoreComments = s.ignoreComments := by
  unfold pending at h
  split at h
  · next hn =>
    injection h with h1 h2
    refine ⟨{ s with n := false }, ?_, rfl, h2, h1, ?_, rfl, rfl⟩
    · unfold Scanner.read; rw [hn, h1]; rfl
    · have := hc hn; simp only [base, hn, if_true]; omega
  · next hn =>
    have hn : s.n = false := by simpa using hn
    refine ⟨{ s with rest := ls, text := l, pos := s.pos + 1 }, ?_, hn, rfl, rfl, ?_, rfl, rfl⟩
    · unfold Scanner.read; rw [hn, h]; rfl
    · simp [base, hn]

theorem scanWhitespace_spec : ∀ (f : Nat) (s : Scanner), s.n = false → s.rest.length < f →
    ∃ s', s.scanWhitespace f = some s' ∧ pending s' = s.rest.dropWhile isBlankLine ∧ Counted s' ∧
      s'.lastToken = s.lastToken ∧ s'.ignoreComments = s.ignoreComments ∧
      base s' + (pending s').length = s.pos + s.rest.length ∧
      (s'.n = false → pending s' = [] ∧ s'.text = []) := by
  intro f
  induction f with
  | zero => intro s _ h; omega
  | succ f ih =>
    intro s hn hf
    unfold Scanner.scanWhitespace
    cases hr : s.rest with
    | nil =>
      obtain ⟨h1, -⟩ := read_nil (s := s) (by simp [pending, hn, hr])
      rw [h1]
      exact ⟨_, rfl, by simp [pending, hn, hr], by simp [Counted, hn], rfl, rfl, by simp [base, pending, hn, hr],
        fun _ => ⟨by simp [pending, hn, hr], rfl⟩⟩
    | cons l ls =>
      obtain ⟨s1, h1, n1, r1, t1, p1, l1, i1⟩ := read_cons (s := s) (l := l) (ls := ls) (by simp [Counted, hn]) (by simp [pending, hn, hr])
      rw [h1]
      have hb : base s = s.pos := by simp [base, hn]
      simp only [blank_iff]
      by_cases hl : isBlankLine l = true
      · rw [if_pos hl, List.dropWhile_cons_of_pos hl]
        obtain ⟨s2, h2, g1, g2, g3, g4, g5, g6⟩ := ih s1 n1 (by rw [r1]; rw [hr] at hf; simp at hf; omega)
        rw [r1] at g1 g5
        refine ⟨s2, h2, g1, g2, g3.trans l1, g4.trans i1, ?_, g6⟩
        rw [g5, p1, hb]; simp; omega
      · rw [if_neg hl, List.dropWhile_cons_of_neg hl]
        refine ⟨s1.unread, rfl, by simp [pending, Scanner.unread, t1, r1], ?_, l1, i1, ?_, by simp [Scanner.unread]⟩
        · intro _; simp [Scanner.unread, p1]
        · rw [hb] at p1; simp [base, pending, Scanner.unread, p1, r1]

/-- A line that is not blank is neither white space nor the end. -/
theorem lineToken_ne {ign : Bool} {last t : Token} {l : Bytes} (h : lineToken ign last l = some t) :
    t ≠ .whitespace ∧ t ≠ .eof := by
  have hc : ∀ c, commentToken last c l ≠ .whitespace ∧ commentToken last c l ≠ .eof := by
    intro c
    unfold commentToken prevContinuation
    constructor
    all_goals
      repeat' split
      all_goals simp
  have hm : scanMessage last l ≠ .whitespace ∧ scanMessage last l ≠ .eof := by
    unfold scanMessage continuation
    constructor
    all_goals
      repeat' split
      all_goals simp
  unfold lineToken at h
  split at h
  · unfold scanComment at h
    repeat' split at h
    all_goals first | (cases h; done) | (cases h; simp; done) | (injection h with h; subst h; exact hc _)
  · split at h
    · cases h; simp
    · cases h; exact hm

/-- One call of `scan` of the scanner with its state. -/
theorem scan_spec : ∀ (f : Nat) (s : Scanner), Counted s → (pending s).length + 1 < f →
    ∃ t lit s', Verif.Model.Po.scan s.ignoreComments s.lastToken (pending s) = (t, lit, pending s') ∧
      s.scan f = some (t, lit, s') ∧ Counted s' ∧ s'.lastToken = t ∧ s'.ignoreComments = s.ignoreComments ∧
      base s' + (pending s').length = base s + (pending s).length ∧
      (t ≠ .whitespace → t ≠ .eof → s'.n = false ∧
        (pending s)[(pending s).length - (pending s').length - 1]? = some s'.text ∧
        (pending s').length < (pending s).length) ∧
      (t = .whitespace → s'.n = false → pending s' = [] ∧ s'.text = []) ∧
      (t = .eof → s'.n = false ∧ s'.text = []) := by
  intro f
  induction f with
  | zero => intro s _ h; omega
  | succ f ih =>
    intro s hc hf
    unfold Scanner.scan
    cases hp : pending s with
    | nil =>
      obtain ⟨h1, hn⟩ := read_nil hp
      rw [h1]
      refine ⟨.eof, [], _, ?_, rfl, ?_, rfl, rfl, ?_, fun _ h => absurd rfl h, by simp, fun _ => ⟨hn, rfl⟩⟩
      · simp only [Verif.Model.Po.scan, pending, hn, Bool.false_eq_true, if_false] at hp ⊢
        rw [hp]
      · simp [Counted, hn]
      · simp only [base, pending, hn, Bool.false_eq_true, if_false] at hp ⊢
        rw [hp]
    | cons l ls =>
      obtain ⟨s1, h1, n1, r1, t1, p1, l1, i1⟩ := read_cons hc hp
      rw [h1]
      simp only [blank_iff]
      rw [Verif.Model.Po.scan]
      by_cases hl : isBlankLine l = true
      · rw [if_pos hl, if_pos hl]
        obtain ⟨s2, h2, g1, g2, g3, g4, g5, g6⟩ := scanWhitespace_spec f s1 n1 (by rw [r1]; rw [hp] at hf; simp at hf; omega)
        rw [h2]
        refine ⟨.whitespace, [], { s2 with lastToken := .whitespace }, ?_, rfl, g2, rfl, g4.trans i1, ?_, fun h => absurd rfl h,
          fun _ => g6, by simp⟩
        · rw [r1] at g1; rw [← g1]; rfl
        · have : base s2 + (pending s2).length = base s + (ls.length + 1) := by rw [g5, p1, r1]; omega
          exact this
      · rw [if_neg hl, if_neg hl]
        rw [l1, i1]
        cases ht : lineToken s.ignoreComments s.lastToken (trimSpace l) with
        | some t =>
          refine ⟨t, trimSpace l, { s1 with lastToken := t }, ?_, rfl, by simp [Counted, n1], rfl, i1, ?_, ?_,
            fun h => absurd h (lineToken_ne ht).1, fun h => absurd h (lineToken_ne ht).2⟩
          · simp [pending, n1, r1]
          · simp [base, pending, n1, p1, r1]; omega
          · intro _ _
            refine ⟨n1, ?_, ?_⟩ <;> simp [pending, n1, r1, t1]
        | none =>
          have hp1 : pending s1 = ls := by simp [pending, n1, r1]
          have hb1 : base s1 = base s + 1 := by simp [base, n1, p1]
          obtain ⟨t, lit, s2, g1, g2, g3, g4, g5, g6, g7, g8, g9⟩ := ih s1 (by simp [Counted, n1]) (by rw [hp1]; rw [hp] at hf; simp at hf; omega)
          rw [g2]
          rw [hp1, l1, i1] at g1
          refine ⟨t, lit, { s2 with lastToken := t }, g1, rfl, g3, rfl, g5.trans i1, ?_, ?_, g8, g9⟩
          · change base s2 + (pending s2).length = base s + (ls.length + 1)
            rw [hp1, hb1] at g6; omega
          · intro a b
            obtain ⟨e1, e2, e3⟩ := g7 a b
            refine ⟨e1, ?_, ?_⟩
            · change (l :: ls)[ls.length + 1 - (pending s2).length - 1]? = some s2.text
              rw [hp1] at e2 e3
              rw [← e2, show ls.length + 1 - (pending s2).length - 1 = (ls.length - (pending s2).length - 1) + 1 by omega]
              rfl
            · change (pending s2).length < ls.length + 1
              rw [hp1] at e3; omega

/-! ## Lines and tokens -/

/-- The tokens of the lines that a call of `scan` consumes, whatever lines follow. -/
theorem scan_step (ign : Bool) : ∀ (L : List Bytes) (w : Bool) (last : Token) {t : Token} {lit : Bytes} {L' : List Bytes},
    Verif.Model.Po.scan ign last L = (t, lit, L') → t ≠ .eof → (w = true → ∀ l ∈ L.head?, isBlankLine l = false) →
    ∃ k, L' = L.drop k ∧ 1 ≤ k ∧ k ≤ L.length ∧
      (∀ tail, tokensFrom ign w last (L.take k ++ tail) = (t, lit) :: tokensFrom ign (decide (t = .whitespace)) t tail) ∧
      (t ≠ .whitespace → tokensFrom ign w last (L.take (k - 1)) = []) := by
  intro L
  induction L with
  | nil => intro w last t lit L' h ht; cases h; exact absurd rfl ht
  | cons l ls ih =>
    intro w last t lit L' h ht hw
    rw [Verif.Model.Po.scan] at h
    by_cases hl : isBlankLine l = true
    · rw [if_pos hl] at h
      have hw' : w = false := by
        cases w with
        | false => rfl
        | true => exact absurd (hw rfl l rfl) (by rw [hl]; simp)
      subst hw'
      cases h
      have key : ∃ k, ls.dropWhile isBlankLine = ls.drop k ∧ k ≤ ls.length ∧ ∀ x ∈ ls.take k, isBlankLine x = true := by
        clear ih hw ht
        induction ls with
        | nil => exact ⟨0, rfl, Nat.le_refl _, fun x hx => by cases hx⟩
        | cons a as ih =>
          by_cases ha : isBlankLine a = true
          · obtain ⟨k, h1, h2, h3⟩ := ih
            refine ⟨k + 1, by rw [List.dropWhile_cons_of_pos ha, h1]; rfl, by simp; omega, ?_⟩
            intro x hx
            rw [List.take_succ_cons] at hx
            rcases List.mem_cons.1 hx with rfl | hx
            · exact ha
            · exact h3 x hx
          · exact ⟨0, by rw [List.dropWhile_cons_of_neg ha]; rfl, Nat.zero_le _, fun x hx => by cases hx⟩
      obtain ⟨k, h1, h2, h3⟩ := key
      refine ⟨k + 1, by rw [h1]; rfl, by omega, by simp; omega, ?_, fun h => absurd rfl h⟩
      intro tail
      rw [List.take_succ_cons, List.cons_append, tokensFrom, if_pos hl, if_neg (by simp)]
      congr 1
      generalize ls.take k = bs at h3
      induction bs with
      | nil => rfl
      | cons b bs ih =>
        rw [List.cons_append, tokensFrom, if_pos (h3 b List.mem_cons_self), if_pos rfl]
        exact ih fun x hx => h3 x (List.mem_cons_of_mem _ hx)
    · rw [if_neg hl] at h
      cases hk : lineToken ign last (trimSpace l) with
      | some t' =>
        rw [hk] at h
        cases h
        have hne : t ≠ .whitespace := by
          rintro rfl
          unfold lineToken at hk
          split at hk
          · unfold scanComment at hk
            repeat' split at hk
            all_goals first | cases hk | skip
            injection hk with hk
            unfold commentToken prevContinuation at hk
            repeat' split at hk
            all_goals cases hk
          · revert hk
            unfold scanMessage continuation
            repeat' split
            all_goals simp
        refine ⟨1, rfl, Nat.le_refl _, by simp, ?_, fun _ => rfl⟩
        intro tail
        rw [List.take_succ_cons, List.cons_append, tokensFrom, if_neg hl, hk, decide_eq_false hne]
        rfl
      | none =>
        rw [hk] at h
        obtain ⟨k, h1, h2, h3, h4, h5⟩ := ih false last h ht (by simp)
        refine ⟨k + 1, h1, by omega, by simp; omega, ?_, ?_⟩
        · intro tail
          rw [List.take_succ_cons, List.cons_append, tokensFrom, if_neg hl, hk]
          exact h4 tail
        · intro hne
          rw [show k + 1 - 1 = (k - 1) + 1 by omega, List.take_succ_cons, tokensFrom, if_neg hl, hk]
          exact h5 hne

/-- The tokens of the first lines are the first tokens. -/
theorem tokensFrom_prefix (ign : Bool) : ∀ (A B : List Bytes) (w : Bool) (last : Token),
    tokensFrom ign w last A <+: tokensFrom ign w last (A ++ B) := by
  intro A
  induction A with
  | nil => intro B w last; exact List.nil_prefix
  | cons a A ih =>
    intro B w last
    rw [List.cons_append, tokensFrom, tokensFrom]
    split
    · split
      · exact ih B _ _
      · exact (List.prefix_cons_inj _).2 (ih B _ _)
    · split
      · exact ih B _ _
      · exact (List.prefix_cons_inj _).2 (ih B _ _)

/-- After blank lines a line follows that is not blank. -/
theorem scan_ws_head {ign : Bool} : ∀ {L : List Bytes} {last : Token} {lit : Bytes} {L' : List Bytes},
    Verif.Model.Po.scan ign last L = (.whitespace, lit, L') → ∀ l ∈ L'.head?, isBlankLine l = false := by
  intro L
  induction L with
  | nil => intro last lit L' h; cases h
  | cons l ls ih =>
    intro last lit L' h
    rw [Verif.Model.Po.scan] at h
    split at h
    · cases h
      intro x hx
      have := List.head?_dropWhile_not isBlankLine ls
      rw [Option.mem_def] at hx
      rw [hx] at this
      simpa using this
    · cases hk : lineToken ign last (trimSpace l) with
      | some t' =>
        rw [hk] at h
        have h : t' = .whitespace := congrArg (·.1) h
        subst h
        exfalso
        unfold lineToken at hk
        split at hk
        · unfold scanComment at hk
          repeat' split at hk
          all_goals first | cases hk | skip
          injection hk with hk
          unfold commentToken prevContinuation at hk
          repeat' split at hk
          all_goals cases hk
        · revert hk
          unfold scanMessage continuation
          repeat' split
          all_goals simp
      | none => rw [hk] at h; exact ih h

/-! ## The state of the scanner in a file -/

/-- The line of the token that was delivered last, if it is no white space: its number and its text. -/
def Spot (all : List Bytes) (c : List Tok) (t : Tok) (s : Scanner) : Prop :=
  t.1 ≠ .whitespace → s.n = false ∧ 1 ≤ s.pos ∧ all[s.pos - 1]? = some s.text ∧
    tokens s.ignoreComments (all.take (s.pos - 1)) = c ∧
    ∀ tail, ∃ post, tokens s.ignoreComments (all.take s.pos ++ tail) = c ++ t :: post

/-- The scanner has delivered the tokens `c` of the lines `all`. -/
structure Inv (all : List Bytes) (c : List Tok) (s : Scanner) : Prop where
  counted : Counted s
  lines : pending s = all.drop (base s)
  total : base s + (pending s).length = all.length
  head : s.lastToken = .whitespace → ∀ l ∈ (pending s).head?, isBlankLine l = false
  toks : ∀ tail, tokens s.ignoreComments (all.take (base s) ++ tail) =
    c ++ tokensFrom s.ignoreComments (decide (s.lastToken = .whitespace)) s.lastToken tail
  ended : s.lastToken = .whitespace → s.n = false → s.pos = all.length ∧ s.text = []
  last : ∀ c' t, c = c' ++ [t] → s.lastToken = t.1 ∧ Spot all c' t s

theorem Inv.start (ign : Bool) (all : List Bytes) : Inv all [] (newScanner ign all) := by
  refine ⟨by simp [Counted, newScanner], by simp [pending, base, newScanner], by simp [pending, base, newScanner],
    by simp [newScanner], ?_, by simp [newScanner], by simp⟩
  intro tail
  simp [base, newScanner, tokens]

/-- All tokens, seen from a state of the scanner. -/
theorem Inv.split {all : List Bytes} {c : List Tok} {s : Scanner} (h : Inv all c s) :
    tokens s.ignoreComments all = c ++ tokensFrom s.ignoreComments false s.lastToken (pending s) := by
  have := h.toks (all.drop (base s))
  rw [List.take_append_drop, ← h.lines] at this
  rw [this]
  congr 1
  by_cases hw : s.lastToken = .whitespace
  · rw [decide_eq_true hw, tokensFrom_ws]
    congr 1
    cases hp : pending s with
    | nil => rfl
    | cons a as =>
      have := h.head hw a (by rw [hp]; rfl)
      rw [List.dropWhile_cons_of_neg (by rw [this]; simp)]
  · rw [decide_eq_false hw]

/-- What a call of `scan` does in a file. -/
theorem Inv.scan {all : List Bytes} {c : List Tok} {s : Scanner} (h : Inv all c s) {F : Nat} (hF : all.length + 1 < F) :
    (∃ lit s', s.scan F = some (.eof, lit, s') ∧ tokens s.ignoreComments all = c ∧ pending s' = [] ∧
        s'.ignoreComments = s.ignoreComments ∧ Counted s' ∧ s'.pos = all.length ∧ s'.text = []) ∨
    ∃ t s', s.scan F = some (t.1, t.2, s') ∧ t.1 ≠ .eof ∧ Inv all (c ++ [t]) s' ∧ Spot all c t s' ∧
      s'.ignoreComments = s.ignoreComments := by
  obtain ⟨t, lit, s', h1, h2, h3, h4, h5, h6, h7, h8, h9⟩ := scan_spec F s h.counted (by have := h.total; omega)
  by_cases ht : t = .eof
  · left
    subst ht
    have hp' : pending s' = [] := by
      have : ∀ (L : List Bytes) (last : Token) {lit : Bytes} {L' : List Bytes},
          Verif.Model.Po.scan s.ignoreComments last L = (.eof, lit, L') → L' = [] := by
        intro L
        induction L with
        | nil => intro last lit L' e; cases e; rfl
        | cons l ls ih =>
          intro last lit L' e
          by_cases hb : tokensFrom s.ignoreComments false last (l :: ls) = []
          · rw [tokensFrom] at hb
            rw [Verif.Model.Po.scan] at e
            split at e
            · cases e
            · next hl =>
              rw [if_neg hl] at hb
              cases hk : lineToken s.ignoreComments last (trimSpace l) with
              | none => rw [hk] at e; exact ih last e
              | some t' => rw [hk] at hb; cases hb
          · rw [tokens_scan, e] at hb; exact absurd rfl hb
      exact this _ _ h1
    refine ⟨lit, s', h2, ?_, hp', h5, h3, ?_, (h9 rfl).2⟩
    · rw [h.split, tokens_scan, h1]; simp
    · have := h.total; rw [hp'] at h6; have e := (h9 rfl).1; simp [base, e] at h6; unfold base at this; omega
  · right
    have hw : decide (s.lastToken = .whitespace) = true → ∀ l ∈ (pending s).head?, isBlankLine l = false :=
      fun hh => h.head (of_decide_eq_true hh)
    obtain ⟨k, k1, k2, k3, k4, k5⟩ := scan_step s.ignoreComments (pending s) _ s.lastToken h1 ht hw
    have hlen : (pending s').length = (pending s).length - k := by rw [k1, List.length_drop]
    have hbase : base s' = base s + k := by omega
    have htot := h.total
    have htake : all.take (base s') = all.take (base s) ++ (pending s).take k := by
      rw [hbase, h.lines, List.take_add]
    have htoks : ∀ tail, tokens s'.ignoreComments (all.take (base s') ++ tail) =
        c ++ (t, lit) :: tokensFrom s'.ignoreComments (decide (s'.lastToken = .whitespace)) s'.lastToken tail := by
      intro tail
      rw [htake, h5, List.append_assoc, h.toks, k4, h4]
    have hspot : Spot all c (t, lit) s' := by
      intro hne
      obtain ⟨e1, e2, e3⟩ := h7 hne ht
      have hb' : base s' = s'.pos := by simp [base, e1]
      refine ⟨e1, by omega, ?_, ?_, fun tail => ⟨_, by rw [← hb']; exact htoks tail⟩⟩
      · rw [hlen, h.lines, List.getElem?_drop] at e2
        rw [← e2]
        congr 1
        have : (all.drop (base s)).length = (pending s).length := by rw [h.lines]
        omega
      · rw [h5, ← hb', hbase, show base s + k - 1 = base s + (k - 1) by omega, List.take_add, ← h.lines, h.toks, k5 hne]
        simp
    refine ⟨(t, lit), s', h2, ht, ⟨h3, ?_, by omega, ?_, ?_, ?_, ?_⟩, hspot, h5⟩
    · rw [k1, h.lines, List.drop_drop, hbase]
    · intro e l hl
      rw [h4] at e; subst e
      exact scan_ws_head h1 l hl
    · intro tail
      rw [htoks]; simp
    · intro e hn
      rw [h4] at e
      obtain ⟨g1, g2⟩ := h8 e hn
      refine ⟨?_, g2⟩
      rw [g1] at hlen
      have hb' : base s' = s'.pos := by simp [base, hn]
      simp at hlen; omega
    · intro c' t' e
      obtain ⟨e1, e2⟩ := List.append_inj' e rfl
      injection e2 with e2 _
      subst e1 e2
      exact ⟨h4, hspot⟩

end Verif.Proofs.Po.Machine
