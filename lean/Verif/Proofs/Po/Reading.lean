import Verif.Model.Po.Reading
import Verif.Spec.Reader
import Verif.Proofs.Po.FileRead
import Verif.Proofs.Po.Heads
/-!
# The line scanner on a reader
-/
namespace Verif.Proofs.Po.Reading
open Verif.Go Verif.Spec.Reader Verif.Model.Po
open Verif.Proofs.Po (splitByte_append_sep splitByte_none indexByte_absent splitByte_ne_nil)

theorem indexByte_found {c : UInt8} {s : Bytes} : ∀ {i : Nat}, indexByte? c s = some i →
    c ∉ s.take i ∧ s = s.take i ++ c :: s.drop (i + 1) ∧ i < s.length := by
  induction s with
  | nil => intro i h; cases h
  | cons x s ih =>
    intro i h
    rw [indexByte?] at h
    split at h
    · rename_i e
      cases h
      subst e
      exact ⟨by simp, by simp, by simp⟩
    · rename_i e
      cases hi : indexByte? c s with
      | none => rw [hi] at h; cases h
      | some j =>
        rw [hi] at h
        cases h
        obtain ⟨h1, h2, h3⟩ := ih hi
        refine ⟨?_, ?_, by simpa using h3⟩
        · rw [List.take_succ_cons, List.mem_cons, not_or]
          exact ⟨fun e' => e e'.symm, h1⟩
        · rw [List.take_succ_cons, List.drop_succ_cons, List.cons_append, ← h2]

/-! ## Reading -/

theorem steady_tail {c : Bytes} {cs : List Bytes} {r : Reader} (hc : r.chunks = c :: cs) (h : Steady r) (l : ReadEnd) (e : Bool) :
    Steady ⟨cs, l, e⟩ := by
  intro hi
  apply h
  rw [hc]
  exact hi.trans (List.suffix_cons c cs).isInfix

theorem steady_head {c x : Bytes} {cs : List Bytes} {r : Reader} (hc : r.chunks = c :: cs) (h : Steady r) (hx : x ≠ [])
    (l : ReadEnd) (e : Bool) : Steady ⟨x :: cs, l, e⟩ := by
  intro hi
  rcases List.infix_cons_iff.1 hi with hi | hi
  · rw [show List.replicate 101 ([] : Bytes) = [] :: List.replicate 100 [] from rfl] at hi
    exact hx (List.cons_prefix_cons.1 hi).1.symm
  · exact steady_tail hc h l e hi

/-- Reading gives bytes, or the error of the reader and with an eager one the last bytes. -/
theorem readSome_spec {k : Nat} (hk : 0 < k) : ∀ (n : Nat) (r : Reader), Steady r → ¬ List.replicate n [] <+: r.chunks →
    ∃ d e r', readSome n k r = (d, e, r') ∧ r.content = d ++ r'.content ∧ d.length ≤ k ∧ r'.last = r.last ∧ r'.eager = r.eager ∧
      Steady r' ∧ ((e = none ∧ d ≠ []) ∨ (e = some (.read r.last) ∧ r'.chunks = [] ∧ (r.eager = false → d = []))) := by
  intro n
  induction n with
  | zero => intro r _ h; exact absurd (List.nil_prefix) h
  | succ n ih =>
    intro r hs hn
    obtain ⟨chunks, last, eager⟩ := r
    rw [readSome]
    cases chunks with
    | nil => exact ⟨[], _, _, rfl, rfl, Nat.zero_le _, rfl, rfl, hs, .inr ⟨rfl, rfl, fun _ => rfl⟩⟩
    | cons c cs =>
      have hst := steady_tail (r := ⟨c :: cs, last, eager⟩) rfl hs last eager
      have hread : Reader.read ⟨c :: cs, last, eager⟩ k =
          if c.drop k = [] then (c, if eager = true ∧ cs = [] then some last else none, ⟨cs, last, eager⟩)
          else (c.take k, none, ⟨c.drop k :: cs, last, eager⟩) := rfl
      rw [hread]
      by_cases hd : c.drop k = []
      · rw [if_pos hd]
        have hlen : c.length ≤ k := List.drop_eq_nil_iff.1 hd
        by_cases he : eager = true ∧ cs = []
        · rw [if_pos he]
          obtain ⟨rfl, rfl⟩ := he
          exact ⟨c, _, _, rfl, rfl, hlen, rfl, rfl, hst, .inr ⟨rfl, rfl, fun h => by cases h⟩⟩
        · rw [if_neg he]
          simp only []
          by_cases hc : c = []
          · subst hc
            rw [if_neg (by simp)]
            have hn' : ¬ List.replicate n [] <+: cs := by
              intro hp
              apply hn
              rw [List.replicate_succ]
              exact (List.prefix_cons_inj _).2 hp
            exact ih ⟨cs, last, eager⟩ hst hn'
          · rw [if_pos hc]
            exact ⟨c, _, _, rfl, rfl, hlen, rfl, rfl, hst, .inl ⟨rfl, hc⟩⟩
      · rw [if_neg hd]
        simp only []
        have hc : c.take k ≠ [] := by
          intro h
          rcases List.take_eq_nil_iff.1 h with h | h
          · omega
          · subst h; simp at hd
        rw [if_pos hc]
        refine ⟨c.take k, none, _, rfl, ?_, List.length_take_le k c, rfl, rfl, steady_head (r := ⟨c :: cs, last, eager⟩) rfl hs hd last eager, .inl ⟨rfl, hc⟩⟩
        show (c :: cs).flatten = c.take k ++ (c.drop k :: cs).flatten
        rw [List.flatten_cons, List.flatten_cons, ← List.append_assoc, List.take_append_drop]

theorem readSome_101 {k : Nat} (hk : 0 < k) {r : Reader} (hs : Steady r) :
    ∃ d e r', readSome 101 k r = (d, e, r') ∧ r.content = d ++ r'.content ∧ d.length ≤ k ∧ r'.last = r.last ∧ r'.eager = r.eager ∧
      Steady r' ∧ ((e = none ∧ d ≠ []) ∨ (e = some (.read r.last) ∧ r'.chunks = [] ∧ (r.eager = false → d = []))) :=
  readSome_spec hk 101 r hs fun h => hs h.isInfix

/-! ## The scanner -/

/-- The scanner in the middle of a text of which `T` is left. -/
structure Pre (last : ReadEnd) (eager : Bool) (s : LineScanner) (T : Bytes) : Prop where
  total : s.data ++ s.reader.content = T
  ends : s.reader.last = last
  hurry : s.reader.eager = eager
  steady : Steady s.reader
  room : s.start + s.data.length ≤ s.cap
  cap : s.cap ≤ 65536
  fate : s.err = none ∨ (s.err = some (.read last) ∧ s.reader.chunks = [] ∧ (eager = false → s.data.length < 65536) ∧
    (last = .failed → 0x0a ∉ s.data))
  short : eager = true → last = .eof ∧ ∀ l ∈ splitByte 0x0a T, l.length < 65536

theorem Pre.shorter {last : ReadEnd} {eager : Bool} {T a b : Bytes} (h : eager = true → last = .eof ∧ ∀ l ∈ splitByte 0x0a T, l.length < 65536)
    (hT : T = a ++ 0x0a :: b) : eager = true → last = .eof ∧ ∀ l ∈ splitByte 0x0a b, l.length < 65536 := by
  intro he
  refine ⟨(h he).1, fun l hl => (h he).2 l ?_⟩
  rw [hT, splitByte_append_sep]
  exact List.mem_append_right _ hl

/-- What `Scan` does. -/
inductive Next (last : ReadEnd) (eager : Bool) (T : Bytes) : Option Bytes × LineScanner → Prop
  | line {a b : Bytes} {s : LineScanner} : T = a ++ 0x0a :: b → 0x0a ∉ a → a.length < 65536 → Pre last eager s b → s.failed = false →
      Next last eager T (some (dropCR a), s)
  | long {p q : Bytes} {s : LineScanner} : T = p ++ q → 0x0a ∉ p → p.length = 65536 → s.failed = true → Next last eager T (none, s)
  | rest {s : LineScanner} : 0x0a ∉ T → T ≠ [] → T.length < 65536 → last = .eof → Pre last eager s [] → s.failed = false →
      Next last eager T (some (dropCR T), s)
  | empty {s : LineScanner} : T = [] → s.err.isSome = true → s.data = [] → Next last eager T (none, s)
  | lost {l : Bytes} {s : LineScanner} : 0x0a ∉ T → T.length < 65536 → last = .failed → s.failed = true →
      Next last eager T (some l, s)

/-- Making room and reading. -/
theorem fill_spec {last : ReadEnd} {eager : Bool} {s : LineScanner} {T : Bytes} (h : Pre last eager s T) (hn : 0x0a ∉ s.data)
    (he : s.err = none) : (s.fill = none ∧ s.data.length = 65536) ∨
    ∃ s', s.fill = some s' ∧ Pre last eager s' T ∧
      (s'.err = none → s'.reader.content.length < s.reader.content.length) ∧
      s'.reader.content.length ≤ s.reader.content.length := by
  obtain ⟨reader, data, start, cap, err⟩ := s
  obtain ⟨h1, h2, h3, h4, h5, h6, h7, h8⟩ := h
  simp only at h1 h2 h3 h4 h5 h6 hn he
  -- a common end: reading `k` bytes
  have key : ∀ st c k, 0 < k → st + data.length + k = c → c ≤ 65536 →
      ∃ s', (match readSome 101 k reader with | (d, e, r) => some (⟨r, data ++ d, st, c, e⟩ : LineScanner)) = some s' ∧
        Pre last eager s' T ∧ (s'.err = none → s'.reader.content.length < reader.content.length) ∧
        s'.reader.content.length ≤ reader.content.length := by
    intro st c k hk hc hc'
    obtain ⟨d, e, r', hr, g1, g2, g3, g4, g5, g6⟩ := readSome_101 hk h4
    refine ⟨⟨r', data ++ d, st, c, e⟩, by rw [hr], ⟨?_, g3.trans h2, g4.trans h3, g5, ?_, hc', ?_, h8⟩, ?_, ?_⟩
    · show (data ++ d) ++ r'.content = T
      rw [List.append_assoc, ← g1]; exact h1
    · show st + (data ++ d).length ≤ c
      rw [List.length_append]; omega
    · rcases g6 with ⟨rfl, _⟩ | ⟨rfl, hcs, hd⟩
      · exact .inl rfl
      · refine .inr ⟨by rw [h2], hcs, ?_, ?_⟩
        · intro hf
          show (data ++ d).length < 65536
          rw [hd (h3.trans hf), List.append_nil]
          omega
        · intro hl
          have hf : eager = false := by
            cases heg : eager with
            | false => rfl
            | true => rw [(h8 heg).1] at hl; cases hl
          show 0x0a ∉ data ++ d
          rw [hd (h3.trans hf), List.append_nil]
          exact hn
    · intro hnone
      rcases g6 with ⟨_, hd⟩ | ⟨h, _⟩
      · have := List.length_pos_iff.2 hd
        rw [g1, List.length_append]; show r'.content.length < _; omega
      · have hnone : e = none := hnone
        rw [hnone] at h; cases h
    · rw [g1, List.length_append]; show r'.content.length ≤ _; omega
  unfold LineScanner.fill
  simp only []
  generalize hst : (if start > 0 ∧ (start + data.length = cap ∨ start > cap / 2) then 0 else start) = st
  have hst' : st = 0 ∨ (st = start ∧ ¬ (start + data.length = cap)) := by
    split at hst
    · exact .inl hst.symm
    · rename_i hc
      by_cases h0 : start = 0
      · exact .inl (hst.symm.trans h0)
      · refine .inr ⟨hst.symm, fun hx => hc ⟨by omega, .inl hx⟩⟩
  by_cases hfull : st + data.length = cap
  · rw [if_pos hfull]
    have h0 : st = 0 := by
      rcases hst' with h | ⟨h, h'⟩
      · exact h
      · rw [h] at hfull; exact absurd hfull h'
    by_cases hbig : cap ≥ maxScanTokenSize
    · rw [if_pos hbig]
      refine .inl ⟨rfl, ?_⟩
      have : maxScanTokenSize = 65536 := rfl
      show data.length = 65536
      omega
    · rw [if_neg hbig]
      have hm : maxScanTokenSize = 65536 := rfl
      right
      refine key 0 _ _ ?_ ?_ ?_
      · split <;> omega
      · split <;> omega
      · split <;> omega
  · rw [if_neg hfull]
    right
    refine key st cap _ ?_ ?_ h6
    · rcases hst' with h | ⟨h, _⟩
      · rw [h] at hfull ⊢; omega
      · rw [h] at hfull ⊢; omega
    · rcases hst' with h | ⟨h, _⟩
      · rw [h] at hfull ⊢; omega
      · rw [h] at hfull ⊢; omega

theorem scan_spec {last : ReadEnd} {eager : Bool} {T : Bytes} : ∀ (n : Nat) (s : LineScanner), Pre last eager s T →
    s.reader.content.length + (if s.err = none then 2 else 1) ≤ n → Next last eager T (s.scan n) := by
  intro n
  induction n with
  | zero => intro s _ h; split at h <;> omega
  | succ n ih =>
    intro s h hn
    have hp := h
    obtain ⟨h1, h2, h3, h4, h5, h6, h7, h8⟩ := h
    rw [LineScanner.scan]
    cases hi : indexByte? 0x0a s.data with
    | some i =>
      obtain ⟨g1, g2, g3⟩ := indexByte_found hi
      have hsp : splitLine s.data s.err.isSome = some (dropCR (s.data.take i), i + 1) := by unfold splitLine; rw [hi]
      rw [hsp]
      have hT : T = s.data.take i ++ 0x0a :: (s.data.drop (i + 1) ++ s.reader.content) := by
        rw [← h1]
        conv => lhs; rw [g2]
        rw [List.append_assoc, List.cons_append]
      have hfate : s.err = none ∨ (s.err = some (.read last) ∧ s.reader.chunks = [] ∧ last = .eof ∧ (eager = false → s.data.length < 65536)) := by
        rcases h7 with h | ⟨h, hc, hd, hx⟩
        · exact .inl h
        · refine .inr ⟨h, hc, ?_, hd⟩
          cases last with
          | eof => rfl
          | failed =>
            have := hx rfl
            rw [g2] at this
            exact absurd (List.mem_append_right _ List.mem_cons_self) this
      have hl : (s.data.drop (i + 1)).length + (i + 1) = s.data.length := by rw [List.length_drop]; omega
      refine .line hT g1 ?_ ⟨rfl, h2, h3, h4, ?_, h6, ?_, Pre.shorter h8 hT⟩ ?_
      · rw [List.length_take]; omega
      · show s.start + (i + 1) + (s.data.drop (i + 1)).length ≤ s.cap
        omega
      · rcases hfate with h | ⟨h, hc, hl', hd⟩
        · exact .inl h
        · refine .inr ⟨h, hc, fun e => ?_, fun e => by rw [hl'] at e; cases e⟩
          have := hd e
          show (s.data.drop (i + 1)).length < 65536
          omega
      · show (match s.err with | none => false | some (.read .eof) => false | some _ => true) = false
        rcases hfate with h | ⟨h, _, hl', _⟩
        · rw [h]
        · rw [h, hl']
    | none =>
      have hnl : (0x0a : UInt8) ∉ s.data := indexByte_absent.1 hi
      rcases h7 with he | ⟨he, hc, hd, hx⟩
      · have hsp : splitLine s.data s.err.isSome = none := by unfold splitLine; rw [hi, he]; rfl
        rw [hsp]
        simp only []
        rw [if_neg (by rw [he]; decide)]
        rcases fill_spec hp hnl he with ⟨hf, hl⟩ | ⟨s', hf, hp', hlt, hle⟩
        · rw [hf]
          exact .long h1.symm hnl hl rfl
        · rw [hf]
          refine ih s' hp' ?_
          rw [if_pos he] at hn
          split
          · rename_i he'
            have := hlt he'
            omega
          · omega
      · have hcont : s.reader.content = [] := by unfold Reader.content; rw [hc]; rfl
        rw [hcont, List.append_nil] at h1
        subst h1
        have hlen : s.data.length < 65536 := by
          cases heg : eager with
          | false => exact hd heg
          | true => exact (h8 heg).2 s.data (by rw [splitByte_none hnl]; exact List.mem_singleton.2 rfl)
        by_cases hne : s.data = []
        · have hsp : splitLine s.data s.err.isSome = none := by unfold splitLine; rw [hi, hne]; simp
          rw [hsp]
          simp only []
          rw [if_pos (by rw [he]; rfl)]
          exact .empty hne (by show s.err.isSome = true; rw [he]; rfl) rfl
        · have hsp : splitLine s.data s.err.isSome = some (dropCR s.data, s.data.length) := by
            unfold splitLine; rw [hi, he]; simp [hne]
          rw [hsp]
          simp only []
          cases hl : last with
          | eof =>
            refine .rest hnl hne hlen rfl ⟨?_, h2.trans hl, h3, h4, ?_, h6, .inr ⟨by rw [← hl]; exact he, hc, fun _ => ?_, fun e => by cases e⟩, ?_⟩ ?_
            · show s.data.drop s.data.length ++ s.reader.content = []
              rw [List.drop_length, hcont]; rfl
            · show s.start + s.data.length + (s.data.drop s.data.length).length ≤ s.cap
              rw [List.drop_length]; exact h5
            · show (s.data.drop s.data.length).length < 65536
              rw [List.drop_length]; decide
            · intro _
              refine ⟨rfl, ?_⟩
              decide
            · show (match s.err with | none => false | some (.read .eof) => false | some _ => true) = false
              rw [he, hl]
          | failed =>
            refine .lost hnl hlen rfl ?_
            show (match s.err with | none => false | some (.read .eof) => false | some _ => true) = true
            rw [he, hl]

/-! ## The lines -/

theorem rawLines_cons {a b : Bytes} (h : 0x0a ∉ a) : rawLines (a ++ 0x0a :: b) = a :: rawLines b := by
  unfold rawLines
  rw [splitByte_append_sep, splitByte_none h, List.singleton_append]
  have hne := splitByte_ne_nil 0x0a b
  generalize splitByte 0x0a b = l at hne
  cases l with
  | nil => exact absurd rfl hne
  | cons x l =>
    rw [List.getLast?_cons_cons]
    split <;> simp_all

theorem rawLines_one {a : Bytes} (h : 0x0a ∉ a) (hne : a ≠ []) : rawLines a = [a] := by
  unfold rawLines
  rw [splitByte_none h]
  cases a with
  | nil => exact absurd rfl hne
  | cons x a => rfl

theorem scanLines_cons {a b : Bytes} (h : 0x0a ∉ a) (hl : a.length < 65536) :
    scanLines (a ++ 0x0a :: b) = dropCR a :: scanLines b := by
  unfold scanLines
  rw [rawLines_cons h, List.takeWhile_cons_of_pos (p := fun l : Bytes => decide (l.length < maxScanTokenSize)) (decide_eq_true hl), List.map_cons]

theorem scanLines_one {a : Bytes} (h : 0x0a ∉ a) (hne : a ≠ []) (hl : a.length < 65536) : scanLines a = [dropCR a] := by
  unfold scanLines
  rw [rawLines_one h hne, List.takeWhile_cons_of_pos (p := fun l : Bytes => decide (l.length < maxScanTokenSize)) (decide_eq_true hl)]
  rfl

theorem scanLines_long {p q : Bytes} (h : 0x0a ∉ p) (hl : p.length = 65536) : scanLines (p ++ q) = [] := by
  have hne : p ++ q ≠ [] := by
    intro e
    have := congrArg List.length e
    rw [List.length_append, hl] at this
    simp at this
  have hlong : ∀ a : Bytes, 65536 ≤ a.length → ¬ (decide (a.length < maxScanTokenSize) = true) := by
    intro a ha hx
    have : a.length < 65536 := of_decide_eq_true hx
    omega
  unfold scanLines
  cases hi : indexByte? 0x0a q with
  | none =>
    have hq := indexByte_absent.1 hi
    rw [rawLines_one (by rw [List.mem_append, not_or]; exact ⟨h, hq⟩) hne,
      List.takeWhile_cons_of_neg (p := fun l : Bytes => decide (l.length < maxScanTokenSize))
        (hlong _ (by rw [List.length_append]; omega))]
    rfl
  | some i =>
    obtain ⟨g1, g2, _⟩ := indexByte_found hi
    rw [g2, ← List.append_assoc, rawLines_cons (by rw [List.mem_append, not_or]; exact ⟨h, g1⟩),
      List.takeWhile_cons_of_neg (p := fun l : Bytes => decide (l.length < maxScanTokenSize))
        (hlong _ (by rw [List.length_append]; omega))]
    rfl

theorem wholeLines_none {t : Bytes} (h : 0x0a ∉ t) : wholeLines t = [] := by
  unfold wholeLines
  have : t.reverse.dropWhile (· ≠ 0x0a) = [] := by
    have hr : ∀ l : Bytes, 0x0a ∉ l → l.dropWhile (· ≠ 0x0a) = [] := by
      intro l
      induction l with
      | nil => intro _; rfl
      | cons x l ih =>
        intro hl
        rw [List.mem_cons, not_or] at hl
        rw [List.dropWhile_cons_of_pos (p := fun y : UInt8 => decide (y ≠ 0x0a)) (decide_eq_true fun e => hl.1 e.symm)]
        exact ih hl.2
    exact hr _ fun hx => h (List.mem_reverse.1 hx)
  rw [this]; rfl

theorem wholeLines_cons (a b : Bytes) : wholeLines (a ++ 0x0a :: b) = a ++ 0x0a :: wholeLines b := by
  unfold wholeLines
  rw [List.reverse_append, List.reverse_cons, List.append_assoc, List.dropWhile_append]
  split
  · rename_i h
    rw [List.isEmpty_iff] at h
    rw [h]
    simp
  · rw [List.reverse_append]
    simp

theorem long_whole {p q : Bytes} (h : 0x0a ∉ p) (hl : p.length = 65536) : scanLines (wholeLines (p ++ q)) = [] := by
  cases hi : indexByte? 0x0a q with
  | none =>
    have hq := indexByte_absent.1 hi
    rw [wholeLines_none (by rw [List.mem_append, not_or]; exact ⟨h, hq⟩)]
    rfl
  | some i =>
    obtain ⟨g1, g2, _⟩ := indexByte_found hi
    rw [g2, ← List.append_assoc, wholeLines_cons, List.append_assoc]
    exact scanLines_long h hl

/-- The text that is read. -/
def received (last : ReadEnd) (t : Bytes) : Bytes :=
  match last with
  | .eof => t
  | .failed => wholeLines t

theorem lineLoop_spec {last : ReadEnd} {eager : Bool} : ∀ (n : Nat) (T : Bytes) (s : LineScanner), Pre last eager s T → T.length < n →
    lineLoop n s = scanLines (received last T) := by
  intro n
  induction n with
  | zero => intro T s _ h; omega
  | succ n ih =>
    intro T s h hn
    have hsc := scan_spec (s.reader.content.length + 2) s h (by split <;> omega)
    rw [lineLoop]
    unfold readLine
    generalize s.scan (s.reader.content.length + 2) = res at hsc
    cases hsc with
    | @line a b s' hT ha hl hp hf =>
      simp only [hf, Bool.false_eq_true, if_false]
      rw [ih b s' hp (by rw [hT] at hn; simp only [List.length_append, List.length_cons] at hn; omega)]
      subst hT
      cases last with
      | eof => exact (scanLines_cons ha hl).symm
      | failed =>
        show _ = scanLines (wholeLines _)
        rw [wholeLines_cons, scanLines_cons ha hl]
        rfl
    | @long p q s' hT hp hl hf =>
      subst hT
      cases last with
      | eof => exact (scanLines_long hp hl).symm
      | failed => exact (long_whole hp hl).symm
    | @rest s' hT hne hl he hp hf =>
      subst he
      simp only [hf, Bool.false_eq_true, if_false]
      rw [ih [] s' hp (by have := List.length_pos_iff.2 hne; show 0 < n; omega)]
      show dropCR T :: scanLines [] = scanLines T
      rw [scanLines_one hT hne hl]
      rfl
    | @empty s' hT he hd =>
      subst hT
      cases last <;> rfl
    | @lost l s' hT hl he hf =>
      subst he
      simp only [hf, if_true]
      show [] = scanLines (wholeLines T)
      rw [wholeLines_none hT]
      rfl

theorem readerLines_spec {r : Reader} (hs : Steady r)
    (he : r.eager = true → r.last = .eof ∧ ∀ l ∈ splitByte 0x0a r.content, l.length < 65536) :
    readerLines r = scanLines (received r.last r.content) := by
  refine lineLoop_spec (eager := r.eager) _ r.content (.new r) ?_ (Nat.lt_succ_self _)
  exact ⟨rfl, rfl, rfl, hs, Nat.le_refl _, Nat.zero_le _, .inl rfl, he⟩

/-! ## Any reader -/

/-- The scanner on any reader, `T` being left. -/
structure Loose (s : LineScanner) (T : Bytes) : Prop where
  total : s.data ++ s.reader.content = T
  fate : s.err = some (.read .eof) → s.reader.chunks = []

theorem read_total (r : Reader) (k : Nat) : r.content = (r.read k).1 ++ (r.read k).2.2.content ∧
    ((r.read k).2.1 = some .eof → (r.read k).2.2.chunks = []) := by
  obtain ⟨chunks, last, eager⟩ := r
  cases chunks with
  | nil => exact ⟨rfl, fun _ => rfl⟩
  | cons c cs =>
    have hread : Reader.read ⟨c :: cs, last, eager⟩ k =
        if c.drop k = [] then (c, if eager = true ∧ cs = [] then some last else none, ⟨cs, last, eager⟩)
        else (c.take k, none, ⟨c.drop k :: cs, last, eager⟩) := rfl
    rw [hread]
    by_cases hd : c.drop k = []
    · rw [if_pos hd]
      refine ⟨rfl, ?_⟩
      by_cases he : eager = true ∧ cs = []
      · exact fun _ => he.2
      · rw [if_neg he]
        intro h; cases h
    · rw [if_neg hd]
      refine ⟨?_, fun h => by cases h⟩
      show (c :: cs).flatten = c.take k ++ (c.drop k :: cs).flatten
      rw [List.flatten_cons, List.flatten_cons, ← List.append_assoc, List.take_append_drop]

theorem readSome_total (k : Nat) : ∀ (n : Nat) (r : Reader), r.content = (readSome n k r).1 ++ (readSome n k r).2.2.content ∧
    ((readSome n k r).2.1 = some (.read .eof) → (readSome n k r).2.2.chunks = []) := by
  intro n
  induction n with
  | zero => intro r; exact ⟨rfl, fun h => by cases h⟩
  | succ n ih =>
    intro r
    have h := read_total r k
    rw [readSome]
    generalize r.read k = res at h
    obtain ⟨d, e, r'⟩ := res
    cases e with
    | some e =>
      refine ⟨h.1, fun he => h.2 ?_⟩
      have : (some (ScanErr.read e)) = some (.read .eof) := he
      cases this
      rfl
    | none =>
      simp only []
      by_cases hd : d = []
      · rw [if_neg (fun hx => hx hd)]
        subst hd
        rw [h.1]
        exact ih r'
      · rw [if_pos hd]
        exact ⟨h.1, fun he => by cases he⟩

theorem scan_loose {T : Bytes} : ∀ (n : Nat) (s : LineScanner), Loose s T → ∀ l s', s.scan n = (some l, s') → s'.failed = false →
    (∃ a b, T = a ++ 0x0a :: b ∧ 0x0a ∉ a ∧ l = dropCR a ∧ Loose s' b) ∨
    (0x0a ∉ T ∧ T ≠ [] ∧ l = dropCR T ∧ Loose s' []) := by
  intro n
  induction n with
  | zero => intro s _ l s' h; cases h
  | succ n ih =>
    intro s ⟨h1, h2⟩ l s' h hf
    rw [LineScanner.scan] at h
    cases hi : indexByte? 0x0a s.data with
    | some i =>
      obtain ⟨g1, g2, _⟩ := indexByte_found hi
      have hsp : splitLine s.data s.err.isSome = some (dropCR (s.data.take i), i + 1) := by unfold splitLine; rw [hi]
      rw [hsp] at h
      cases h
      refine .inl ⟨s.data.take i, s.data.drop (i + 1) ++ s.reader.content, ?_, g1, rfl, rfl, h2⟩
      rw [← h1]
      conv => lhs; rw [g2]
      rw [List.append_assoc, List.cons_append]
    | none =>
      have hnl : (0x0a : UInt8) ∉ s.data := indexByte_absent.1 hi
      have hsp : splitLine s.data s.err.isSome =
          if s.err.isSome && s.data ≠ [] then some (dropCR s.data, s.data.length) else none := by unfold splitLine; rw [hi]
      rw [hsp] at h
      by_cases hc : (s.err.isSome && s.data ≠ []) = true
      · rw [if_pos hc] at h
        cases h
        rw [Bool.and_eq_true] at hc
        have he : s.err = some (.read .eof) := by
          have hf : (match s.err with | none => false | some (.read .eof) => false | some _ => true) = false := hf
          cases hs : s.err with
          | none => rw [hs] at hc; simp at hc
          | some e =>
            rw [hs] at hf
            cases e with
            | read e => cases e with
              | eof => rfl
              | failed => cases hf
            | noProgress => cases hf
            | tooLong => cases hf
        have hcont : s.reader.content = [] := by unfold Reader.content; rw [h2 he]; rfl
        rw [hcont, List.append_nil] at h1
        subst h1
        refine .inr ⟨hnl, of_decide_eq_true hc.2, rfl, ?_, h2⟩
        show s.data.drop s.data.length ++ s.reader.content = []
        rw [List.drop_length, hcont]; rfl
      · rw [if_neg hc] at h
        simp only [] at h
        by_cases he : s.err.isSome = true
        · rw [if_pos he] at h; cases h
        · rw [if_neg he] at h
          cases hfill : s.fill with
          | none => rw [hfill] at h; cases h
          | some s1 =>
            rw [hfill] at h
            refine ih s1 ?_ l s' h hf
            have key : ∀ st c k, ⟨(readSome 101 k s.reader).2.2, s.data ++ (readSome 101 k s.reader).1, st, c,
                (readSome 101 k s.reader).2.1⟩ = s1 → Loose s1 T := by
              intro st c k e
              obtain ⟨k1, k2⟩ := readSome_total k 101 s.reader
              subst e
              refine ⟨?_, k2⟩
              show (s.data ++ _) ++ _ = T
              rw [List.append_assoc, ← k1]; exact h1
            unfold LineScanner.fill at hfill
            simp only [] at hfill
            generalize (if s.start > 0 ∧ (s.start + s.data.length = s.cap ∨ s.start > s.cap / 2) then 0 else s.start) = st at hfill
            by_cases c1 : st + s.data.length = s.cap
            · rw [if_pos c1] at hfill
              by_cases c2 : s.cap ≥ maxScanTokenSize
              · rw [if_pos c2] at hfill; cases hfill
              · rw [if_neg c2] at hfill
                exact key _ _ _ (Option.some.inj hfill)
            · rw [if_neg c1] at hfill
              exact key _ _ _ (Option.some.inj hfill)

/-- Whatever the reader does, the lines are the first ones of its content. -/
theorem lineLoop_prefix : ∀ (n : Nat) (T : Bytes) (s : LineScanner), Loose s T →
    lineLoop n s <+: (rawLines T).map dropCR := by
  intro n
  induction n with
  | zero => intro T s _; exact List.nil_prefix
  | succ n ih =>
    intro T s h
    rw [lineLoop]
    unfold readLine
    have hs := scan_loose (s.reader.content.length + 2) s h
    generalize s.scan (s.reader.content.length + 2) = res at hs
    obtain ⟨o, s'⟩ := res
    cases o with
    | none => exact List.nil_prefix
    | some l =>
      simp only []
      cases hf : s'.failed with
      | true => exact List.nil_prefix
      | false =>
        simp only [Bool.false_eq_true, if_false]
        rcases hs l s' rfl hf with ⟨a, b, rfl, ha, rfl, hl⟩ | ⟨ha, hne, rfl, hl⟩
        · rw [rawLines_cons ha, List.map_cons]
          exact (List.prefix_cons_inj _).2 (ih b s' hl)
        · rw [rawLines_one ha hne, List.map_cons]
          exact (List.prefix_cons_inj _).2 (ih [] s' hl)

end Verif.Proofs.Po.Reading
