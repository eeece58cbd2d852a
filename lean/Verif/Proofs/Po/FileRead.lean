import Verif.Proofs.Po.EntryRead
/-!
# The parser on whole files
-/
namespace Verif.Proofs.Po
open Verif.Go Verif.Model.PoString Verif.Spec.PoString Verif.Spec.PoEntry
open Verif.Model.Po hiding Field

/-! ## Text and lines -/

theorem splitByte_append_sep (c : UInt8) (a b : Bytes) : splitByte c (a ++ c :: b) = splitByte c a ++ splitByte c b := by
  induction a with
  | nil => simp [splitByte]
  | cons x a ih =>
    rw [List.cons_append, splitByte, splitByte]
    split
    · rw [ih]; rfl
    · rw [ih]
      cases h : splitByte c a with
      | nil => exact absurd h (splitByte_ne_nil _ _)
      | cons l ls => rfl

theorem splitByte_none {c : UInt8} {a : Bytes} (h : c ∉ a) : splitByte c a = [a] := by
  induction a with
  | nil => rfl
  | cons x a ih =>
    simp only [List.mem_cons, not_or] at h
    rw [splitByte, if_neg (fun e => h.1 e.symm), ih h.2]

theorem splitByte_text (ls : List Bytes) (h : ∀ l ∈ ls, OneLine l) : splitByte 0x0a (textOf ls) = ls ++ [[]] := by
  induction ls with
  | nil => rfl
  | cons l ls ih =>
    unfold textOf
    rw [List.flatMap_cons, List.append_assoc, List.singleton_append, splitByte_append_sep, splitByte_none (h l List.mem_cons_self)]
    have := ih fun x hx => h x (List.mem_cons_of_mem _ hx)
    unfold textOf at this
    rw [this]; rfl

theorem rawLines_text {content : Bytes} {ls : List Bytes} (h : HasLines content ls) : rawLines content = ls := by
  obtain ⟨h1, rfl | ⟨⟨l, hl, hne⟩, h2⟩⟩ := h
  · unfold rawLines
    rw [splitByte_text ls h1]
    simp
  · have hs : splitByte 0x0a (content ++ 0x0a :: []) = ls ++ [[]] := by rw [← splitByte_text ls h1, ← h2]
    rw [splitByte_append_sep] at hs
    have hs : splitByte 0x0a content = ls := List.append_cancel_right hs
    unfold rawLines
    rw [hs]
    have hl' : ls.getLast? = some l := hl
    rw [hl']
    cases l with
    | nil => exact absurd rfl hne
    | cons b l => rfl

theorem rawLines_oneLine (content : Bytes) : ∀ l ∈ rawLines content, OneLine l := by
  have hs : ∀ l ∈ splitByte 0x0a content, OneLine l := by
    induction content with
    | nil => simp [splitByte, OneLine]
    | cons x s ih =>
      rw [splitByte]
      split
      · intro l hl
        rcases List.mem_cons.1 hl with rfl | hl
        · simp [OneLine]
        · exact ih l hl
      · rename_i hx
        cases h : splitByte 0x0a s with
        | nil => exact absurd h (splitByte_ne_nil _ _)
        | cons a l =>
          rw [h] at ih
          intro y hy
          rcases List.mem_cons.1 hy with rfl | hy
          · have := ih a List.mem_cons_self
            unfold OneLine at this ⊢
            simp only [List.mem_cons, not_or]
            exact ⟨fun e => hx e.symm, this⟩
          · exact ih y (List.mem_cons_of_mem _ hy)
  unfold rawLines
  split
  · exact fun l hl => hs l (List.dropLast_subset _ hl)
  · exact hs

theorem trimSpace_dropCR (l : Bytes) : trimSpace (dropCR l) = trimSpace l := by
  unfold dropCR
  split
  · rename_i h
    have e : l = l.dropLast ++ [0x0d] := by
      obtain ⟨hne, hl⟩ := List.getLast?_eq_some_iff.1 h
      rw [hl]; simp
    exact ((congrArg trimSpace e).trans (trimSpace_spaces_right ⟨[[0x0d]], by decide, rfl⟩ _)).symm
  · rfl

theorem tokensFrom_dropCR (ignore : Bool) (ls : List Bytes) : ∀ (w : Bool) (last : Token),
    tokensFrom ignore w last (ls.map dropCR) = tokensFrom ignore w last ls := by
  induction ls with
  | nil => intros; rfl
  | cons l ls ih =>
    intro w last
    rw [List.map_cons, tokensFrom, tokensFrom, trimSpace_dropCR]
    have hb : isBlankLine (dropCR l) = isBlankLine l := by unfold isBlankLine; rw [trimSpace_dropCR]
    rw [hb]
    simp only [ih]

theorem takeWhile_short {ls : List Bytes} (h : Short ls) :
    ls.takeWhile (fun l => decide (l.length < maxScanTokenSize)) = ls := by
  induction ls with
  | nil => rfl
  | cons l ls ih =>
    rw [List.takeWhile_cons_of_pos (by simpa using h l List.mem_cons_self), ih fun x hx => h x (List.mem_cons_of_mem _ hx)]

/-- Parsing a text with short lines. -/
theorem parse_run (u : Unicode) (ignore : Bool) {content : Bytes} {ls : List Bytes} (h : HasLines content ls)
    (hs : Short ls) : parse u ignore content = (run u ignore ⟨none, []⟩ ls).bind finish := by
  unfold parse
  rw [parseLines_run]
  unfold scanLines run tokens
  rw [rawLines_text h, takeWhile_short hs, tokensFrom_dropCR]

/-- A line that is too long ends the file. -/
theorem parse_long (u : Unicode) (ignore : Bool) {content content' : Bytes} {A B : List Bytes} {l : Bytes}
    (h : HasLines content (A ++ l :: B)) (hl : maxScanTokenSize ≤ l.length) (h' : HasLines content' A) :
    parse u ignore content = parse u ignore content' := by
  have : scanLines content = scanLines content' := by
    unfold scanLines
    rw [rawLines_text h, rawLines_text h']
    congr 1
    clear h h'
    induction A with
    | nil => rw [List.nil_append, List.takeWhile_cons_of_neg (by simpa using hl)]; rfl
    | cons a A ih =>
      rw [List.cons_append, List.takeWhile_cons, List.takeWhile_cons, ih]
  unfold parse
  rw [this]

/-! ## Messages read and messages stored -/

/-- The messages that are read one after the other, and how reading ends. -/
def readAll : Nat → List Tok → List Message × Res Unit
  | 0, _ => ([], .ok ())
  | f + 1, ts =>
    match parseMessage ts with
    | .eof => ([], .ok ())
    | .error e => ([], .error e)
    | .panic => ([], .panic)
    | .hang => ([], .hang)
    | .ok (m, rest) => (m :: (readAll f rest).1, (readAll f rest).2)

def storeAll (u : Unicode) : PState → List Message → Res PState
  | st, [] => .ok st
  | st, m :: ms => (store u st m).bind fun st => storeAll u st ms

theorem fileLoop_read (u : Unicode) : ∀ (f : Nat) (st : PState) (ts : List Tok), fileLoop u f st ts =
    (storeAll u st (readAll f ts).1).bind fun st => (readAll f ts).2.bind fun _ => .ok st := by
  intro f
  induction f with
  | zero => intros; rfl
  | succ f ih =>
    intro st ts
    rw [fileLoop, readAll]
    cases parseMessage ts with
    | eof => rfl
    | error e => rfl
    | panic => rfl
    | hang => rfl
    | ok a =>
      obtain ⟨m, rest⟩ := a
      simp only [storeAll]
      rw [bind_assoc]
      congr 1
      funext st'
      exact ih st' rest

/-- What is read from some lines does not depend on what was stored before. -/
theorem run_read (u : Unicode) (ignore : Bool) (ls : List Bytes) : ∃ ms out, ∀ st, run u ignore st ls =
    (storeAll u st ms).bind fun st => (out : Res Unit).bind fun _ => .ok st :=
  ⟨_, _, fun st => fileLoop_read u _ st _⟩

/-! ## Storing messages -/

/-- The message with the given key. -/
def PState.find (st : PState) (c i : Bytes) : Option Message := (st.messages.get? c).bind (·.get? i)

theorem find_set (st : PState) (c i : Bytes) (m : Message) (c' i' : Bytes) :
    PState.find { st with messages := st.messages.set c (((st.messages.get? c).getD []).set i m) } c' i' =
      if c' = c ∧ i' = i then some m else PState.find st c' i' := by
  unfold PState.find
  simp only [GoMap.get?_set]
  by_cases hc : c' = c
  · subst hc
    simp only [if_true, Option.bind_some, GoMap.get?_set, true_and]
    by_cases hi : i' = i
    · simp [hi]
    · rw [if_neg (fun e => hi e.symm), if_neg hi]
      cases st.messages.get? c' <;> rfl
  · rw [if_neg (fun e => hc e.symm), if_neg (fun e => hc e.1)]

theorem store_message {u : Unicode} {st : PState} {m : Message} (hid : m.id ≠ []) :
    (PState.find st m.context m.id ≠ none ∧ store u st m = .error .duplicate) ∨
    (PState.find st m.context m.id = none ∧ ∃ st', store u st m = .ok st' ∧ st'.header = st.header ∧
      st'.messages ≠ [] ∧
      ∀ c i, PState.find st' c i = if c = m.context ∧ i = m.id then some m else PState.find st c i) := by
  unfold store
  rw [if_neg hid]
  simp only
  have hf : PState.find st m.context m.id = ((st.messages.get? m.context).getD []).get? m.id := by
    unfold PState.find
    cases st.messages.get? m.context <;> rfl
  cases h : ((st.messages.get? m.context).getD []).get? m.id with
  | some m' => left; rw [hf, h]; simp
  | none =>
    right
    refine ⟨by rw [hf, h], _, rfl, rfl, ?_, find_set st m.context m.id m⟩
    intro e
    have : GoMap.get? (GoMap.set st.messages m.context (((st.messages.get? m.context).getD []).set m.id m)) m.context = none := by
      simp only at e; rw [e]; rfl
    rw [GoMap.get?_set, if_pos rfl] at this
    cases this

theorem store_header {u : Unicode} {st : PState} {m : Message} (hid : m.id = []) :
    (m.str ≠ [] ∧ st.header ≠ none ∧ store u st m = .error .secondHeader) ∨
    (∃ st', store u st m = .ok st' ∧ st'.messages = st.messages ∧
      (st.header ≠ none → st'.header = st.header) ∧
      (m.str = [] → st' = st) ∧
      (m.str ≠ [] → st.header = none ∧ st'.header = parseHeader u m)) := by
  unfold store
  rw [if_pos hid]
  split
  · rename_i hs; exact .inr ⟨st, rfl, rfl, fun _ => rfl, fun _ => rfl, fun h => absurd hs h⟩
  · rename_i hs
    cases hh : st.header with
    | some h => left; exact ⟨hs, by simp, rfl⟩
    | none =>
      right
      cases hp : parseHeader u m with
      | some h => exact ⟨{ st with header := some h }, by simp, rfl, by simp, fun e => absurd e hs, fun _ => ⟨rfl, rfl⟩⟩
      | none =>
        exact ⟨st, by simp, rfl, by simp [hh], fun e => absurd e hs, fun _ => ⟨rfl, hh⟩⟩

/-- The messages that are stored, not taken as header. -/
def proper (ms : List Message) : List Message := ms.filter (·.id ≠ [])

/-- The messages that are taken as header. -/
def heads (ms : List Message) : List Message := ms.filter fun m => m.id = [] ∧ m.str ≠ []

def keyOf (m : Message) : Bytes × Bytes := (m.context, m.id)

/-- A successful run stores every proper message, keeps what was there and adds nothing else. -/
theorem storeAll_ok {u : Unicode} {ms : List Message} : ∀ {st st' : PState}, storeAll u st ms = .ok st' →
    (∀ c i m, PState.find st' c i = some m ↔
      PState.find st c i = some m ∨ (m ∈ proper ms ∧ keyOf m = (c, i))) ∧
    (∀ m ∈ proper ms, PState.find st m.context m.id = none) ∧ ((proper ms).map keyOf).Nodup ∧
    (st.header ≠ none → st'.header = st.header ∧ heads ms = []) ∧
    (st'.messages = [] ↔ st.messages = [] ∧ proper ms = []) := by
  induction ms with
  | nil =>
    intro st st' h
    simp only [storeAll, Res.ok.injEq] at h; subst h
    simp [proper, heads]
  | cons m ms ih =>
    intro st st' h
    rw [storeAll, bind_eq_ok] at h
    obtain ⟨s1, hs, h⟩ := h
    obtain ⟨i1, i2, i3, i4, i5⟩ := ih h
    by_cases hid : m.id = []
    · rcases store_header (u := u) (st := st) hid with ⟨_, _, he⟩ | ⟨s2, he, hm, hh, hn, hp⟩
      · rw [he] at hs; cases hs
      · rw [he] at hs; cases hs
        have hpr : proper (m :: ms) = proper ms := by unfold proper; rw [List.filter_cons_of_neg (by simp [hid])]
        have hfd : ∀ c i, PState.find s1 c i = PState.find st c i := by intro c i; unfold PState.find; rw [hm]
        simp only [hfd] at i1 i2
        rw [hpr]
        refine ⟨i1, i2, i3, ?_, by rw [i5, hm]⟩
        intro hst
        have := i4 (by rw [hh hst]; exact hst)
        refine ⟨by rw [this.1, hh hst], ?_⟩
        have hms : m.str = [] := by
          by_cases e : m.str = []
          · exact e
          · exact absurd (hp e).1 hst
        unfold heads at this ⊢
        rw [List.filter_cons_of_neg (by simp [hid, hms])]
        exact this.2
    · rcases store_message (u := u) (st := st) hid with ⟨_, he⟩ | ⟨hfree, s2, he, hh, hne, hf⟩
      · rw [he] at hs; cases hs
      · rw [he] at hs; cases hs
        have hpr : proper (m :: ms) = m :: proper ms := by unfold proper; rw [List.filter_cons_of_pos (by simp [hid])]
        have hd : heads (m :: ms) = heads ms := by unfold heads; rw [List.filter_cons_of_neg (by simp [hid])]
        rw [hpr, hd]
        refine ⟨?_, ?_, ?_, ?_, ?_⟩
        · intro c i x
          rw [i1, hf]
          split
          · rename_i hk
            obtain ⟨rfl, rfl⟩ := hk
            rw [hfree]
            constructor
            · rintro (h | ⟨h1, h2⟩)
              · cases h; exact .inr ⟨List.mem_cons_self, rfl⟩
              · exact .inr ⟨List.mem_cons_of_mem _ h1, h2⟩
            · rintro (h | ⟨h1, h2⟩)
              · cases h
              · rcases List.mem_cons.1 h1 with rfl | h1
                · exact .inl rfl
                · exact .inr ⟨h1, h2⟩
          · rename_i hk
            constructor
            · rintro (h | ⟨h1, h2⟩)
              · exact .inl h
              · exact .inr ⟨List.mem_cons_of_mem _ h1, h2⟩
            · rintro (h | ⟨h1, h2⟩)
              · exact .inl h
              · rcases List.mem_cons.1 h1 with rfl | h1
                · simp only [keyOf, Prod.mk.injEq] at h2
                  exact absurd ⟨h2.1.symm, h2.2.symm⟩ hk
                · exact .inr ⟨h1, h2⟩
        · intro x hx
          rcases List.mem_cons.1 hx with rfl | hx
          · exact hfree
          · have := i2 x hx
            rw [hf] at this
            split at this
            · cases this
            · exact this
        · rw [List.map_cons, List.nodup_cons]
          refine ⟨?_, i3⟩
          intro hk
          obtain ⟨x, hx, he⟩ := List.mem_map.1 hk
          have := i2 x hx
          simp only [keyOf, Prod.mk.injEq] at he
          rw [hf, if_pos he] at this
          cases this
        · rw [← hh]; exact i4
        · rw [i5]; simp [hne]

/-- A run succeeds if the keys are new and there is at most one header. -/
theorem storeAll_succeeds (u : Unicode) {ms : List Message} : ∀ {st : PState},
    (∀ m ∈ proper ms, PState.find st m.context m.id = none) → ((proper ms).map keyOf).Nodup →
    (heads ms = [] ∨ (st.header = none ∧ (heads ms).length = 1)) → ∃ st', storeAll u st ms = .ok st' ∧
      (∀ m, heads ms = [m] → st.header = none → st'.header = parseHeader u m) ∧
      (heads ms = [] → st'.header = st.header) := by
  induction ms with
  | nil => intro st _ _ _; exact ⟨st, rfl, by simp [heads], fun _ => rfl⟩
  | cons m ms ih =>
    intro st h1 h2 h3
    by_cases hid : m.id = []
    · have hpr : proper (m :: ms) = proper ms := by unfold proper; rw [List.filter_cons_of_neg (by simp [hid])]
      rw [hpr] at h1 h2
      rcases store_header (u := u) (st := st) hid with ⟨hs, hh, he⟩ | ⟨s2, he, hm, hh, hn, hp⟩
      · have hd : heads (m :: ms) = m :: heads ms := by unfold heads; rw [List.filter_cons_of_pos (by simp [hid, hs])]
        rw [hd] at h3
        rcases h3 with h3 | ⟨h3, _⟩
        · cases h3
        · exact absurd h3 hh
      · have hfd : ∀ c i, PState.find s2 c i = PState.find st c i := by intro c i; unfold PState.find; rw [hm]
        have h1' : ∀ m ∈ proper ms, PState.find s2 m.context m.id = none := by
          intro x hx; rw [hfd]; exact h1 x hx
        rw [storeAll, he]
        by_cases hs : m.str = []
        · have hd : heads (m :: ms) = heads ms := by unfold heads; rw [List.filter_cons_of_neg (by simp [hs])]
          rw [hd] at h3 ⊢
          obtain rfl := hn hs
          exact ih h1' h2 h3
        · have hd : heads (m :: ms) = m :: heads ms := by unfold heads; rw [List.filter_cons_of_pos (by simp [hid, hs])]
          rw [hd] at h3 ⊢
          rcases h3 with h3 | ⟨h3, h4⟩
          · cases h3
          · have h5 : heads ms = [] := by simpa using h4
            obtain ⟨st', g1, g2, g3⟩ := ih h1' h2 (.inl h5)
            refine ⟨st', g1, ?_, by simp⟩
            intro y hy _
            obtain ⟨rfl, _⟩ := List.cons.inj hy
            rw [g3 h5, (hp hs).2]
    · have hpr : proper (m :: ms) = m :: proper ms := by unfold proper; rw [List.filter_cons_of_pos (by simp [hid])]
      have hd : heads (m :: ms) = heads ms := by unfold heads; rw [List.filter_cons_of_neg (by simp [hid])]
      rw [hpr] at h1 h2
      rw [List.map_cons, List.nodup_cons] at h2
      rw [hd] at h3 ⊢
      rcases store_message (u := u) (st := st) hid with ⟨hx, _⟩ | ⟨hfree, s2, he, hh, hne, hf⟩
      · exact absurd (h1 m List.mem_cons_self) hx
      · rw [storeAll, he]
        have := ih (st := s2) ?_ h2.2 (by rw [hh]; exact h3)
        · rw [hh] at this; exact this
        · intro x hx
          rw [hf, if_neg]
          · exact h1 x (List.mem_cons_of_mem _ hx)
          · rintro ⟨e1, e2⟩
            exact h2.1 (List.mem_map.2 ⟨x, hx, by simp [keyOf, e1, e2]⟩)

theorem storeAll_append (u : Unicode) (ms ns : List Message) : ∀ st, storeAll u st (ms ++ ns) =
    (storeAll u st ms).bind fun st => storeAll u st ns := by
  induction ms with
  | nil => intro st; rfl
  | cons m ms ih =>
    intro st
    rw [List.cons_append, storeAll, storeAll, bind_assoc]
    congr 1
    funext st'
    exact ih st'

theorem finish_ok {st : PState} {f : File} (h : finish st = .ok f) : f.messages = st.messages ∧
    f.header = some (st.header.getD {}) := by
  unfold finish at h
  split at h
  · rename_i hh
    split at h
    · cases h
    · cases h; simp [hh]
  · rename_i h' hh
    cases h; simp [hh]

theorem finish_cases (st : PState) : (st.header = none ∧ st.messages = [] ∧ finish st = .error .empty) ∨
    ∃ f, finish st = .ok f ∧ f.messages = st.messages ∧ f.header = some (st.header.getD {}) := by
  unfold finish
  cases h : st.header with
  | none =>
    by_cases hm : st.messages = []
    · exact .inl ⟨rfl, hm, by simp [hm]⟩
    · right; simp [hm]
  | some x => right; simp

theorem getMessage_find {st : PState} {f : File} (h : f.messages = st.messages) (c i : Bytes) :
    f.getMessage c i = PState.find st c i := by
  unfold File.getMessage PState.find
  rw [h]
  cases st.messages.get? c <;> rfl

end Verif.Proofs.Po
