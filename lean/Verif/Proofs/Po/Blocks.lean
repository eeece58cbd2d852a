import Verif.Proofs.Po.Safe
import Verif.Props.Gettext
/-!
# The parser on sequences of entries
-/
namespace Verif.Proofs.Po
open Verif.Go Verif.Model.PoString Verif.Spec.PoString Verif.Spec.PoEntry
open Verif.Model.Po hiding Field

/-- The message of a block that is not the first one: without a blank line the first visible comment line is lost. -/
def laterMessage (ignore : Bool) (b : Block) : Message :=
  if b.1 = [] then
    { b.2.message ignore with comment := some (commentOf ignore (afterFirst ignore b.2.comments)) }
  else b.2.message ignore

/-- The messages of blocks. -/
def blockMessages (ignore : Bool) : List Block → List Message
  | [] => []
  | b :: bs => b.2.message ignore :: bs.map (laterMessage ignore)

theorem isBlankLine_of {l : Bytes} (h : BlankLine l) : isBlankLine l = true := by
  unfold BlankLine at h; simp [isBlankLine, h]

theorem tokensFrom_gap_ws {ignore : Bool} {g ls : List Bytes} (hg : ∀ l ∈ g, BlankLine l) (last : Token) :
    tokensFrom ignore true last (g ++ ls) = tokensFrom ignore true last ls := by
  induction g with
  | nil => rfl
  | cons l g ih =>
    rw [List.cons_append, tokensFrom_blank ignore true last (isBlankLine_of (hg l List.mem_cons_self)), if_pos rfl]
    exact ih fun x hx => hg x (List.mem_cons_of_mem _ hx)

theorem tokensFrom_gap {ignore : Bool} {g ls : List Bytes} (hg : ∀ l ∈ g, BlankLine l) (hne : g ≠ []) (last : Token) :
    tokensFrom ignore false last (g ++ ls) = ws :: tokensFrom ignore true .whitespace ls := by
  match g, hne with
  | l :: g, _ =>
    rw [List.cons_append, tokensFrom_blank ignore false last (isBlankLine_of (hg l List.mem_cons_self)), if_neg (by simp),
      tokensFrom_gap_ws fun x hx => hg x (List.mem_cons_of_mem _ hx)]

/-- The rest of the file after the tokens of a message. -/
def cont (u : Unicode) (st : PState) (m : Message) (ts : List Tok) : Res PState :=
  (messageLoop m ts).bind fun (m, r) => (store u st m).bind fun st => loop u st r

theorem loop_message {u : Unicode} {st : PState} {ts R : List Tok} {m : Message}
    (h : parseMessage ts = messageLoop m R) (hne : parseMessage ts ≠ .eof) : loop u st ts = cont u st m R := by
  rw [loop_eq, h]
  unfold cont
  rw [h] at hne
  cases hm : messageLoop m R with
  | eof => exact absurd hm hne
  | _ => rfl

theorem parse_ne_eof {ts R : List Tok} {m : Message} (h : parseMessage ts = messageLoop m R) : parseMessage ts ≠ .eof := by
  rw [h]; exact messageLoop_ne_eof _ _

theorem cont_blocks (u : Unicode) (ignore : Bool) (tail : List Bytes) (ht : ∀ l ∈ tail, BlankLine l) (bs : List Block) :
    (∀ b ∈ bs, b.WF) → (∀ b ∈ bs, b.1 ≠ [] ∨ ∃ c ∈ b.2.comments, c.Visible ignore) → ∀ (st : PState) (m : Message) (last : Token),
    cont u st m (tokensFrom ignore false last (blockLines bs ++ tail)) =
      (store u st m).bind fun st => storeAll u st (bs.map (laterMessage ignore)) := by
  induction bs with
  | nil =>
    intro _ _ st m last
    have : blockLines [] ++ tail = tail := rfl
    rw [this]
    have ht' : tokensFrom ignore false last tail = [] ∨ tokensFrom ignore false last tail = [ws] := by
      cases tail with
      | nil => exact .inl rfl
      | cons l tail =>
        right
        have := tokensFrom_gap (ignore := ignore) (ls := []) ht (by simp) last
        rw [List.append_nil] at this
        rw [this]; rfl
    rcases ht' with h | h
    · rw [h]; unfold cont; simp only [messageLoop, Res.bind, loop_nil]; rfl
    · rw [h]; unfold cont; rfl
  | cons b bs ih =>
    intro hw ha st m last
    obtain ⟨g, e⟩ := b
    obtain ⟨hg, he⟩ := hw _ List.mem_cons_self
    have ih := ih (fun x hx => hw x (List.mem_cons_of_mem _ hx)) (fun x hx => ha x (List.mem_cons_of_mem _ hx))
    obtain ⟨C, M, hE⟩ := entry_tokens ignore e he
    have hl : blockLines ((g, e) :: bs) ++ tail = g ++ (e.lines ++ (blockLines bs ++ tail)) := by
      simp [blockLines]
    rw [hl]
    simp only [List.map_cons]
    by_cases hgn : g = []
    · subst hgn
      rcases ha _ List.mem_cons_self with h | ⟨c, hc, hv⟩
      · exact absurd rfl h
      · cases C with
        | nil => exact absurd hv (hE.hidden.1 rfl c hc)
        | cons t C' =>
          obtain ⟨last', htok⟩ := hE.tokens false last (blockLines bs ++ tail)
          have hp := hE.parseRest t C' rfl (tokensFrom ignore false last' (blockLines bs ++ tail))
          rw [List.nil_append, htok]
          have hend : t.1.endsMessage = true := by
            have := (hE.comment t List.mem_cons_self).1
            unfold Token.endsMessage; rw [this]; simp
          have : messageLoop m ((t :: C') ++ (M ++ tokensFrom ignore false last' (blockLines bs ++ tail))) =
              .ok (m, C' ++ (M ++ tokensFrom ignore false last' (blockLines bs ++ tail))) := by
            obtain ⟨tok, lit⟩ := t
            rw [List.cons_append, messageLoop, if_pos hend]
          unfold cont
          rw [this]
          show (store u st m).bind _ = _
          congr 1
          funext st'
          rw [loop_message hp (parse_ne_eof hp), ih st' _ last']
          rfl
    · rw [tokensFrom_gap hg hgn]
      obtain ⟨last', htok⟩ := hE.tokens true .whitespace (blockLines bs ++ tail)
      have hp := hE.parse (tokensFrom ignore false last' (blockLines bs ++ tail))
      rw [htok]
      show (store u st m).bind _ = _
      congr 1
      funext st'
      rw [loop_message hp (parse_ne_eof hp), ih st' _ last']
      have : laterMessage ignore (g, e) = e.message ignore := by unfold laterMessage; rw [if_neg hgn]
      rw [storeAll, this]

/-- The parser reads a sequence of well-formed blocks. -/
theorem run_blocks (u : Unicode) (ignore : Bool) {tail : List Bytes} (ht : ∀ l ∈ tail, BlankLine l) {bs : List Block}
    (hw : ∀ b ∈ bs, b.WF) (ha : Apart ignore bs) (st : PState) :
    run u ignore st (blockLines bs ++ tail) = storeAll u st (blockMessages ignore bs) := by
  cases bs with
  | nil =>
    show run u ignore st tail = .ok st
    induction tail with
    | nil => rfl
    | cons l tail ih =>
      rw [run_blank_cons u ignore st tail l (isBlankLine_of (ht l List.mem_cons_self))]
      exact ih fun x hx => ht x (List.mem_cons_of_mem _ hx)
  | cons b bs =>
    obtain ⟨g, e⟩ := b
    obtain ⟨hg, he⟩ := hw _ List.mem_cons_self
    obtain ⟨C, M, hE⟩ := entry_tokens ignore e he
    have hl : blockLines ((g, e) :: bs) ++ tail = g ++ (e.lines ++ (blockLines bs ++ tail)) := by
      simp [blockLines]
    rw [hl]
    have hrun : run u ignore st (g ++ (e.lines ++ (blockLines bs ++ tail))) =
        run u ignore st (e.lines ++ (blockLines bs ++ tail)) := by
      clear hl hw ha
      induction g with
      | nil => rfl
      | cons l g ih =>
        rw [List.cons_append, run_blank_cons u ignore st _ l (isBlankLine_of (hg l List.mem_cons_self))]
        exact ih (fun x hx => hg x (List.mem_cons_of_mem _ hx)) he
    rw [hrun]
    unfold run tokens
    obtain ⟨last', htok⟩ := hE.tokens false .eof (blockLines bs ++ tail)
    have hp := hE.parse (tokensFrom ignore false last' (blockLines bs ++ tail))
    rw [htok, loop_message hp (parse_ne_eof hp),
      cont_blocks u ignore tail ht bs (fun x hx => hw x (List.mem_cons_of_mem _ hx)) ha st _ last']
    rfl

theorem blockMessages_apart {ignore : Bool} {bs : List Block} (h : BlankApart bs) :
    blockMessages ignore bs = bs.map fun b => b.2.message ignore := by
  cases bs with
  | nil => rfl
  | cons b bs =>
    rw [blockMessages, List.map_cons]
    congr 1
    refine List.map_congr_left fun x hx => ?_
    unfold laterMessage
    rw [if_neg (h x hx)]

theorem mem_blockMessages {ignore : Bool} {bs : List Block} {b : Block} (h : b ∈ bs) :
    b.2.message ignore ∈ blockMessages ignore bs ∨ laterMessage ignore b ∈ blockMessages ignore bs := by
  cases bs with
  | nil => cases h
  | cons a bs =>
    rcases List.mem_cons.1 h with rfl | h
    · exact .inl List.mem_cons_self
    · exact .inr (List.mem_cons_of_mem _ (List.mem_map.2 ⟨b, h, rfl⟩))

theorem laterMessage_eq (ignore : Bool) (b : Block) : ∃ c, laterMessage ignore b = { b.2.message ignore with comment := some c } := by
  unfold laterMessage
  split
  · exact ⟨_, rfl⟩
  · exact ⟨commentOf ignore b.2.comments, rfl⟩

theorem map_message {α : Type} (g : Message → α) (hg : ∀ m c, g { m with comment := c } = g m) (ignore : Bool) (bs : List Block) :
    (blockMessages ignore bs).map g = bs.map fun b => g (b.2.message ignore) := by
  cases bs with
  | nil => rfl
  | cons b bs =>
    rw [blockMessages, List.map_cons, List.map_cons, List.map_map]
    congr 1
    refine List.map_congr_left fun x _ => ?_
    obtain ⟨c, hc⟩ := laterMessage_eq ignore x
    simp only [Function.comp_apply]
    rw [hc, hg]

/-! ## What was stored before does not matter for the rest -/

theorem storeAll_transfer (u : Unicode) {ms : List Message} : ∀ {st st' st2 : PState}, storeAll u st ms = .ok st' →
    st2.header = st.header → (∀ m ∈ proper ms, PState.find st2 m.context m.id = none) →
    ∃ st2', storeAll u st2 ms = .ok st2' ∧ st2'.header = st'.header := by
  induction ms with
  | nil => intro st st' st2 h hh _; cases h; exact ⟨st2, rfl, hh⟩
  | cons m ms ih =>
    intro st st' st2 h hh hf
    obtain ⟨_, _, hnd, _, _⟩ := storeAll_ok h
    rw [storeAll] at h
    obtain ⟨s1, h1, h2⟩ := bind_eq_ok.1 h
    by_cases hid : m.id = []
    · have hpr : proper (m :: ms) = proper ms := by unfold proper; rw [List.filter_cons_of_neg (by simp [hid])]
      rw [hpr] at hf
      rcases store_header (u := u) (st := st) hid with ⟨_, _, he⟩ | ⟨s, he, hm, k1, k2, k3⟩
      · rw [he] at h1; cases h1
      · rw [he] at h1; cases h1
        rcases store_header (u := u) (st := st2) hid with ⟨g1, g2, _⟩ | ⟨s', he', hm', k1', k2', k3'⟩
        · exact absurd (k3 g1).1 (by rw [← hh]; exact g2)
        · have hs : s'.header = s1.header := by
            by_cases e : m.str = []
            · rw [k2 e, k2' e, hh]
            · rw [(k3 e).2, (k3' e).2]
          obtain ⟨r, hr1, hr2⟩ := ih h2 hs (by
            intro x hx
            unfold PState.find; rw [hm']; exact hf x hx)
          exact ⟨r, by rw [storeAll, he']; exact hr1, hr2⟩
    · have hpr : proper (m :: ms) = m :: proper ms := by unfold proper; rw [List.filter_cons_of_pos (by simp [hid])]
      rw [hpr] at hf hnd
      rw [List.map_cons, List.nodup_cons] at hnd
      rcases store_message (u := u) (st := st) hid with ⟨_, he⟩ | ⟨_, s, he, k1, _, _⟩
      · rw [he] at h1; cases h1
      · rw [he] at h1; cases h1
        rcases store_message (u := u) (st := st2) hid with ⟨g, _⟩ | ⟨_, s', he', k1', _, k2'⟩
        · exact absurd (hf m List.mem_cons_self) g
        · obtain ⟨r, hr1, hr2⟩ := ih (st2 := s') h2 (by rw [k1, k1', hh]) (by
            intro x hx
            rw [k2', if_neg]
            · exact hf x (List.mem_cons_of_mem _ hx)
            · rintro ⟨e1, e2⟩
              exact hnd.1 (List.mem_map.2 ⟨x, hx, by simp [keyOf, e1, e2]⟩))
          exact ⟨r, by rw [storeAll, he']; exact hr1, hr2⟩

theorem find_none (c i : Bytes) : PState.find ⟨none, []⟩ c i = none := rfl

/-- An entry between blank lines. -/
theorem run_between (u : Unicode) (ignore : Bool) (st : PState) (A B : List Bytes) {b1 b2 : Bytes} {e : Entry}
    (h1 : BlankLine b1) (h2 : BlankLine b2) (he : e.WF) :
    run u ignore st (A ++ b1 :: (e.lines ++ b2 :: B)) =
      (run u ignore st A).bind fun st => (store u st (e.message ignore)).bind fun st => run u ignore st B := by
  rw [run_blank u ignore st A _ b1 (isBlankLine_of h1)]
  congr 1
  funext st'
  rw [run_blank u ignore st' e.lines B b2 (isBlankLine_of h2), run_entry u ignore e he]

/-- What was stored is kept. -/
theorem run_keeps {u : Unicode} {ignore : Bool} {st st' : PState} {ls : List Bytes} (h : run u ignore st ls = .ok st') :
    (∀ c i m, PState.find st c i = some m → PState.find st' c i = some m) ∧
    (st.header ≠ none → st'.header = st.header) := by
  obtain ⟨ms, out, hr⟩ := run_read u ignore ls
  rw [hr] at h
  obtain ⟨s1, h3, h4⟩ := bind_eq_ok.1 h
  obtain ⟨_, _, h5⟩ := bind_eq_ok.1 h4
  cases h5
  obtain ⟨g1, _, _, g4, _⟩ := storeAll_ok h3
  exact ⟨fun c i m hm => (g1 c i m).2 (.inl hm), fun hn => (g4 hn).1⟩

/-! ## Only the end of the file reports an empty file -/

theorem bind_ne_empty {α β : Type} {r : Res α} {g : α → Res β} (h1 : r ≠ .error .empty) (h2 : ∀ a, g a ≠ .error .empty) :
    r.bind g ≠ .error .empty := by
  cases r with
  | ok a => exact h2 a
  | error e => intro h; cases h; exact h1 rfl
  | eof => intro h; cases h
  | panic => intro h; cases h
  | hang => intro h; cases h

theorem ok_ne_empty {α : Type} (a : α) : Res.ok a ≠ .error .empty := by simp

theorem from_ne_empty (k : Nat) (s : Bytes) : from? k s ≠ .error .empty := by unfold from?; split <;> simp

theorem decode_ne_empty (s : Bytes) : decode s ≠ .error .empty := by unfold decode; split <;> simp

theorem decodePrev_ne_empty (o s : Bytes) : decodePrev o s ≠ .error .empty := by
  unfold decodePrev
  split
  · simp
  · exact bind_ne_empty (decode_ne_empty _) fun _ => ok_ne_empty _

theorem commentStep_ne_empty (c : Comment) (tok : Token) (lit : Bytes) : commentStep c tok lit ≠ .error .empty := by
  unfold commentStep
  split <;> first
    | exact ok_ne_empty _
    | exact bind_ne_empty (from_ne_empty _ _) fun _ => ok_ne_empty _
    | exact bind_ne_empty (from_ne_empty _ _) fun _ => bind_ne_empty (decodePrev_ne_empty _ _) fun _ => ok_ne_empty _
    | exact bind_ne_empty (from_ne_empty _ _) fun _ => bind_ne_empty (decode_ne_empty _) fun _ => ok_ne_empty _

theorem messageStep_ne_empty (m : Message) (tok : Token) (lit : Bytes) : messageStep m tok lit ≠ .error .empty := by
  unfold messageStep
  split <;> first
    | exact bind_ne_empty (from_ne_empty _ _) fun _ => bind_ne_empty (decode_ne_empty _) fun _ => ok_ne_empty _
    | exact bind_ne_empty (decode_ne_empty _) fun _ => ok_ne_empty _
    | skip
  · unfold pluralStep
    repeat' split
    all_goals first
      | exact bind_ne_empty (from_ne_empty _ _) fun _ => bind_ne_empty (decode_ne_empty _) fun _ => ok_ne_empty _
      | simp
  · split
    · simp
    · exact bind_ne_empty (decode_ne_empty _) fun _ => ok_ne_empty _
  · simp

theorem parseComment_ne_empty (ts : List Tok) : ∀ c, parseComment c ts ≠ .error .empty := by
  induction ts with
  | nil => intro c; simp [parseComment]
  | cons t ts ih =>
    intro c
    obtain ⟨tok, lit⟩ := t
    rw [parseComment]
    split
    · simp
    · split
      · exact bind_ne_empty (commentStep_ne_empty _ _ _) ih
      · simp

theorem messageLoop_ne_empty (ts : List Tok) : ∀ m, messageLoop m ts ≠ .error .empty := by
  induction ts with
  | nil => intro c; simp [messageLoop]
  | cons t ts ih =>
    intro c
    obtain ⟨tok, lit⟩ := t
    rw [messageLoop]
    split
    · simp
    · exact bind_ne_empty (messageStep_ne_empty _ _ _) ih

theorem parseMessage_ne_empty (ts : List Tok) : parseMessage ts ≠ .error .empty := by
  match ts with
  | [] => simp [parseMessage]
  | (tok, lit) :: ts =>
    rw [parseMessage]
    split
    · exact bind_ne_empty (parseComment_ne_empty _ _) fun a => messageLoop_ne_empty _ _
    · exact messageLoop_ne_empty _ _

theorem fileLoop_ne_empty (u : Unicode) (f : Nat) : ∀ st ts, fileLoop u f st ts ≠ .error .empty := by
  induction f with
  | zero => intros; simp [fileLoop]
  | succ f ih =>
    intro st ts
    rw [fileLoop]
    have h := parseMessage_ne_empty ts
    cases hp : parseMessage ts with
    | ok a =>
      simp only
      refine bind_ne_empty ?_ fun _ => ih _ _
      unfold store
      split
      · split
        · simp
        · split
          · simp
          · split <;> simp
      · simp only; split <;> simp
    | error e => simp only; rw [hp] at h; simpa using h
    | eof => simp
    | panic => simp
    | hang => simp

theorem run_ne_empty (u : Unicode) (ignore : Bool) (st : PState) (ls : List Bytes) : run u ignore st ls ≠ .error .empty :=
  fileLoop_ne_empty _ _ _ _

/-! ## Headers -/

theorem headerLoop_isSome (u : Unicode) (ls : List Bytes) : ∀ h, (∀ l ∈ ls, 0x3a ∈ l ∨ BlankLine l) →
    (headerLoop u h ls).isSome = true := by
  induction ls with
  | nil => intros; rfl
  | cons l ls ih =>
    intro h hl
    have ih := fun h => ih h fun x hx => hl x (List.mem_cons_of_mem _ hx)
    rw [headerLoop]
    split
    · rename_i hn
      rcases hl l List.mem_cons_self with h' | h'
      · exfalso
        have : ∀ s : Bytes, indexByte? 0x3a s = none → (0x3a : UInt8) ∉ s := by
          intro s
          induction s with
          | nil => simp
          | cons x s ih =>
            intro hs
            rw [indexByte?] at hs
            split at hs
            · cases hs
            · rename_i hx
              simp only [List.mem_cons, not_or]
              exact ⟨fun e => hx e.symm, ih (by simpa using hs)⟩
        exact this l hn h'
      · have h'' : trimSpace l = [] := h'
        rw [if_pos h'']; exact ih h
    · exact ih _

/-! ## Consistency -/

open Verif.Proofs.Catalog

theorem store_consistent {u : Unicode} {st st' : PState} {m : Message} (h : store u st m = .ok st')
    (hc : Consistent st.messages) : Consistent st'.messages := by
  by_cases hid : m.id = []
  · rcases store_header (u := u) (st := st) hid with ⟨_, _, he⟩ | ⟨s, he, hm, _⟩
    · rw [he] at h; cases h
    · rw [he] at h; cases h; rw [hm]; exact hc
  · have := Consistent.add hc m
    unfold store at h
    rw [if_neg hid] at h
    unfold Messages.add at this
    simp only at h this
    cases hg : ((st.messages.get? m.context).getD []).get? m.id with
    | some x => rw [hg] at h; cases h
    | none => rw [hg] at h this; cases h; exact this

theorem storeAll_consistent {u : Unicode} {ms : List Message} : ∀ {st st' : PState}, storeAll u st ms = .ok st' →
    Consistent st.messages → Consistent st'.messages := by
  induction ms with
  | nil => intro st st' h hc; cases h; exact hc
  | cons m ms ih =>
    intro st st' h hc
    rw [storeAll] at h
    obtain ⟨s1, h1, h2⟩ := bind_eq_ok.1 h
    exact ih h2 (store_consistent h1 hc)

/-- What the parser returns is what was read, stored under its own keys. -/
theorem parse_ok {u : Unicode} {ignore : Bool} {content : Bytes} {f : File} (h : parse u ignore content = .ok f) :
    ∃ ms, Consistent f.messages ∧ ((proper ms).map keyOf).Nodup ∧
      (∀ c i m, f.getMessage c i = some m ↔ m ∈ proper ms ∧ keyOf m = (c, i)) ∧
      ∃ st, storeAll u ⟨none, []⟩ ms = .ok st ∧ f.messages = st.messages := by
  unfold parse at h
  rw [parseLines_run] at h
  obtain ⟨st, h1, h2⟩ := bind_eq_ok.1 h
  obtain ⟨ms, out, hr⟩ := run_read u ignore (scanLines content)
  rw [hr] at h1
  obtain ⟨st', h3, h4⟩ := bind_eq_ok.1 h1
  obtain ⟨_, _, h5⟩ := bind_eq_ok.1 h4
  cases h5
  obtain ⟨g1, g2, g3, _⟩ := storeAll_ok h3
  have hm := (finish_ok h2).1
  refine ⟨ms, by rw [hm]; exact storeAll_consistent h3 Consistent.nil, g3, ?_, st, h3, hm⟩
  intro c i m
  rw [getMessage_find hm, g1]
  simp [PState.find, GoMap.get?]

end Verif.Proofs.Po
