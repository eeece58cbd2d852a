import Verif.Proofs.Po.Saving
import Verif.Props.PoMemory
/-!
# C111: saving a PO file

`Encoder.Encode` sorts the messages with `DefaultSortFunction`, which sorts the flags and references of the messages that it compares where
they are.  `saveIn enc x header h` is what saving does in memory (`Verif.Model.Po.Saving`); `x` is any algorithm that compares messages of the
file and returns their pointers in some order, and `cmpOf h` compares what the messages stand for in `h`.
-/
namespace Verif.Props.PoSaving
open Verif.Go Verif.Model.Po Verif.Model.Po.Memory Verif.Spec.Memory Verif.Spec.Saving Verif.Proofs.Po.Memory Verif.Props.PoMemory

/-- **C111.** Although comparing changes the messages while they are sorted, the written order is the one of the messages as they were at the
beginning, and every message of the file is written once. -/
theorem C111_order (enc : Encoder) (header : Option Header) {h : Heap} {f : Nat} (ok : FileOk h f) (ap : CommentsApart h f) {x : Algo}
    (hx : Sorts (pointers h f) x) :
    (order (cmpOf h) x).Perm (pointers h f) ∧
      (saveIn enc x header h).1 = (enc.encodeMessages ((order (cmpOf h) x).map (saveIn enc x header h).2.message)).map
        (fun body => (match header with
          | some hd => if enc.writeHeader then enc.encodeHeader hd ++ b!"\n" else []
          | none => []) ++ body) := by
  refine ⟨order_perm hx, ?_⟩
  simp only [saveIn_eq, run_eq hx (sep_of ok ap)]
  cases header <;> rfl

/-- **C111.** The pointers of the file are the results of `GetMessage`. -/
theorem C111_pointers {h : Heap} {f : Nat} (ok : FileOk h f) (a : Nat) : a ∈ pointers h f ↔ ∃ ctx id, getMessage h f ctx id = some a :=
  pointers_mem ok.2.1

/-- **C111.** Saving changes nothing of a message but the order of the flags and references in its comment.  This holds for every message, of this
file or not, if its comment is one of the file or shares no memory with them. -/
theorem C111_messages (enc : Encoder) (header : Option Header) {h : Heap} {f : Nat} (ok : FileOk h f) (ap : CommentsApart h f) {x : Algo}
    (hx : Sorts (pointers h f) x) {b : Nat} (okb : MsgOk h b)
    (hb : ∀ ctx id a, getMessage h f ctx id = some a → ∀ c d, (h.msg b).comment = some c → (h.msg a).comment = some d →
      c = d ∨ CmtApart h c d) :
    Reordered (h.message b) ((saveIn enc x header h).2.message b) := by
  have s := sep_of ok ap
  have hof := touched_of (h := h) (cmp := cmpOf h) hx
  rw [saveIn_eq, run_eq hx s]
  simp only
  rw [message_after (s.cmtOk hof) okb fun c d hd hc => ?_]
  · split
    · exact reordered_tidy _
    · exact reordered_refl _
  · obtain ⟨a, ha, e⟩ := hof c hc
    obtain ⟨ctx, id, g⟩ := (C111_pointers ok a).mp ha
    exact hb ctx id a g d c hd e

/-- **C111.** Messages whose comments share no memory with the file do not change. -/
theorem C111_unchanged (enc : Encoder) (header : Option Header) {h : Heap} {f : Nat} (ok : FileOk h f) (ap : CommentsApart h f) {x : Algo}
    (hx : Sorts (pointers h f) x) {b : Nat} (okb : MsgOk h b) (out : Outside h f b) :
    (saveIn enc x header h).2.message b = h.message b := by
  have s := sep_of ok ap
  have hof := touched_of (h := h) (cmp := cmpOf h) hx
  have key : ∀ c d, (h.msg b).comment = some d → c ∈ touched h (cmpOf h) x → CmtApart h d c := by
    intro c d hd hc
    obtain ⟨a, ha, e⟩ := hof c hc
    obtain ⟨ctx, id, g⟩ := (C111_pointers ok a).mp ha
    exact out ctx id a g d c hd e
  rw [saveIn_eq, run_eq hx s]
  simp only
  rw [message_after (s.cmtOk hof) okb fun c d hd hc => .inr (key c d hd hc), if_neg]
  rintro ⟨d, hd, e⟩
  exact (key d d e hd).1 rfl

/-- **C111.** Saving stores no other pointers: `GetMessage` finds the same messages in every file. -/
theorem C111_found (enc : Encoder) (header : Option Header) {h : Heap} {f : Nat} (ok : FileOk h f) (ap : CommentsApart h f) {x : Algo}
    (hx : Sorts (pointers h f) x) (g : Nat) (ctx id : Bytes) :
    getMessage (saveIn enc x header h).2 g ctx id = getMessage h g ctx id := by
  rw [saveIn_eq, run_eq hx (sep_of ok ap)]
  exact (sortAll_still _ h).getMessage g ctx id

/-- **C111.** Saving again gives the same text and does not change the messages of the file any more. -/
theorem C111_again (enc : Encoder) (header : Option Header) {h : Heap} {f : Nat} (ok : FileOk h f) (ap : CommentsApart h f) {x : Algo}
    (hx : Sorts (pointers h f) x) :
    (saveIn enc x header (saveIn enc x header h).2).1 = (saveIn enc x header h).1 ∧
      ∀ ctx id a, getMessage h f ctx id = some a →
        (saveIn enc x header (saveIn enc x header h).2).2.message a = (saveIn enc x header h).2.message a := by
  have r := run_again hx (sep_of ok ap)
  simp only [saveIn_eq]
  refine ⟨?_, fun ctx id a g => r.2 a ((C111_pointers ok a).mpr ⟨ctx, id, g⟩)⟩
  rw [r.1]
  have e : (x.run h).1.map (x.run (x.run h).2).2.message = (x.run h).1.map (x.run h).2.message := by
    refine List.map_congr_left fun b hb => r.2 b ?_
    rw [run_eq hx (sep_of ok ap)] at hb
    exact order_mem hx hb
  rw [e]

/-- **C111.** If Go visits the maps in another order the second time, the order that is written is still the one that the first save would have
had: an earlier save makes no difference. -/
theorem C111_order_again (enc : Encoder) (header : Option Header) {h : Heap} {f : Nat} (ok : FileOk h f) (ap : CommentsApart h f) {x y : Algo}
    (hx : Sorts (pointers h f) x) (hy : Sorts (pointers h f) y) :
    order (cmpOf (saveIn enc x header h).2) y = order (cmpOf h) y := by
  rw [saveIn_eq, run_eq hx (sep_of ok ap)]
  exact (cmp_congr (cmpOf_after (sep_of ok ap) (touched_of hx)) hy).1

/-- **C111.** A file that was made with `AddMessage` from messages that share no memory (C106) meets the conditions. -/
theorem C111_owned {h : Heap} {f : Nat} (ow : FileOwned h f) : FileOk h f ∧ CommentsApart h f := by
  refine ⟨FileOwned.ok ow, fun ctx id a ctx' id' b ha hb c d hc hd => ?_⟩
  by_cases e : (ctx, id) = (ctx', id')
  · cases e
    rw [ha] at hb
    cases hb
    rw [hc] at hd
    cases hd
    exact .inl rfl
  · unfold getMessage at ha hb
    cases hf : h.files[f]?.getD none with
    | none => rw [hf] at ha; cases ha
    | some o =>
      rw [hf] at ha hb
      exact .inr (((ow.2 o hf).apart _ _ _ _ _ _ ha hb e).2 c d hc hd)

/-- **C111.** `Encode` is all or nothing: the writer gets the whole text in one call, and nothing at all for a nil file or if encoding panics;
there is an error exactly for a nil file and if the writer has one. -/
theorem C111_write (accepts : Bytes → Bool) (text : Option (Run Bytes)) :
    ((encodeTo accepts text).1 = match text with | some (.ok b) => [b] | _ => []) ∧
      ((encodeTo accepts text).2 = .ok none ↔ ∃ b, text = some (.ok b) ∧ accepts b = true) ∧
      (∀ e, (encodeTo accepts text).2 = .error e ↔ text = some (.error e)) := by
  match text with
  | none => exact ⟨rfl, ⟨(fun x => by cases x), (fun ⟨_, x, _⟩ => by cases x)⟩, fun e => ⟨(fun x => by cases x), (fun x => by cases x)⟩⟩
  | some (.error e) =>
    refine ⟨rfl, ⟨(fun x => by cases x), (fun ⟨_, x, _⟩ => by cases x)⟩, fun e' => ⟨(fun x => ?_), (fun x => ?_)⟩⟩
    · cases x; rfl
    · cases x; rfl
  | some (.ok b) =>
    refine ⟨rfl, ?_, fun e => ⟨(fun x => by cases x), (fun x => by cases x)⟩⟩
    simp only [encodeTo, Option.some.injEq, Except.ok.injEq]
    cases hb : accepts b
    · exact ⟨(fun x => by simp at x), (fun ⟨b', x, y⟩ => by subst x; rw [hb] at y; cases y)⟩
    · exact ⟨fun _ => ⟨b, rfl, hb⟩, fun _ => by simp⟩

/-! ## Examples -/

/-- A file with two messages whose comments have two flags each, and a message that is not in the file. -/
def start : Heap where
  refs := [[ref 20, ref 10], [ref 5]]
  flags := [[b!"fuzzy", b!"c-format"], [b!"z", b!"a"], [b!"y", b!"x"]]
  cmts := [⟨[], [], ⟨0, 0, 2, 2⟩, ⟨0, 0, 2, 2⟩, [], []⟩, ⟨b!"note", [], ⟨1, 0, 1, 1⟩, ⟨1, 0, 2, 2⟩, [], []⟩,
    ⟨[], [], .nil, ⟨2, 0, 2, 2⟩, [], []⟩]
  msgs := [⟨some 0, [], b!"hello", [], [(0, b!"hallo")]⟩, ⟨some 1, [], b!"bye", [], []⟩, ⟨some 2, [], b!"other", [], []⟩]
  inners := [[(b!"hello", 0), (b!"bye", 1)]]
  outers := [[([], 0)]]
  files := [some 0]

/-- Two messages are compared once. -/
def two : Algo := .compare 0 1 fun c => .done (if c ≤ 0 then [0, 1] else [1, 0])

theorem two_sorts : Sorts (pointers start 0) two :=
  .compare (by decide) (by decide) fun i => by
    show Sorts _ (.done (if i ≤ 0 then [0, 1] else [1, 0]))
    split
    · exact .done (by decide)
    · exact .done (by decide)

theorem start_get {ctx id : Bytes} {a : Nat} (g : getMessage start 0 ctx id = some a) : a = 0 ∨ a = 1 := by
  unfold getMessage find at g
  simp only [start, List.getElem?_cons_zero, Option.getD_some, Heap.outer, Heap.inner] at g
  split at g
  · cases g
  · rename_i i hi
    have : i = 0 := by
      have := GoMap.mem_of_get? hi
      simp only [List.mem_cons, List.not_mem_nil, or_false, Prod.mk.injEq] at this
      exact this.2
    subst this
    have := GoMap.mem_of_get? g
    simp only [List.getElem?_cons_zero, Option.getD_some, List.mem_cons, List.not_mem_nil, or_false, Prod.mk.injEq] at this
    omega

theorem start_msgs : ∀ b ∈ [0, 1, 2], MsgOk start b := by
  intro b hb
  simp only [List.mem_cons, List.not_mem_nil, or_false] at hb
  rcases hb with rfl | rfl | rfl <;>
    exact ⟨by decide, fun c hc => by cases hc; exact ⟨by decide, by decide, by decide⟩⟩

theorem start_file : FileOk start 0 ∧ CommentsApart start 0 := by
  refine ⟨⟨by decide, fun o ho => ?_, fun c id b g => ?_⟩, fun ctx id a ctx' id' b ga gb c d hc hd => ?_⟩
  · cases ho
    refine ⟨by decide, by decide, fun ctx i hi => ?_, fun ctx ctx' i hi hi' => ?_⟩
    · have := GoMap.mem_of_get? hi
      simp only [Heap.outer, start, List.getElem?_cons_zero, Option.getD_some, List.mem_cons, List.not_mem_nil, or_false, Prod.mk.injEq] at this
      rw [this.2]
      exact ⟨by decide, by decide⟩
    · have h1 := GoMap.mem_of_get? hi
      have h2 := GoMap.mem_of_get? hi'
      simp only [Heap.outer, start, List.getElem?_cons_zero, Option.getD_some, List.mem_cons, List.not_mem_nil, or_false, Prod.mk.injEq] at h1 h2
      rw [h1.1, h2.1]
  · exact start_msgs b (by rcases start_get g with rfl | rfl <;> simp)
  · rcases start_get ga with rfl | rfl <;> rcases start_get gb with rfl | rfl <;> cases hc <;> cases hd
    · exact .inl rfl
    · exact .inr ⟨by decide, by decide, by decide⟩
    · exact .inr ⟨by decide, by decide, by decide⟩
    · exact .inl rfl

example : getMessage (saveIn .new two none start).2 0 [] b!"bye" = some 1 ∧
    Reordered (start.message 1) ((saveIn .new two none start).2.message 1) ∧
    (saveIn .new two none start).2.message 2 = start.message 2 := by
  obtain ⟨ok, ap⟩ := start_file
  refine ⟨by rw [C111_found .new none ok ap two_sorts]; decide,
    C111_messages .new none ok ap two_sorts (start_msgs 1 (by simp)) fun ctx id a g c d hc hd => ?_,
    C111_unchanged .new none ok ap two_sorts (start_msgs 2 (by simp)) fun ctx id a g c d hc hd => ?_⟩
  · rcases start_get g with rfl | rfl <;> cases hc <;> cases hd
    · exact .inr ⟨by decide, by decide, by decide⟩
    · exact .inl rfl
  · rcases start_get g with rfl | rfl <;> cases hc <;> cases hd <;> exact ⟨by decide, by decide, by decide⟩

example : (saveIn .new two none (saveIn .new two none start).2).1 = (saveIn .new two none start).1 :=
  (C111_again .new none start_file.1 start_file.2 two_sorts).1

example : order (cmpOf start) two = [1, 0] := by decide

example : (encodeTo (fun b => decide (b.length < 3)) (some (.ok b!"text"))) = ([b!"text"], .ok (some .write)) := by decide

/-- **C111, what is not so.** `Encode` is not read-only: who looks at a message of the file sees other orders of the flags and references
after saving than before. -/
theorem C111_negation : ∃ (h : Heap) (f a : Nat) (x : Algo), FileOk h f ∧ CommentsApart h f ∧ Sorts (pointers h f) x ∧
    getMessage h f [] b!"hello" = some a ∧ ((h.message a).comment.map (·.flags)) = some [b!"fuzzy", b!"c-format"] ∧
    (((saveIn .new x none h).2.message a).comment.map (·.flags)) = some [b!"c-format", b!"fuzzy"] :=
  ⟨start, 0, 0, two, start_file.1, start_file.2, two_sorts, by decide, by decide, by
    rw [saveIn_eq]; decide⟩

/-- A file with one message. -/
def single : Heap := { start with inners := [[(b!"hello", 0)]] }

theorem single_get {ctx id : Bytes} {a : Nat} (g : getMessage single 0 ctx id = some a) : a = 0 := by
  unfold getMessage find at g
  simp only [single, start, List.getElem?_cons_zero, Option.getD_some, Heap.outer, Heap.inner] at g
  split at g
  · cases g
  · rename_i i hi
    have : i = 0 := by
      have := GoMap.mem_of_get? hi
      simp only [List.mem_cons, List.not_mem_nil, or_false, Prod.mk.injEq] at this
      exact this.2
    subst this
    have := GoMap.mem_of_get? g
    simp only [List.getElem?_cons_zero, Option.getD_some, List.mem_cons, List.not_mem_nil, or_false, Prod.mk.injEq] at this
    exact this.2

theorem single_file : FileOwned single 0 := by
  refine ⟨by decide, fun o ho => ?_⟩
  cases ho
  have g : ∀ {ctx id a}, find single 0 ctx id = some a → a = 0 := fun x => single_get x
  refine ⟨⟨by decide, by decide, fun ctx i hi => ?_, fun ctx ctx' i hi hi' => ?_⟩, fun ctx id a x => ?_, fun ctx id a ctx' id' b x y ne => ?_⟩
  · have := GoMap.mem_of_get? hi
    simp only [Heap.outer, single, start, List.getElem?_cons_zero, Option.getD_some, List.mem_cons, List.not_mem_nil, or_false, Prod.mk.injEq] at this
    rw [this.2]
    exact ⟨by decide, by decide⟩
  · have h1 := GoMap.mem_of_get? hi
    have h2 := GoMap.mem_of_get? hi'
    simp only [Heap.outer, single, start, List.getElem?_cons_zero, Option.getD_some, List.mem_cons, List.not_mem_nil, or_false, Prod.mk.injEq] at h1 h2
    rw [h1.1, h2.1]
  · rw [g x]
    exact ⟨by decide, fun c hc => by cases hc; exact ⟨by decide, by decide, by decide⟩⟩
  · exfalso
    apply ne
    have key : ∀ {ctx id a}, find single 0 ctx id = some a → (ctx, id) = ([], b!"hello") := by
      intro ctx id a x
      unfold find at x
      simp only [single, start, List.getElem?_cons_zero, Option.getD_some, Heap.outer, Heap.inner] at x
      split at x
      · cases x
      · rename_i i hi
        have h1 := GoMap.mem_of_get? hi
        simp only [List.mem_cons, List.not_mem_nil, or_false, Prod.mk.injEq] at h1
        obtain ⟨e1, e2⟩ := h1
        subst e2
        have h2 := GoMap.mem_of_get? x
        simp only [List.getElem?_cons_zero, Option.getD_some, List.mem_cons, List.not_mem_nil, or_false, Prod.mk.injEq] at h2
        rw [e1, h2.1]
    rw [key x, key y]

example : FileOk single 0 ∧ CommentsApart single 0 := C111_owned single_file

/-- **C111, what is not so.** The flags and references are not always written in the same order: in a file with one message nothing is
compared, and they are written as they are. -/
theorem C111_single_negation : ∃ (h : Heap) (f a : Nat), FileOwned h f ∧ pointers h f = [a] ∧
    ((h.message a).comment.map (·.flags)) = some [b!"fuzzy", b!"c-format"] ∧
    ∀ (x : Algo), Sorts (pointers h f) x → (∀ a b next, x ≠ .compare a b next) →
      (saveIn .new x none h).1 = Encoder.new.encodeMessage (h.message a) := by
  refine ⟨single, 0, 0, single_file, by decide, by decide, fun x hx hn => ?_⟩
  cases hx with
  | compare _ _ _ => exact absurd rfl (hn _ _ _)
  | @done l hp =>
    have hp : l.Perm [0] := hp
    have : l = [0] := List.perm_singleton.mp hp
    subst this
    rw [saveIn_eq]
    show (Encoder.new.encodeMessage (single.message 0)).map _ = _
    cases Encoder.new.encodeMessage (single.message 0) <;> rfl

end Verif.Props.PoSaving
