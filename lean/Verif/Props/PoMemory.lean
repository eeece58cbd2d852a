import Verif.Proofs.Po.MemoryFile
/-!
# C106, C107: PO messages and comments in memory

`AddMessage` keeps the pointer that it is given.  `Verif.Model.Po.Memory` has the comments, messages, maps and arrays as objects of a heap;
`h.message a`, `h.comment c` and `h.file f` are what they stand for, `MsgApart`, `CmtApart`: they share no memory
(`Verif.Spec.Memory`).  `room` is the capacity that Go gives to new arrays, any.
-/
namespace Verif.Props.PoMemory
open Verif.Go Verif.Model.Po Verif.Model.Po.Memory Verif.Spec.Memory Verif.Proofs.Po.Memory

/-! ## Examples -/

/-- Go's own choice for small arrays: the capacity doubles. -/
def doubled : Room := ⟨fun n => List.replicate (n - 1) ⟨[], 0, 0⟩, fun n => List.replicate (n - 1) []⟩

/-- A reference to a line of `main.go`. -/
def ref (line : Int) : Reference := ⟨b!"main.go", line, 0⟩

/-- Two files, one without a map, and three messages: two for `hello`, one of them without a comment, and one for `bye`. -/
def start : Heap where
  refs := [[ref 10], [ref 20]]
  flags := []
  cmts := [⟨[], [], ⟨0, 0, 1, 1⟩, .nil, [], []⟩, ⟨b!"note", [], ⟨1, 0, 1, 1⟩, .nil, [], []⟩]
  msgs := [⟨some 0, [], b!"hello", [], [(0, b!"hallo")]⟩, ⟨some 1, [], b!"hello", b!"hellos", []⟩, ⟨none, b!"menu", b!"bye", [], []⟩]
  inners := []
  outers := [[]]
  files := [some 0, none]

theorem start_ok : ∀ a ∈ [0, 1, 2], MsgOk start a := by
  intro a ha
  simp only [List.mem_cons, List.not_mem_nil, or_false] at ha
  rcases ha with rfl | rfl | rfl
  · exact ⟨by decide, fun c hc => by cases hc; exact ⟨by decide, by decide, by decide⟩⟩
  · exact ⟨by decide, fun c hc => by cases hc; exact ⟨by decide, by decide, by decide⟩⟩
  · exact ⟨by decide, fun c hc => by cases hc⟩

theorem start_apart : [0, 1, 2].Pairwise (MsgApart start) := by
  refine .cons ?_ (.cons ?_ (.cons (by intro x hx; cases hx) .nil))
  · intro b hb
    simp only [List.mem_cons, List.not_mem_nil, or_false] at hb
    rcases hb with rfl | rfl
    · exact ⟨by decide, fun c d hc hd => by cases hc; cases hd; exact ⟨by decide, by decide, by decide⟩⟩
    · exact ⟨by decide, fun c d hc hd => by cases hd⟩
  · intro b hb
    simp only [List.mem_cons, List.not_mem_nil, or_false] at hb
    subst hb
    exact ⟨by decide, fun c d hc hd => by cases hd⟩

/-- A file whose map is empty or nil. -/
theorem empty_owned {h : Heap} {f : Nat} (hf : f < h.files.length)
    (he : ∀ o, h.files[f]?.getD none = some o → o < h.outers.length ∧ h.outer o = []) : FileOwned h f := by
  refine ⟨hf, fun o x => ?_⟩
  obtain ⟨b, e⟩ := he o x
  refine ⟨⟨b, by rw [e]; exact GoMap.WF.nil, (by intro c i y; rw [e] at y; cases y), (by intro c c' i y; rw [e] at y; cases y)⟩, ?_, ?_⟩
  · intro c id a y; unfold find at y; rw [e] at y; cases y
  · intro c id a c' id' b y; unfold find at y; rw [e] at y; cases y

theorem start_owned : FileOwned start 0 ∧ FileOwned start 1 :=
  ⟨empty_owned (by decide) (fun o x => by cases x; exact ⟨by decide, rfl⟩), empty_owned (by decide) (fun o x => by cases x)⟩

theorem FileOwned.ok {h : Heap} {f : Nat} (ow : FileOwned h f) : FileOk h f := by
  refine ⟨ow.1, fun o x => (ow.2 o x).maps, fun c id b x => ?_⟩
  cases hg : h.files[f]?.getD none with
  | none => unfold getMessage at x; rw [hg] at x; cases x
  | some o => rw [getMessage_of hg] at x; exact (ow.2 o hg).ok _ _ _ x

/-! ## C106 -/

/-- **C106.** `GetMessage` returns the very pointer that was added first for a key, or the one that was there before; whatever memory
the messages share. -/
theorem C106_pointer (room : Room) {h : Heap} {f : Nat} (ok : FileOk h f) {l : List Nat} (oks : ∀ a ∈ l, MsgOk h a) (ctx : Bytes)
    {id : Bytes} (h0 : id ≠ []) :
    getMessage (addAll room h f l) f ctx id = (getMessage h f ctx id).or (l.find? fun a => decide (HasKey h ctx id a)) :=
  addAll_find room f l h ok oks ctx id h0

/-- **C106.** Adding messages that share no memory gives the messages that the documentation describes: `File.addMessage` (C15) one after the
other, on what they stood for before the first call. -/
theorem C106_values (room : Room) {h : Heap} {f : Nat} (ow : FileOwned h f) {l : List Nat} (oks : ∀ a ∈ l, MsgOk h a)
    (new : ∀ a ∈ l, FileNew h f a) (apart : l.Pairwise (MsgApart h)) (header : Option Header) :
    FileOwned (addAll room h f l) f ∧
      (addAll room h f l).file f = ((l.map h.message).foldl File.addMessage ⟨header, h.file f⟩).messages :=
  addAll_value room f header l h ow oks new apart

/-- **C106.** A message with a known key is merged into the stored one, even if it is the stored one or has the same comment. -/
theorem C106_merged (room : Room) {h : Heap} {f : Nat} (ok : FileOk h f) {a old : Nat} (oka : MsgOk h a) (h0 : (h.msg a).id ≠ [])
    (known : getMessage h f (h.msg a).context (h.msg a).id = some old) (hm : Mergeable h old a) :
    (addMessage room h f a).message old = (h.message old).merge (h.message a) :=
  addMessage_merged room ok oka h0 known hm

/-- **C106.** No other message changes: none that shares no memory with the one that is stored under the key.  In particular the message
that is added does not change if it is new or shares no memory with the stored one. -/
theorem C106_unchanged (room : Room) {h : Heap} {f : Nat} (ok : FileOk h f) {a b : Nat} (okb : MsgOk h b)
    (apart : ∀ old, getMessage h f (h.msg a).context (h.msg a).id = some old → MsgApart h b old) :
    (addMessage room h f a).message b = h.message b :=
  addMessage_frame room ok okb apart

/-- **C106.** A second file with maps of its own keeps its pointers, and what it stands for if its messages share no memory with the
message that is stored under the key in the first. -/
theorem C106_other_file (room : Room) {h : Heap} {f g : Nat} (ok : FileOk h f) (okg : FileOk h g) (hne : f ≠ g)
    (maps : ∀ o p, h.files[f]?.getD none = some o → h.files[g]?.getD none = some p → MapsApart h o p) (a : Nat) :
    (∀ ctx id, getMessage (addMessage room h f a) g ctx id = getMessage h g ctx id) ∧
    ((∀ ctx id b old, getMessage h g ctx id = some b → getMessage h f (h.msg a).context (h.msg a).id = some old → MsgApart h b old) →
      (addMessage room h f a).file g = h.file g) :=
  addMessage_other room ok okg hne maps a

/-- The hypotheses are met: three messages are added to both files. -/
example : (addAll doubled start 0 [0, 1, 2]).file 0 =
    (([0, 1, 2].map start.message).foldl File.addMessage .new).messages :=
  (C106_values doubled start_owned.1 start_ok (fun _ _ ctx id b x => by unfold getMessage find at x; cases x) start_apart (some {})).2

example : getMessage (addAll doubled start 1 [2, 1, 0]) 1 [] b!"hello" = some 1 :=
  C106_pointer doubled (FileOwned.ok start_owned.2) (l := [2, 1, 0])
    (fun a ha => start_ok a (by simp only [List.mem_cons, List.not_mem_nil, or_false] at ha ⊢; omega)) [] (by decide)

/-- The file after the first message. -/
def first : Heap := addMessage doubled start 0 0

theorem first_ok : FileOk first 0 ∧ FileOk first 1 ∧ ∀ a ∈ [0, 1, 2], MsgOk first a := by
  obtain ⟨k1, k2, _⟩ := addMessage_ok doubled (FileOwned.ok start_owned.1) (start_ok 0 (by simp))
  refine ⟨k1, ⟨by decide, fun o x => ?_, fun c id b x => ?_⟩, fun a ha => k2 a (start_ok a ha)⟩
  · have : first.files = [some 0, none] := by decide
    rw [this] at x; cases x
  · have : first.files[1]?.getD none = none := by decide
    unfold getMessage at x; rw [this] at x; cases x

example : (addMessage doubled first 0 1).message 0 = (first.message 0).merge (first.message 1) :=
  C106_merged doubled first_ok.1 (first_ok.2.2 1 (by simp)) (by decide) (old := 0) (by decide)
    fun c d hc hd => by
      have e0 : (first.msg 0).comment = some 0 := by decide
      have e1 : (first.msg 1).comment = some 1 := by decide
      rw [e0] at hc; rw [e1] at hd; cases hc; cases hd; right; decide

example : (addMessage doubled first 0 1).message 2 = first.message 2 :=
  C106_unchanged doubled first_ok.1 (first_ok.2.2 2 (by simp)) fun old x => by
    have e : getMessage first 0 (first.msg 1).context (first.msg 1).id = some 0 := by decide
    rw [e] at x; cases x
    refine ⟨by decide, fun c d hc => ?_⟩
    have e0 : (first.msg 2).comment = none := by decide
    rw [e0] at hc; cases hc

example : (addMessage doubled first 0 1).file 1 = first.file 1 :=
  (C106_other_file doubled first_ok.1 first_ok.2.1 (by decide) (fun o p _ x => by
    have : first.files[1]?.getD none = none := by decide
    rw [this] at x; cases x) 1).2 fun c id b old x => by
      have : first.files[1]?.getD none = none := by decide
      unfold getMessage at x; rw [this] at x; cases x

/-- A file with one message. -/
theorem single_owned {h : Heap} {f o i a : Nat} {ctx id : Bytes} (hf : f < h.files.length) (hg : h.files[f]?.getD none = some o)
    (ho : o < h.outers.length) (e : h.outer o = [(ctx, i)]) (hi : i < h.inners.length) (e' : h.inner i = [(id, a)]) (ok : MsgOk h a) :
    FileOwned h f := by
  have hget : ∀ c j, (h.outer o).get? c = some j → ctx = c ∧ j = i := by
    intro c j x
    rw [e] at x
    simp only [GoMap.get?] at x
    split at x
    · cases x; exact ⟨by assumption, rfl⟩
    · cases x
  have hfind : ∀ c k b, find h o c k = some b → (c, k) = (ctx, id) ∧ b = a := by
    intro c k b x
    unfold find at x
    cases y : (h.outer o).get? c with
    | none => rw [y] at x; cases x
    | some j =>
      rw [y] at x
      obtain ⟨rfl, rfl⟩ := hget c j y
      simp only [] at x
      rw [e'] at x
      simp only [GoMap.get?] at x
      split at x
      · rename_i z; cases x; rw [z]; exact ⟨rfl, rfl⟩
      · cases x
  refine ⟨hf, fun o' x => ?_⟩
  rw [hg] at x; cases x
  refine ⟨⟨ho, ?_, fun c j x => ?_, fun c c' j x y => ?_⟩, fun c k b x => ?_, fun c k b c' k' b' x y hne => ?_⟩
  · rw [e]; simp [GoMap.WF, GoMap.keys]
  · rw [(hget c j x).2]; refine ⟨hi, ?_⟩; rw [e']; simp [GoMap.WF, GoMap.keys]
  · rw [← (hget c j x).1, ← (hget c' j y).1]
  · rw [(hfind c k b x).2]; exact ok
  · exact absurd ((hfind c k b x).1.trans (hfind c' k' b' y).1.symm) hne

/-- The message 0 is in both files. -/
def shared : Heap :=
  { start with inners := [[(b!"hello", 0)], [(b!"hello", 0)]], outers := [[([], 0)], [([], 1)]], files := [some 0, some 1] }

theorem shared_ok : ∀ a ∈ [0, 1, 2], MsgOk shared a := start_ok

theorem shared_owned : FileOwned shared 0 ∧ FileOwned shared 1 :=
  ⟨single_owned (o := 0) (i := 0) (a := 0) (ctx := []) (id := b!"hello") (by decide) (by decide) (by decide) (by decide) (by decide) (by decide)
      (shared_ok 0 (by simp)),
   single_owned (o := 1) (i := 1) (a := 0) (ctx := []) (id := b!"hello") (by decide) (by decide) (by decide) (by decide) (by decide) (by decide)
      (shared_ok 0 (by simp))⟩

/-- **C106 is false if a message is in two files**: merging into one of them changes the other, to which nothing is added. -/
theorem C106_two_files_negation : ∃ (room : Room) (h : Heap) (f g a : Nat), FileOwned h f ∧ FileOwned h g ∧ f ≠ g ∧ MsgOk h a ∧
    FileNew h f a ∧ FileNew h g a ∧ (addMessage room h f a).file g ≠ h.file g := by
  have new : ∀ f ∈ [0, 1], FileNew shared f 1 := by
    intro f hf c id b x
    have e : ∀ f ∈ [0, 1], ∀ c id b, getMessage shared f c id = some b → b = 0 := by
      intro f hf c id b x
      simp only [List.mem_cons, List.not_mem_nil, or_false] at hf
      rcases hf with rfl | rfl
      · unfold getMessage find shared Heap.outer at x
        simp only [List.getElem?_cons_zero, Option.getD_some, GoMap.get?] at x
        split at x
        · cases x
        · rename_i y
          split at y
          · cases y
            simp only [Heap.inner, List.getElem?_cons_zero, Option.getD_some, GoMap.get?] at x
            split at x
            · cases x; rfl
            · cases x
          · cases y
      · unfold getMessage find shared Heap.outer at x
        simp only [List.getElem?_cons_zero, List.getElem?_cons_succ, Option.getD_some, GoMap.get?] at x
        split at x
        · cases x
        · rename_i y
          split at y
          · cases y
            simp only [Heap.inner, List.getElem?_cons_zero, List.getElem?_cons_succ, Option.getD_some, GoMap.get?] at x
            split at x
            · cases x; rfl
            · cases x
          · cases y
    rw [e f hf c id b x]
    exact (List.pairwise_cons.mp start_apart).1 1 (by simp)
  exact ⟨doubled, shared, 0, 1, 1, shared_owned.1, shared_owned.2, by decide, shared_ok 1 (by simp), new 0 (by simp), new 1 (by simp), by decide⟩

/-- **C106 is false for the caller's message**: the message that was added first is changed by a later call with another message. -/
theorem C106_caller_negation : ∃ (room : Room) (h : Heap) (f a b : Nat), FileOwned h f ∧ MsgOk h a ∧ MsgOk h b ∧ MsgApart h a b ∧
    (addMessage room (addMessage room h f a) f b).message a ≠ h.message a :=
  ⟨doubled, start, 0, 0, 1, start_owned.1, start_ok 0 (by simp), start_ok 1 (by simp),
    (List.pairwise_cons.mp start_apart).1 1 (by simp), by decide⟩

/-! ## C107 -/

/-- What a program can do with a comment: the exported methods, and the sorting that the encoder does
(/repo/catalog/po/encoder.go:277-278). -/
inductive Change
  | addReference (r : Reference)
  | addFlag (flag : Bytes)
  | merge (other : Option Nat)
  | sort

/-- The change in memory. -/
def Change.run (room : Room) (h : Heap) (c : Nat) : Change → Heap
  | .addReference r => Memory.addReference room h c r
  | .addFlag flag => Memory.addFlag room h c flag
  | .merge other => mergeComment room h c other
  | .sort => Memory.sort h c

/-- What it does to the comment, without memory (C14, C15). -/
def Change.value (h : Heap) (v : Comment) : Change → Comment
  | .addReference r => v.addReference r
  | .addFlag flag => v.addFlag flag
  | .merge other => v.merge (other.map h.comment)
  | .sort => v.sortFlags.sortReferences

/-- The other comment of a merge is one, and has the same references or none in common in memory. -/
def Change.Fits (h : Heap) (c : Nat) : Change → Prop
  | .merge (some o) => CmtOk h o ∧
      ((h.cmt c).references = (h.cmt o).references ∨ (h.cmt c).references.Apart (h.cmt o).references)
  | _ => True

theorem run_step (room : Room) {h : Heap} {c : Nat} (ok : CmtOk h c) (x : Change) : CStep h c (x.run room h c) := by
  cases x with
  | addReference r => exact addReference_step room ok r
  | addFlag f => exact addFlag_step room ok f
  | merge o => exact mergeComment_step room ok o
  | sort => exact sort_step ok

/-- **C107.** `AddReference`, `AddFlag` and `Merge` do to the comment what they do without memory; for a merge of two comments this needs
that they do not share a part of their references. -/
theorem C107_value (room : Room) {h : Heap} {c : Nat} (ok : CmtOk h c) (x : Change) (fits : x.Fits h c) :
    (x.run room h c).comment c = x.value h (h.comment c) := by
  cases x with
  | addReference r => exact addReference_value room ok r
  | addFlag f => exact addFlag_value room ok f
  | merge o =>
    cases o with
    | none => rfl
    | some o => exact mergeComment_value room ok fits.1 fits.2
  | sort => exact sort_value ok

/-- **C107.** A comment that shares no array with the changed one stays as it is, and can still be changed without changing that one; the
other comment of a merge is such a comment.  Messages, maps and files are not touched. -/
theorem C107_unchanged (room : Room) {h : Heap} {c d : Nat} (ok : CmtOk h c) (okd : CmtOk h d) (apart : CmtApart h d c) (x : Change) :
    (x.run room h c).comment d = h.comment d ∧ CmtOk (x.run room h c) d ∧ CmtApart (x.run room h c) d c ∧
      (x.run room h c).msgs = h.msgs ∧ (x.run room h c).inners = h.inners ∧ (x.run room h c).outers = h.outers ∧
      (x.run room h c).files = h.files := by
  have s := run_step room ok x
  obtain ⟨a1, a2, a3⟩ := s.other okd apart
  exact ⟨a2, a1, a3, s.msgs, s.inners, s.outers, s.files⟩

/-- Several changes. -/
def runAll (room : Room) (h : Heap) (l : List (Nat × Change)) : Heap := l.foldl (fun h x => x.2.run room h x.1) h

/-- **C107.** However often other comments are changed: a comment that shares no array with them stays as it is. -/
theorem C107_history (room : Room) (d : Nat) : ∀ (l : List (Nat × Change)) (h : Heap), CmtOk h d →
    (∀ x ∈ l, CmtOk h x.1 ∧ CmtApart h d x.1) → (runAll room h l).comment d = h.comment d
  | [], _, _, _ => rfl
  | (c, x) :: l, h, okd, hl => by
    obtain ⟨ok, ap⟩ := hl (c, x) List.mem_cons_self
    obtain ⟨a1, a2, a3, _⟩ := C107_unchanged room ok okd ap x
    have s := run_step room ok x
    refine (C107_history room d l (x.run room h c) a2 fun y hy => ?_).trans a1
    obtain ⟨oky, apy⟩ := hl y (List.mem_cons_of_mem _ hy)
    by_cases e : y.1 = c
    · rw [e]; exact ⟨s.ok ok, a3⟩
    · refine ⟨s.all oky, apy.1, ?_, ?_⟩
      · rw [s.others d ap.1, s.others y.1 e]; exact apy.2.1
      · rw [s.others d ap.1, s.others y.1 e]; exact apy.2.2

theorem start_cmts : CmtOk start 0 ∧ CmtOk start 1 ∧ CmtApart start 0 1 ∧ CmtApart start 1 0 :=
  ⟨⟨by decide, by decide, by decide⟩, ⟨by decide, by decide, by decide⟩, ⟨by decide, by decide, by decide⟩,
    ⟨by decide, by decide, by decide⟩⟩

example : ((Change.merge (some 1)).run doubled start 0).comment 0 = (start.comment 0).merge (some (start.comment 1)) :=
  C107_value doubled start_cmts.1 (.merge (some 1)) ⟨start_cmts.2.1, .inr (by decide)⟩

example : ((Change.merge (some 1)).run doubled start 0).comment 1 = start.comment 1 :=
  (C107_unchanged doubled start_cmts.1 start_cmts.2.1 start_cmts.2.2.2 _).1

example : (runAll doubled start [(0, .addReference (ref 5)), (0, .addFlag b!"fuzzy"), (0, .merge (some 1)), (0, .sort)]).comment 1 =
    start.comment 1 :=
  C107_history doubled 1 _ start start_cmts.2.1 fun x hx => by
    simp only [List.mem_cons, List.not_mem_nil, or_false] at hx
    rcases hx with rfl | rfl | rfl | rfl <;> exact ⟨start_cmts.1, start_cmts.2.2.2⟩

/-- A comment with three references, made with `AddReference`, and a copy of it (`*d = *c` in Go): comment 1. -/
def copied : Heap :=
  let h := runAll doubled ⟨[], [], [⟨[], [], .nil, .nil, [], []⟩], [], [], [], []⟩
    [(0, .addReference (ref 10)), (0, .addReference (ref 20)), (0, .addReference (ref 30))]
  { h with cmts := h.cmts ++ [h.cmt 0] }

/-- **C107 is false for copies of a comment**: they share the array of the references.  After `AddReference` on one, the other has the
added reference and has lost its last one. -/
theorem C107_copy_negation : CmtOk copied 0 ∧ CmtOk copied 1 ∧ copied.comment 0 = copied.comment 1 ∧
    (copied.comment 1).references = [ref 10, ref 20, ref 30] ∧
    (((Change.addReference (ref 5)).run doubled copied 0).comment 1).references = [ref 5, ref 10, ref 20] :=
  ⟨⟨by decide, by decide, by decide⟩, ⟨by decide, by decide, by decide⟩, by decide, by decide, by decide⟩

/-- Two comments of which the first has a part of the references of the second: `c.References = d.References[1:2]`. -/
def overlapping : Heap where
  refs := [[ref 10, ref 20, ref 30]]
  flags := []
  cmts := [⟨[], [], ⟨0, 1, 1, 2⟩, .nil, [], []⟩, ⟨[], [], ⟨0, 0, 3, 3⟩, .nil, [], []⟩]
  msgs := []
  inners := []
  outers := []
  files := []

/-- **C107 is false for comments that share a part of their references**: merging the second into the first loses the last reference,
because the first ones are written over it before it is read. -/
theorem C107_overlap_negation : CmtOk overlapping 0 ∧ CmtOk overlapping 1 ∧
    (overlapping.comment 0).references = [ref 20] ∧ (overlapping.comment 1).references = [ref 10, ref 20, ref 30] ∧
    (((Change.merge (some 1)).run doubled overlapping 0).comment 0).references = [ref 10, ref 20] ∧
    ((overlapping.comment 0).merge (some (overlapping.comment 1))).references = [ref 10, ref 20, ref 30] :=
  ⟨⟨by decide, by decide, by decide⟩, ⟨by decide, by decide, by decide⟩, by decide, by decide, by decide, by decide⟩

end Verif.Props.PoMemory
