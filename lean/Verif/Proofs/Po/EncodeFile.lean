import Verif.Proofs.Po.EncodeComment
import Verif.Props.PoFile
/-! Helper lemmas for writing PO files: messages and files. -/
namespace Verif.Proofs.Po
open Verif.Go Verif.Model.Wrap Verif.Model.PoString Verif.Spec.PoEntry Verif.Spec.PoFile Verif.Spec.Wrap
open Verif.Model.Po hiding Field
open Verif.Spec.PoString (ValidUtf8)

/-! ## Messages -/

/-- The comment lines of a comment that may be missing. -/
def commentsOf (enc : Encoder) (c : Option Comment) : List CommentLine :=
  match c with
  | some c => commentEntry enc c
  | none => []

theorem encodeComment_opt (enc : Encoder) (c : Option Comment) :
    enc.encodeComment c = textOf ((commentsOf enc c).map CommentLine.line) := by
  cases c with
  | none => rfl
  | some c => exact encodeComment_text enc c

theorem commentsOf_wf (enc : Encoder) {c : Option Comment} (h : ∀ x ∈ c, CommentOk x) : ∀ l ∈ commentsOf enc c, l.WF := by
  cases c with
  | none => nofun
  | some c => exact commentEntry_wf enc (h c rfl)

theorem commentOk_new : CommentOk .new := ⟨⟨[], rfl⟩, ⟨[], rfl⟩, nofun, nofun⟩

theorem commentsOf_read (enc : Encoder) {c : Option Comment} (h : ∀ x ∈ c, CommentOk x) :
    CommentRead enc.wrapWidth enc.writeReferences (c.getD .new) (commentOf false (commentsOf enc c)) := by
  cases c with
  | none => exact comment_read enc commentOk_new
  | some c => exact comment_read enc (h c rfl)

/-- The entry that is written for a message. -/
noncomputable def entryOf (enc : Encoder) (m : Message) : Entry :=
  { comments := commentsOf enc m.comment
    context := if m.context ≠ [] then some (fieldAt enc.wrapWidth m.context) else none
    id := fieldAt enc.wrapWidth m.id
    idPlural := if m.hasPlural then some (fieldAt enc.wrapWidth m.idPlural) else none
    str := strOf enc.wrapWidth m }

theorem encodeMessage_eq (enc : Encoder) {m : Message} (h : MessageOk m) :
    enc.encodeMessage m = .ok (textOf (entryOf enc m).lines) := by
  have hl : (entryOf enc m).lines = (commentsOf enc m.comment).map CommentLine.line ++
      ((if m.context ≠ [] then (fieldAt enc.wrapWidth m.context).lines b!"msgctxt" else []) ++
        (fieldAt enc.wrapWidth m.id).lines b!"msgid" ++
        (if m.hasPlural then (fieldAt enc.wrapWidth m.idPlural).lines b!"msgid_plural" else []) ++
        (strOf enc.wrapWidth m).lines) := by
    unfold Entry.lines Entry.coreLines entryOf
    simp only
    congr 1
    congr 1
    congr 1
    · congr 1
      split <;> rfl
    · split <;> rfl
  have e1 : (if m.context ≠ [] then enc.encodeField b!"msgctxt" m.context else .ok []) =
      .ok (textOf (if m.context ≠ [] then (fieldAt enc.wrapWidth m.context).lines b!"msgctxt" else [])) := by
    split
    · exact encodeField_eq h.context _
    · rfl
  have e2 : (if m.hasPlural then enc.encodeField b!"msgid_plural" m.idPlural else .ok []) =
      .ok (textOf (if m.hasPlural then (fieldAt enc.wrapWidth m.idPlural).lines b!"msgid_plural" else [])) := by
    split
    · exact encodeField_eq h.idPlural _
    · rfl
  unfold Encoder.encodeMessage
  rw [e1]
  simp only
  rw [encodeField_eq h.idText]
  simp only
  rw [e2]
  simp only
  rw [encodeTranslations_eq h.indices h.str, encodeComment_opt, hl]
  simp only [textOf_append, List.append_assoc]

theorem entryOf_wf (enc : Encoder) {m : Message} (h : MessageOk m) : (entryOf enc m).WF := by
  refine ⟨commentsOf_wf enc h.comment, ?_, (fieldAt_spec h.idText _).2.1, ?_, strOf_wf _ h.indices h.str⟩
  · intro f hf
    unfold entryOf at hf
    simp only at hf
    split at hf
    · cases hf; exact (fieldAt_spec h.context _).2.1
    · cases hf
  · intro f hf
    unfold entryOf at hf
    simp only at hf
    split at hf
    · cases hf; exact (fieldAt_spec h.idPlural _).2.1
    · cases hf

theorem entryOf_read (enc : Encoder) {m : Message} (h : MessageOk m) :
    MessageRead enc.wrapWidth enc.writeReferences m ((entryOf enc m).message false) := by
  refine ⟨?_, (fieldAt_spec h.idText _).2.2.1, ?_, ?_, _, rfl, commentsOf_read enc h.comment⟩
  · unfold Entry.message entryOf
    simp only
    by_cases hc : m.context = []
    · simp [hc]
    · simp [hc, (fieldAt_spec h.context enc.wrapWidth).2.2.1]
  · unfold Entry.message entryOf
    simp only
    by_cases hp : m.hasPlural = true
    · simp [hp, (fieldAt_spec h.idPlural enc.wrapWidth).2.2.1]
    · have : m.idPlural = [] := by
        unfold Message.hasPlural at hp
        simp at hp
        exact hp.1
      rw [if_neg hp, this]
      rfl
  · exact fun i => strOf_value enc.wrapWidth h.indices h.str i

/-! ## Blocks -/

/-- The blocks of some messages; `pre` are the lines in front of the first one. -/
noncomputable def blocksOf (enc : Encoder) (pre : List Bytes) : List Message → List Block
  | [] => []
  | m :: ms => (pre, entryOf enc m) :: ms.map fun m => ([[]], entryOf enc m)

theorem encodeMessages_eq (enc : Encoder) {ms : List Message} (h : ∀ m ∈ ms, MessageOk m) :
    enc.encodeMessages ms = .ok (textOf (blockLines (blocksOf enc [] ms))) := by
  induction ms with
  | nil => rfl
  | cons m ms ih =>
    have hm := encodeMessage_eq enc (h m List.mem_cons_self)
    cases ms with
    | nil =>
      rw [Encoder.encodeMessages, hm]
      simp [blocksOf, blockLines]
    | cons m' ms =>
      have := ih fun x hx => h x (List.mem_cons_of_mem _ hx)
      rw [Encoder.encodeMessages, hm]
      · simp only
        rw [this]
        simp only
        unfold blocksOf blockLines
        simp [textOf]
      · simp

theorem blockLines_pre (enc : Encoder) (pre : List Bytes) (m : Message) (ms : List Message) :
    blockLines (blocksOf enc pre (m :: ms)) = pre ++ blockLines (blocksOf enc [] (m :: ms)) := by
  simp [blocksOf, blockLines]

theorem blocksOf_entries (enc : Encoder) (pre : List Bytes) (ms : List Message) :
    (blocksOf enc pre ms).map (·.2) = ms.map (entryOf enc) := by
  cases ms with
  | nil => rfl
  | cons m ms => simp [blocksOf]

theorem blankLine_nil : BlankLine [] := by decide

theorem blocksOf_wf (enc : Encoder) {pre : List Bytes} (hp : ∀ l ∈ pre, BlankLine l) {ms : List Message} (h : ∀ m ∈ ms, MessageOk m) :
    ∀ b ∈ blocksOf enc pre ms, b.WF := by
  cases ms with
  | nil => nofun
  | cons m ms =>
    intro b hb
    rcases List.mem_cons.1 hb with rfl | hb
    · exact ⟨hp, entryOf_wf enc (h m List.mem_cons_self)⟩
    · obtain ⟨x, hx, rfl⟩ := List.mem_map.1 hb
      exact ⟨fun l hl => by rw [List.mem_singleton.1 hl]; exact blankLine_nil, entryOf_wf enc (h x (List.mem_cons_of_mem _ hx))⟩

/-! ## Lines -/

theorem oneLine_append {a b : Bytes} : OneLine (a ++ b) ↔ OneLine a ∧ OneLine b := by
  unfold OneLine; simp

theorem oneLine_cons {a : UInt8} {b : Bytes} (h : a ≠ 0x0a) (hb : OneLine b) : OneLine (a :: b) := by
  unfold OneLine at *; simp only [List.mem_cons, not_or]; exact ⟨fun e => h e.symm, hb⟩

theorem oneLine_blank {s : Bytes} (h : Blank s) : OneLine s := by
  intro hm
  have := h _ hm
  revert this; decide

theorem quoted_oneLine {q : Quoted} (h : q.WF) : OneLine q.text := by
  unfold Quoted.text
  refine oneLine_cons (by decide) (oneLine_append.2 ⟨means_no_newline h.2.2, by decide⟩)

theorem field_oneLine {f : Verif.Spec.PoEntry.Field} (h : f.WF) {kw : Bytes} (hk : OneLine kw) : ∀ l ∈ f.lines kw, OneLine l := by
  obtain ⟨h1, h2, h3⟩ := h
  intro l hl
  rcases List.mem_cons.1 hl with rfl | hl
  · simp only [oneLine_append]
    exact ⟨⟨oneLine_blank h2.1, hk, oneLine_cons (by decide) (oneLine_append.2 ⟨oneLine_blank h1, quoted_oneLine h2⟩)⟩, oneLine_blank h2.2.1⟩
  · obtain ⟨q, hq, rfl⟩ := List.mem_map.1 hl
    have := h3 q hq
    unfold Quoted.line
    simp only [oneLine_append]
    exact ⟨⟨oneLine_blank this.1, quoted_oneLine this⟩, oneLine_blank this.2.1⟩

theorem optLines_oneLine {f : Option Verif.Spec.PoEntry.Field} (h : ∀ x ∈ f, x.WF) {kw : Bytes} (hk : OneLine kw) :
    ∀ l ∈ optLines kw f, OneLine l := by
  cases f with
  | none => nofun
  | some f => exact field_oneLine (h f rfl) hk

theorem str_oneLine {s : Str} (h : s.WF) : ∀ l ∈ s.lines, OneLine l := by
  cases s with
  | single f => exact field_oneLine h (by decide)
  | plural fs =>
    intro l hl
    obtain ⟨p, hp, hl⟩ := List.mem_flatMap.1 hl
    obtain ⟨h1, h2⟩ := h.1 p hp
    refine field_oneLine h2 ?_ l hl
    simp only [oneLine_append]
    refine ⟨⟨by decide, ?_⟩, by decide⟩
    intro hm
    have := h1.2.1 _ hm
    revert this; decide

theorem comment_oneLine {c : CommentLine} (h : c.WF) : OneLine c.line := by
  cases c with
  | translator i t =>
    obtain ⟨h1, h2, _⟩ := h
    simp only [CommentLine.line, oneLine_append]
    exact ⟨⟨oneLine_blank h1, by decide⟩, h2⟩
  | extracted i t =>
    simp only [CommentLine.line, oneLine_append]
    exact ⟨⟨oneLine_blank h.1, by decide⟩, h.2⟩
  | reference i t =>
    simp only [CommentLine.line, oneLine_append]
    exact ⟨⟨oneLine_blank h.1, by decide⟩, h.2⟩
  | flags i t =>
    simp only [CommentLine.line, oneLine_append]
    exact ⟨⟨oneLine_blank h.1, by decide⟩, h.2⟩

theorem entry_oneLine {e : Entry} (h : e.WF) : ∀ l ∈ e.lines, OneLine l := by
  obtain ⟨h1, h2, h3, h4, h5⟩ := h
  intro l hl
  unfold Entry.lines Entry.coreLines at hl
  simp only [List.mem_append] at hl
  rcases hl with hl | ((hl | hl) | hl) | hl
  · obtain ⟨c, hc, rfl⟩ := List.mem_map.1 hl
    exact comment_oneLine (h1 c hc)
  · exact optLines_oneLine h2 (by decide) l hl
  · exact field_oneLine h3 (by decide) l hl
  · exact optLines_oneLine h4 (by decide) l hl
  · exact str_oneLine h5 l hl

/-! ## Reading -/

/-- Reading a header and messages. -/
theorem read_file (u : Unicode) (ig : Bool) {bs : List Block} {tail : List Bytes} {content : Bytes} {hdr : Option Entry} {es : List Entry}
    (hw : ∀ b ∈ bs, b.WF) (ha : BlankApart bs) (ht : ∀ l ∈ tail, BlankLine l)
    (h : HasLines content (blockLines bs ++ tail)) (hs : Short (blockLines bs ++ tail))
    (hb : bs.map (·.2) = hdr.toList ++ es) (hh : ∀ e ∈ hdr, e.id.value = [] ∧ e.str.value ≠ [])
    (hi : ∀ e ∈ es, e.id.value ≠ []) (hk : (es.map fun e => keyOf (e.message ig)).Nodup)
    (hne : es ≠ [] ∨ ∃ e, hdr = some e ∧ parseHeader u (e.message ig) ≠ none) :
    ∃ f, parse u ig content = .ok f ∧
      (∀ c i m, f.getMessage c i = some m ↔ ∃ e ∈ es, keyOf (e.message ig) = (c, i) ∧ m = e.message ig) ∧
      f.header = some ((hdr.bind fun e => parseHeader u (e.message ig)).getD {}) := by
  rw [parse_run u ig h hs, run_blocks u ig ht hw (fun b hb => .inl (ha b hb)), blockMessages_apart ha]
  have e0 : bs.map (fun b => b.2.message ig) = (hdr.toList ++ es).map (Entry.message ig) := by
    rw [← hb, List.map_map]; rfl
  rw [e0]
  have e1 : proper ((hdr.toList ++ es).map (Entry.message ig)) = es.map (Entry.message ig) := by
    unfold proper
    rw [List.map_append, List.filter_append]
    have k1 : ((hdr.toList.map (Entry.message ig)).filter fun m => decide (m.id ≠ [])) = [] := by
      cases hdr with
      | none => rfl
      | some e => simp [Entry.message, (hh e rfl).1]
    have k2 : ((es.map (Entry.message ig)).filter fun m => decide (m.id ≠ [])) = es.map (Entry.message ig) := by
      rw [List.filter_eq_self]
      intro m hm
      obtain ⟨e, he, rfl⟩ := List.mem_map.1 hm
      have : (e.message ig).id ≠ [] := hi e he
      simpa using this
    rw [k1, k2]; rfl
  have e2 : heads ((hdr.toList ++ es).map (Entry.message ig)) = hdr.toList.map (Entry.message ig) := by
    unfold heads
    rw [List.map_append, List.filter_append]
    have k1 : ((hdr.toList.map (Entry.message ig)).filter fun m => decide (m.id = [] ∧ m.str ≠ [])) =
        hdr.toList.map (Entry.message ig) := by
      rw [List.filter_eq_self]
      intro m hm
      obtain ⟨e, he, rfl⟩ := List.mem_map.1 hm
      have : (e.message ig).id = [] ∧ (e.message ig).str ≠ [] := hh e (by simpa using he)
      simpa using this
    have k2 : ((es.map (Entry.message ig)).filter fun m => decide (m.id = [] ∧ m.str ≠ [])) = [] := by
      rw [List.filter_eq_nil_iff]
      intro m hm
      obtain ⟨e, he, rfl⟩ := List.mem_map.1 hm
      have : (e.message ig).id ≠ [] := hi e he
      simp [this]
    rw [k1, k2, List.append_nil]
  obtain ⟨st, hst, s1, s2⟩ := storeAll_succeeds u (st := ⟨none, []⟩) (ms := (hdr.toList ++ es).map (Entry.message ig))
    (fun m _ => rfl) (by rw [e1, List.map_map]; exact hk) (by
      rw [e2]
      cases hdr with
      | none => exact .inl rfl
      | some e => exact .inr ⟨rfl, rfl⟩)
  obtain ⟨g1, _, _, _, g5⟩ := storeAll_ok hst
  rw [hst]
  have hhd : st.header = hdr.bind fun e => parseHeader u (e.message ig) := by
    cases hdr with
    | none => exact s2 (by rw [e2]; rfl)
    | some e => exact s1 _ (by rw [e2]; rfl) rfl
  rcases finish_cases st with ⟨hx, hm, _⟩ | ⟨f, hf, hm, hh'⟩
  · exfalso
    rcases hne with hne | ⟨e, rfl, hp⟩
    · have := (g5.1 hm).2
      rw [e1, List.map_eq_nil_iff] at this
      exact hne this
    · rw [hhd] at hx
      exact hp hx
  · refine ⟨f, hf, ?_, by rw [hh', hhd]⟩
    intro c i m
    rw [getMessage_find hm, g1, e1]
    constructor
    · rintro (hn | ⟨h1, h2⟩)
      · cases hn
      · obtain ⟨e, he, rfl⟩ := List.mem_map.1 h1
        exact ⟨e, he, h2, rfl⟩
    · rintro ⟨e, he, h2, rfl⟩
      exact .inr ⟨List.mem_map.2 ⟨e, he, rfl⟩, h2⟩

/-! ## The header -/

/-- The entries of the header that are written. -/
def shown (h : Header) : List (Bytes × Bytes) := (headerEntries h).filter fun e => !(isOptional e.1 && decide (e.2 = []))

/-- The line of a header entry. -/
def headerQuoted (e : Bytes × Bytes) : Quoted :=
  ⟨[], runes e.1 ++ [':', ' '] ++ runes e.2 ++ ['\\', 'n'], [], runes e.1 ++ [':', ' '] ++ runes e.2 ++ ['\n']⟩

/-- The entry that is written for a header. -/
def headerEntry (enc : Encoder) (h : Header) : Entry :=
  { comments := commentsOf enc h.comment
    context := none
    id := ⟨[], ⟨[], [], [], []⟩, []⟩
    idPlural := none
    str := .single ⟨[], ⟨[], [], [], []⟩, (shown h).map headerQuoted⟩ }

theorem runes_plain {s : Bytes} (h : Plain s) : utf8 (runes s) = s ∧ ∀ c ∈ runes s, c ≠ '"' ∧ c ≠ '\\' ∧ c ≠ '\n' := by
  obtain ⟨cs, rfl, h⟩ := h
  rw [runes_utf8]
  exact ⟨rfl, h⟩

theorem means_plain {cs xs ys : List Char} (h : ∀ c ∈ cs, c ≠ '"' ∧ c ≠ '\\' ∧ c ≠ '\n') (hm : Means xs ys) : Means (cs ++ xs) (cs ++ ys) := by
  induction cs with
  | nil => exact hm
  | cons c cs ih =>
    obtain ⟨h1, h2, h3⟩ := h c List.mem_cons_self
    exact .plain h1 h2 h3 (ih fun d hd => h d (List.mem_cons_of_mem _ hd))

theorem plain_key (f : Verif.Model.Po.Field) : Plain f.key := by
  refine ⟨runes f.key, ?_, ?_⟩
  · cases f <;> decide +kernel
  · cases f <;> decide +kernel

theorem headerEntries_plain {h : Header} (hk : HeaderOk h) : ∀ e ∈ headerEntries h, Plain e.1 ∧ Plain e.2 := by
  intro e he
  unfold headerEntries at he
  rcases List.mem_append.1 he with he | he
  · obtain ⟨f, _, rfl⟩ := List.mem_map.1 he
    exact ⟨plain_key f, hk.fields f⟩
  · exact hk.unknown e he

theorem headerQuoted_wf {e : Bytes × Bytes} (h : Plain e.1 ∧ Plain e.2) : (headerQuoted e).WF := by
  refine ⟨nofun, nofun, ?_⟩
  unfold headerQuoted
  simp only [List.append_assoc]
  refine means_plain (runes_plain h.1).2 ?_
  refine means_plain (cs := [':', ' ']) (by decide) ?_
  refine means_plain (runes_plain h.2).2 ?_
  exact .escape (e := 'n') (c := '\n') (by simp [escapes]) .nil

theorem headerQuoted_line {e : Bytes × Bytes} (h : Plain e.1 ∧ Plain e.2) :
    (headerQuoted e).line ++ [0x0a] = b!"\"" ++ e.1 ++ b!": " ++ e.2 ++ b!"\\n\"\n" := by
  unfold Quoted.line Quoted.text headerQuoted
  simp only [utf8_append, (runes_plain h.1).1, (runes_plain h.2).1]
  have e1 : utf8 [':', ' '] = b!": " := by decide
  have e2 : utf8 ['\\', 'n'] = b!"\\n" := by decide
  rw [e1, e2]
  simp

theorem headerLines_text {h : Header} (hk : HeaderOk h) :
    (headerEntries h).flatMap headerLine = textOf ((shown h).map fun e => (headerQuoted e).line) := by
  have hp := headerEntries_plain hk
  unfold shown
  generalize headerEntries h = l at hp
  induction l with
  | nil => rfl
  | cons e l ih =>
    have := ih fun x hx => hp x (List.mem_cons_of_mem _ hx)
    rw [List.flatMap_cons, this]
    by_cases ho : isOptional e.1 ∧ e.2 = []
    · rw [List.filter_cons_of_neg (by simpa using ho)]
      unfold headerLine
      rw [if_pos ho]; rfl
    · rw [List.filter_cons_of_pos (by
        by_cases h1 : isOptional e.1 = true
        · have h2 : e.2 ≠ [] := fun h2 => ho ⟨h1, h2⟩
          simp [h2]
        · simp [h1])]
      unfold headerLine
      rw [if_neg ho, ← headerQuoted_line (hp e List.mem_cons_self)]
      simp [textOf]

theorem headerEntry_text (enc : Encoder) {h : Header} (hk : HeaderOk h)
    (hw : ¬ (enc.writeEmptyHeader = false ∧ (headerEntries h).all (fun e => decide (e.2 = [])))) :
    enc.encodeHeader h = textOf (headerEntry enc h).lines := by
  unfold Encoder.encodeHeader
  rw [if_neg hw, encodeComment_opt, headerLines_text hk]
  unfold Entry.lines Entry.coreLines headerEntry
  simp only [textOf_append]
  congr 1
  simp [optLines, Str.lines, Verif.Spec.PoEntry.Field.lines, textOf, Quoted.text, List.flatMap_map]

theorem headerEntry_wf (enc : Encoder) {h : Header} (hk : HeaderOk h) : (headerEntry enc h).WF := by
  have hq : Quoted.WF ⟨[], [], [], []⟩ := ⟨nofun, nofun, .nil⟩
  refine ⟨commentsOf_wf enc hk.comment, nofun, ⟨nofun, hq, nofun⟩, nofun, nofun, hq, ?_⟩
  intro q hq'
  obtain ⟨e, he, rfl⟩ := List.mem_map.1 hq'
  exact headerQuoted_wf (headerEntries_plain hk e (List.mem_filter.1 he).1)

/-! ## Reading the header -/

theorem headerEntry_value {enc : Encoder} {h : Header} (hk : HeaderOk h) :
    strAt ((headerEntry enc h).message false).str 0 = textOf ((shown h).map fun e => e.1 ++ b!": " ++ e.2) := by
  show utf8 ([] ++ ((shown h).map headerQuoted).flatMap Quoted.value) = _
  have hp : ∀ e ∈ shown h, Plain e.1 ∧ Plain e.2 := fun e he => headerEntries_plain hk e (List.mem_filter.1 he).1
  generalize shown h = l at hp
  rw [List.nil_append]
  induction l with
  | nil => rfl
  | cons e l ih =>
    rw [List.map_cons, List.flatMap_cons, utf8_append, ih fun x hx => hp x (List.mem_cons_of_mem _ hx)]
    obtain ⟨h1, h2⟩ := hp e List.mem_cons_self
    have e2 : utf8 ['\n'] = b!"\n" := by decide
    simp [headerQuoted, (runes_plain h1).1, (runes_plain h2).1, textOf, e2]
    rfl

theorem plain_oneLine {s : Bytes} (h : Plain s) : OneLine s := by
  obtain ⟨cs, rfl, h⟩ := h
  exact newline_utf8 fun hm => (h _ hm).2.2 rfl

/-- The assignments of the header loop. -/
def setAll (u : Unicode) (h : Header) (es : List (Bytes × Bytes)) : Header :=
  es.foldl (fun h e => h.set u e.1 (trimSpace e.2)) h

theorem headerLoop_lines (u : Unicode) {es : List (Bytes × Bytes)} (hc : ∀ e ∈ es, (0x3a : UInt8) ∉ e.1 ∧ trimSpace e.1 = e.1) :
    ∀ h : Header, headerLoop u h (es.map (fun e => e.1 ++ b!": " ++ e.2) ++ [[]]) = some (setAll u h es) := by
  induction es with
  | nil => intro h; rfl
  | cons e es ih =>
    intro h
    obtain ⟨h1, h2⟩ := hc e List.mem_cons_self
    have e1 : e.1 ++ b!": " ++ e.2 = e.1 ++ 0x3a :: (b!" " ++ e.2) := by simp
    rw [List.map_cons, List.cons_append, headerLoop, e1, Verif.Go.indexByte?_first _ _ _ h1]
    simp only
    have e2 : (e.1 ++ 0x3a :: (b!" " ++ e.2)).drop (e.1.length + 1) = b!" " ++ e.2 := by simp
    rw [List.take_left, e2, spaced, h2, ih fun x hx => hc x (List.mem_cons_of_mem _ hx)]
    rfl

open Verif.Props.PoFile (AsciiOk fieldOf_key getField_setField setField_unknown)

/-- Known fields in the loop. -/
theorem setAll_known {u : Unicode} (hu : AsciiOk u) (v : Verif.Model.Po.Field → Bytes) (fs : List Verif.Model.Po.Field) : ∀ h : Header,
    (∀ g, (setAll u h (fs.map fun f => (f.key, v f))).getField g = if g ∈ fs then trimSpace (v g) else h.getField g) ∧
    (setAll u h (fs.map fun f => (f.key, v f))).unknownFields = h.unknownFields := by
  induction fs with
  | nil => intro h; exact ⟨fun g => by simp [setAll], rfl⟩
  | cons f fs ih =>
    intro h
    have e : h.set u f.key (trimSpace (v f)) = h.setField (trimSpace (v f)) f := by
      unfold Header.set; rw [fieldOf_key hu]
    obtain ⟨i1, i2⟩ := ih (h.setField (trimSpace (v f)) f)
    have e' : setAll u h ((f :: fs).map fun f => (f.key, v f)) =
        setAll u (h.setField (trimSpace (v f)) f) (fs.map fun f => (f.key, v f)) := by
      rw [← e]; rfl
    rw [e']
    refine ⟨fun g => ?_, by rw [i2, setField_unknown]⟩
    rw [i1, getField_setField]
    by_cases hg : g ∈ fs
    · simp [hg]
    · by_cases hf : f = g
      · subst hf; simp [hg]
      · have hf' : ¬ g = f := fun e => hf e.symm
        simp [hg, hf, hf']

/-- Unknown fields in the loop. -/
theorem setAll_unknown {u : Unicode} {es : GoMap Bytes Bytes} (hu : ∀ e ∈ es, fieldOf u e.1 = none) (hw : es.WF) : ∀ h : Header,
    (∀ g, (setAll u h es).getField g = h.getField g) ∧
    ∀ k, (setAll u h es).unknownFields.get? k = ((es.get? k).map trimSpace).or (h.unknownFields.get? k) := by
  induction es with
  | nil => intro h; exact ⟨fun _ => rfl, fun k => rfl⟩
  | cons e es ih =>
    intro h
    have hw' : GoMap.WF es := (List.nodup_cons.1 hw).2
    have hn : e.1 ∉ GoMap.keys es := (List.nodup_cons.1 hw).1
    have e1 : h.set u e.1 (trimSpace e.2) = { h with unknownFields := h.unknownFields.set e.1 (trimSpace e.2) } := by
      unfold Header.set; rw [hu e List.mem_cons_self]
    obtain ⟨i1, i2⟩ := ih (fun x hx => hu x (List.mem_cons_of_mem _ hx)) hw' { h with unknownFields := h.unknownFields.set e.1 (trimSpace e.2) }
    have e' : setAll u h (e :: es) = setAll u { h with unknownFields := h.unknownFields.set e.1 (trimSpace e.2) } es := by
      rw [← e1]; rfl
    rw [e']
    refine ⟨fun g => (i1 g).trans (by cases g <;> rfl), fun k => ?_⟩
    rw [i2]
    simp only
    rw [GoMap.get?_set]
    by_cases hk : e.1 = k
    · subst hk
      rw [GoMap.get?_eq_none.2 hn, if_pos rfl]
      simp [GoMap.get?]
    · rw [if_neg hk]
      obtain ⟨a, b⟩ := e
      simp only [GoMap.get?] at hk ⊢
      rw [if_neg hk]

theorem setAll_append (u : Unicode) (h : Header) (a b : List (Bytes × Bytes)) : setAll u h (a ++ b) = setAll u (setAll u h a) b := by
  unfold setAll; rw [List.foldl_append]

theorem optional_known {k : Bytes} (h : isOptional k = true) : ∃ f : Verif.Model.Po.Field, k = f.key := by
  unfold isOptional at h
  simp only [decide_eq_true_eq] at h
  rcases h with h | h | h
  · exact ⟨_, h⟩
  · exact ⟨_, h⟩
  · exact ⟨_, h⟩

theorem key_plain (f : Verif.Model.Po.Field) : (0x3a : UInt8) ∉ f.key ∧ trimSpace f.key = f.key := by
  cases f <;> decide +kernel

theorem all_fields (f : Verif.Model.Po.Field) : f ∈ Field.all := by cases f <;> decide

theorem header_read {u : Unicode} (hu : AsciiOk u) (enc : Encoder) {h : Header} (hk : HeaderOk h)
    (hn : ∀ e ∈ h.unknownFields, fieldOf u e.1 = none ∧ (0x3a : UInt8) ∉ e.1 ∧ trimSpace e.1 = e.1) :
    ∃ h', parseHeader u ((headerEntry enc h).message false) = some h' ∧
      HeaderRead enc.wrapWidth enc.writeReferences h h' := by
  have hunk : h.unknownFields.filter (fun e => !(isOptional e.1 && decide (e.2 = []))) = h.unknownFields := by
    rw [List.filter_eq_self]
    intro e he
    have : isOptional e.1 = false := by
      by_contra hc
      obtain ⟨f, hf⟩ := optional_known (by simpa using hc)
      have := (hn e he).1
      rw [hf, fieldOf_key hu] at this
      cases this
    simp [this]
  have hsh : shown h = (Field.all.filter (fun f => !(isOptional f.key && decide (h.getField f = [])))).map
      (fun f => (f.key, h.getField f)) ++ h.unknownFields := by
    unfold shown headerEntries
    rw [List.filter_append, hunk, List.filter_map]
    rfl
  have hcol : ∀ e ∈ shown h, (0x3a : UInt8) ∉ e.1 ∧ trimSpace e.1 = e.1 := by
    intro e he
    rw [hsh] at he
    rcases List.mem_append.1 he with he | he
    · obtain ⟨f, _, rfl⟩ := List.mem_map.1 he
      exact key_plain f
    · exact (hn e he).2
  have hone : ∀ l ∈ (shown h).map (fun e => e.1 ++ b!": " ++ e.2), OneLine l := by
    intro l hl
    obtain ⟨e, he, rfl⟩ := List.mem_map.1 hl
    obtain ⟨p1, p2⟩ := headerEntries_plain hk e (List.mem_filter.1 he).1
    simp only [oneLine_append]
    exact ⟨⟨plain_oneLine p1, by decide⟩, plain_oneLine p2⟩
  unfold parseHeader
  rw [headerEntry_value hk, splitByte_text _ hone, headerLoop_lines u hcol, Option.map_some]
  refine ⟨_, rfl, ?_⟩
  rw [hsh, setAll_append]
  obtain ⟨a1, a2⟩ := setAll_known hu h.getField (Field.all.filter (fun f => !(isOptional f.key && decide (h.getField f = [])))) {}
  obtain ⟨b1, b2⟩ := setAll_unknown (fun e he => (hn e he).1) hk.unknownWF
    (setAll u {} ((Field.all.filter (fun f => !(isOptional f.key && decide (h.getField f = [])))).map fun f => (f.key, h.getField f)))
  refine ⟨fun f => ?_, fun k => ?_, _, rfl, commentsOf_read enc hk.comment⟩
  · have : ∀ (x : Header) (c : Option Comment), ({ x with comment := c } : Header).getField f = x.getField f := by
      intro x c; cases f <;> rfl
    rw [this, b1, a1]
    split
    · rfl
    · rename_i hf
      have : h.getField f = [] := by
        by_contra hc
        exact hf (List.mem_filter.2 ⟨all_fields f, by simp [hc]⟩)
      rw [this]
      cases f <;> rfl
  · show GoMap.get? (setAll u _ h.unknownFields).unknownFields k = _
    rw [b2, a2]
    show (Option.map trimSpace (GoMap.get? h.unknownFields k)).or (GoMap.get? [] k) = _
    cases GoMap.get? h.unknownFields k <;> rfl

/-! ## Files -/

/-- Nothing of the header is written. -/
def skipped (enc : Encoder) (h : Header) : Prop :=
  enc.writeEmptyHeader = false ∧ (headerEntries h).all (fun e => decide (e.2 = [])) = true

instance (enc : Encoder) (h : Header) : Decidable (skipped enc h) := by unfold skipped; infer_instance

theorem skipped_iff (enc : Encoder) (h : Header) : skipped enc h ↔ enc.writeEmptyHeader = false ∧ NoValues h := by
  unfold skipped NoValues headerEntries
  simp only [List.all_append, Bool.and_eq_true, List.all_eq_true, List.mem_map, decide_eq_true_eq, and_congr_right_iff]
  intro _
  constructor
  · rintro ⟨h1, h2⟩
    exact ⟨fun f => h1 _ ⟨f, all_fields f, rfl⟩, h2⟩
  · rintro ⟨h1, h2⟩
    refine ⟨?_, h2⟩
    rintro _ ⟨f, _, rfl⟩
    exact h1 f

/-- The entry of the header, if there is one. -/
def headOf (enc : Encoder) (f : File) : Option Entry :=
  match f.header with
  | some h => if enc.writeHeader = true ∧ ¬ skipped enc h then some (headerEntry enc h) else none
  | none => none

theorem silent_comment (enc : Encoder) {c : Option Comment} (h : ∀ x ∈ c, Silent x) : enc.encodeComment c = [] := by
  cases c with
  | none => rfl
  | some c =>
    obtain ⟨h1, h2, h3, h4⟩ := h c rfl
    unfold Encoder.encodeComment
    simp [h1, h2, h3, h4]

theorem textOf_next (enc : Encoder) (ms : List Message) :
    textOf (blockLines (blocksOf enc [[]] ms) ++ if ms = [] then [[]] else []) =
      b!"\n" ++ textOf (blockLines (blocksOf enc [] ms)) := by
  cases ms with
  | nil => rfl
  | cons m ms =>
    rw [blockLines_pre]
    simp [textOf]

theorem encode_blocks (enc : Encoder) (sort : Sorter) {f : File} {ms : List Message} (hms : enc.sorted sort f.messages.all = ms)
    (hok : ∀ m ∈ ms, MessageOk m) (hh : ∀ h ∈ f.header, HeaderOk h)
    (hsi : enc.writeEmptyHeader = false → ∀ h ∈ f.header, NoValues h → ∀ c ∈ h.comment, Silent c) :
    ∃ (bs : List Block) (tail : List Bytes), enc.encode sort f = .ok (textOf (blockLines bs ++ tail)) ∧ (∀ b ∈ bs, b.WF) ∧
      BlankApart bs ∧ (∀ l ∈ tail, l = []) ∧ (∀ b ∈ bs, ∀ l ∈ b.1, l = []) ∧ bs.map (·.2) = (headOf enc f).toList ++ ms.map (entryOf enc) := by
  have hbl : ∀ l ∈ ([[]] : List Bytes), BlankLine l := by
    intro l hl; rw [List.mem_singleton.1 hl]; exact blankLine_nil
  have hno : ∀ l ∈ ([] : List Bytes), BlankLine l := nofun
  have htl : ∀ l ∈ (if ms = [] then [[]] else [] : List Bytes), l = [] := by
    intro l hl
    split at hl
    · exact List.mem_singleton.1 hl
    · cases hl
  have hpre : ∀ pre : List Bytes, (∀ l ∈ pre, l = []) → ∀ b ∈ blocksOf enc pre ms, ∀ l ∈ b.1, l = [] := by
    intro pre hp b hb
    cases ms with
    | nil => cases hb
    | cons m ms =>
      rcases List.mem_cons.1 hb with rfl | hb
      · exact hp
      · obtain ⟨x, _, rfl⟩ := List.mem_map.1 hb
        intro l hl; exact List.mem_singleton.1 hl
  have hap : ∀ pre, BlankApart (blocksOf enc pre ms) := by
    intro pre b hb
    cases ms with
    | nil => cases hb
    | cons m ms =>
      obtain ⟨x, _, rfl⟩ := List.mem_map.1 hb
      simp
  have hap' : ∀ b ∈ blocksOf enc [[]] ms, b.1 ≠ [] := by
    intro b hb
    cases ms with
    | nil => cases hb
    | cons m ms =>
      rcases List.mem_cons.1 hb with rfl | hb
      · simp
      · obtain ⟨x, _, rfl⟩ := List.mem_map.1 hb
        simp
  unfold Encoder.encode headOf
  rw [hms, encodeMessages_eq enc hok]
  simp only
  cases hf : f.header with
  | none =>
    refine ⟨blocksOf enc [] ms, [], ?_, blocksOf_wf enc hno hok, hap [], nofun, hpre [] nofun, ?_⟩
    · rw [List.append_nil]; rfl
    · rw [blocksOf_entries]; rfl
  | some h =>
    simp only
    by_cases hw : enc.writeHeader = true
    · rw [if_pos hw]
      by_cases hs : skipped enc h
      · have hc := silent_comment enc (hsi hs.1 h hf ((skipped_iff enc h).1 hs).2)
        have he : enc.encodeHeader h = [] := by
          unfold Encoder.encodeHeader
          have hs' := hs
          unfold skipped at hs'
          rw [hc, if_pos hs']; rfl
        refine ⟨blocksOf enc [[]] ms, _, ?_, blocksOf_wf enc hbl hok, hap _, htl, hpre _ (by simp), ?_⟩
        · rw [textOf_next, he]; rfl
        · rw [blocksOf_entries, if_neg (fun e => e.2 hs)]; rfl
      · have ht := headerEntry_text enc (hh h hf) hs
        refine ⟨([], headerEntry enc h) :: blocksOf enc [[]] ms, (if ms = [] then [[]] else []), ?_, ?_, ?_, htl, ?_, ?_⟩
        · have e : blockLines (([], headerEntry enc h) :: blocksOf enc [[]] ms) = (headerEntry enc h).lines ++ blockLines (blocksOf enc [[]] ms) := by
            simp [blockLines]
          rw [e, List.append_assoc (headerEntry enc h).lines, textOf_append (headerEntry enc h).lines, textOf_next, ht]
          simp
        · intro b hb
          rcases List.mem_cons.1 hb with rfl | hb
          · exact ⟨nofun, headerEntry_wf enc (hh h hf)⟩
          · exact blocksOf_wf enc hbl hok b hb
        · exact hap'
        · intro b hb
          rcases List.mem_cons.1 hb with rfl | hb
          · nofun
          · exact hpre _ (by simp) b hb
        · rw [List.map_cons, blocksOf_entries, if_pos ⟨hw, hs⟩]; rfl
    · rw [if_neg hw]
      refine ⟨blocksOf enc [] ms, [], ?_, blocksOf_wf enc hno hok, hap [], nofun, hpre [] nofun, ?_⟩
      · rw [List.append_nil]; rfl
      · rw [blocksOf_entries, if_neg (fun e => hw e.1)]; rfl

theorem blocks_oneLine {bs : List Block} {tail : List Bytes} (hw : ∀ b ∈ bs, b.WF) (ht : ∀ l ∈ tail, OneLine l)
    (hb : ∀ b ∈ bs, ∀ l ∈ b.1, OneLine l) : ∀ l ∈ blockLines bs ++ tail, OneLine l := by
  intro l hl
  rcases List.mem_append.1 hl with hl | hl
  · unfold blockLines at hl
    obtain ⟨b, hb', hl⟩ := List.mem_flatMap.1 hl
    rcases List.mem_append.1 hl with hl | hl
    · exact hb b hb' l hl
    · exact entry_oneLine (hw b hb').2 l hl
  · exact ht l hl

end Verif.Proofs.Po
