import Verif.Proofs.Po.Tidy
import Verif.Props.PoEncoder
/-!
# C80: reading a PO file, writing it and reading it again
-/
namespace Verif.Props.PoReread
open Verif.Go Verif.Model.PoString Verif.Spec.PoString Verif.Spec.PoEntry Verif.Spec.PoFile Verif.Spec.PoReread Verif.Spec.PoSort
open Verif.Model.Po hiding Field
open Verif.Proofs.Po
open Verif.Props.PoFile (AsciiOk ascii ascii_ok)
open Verif.Props.PoEncoder

theorem writable_of_valid {s : Bytes} (h : ValidUtf8 s) (hb : ∀ b ∈ s, ¬ BadByte b) : Writable s := by
  obtain ⟨cs, rfl⟩ := h
  refine ⟨cs, rfl, fun c hc => ?_⟩
  by_contra hn
  obtain ⟨b, hm, hb'⟩ := (bad_rune_iff_bad_byte (utf8 cs)).1 ⟨c, by rw [runes_utf8]; exact hc, hn⟩
  exact hb b hm hb'

theorem plain_of_valid {s : Bytes} (h : ValidUtf8 s) (ho : OneLine s) (hb : Bare s) : Plain s := by
  obtain ⟨cs, rfl⟩ := h
  have key : ∀ c ∈ cs, ∀ b ∈ encodeRune c, b ∈ utf8 cs := by
    intro c hc b hm
    exact List.mem_flatMap.2 ⟨c, hc, hm⟩
  refine ⟨cs, rfl, fun c hc => ⟨?_, ?_, ?_⟩⟩
  · rintro rfl; exact hb.1 (key _ hc 0x22 (by decide))
  · rintro rfl; exact hb.2 (key _ hc 0x5c (by decide))
  · rintro rfl; exact ho (key _ hc 0x0a (by decide))

theorem commentOk_of {c : Comment} (ht : TidyComment c) (hh : Holdable c) : CommentOk c :=
  ⟨ht.translator.1, ht.extracted.1, fun r hr => ⟨(hh.references r hr).1, (ht.references r hr).2⟩, ht.flags⟩

theorem messageOk_of {m : Message} (hid : m.id ≠ []) (ht : TidyMessage m) (hh : HoldableMessage m) : MessageOk m where
  id := hid
  idText := writable_of_valid ht.id hh.id
  context := writable_of_valid ht.context hh.context
  idPlural := writable_of_valid ht.idPlural hh.idPlural
  str := fun p hp => by
    have hg := GoMap.get?_of_mem ht.wf (k := p.1) (v := p.2) hp
    exact writable_of_valid (ht.str _ _ hg) (hh.str _ _ hg)
  indices := ⟨ht.wf, hh.indices, hh.count.2⟩
  comment := fun c hc => by
    obtain ⟨c', e, htc⟩ := ht.comment
    rw [e] at hc
    cases hc
    exact commentOk_of htc (hh.comment c e)

theorem lossless_of {width : Int} (hw : width ≤ 0) {m : Message} (ht : TidyMessage m) (hh : HoldableMessage m) : Lossless width m := by
  obtain ⟨c, e, htc⟩ := ht.comment
  have hc := hh.comment c e
  refine ⟨by rw [e]; nofun, ?_, ?_, ?_, ?_, ?_, ?_⟩
  · intro x hx; rw [e] at hx; cases hx; exact ⟨.inl hw, htc.translator.2⟩
  · intro x hx; rw [e] at hx; cases hx; exact ⟨.inl hw, htc.extracted.2⟩
  · intro x hx; rw [e] at hx; cases hx
    exact fun r hr => ⟨(htc.references r hr).1, (hc.references r hr).2⟩
  · intro x hx; rw [e] at hx; cases hx; exact ⟨hc.prevMsgContext, hc.prevMsgID⟩
  · intro h
    exact GoMap.get?_eq_none.1 h ((hh.indices 0).2 ⟨by decide, by have := hh.count.1; omega⟩)
  · intro hp h
    exact GoMap.get?_eq_none.1 h ((hh.indices 1).2 ⟨by decide, by have := hh.second hp; omega⟩)

theorem comment_kept {width : Int} (hw : width ≤ 0) {c c' : Comment} (ht : TidyComment c) (hh : Holdable c) (hr : CommentRead width true c c') :
    c' = c := by
  have h1 := hr.translator.2 (.inl hw) ht.translator.2
  have h2 := hr.extracted.2 (.inl hw) ht.extracted.2
  have h3 : c'.references = c.references := by
    rw [hr.references, if_pos rfl]
    conv => rhs; rw [← List.map_id c.references]
    refine List.map_congr_left fun r hm => ?_
    have hcol := (ht.references r hm).1
    have hlin := (hh.references r hm).2
    obtain ⟨p, l, k⟩ := r
    simp only at hcol hlin
    subst hcol
    unfold asRead
    rcases hlin with hl | hl
    · simp [hl]
    · subst hl; rfl
  obtain ⟨a, b, cc, d, e, f⟩ := c
  obtain ⟨a', b', cc', d', e', f'⟩ := c'
  have h4 := hr.flags
  have h5 := hr.prevMsgContext
  have h6 := hr.prevMsgID
  have h7 := hh.prevMsgContext
  have h8 := hh.prevMsgID
  simp only at h1 h2 h3 h4 h5 h6 h7 h8
  subst h1 h2 h3 h4 h5 h6 h7 h8
  rfl

theorem holdable_ok {u : Unicode} {enc : Encoder} (h2 : enc.writeEmptyHeader = true)
    (hc : ∀ cmp ∈ enc.sortFunction, ∀ a b, Reordered a (cmp a b).2.1 ∧ Reordered b (cmp a b).2.2)
    {f : File} (ht : TidyFile u f) {hd : Header} (hhd : f.header = some hd) (htd : TidyHeader u hd) (htc : ∀ c ∈ hd.comment, TidyComment c)
    (hh : HoldableFile f) : FileOk enc f ∧ NamesOk u hd := by
  have hhh := hh.header hd hhd
  have hok : FileOk enc f := by
    refine ⟨ht.keyed, fun c i m hm => ?_, ?_, ?_, hc⟩
    · obtain ⟨a, b⟩ := ht.messages c i m hm
      exact messageOk_of a b (hh.messages c i m hm)
    · intro x hx
      rw [hhd] at hx
      cases hx
      refine ⟨fun c hcm => commentOk_of (htc c hcm) (hhh.comment c hcm), fun g => ?_, htd.wf, fun p hp => ?_⟩
      · obtain ⟨a, b, _⟩ := htd.fields g
        exact plain_of_valid a b (hhh.fields g)
      · obtain ⟨a1, a2, _, _, _, a6, a7, _⟩ := htd.unknown p hp
        obtain ⟨b1, b2⟩ := hhh.unknown p.1 p.2 (GoMap.get?_of_mem htd.wf hp)
        exact ⟨plain_of_valid a1 a2 b1, plain_of_valid a6 a7 b2⟩
    · intro e
      rw [h2] at e
      cases e
  have hnames : NamesOk u hd := by
    intro p hp
    obtain ⟨_, _, a3, a4, a5, _⟩ := htd.unknown p hp
    refine ⟨fun g hg => ?_, a4, a3⟩
    unfold fieldOf at a5
    have := List.find?_eq_none.1 a5 g (all_fields g)
    simp [hg] at this
  exact ⟨hok, hnames⟩

/-- **C80 (partial)** A file that was read, from valid UTF-8, is written without a panic; and if no line of the output is too long
for the line buffer of the parser, reading the output gives the same file again: the header with all its fields and its comment,
and all messages with their texts, translations and comments (flags and references in sorted order).  The encoder writes header and
references and does not wrap, as `Marshal` does.  Missing for the full claim: files with parts that are not written or are
written so that they are read differently (`HoldableFile`; see the negations). -/
theorem C80_reread_partial {u : Unicode} (hu : AsciiOk u) (enc : Encoder) (h1 : enc.writeHeader = true) (h2 : enc.writeEmptyHeader = true)
    (h3 : enc.writeReferences = true) (h4 : enc.wrapWidth ≤ 0)
    (hc : ∀ cmp ∈ enc.sortFunction, ∀ a b, Reordered a (cmp a b).2.1 ∧ Reordered b (cmp a b).2.2) (sort : Sorter) (hs : Honest sort)
    (data : Bytes) (hv : ValidUtf8 data) (f : File) (hf : parse u false data = .ok f) (hh : HoldableFile f) :
    ∃ out, enc.encode sort f = .ok out ∧
      (Short (splitByte 0x0a out) → ∃ f', parse u false out = .ok f' ∧ SameContents f f') := by
  have ht := parse_tidy hv hf
  obtain ⟨hd, hhd, htd, htc⟩ := ht.header
  have hhh := hh.header hd hhd
  obtain ⟨hok, hnames⟩ := holdable_ok h2 hc ht hhd htd htc hh
  obtain ⟨out, ho, hr⟩ := C07_header_partial hu enc sort hs f hok hd hhd ⟨h1, fun hx => by rw [h2] at hx; cases hx.1⟩ hnames
  refine ⟨out, ho, fun hsh => ?_⟩
  obtain ⟨f', hd', hf', hhd', hrd, hm⟩ := hr hsh
  refine ⟨f', hf', ?_, fun c i => ?_⟩
  · rw [hhd, hhd']
    refine .some ⟨fun g => ?_, fun k => ?_, ?_⟩
    · rw [hrd.fields, (htd.fields g).2.2]
    · rw [hrd.unknown]
      cases hk : hd.unknownFields.get? k with
      | none => rfl
      | some v =>
        have := (htd.unknown (k, v) (GoMap.mem_of_get? hk)).2.2.2.2.2.2.2
        rw [Option.map_some]
        exact congrArg some this
    · obtain ⟨c', e, hcr⟩ := hrd.comment
      rw [e, Option.getD_some]
      rw [h3] at hcr
      cases hcm : hd.comment with
      | none =>
        rw [hcm] at hcr
        exact comment_kept h4 tidy_new ⟨nofun, rfl, rfl⟩ hcr
      | some x =>
        rw [hcm] at hcr
        exact comment_kept h4 (htc x hcm) (hhh.comment x hcm) hcr
  · have := hm c i
    cases hg : f.getMessage c i with
    | none =>
      rw [hg] at this
      cases hg' : f'.getMessage c i with
      | none => exact .none
      | some _ => rw [hg'] at this; cases this
    | some m =>
      rw [hg] at this
      cases hg' : f'.getMessage c i with
      | none => rw [hg'] at this; cases this
      | some m' =>
        rw [hg'] at this
        cases this with
        | some hx =>
          obtain ⟨m1, k1, k2⟩ := hx
          rw [h3] at k2
          have hmo := messageOk_reordered (hok.messages c i m hg) k1
          have hlo := lossless_of h4 (ht.messages c i m hg).2 (hh.messages c i m hg)
          have hsame := read_lossless (lossless_reordered hlo k1) hmo.indices k2
          refine .some ⟨hsame.context.trans k1.context, hsame.id.trans k1.id, hsame.idPlural.trans k1.idPlural, fun i => ?_,
            rel_trans (R := SameComment) (fun _ _ _ x y => sameComment_trans x y) k1.comment hsame.comment⟩
          rw [hsame.str, k1.str]

/-- The same for `Marshal`. -/
theorem C80_marshal_partial {u : Unicode} (hu : AsciiOk u) (sort : Sorter) (hs : Honest sort) (data : Bytes) (hv : ValidUtf8 data)
    (f : File) (hf : parse u false data = .ok f) (hh : HoldableFile f) :
    ∃ out, marshal sort f = .ok out ∧
      (Short (splitByte 0x0a out) → ∃ f', parse u false out = .ok f' ∧ SameContents f f') :=
  C80_reread_partial hu Encoder.new rfl rfl rfl (by decide) (by rintro cmp ⟨rfl⟩; exact defaultSort_reorders) sort hs data hv f hf hh

/-- What the parser makes of the comments of a valid file: every message has a comment; the lines of its texts have no white space at
the ends, no extracted line and no first line of the translator is empty, references have no column, and flags are words. -/
theorem C80_comments (u : Unicode) (ignore : Bool) (data : Bytes) (hv : ValidUtf8 data) (f : File) (hf : parse u ignore data = .ok f)
    (c i : Bytes) (m : Message) (hm : f.getMessage c i = some m) :
    ∃ x : Comment, m.comment = some x ∧ ValidUtf8 x.translator ∧ TidyTranslator x.translator ∧ ValidUtf8 x.extracted ∧ TidyExtracted x.extracted ∧
      (∀ r ∈ x.references, r.column = 0) ∧ ∀ g ∈ x.flags, FlagOk g := by
  obtain ⟨x, e, h⟩ := ((parse_tidy hv hf).messages c i m hm).2.comment
  exact ⟨x, e, h.translator.1, h.translator.2, h.extracted.1, h.extracted.2, fun r hr => (h.references r hr).1, h.flags⟩

/-- What the parser makes of the texts of a file: ids, contexts and translations are valid UTF-8, no id is empty, and every message is
stored under its own context and id. -/
theorem C80_texts (u : Unicode) (ignore : Bool) (data : Bytes) (hv : ValidUtf8 data) (f : File) (hf : parse u ignore data = .ok f)
    (c i : Bytes) (m : Message) (hm : f.getMessage c i = some m) :
    m.context = c ∧ m.id = i ∧ i ≠ [] ∧ ValidUtf8 m.context ∧ ValidUtf8 m.id ∧ ValidUtf8 m.idPlural ∧
      ∀ k v, m.str.get? k = some v → ValidUtf8 v := by
  have ht := parse_tidy hv hf
  obtain ⟨hne, h⟩ := ht.messages c i m hm
  obtain ⟨k1, k2⟩ := key_of_get ht.keyed hm
  exact ⟨k1, k2, k2 ▸ hne, h.context, h.id, h.idPlural, h.str⟩

/-! ### A file that meets the hypotheses -/

/-- A file as a translator leaves it. -/
def exData : Bytes :=
  b!"# by me\n#\nmsgid \"\"\nmsgstr \"\"\n\"Language: de\\n\"\n\"X-Poedit : 3 \\n\"\n\n" ++
  b!"#\n#  b.go \u00fcber\n#\n# c\n#.d\n#.\n#. e\n#: z.go:3 a.go\n#, fuzzy,c-format\n  msgctxt \"menu\"\nmsgid \"a\\tb\"\nmsgid_plural \"\"\n\"c\"\nmsgstr[0] \"x\"\nmsgstr[1] \"y\\n\"\n\"z\"\r\n\n\n" ++
  b!"msgid \"hello\"\nmsgstr \"\"\n"

def exFileRead : File :=
  ⟨some { comment := some { Comment.new with translator := b!"by me\n" }, language := b!"de", unknownFields := [(b!"X-Poedit", b!"3")] },
    [(b!"menu", [(b!"a\tb", ⟨some ⟨b!"b.go \u00fcber\n\nc", b!"d\ne", [⟨b!"z.go", 3, 0⟩, ⟨b!"a.go", -1, 0⟩], [b!"fuzzy", b!"c-format"], [], []⟩,
      b!"menu", b!"a\tb", b!"c", [(0, b!"x"), (1, b!"y\nz")]⟩)]),
     ([], [(b!"hello", ⟨some .new, [], b!"hello", [], [(0, [])]⟩)])]⟩

theorem exFileRead_parse : parse ascii false exData = .ok exFileRead := by decide +kernel

theorem exFileRead_holdable : HoldableFile exFileRead where
  messages := by
    intro c i m h
    have hk : Keyed exFileRead := ⟨by decide +kernel, by decide +kernel, by decide +kernel⟩
    have hm := ((mem_all_key hk).1 h).1
    have key : ∀ m ∈ exFileRead.messages.all, (∀ b ∈ m.id, ¬ BadByte b) ∧ (∀ b ∈ m.context, ¬ BadByte b) ∧ (∀ b ∈ m.idPlural, ¬ BadByte b) ∧
        (∀ p ∈ m.str, ∀ b ∈ p.2, ¬ BadByte b) ∧ (1 ≤ m.str.length ∧ m.str.length < 9223372036854775808) ∧
        (m.idPlural ≠ [] → 2 ≤ m.str.length) ∧ (m.str.keys = [0] ∨ m.str.keys = [0, 1]) ∧
        ∀ c ∈ m.comment.toList, c.prevMsgContext = [] ∧ c.prevMsgID = [] ∧
          ∀ r ∈ c.references, (r.path = utf8 (runes r.path) ∧ runes r.path ≠ [] ∧ ∀ x ∈ runes r.path, (isSpace x || decide (x = ':')) = false) ∧
            (0 < r.line ∨ r.line = -1) := by
      decide +kernel
    obtain ⟨k1, k2, k3, k4, k5, k6, k7, k8⟩ := key m hm
    refine ⟨k1, k2, k3, fun i v hv => k4 (i, v) (GoMap.mem_of_get? hv), fun k => ?_, k5, k6, fun c hc => ?_⟩
    · have hl : m.str.length = m.str.keys.length := by unfold GoMap.keys; rw [List.length_map]
      rw [hl]
      rcases k7 with e | e <;> rw [e] <;> simp only [List.mem_cons, List.not_mem_nil, or_false, List.length_cons, List.length_nil] <;> omega
    · obtain ⟨q1, q2, q3⟩ := k8 c (Option.mem_toList.2 hc)
      exact ⟨fun r hr => ⟨wordOf_of (q3 r hr).1, (q3 r hr).2⟩, q1, q2⟩
  header := by
    rintro h ⟨rfl⟩
    refine ⟨fun f => ?_, fun k v hv => ?_, ?_⟩
    · cases f <;> exact ⟨by decide, by decide⟩
    · have := GoMap.mem_of_get? hv
      change (k, v) ∈ ([(b!"X-Poedit", b!"3")] : List (Bytes × Bytes)) at this
      cases List.mem_singleton.1 this
      exact ⟨⟨by decide, by decide⟩, by decide, by decide⟩
    · rintro c ⟨rfl⟩
      exact ⟨nofun, rfl, rfl⟩

/-- The example meets the hypotheses, and the lines that are written are short. -/
example : AsciiOk ascii ∧ Honest insertionSort ∧ ValidUtf8 exData ∧ parse ascii false exData = .ok exFileRead ∧ HoldableFile exFileRead ∧
    (∃ out, marshal insertionSort exFileRead = .ok out ∧ Short (splitByte 0x0a out)) ∧
    ∃ m, exFileRead.getMessage b!"menu" b!"a\tb" = some m :=
  ⟨ascii_ok, insertionSort_honest, ⟨runes exData, by decide +kernel⟩, exFileRead_parse, exFileRead_holdable,
    ok_of (P := fun out => Short (splitByte 0x0a out)) (by decide +kernel), _, rfl⟩

/-! ### What is not kept -/

/-- The file that is read after reading and `Marshal`; the inner option: the output cannot be read. -/
def rereads (data : Bytes) : Option (Option File) :=
  match parse ascii false data with
  | .ok f => some (readBack f)
  | _ => none

def exPrevious : Bytes := b!"#| msgid \"b\"\nmsgid \"a\"\nmsgstr \"x\"\n"

/-- Lines with the previous message are read and not written. -/
theorem C80_negation : ∃ (data : Bytes) (f f' : File), ValidUtf8 data ∧ parse ascii false data = .ok f ∧ readBack f = some f' ∧ ¬ SameContents f f' := by
  refine ⟨exPrevious,
    ⟨some {}, [([], [(b!"a", ⟨some { Comment.new with prevMsgID := b!"b" }, [], b!"a", [], [(0, b!"x")]⟩)])]⟩,
    ⟨some { comment := some .new }, [([], [(b!"a", ⟨some .new, [], b!"a", [], [(0, b!"x")]⟩)])]⟩,
    ⟨runes exPrevious, by decide +kernel⟩, by decide +kernel, by decide +kernel, fun h => ?_⟩
  have := h.messages [] b!"a"
  change Option.Rel SameUpToOrder (some _) (some _) at this
  cases this with
  | some hs =>
    have := hs.comment
    cases this with
    | some hc => exact absurd hc.prevMsgID (by decide)

/-- A file with nothing but the plural form 1 is read; the file that is written then cannot be read. -/
theorem C80_index_negation : rereads b!"msgid \"a\"\nmsgstr[1] \"x\"\n" = some none := by decide +kernel

/-- A file with a control character is read; writing it panics. -/
theorem C80_control_negation : ∃ f, parse ascii false (b!"msgid \"a" ++ [1] ++ b!"\"\nmsgstr \"x\"\n") = .ok f ∧
    marshal insertionSort f = .error .indexOutOfRange :=
  ⟨one ⟨some .new, [], b!"a" ++ [1], [], [(0, b!"x")]⟩ |> fun f => { f with header := some {} }, by decide +kernel, by decide +kernel⟩

/-- The values of the header are written without escapes: a backslash at the end of the language swallows the line break, and the
content type becomes part of the language. -/
theorem C80_header_negation :
    (match parse ascii false b!"msgid \"\"\nmsgstr \"\"\n\"Language: d\\\\\\n\"\n\"Content-Type: text/plain\\n\"\n" with
      | .ok f => f.header.map fun h => (h.language, h.contentType)
      | _ => none) = some (b!"d\\", b!"text/plain") ∧
    ((rereads b!"msgid \"\"\nmsgstr \"\"\n\"Language: d\\\\\\n\"\n\"Content-Type: text/plain\\n\"\n").map fun f =>
      (f.bind (·.header)).map fun h => (h.language, h.contentType)) = some (some (b!"d\\nContent-Type: text/plain", [])) := by
  decide +kernel

/-- Line 0 of a reference is lost, and a message without translation gets an empty one. -/
theorem C80_message_negation :
    (rereads b!"#: a.go:0\nmsgid \"a\"\n").map (fun f => (f.bind (·.getMessage [] b!"a")).map fun m => (m.comment.map (·.references), m.str.get? 0)) =
      some (some (some [⟨b!"a.go", -1, 0⟩], some [])) ∧
    (match parse ascii false b!"#: a.go:0\nmsgid \"a\"\n" with
      | .ok f => (f.getMessage [] b!"a").map fun m => (m.comment.map (·.references), m.str.get? 0)
      | _ => none) = some (some [⟨b!"a.go", 0, 0⟩], none) := by
  decide +kernel

end Verif.Props.PoReread
