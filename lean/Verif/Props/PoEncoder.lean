import Verif.Proofs.Po.EncodeRound
import Verif.Proofs.Po.EncodeSame
import Mathlib.Tactic.FinCases
/-!
# C07 and C14: writing PO files

`Honest` and `Sorts` are what is assumed of `slices.SortFunc`; `insertionSort` meets both.
-/
namespace Verif.Props.PoEncoder
open Verif.Go Verif.Model.PoString Verif.Spec.PoString Verif.Spec.PoEntry Verif.Spec.PoFile Verif.Spec.Wrap Verif.Spec.PoSort
open Verif.Model.Po hiding Field
open Verif.Proofs.Po
open Verif.Props.PoFile (AsciiOk ascii ascii_ok)

/-! ## C07 -/

theorem get_ne_nil {f : File} (hk : Keyed f) (h : ∃ c i m, f.getMessage c i = some m) : f.messages.all ≠ [] := by
  obtain ⟨c, i, m, hm⟩ := h
  exact List.ne_nil_of_mem ((mem_all_key hk).1 hm).1

/-- Every file of writable messages can be written, with every encoder, and if no line is too long for the line buffer
of the parser, the messages that are read are those of the file.  What is lost is said by `MessageRead`: missing
translations are read as empty ones, long comment lines are broken, references lose their columns, and the previous
message ids are not written.  Missing for the full claim: that, messages with other indices, control characters and
malformed UTF-8 (see the negations). -/
theorem C07_round_trip_partial (u : Unicode) (enc : Encoder) (sort : Sorter) (hs : Honest sort) (f : File) (h : FileOk enc f)
    (hne : ∃ c i m, f.getMessage c i = some m) :
    ∃ out, enc.encode sort f = .ok out ∧
      (Short (splitByte 0x0a out) → ∃ f', parse u false out = .ok f' ∧
        ∀ c i, Option.Rel (fun m m' => ∃ m1, Reordered m m1 ∧ MessageRead enc.wrapWidth enc.writeReferences m1 m')
          (f.getMessage c i) (f'.getMessage c i)) := by
  obtain ⟨out, ho, hr⟩ := round_trip u enc sort hs f h
  refine ⟨out, ho, fun hsh => ?_⟩
  obtain ⟨f', hf', hm, _⟩ := hr hsh (.inl (get_ne_nil h.keyed hne))
  exact ⟨f', hf', hm⟩

/-- If a header is written, its fields are read as they were, without white space at the ends of the values. -/
theorem C07_header_partial {u : Unicode} (hu : AsciiOk u) (enc : Encoder) (sort : Sorter) (hs : Honest sort) (f : File)
    (h : FileOk enc f) (hd : Header) (hhd : f.header = some hd) (hw : WritesHeader enc hd) (hn : NamesOk u hd) :
    ∃ out, enc.encode sort f = .ok out ∧
      (Short (splitByte 0x0a out) → ∃ f' hd', parse u false out = .ok f' ∧ f'.header = some hd' ∧
        HeaderRead enc.wrapWidth enc.writeReferences hd hd' ∧
        ∀ c i, Option.Rel (fun m m' => ∃ m1, Reordered m m1 ∧ MessageRead enc.wrapWidth enc.writeReferences m1 m')
          (f.getMessage c i) (f'.getMessage c i)) := by
  obtain ⟨out, ho, hr⟩ := round_trip u enc sort hs f h
  refine ⟨out, ho, fun hsh => ?_⟩
  have hhead : headOf enc f = some (headerEntry enc hd) := by
    unfold headOf
    rw [hhd]
    simp only
    rw [if_pos ⟨hw.1, fun hsk => hw.2 ((skipped_iff enc hd).1 hsk)⟩]
  obtain ⟨hd', hp, hrd⟩ := header_read hu enc (h.header hd hhd) fun e he => by
    obtain ⟨h1, h2, h3⟩ := hn e he
    refine ⟨?_, h2, h3⟩
    unfold fieldOf
    rw [List.find?_eq_none]
    intro g _
    simpa using h1 g
  obtain ⟨f', hf', hm, hh'⟩ := hr hsh (.inr ⟨_, hhead, by rw [hp]; nofun⟩)
  refine ⟨f', hd', hf', ?_, hrd, hm⟩
  rw [hh', hhead]
  simp [hp]

theorem lossless_reordered {width : Int} {m m1 : Message} (h : Lossless width m) (hr : Reordered m m1) : Lossless width m1 := by
  obtain ⟨h1, h2, h3, h4, h5, h6, h7⟩ := h
  have hc := hr.comment
  cases hm : m.comment with
  | none => exact absurd hm h1
  | some c =>
    rw [hm] at hc
    cases hm1 : m1.comment with
    | none => rw [hm1] at hc; cases hc
    | some c1 =>
      rw [hm1] at hc
      cases hc with
      | some hs =>
        refine ⟨by rw [hm1]; nofun, ?_, ?_, ?_, ?_, by rw [hr.str]; exact h6, by rw [hr.str, hr.idPlural]; exact h7⟩
        · intro x hx; rw [hm1] at hx; cases hx
          rw [hs.translator]; exact h2 c hm
        · intro x hx; rw [hm1] at hx; cases hx
          rw [hs.extracted]; exact h3 c hm
        · intro x hx; rw [hm1] at hx; cases hx
          intro r hr'
          exact h4 c hm r (hs.references.mem_iff.1 hr')
        · intro x hx; rw [hm1] at hx; cases hx
          rw [hs.prevMsgContext, hs.prevMsgID]; exact h5 c hm

theorem read_lossless {width : Int} {m m' : Message} (h : Lossless width m) (hi : Indexed m.str) (hr : MessageRead width true m m') :
    SameUpToOrder m m' := by
  refine ⟨hr.context, hr.id, hr.idPlural, fun i => ?_, ?_⟩
  · rw [hr.str, filled]
    by_cases h0 : i = 0
    · subst h0
      cases hg : m.str.get? 0 with
      | none => exact absurd hg h.first
      | some v => rfl
    · by_cases h1 : i = 1 ∧ (m.idPlural ≠ [] ∨ 1 < m.str.length)
      · obtain ⟨rfl, h2⟩ := h1
        have : m.str.get? 1 ≠ none := by
          rcases h2 with h2 | h2
          · exact h.second h2
          · intro hg
            refine GoMap.get?_eq_none.1 hg ((hi.2.1 1).2 ⟨by decide, by exact_mod_cast h2⟩)
        cases hg : m.str.get? 1 with
        | none => exact absurd hg this
        | some v => rfl
      · have hno : ¬ (i = 0 ∨ i = 1 ∧ (m.idPlural ≠ [] ∨ 1 < m.str.length)) := fun hh => hh.elim h0 h1
        rw [if_neg hno]
        cases m.str.get? i <;> rfl
  · obtain ⟨c', hc', hcr⟩ := hr.comment
    cases hm : m.comment with
    | none => exact absurd hm h.comment
    | some c =>
      rw [hm, Option.getD_some] at hcr
      rw [hc']
      refine .some ⟨?_, ?_, ?_, ?_, ?_, ?_⟩
      · obtain ⟨h1, h2⟩ := h.translator c hm
        exact hcr.translator.2 h1 h2
      · obtain ⟨h1, h2⟩ := h.extracted c hm
        exact hcr.extracted.2 h1 h2
      · rw [hcr.references, if_pos rfl]
        have : c.references.map asRead = c.references := by
          conv => rhs; rw [← List.map_id c.references]
          refine List.map_congr_left fun r hr => ?_
          obtain ⟨h1, h2⟩ := h.references c hm r hr
          obtain ⟨p, l, k⟩ := r
          simp only at h1 h2
          subst h1
          unfold asRead
          rcases h2 with h2 | h2
          · simp [h2]
          · subst h2; rfl
        rw [this]
      · rw [hcr.flags]
      · rw [hcr.prevMsgContext, (h.previous c hm).1]
      · rw [hcr.prevMsgID, (h.previous c hm).2]

/-- If nothing can be lost, the same messages are read: contexts, ids, plural ids, all translations, the texts of the
comments, and the flags and references up to their order. -/
theorem C07_exact_partial (u : Unicode) (enc : Encoder) (hrefs : enc.writeReferences = true) (sort : Sorter) (hs : Honest sort)
    (f : File) (h : FileOk enc f) (hl : ∀ c i m, f.getMessage c i = some m → Lossless enc.wrapWidth m)
    (hne : ∃ c i m, f.getMessage c i = some m) :
    ∃ out, enc.encode sort f = .ok out ∧
      (Short (splitByte 0x0a out) → ∃ f', parse u false out = .ok f' ∧
        ∀ c i, Option.Rel SameUpToOrder (f.getMessage c i) (f'.getMessage c i)) := by
  obtain ⟨out, ho, hr⟩ := C07_round_trip_partial u enc sort hs f h hne
  refine ⟨out, ho, fun hsh => ?_⟩
  obtain ⟨f', hf', hm⟩ := hr hsh
  refine ⟨f', hf', fun c i => ?_⟩
  have := hm c i
  cases hg : f.getMessage c i with
  | none =>
    rw [hg] at this
    cases hg' : f'.getMessage c i with
    | none => exact .none
    | some _ => rw [hg'] at this; cases this
  | some m =>
    rw [hg] at this
    cases hg' : f'.getMessage c i with
    | none => rw [hg'] at this; cases this
    | some m' =>
      rw [hg'] at this
      cases this with
      | some hx =>
        obtain ⟨m1, h1, h2⟩ := hx
        rw [hrefs] at h2
        have hok := messageOk_reordered (h.messages c i m hg) h1
        have hsame := read_lossless (lossless_reordered (hl c i m hg) h1) hok.indices h2
        refine .some ⟨hsame.context.trans h1.context, hsame.id.trans h1.id, hsame.idPlural.trans h1.idPlural, fun i => ?_,
          rel_trans (R := SameComment) (fun _ _ _ x y => sameComment_trans x y) h1.comment hsame.comment⟩
        rw [hsame.str, h1.str]

/-! ### A file that meets the hypotheses -/

theorem writable_of {s : Bytes} (h : s = utf8 (runes s) ∧ ∀ c ∈ runes s, Encodable c) : Writable s := ⟨_, h⟩

theorem wordOf_of {bad : Char → Bool} {s : Bytes} (h : s = utf8 (runes s) ∧ runes s ≠ [] ∧ ∀ c ∈ runes s, bad c = false) :
    WordOf bad s := ⟨_, h⟩

theorem plain_of {s : Bytes} (h : s = utf8 (runes s) ∧ ∀ c ∈ runes s, c ≠ '"' ∧ c ≠ '\\' ∧ c ≠ '\n') : Plain s := ⟨_, h⟩

/-- A message with plural forms, a comment, two flags and two references. -/
def exDays : Message :=
  ⟨some ⟨b!"checked twice", b!"number of days", [⟨b!"b.go", 7, 0⟩, ⟨b!"a.go", -1, 0⟩], [b!"go-format", b!"fuzzy"], [], []⟩,
    b!"menu", b!"%d \"day\"", b!"%d days\n", [(1, b!"%d Tage\n"), (0, b!"%d \\Tag")]⟩

/-- A message in another context. -/
def exHello : Message := ⟨some ⟨[], [], [⟨b!"a.go", 3, 0⟩], [], [], []⟩, [], b!"Gr\u00fc\u00dfe, world", [], [(0, b!"Hallo")]⟩

def exFile : File :=
  ⟨some { language := b!"de", pluralForms := b!"nplurals=2; plural=(n != 1);", unknownFields := [(b!"X-Poedit", b!"3")] },
    [(b!"menu", [(b!"%d \"day\"", exDays)]), ([], [(b!"Gr\u00fc\u00dfe, world", exHello)])]⟩

/-- The encoder of `Marshal`, with lines of 80 characters. -/
def exEncoder : Encoder := { Encoder.new with wrapWidth := 80 }

theorem exFile_get {c i : Bytes} {m : Message} (h : exFile.getMessage c i = some m) : m = exDays ∨ m = exHello := by
  unfold File.getMessage exFile at h
  simp only [GoMap.get?] at h
  split at h
  · cases h
  · rename_i inner hi
    split at hi
    · cases hi
      simp only [GoMap.get?] at h
      split at h
      · exact .inl (Option.some.inj h).symm
      · cases h
    · split at hi
      · cases hi
        simp only [GoMap.get?] at h
        split at h
        · exact .inr (Option.some.inj h).symm
        · cases h
      · cases hi

theorem exDays_ok : MessageOk exDays where
  id := by decide
  idText := writable_of (by decide +kernel)
  context := writable_of (by decide +kernel)
  idPlural := writable_of (by decide +kernel)
  str := by
    intro p hp
    change p ∈ ([(1, b!"%d Tage\n"), (0, b!"%d \\Tag")] : List (Int × Bytes)) at hp
    fin_cases hp <;> exact writable_of (by decide +kernel)
  indices := by
    refine ⟨by decide, fun k => ?_, by decide⟩
    show k ∈ [(1 : Int), 0] ↔ 0 ≤ k ∧ k < 2
    simp only [List.mem_cons, List.not_mem_nil, or_false]
    omega
  comment := by
    rintro c ⟨rfl⟩
    refine ⟨⟨_, (by decide +kernel : b!"checked twice" = utf8 (runes b!"checked twice"))⟩,
      ⟨_, (by decide +kernel : b!"number of days" = utf8 (runes b!"number of days"))⟩, fun r hr => ?_, fun r hr => ?_⟩
    · fin_cases hr <;> exact ⟨wordOf_of (by decide +kernel), by decide⟩
    · fin_cases hr <;> exact wordOf_of (by decide +kernel)

theorem exHello_ok : MessageOk exHello where
  id := by decide
  idText := writable_of (by decide +kernel)
  context := writable_of (by decide +kernel)
  idPlural := writable_of (by decide +kernel)
  str := by
    intro p hp
    change p ∈ ([(0, b!"Hallo")] : List (Int × Bytes)) at hp
    fin_cases hp <;> exact writable_of (by decide +kernel)
  indices := by
    refine ⟨by decide, fun k => ?_, by decide⟩
    show k ∈ [(0 : Int)] ↔ 0 ≤ k ∧ k < 1
    simp only [List.mem_cons, List.not_mem_nil, or_false]
    omega
  comment := by
    rintro c ⟨rfl⟩
    refine ⟨⟨[], rfl⟩, ⟨[], rfl⟩, fun r hr => ?_, nofun⟩
    fin_cases hr <;> exact ⟨wordOf_of (by decide +kernel), by decide⟩

theorem exFile_keyed : Keyed exFile :=
  ⟨by decide +kernel, by decide +kernel, by decide +kernel⟩

theorem exFile_ok : FileOk exEncoder exFile where
  keyed := exFile_keyed
  messages := by
    intro c i m h
    rcases exFile_get h with rfl | rfl
    · exact exDays_ok
    · exact exHello_ok
  header := by
    rintro h ⟨rfl⟩
    refine ⟨nofun, fun f => ?_, by decide +kernel, fun p hp => ?_⟩
    · cases f <;> exact plain_of (by decide +kernel)
    · change p ∈ ([(b!"X-Poedit", b!"3")] : List (Bytes × Bytes)) at hp
      fin_cases hp
      exact ⟨plain_of (by decide +kernel), plain_of (by decide +kernel)⟩
  silent := nofun
  sorting := by
    rintro cmp ⟨rfl⟩
    exact defaultSort_reorders

theorem exDays_lossless : Lossless 80 exDays where
  comment := nofun
  translator := by
    rintro c ⟨rfl⟩
    exact ⟨.inr (by decide +kernel), .inr (by decide +kernel)⟩
  extracted := by
    rintro c ⟨rfl⟩
    exact ⟨.inr (by decide +kernel), .inr (by decide +kernel)⟩
  references := by
    rintro c ⟨rfl⟩
    decide
  previous := by
    rintro c ⟨rfl⟩
    decide
  first := by decide
  second := by decide

theorem exHello_lossless : Lossless 80 exHello where
  comment := nofun
  translator := by
    rintro c ⟨rfl⟩
    exact ⟨.inr (by decide +kernel), .inl rfl⟩
  extracted := by
    rintro c ⟨rfl⟩
    exact ⟨.inr (by decide +kernel), .inl rfl⟩
  references := by
    rintro c ⟨rfl⟩
    decide
  previous := by
    rintro c ⟨rfl⟩
    decide
  first := by decide
  second := by decide

theorem ok_of {P : Bytes → Prop} [DecidablePred P] {r : Run Bytes}
    (h : (match r with | .ok o => decide (P o) | .error _ => false) = true) : ∃ out, r = .ok out ∧ P out := by
  cases r with
  | error => cases h
  | ok o => exact ⟨o, rfl, of_decide_eq_true h⟩

/-- The example meets the hypotheses of all three theorems. -/
example : Honest insertionSort ∧ FileOk exEncoder exFile ∧ (∃ c i m, exFile.getMessage c i = some m) ∧
    (∃ h, exFile.header = some h ∧ WritesHeader exEncoder h ∧ NamesOk ascii h) ∧
    (∀ c i m, exFile.getMessage c i = some m → Lossless exEncoder.wrapWidth m) ∧
    (∃ out, exEncoder.encode insertionSort exFile = .ok out ∧ Short (splitByte 0x0a out)) := by
  refine ⟨insertionSort_honest, exFile_ok, ⟨[], b!"Gr\u00fc\u00dfe, world", exHello, by decide +kernel⟩, ?_, ?_, ?_⟩
  · refine ⟨_, rfl, ⟨rfl, fun h => by cases h.1⟩, ?_⟩
    intro p hp
    change p ∈ ([(b!"X-Poedit", b!"3")] : List (Bytes × Bytes)) at hp
    fin_cases hp
    refine ⟨fun f => ?_, by decide, by decide +kernel⟩
    cases f <;> decide +kernel
  · intro c i m h
    rcases exFile_get h with rfl | rfl
    · exact exDays_lossless
    · exact exHello_lossless
  · exact ok_of (P := fun out => Short (splitByte 0x0a out)) (by decide +kernel)

/-! ### What is not kept -/

/-- The file that is read after `Marshal`. -/
def readBack (f : File) : Option File :=
  match marshal insertionSort f with
  | .ok out => match parse ascii false out with
    | .ok f' => some f'
    | _ => none
  | .error _ => none

/-- A file with one message. -/
def one (m : Message) : File := ⟨none, [(m.context, [(m.id, m)])]⟩

/-- A singular message without translation 0 is written without text and cannot be read. -/
theorem C07_negation : ∃ (m : Message) (out : Bytes), m.id ≠ [] ∧ Writable m.id ∧ marshal insertionSort (one m) = .ok out ∧
    ∀ f', parse ascii false out ≠ .ok f' := by
  refine ⟨⟨none, [], b!"a", [], [(1, b!"x")]⟩, b!"msgid \"a\"\nmsgstr \n", by decide, writable_of (by decide +kernel), by decide +kernel, ?_⟩
  intro f' h
  have : (match parse ascii false b!"msgid \"a\"\nmsgstr \n" with | .ok _ => false | _ => true) = true := by decide +kernel
  rw [h] at this
  cases this

/-- The only translation of a message with plural forms is lost if it has the index 1, and a missing second translation
is read as an empty one. -/
theorem C07_translations_negation :
    (readBack (one ⟨none, [], b!"a", b!"b", [(1, b!"x")]⟩)).map (fun f => (f.getMessage [] b!"a").map (·.str)) =
      some (some [(1, [])]) ∧
    (readBack (one ⟨none, [], b!"a", b!"b", [(0, b!"x")]⟩)).map (fun f => (f.getMessage [] b!"a").map (·.str)) =
      some (some [(0, b!"x"), (1, [])]) := by
  decide +kernel

/-- Lost of a comment: white space at the ends of lines, empty lines of the extracted comment, columns, white space in
paths, the previous message. -/
theorem C07_comment_negation :
    (readBack (one ⟨some ⟨b!" c\n\n d", b!"e\n\nf", [⟨b!"a b", 3, 4⟩], [b!"x, y"], b!"g", b!"h"⟩, [], b!"a", [], [(0, b!"x")]⟩)).map
      (fun f => (f.getMessage [] b!"a").map (·.comment)) =
    some (some (some ⟨b!"c\n\nd", b!"e\nf", [⟨b!"a", -1, 0⟩, ⟨b!"b", 3, 0⟩], [b!"x", b!"y"], [], []⟩)) := by
  decide +kernel

/-- A file with a newline in a header value is written but cannot be read, and a message with a control character
makes the encoder panic. -/
theorem C07_text_negation :
    (match marshal insertionSort ⟨some { language := b!"d\ne" }, (one ⟨none, [], b!"a", [], []⟩).messages⟩ with
      | .ok out => match parse ascii false out with
        | .ok _ => false
        | _ => true
      | .error _ => false) = true ∧
    marshal insertionSort (one ⟨none, [], [1], [], []⟩) = .error .indexOutOfRange := by
  decide +kernel

/-! ## C14 -/

/-- The default order: whatever the order of the maps and whatever the sorting algorithm, the output is the same if every
message has a reference and no two messages have the same first one.  Missing for the full claim: messages that share
their first reference, several unknown header fields (see the negations). -/
theorem C14_references_partial (enc : Encoder) (hc : enc.sortFunction = some defaultSort) (sort sort' : Sorter) (hs : Sorts sort)
    (hs' : Sorts sort') (f g : File) (h : SameFile f g)
    (hh : enc.writeHeader = true → ∀ x ∈ f.header, x.unknownFields.length ≤ 1) (hf : ApartByReference f) :
    enc.encode sort f = enc.encode sort' g :=
  encode_defaultSort hc hs hs' h hh (apart_sorts h.keyed.1 hf) (apart_sorts h.keyed.2 (apart_same h hf))

/-- The same for files without references, as read from a file that was written without them. -/
theorem C14_keys_partial (enc : Encoder) (hc : enc.sortFunction = some defaultSort) (sort sort' : Sorter) (hs : Sorts sort)
    (hs' : Sorts sort') (f g : File) (h : SameFile f g)
    (hh : enc.writeHeader = true → ∀ x ∈ f.header, x.unknownFields.length ≤ 1) (hf : NoReferences f) :
    enc.encode sort f = enc.encode sort' g :=
  encode_defaultSort hc hs hs' h hh (noReferences_sorts h.keyed.1 hf) (noReferences_sorts h.keyed.2 (noReferences_same h hf))

/-- Every sort function that orders the contexts and ids strictly, and changes nothing, makes the output independent of
the order of the maps. -/
theorem C14_custom_partial (enc : Encoder) (k : Bytes × Bytes → Bytes × Bytes → Int)
    (hc : enc.sortFunction = some fun a b => (k (a.context, a.id) (b.context, b.id), a, b))
    (hi : ∀ a, ¬ k a a < 0) (ht : ∀ a b, a = b ∨ k a b < 0 ∨ k b a < 0) (htr : ∀ a b c, k a b < 0 → k b c < 0 → k a c < 0)
    (sort sort' : Sorter) (hs : Sorts sort) (hs' : Sorts sort') (f g : File) (h : SameFile f g)
    (hh : enc.writeHeader = true → ∀ x ∈ f.header, x.unknownFields.length ≤ 1) :
    enc.encode sort f = enc.encode sort' g := by
  have key : ∀ {f : File}, Keyed f →
      Normalises (fun a b => (k (a.context, a.id) (b.context, b.id), a, b)) id f.messages.all ∧
      StrictOn (fun a b => (k (a.context, a.id) (b.context, b.id), a, b)) (f.messages.all.map id) := by
    intro f hk
    refine ⟨⟨fun _ => rfl, fun _ _ _ _ => rfl, fun _ _ _ _ => rfl⟩, ?_, fun a _ => hi _, fun _ _ _ _ _ _ => htr _ _ _⟩
    intro a ha b hb
    rw [List.map_id] at ha hb
    rcases ht (a.context, a.id) (b.context, b.id) with h1 | h1
    · exact .inl (inj_of_keys (nodup_keys hk) ha hb h1)
    · exact .inr h1
  refine encode_same enc sort sort' h hh ?_
  unfold Encoder.sorted
  rw [hc]
  obtain ⟨l, hp, hl⟩ := all_same h
  exact sort_same_of hs hs' hp hl (key h.keyed.1).1 (key h.keyed.2).1 (key h.keyed.1).2 (key h.keyed.2).2
    (fun _ _ hm => hm) (fun a a' b b' ha hb => by rw [ha.context, ha.id, hb.context, hb.id])

/-- The example file with its maps in another order. -/
def exFile2 : File :=
  ⟨exFile.header, [([], [(b!"Gr\u00fc\u00dfe, world", exHello)]),
    (b!"menu", [(b!"%d \"day\"", { exDays with str := [(0, b!"%d \\Tag"), (1, b!"%d Tage\n")] })])]⟩

/-- A file without references, with a comment for one message only. -/
def exFile3 : File :=
  ⟨exFile.header, [([], [(b!"a", ⟨none, [], b!"a", [], [(0, b!"x")]⟩)]),
    (b!"c", [(b!"b", ⟨some ⟨b!"t", [], [], [b!"f", b!"g"], [], []⟩, b!"c", b!"b", [], []⟩)])]⟩

theorem exFile2_same : SameFile exFile exFile2 := by
  refine ⟨⟨exFile_keyed, by decide +kernel, by decide +kernel, by decide +kernel⟩,
    .some ⟨rfl, fun _ => rfl, by decide +kernel, by decide +kernel, .refl _⟩, fun c i => ?_⟩
  by_cases hc : c = []
  · subst hc
    by_cases hi : i = b!"Gr\u00fc\u00dfe, world"
    · subst hi
      exact .some ⟨rfl, rfl, rfl, rfl, by decide, by decide, .refl _⟩
    · have e1 : exFile.getMessage [] i = none := by
        show (if b!"Gr\u00fc\u00dfe, world" = i then _ else _) = none
        rw [if_neg fun e => hi e.symm]; rfl
      have e2 : exFile2.getMessage [] i = none := by
        show (if b!"Gr\u00fc\u00dfe, world" = i then _ else _) = none
        rw [if_neg fun e => hi e.symm]; rfl
      rw [e1, e2]; exact .none
  · by_cases hm : c = b!"menu"
    · subst hm
      by_cases hi : i = b!"%d \"day\""
      · subst hi
        refine .some ⟨rfl, rfl, rfl, rfl, by decide, by decide, GoMap.same_of_perm (by decide) ?_⟩
        exact List.Perm.swap _ _ _
      · have e1 : exFile.getMessage b!"menu" i = none := by
          show (if b!"%d \"day\"" = i then _ else _) = none
          rw [if_neg fun e => hi e.symm]; rfl
        have e2 : exFile2.getMessage b!"menu" i = none := by
          show (if b!"%d \"day\"" = i then _ else _) = none
          rw [if_neg fun e => hi e.symm]; rfl
        rw [e1, e2]; exact .none
    · have e1 : exFile.getMessage c i = none := by
        unfold File.getMessage
        have : exFile.messages.get? c = none := GoMap.get?_eq_none.2 (by
          show c ∉ [b!"menu", []]
          simp [hc, hm])
        rw [this]
      have e2 : exFile2.getMessage c i = none := by
        unfold File.getMessage
        have : exFile2.messages.get? c = none := GoMap.get?_eq_none.2 (by
          show c ∉ [[], b!"menu"]
          simp [hc, hm])
        rw [this]
      rw [e1, e2]; exact .none

/-- The example meets the hypotheses of `C14_references_partial`; the second one those of `C14_keys_partial`. -/
theorem exFile_apart : exEncoder.sortFunction = some defaultSort ∧ Sorts insertionSort ∧ SameFile exFile exFile2 ∧ exFile ≠ exFile2 ∧
    (∀ x ∈ exFile.header, x.unknownFields.length ≤ 1) ∧ ApartByReference exFile := by
  have h1 : FirstRef exDays ⟨b!"a.go", -1, 0⟩ := ⟨_, rfl, by decide, by
    intro s hs
    fin_cases hs
    · exact .inr (.inl ⟨by decide, by decide⟩)
    · exact .inl rfl⟩
  have h2 : FirstRef exHello ⟨b!"a.go", 3, 0⟩ := ⟨_, rfl, by decide, by
    intro s hs
    fin_cases hs
    exact .inl rfl⟩
  refine ⟨rfl, insertionSort_sorts, exFile2_same, by decide +kernel, by rintro x ⟨rfl⟩; decide, ?_, ?_⟩
  · intro c i m h
    rcases exFile_get h with rfl | rfl
    · exact ⟨_, h1⟩
    · exact ⟨_, h2⟩
  · intro c i m c' i' m' r h h' hr hr'
    have uniq : ∀ {m : Message} {r s : Reference}, FirstRef m r → FirstRef m s → r = s := by
      intro m r s hr hs
      obtain ⟨_, _, e1, e2⟩ := firstRef_head hr
      obtain ⟨_, _, e3, e4⟩ := firstRef_head hs
      rw [e1] at e3
      cases e3
      rw [e2] at e4
      exact (List.cons.inj e4).1
    obtain ⟨k1, k2⟩ := key_of_get exFile_keyed h
    obtain ⟨k3, k4⟩ := key_of_get exFile_keyed h'
    rcases exFile_get h with rfl | rfl <;> rcases exFile_get h' with rfl | rfl
    · exact ⟨k1.symm.trans k3, k2.symm.trans k4⟩
    · exact absurd ((uniq h1 hr).trans (uniq hr' h2)) (by decide)
    · exact absurd ((uniq h2 hr).trans (uniq hr' h1)) (by decide)
    · exact ⟨k1.symm.trans k3, k2.symm.trans k4⟩

example : SameFile exFile3 { exFile3 with messages := exFile3.messages.reverse } ∧ NoReferences exFile3 := by
  have hk : Keyed exFile3 := ⟨by decide +kernel, by decide +kernel, by decide +kernel⟩
  have key : ∀ m ∈ exFile3.messages.all, ∀ x ∈ m.comment.toList, x.references = [] ∧ x.flags.Pairwise (fun a b => bytesLe a b = true) := by
    decide +kernel
  refine ⟨sameFile_of_perm hk (by decide +kernel) (List.reverse_perm _).symm
    (.some ⟨rfl, fun _ => rfl, by decide +kernel, by decide +kernel, .refl _⟩), ?_, .inr ?_⟩
  · intro c i m h x hx
    exact (key m ((mem_all_key hk).1 h).1 x (Option.mem_toList.2 hx)).1
  · intro c i m h x hx
    exact (key m ((mem_all_key hk).1 h).1 x (Option.mem_toList.2 hx)).2

/-- The order of contexts and ids of the default sort function is a sort function as in `C14_custom_partial`. -/
example : ∃ k : Bytes × Bytes → Bytes × Bytes → Int, (∀ a, ¬ k a a < 0) ∧ (∀ a b, a = b ∨ k a b < 0 ∨ k b a < 0) ∧
    ∀ a b c, k a b < 0 → k b c < 0 → k a c < 0 :=
  ⟨fun a b => compareKeys ⟨none, a.1, a.2, [], []⟩ ⟨none, b.1, b.2, [], []⟩, fun _ => compareKeys_irrefl _,
    fun a b => compareKeys_total ⟨none, a.1, a.2, [], []⟩ ⟨none, b.1, b.2, [], []⟩, fun _ _ _ => compareKeys_trans⟩

/-! ### Where the output depends on the order of the maps -/

/-- A message for the examples. -/
def msg (ctx : Bytes) (comment : Option Comment) : Message := ⟨comment, ctx, b!"m", [], [(0, b!"x")]⟩

/-- A comment with one reference. -/
def at' (path : Bytes) : Option Comment := some { Comment.new with references := [⟨path, 1, 0⟩] }

/-- A file with one message per context, visited in this order. -/
def visited (ms : List Message) : File := ⟨none, ms.map fun m => (m.context, [(m.id, m)])⟩

theorem visited_same {ms ms' : List Message} (hp : ms.Perm ms') (hk : Keyed (visited ms)) (hs : ∀ m ∈ (visited ms).messages.all, m.str.WF) :
    SameFile (visited ms) (visited ms') := sameFile_of_perm hk hs (hp.map _) .none

/-- Two unknown header fields are written in the order of the map. -/
theorem C14_negation : ∃ f g : File, SameFile f g ∧ marshal insertionSort f ≠ marshal insertionSort g := by
  refine ⟨⟨some { unknownFields := [(b!"X-A", b!"1"), (b!"X-B", b!"2")] }, []⟩,
    ⟨some { unknownFields := [(b!"X-B", b!"2"), (b!"X-A", b!"1")] }, []⟩, ?_, by decide +kernel⟩
  exact sameFile_of_perm ⟨by decide, nofun, nofun⟩ nofun (.refl _)
    (.some ⟨rfl, fun f => by cases f <;> rfl, by decide, by decide, GoMap.same_of_perm (by decide) (.swap _ _ _)⟩)

/-- Two messages with the same reference (two calls in one line of a source file) are written in the order of the map. -/
theorem C14_references_negation : ∃ ms ms' : List Message, SameFile (visited ms) (visited ms') ∧
    (∀ m ∈ ms, ∃ r, FirstRef m r) ∧ marshal insertionSort (visited ms) ≠ marshal insertionSort (visited ms') := by
  refine ⟨[msg b!"a" (at' b!"x.go"), msg b!"b" (at' b!"x.go")], [msg b!"b" (at' b!"x.go"), msg b!"a" (at' b!"x.go")],
    visited_same (.swap _ _ _) ⟨by decide +kernel, by decide +kernel, by decide +kernel⟩ (by decide +kernel), ?_, by decide +kernel⟩
  intro m hm
  refine ⟨⟨b!"x.go", 1, 0⟩, { Comment.new with references := [⟨b!"x.go", 1, 0⟩] }, ?_, List.mem_singleton.2 rfl, fun s hs => .inl (List.mem_singleton.1 hs)⟩
  fin_cases hm <;> rfl

/-- The default sort function is no order: three messages with and without references can form a cycle, and then the
output depends on the order of the map although all references and keys are different. -/
theorem C14_cycle_negation : ∃ a b c : Message,
    (defaultSort a b).1 < 0 ∧ (defaultSort b c).1 < 0 ∧ (defaultSort c a).1 < 0 ∧
    SameFile (visited [a, b, c]) (visited [b, c, a]) ∧
    marshal insertionSort (visited [a, b, c]) ≠ marshal insertionSort (visited [b, c, a]) := by
  refine ⟨msg b!"a" (at' b!"z.go"), msg b!"b" (some .new), msg b!"c" (at' b!"a.go"), by decide +kernel, by decide +kernel, by decide +kernel,
    visited_same ?_ ⟨by decide +kernel, by decide +kernel, by decide +kernel⟩ (by decide +kernel), by decide +kernel⟩
  exact (List.Perm.swap _ _ _).trans ((List.Perm.swap _ _ _).cons _)

/-- The flags of a message are sorted only if it is compared with another message that has a comment, which may depend on
the order of the map. -/
theorem C14_flags_negation : ∃ a b c : Message, (∀ m ∈ [a, b, c], ∀ x ∈ m.comment.toList, x.references = []) ∧
    SameFile (visited [a, b, c]) (visited [b, c, a]) ∧
    marshal insertionSort (visited [a, b, c]) ≠ marshal insertionSort (visited [b, c, a]) := by
  refine ⟨msg b!"a" (some { Comment.new with flags := [b!"g", b!"f"] }), msg b!"b" none, msg b!"c" (some .new), by decide +kernel,
    visited_same ?_ ⟨by decide +kernel, by decide +kernel, by decide +kernel⟩ (by decide +kernel), by decide +kernel⟩
  exact (List.Perm.swap _ _ _).trans ((List.Perm.swap _ _ _).cons _)

end Verif.Props.PoEncoder
