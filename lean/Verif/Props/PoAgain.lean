import Verif.Proofs.Po.Again
import Verif.Props.PoReread
/-!
# C81: saving again changes nothing
-/
namespace Verif.Props.PoAgain
open Verif.Go Verif.Model.PoString Verif.Spec.PoString Verif.Spec.PoEntry Verif.Spec.PoFile Verif.Spec.PoReread Verif.Spec.PoSort
open Verif.Model.Po hiding Field
open Verif.Proofs.Po
open Verif.Props.PoFile (AsciiOk ascii ascii_ok)
open Verif.Props.PoEncoder Verif.Props.PoReread

theorem encodeComment_getD (enc : Encoder) (c : Option Comment) : enc.encodeComment c = enc.encodeComment (some (c.getD .new)) := by
  cases c with
  | some c => rfl
  | none => simp [Encoder.encodeComment, Comment.new]

theorem encodeHeader_same (enc : Encoder) {h h' : Header} (hs : SameHeaderText h h') (hw : h.unknownFields.WF) (hw' : h'.unknownFields.WF)
    (hl : h.unknownFields.length ≤ 1) : enc.encodeHeader h = enc.encodeHeader h' := by
  have hu : h.unknownFields = h'.unknownFields := short_same hw hw' (fun k => (hs.unknown k).symm) hl
  have he : headerEntries h = headerEntries h' := by
    unfold headerEntries
    rw [hu]
    congr 1
    exact List.map_congr_left fun f _ => by rw [hs.fields f]
  unfold Encoder.encodeHeader
  rw [encodeComment_getD enc h.comment, encodeComment_getD enc h'.comment, hs.comment, he]

/-- A message that is read for a message with nothing to lose is the same message. -/
theorem read_same {width : Int} {m m' : Message} (h : Lossless width m) (hi : Indexed m.str) (hw : m'.str.WF) (hr : MessageRead width true m m') :
    SameMessage m m' := by
  have hu := read_lossless h hi hr
  refine ⟨?_, hu.context, hu.id, hu.idPlural, hi.1, hw, fun i => (hu.str i).symm⟩
  obtain ⟨c', e, hc⟩ := hr.comment
  have := hu.comment
  cases hm : m.comment with
  | none => exact absurd hm h.comment
  | some c =>
    rw [hm, e] at this
    rw [hm, Option.getD_some] at hc
    rw [e]
    cases this with
    | some hsc =>
      have h3 : c'.references = c.references := by
        rw [hc.references, if_pos rfl]
        conv => rhs; rw [← List.map_id c.references]
        refine List.map_congr_left fun r hr => ?_
        obtain ⟨h1, h2⟩ := h.references c hm r hr
        obtain ⟨p, l, k⟩ := r
        simp only at h1 h2
        subst h1
        unfold asRead
        rcases h2 with h2 | h2
        · simp [h2]
        · subst h2; rfl
      have h1 := hsc.translator
      have h2 := hsc.extracted
      have h4 := hc.flags
      have h5 := hsc.prevMsgContext
      have h6 := hsc.prevMsgID
      cases c; cases c'
      simp only at h1 h2 h3 h4 h5 h6
      rw [h1, h2, h3, h4, h5, h6]

/-- **C81 (partial)** A file that was read, written and read again gives the same text if it is written once more: formatting a
file with the encoder is stable after the first time, whatever the sorting algorithms do with equal elements.  The encoder writes
header and references, does not wrap and uses the default order, as `Marshal` does.  Missing for the full claim: files that are not
kept (`HoldableFile`; see C80), files with several unknown header fields or with messages the default order does not put in a fixed
order (see C14). -/
theorem C81_stable_partial {u : Unicode} (hu : AsciiOk u) (enc : Encoder) (h1 : enc.writeHeader = true) (h2 : enc.writeEmptyHeader = true)
    (h3 : enc.writeReferences = true) (h4 : enc.wrapWidth ≤ 0) (hc : enc.sortFunction = some defaultSort)
    (sort sort' : Sorter) (ha : Honest sort) (hs : Sorts sort) (hs' : Sorts sort')
    (data : Bytes) (hv : ValidUtf8 data) (f : File) (hf : parse u false data = .ok f) (hh : HoldableFile f)
    (hx : ∀ h ∈ f.header, h.unknownFields.length ≤ 1)
    (hord : ApartByReference f ∨ ∀ c i m, f.getMessage c i = some m → ∀ x ∈ m.comment, x.references = []) :
    ∃ out, enc.encode sort f = .ok out ∧
      (Short (splitByte 0x0a out) → ∃ f', parse u false out = .ok f' ∧ enc.encode sort' f' = .ok out) := by
  have ht := parse_tidy hv hf
  obtain ⟨hd, hhd, htd, htc⟩ := ht.header
  have hcmp : ∀ cmp ∈ enc.sortFunction, ∀ a b, Reordered a (cmp a b).2.1 ∧ Reordered b (cmp a b).2.2 := by
    intro cmp hm
    rw [hc] at hm
    cases hm
    exact defaultSort_reorders
  obtain ⟨hok, hnames⟩ := holdable_ok h2 hcmp ht hhd htd htc hh
  obtain ⟨out, ho, hr⟩ := C80_reread_partial hu enc h1 h2 h3 h4 hcmp sort ha data hv f hf hh
  refine ⟨out, ho, fun hsh => ?_⟩
  obtain ⟨f', hf', hsame⟩ := hr hsh
  refine ⟨f', hf', ?_⟩
  obtain ⟨hd', hp, _⟩ := header_read hu enc (hok.header hd hhd) fun e he => by
    obtain ⟨k1, k2, k3⟩ := hnames e he
    refine ⟨?_, k2, k3⟩
    unfold fieldOf
    rw [List.find?_eq_none]
    intro g _
    simpa using k1 g
  have hhead : headOf enc f = some (headerEntry enc hd) := by
    unfold headOf
    rw [hhd]
    simp only
    rw [if_pos ⟨h1, fun hsk => by have := hsk.1; rw [h2] at this; cases this⟩]
  obtain ⟨out2, ho2, hr2⟩ := round_trip_sorted u false enc sort ha f hok
  rw [ho] at ho2
  cases ho2
  obtain ⟨f2, hf2, hm2, hh2⟩ := hr2 hsh (.inr ⟨_, hhead, by rw [hp]; nofun⟩)
  rw [hf'] at hf2
  cases hf2
  have hh2 : f'.header = some hd' := by
    rw [hh2, hhead]
    simp [hp]
  have hkey' := keyed_of_parse hf'
  have hsorted : enc.sorted sort f.messages.all = sort defaultSort f.messages.all := by unfold Encoder.sorted; rw [hc]
  have hsorted' : enc.sorted sort' f'.messages.all = sort' defaultSort f'.messages.all := by unfold Encoder.sorted; rw [hc]
  obtain ⟨hn, hso⟩ : Normalises defaultSort tidy f.messages.all ∧ StrictOn defaultSort (f.messages.all.map tidy) := by
    rcases hord with h | h
    · exact apart_sorts hok.keyed h
    · refine noReferences_sorts hok.keyed ⟨h, .inl fun c i m hm => ?_⟩
      obtain ⟨x, e, _⟩ := (ht.messages c i m hm).2.comment
      rw [e]; nofun
  obtain ⟨ms', hpm, hfm⟩ := sorted_reordered ha hok
  have hL : ∀ m1 ∈ sort defaultSort f.messages.all, MessageOk m1 ∧ Lossless enc.wrapWidth m1 := by
    intro m1 hm1
    rw [← hsorted] at hm1
    obtain ⟨m0, hm0, hre⟩ := forall₂_mem_right hfm m1 hm1
    have hg := (mem_all hok.keyed).1 (hpm.mem_iff.1 hm0)
    exact ⟨messageOk_reordered (hok.messages _ _ _ hg) hre,
      lossless_reordered (lossless_of h4 (ht.messages _ _ _ hg).2 (hh.messages _ _ _ hg)) hre⟩
  have hsm : ∀ m1 ∈ sort defaultSort f.messages.all, SameMessage m1 ((entryOf enc m1).message false) := by
    intro m1 hm1
    obtain ⟨k1, k2⟩ := hL m1 hm1
    have hread := entryOf_read enc k1
    rw [h3] at hread
    exact read_same k2 k1.indices (str_value_wf (entryOf_wf enc k1).2.2.2.2) hread
  have hkeysL : ((sort defaultSort f.messages.all).map keyOf).Nodup := by
    rw [← hsorted]
    have : ∀ {l m : List Message}, List.Forall₂ Reordered l m → m.map keyOf = l.map keyOf := by
      intro l m h
      induction h with
      | nil => rfl
      | cons h _ ih => rw [List.map_cons, List.map_cons, ih, keyOf, keyOf, h.context, h.id]
    rw [this hfm]
    exact (List.Perm.nodup_iff (hpm.map keyOf)).2 (nodup_keys hok.keyed)
  have hall : f'.messages.all.Perm ((sort defaultSort f.messages.all).map fun m => (entryOf enc m).message false) := by
    have hk : ((sort defaultSort f.messages.all).map fun m => (entryOf enc m).message false).map keyOf =
        (sort defaultSort f.messages.all).map keyOf := by
      rw [List.map_map]
      exact List.map_congr_left fun m hm => sameMessage_key (hsm m hm)
    have hnd : ((sort defaultSort f.messages.all).map fun m => (entryOf enc m).message false).Nodup := by
      have h0 := hkeysL
      rw [← hk] at h0
      exact (List.pairwise_map.1 h0).imp fun h e => h (congrArg keyOf e)
    refine (List.perm_ext_iff_of_nodup (nodup_all hkey') hnd).2 fun m' => ?_
    constructor
    · intro hm'
      obtain ⟨m1, q1, _, rfl⟩ := (hm2 _ _ _).1 ((mem_all hkey').1 hm')
      exact List.mem_map.2 ⟨m1, hsorted ▸ q1, rfl⟩
    · intro hm'
      obtain ⟨m1, q1, rfl⟩ := List.mem_map.1 hm'
      exact ((mem_all_key hkey').1 ((hm2 m1.context m1.id _).2 ⟨m1, hsorted ▸ q1, rfl, rfl⟩)).1
  have hf2 : List.Forall₂ SameMessage (sort defaultSort f.messages.all)
      ((sort defaultSort f.messages.all).map fun m => (entryOf enc m).message false) := by
    rw [List.forall₂_map_right_iff]
    exact List.forall₂_same.2 hsm
  obtain ⟨l, hpl, hfl⟩ := perm_forall₂ hf2 hall
  have hfin := sort_again hs hs' (nodup_keys hkey') hn hso hpl hfl
  rw [← ho]
  have hmm : enc.encodeMessages (enc.sorted sort' f'.messages.all) = enc.encodeMessages (enc.sorted sort f.messages.all) := by
    rw [hsorted, hsorted']
    exact (encodeMessages_same enc hfin).symm
  have hhe : enc.encodeHeader hd' = enc.encodeHeader hd := by
    have := hsame.header
    rw [hhd, hh2] at this
    cases this with
    | some hst => exact (encodeHeader_same enc hst htd.wf (parseHeader_wf hp) (hx hd hhd)).symm
  unfold Encoder.encode
  rw [hmm, hh2, hhd]
  simp only
  rw [hhe]

/-- The same for `Marshal`. -/
theorem C81_marshal_partial {u : Unicode} (hu : AsciiOk u) (sort sort' : Sorter) (ha : Honest sort) (hs : Sorts sort) (hs' : Sorts sort')
    (data : Bytes) (hv : ValidUtf8 data) (f : File) (hf : parse u false data = .ok f) (hh : HoldableFile f)
    (hx : ∀ h ∈ f.header, h.unknownFields.length ≤ 1)
    (hord : ApartByReference f ∨ ∀ c i m, f.getMessage c i = some m → ∀ x ∈ m.comment, x.references = []) :
    ∃ out, marshal sort f = .ok out ∧
      (Short (splitByte 0x0a out) → ∃ f', parse u false out = .ok f' ∧ marshal sort' f' = .ok out) :=
  C81_stable_partial hu Encoder.new rfl rfl rfl (by decide) rfl sort sort' ha hs hs' data hv f hf hh hx hord

/-! ### A file that meets the hypotheses -/

/-- A file that is not in the form the encoder writes. -/
def exAgain : Bytes :=
  b!"msgid \"\"\nmsgstr \"Language:de\\n\"\n\n#: b.go:7\nmsgid \"x\"\nmsgstr \"y\"\n\n#: z.go a.go:3\n#, fuzzy,c-format\nmsgid \"a\"\nmsgstr \"b\"\n"

def exAgainX : Message := ⟨some { Comment.new with references := [⟨b!"b.go", 7, 0⟩] }, [], b!"x", [], [(0, b!"y")]⟩

def exAgainA : Message :=
  ⟨some { Comment.new with references := [⟨b!"z.go", -1, 0⟩, ⟨b!"a.go", 3, 0⟩], flags := [b!"fuzzy", b!"c-format"] }, [], b!"a", [], [(0, b!"b")]⟩

def exAgainFile : File :=
  ⟨some { comment := some .new, language := b!"de" }, [([], [(b!"x", exAgainX), (b!"a", exAgainA)])]⟩

theorem exAgain_get {c i : Bytes} {m : Message} (h : exAgainFile.getMessage c i = some m) : m = exAgainX ∨ m = exAgainA := by
  have hk : Keyed exAgainFile := ⟨by decide +kernel, by decide +kernel, by decide +kernel⟩
  have := ((mem_all_key hk).1 h).1
  change m ∈ [exAgainX, exAgainA] at this
  fin_cases this
  · exact .inl rfl
  · exact .inr rfl

theorem exAgain_apart : ApartByReference exAgainFile := by
  have f1 : FirstRef exAgainX ⟨b!"b.go", 7, 0⟩ := ⟨_, rfl, by decide, by
    intro s hs
    fin_cases hs
    exact .inl rfl⟩
  have f2 : FirstRef exAgainA ⟨b!"a.go", 3, 0⟩ := ⟨_, rfl, by decide, by
    intro s hs
    fin_cases hs
    · exact .inr (.inl ⟨by decide, by decide⟩)
    · exact .inl rfl⟩
  have hne : ∀ r, FirstRef exAgainX r → FirstRef exAgainA r → False := by
    rintro r ⟨c, ⟨rfl⟩, hm, _⟩ ⟨c', ⟨rfl⟩, hm', _⟩
    fin_cases hm
    exact absurd hm' (by decide)
  refine ⟨fun c i m h => ?_, fun c i m c' i' m' r h h' hr hr' => ?_⟩
  · rcases exAgain_get h with rfl | rfl
    · exact ⟨_, f1⟩
    · exact ⟨_, f2⟩
  · have hk : Keyed exAgainFile := ⟨by decide +kernel, by decide +kernel, by decide +kernel⟩
    obtain ⟨q1, q2⟩ := key_of_get hk h
    obtain ⟨q3, q4⟩ := key_of_get hk h'
    rcases exAgain_get h with rfl | rfl <;> rcases exAgain_get h' with rfl | rfl
    · exact ⟨q1.symm.trans q3, q2.symm.trans q4⟩
    · exact (hne r hr hr').elim
    · exact (hne r hr' hr).elim
    · exact ⟨q1.symm.trans q3, q2.symm.trans q4⟩

theorem exAgain_holdable : HoldableFile exAgainFile where
  messages := by
    intro c i m h
    have key : ∀ m ∈ [exAgainX, exAgainA], (∀ b ∈ m.id, ¬ BadByte b) ∧ (∀ b ∈ m.context, ¬ BadByte b) ∧ (∀ b ∈ m.idPlural, ¬ BadByte b) ∧
        (∀ p ∈ m.str, ∀ b ∈ p.2, ¬ BadByte b) ∧ m.str.keys = [0] ∧ m.idPlural = [] ∧
        ∀ c ∈ m.comment.toList, c.prevMsgContext = [] ∧ c.prevMsgID = [] ∧
          ∀ r ∈ c.references, (r.path = utf8 (runes r.path) ∧ runes r.path ≠ [] ∧ ∀ x ∈ runes r.path, (isSpace x || decide (x = ':')) = false) ∧
            (0 < r.line ∨ r.line = -1) := by
      decide +kernel
    have hm : m ∈ [exAgainX, exAgainA] := by
      rcases exAgain_get h with rfl | rfl <;> simp
    obtain ⟨k1, k2, k3, k4, k5, k6, k7⟩ := key m hm
    have hl : m.str.length = 1 := by
      have : m.str.length = m.str.keys.length := by unfold GoMap.keys; rw [List.length_map]
      rw [this, k5]; rfl
    refine ⟨k1, k2, k3, fun i v hv => k4 (i, v) (GoMap.mem_of_get? hv), fun k => ?_, by omega, fun h => absurd k6 h, fun c hc => ?_⟩
    · rw [hl, k5]
      simp only [List.mem_singleton]
      omega
    · obtain ⟨q1, q2, q3⟩ := k7 c (Option.mem_toList.2 hc)
      exact ⟨fun r hr => ⟨wordOf_of (q3 r hr).1, (q3 r hr).2⟩, q1, q2⟩
  header := by
    rintro h ⟨rfl⟩
    refine ⟨fun f => ?_, nofun, ?_⟩
    · cases f <;> exact ⟨by decide, by decide⟩
    · rintro c ⟨rfl⟩
      exact ⟨nofun, rfl, rfl⟩

/-- The example meets the hypotheses; the text that is written is not the text that was read. -/
example : AsciiOk ascii ∧ Honest insertionSort ∧ Sorts insertionSort ∧ ValidUtf8 exAgain ∧ parse ascii false exAgain = .ok exAgainFile ∧
    HoldableFile exAgainFile ∧ (∀ h ∈ exAgainFile.header, h.unknownFields.length ≤ 1) ∧ ApartByReference exAgainFile ∧
    ∃ out, marshal insertionSort exAgainFile = .ok out ∧ (Short (splitByte 0x0a out) ∧ out ≠ exAgain) :=
  ⟨ascii_ok, insertionSort_honest, insertionSort_sorts, ⟨runes exAgain, by decide +kernel⟩, by decide +kernel, exAgain_holdable,
    by (rintro h ⟨rfl⟩; decide), exAgain_apart, ok_of (P := fun out => Short (splitByte 0x0a out) ∧ out ≠ exAgain) (by decide +kernel)⟩

/-! ### Where saving again changes the text -/

/-- The text after reading and `Marshal`. -/
def saved (data : Bytes) : Option Bytes :=
  match parse ascii false data with
  | .ok f => match marshal insertionSort f with
    | .ok out => some out
    | .error _ => none
  | _ => none

def exSlash : Bytes := b!"msgid \"\"\nmsgstr \"\"\n\"Language: d\\\\\\n\"\n\"Content-Type: text/plain\\n\"\n"

/-- With a backslash in a header value every time something else is written: the fields behind it move into the value and empty
fields take their place. -/
theorem C81_negation : ∃ data out out' : Bytes, ValidUtf8 data ∧ saved data = some out ∧ saved out = some out' ∧ out ≠ out' := by
  have key : ∃ out, saved exSlash = some out ∧ ∃ out', saved out = some out' ∧ out ≠ out' := by
    have h : (match saved exSlash with
        | some out => match saved out with
          | some out' => decide (out ≠ out')
          | none => false
        | none => false) = true := by decide +kernel
    split at h
    · rename_i out e
      split at h
      · rename_i out' e'
        exact ⟨out, e, out', e', of_decide_eq_true h⟩
      · cases h
    · cases h
  obtain ⟨out, e, out', e', hne⟩ := key
  exact ⟨exSlash, out, out', ⟨runes exSlash, by decide +kernel⟩, e, e', hne⟩

end Verif.Props.PoAgain
