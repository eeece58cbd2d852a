import Verif.Model.Po.Encoder
import Verif.Model.Po.Parser
import Verif.Props.PoFile
import Verif.Spec.PoHeader
/-!
# The names of the header fields (C16) and the header that is written (C120)

`slots` and `written` are from `Verif.Spec.PoHeader`: the names that gettext uses.
-/
namespace Verif.Props.PoHeader
open Verif.Go Verif.Model.Po Verif.Spec.PoHeader Verif.Props.PoFile

theorem slots_fields : slots = Field.all.map fun f => (f.key, fun h : Header => h.getField f) := rfl

theorem field_mem (f : Field) : f ∈ Field.all := by cases f <;> decide

/-- A field is known under the name that gettext uses for it, in any case, and is stored in the member with this name; no other
member changes. -/
theorem C16_names {u : Unicode} (hu : AsciiOk u) (h : Header) (s : Bytes × (Header → Bytes)) (hs : s ∈ slots) (k v : Bytes)
    (hk : CaseVariant s.1 k) :
    s.2 (h.set u k v) = v ∧ (h.set u k v).get u k = v ∧ (∀ t ∈ slots, t.1 ≠ s.1 → t.2 (h.set u k v) = t.2 h) ∧
      (h.set u k v).unknownFields = h.unknownFields ∧ (h.set u k v).comment = h.comment := by
  rw [slots_fields, List.mem_map] at hs
  obtain ⟨f, _, rfl⟩ := hs
  obtain ⟨h1, h2, h3, h4⟩ := C16_known hu h f k k v hk hk
  have e1 : fieldOf u k = some f := (fieldOf_variant hu hk).symm.trans (fieldOf_key hu f)
  refine ⟨h2, h1, ?_, h4, ?_⟩
  · intro t ht hne
    rw [slots_fields, List.mem_map] at ht
    obtain ⟨g, _, rfl⟩ := ht
    simp only [Header.set, e1, getField_setField]
    rw [if_neg fun e => hne (by rw [e])]
  · simp only [Header.set, e1]
    cases f <;> rfl

/-- The names are different, and twelve. -/
example : (slots.map (·.1)).Nodup ∧ slots.length = 12 ∧ CaseVariant b!"Report-Msgid-Bugs-To" b!"REPORT-MSGID-BUGS-TO" ∧
    (Header.set ascii {} b!"report-msgid-bugs-to" b!"x").reportMsgidBugsTo = b!"x" := by
  refine ⟨by decide, rfl, by decide, by decide⟩

theorem entries_eq (h : Header) : headerEntries h = slots.map (fun s => (s.1, s.2 h)) ++ h.unknownFields := rfl

theorem isOptional_eq (k : Bytes) : isOptional k = dropped.contains k := by
  rw [Bool.eq_iff_iff]
  simp only [isOptional, dropped, decide_eq_true_eq, List.contains_iff_mem, List.mem_cons, List.not_mem_nil, or_false]
  rfl

theorem lines_eq (es : List (Bytes × Bytes)) :
    es.flatMap headerLine = (es.filter fun e => !(dropped.contains e.1 && e.2.isEmpty)).flatMap lineOf := by
  induction es with
  | nil => rfl
  | cons e es ih =>
    rw [List.flatMap_cons, ih]
    unfold headerLine
    rw [isOptional_eq]
    by_cases hc : dropped.contains e.1 = true ∧ e.2 = []
    · rw [if_pos hc, List.filter_cons_of_neg (by rw [hc.1, hc.2]; decide)]
      rfl
    · rw [if_neg hc, List.filter_cons_of_pos, List.flatMap_cons]
      · rfl
      · cases h1 : dropped.contains e.1
        · rfl
        · cases h2 : e.2
          · exact absurd ⟨h1, h2⟩ hc
          · rfl

theorem empty_iff (h : Header) : (headerEntries h).all (fun e => decide (e.2 = [])) = true ↔ Blank h := by
  rw [entries_eq, List.all_append, Bool.and_eq_true, List.all_eq_true, List.all_eq_true]
  unfold Blank
  constructor
  · rintro ⟨h1, h2⟩
    exact ⟨fun s hs => by simpa using h1 _ (List.mem_map_of_mem hs), fun e he => by simpa using h2 e he⟩
  · rintro ⟨h1, h2⟩
    refine ⟨fun e he => ?_, fun e he => by simpa using h2 e he⟩
    obtain ⟨s, hs, rfl⟩ := List.mem_map.1 he
    simpa using h1 s hs

/-- C120: the header is its comment and, unless nothing has a value and empty headers are not wanted, an entry with the lines
of its fields in the order of gettext, then the unknown fields; `MIME-Version`, `Plural-Forms` and `X-Generator` only with a
value. -/
theorem C120_header (enc : Encoder) (h : Header) :
    (enc.writeEmptyHeader = false → Blank h → enc.encodeHeader h = enc.encodeComment h.comment) ∧
    ((enc.writeEmptyHeader = true ∨ ¬ Blank h) → enc.encodeHeader h =
      enc.encodeComment h.comment ++ b!"msgid \"\"\nmsgstr \"\"\n" ++ (written h).flatMap lineOf) := by
  unfold Encoder.encodeHeader
  refine ⟨fun h1 h2 => ?_, fun h1 => ?_⟩
  · rw [if_pos ⟨h1, (empty_iff h).mpr h2⟩, List.append_nil]
  · rw [if_neg, lines_eq, entries_eq, List.append_assoc]
    · rfl
    · rintro ⟨h2, h3⟩
      rcases h1 with h1 | h1
      · rw [h1] at h2; cases h2
      · exact h1 ((empty_iff h).mp h3)

/-- The first nine lines and the tenth are always there, in every header that is written. -/
theorem C120_always (h : Header) : ∀ s ∈ slots, s.1 ∉ dropped → (s.1, s.2 h) ∈ written h := by
  intro s hs hd
  unfold written
  rw [List.mem_filter]
  refine ⟨List.mem_append_left _ (List.mem_map_of_mem hs), ?_⟩
  cases hc : dropped.contains s.1
  · rfl
  · exact absurd (List.contains_iff_mem.mp hc) hd

/-- Every field with a value is written, and every unknown one. -/
theorem C120_nothing_lost (h : Header) : (∀ s ∈ slots, s.2 h ≠ [] → (s.1, s.2 h) ∈ written h) ∧
    ∀ e ∈ h.unknownFields, e.2 ≠ [] → e ∈ written h := by
  have key : ∀ e : Bytes × Bytes, e.2 ≠ [] → (!(dropped.contains e.1 && e.2.isEmpty)) = true := by
    intro e he
    cases h2 : e.2
    · exact absurd h2 he
    · cases dropped.contains e.1 <;> rfl
  exact ⟨fun s hs hv => List.mem_filter.2 ⟨List.mem_append_left _ (List.mem_map_of_mem hs), key _ hv⟩,
    fun e he hv => List.mem_filter.2 ⟨List.mem_append_right _ he, key e hv⟩⟩

/-- A header with two values. -/
def sample : Header := { language := b!"de", pluralForms := b!"nplurals=1; plural=0;", unknownFields := [(b!"X-A", b!"1")] }

example : ¬ Blank sample ∧ (written sample).map (·.1) = [b!"Project-Id-Version", b!"Report-Msgid-Bugs-To", b!"POT-Creation-Date",
    b!"PO-Revision-Date", b!"Last-Translator", b!"Language-Team", b!"Language", b!"Content-Type", b!"Content-Transfer-Encoding",
    b!"Plural-Forms", b!"X-A"] ∧ Blank {} := by
  refine ⟨fun h => ?_, by decide, by unfold Blank; decide⟩
  exact absurd (h.2 _ (.head _)) (by decide)

/-- Values are written as they are, without escapes: a value with a quote and a newline character is read as another field. -/
def forged : Header := { xGenerator := b!"a\\n\"\n\"Language: de" }

theorem C120_escape_negation : ∃ enc : Encoder, ∃ f : File, ∃ hd : Header,
    parse ascii false (enc.encodeHeader forged) = .ok f ∧ f.header = some hd ∧ forged.language = [] ∧ hd.language = b!"de" ∧
      hd.xGenerator = b!"a" := by
  have h : ∃ f hd, parse ascii false ((⟨80, true, true, true, none⟩ : Encoder).encodeHeader forged) = .ok f ∧ f.header = some hd ∧ hd.language = b!"de" ∧
      hd.xGenerator = b!"a" := ⟨_, _, by rfl, rfl, by decide, by decide⟩
  obtain ⟨f, hd, h1, h2, h3, h4⟩ := h
  exact ⟨_, f, hd, h1, h2, rfl, h3, h4⟩

end Verif.Props.PoHeader
