import Verif.Proofs.Po.Reading
import Verif.Props.AcceptedFiles
/-!
# PO files from an `io.Reader` (C117)
-/
namespace Verif.Props.Readers
open Verif.Go Verif.Model.Po Verif.Model.Catalog Verif.Spec.Reader Verif.Spec.PoEntry Verif.Spec.Adjacent
open Verif.Proofs.Po Verif.Proofs.Po.Reading Verif.Props.PoParser Verif.Props.Adjacent Verif.Props.AcceptedFiles

/-- Every line is short enough. -/
def ShortLines (t : Bytes) : Prop := ∀ l ∈ splitByte 0x0a t, l.length < 65536

theorem poDecodeReader_eq {u : Unicode} {r : Reader} {t : Bytes} (h : parseReader u true r = parse u true t) (lang : Tag)
    (domain : Bytes) (useCLDR : Bool) : poDecodeReader u lang domain useCLDR r = poDecode u lang domain useCLDR t := by
  unfold poDecodeReader poDecode
  rw [h]
  rfl

/-- C117 for readers that end with `io.EOF` and do not stall: the file is the one with the content, in whatever pieces the
content comes.
Missing: that a reader which fails is reported is false (`C117_negation`, `C117_failing`), and so is that a stalled one is
(`C117_stall_negation`). -/
theorem C117_pieces_partial (u : Unicode) (ignore : Bool) (r : Reader) (hs : Steady r) (he : r.last = .eof)
    (hl : r.eager = true → ShortLines r.content) : parseReader u ignore r = parse u ignore r.content := by
  unfold parseReader parse
  rw [readerLines_spec hs fun h => ⟨he, hl h⟩, he]
  rfl

/-- The same for the decoder. -/
theorem C117_decode (u : Unicode) (lang : Tag) (domain : Bytes) (useCLDR : Bool) (r : Reader) (hs : Steady r) (he : r.last = .eof)
    (hl : r.eager = true → ShortLines r.content) :
    poDecodeReader u lang domain useCLDR r = poDecode u lang domain useCLDR r.content :=
  poDecodeReader_eq (C117_pieces_partial u true r hs he hl) lang domain useCLDR

/-- A reader that fails gives the file with the lines up to the failure that are complete: the error is not reported. -/
theorem C117_failing (u : Unicode) (ignore : Bool) (r : Reader) (hs : Steady r) (he : r.last = .failed)
    (hl : r.eager = false) : parseReader u ignore r = parse u ignore (wholeLines r.content) := by
  unfold parseReader parse
  rw [readerLines_spec hs (fun h => by rw [hl] at h; cases h), he]
  rfl

/-- The same for the decoder. -/
theorem C117_failing_decode (u : Unicode) (lang : Tag) (domain : Bytes) (useCLDR : Bool) (r : Reader) (hs : Steady r)
    (he : r.last = .failed) (hl : r.eager = false) :
    poDecodeReader u lang domain useCLDR r = poDecode u lang domain useCLDR (wholeLines r.content) :=
  poDecodeReader_eq (C117_failing u true r hs he hl) lang domain useCLDR

/-- No line is invented, changed or left out before another one, whatever the reader does. -/
theorem C117_prefix (r : Reader) : readerLines r <+: (rawLines r.content).map dropCR :=
  lineLoop_prefix _ r.content (.new r) ⟨rfl, fun h => by cases h⟩

/-- A file in pieces that break a line, a CRLF and a character. -/
def pieces : Reader := ⟨[b!"msgid \"a", b!"\"\r", b!"\nmsgstr \"\xc3", [], b!"\xa4\"\n\nmsgid \"b\"\nmsgstr", b!" \"B\""], .eof, true⟩

example (u : Unicode) : Steady pieces ∧ pieces.last = .eof ∧ (pieces.eager = true → ShortLines pieces.content) ∧
    ∃ f, parseReader u false pieces = .ok f := by
  refine ⟨?_, rfl, fun _ => by unfold ShortLines; decide, _, rfl⟩
  intro h
  have := h.sublist.length_le
  simp [pieces] at this

/-- The reader of a file that fails within the second entry. -/
def failing : Reader := ⟨[b!"msgid \"a\"\nmsgstr \"A\"\n", b!"\nmsgid \"b"], .failed, false⟩

theorem failing_steady : Steady failing := by
  intro h
  have := h.sublist.length_le
  simp [failing] at this

/-- A failure within the file is not reported: the decoder returns a catalog, which has the first entry and lacks the
second one. -/
theorem C117_negation (u : Unicode) (lang : Tag) (domain : Bytes) : ∃ c, failing.last = .failed ∧
    poDecodeReader u lang domain true failing = .catalog c ∧ c.lookup [] b!"a" = (b!"A", none) ∧
    (c.lookup [] b!"b").2 ≠ none := by
  have he := C117_failing_decode u lang domain true failing failing_steady rfl rfl
  have hw : wholeLines failing.content = b!"msgid \"a\"\nmsgstr \"A\"\n\n" := by decide
  rw [hw] at he
  refine ⟨_, rfl, he.trans rfl, rfl, Option.some_ne_none _⟩

/-- A reader that has nothing to deliver for a while. -/
def stalling : Reader := ⟨b!"msgid \"a\"\nmsgstr \"A\"\n" :: List.replicate 101 [] ++ [b!"\nmsgid \"b\"\nmsgstr \"B\"\n"], .eof, false⟩

/-- After 101 empty reads the rest of the file is ignored without an error. -/
theorem C117_stall_negation (u : Unicode) (lang : Tag) (domain : Bytes) : ∃ c, stalling.last = .eof ∧
    poDecodeReader u lang domain true stalling = .catalog c ∧ c.lookup [] b!"a" = (b!"A", none) ∧
    (c.lookup [] b!"b").2 ≠ none ∧
    ∃ c', poDecode u lang domain true stalling.content = .catalog c' ∧ c'.lookup [] b!"b" = (b!"B", none) := by
  have hl : readerLines stalling = scanLines b!"msgid \"a\"\nmsgstr \"A\"\n" := by decide +kernel
  have hp : parseReader u true stalling = parse u true b!"msgid \"a\"\nmsgstr \"A\"\n" := by
    unfold parseReader parse
    rw [hl]
  have hc : stalling.content = b!"msgid \"a\"\nmsgstr \"A\"\n\nmsgid \"b\"\nmsgstr \"B\"\n" := by decide +kernel
  rw [hc]
  refine ⟨_, rfl, (poDecodeReader_eq hp lang domain true).trans rfl, rfl, Option.some_ne_none _, _, rfl, rfl⟩

end Verif.Props.Readers
