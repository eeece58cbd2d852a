import Verif.Proofs.MoReading
import Verif.Props.Mo
/-!
# MO files from an `io.Reader` (C118)
-/
namespace Verif.Props.MoReaders
open Verif.Go Verif.Model.Mo Verif.Model.Catalog Verif.Spec.Reader Verif.Proofs.Mo Verif.Proofs.MoReading
open Verif.Model.Po (File Unicode)
open Verif.Spec.Mo (write)

/-- The handle is at the beginning of the file and no call fails. -/
def Ready (h : Handle) : Prop := h.pos = 0 ∧ ∀ n, h.fails n = false

/-- Every call of `Read` fills the buffer as far as the file allows. -/
def Filling (h : Handle) : Prop := ∀ n, h.data.length ≤ h.most n + 1

/-- C118 for an `io.ReadSeeker` whose calls of `Read` fill the buffer: a file that is accepted in memory gives the same file.
Missing: this is false for calls that deliver less (`C118_negation`, `C118_short_reads`). -/
theorem C118_filling_partial (u : Unicode) (h : Handle) (hr : Ready h) (hf : Filling h) (f : File) (hp : parse u h.data = some f) :
    parseSeeker u h = some f := by
  obtain ⟨rows, rows', h1, h2, _, h4⟩ := (parse_quiet hr.2 u h.calls).1 f hp
  have e : h.at 0 h.calls = h := by rw [← hr.1]; rfl
  rw [e, h4 hf, ← h1] at h2
  exact h2

/-- For a reader that treats an empty buffer as `bytes.Reader` does, nothing else is accepted, either. -/
theorem C118_accepted_iff (u : Unicode) (h : Handle) (hr : Ready h) (hi : h.idle = false) :
    (∃ f, parseSeeker u h = some f) ↔ ∃ f, parse u h.data = some f := by
  have e : h.at 0 h.calls = h := by rw [← hr.1]; rfl
  obtain ⟨p1, p2⟩ := parse_quiet hr.2 u h.calls
  rw [e] at p1 p2
  constructor
  · rintro ⟨f, hf⟩
    cases hp : parse u h.data with
    | some f' => exact ⟨f', rfl⟩
    | none => rw [p2 hi hp] at hf; cases hf
  · rintro ⟨f, hf⟩
    obtain ⟨_, rows', _, h2, _⟩ := p1 f hf
    exact ⟨_, h2⟩

/-- With calls that deliver less, the numbers are right, and the ids and texts are cut: each one has some of its first
bytes and then zeros. -/
theorem C118_short_reads (u : Unicode) (h : Handle) (hr : Ready h) (f : File) (hp : parse u h.data = some f) :
    ∃ rows rows', f = load u .new rows ∧ parseSeeker u h = some (load u .new rows') ∧ CutRows rows rows' := by
  obtain ⟨rows, rows', h1, h2, h3, _⟩ := (parse_quiet hr.2 u h.calls).1 f hp
  have e : h.at 0 h.calls = h := by rw [← hr.1]; rfl
  rw [e] at h2
  exact ⟨rows, rows', h1, h2, h3⟩

/-- A call that fails is reported: a file that is accepted is the one without any failure. -/
theorem C118_failures (u : Unicode) (h : Handle) (f : File) (hf : parseSeeker u h = some f) :
    parseSeeker u { h with fails := fun _ => false } = some f := parse_still hf

/-- The decoder on a handle, in memory. -/
theorem C118_decode (u : Unicode) (lang : Tag) (domain : Bytes) (useCLDR : Bool) (h : Handle) (hr : Ready h) (hf : Filling h)
    (hi : h.idle = false) : moDecodeSeeker u lang domain useCLDR h = moDecode u lang domain useCLDR h.data := by
  unfold moDecodeSeeker moDecode
  have hx : parseSeeker u h = parse u h.data := by
    cases hp : parse u h.data with
    | some f => exact C118_filling_partial u h hr hf f hp
    | none =>
      cases hs : parseSeeker u h with
      | none => rfl
      | some f =>
        obtain ⟨f', hf'⟩ := (C118_accepted_iff u h hr hi).1 ⟨f, hs⟩
        rw [hp] at hf'; cases hf'
  rw [hx]
  rfl

/-- A reader without `Seek` gives the catalog of its content, in whatever pieces the content comes; if it fails, the
decoder does. -/
theorem C118_pieces (u : Unicode) (lang : Tag) (domain : Bytes) (useCLDR : Bool) (grow : Nat → Nat) (r : Reader) :
    moDecodeReader u lang domain useCLDR grow r =
      match r.last with
      | .eof => moDecode u lang domain useCLDR r.content
      | .failed => .error := by
  unfold moDecodeReader
  rw [readAll_spec]
  cases r.last <;> rfl

/-- A file with one message. -/
def one : Bytes := write .little [⟨none, b!"ab", none, [b!"AB"]⟩]

/-- A handle for it whose calls deliver at most `m + 1` bytes. -/
def handle (m : Nat) : Handle := ⟨one, fun _ => m, fun _ => false, false, 0, 0⟩

example (u : Unicode) : Ready (handle 99) ∧ Filling (handle 99) ∧ (handle 99).idle = false ∧
    ∃ f, parse u (handle 99).data = some f ∧ f.getMessage [] b!"ab" ≠ none := by
  refine ⟨⟨rfl, fun _ => rfl⟩, fun _ => ?_, rfl, _, rfl, Option.some_ne_none _⟩
  show one.length ≤ 100
  decide

/-- A handle whose calls deliver one byte each: the file is accepted, but its message is another one. -/
theorem C118_negation (u : Unicode) : ∃ (h : Handle) (f f' : File), Ready h ∧ parse u h.data = some f ∧ parseSeeker u h = some f' ∧
    f.getMessage [] b!"ab" ≠ none ∧ f'.getMessage [] b!"ab" = none ∧ f'.getMessage [] b!"a" ≠ none :=
  ⟨handle 0, _, _, ⟨rfl, fun _ => rfl⟩, rfl, rfl, Option.some_ne_none _, rfl, Option.some_ne_none _⟩

/-- A handle that fails at its fifth call: the bytes of the first number are read before that. -/
example (u : Unicode) : parseSeeker u { handle 0 with fails := fun n => n == 4 } = none ∧
    parseSeeker u { handle 99 with fails := fun n => n == 40 } ≠ none :=
  ⟨rfl, Option.some_ne_none _⟩

/-- An empty text at the end of the file: an error in memory, not with `os.File`. -/
theorem C118_empty_negation (u : Unicode) : ∃ (h : Handle), Ready h ∧ Filling h ∧ parse u h.data = none ∧
    ∃ f, parseSeeker u h = some f := by
  refine ⟨⟨Verif.Props.Mo.oneMessage 0 48, fun _ => 99, fun _ => false, true, 0, 0⟩, ⟨rfl, fun _ => rfl⟩, fun _ => ?_, rfl, _, rfl⟩
  show (Verif.Props.Mo.oneMessage 0 48).length ≤ 100
  decide

end Verif.Props.MoReaders
