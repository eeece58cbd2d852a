import Verif.Go.Slice
import Verif.Model.Spreak.Accessors
/-!
# A bundle in memory

The slices of a bundle are views of arrays that others may hold as well: the printer and the maker of the matcher are given the
slice of languages itself, callers are given copies.  A caller, a printer and a matcher are here one `Client`: it holds slices
and may write anywhere in them, up to their capacity (which covers `append` in place and slicing again).
-/
namespace Verif.Model.Spreak
open Verif.Go

variable {L N V : Type} [DecidableEq L]

/-- The arrays of tags and of texts. -/
structure Memory (L : Type) where
  tags : Arrays L
  names : Arrays Bytes

/-- /repo/bundle.go:56-69 `Bundle`, with its slices in memory; the lists of `rest` are not used. -/
structure Stored (L N : Type) where
  rest : Bundle L N
  languages : Slice
  domains : Slice

/-- What the bundle holds at the moment. -/
def Stored.view (m : Memory L) (s : Stored L N) : Bundle L N :=
  { s.rest with languages := s.languages.get m.tags, domains := s.domains.get m.names }

/-- Appends one by one. -/
def appendAll {α : Type} (room : Nat → List α) : Arrays α → Slice → List α → Arrays α × Slice
  | A, s, [] => (A, s)
  | A, s, x :: xs => appendAll room (s.append room A x).1 (s.append room A x).2 xs

/-- How many elements `append` leaves free, and with what contents. -/
structure Room (L : Type) where
  tags : Nat → List L
  names : Nat → List Bytes

/-- The slices of `NewBundle`: /repo/bundle.go:83 (`make` without room) and 197, 231 (`append`) for the languages, 104 (`make` with
room for a domain of each loader, here `free`) and 220 (`append`) for the domains. -/
def store (room : Room L) (free : List Bytes) (m : Memory L) (b : Bundle L N) : Memory L × Stored L N :=
  let (tags, s) := makeSlice m.tags [] []
  let (tags, languages) := appendAll room.tags tags s b.languages
  let (names, d) := makeSlice m.names [] free
  let (names, domains) := appendAll room.names names d b.domains
  (⟨tags, names⟩, ⟨b, languages, domains⟩)

/-- The slices that a client holds. -/
structure Client where
  tags : List Slice
  names : List Slice

/-- What a client can do with a bundle and its own slices. -/
inductive Step (L : Type)
  /-- `s[:cap(s)][k] = t` for the i-th slice of tags. -/
  | writeTag (i k : Nat) (t : L)
  /-- `s[:cap(s)][k] = n` for the i-th slice of texts. -/
  | writeName (i k : Nat) (n : Bytes)
  /-- A slice of its own. -/
  | newTags (ts : List L)
  | newNames (ns : List Bytes)
  /-- /repo/bundle.go:135 `Domains`. -/
  | domains
  /-- /repo/bundle.go:141-143 `SupportedLanguages`. -/
  | supportedLanguages
  /-- /repo/localizer.go:110-113 `Localizer.Domains`, of a localizer of the language. -/
  | localizerDomains (lang : L)

/-- A write within the capacity; outside of it Go panics before anything is written. -/
def writeSlice {α : Type} (A : Arrays α) (s : Slice) (k : Nat) (x : α) : Arrays α :=
  if k < s.cap then writeAt A s.arr (s.off + k) [x] else A

/-- One step of a client.  `slices.Clone`, `make` and `AppendSeq` make new arrays. -/
def Step.run (room : Room L) (b : Stored L N) (m : Memory L) (c : Client) : Step L → Memory L × Client
  | .writeTag i k t => match c.tags[i]? with
    | some s => ({ m with tags := writeSlice m.tags s k t }, c)
    | none => (m, c)
  | .writeName i k n => match c.names[i]? with
    | some s => ({ m with names := writeSlice m.names s k n }, c)
    | none => (m, c)
  | .newTags ts =>
    let (A, s) := makeSlice m.tags ts (room.tags ts.length)
    ({ m with tags := A }, { c with tags := s :: c.tags })
  | .newNames ns =>
    let (A, s) := makeSlice m.names ns (room.names ns.length)
    ({ m with names := A }, { c with names := s :: c.names })
  | .domains =>
    let ns := (b.view m).domainList
    let (A, s) := makeSlice m.names ns (room.names ns.length)
    ({ m with names := A }, { c with names := s :: c.names })
  | .supportedLanguages =>
    let (A, s) := makeSlice m.tags (b.view m).supportedLanguages []
    ({ m with tags := A }, { c with tags := s :: c.tags })
  | .localizerDomains lang =>
    let ns := (newLocalizerFromTag (b.view m) [] (some lang)).domainList
    let (A, s) := makeSlice m.names ns []
    ({ m with names := A }, { c with names := s :: c.names })

/-- Any number of steps. -/
def runSteps (room : Room L) (b : Stored L N) : Memory L → Client → List (Step L) → Memory L × Client
  | m, c, [] => (m, c)
  | m, c, s :: ss => runSteps room b (s.run room b m c).1 (s.run room b m c).2 ss

/-- /repo/bundle.go:115-116: printer and maker of the matcher are given the languages; `keep` says whether one keeps them. -/
def Client.given (c : Client) (b : Stored L N) (keep : Bool) : Client :=
  if keep then { c with tags := b.languages :: c.tags } else c

end Verif.Model.Spreak
