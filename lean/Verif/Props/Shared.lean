import Verif.Proofs.Spreak.Shared
import Verif.Props.Bundle
/-!
# C110: a bundle cannot be edited after creation

`c` are the slices that callers, printer and matcher hold, `ss` what they do.
-/
namespace Verif.Props.Shared
open Verif.Go Verif.Model.Spreak Verif.Proofs.Spreak Verif.Props.Localizer Verif.Props.Bundle

variable {L N V : Type} [DecidableEq L]

/-- The slices that are held lie in their arrays. -/
def Held (m : Memory L) (c : Client) : Prop := (∀ s ∈ c.tags, s.Ok m.tags) ∧ ∀ s ∈ c.names, s.Ok m.names

/-- **C110.** If neither the printer nor the maker of the matcher keeps the slice of languages, then whatever is done with the results
of `Domains` and `SupportedLanguages` and with any other slices, the bundle stays the one that was created. -/
theorem C110_unchanged (room : Room L) (free : List Bytes) (m : Memory L) (B : Bundle L N) (c : Client) (hc : Held m c)
    (ss : List (Step L)) :
    let r := store room free m B
    r.2.view (runSteps room r.2 r.1 (c.given r.2 false) ss).1 = B := by
  obtain ⟨h1, h2, h3⟩ := store_spec room free m B c hc.1 hc.2
  obtain ⟨a1, a2, a3⟩ := runSteps_kept room ss h2
  show ({ (store room free m B).2.rest with languages := _, domains := _ } : Bundle L N) = B
  rw [show (c.given (store room free m B).2 false) = c from rfl, (a3 h3).2, a2]
  exact h1

/-- **C110.** If one of them keeps it, then still only the languages can change, and not their number. -/
theorem C110_kept (room : Room L) (free : List Bytes) (m : Memory L) (B : Bundle L N) (c : Client) (hc : Held m c)
    (ss : List (Step L)) :
    let r := store room free m B
    ∃ ls, ls.length = B.languages.length ∧
      r.2.view (runSteps room r.2 r.1 (c.given r.2 true) ss).1 = { B with languages := ls } := by
  obtain ⟨h1, h2, _⟩ := store_spec room free m B c hc.1 hc.2
  obtain ⟨ls, e1, e2⟩ := view_of_kept room ss (given_kept h2 true)
  rw [h1] at e1 e2
  exact ⟨ls, e1, e2⟩

/-- **C110.** Then no new localizer panics that did not before, domains, supported languages and default domain are as before, and a
localizer uses a locale of the bundle or the fallback. -/
theorem C110_kept_localizer (al : Bytes → Option (List L)) (mt : List L → Option Nat) {B : Bundle L N} {ls : List L}
    (hl : ls.length = B.languages.length) (d : Bytes) (langs : List (Accept L)) {l : Localizer L N}
    (h : newLocalizerForDomain al mt B d langs = .ok l) :
    ∃ l', newLocalizerForDomain al mt { B with languages := ls } d langs = .ok l' ∧ l'.defaultDomain = l.defaultDomain ∧
      ((l'.localeFound = true ∧ ∃ t ∈ ls, B.locales.get? t = some l'.locale) ∨ l'.localeFound = false ∧ l'.locale = B.fallback) := by
  unfold newLocalizerForDomain at *
  cases hm : mt (acceptTags al langs) with
  | none =>
    rw [hm] at h
    cases h
    exact ⟨_, rfl, rfl, .inr ⟨rfl, rfl⟩⟩
  | some i =>
    rw [hm] at h
    simp only [] at h ⊢
    cases hi : B.languages[i]? with
    | none => rw [hi] at h; cases h
    | some t =>
      rw [hi] at h
      cases h
      have hlt : i < ls.length := by
        rw [hl]; exact (List.getElem?_eq_some_iff.mp hi).1
      rw [List.getElem?_eq_getElem hlt]
      refine ⟨_, rfl, ?_, ?_⟩
      · simp only [newLocalizerFromTag]
        repeat' split
        all_goals rfl
      · simp only [newLocalizerFromTag, Option.bind_some]
        cases hg : B.locales.get? ls[i] with
        | none => exact .inr ⟨rfl, rfl⟩
        | some lc => exact .inl ⟨rfl, _, List.getElem_mem hlt, hg⟩

/-! ### A printer that keeps the slice -/

/-- A bundle with the languages 2 and 3. -/
def two : Bundle Nat Int where
  callback := false
  defaultDomain := []
  errContext := []
  fallback := ⟨0, [], true⟩
  source := ⟨0, [], true⟩
  languages := [2, 3]
  locales := [(2, ⟨2, [(b!"d", none)], false⟩), (3, ⟨3, [(b!"d", none)], false⟩)]
  domains := [b!"d"]

def noRoom : Room Nat := ⟨fun _ => [], fun _ => []⟩

/-- The matcher finds the language 2 at its place. -/
def finds (ts : List Nat) : Option Nat := if ts = [2] then some 0 else none

/-- **C110, finding.** The documentation of `Bundle` says that it cannot be edited after its creation (/repo/bundle.go:53).  A printer
that keeps the slice given to `Init` and writes 3 into it makes a localizer for the language 2 one for the language 3. -/
theorem C110_negation : ∃ (m : Memory Nat) (c : Client) (ss : List (Step Nat)),
    Held m c ∧
      let r := store noRoom [] m two
      let B := r.2.view (runSteps noRoom r.2 r.1 (c.given r.2 true) ss).1
      (newLocalizerForDomain (fun _ => none) finds two [] [.tag 2]).map (·.language) = .ok 2 ∧
        (newLocalizerForDomain (fun _ => none) finds B [] [.tag 2]).map (·.language) = .ok 3 :=
  ⟨⟨[], []⟩, ⟨[], []⟩, [.writeTag 0 0 3], ⟨(fun _ h => nomatch h), (fun _ h => nomatch h)⟩, by decide⟩

/-- A client that writes into everything it is given, without effect on the bundle. -/
example : Held (L := Nat) ⟨[[7, 8]], []⟩ ⟨[⟨0, 0, 1, 2⟩], []⟩ ∧
    (let r := store noRoom [] ⟨[[7, 8]], []⟩ two
     let s := runSteps noRoom r.2 r.1 ⟨[⟨0, 0, 1, 2⟩], []⟩
      [.writeTag 0 1 9, .domains, .writeName 0 0 b!"x", .supportedLanguages, .writeTag 0 1 5]
     (s.2.names.map (·.get s.1.names), s.2.tags.map (·.get s.1.tags)) = ([[b!"x"]], [[2, 5], [7]]) ∧
       (r.2.view s.1).domainList = [b!"d"] ∧ (r.2.view s.1).supportedLanguages = [2, 3]) :=
  ⟨⟨by decide, fun _ h => nomatch h⟩, by decide⟩

example : ∃ l, newLocalizerForDomain (fun _ => none) finds two [] [.tag 2] = .ok l ∧ [3, 9].length = two.languages.length :=
  ⟨_, rfl, rfl⟩

end Verif.Props.Shared
