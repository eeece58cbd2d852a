import Verif.Props.Reports
import Verif.Props.BundleDomains
/-!
# C82: what bundles say, whatever the loaders return
-/
namespace Verif.Props.Reports
open Verif.Go Verif.Model.Spreak Verif.Proofs.Spreak Verif.Props.Localizer Verif.Props.Bundle

variable {L N V : Type} [DecidableEq L]

/-- The listed languages are those with a catalog and the source language, if it was set. -/
theorem C82_languages {w : World L N V} {order : Order L N} (ho : Perms order) {opts : List (Opt L N)}
    {B : Bundle L N} {es : List (Event L)} (h : newBundle w order opts = .ok (B, es)) (t : L) :
    t ∈ B.supportedLanguages ↔ ∃ loc, B.locales.get? t = some loc ∧ loc.language = t ∧
      ((t = B.source.language ∧ loc.isSource = true) ∨ (t ≠ B.source.language ∧ ∃ d c, loc.catalogs.get? d = some c)) := by
  constructor
  · intro ht
    obtain ⟨loc, hl⟩ := Option.isSome_iff_exists.mp (GoMap.get?_isSome.mpr ht)
    obtain ⟨h1, h2⟩ := C43_optional ho h hl
    refine ⟨loc, hl, h1, ?_⟩
    rcases h2 with ⟨h2, h3⟩ | ⟨_, h2, h3, _⟩
    · exact .inl ⟨h3, h2⟩
    · exact .inr ⟨h2, h3⟩
  · rintro ⟨loc, hl, _⟩
    exact GoMap.get?_isSome.mp (by rw [hl]; rfl)

/-- What a localizer of the bundle has is listed by the bundle, whatever the loaders return. -/
theorem C82_listed {w : World L N V} {order : Order L N} (ho : Perms order) {opts : List (Opt L N)}
    {B : Bundle L N} {es : List (Event L)} (h : newBundle w order opts = .ok (B, es))
    (acceptLanguage : Bytes → Option (List L)) (matcher : List L → Option Nat) (domain : Bytes)
    (langs : List (Accept L)) {l : Localizer L N}
    (hl : newLocalizerForDomain acceptLanguage matcher B domain langs = .ok l) (hf : l.hasLocale = true) {d : Bytes}
    (hd : l.hasDomain d = true) : d ∈ B.domainList := by
  obtain ⟨_, hdom, _⟩ := C69_domains ho h
  obtain ⟨h1, h2⟩ := C68_localizer ho h acceptLanguage matcher domain langs
  cases hm : matcher (acceptTags acceptLanguage langs) with
  | none => rw [h1 hm] at hl; cases hl; cases hf
  | some i =>
    cases ht : B.languages[i]? with
    | none => rw [newLocalizerForDomain, hm] at hl; simp only [ht] at hl; cases hl
    | some t =>
      obtain ⟨loc, _, hget, hx⟩ := h2 i t hm ht
      rw [hl] at hx
      cases hx
      obtain ⟨c, hc⟩ := Option.isSome_iff_exists.mp hd
      exact hdom d t loc c hget hc

/-- `CanLocalize` says yes if there is a catalog.  If it says yes without one, the source language is the only one in the bundle, and a
loader gives a catalog for a language that was asked for. -/
theorem C82_can_localize {w : World L N V} {order : Order L N} (ho : Perms order) {opts : List (Opt L N)}
    {B : Bundle L N} {es : List (Event L)} (h : newBundle w order opts = .ok (B, es)) :
    ((∃ t loc d c, B.locales.get? t = some loc ∧ loc.catalogs.get? d = some c) → B.canLocalize = true) ∧
    (B.canLocalize = true → (¬ ∃ t loc d c, B.locales.get? t = some loc ∧ loc.catalogs.get? d = some c) →
      (∀ t, t ∈ B.supportedLanguages ↔ t = B.source.language) ∧
      ∃ o ∈ opts, ∃ t d ld c, Asks w o t ∧ .domainLoader d (some ld) ∈ opts ∧ ld t d = .ok c) := by
  obtain ⟨_, hdom, hback⟩ := C69_domains ho h
  rw [Bundle.canLocalize, Bool.and_eq_true, decide_eq_true_eq, decide_eq_true_eq]
  constructor
  · rintro ⟨t, loc, d, c, hl, hc⟩
    exact ⟨List.length_pos_of_mem (GoMap.mem_of_get? hl), List.length_pos_of_mem (hdom d t loc c hl hc)⟩
  · rintro ⟨hlen, hlen'⟩ hno
    have hall : ∀ t, t ∈ B.supportedLanguages → t = B.source.language := by
      intro t ht
      obtain ⟨loc, hl, _, h1⟩ := (C82_languages ho h t).1 ht
      rcases h1 with h1 | ⟨_, d, c, hc⟩
      · exact h1.1
      · exact absurd ⟨t, loc, d, c, hl, hc⟩ hno
    refine ⟨fun t => ⟨hall t, ?_⟩, ?_⟩
    · rintro rfl
      obtain ⟨p, hp⟩ := List.exists_mem_of_length_pos hlen
      have hm : p.1 ∈ B.supportedLanguages := List.mem_map_of_mem hp
      rw [← hall _ hm]
      exact hm
    · obtain ⟨d, hd⟩ := List.exists_mem_of_length_pos hlen'
      obtain ⟨o, ho', t, ld, c, h1, h2, h3⟩ := hback d hd
      exact ⟨o, ho', t, d, ld, c, h1, h2, h3⟩

/-- There is such a bundle. -/
example : ∃ B es, newBundle demoWorld ident [.source 1, .domainLoader b!"a" (some (knows [2])),
    .domainLoader b!"b" (some fun t _ => .error (.missingLanguage t)), .language [.tag 2]] = .ok (B, es) ∧ B.canLocalize = true :=
  ⟨_, _, rfl, rfl⟩

end Verif.Props.Reports
