import Verif.Model.Spreak.Bundle
/-!
# C39-C42, C67: lookups through a localizer

`L` are language tags, `N` numbers, `V` values to print; print functions, plural functions and catalogs are
arbitrary.
-/
namespace Verif.Props.Localizer
open Verif.Go Verif.Model.Spreak

variable {L N V : Type} [DecidableEq L]

/-! ## What a locale offers -/

/-- The text a locale has for a message. -/
inductive Offers (w : World L N V) (l : Locale L N) (domain ctx id : Bytes) (vars : List V) : Bytes → Prop
  | source : l.isSource = true → Offers w l domain ctx id vars (w.print l.language id vars)
  | translation {cat : Catalog L N} {t : Bytes} : l.isSource = false → l.catalogs.get? domain = some (some cat) →
      cat.lookup ctx id = .ok t → Offers w l domain ctx id vars (w.print l.language t vars)

/-- The reason why a locale has no text for a message. -/
inductive Misses (l : Locale L N) (domain ctx id : Bytes) : Err L → Prop
  | domain : l.isSource = false → l.catalogs.get? domain = none → Misses l domain ctx id (.missingDomain l.language domain)
  | message {cat : Catalog L N} {e : Err L} : l.isSource = false → l.catalogs.get? domain = some (some cat) →
      cat.lookup ctx id = .error e → Misses l domain ctx id e

/-- The source text for a number: the plural text if there is one and the rule of the language asks for it. -/
inductive SourceForm (w : World L N V) (lang : L) (singular plural : Bytes) (n : N) : Bytes → Prop
  | none : plural = [] → SourceForm w lang singular plural n singular
  | error : w.plural lang n = none → SourceForm w lang singular plural n singular
  | first : w.plural lang n = some 0 → SourceForm w lang singular plural n singular
  | other {i : Int} : plural ≠ [] → w.plural lang n = some i → i ≠ 0 → SourceForm w lang singular plural n plural

/-- The text a locale has for a message and a number. -/
inductive OffersN (w : World L N V) (l : Locale L N) (domain ctx singular plural : Bytes) (n : N) (vars : List V) : Bytes → Prop
  | source {t : Bytes} : l.isSource = true → SourceForm w l.language singular plural n t →
      OffersN w l domain ctx singular plural n vars (w.print l.language t vars)
  | translation {cat : Catalog L N} {t : Bytes} : l.isSource = false → l.catalogs.get? domain = some (some cat) →
      cat.lookupPlural ctx singular n = .ok t → OffersN w l domain ctx singular plural n vars (w.print l.language t vars)

/-- The reason why a locale has no text for a message and a number. -/
inductive MissesN (l : Locale L N) (domain ctx singular : Bytes) (n : N) : Err L → Prop
  | domain : l.isSource = false → l.catalogs.get? domain = none → MissesN l domain ctx singular n (.missingDomain l.language domain)
  | message {cat : Catalog L N} {e : Err L} : l.isSource = false → l.catalogs.get? domain = some (some cat) →
      cat.lookupPlural ctx singular n = .error e → MissesN l domain ctx singular n e

/-- The catalog for the domain is not a nil interface. -/
def NonNil (l : Locale L N) (domain : Bytes) : Prop := l.isSource = false → l.catalogs.get? domain ≠ some none

theorem offers_or_misses (w : World L N V) {l : Locale L N} {domain : Bytes} (h : NonNil l domain) (ctx id : Bytes)
    (vars : List V) : (∃ t, Offers w l domain ctx id vars t) ∨ ∃ e, Misses l domain ctx id e := by
  cases hs : l.isSource with
  | true => exact Or.inl ⟨_, .source hs⟩
  | false =>
    cases hc : l.catalogs.get? domain with
    | none => exact Or.inr ⟨_, .domain hs hc⟩
    | some c =>
      cases c with
      | none => exact absurd hc (h hs)
      | some cat =>
        cases ht : cat.lookup ctx id with
        | ok t => exact Or.inl ⟨_, .translation hs hc ht⟩
        | error e => exact Or.inr ⟨_, .message hs hc ht⟩

theorem sourceForm_total (w : World L N V) (lang : L) (singular plural : Bytes) (n : N) :
    ∃ t, SourceForm w lang singular plural n t := by
  cases hp : w.plural lang n with
  | none => exact ⟨_, .error hp⟩
  | some i =>
    by_cases hi : i = 0
    · subst hi; exact ⟨_, .first hp⟩
    · by_cases he : plural = []
      · exact ⟨_, .none he⟩
      · exact ⟨_, .other he hp hi⟩

theorem offersN_or_misses (w : World L N V) {l : Locale L N} {domain : Bytes} (h : NonNil l domain)
    (ctx singular plural : Bytes) (n : N) (vars : List V) :
    (∃ t, OffersN w l domain ctx singular plural n vars t) ∨ ∃ e, MissesN l domain ctx singular n e := by
  cases hs : l.isSource with
  | true =>
    obtain ⟨t, ht⟩ := sourceForm_total w l.language singular plural n
    exact Or.inl ⟨_, .source hs ht⟩
  | false =>
    cases hc : l.catalogs.get? domain with
    | none => exact Or.inr ⟨_, .domain hs hc⟩
    | some c =>
      cases c with
      | none => exact absurd hc (h hs)
      | some cat =>
        cases ht : cat.lookupPlural ctx singular n with
        | ok t => exact Or.inl ⟨_, .translation hs hc ht⟩
        | error e => exact Or.inr ⟨_, .message hs hc ht⟩

theorem lookup_offers {w : World L N V} {l : Locale L N} {domain ctx id t : Bytes} {vars : List V}
    (h : Offers w l domain ctx id vars t) (cb : Bool) : l.lookupSingular w cb domain ctx id vars = .ok ([], .ok t) := by
  unfold Locale.lookupSingular
  cases h with
  | source hs => rw [if_pos hs]
  | translation hs hc ht => rw [if_neg (by rw [hs]; decide), hc]; simp only [ht]

theorem lookup_misses (w : World L N V) {l : Locale L N} {domain ctx id : Bytes} (vars : List V) {e : Err L}
    (h : Misses l domain ctx id e) (cb : Bool) :
    l.lookupSingular w cb domain ctx id vars = .ok (report cb e, .error e) := by
  unfold Locale.lookupSingular
  cases h with
  | domain hs hc => rw [if_neg (by rw [hs]; decide), hc]
  | message hs hc ht => rw [if_neg (by rw [hs]; decide), hc]; simp only [ht]

/-- The report of a plural function that refuses the number; only the source locale makes it. -/
def pluralReport (w : World L N V) (cb : Bool) (l : Locale L N) (n : N) : List (Err L) :=
  if l.isSource = true ∧ w.plural l.language n = none then report cb .plural else []

theorem printSource_eq {w : World L N V} {l : Locale L N} {singular plural t : Bytes} {n : N}
    (h : SourceForm w l.language singular plural n t) (hs : l.isSource = true) (cb : Bool) (vars : List V) :
    l.printSource w cb singular plural n vars = (pluralReport w cb l n, w.print l.language t vars) := by
  unfold Locale.printSource pluralReport
  cases h with
  | none he =>
    simp only [he, or_true, if_true, hs, true_and]
    cases hp : w.plural l.language n <;> simp
  | error he => simp [he, hs]
  | first he => simp [he, hs]
  | other he hp hi => simp [he, hp, hi]

theorem lookup_offersN {w : World L N V} {l : Locale L N} {domain ctx singular plural t : Bytes} {n : N} {vars : List V}
    (h : OffersN w l domain ctx singular plural n vars t) (cb : Bool) :
    l.lookupPlural w cb domain ctx singular plural n vars = .ok (pluralReport w cb l n, .ok t) := by
  unfold Locale.lookupPlural
  cases h with
  | source hs ht => rw [if_pos hs, printSource_eq ht hs]
  | translation hs hc ht =>
    rw [if_neg (by rw [hs]; decide), hc]
    simp only [ht]
    rw [pluralReport, if_neg (fun h => by rw [hs] at h; exact absurd h.1 (by decide))]

theorem lookup_missesN (w : World L N V) {l : Locale L N} {domain ctx singular : Bytes} (plural : Bytes) {n : N}
    (vars : List V) {e : Err L} (h : MissesN l domain ctx singular n e) (cb : Bool) :
    l.lookupPlural w cb domain ctx singular plural n vars = .ok (report cb e, .error e) := by
  unfold Locale.lookupPlural
  cases h with
  | domain hs hc => rw [if_neg (by rw [hs]; decide), hc]
  | message hs hc ht => rw [if_neg (by rw [hs]; decide), hc]; simp only [ht]

/-- What `NewBundle` guarantees (`C43_localizer_sane`): the source locale serves the source texts, and locales
for the same language are the same. -/
structure Sane (l : Localizer L N) : Prop where
  source : l.bundle.source.isSource = true
  same : l.locale.language = l.bundle.fallback.language → l.locale = l.bundle.fallback

/-! ## A small bundle for the examples -/

def demoWorld : World Nat Int Unit where
  und := 0
  print := fun _ s _ => s
  plural := fun _ n => if n < 0 then none else some (if n = 1 then 0 else 1)
  parse := fun _ => none

/-- A catalog with one message. -/
def oneMessage (id one many : Bytes) : Catalog Nat Int where
  lookup := fun _ m => if m = id then .ok one else .error (.catalog 1)
  lookupPlural := fun _ m n => if m = id then .ok (if n = 1 then one else many) else .error (.catalog 1)

/-- Language 1 is the source, 2 the fallback, 3 the language of the localizer. -/
def demoBundle : Bundle Nat Int where
  callback := true
  defaultDomain := []
  errContext := b!"errors"
  fallback := ⟨2, [([], some (oneMessage b!"b" b!"B2" b!"B2s"))], false⟩
  source := ⟨1, [], true⟩
  languages := [1, 2, 3]
  locales := [(1, ⟨1, [], true⟩), (2, ⟨2, [([], some (oneMessage b!"b" b!"B2" b!"B2s"))], false⟩),
    (3, ⟨3, [([], some (oneMessage b!"a" b!"A3" b!"A3s"))], false⟩)]
  domains := [[]]

/-- A localizer for language 3. -/
def demo : Localizer Nat Int := newLocalizerFromTag demoBundle [] (some 3)

theorem demo_sane : Sane demo := ⟨rfl, fun h => absurd h (by decide)⟩

/-! ## C39 -/

/-- A translation (or source text) of the own locale is returned. -/
theorem C39_own {w : World L N V} {l : Localizer L N} {domain ctx id t : Bytes} {vars : List V}
    (h : Offers w l.locale domain ctx id vars t) :
    ∃ e, l.lookupSingular w domain ctx id vars = .ok ([], t, e) := by
  unfold Localizer.lookupSingular
  rw [lookup_offers h]
  exact ⟨_, rfl⟩

/-- Otherwise that of the fallback locale. -/
theorem C39_fallback {w : World L N V} {l : Localizer L N} (hl : Sane l) {domain ctx id t : Bytes} {vars : List V} {e : Err L}
    (h : Misses l.locale domain ctx id e) (hf : Offers w l.bundle.fallback domain ctx id vars t) :
    ∃ tr, l.lookupSingular w domain ctx id vars = .ok (tr, t, some e) := by
  unfold Localizer.lookupSingular
  rw [lookup_misses w vars h]
  by_cases hne : l.locale.language = l.bundle.fallback.language
  · have heq := hl.same hne
    rw [heq] at h
    have h1 := lookup_misses w vars h true
    rw [lookup_offers hf] at h1
    cases h1
  · simp only [if_pos (show l.locale.language ≠ l.bundle.fallback.language from hne), lookup_offers hf]
    exact ⟨_, rfl⟩

/-- Otherwise the source text. -/
theorem C39_source {w : World L N V} {l : Localizer L N} (hl : Sane l) {domain ctx id : Bytes} {vars : List V} {e e' : Err L}
    (h : Misses l.locale domain ctx id e) (hf : Misses l.bundle.fallback domain ctx id e') :
    ∃ tr, l.lookupSingular w domain ctx id vars =
      .ok (tr, w.print l.bundle.source.language id vars, some e) := by
  unfold Localizer.lookupSingular
  have hs := lookup_offers (w := w) (domain := domain) (ctx := ctx) (id := id) (vars := vars)
    (Offers.source (l := l.bundle.source) hl.source) l.bundle.callback
  rw [lookup_misses w vars h]
  by_cases hne : l.locale.language = l.bundle.fallback.language
  · simp only [if_neg (show ¬ l.locale.language ≠ l.bundle.fallback.language from fun x => x hne), hs]
    exact ⟨_, rfl⟩
  · simp only [if_pos (show l.locale.language ≠ l.bundle.fallback.language from hne), lookup_misses w vars hf, hs]
    exact ⟨_, rfl⟩

/-- The same for plural lookups: the own locale … -/
theorem C39_own_plural {w : World L N V} {l : Localizer L N} {domain ctx s p t : Bytes} {n : N} {vars : List V}
    (h : OffersN w l.locale domain ctx s p n vars t) :
    ∃ tr e, l.lookupPlural w domain ctx s p n vars = .ok (tr, t, e) := by
  unfold Localizer.lookupPlural
  rw [lookup_offersN h]
  exact ⟨_, _, rfl⟩

/-- … the fallback locale … -/
theorem C39_fallback_plural {w : World L N V} {l : Localizer L N} {domain ctx s p t : Bytes} {n : N} {vars : List V}
    {e : Err L} (h : MissesN l.locale domain ctx s n e) (hf : OffersN w l.bundle.fallback domain ctx s p n vars t) :
    ∃ tr, l.lookupPlural w domain ctx s p n vars = .ok (tr, t, some e) := by
  unfold Localizer.lookupPlural
  rw [lookup_missesN w p vars h]
  simp only [lookup_offersN hf]
  exact ⟨_, rfl⟩

/-- … the source text, singular or plural as the rule of the source language says. -/
theorem C39_source_plural {w : World L N V} {l : Localizer L N} (hl : Sane l) {domain ctx s p t : Bytes} {n : N}
    {vars : List V} {e e' : Err L} (h : MissesN l.locale domain ctx s n e)
    (hf : MissesN l.bundle.fallback domain ctx s n e') (ht : SourceForm w l.bundle.source.language s p n t) :
    ∃ tr, l.lookupPlural w domain ctx s p n vars = .ok (tr, w.print l.bundle.source.language t vars, some e) := by
  unfold Localizer.lookupPlural
  have hs := lookup_offersN (OffersN.source (l := l.bundle.source) (domain := domain) (ctx := ctx) (vars := vars) hl.source ht)
    l.bundle.callback
  rw [lookup_missesN w p vars h]
  simp only [lookup_missesN w p vars hf, hs]
  exact ⟨_, rfl⟩

example : Offers demoWorld demo.locale [] [] b!"a" [] b!"A3" ∧
    (∃ e, Misses demo.locale [] [] b!"b" e) ∧ Offers demoWorld demo.bundle.fallback [] [] b!"b" [] b!"B2" ∧
    (∃ e, Misses demo.locale [] [] b!"c" e) ∧ (∃ e, Misses demo.bundle.fallback [] [] b!"c" e) ∧
    SourceForm demoWorld 1 b!"c" b!"cs" 5 b!"cs" :=
  ⟨.translation rfl rfl rfl, ⟨_, .message rfl rfl rfl⟩, .translation rfl rfl rfl, ⟨_, .message rfl rfl rfl⟩,
    ⟨_, .message rfl rfl rfl⟩, .other (by decide) rfl (by decide)⟩

example : demo.nGet demoWorld b!"c" b!"cs" 5 = .ok ([.catalog 1, .catalog 1], b!"cs") ∧
    demo.nGet demoWorld b!"a" b!"as" 1 = .ok ([], b!"A3") ∧
    demo.get demoWorld b!"b" = .ok ([.catalog 1], b!"B2") := by decide

/-! ## C40 -/

/-- If no catalog is a nil interface, a singular lookup returns a text, and it reports no error exactly if the
localizer has a locale of its own that has the text. -/
theorem C40_text_partial (w : World L N V) {l : Localizer L N} (hl : Sane l) (domain ctx id : Bytes) (vars : List V)
    (h1 : NonNil l.locale domain) (h2 : NonNil l.bundle.fallback domain) :
    ∃ tr t e, l.lookupSingular w domain ctx id vars = .ok (tr, t, e) ∧
      (e = none ↔ l.localeFound = true ∧ ∃ t', Offers w l.locale domain ctx id vars t') := by
  rcases offers_or_misses w h1 ctx id vars with ⟨t, ht⟩ | ⟨e, he⟩
  · have hres : l.lookupSingular w domain ctx id vars =
        .ok ([], t, if l.localeFound then none else some .missingLocale) := by
      unfold Localizer.lookupSingular; rw [lookup_offers ht]
    refine ⟨_, _, _, hres, ?_⟩
    cases hlf : l.localeFound with
    | true => exact ⟨fun _ => ⟨rfl, t, ht⟩, fun _ => rfl⟩
    | false => exact ⟨(fun h => nomatch h), (fun h => nomatch h.1)⟩
  · have hno : ¬ ∃ t', Offers w l.locale domain ctx id vars t' := by
      rintro ⟨t', ht'⟩
      have h1 := lookup_misses w vars he true
      rw [lookup_offers ht'] at h1; cases h1
    rcases offers_or_misses w h2 ctx id vars with ⟨t, ht⟩ | ⟨e', he'⟩
    · obtain ⟨tr, h⟩ := C39_fallback hl he ht
      exact ⟨_, _, _, h, (fun h => nomatch h), fun h => absurd h.2 hno⟩
    · obtain ⟨tr, h⟩ := C39_source (w := w) (vars := vars) hl he he'
      exact ⟨_, _, _, h, (fun h => nomatch h), fun h => absurd h.2 hno⟩

/-- The same for plural lookups. -/
theorem C40_text_plural_partial (w : World L N V) {l : Localizer L N} (hl : Sane l) (domain ctx s p : Bytes) (n : N)
    (vars : List V) (h1 : NonNil l.locale domain) (h2 : NonNil l.bundle.fallback domain) :
    ∃ tr t e, l.lookupPlural w domain ctx s p n vars = .ok (tr, t, e) ∧
      (e = none ↔ l.localeFound = true ∧ ∃ t', OffersN w l.locale domain ctx s p n vars t') := by
  rcases offersN_or_misses w h1 ctx s p n vars with ⟨t, ht⟩ | ⟨e, he⟩
  · have hres : l.lookupPlural w domain ctx s p n vars =
        .ok (pluralReport w l.bundle.callback l.locale n, t, if l.localeFound then none else some .missingLocale) := by
      unfold Localizer.lookupPlural; rw [lookup_offersN ht]
    refine ⟨_, _, _, hres, ?_⟩
    cases hlf : l.localeFound with
    | true => exact ⟨fun _ => ⟨rfl, t, ht⟩, fun _ => rfl⟩
    | false => exact ⟨(fun h => nomatch h), (fun h => nomatch h.1)⟩
  · have hno : ¬ ∃ t', OffersN w l.locale domain ctx s p n vars t' := by
      rintro ⟨t', ht'⟩
      have h1 := lookup_missesN w p vars he true
      rw [lookup_offersN ht'] at h1
      injection h1 with h1; injection h1 with _ h2; cases h2
    rcases offersN_or_misses w h2 ctx s p n vars with ⟨t, ht⟩ | ⟨e', he'⟩
    · obtain ⟨tr, h⟩ := C39_fallback_plural he ht
      exact ⟨_, _, _, h, (fun h => nomatch h), fun h => absurd h.2 hno⟩
    · obtain ⟨t, ht⟩ := sourceForm_total w l.bundle.source.language s p n
      obtain ⟨tr, h⟩ := C39_source_plural (vars := vars) hl he he' ht
      exact ⟨_, _, _, h, (fun h => nomatch h), fun h => absurd h.2 hno⟩

example : NonNil demo.locale [] ∧ NonNil demo.bundle.fallback [] := ⟨fun _ h => (nomatch h), fun _ h => (nomatch h)⟩

/-- A nil catalog, as the JSON decoder returns for the file `null` (C66), makes every lookup panic. -/
theorem C40_negation (ctx id : Bytes) (vars : List Unit) :
    (⟨demoBundle, ⟨3, [([], none)], false⟩, [], true⟩ : Localizer Nat Int).lookupSingular demoWorld [] ctx id vars =
      .error .nilDereference := rfl

/-! ## C41 -/

/-- Reports of a singular lookup: one for the own locale if it misses the message, one for the fallback locale if
it is consulted, is another one and misses the message too, and nothing else. -/
theorem C41_singular (w : World L N V) {l : Localizer L N} (hl : Sane l) (domain ctx id : Bytes) (vars : List V) :
    (∀ t, Offers w l.locale domain ctx id vars t →
      ∃ r, l.lookupSingular w domain ctx id vars = .ok ([], r)) ∧
    (∀ e t, Misses l.locale domain ctx id e → Offers w l.bundle.fallback domain ctx id vars t →
      ∃ r, l.lookupSingular w domain ctx id vars = .ok (report l.bundle.callback e, r)) ∧
    (∀ e e', Misses l.locale domain ctx id e → Misses l.bundle.fallback domain ctx id e' →
      ∃ r, l.lookupSingular w domain ctx id vars = .ok (report l.bundle.callback e ++
        (if l.locale.language = l.bundle.fallback.language then [] else report l.bundle.callback e'), r)) := by
  refine ⟨fun t h => ?_, fun e t h hf => ?_, fun e e' h hf => ?_⟩
  · obtain ⟨e, h⟩ := C39_own h; exact ⟨_, h⟩
  · unfold Localizer.lookupSingular
    rw [lookup_misses w vars h]
    by_cases hne : l.locale.language = l.bundle.fallback.language
    · rw [hl.same hne] at h
      have h1 := lookup_misses w vars h true
      rw [lookup_offers hf] at h1; cases h1
    · simp only [if_pos (show l.locale.language ≠ l.bundle.fallback.language from hne), lookup_offers hf, List.append_nil]
      exact ⟨_, rfl⟩
  · unfold Localizer.lookupSingular
    have hs := lookup_offers (w := w) (domain := domain) (ctx := ctx) (id := id) (vars := vars)
      (Offers.source (l := l.bundle.source) hl.source) l.bundle.callback
    rw [lookup_misses w vars h]
    by_cases hne : l.locale.language = l.bundle.fallback.language
    · simp only [if_neg (show ¬ l.locale.language ≠ l.bundle.fallback.language from fun x => x hne), hs, if_pos hne]
      exact ⟨_, rfl⟩
    · simp only [if_pos (show l.locale.language ≠ l.bundle.fallback.language from hne), lookup_misses w vars hf, hs,
        if_neg hne, List.append_nil]
      exact ⟨_, rfl⟩

/-- Reports of a plural lookup, if the own locale is not the fallback locale. -/
theorem C41_plural_partial (w : World L N V) {l : Localizer L N} (hl : Sane l) (domain ctx s p : Bytes) (n : N)
    (vars : List V) (hne : l.locale.language ≠ l.bundle.fallback.language)
    (hnum : ∀ lang, w.plural lang n ≠ none) :
    (∀ t, OffersN w l.locale domain ctx s p n vars t →
      ∃ r, l.lookupPlural w domain ctx s p n vars = .ok ([], r)) ∧
    (∀ e t, MissesN l.locale domain ctx s n e → OffersN w l.bundle.fallback domain ctx s p n vars t →
      ∃ r, l.lookupPlural w domain ctx s p n vars = .ok (report l.bundle.callback e, r)) ∧
    (∀ e e', MissesN l.locale domain ctx s n e → MissesN l.bundle.fallback domain ctx s n e' →
      ∃ r, l.lookupPlural w domain ctx s p n vars = .ok (report l.bundle.callback e ++
        (if l.locale.language = l.bundle.fallback.language then [] else report l.bundle.callback e'), r)) := by
  have hpr : ∀ cb (x : Locale L N), pluralReport w cb x n = [] := by
    intro cb x; unfold pluralReport; rw [if_neg (fun h => hnum _ h.2)]
  refine ⟨fun t h => ?_, fun e t h hf => ?_, fun e e' h hf => ?_⟩
  · unfold Localizer.lookupPlural; rw [lookup_offersN h, hpr]; exact ⟨_, rfl⟩
  · unfold Localizer.lookupPlural
    rw [lookup_missesN w p vars h]
    simp only [lookup_offersN hf, hpr, List.append_nil]
    exact ⟨_, rfl⟩
  · obtain ⟨t, ht⟩ := sourceForm_total w l.bundle.source.language s p n
    have hs := lookup_offersN (OffersN.source (l := l.bundle.source) (domain := domain) (ctx := ctx) (vars := vars)
      hl.source ht) l.bundle.callback
    unfold Localizer.lookupPlural
    rw [lookup_missesN w p vars h]
    simp only [lookup_missesN w p vars hf, hs, hpr, List.append_nil, if_neg hne]
    exact ⟨_, rfl⟩

example : demo.locale.language ≠ demo.bundle.fallback.language ∧ ∀ lang, demoWorld.plural lang 5 ≠ none :=
  ⟨by decide, fun _ h => (nomatch h)⟩

/-- A localizer for the fallback language reports a missing plural message twice, a singular one once. -/
theorem C41_negation : (newLocalizerFromTag demoBundle [] (some 2)).nGet demoWorld b!"c" b!"cs" 5 =
      .ok ([.catalog 1, .catalog 1], b!"cs") ∧
    (newLocalizerFromTag demoBundle [] (some 2)).get demoWorld b!"c" = .ok ([.catalog 1], b!"c") := by decide

/-! ## C42 -/

/-- `Localize` of a message without plural text is the Get method with its parts. -/
theorem C42_singular (w : World L N V) (l : Localizer L N) (d c id : Bytes) (vars : List V) (n : N) :
    l.localize w (some ⟨id, [], [], [], n, none⟩) = l.get w id ∧
    l.localize w (some ⟨id, [], [], vars, n, none⟩) = l.getf w id vars ∧
    l.localize w (some ⟨id, [], [], [], n, some d⟩) = l.dGet w d id ∧
    l.localize w (some ⟨id, [], [], vars, n, some d⟩) = l.dGetf w d id vars ∧
    l.localize w (some ⟨id, [], c, [], n, none⟩) = l.pGet w c id ∧
    l.localize w (some ⟨id, [], c, vars, n, none⟩) = l.pGetf w c id vars ∧
    l.localize w (some ⟨id, [], c, [], n, some d⟩) = l.dpGet w d c id ∧
    l.localize w (some ⟨id, [], c, vars, n, some d⟩) = l.dpGetf w d c id vars :=
  ⟨rfl, rfl, rfl, rfl, rfl, rfl, rfl, rfl⟩

/-- `Localize` of a message with a plural text is the NGet method with its parts. -/
theorem C42_plural (w : World L N V) (l : Localizer L N) (d c id p : Bytes) (hp : p ≠ []) (vars : List V) (n : N) :
    l.localize w (some ⟨id, p, [], [], n, none⟩) = l.nGet w id p n ∧
    l.localize w (some ⟨id, p, [], vars, n, none⟩) = l.nGetf w id p n vars ∧
    l.localize w (some ⟨id, p, [], [], n, some d⟩) = l.dnGet w d id p n ∧
    l.localize w (some ⟨id, p, [], vars, n, some d⟩) = l.dnGetf w d id p n vars ∧
    l.localize w (some ⟨id, p, c, [], n, none⟩) = l.npGet w c id p n ∧
    l.localize w (some ⟨id, p, c, vars, n, none⟩) = l.npGetf w c id p n vars ∧
    l.localize w (some ⟨id, p, c, [], n, some d⟩) = l.dnpGet w d c id p n ∧
    l.localize w (some ⟨id, p, c, vars, n, some d⟩) = l.dnpGetf w d c id p n vars := by
  refine ⟨?_, ?_, ?_, ?_, ?_, ?_, ?_, ?_⟩ <;>
    (unfold Localizer.localize Localizer.localizeWithError; simp only [if_pos hp]; rfl)

example : demo.localize demoWorld (some ⟨b!"a", b!"as", [], [], 2, none⟩) = .ok ([], b!"A3s") := by decide

/-- `Localize` gives the text of `LocalizeWithError`. -/
theorem C42_same_text (w : World L N V) (l : Localizer L N) (m : Option (Localizable N V)) {tr : List (Err L)} {t : Bytes}
    {e : Option (Err L)} (h : l.localizeWithError w m = .ok (tr, t, e)) : l.localize w m = .ok (tr, t) := by
  unfold Localizer.localize text; rw [h]

/-- A plural message whose plural text is empty is looked up as a singular one: with a catalog that knows the
plural forms, `Localize` and `NGet` differ. -/
theorem C42_empty_plural : demo.localize demoWorld (some ⟨b!"a", [], [], [], 5, none⟩) = .ok ([], b!"A3") ∧
    demo.nGet demoWorld b!"a" [] 5 = .ok ([], b!"A3s") := by decide

/-! ## C67 -/

/-- `LocalizeError` returns the error itself or wraps it with the text that the lookup returns without error. -/
theorem C67_result (w : World L N V) (l : Localizer L N) (e : GoError N V) (tr : List (Err L)) (t : Bytes) :
    l.localizeError w e = .ok (tr, .translated t) ↔
      (match e.localizable with
       | some v => l.localizeWithError w (some v)
       | none => l.lookupSingular w l.defaultDomain l.bundle.errContext e.message []) = .ok (tr, t, none) := by
  have key : ∀ r : Traced L (Bytes × Option (Err L)),
      ((match r with
        | .error f => .error f
        | .ok (t, _, some _) => .ok (t, .original)
        | .ok (t, s, none) => .ok (t, .translated s) : Traced L ErrorResult) = .ok (tr, .translated t)) ↔
      r = .ok (tr, t, none) := by
    intro r
    cases r with
    | error f => exact ⟨(fun h => nomatch h), (fun h => nomatch h)⟩
    | ok r =>
      obtain ⟨a, b, c⟩ := r
      cases c with
      | some x => exact ⟨(fun h => nomatch h), (fun h => nomatch h)⟩
      | none =>
        constructor
        · intro h; cases h; rfl
        · intro h; cases h; rfl
  exact key _

example : demo.localizeError demoWorld ⟨b!"a", none⟩ = .ok ([], .translated b!"A3") ∧
    demo.localizeError demoWorld ⟨b!"b", none⟩ = .ok ([.catalog 1], .original) := by decide

/-! ## C70 -/

/-- A key that no catalog has is returned as it is, whatever the number. -/
theorem C70_missing_key {w : World L N V} {k : KeyLocalizer L N} (hl : Sane k.localizer) {domain : Option Bytes}
    {ctx key : Bytes} {n : N} {vars : List V} {e e' : Err L}
    (h : MissesN k.localizer.locale (domain.getD k.localizer.defaultDomain) ctx key n e)
    (hf : MissesN k.localizer.bundle.fallback (domain.getD k.localizer.defaultDomain) ctx key n e') :
    ∃ tr, k.plural w domain ctx key n vars = .ok (tr, w.print k.localizer.bundle.source.language key vars) := by
  have hsf : SourceForm w k.localizer.bundle.source.language key key n key := by
    obtain ⟨t, ht⟩ := sourceForm_total w k.localizer.bundle.source.language key key n
    have : t = key := by cases ht <;> rfl
    rw [← this] at ht ⊢
    rwa [this] at ht ⊢
  obtain ⟨tr, ht⟩ := C39_source_plural (vars := vars) hl h hf hsf
  exact ⟨tr, by unfold KeyLocalizer.plural text; rw [ht]⟩

/-- A key that the catalog of the own locale has gives its text for the number. -/
theorem C70_known_key {w : World L N V} {k : KeyLocalizer L N} {domain : Option Bytes} {ctx key t : Bytes} {n : N}
    {vars : List V} {cat : Catalog L N} (hs : k.localizer.locale.isSource = false)
    (hc : k.localizer.locale.catalogs.get? (domain.getD k.localizer.defaultDomain) = some (some cat))
    (ht : cat.lookupPlural ctx key n = .ok t) :
    ∃ tr, k.plural w domain ctx key n vars = .ok (tr, w.print k.localizer.locale.language t vars) := by
  obtain ⟨tr, e, h⟩ := C39_own_plural (w := w) (l := k.localizer) (p := key) (vars := vars) (.translation hs hc ht)
  exact ⟨tr, by unfold KeyLocalizer.plural text; rw [h]⟩

example : (⟨demo⟩ : KeyLocalizer Nat Int).plural demoWorld none [] b!"c" 5 [] = .ok ([.catalog 1, .catalog 1], b!"c") ∧
    (⟨demo⟩ : KeyLocalizer Nat Int).plural demoWorld none [] b!"a" 5 [] = .ok ([], b!"A3s") := by decide

end Verif.Props.Localizer
