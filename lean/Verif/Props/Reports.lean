import Verif.Model.Spreak.Accessors
import Verif.Props.Bundle
/-!
# C82: what bundles and localizers say about themselves is true
-/
namespace Verif.Props.Reports
open Verif.Go Verif.Model.Spreak Verif.Proofs.Spreak Verif.Props.Localizer Verif.Props.Bundle

variable {L N V : Type} [DecidableEq L]

/-- The catalogs of a locale do not pretend that a domain is missing. -/
def Honest (loc : Locale L N) : Prop :=
  ∀ d c, loc.catalogs.get? d = some (some c) → ∀ lang dom ctx id,
    c.lookup ctx id ≠ .error (.missingDomain lang dom) ∧ ∀ n, c.lookupPlural ctx id n ≠ .error (.missingDomain lang dom)

/-- The error of a singular lookup is that of the own locale. -/
theorem error_singular {w : World L N V} {l : Localizer L N} {domain ctx id : Bytes} {vars : List V}
    {tr : List (Err L)} {t : Bytes} {e : Err L} (hf : l.localeFound = true)
    (h : l.lookupSingular w domain ctx id vars = .ok (tr, t, some e)) :
    ∃ t1, l.locale.lookupSingular w l.bundle.callback domain ctx id vars = .ok (t1, .error e) := by
  rw [Localizer.lookupSingular] at h
  split at h
  · cases h
  · rw [hf] at h; cases h
  · next t1 errA he =>
    refine ⟨t1, ?_⟩
    rw [he]
    split at h
    · split at h
      · cases h
      · cases h; rfl
      · split at h
        · cases h
        · cases h; rfl
    · split at h
      · cases h
      · cases h; rfl

theorem error_plural {w : World L N V} {l : Localizer L N} {domain ctx s p : Bytes} {n : N} {vars : List V}
    {tr : List (Err L)} {t : Bytes} {e : Err L} (hf : l.localeFound = true)
    (h : l.lookupPlural w domain ctx s p n vars = .ok (tr, t, some e)) :
    ∃ t1, l.locale.lookupPlural w l.bundle.callback domain ctx s p n vars = .ok (t1, .error e) := by
  rw [Localizer.lookupPlural] at h
  split at h
  · cases h
  · rw [hf] at h; cases h
  · next t1 errA he =>
    refine ⟨t1, ?_⟩
    rw [he]
    split at h
    · cases h
    · cases h; rfl
    · split at h
      · cases h
      · cases h; rfl

/-- If `HasDomain` says yes, no lookup reports the domain as missing. -/
theorem C82_domain_present {w : World L N V} {l : Localizer L N} (hf : l.hasLocale = true) (hc : Honest l.locale)
    {domain : Bytes} (hd : l.hasDomain domain = true) (ctx id p : Bytes) (n : N) (vars : List V) {tr : List (Err L)}
    {t : Bytes} {lang : L} {dom : Bytes} :
    l.lookupSingular w domain ctx id vars ≠ .ok (tr, t, some (.missingDomain lang dom)) ∧
    l.lookupPlural w domain ctx id p n vars ≠ .ok (tr, t, some (.missingDomain lang dom)) := by
  obtain ⟨c, hget⟩ := Option.isSome_iff_exists.mp hd
  constructor
  · intro h
    obtain ⟨t1, h⟩ := error_singular hf h
    rw [Locale.lookupSingular] at h
    split at h
    · cases h
    · rw [hget] at h
      cases c with
      | none => cases h
      | some c =>
        simp only at h
        split at h
        · next e he => cases h; exact (hc domain c hget lang dom ctx id).1 he
        · cases h
  · intro h
    obtain ⟨t1, h⟩ := error_plural hf h
    rw [Locale.lookupPlural] at h
    split at h
    · cases h
    · rw [hget] at h
      cases c with
      | none => cases h
      | some c =>
        simp only at h
        split at h
        · next e he => cases h; exact (hc domain c hget lang dom ctx id).2 n he
        · cases h

/-- If `HasDomain` says no, every lookup in the domain reports exactly this domain and the language that `Language`
gives; only the source locale needs no catalogs. -/
theorem C82_domain_absent {w : World L N V} {l : Localizer L N} (hs : l.locale.isSource = false)
    {domain : Bytes} (hd : l.hasDomain domain = false) (ctx id p : Bytes) (n : N) (vars : List V) {tr : List (Err L)}
    {t : Bytes} {e : Option (Err L)} :
    (l.lookupSingular w domain ctx id vars = .ok (tr, t, e) → e = some (.missingDomain l.language domain)) ∧
    (l.lookupPlural w domain ctx id p n vars = .ok (tr, t, e) → e = some (.missingDomain l.language domain)) := by
  have hget : l.locale.catalogs.get? domain = none := by
    cases h : l.locale.catalogs.get? domain with
    | none => rfl
    | some c => rw [Localizer.hasDomain, h] at hd; cases hd
  have h1 : l.locale.lookupSingular w l.bundle.callback domain ctx id vars =
      .ok (report l.bundle.callback (.missingDomain l.locale.language domain), .error (.missingDomain l.locale.language domain)) := by
    rw [Locale.lookupSingular, if_neg (by rw [hs]; decide), hget]
  have h2 : l.locale.lookupPlural w l.bundle.callback domain ctx id p n vars =
      .ok (report l.bundle.callback (.missingDomain l.locale.language domain), .error (.missingDomain l.locale.language domain)) := by
    rw [Locale.lookupPlural, if_neg (by rw [hs]; decide), hget]
  constructor
  · intro h
    rw [Localizer.lookupSingular, h1] at h
    simp only at h
    split at h
    · split at h
      · cases h
      · cases h; rfl
      · split at h
        · cases h
        · cases h; rfl
    · split at h
      · cases h
      · cases h; rfl
  · intro h
    rw [Localizer.lookupPlural, h2] at h
    simp only at h
    split at h
    · cases h
    · cases h; rfl
    · split at h
      · cases h
      · cases h; rfl

example : demo.hasLocale = true ∧ demo.hasDomain [] = true ∧ demo.hasDomain b!"x" = false ∧ demo.locale.isSource = false ∧
    Honest demo.locale := by
  refine ⟨rfl, rfl, by decide, rfl, ?_⟩
  intro d c h lang dom ctx id
  have : c = oneMessage b!"a" b!"A3" b!"A3s" := by
    have hm := GoMap.mem_of_get? h
    have h1 := List.mem_singleton.mp hm
    cases h1; rfl
  subst this
  constructor
  · intro h; simp only [oneMessage] at h; split at h <;> cases h
  · intro n h; simp only [oneMessage] at h; split at h <;> cases h

/-- `Domains` lists exactly the domains for which `HasDomain` says yes. -/
theorem C82_domain_list (l : Localizer L N) (d : Bytes) : d ∈ l.domainList ↔ l.hasDomain d = true :=
  GoMap.get?_isSome.symm

/-- `HasLocale` is false exactly if lookups with a text of the own locale report the missing locale. -/
theorem C82_has_locale {w : World L N V} {l : Localizer L N} {domain ctx id : Bytes} {vars : List V}
    {t1 : List (Err L)} {t : Bytes} (h : l.locale.lookupSingular w l.bundle.callback domain ctx id vars = .ok (t1, .ok t)) :
    l.lookupSingular w domain ctx id vars = .ok (t1, t, if l.hasLocale = true then none else some .missingLocale) := by
  rw [Localizer.lookupSingular, h]
  rfl

example : ∃ t1 t, demo.locale.lookupSingular demoWorld demo.bundle.callback [] [] b!"a" [] = .ok (t1, .ok t) := ⟨_, _, rfl⟩

/-- A localizer made by `NewLocalizerForDomain`: it has a locale exactly if the matcher found a language; then its
language is supported; otherwise its language is that of the fallback locale. -/
theorem C82_localizer {w : World L N V} {order : Order L N} (ho : Perms order) {opts : List (Opt L N)} {B : Bundle L N}
    {es : List (Event L)} (h : newBundle w order opts = .ok (B, es)) (acceptLanguage : Bytes → Option (List L))
    (matcher : List L → Option Nat) (domain : Bytes) (langs : List (Accept L)) {l : Localizer L N}
    (hl : newLocalizerForDomain acceptLanguage matcher B domain langs = .ok l) :
    l.hasLocale = (matcher (acceptTags acceptLanguage langs)).isSome ∧ l.defaultDomainName = domain ∧
    (l.hasLocale = true → l.language ∈ B.supportedLanguages ∧ l.language ≠ w.und) ∧
    (l.hasLocale = false → l.language = B.fallback.language) := by
  obtain ⟨h1, h2⟩ := C68_localizer ho h acceptLanguage matcher domain langs
  cases hm : matcher (acceptTags acceptLanguage langs) with
  | none =>
    have := h1 hm
    rw [hl] at this
    cases this
    exact ⟨rfl, rfl, (fun x => nomatch x), fun _ => rfl⟩
  | some i =>
    cases ht : B.languages[i]? with
    | none => rw [newLocalizerForDomain, hm] at hl; simp only [ht] at hl; cases hl
    | some t =>
      obtain ⟨loc, hlang, hget, hx⟩ := h2 i t hm ht
      rw [hl] at hx
      cases hx
      refine ⟨rfl, rfl, fun _ => ⟨?_, ?_⟩, (fun x => nomatch x)⟩
      · exact GoMap.get?_isSome.mp (by
          simp only [Localizer.language]; rw [hlang, hget]; rfl)
      · obtain ⟨_, b', _, _, _, _, _, hi, hloc, _⟩ := finished ho h
        rw [hloc] at hget
        simp only [Localizer.language]
        rw [hlang]
        exact (hi.lang t loc hget).2

/-- `IsLanguageSupported` says whether a localizer made for the tag has a locale. -/
theorem C82_supported {w : World L N V} {order : Order L N} (ho : Perms order) {opts : List (Opt L N)} {B : Bundle L N}
    {es : List (Event L)} (h : newBundle w order opts = .ok (B, es)) (acceptLanguage : Bytes → Option (List L))
    (matcher : List L → Option Nat) (t : L) {l : Localizer L N}
    (hl : newLocalizer acceptLanguage matcher B [.tag t] = .ok l) :
    Bundle.isLanguageSupported matcher t = l.hasLocale ∧ l.defaultDomainName = B.defaultDomain := by
  obtain ⟨h1, h2, _⟩ := C82_localizer ho h acceptLanguage matcher _ _ hl
  exact ⟨h1.symm, h2⟩

/-- A key localizer is made like a localizer. -/
theorem C82_key_localizer (acceptLanguage : Bytes → Option (List L)) (matcher : List L → Option Nat) (B : Bundle L N)
    (domain : Bytes) (langs : List (Accept L)) (k : KeyLocalizer L N) :
    (newKeyLocalizerForDomain acceptLanguage matcher B domain langs = .ok k ↔
      newLocalizerForDomain acceptLanguage matcher B domain langs = .ok k.localizer) ∧
    (newKeyLocalizer acceptLanguage matcher B langs = .ok k ↔
      newLocalizerForDomain acceptLanguage matcher B B.defaultDomain langs = .ok k.localizer) := by
  obtain ⟨l⟩ := k
  rw [newKeyLocalizerForDomain, newKeyLocalizer, newLocalizer]
  constructor
  · cases newLocalizerForDomain acceptLanguage matcher B domain langs with
    | error f => exact ⟨(fun h => nomatch h), (fun h => nomatch h)⟩
    | ok x => exact ⟨(fun h => by cases h; rfl), (fun h => by cases h; rfl)⟩
  · cases newLocalizerForDomain acceptLanguage matcher B B.defaultDomain langs with
    | error f => exact ⟨(fun h => nomatch h), (fun h => nomatch h)⟩
    | ok x => exact ⟨(fun h => by cases h; rfl), (fun h => by cases h; rfl)⟩

example : ∃ B es l, newBundle demoWorld rev demoOpts = .ok (B, es) ∧
    newLocalizer (fun _ => none) (fun _ => some 2) B [.tag 3] = .ok l ∧ l.hasLocale = true ∧ l.language = 3 ∧
    B.supportedLanguages = [1, 2, 3] ∧ B.canLocalize = true ∧ l.domainList = [b!"b", b!"a"] :=
  ⟨_, _, _, rfl, rfl, rfl, rfl, rfl, by decide, rfl⟩

/-- `SupportedLanguages` lists the languages with a catalog, and the source language if it was set. -/
theorem C82_languages_partial {w : World L N V} {order : Order L N} (ho : Perms order) {opts : List (Opt L N)}
    {B : Bundle L N} {es : List (Event L)} (h : newBundle w order opts = .ok (B, es)) {t : L}
    (hs : t ≠ B.source.language) :
    t ∈ B.supportedLanguages ↔ ∃ loc d c, B.locales.get? t = some loc ∧ loc.language = t ∧ loc.catalogs.get? d = some c := by
  constructor
  · intro ht
    obtain ⟨loc, hl⟩ := Option.isSome_iff_exists.mp (GoMap.get?_isSome.mpr ht)
    obtain ⟨h1, h2⟩ := C43_optional ho h hl
    rcases h2 with ⟨_, h2⟩ | ⟨_, _, ⟨d, c, h2⟩, _⟩
    · exact absurd h2 hs
    · exact ⟨loc, d, c, hl, h1, h2⟩
  · rintro ⟨loc, d, c, hl, _, _⟩
    exact GoMap.get?_isSome.mp (by rw [hl]; rfl)

/-- `CanLocalize` says whether there is a catalog, if no loader returns an `ErrMissingLanguage`. -/
theorem C82_can_localize_partial {w : World L N V} {order : Order L N} (ho : Perms order) {opts : List (Opt L N)}
    (hno : NoMissingOpts opts) {B : Bundle L N} {es : List (Event L)} (h : newBundle w order opts = .ok (B, es)) :
    B.canLocalize = true ↔ ∃ t loc d c, B.locales.get? t = some loc ∧ loc.catalogs.get? d = some c := by
  obtain ⟨_, hd⟩ := C69_domains_partial ho hno h
  rw [Bundle.canLocalize, Bool.and_eq_true, decide_eq_true_eq, decide_eq_true_eq]
  constructor
  · rintro ⟨_, hlen⟩
    obtain ⟨d, hm⟩ := List.exists_mem_of_length_pos hlen
    obtain ⟨t, loc, hl, c, hc⟩ := (hd d).mp hm
    exact ⟨t, loc, d, c, hl, hc⟩
  · rintro ⟨t, loc, d, c, hl, hc⟩
    exact ⟨List.length_pos_of_mem (GoMap.mem_of_get? hl), List.length_pos_of_mem ((hd d).mpr ⟨t, loc, hl, c, hc⟩)⟩

/-- What a localizer of the bundle has is listed by the bundle. -/
theorem C82_listed_partial {w : World L N V} {order : Order L N} (ho : Perms order) {opts : List (Opt L N)}
    (hno : NoMissingOpts opts) {B : Bundle L N} {es : List (Event L)} (h : newBundle w order opts = .ok (B, es))
    (acceptLanguage : Bytes → Option (List L)) (matcher : List L → Option Nat) (domain : Bytes)
    (langs : List (Accept L)) {l : Localizer L N}
    (hl : newLocalizerForDomain acceptLanguage matcher B domain langs = .ok l) (hf : l.hasLocale = true) {d : Bytes}
    (hd : l.hasDomain d = true) : d ∈ B.domainList := by
  obtain ⟨_, hdom⟩ := C69_domains_partial ho hno h
  obtain ⟨h1, h2⟩ := C68_localizer ho h acceptLanguage matcher domain langs
  cases hm : matcher (acceptTags acceptLanguage langs) with
  | none => rw [h1 hm] at hl; cases hl; cases hf
  | some i =>
    cases ht : B.languages[i]? with
    | none => rw [newLocalizerForDomain, hm] at hl; simp only [ht] at hl; cases hl
    | some t =>
      obtain ⟨loc, _, hget, hx⟩ := h2 i t hm ht
      rw [hl] at hx
      cases hx
      obtain ⟨c, hc⟩ := Option.isSome_iff_exists.mp hd
      exact (hdom d).mpr ⟨t, loc, hget, c, hc⟩

/-- `SupportedLanguages` promises a catalog for every language; the source language has none.  `CanLocalize` says yes
for a source language and a domain whose only language was given up. -/
theorem C82_negation :
    (∃ B es loc, newBundle demoWorld ident [.source 1, .domainLoader b!"a" (some (knows [2]))] = .ok (B, es) ∧
      B.supportedLanguages = [1] ∧ B.locales.get? 1 = some loc ∧ loc.catalogs = []) ∧
    (∃ B es loc, newBundle demoWorld ident [.source 1, .domainLoader b!"a" (some (knows [2])),
        .domainLoader b!"b" (some fun t _ => .error (.missingLanguage t)), .language [.tag 2]] = .ok (B, es) ∧
      B.canLocalize = true ∧ B.locales = [(1, loc)] ∧ loc.catalogs = []) :=
  ⟨⟨_, _, _, rfl, rfl, rfl, rfl⟩, _, _, _, rfl, rfl, rfl, rfl⟩

end Verif.Props.Reports
