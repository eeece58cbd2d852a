import Verif.Props.Localizer
/-!
# C40, C41, C67 without side conditions

When a lookup panics, which reports a plural lookup makes, and when `LocalizeError` translates, for every localizer,
whether its catalogs are nil interfaces or not and whether its own language is the fallback language or not.
-/
namespace Verif.Props.Localizer
open Verif.Go Verif.Model.Spreak

variable {L N V : Type} [DecidableEq L]

/-- The catalog for the domain is a nil interface. -/
def NilCatalog (l : Locale L N) (domain : Bytes) : Prop := l.isSource = false ∧ l.catalogs.get? domain = some none

theorem nonNil_iff (l : Locale L N) (domain : Bytes) : NonNil l domain ↔ ¬ NilCatalog l domain :=
  ⟨fun h hn => h hn.1 hn.2, fun h hs hc => h ⟨hs, hc⟩⟩

/-- The singular text of a locale is there, is missing, or the catalog is nil. -/
theorem three_cases (w : World L N V) (l : Locale L N) (domain ctx id : Bytes) (vars : List V) :
    (∃ t, Offers w l domain ctx id vars t) ∨ (∃ e, Misses l domain ctx id e) ∨ NilCatalog l domain := by
  by_cases h : NilCatalog l domain
  · exact .inr (.inr h)
  · rcases offers_or_misses w ((nonNil_iff l domain).mpr h) ctx id vars with h | h
    · exact .inl h
    · exact .inr (.inl h)

/-- The same for plural texts. -/
theorem three_casesN (w : World L N V) (l : Locale L N) (domain ctx s p : Bytes) (n : N) (vars : List V) :
    (∃ t, OffersN w l domain ctx s p n vars t) ∨ (∃ e, MissesN l domain ctx s n e) ∨ NilCatalog l domain := by
  by_cases h : NilCatalog l domain
  · exact .inr (.inr h)
  · rcases offersN_or_misses w ((nonNil_iff l domain).mpr h) ctx s p n vars with h | h
    · exact .inl h
    · exact .inr (.inl h)

theorem lookup_nil (w : World L N V) {l : Locale L N} {domain : Bytes} (h : NilCatalog l domain) (ctx id : Bytes)
    (vars : List V) (cb : Bool) : l.lookupSingular w cb domain ctx id vars = .error .nilDereference := by
  unfold Locale.lookupSingular
  rw [if_neg (by rw [h.1]; decide), h.2]

theorem lookup_nilN (w : World L N V) {l : Locale L N} {domain : Bytes} (h : NilCatalog l domain) (ctx s p : Bytes) (n : N)
    (vars : List V) (cb : Bool) : l.lookupPlural w cb domain ctx s p n vars = .error .nilDereference := by
  unfold Locale.lookupPlural
  rw [if_neg (by rw [h.1]; decide), h.2]

theorem not_misses_of_offers {w : World L N V} {l : Locale L N} {domain ctx id t : Bytes} {vars : List V} {e : Err L}
    (h : Offers w l domain ctx id vars t) (h' : Misses l domain ctx id e) : False := by
  have h1 := lookup_misses w vars h' true
  rw [lookup_offers h] at h1; cases h1

theorem not_nil_of_offers {w : World L N V} {l : Locale L N} {domain ctx id t : Bytes} {vars : List V}
    (h : Offers w l domain ctx id vars t) (h' : NilCatalog l domain) : False := by
  have h1 := lookup_nil w h' ctx id vars true
  rw [lookup_offers h] at h1; cases h1

theorem not_nil_of_misses {l : Locale L N} {domain ctx id : Bytes} {e : Err L}
    (h : Misses l domain ctx id e) (h' : NilCatalog l domain) : False := by
  cases h with
  | domain _ hc => rw [h'.2] at hc; cases hc
  | message _ hc _ => rw [h'.2] at hc; cases hc

theorem not_missesN_of_offersN {w : World L N V} {l : Locale L N} {domain ctx s p t : Bytes} {n : N} {vars : List V}
    {e : Err L} (h : OffersN w l domain ctx s p n vars t) (h' : MissesN l domain ctx s n e) : False := by
  cases h with
  | source hs _ => cases h' with
    | domain h _ => rw [hs] at h; cases h
    | message h _ _ => rw [hs] at h; cases h
  | translation _ hc ht => cases h' with
    | domain _ h => rw [hc] at h; cases h
    | message _ h h2 => rw [hc] at h; cases h; rw [ht] at h2; cases h2

theorem not_nil_of_offersN {w : World L N V} {l : Locale L N} {domain ctx s p t : Bytes} {n : N} {vars : List V}
    (h : OffersN w l domain ctx s p n vars t) (h' : NilCatalog l domain) : False := by
  have h1 := lookup_nilN w h' ctx s p n vars true
  rw [lookup_offersN h] at h1; cases h1

theorem not_nil_of_missesN {l : Locale L N} {domain ctx s : Bytes} {n : N} {e : Err L}
    (h : MissesN l domain ctx s n e) (h' : NilCatalog l domain) : False := by
  cases h with
  | domain _ hc => rw [h'.2] at hc; cases hc
  | message _ hc _ => rw [h'.2] at hc; cases hc

/-! ## C40: when a lookup panics -/

/-- A singular lookup panics exactly if the catalog of the own locale is nil, or the own locale misses the message and
the catalog of the fallback locale, another one, is nil. -/
theorem C40_panics_iff (w : World L N V) {l : Localizer L N} (hl : Sane l) (domain ctx id : Bytes) (vars : List V) :
    (∃ f, l.lookupSingular w domain ctx id vars = .error f) ↔
      NilCatalog l.locale domain ∨
      (∃ e, Misses l.locale domain ctx id e) ∧ l.locale.language ≠ l.bundle.fallback.language ∧
        NilCatalog l.bundle.fallback domain := by
  have hsrc := lookup_offers (w := w) (domain := domain) (ctx := ctx) (id := id) (vars := vars)
    (Offers.source (l := l.bundle.source) hl.source) l.bundle.callback
  rcases three_cases w l.locale domain ctx id vars with ⟨t, ht⟩ | ⟨e, he⟩ | hn
  · constructor
    · rintro ⟨f, hf⟩
      unfold Localizer.lookupSingular at hf; rw [lookup_offers ht] at hf; cases hf
    · rintro (h | ⟨⟨e, h⟩, _⟩)
      · exact (not_nil_of_offers ht h).elim
      · exact (not_misses_of_offers ht h).elim
  · by_cases hne : l.locale.language = l.bundle.fallback.language
    · constructor
      · rintro ⟨f, hf⟩
        unfold Localizer.lookupSingular at hf
        rw [lookup_misses w vars he] at hf
        simp only [if_neg (show ¬ l.locale.language ≠ l.bundle.fallback.language from fun x => x hne), hsrc] at hf
        cases hf
      · rintro (h | ⟨_, h, _⟩)
        · exact (not_nil_of_misses he h).elim
        · exact absurd hne h
    · rcases three_cases w l.bundle.fallback domain ctx id vars with ⟨t, ht⟩ | ⟨e', he'⟩ | hn
      · constructor
        · rintro ⟨f, hf⟩
          obtain ⟨tr, h⟩ := C39_fallback hl he ht
          rw [h] at hf; cases hf
        · rintro (h | ⟨_, _, h⟩)
          · exact (not_nil_of_misses he h).elim
          · exact (not_nil_of_offers ht h).elim
      · constructor
        · rintro ⟨f, hf⟩
          obtain ⟨tr, h⟩ := C39_source (w := w) (vars := vars) hl he he'
          rw [h] at hf; cases hf
        · rintro (h | ⟨_, _, h⟩)
          · exact (not_nil_of_misses he h).elim
          · exact (not_nil_of_misses he' h).elim
      · refine ⟨fun _ => .inr ⟨⟨e, he⟩, hne, hn⟩, fun _ => ⟨.nilDereference, ?_⟩⟩
        unfold Localizer.lookupSingular
        rw [lookup_misses w vars he]
        simp only [if_pos (show l.locale.language ≠ l.bundle.fallback.language from hne), lookup_nil w hn]
  · refine ⟨fun _ => .inl hn, fun _ => ⟨.nilDereference, ?_⟩⟩
    unfold Localizer.lookupSingular
    rw [lookup_nil w hn]

/-- A plural lookup panics exactly if the catalog of the own locale is nil, or the own locale misses the message and the
catalog of the fallback locale is nil. -/
theorem C40_panics_plural_iff (w : World L N V) {l : Localizer L N} (hl : Sane l) (domain ctx s p : Bytes) (n : N)
    (vars : List V) :
    (∃ f, l.lookupPlural w domain ctx s p n vars = .error f) ↔
      NilCatalog l.locale domain ∨
      (∃ e, MissesN l.locale domain ctx s n e) ∧ NilCatalog l.bundle.fallback domain := by
  rcases three_casesN w l.locale domain ctx s p n vars with ⟨t, ht⟩ | ⟨e, he⟩ | hn
  · constructor
    · rintro ⟨f, hf⟩
      unfold Localizer.lookupPlural at hf; rw [lookup_offersN ht] at hf; cases hf
    · rintro (h | ⟨⟨e, h⟩, _⟩)
      · exact (not_nil_of_offersN ht h).elim
      · exact (not_missesN_of_offersN ht h).elim
  · rcases three_casesN w l.bundle.fallback domain ctx s p n vars with ⟨t, ht⟩ | ⟨e', he'⟩ | hn
    · constructor
      · rintro ⟨f, hf⟩
        obtain ⟨tr, h⟩ := C39_fallback_plural he ht
        rw [h] at hf; cases hf
      · rintro (h | ⟨_, h⟩)
        · exact (not_nil_of_missesN he h).elim
        · exact (not_nil_of_offersN ht h).elim
    · constructor
      · rintro ⟨f, hf⟩
        obtain ⟨t, ht⟩ := sourceForm_total w l.bundle.source.language s p n
        obtain ⟨tr, h⟩ := C39_source_plural (vars := vars) hl he he' ht
        rw [h] at hf; cases hf
      · rintro (h | ⟨_, h⟩)
        · exact (not_nil_of_missesN he h).elim
        · exact (not_nil_of_missesN he' h).elim
    · refine ⟨fun _ => .inr ⟨⟨e, he⟩, hn⟩, fun _ => ⟨.nilDereference, ?_⟩⟩
      unfold Localizer.lookupPlural
      rw [lookup_missesN w p vars he]
      simp only [lookup_nilN w hn]
  · refine ⟨fun _ => .inl hn, fun _ => ⟨.nilDereference, ?_⟩⟩
    unfold Localizer.lookupPlural
    rw [lookup_nilN w hn]

/-- `demo` with a nil catalog for the fallback language: what the own catalog has is found, the rest panics. -/
def nilFallback : Localizer Nat Int :=
  { demo with bundle := { demoBundle with fallback := ⟨2, [([], none)], false⟩ } }

example : Sane nilFallback ∧ NilCatalog nilFallback.bundle.fallback [] ∧ (∃ e, Misses nilFallback.locale [] [] b!"b" e) ∧
    nilFallback.get demoWorld b!"a" = .ok ([], b!"A3") ∧ nilFallback.get demoWorld b!"b" = .error .nilDereference :=
  ⟨⟨rfl, fun h => absurd h (by decide)⟩, ⟨rfl, rfl⟩, ⟨_, .message rfl rfl rfl⟩, by decide, by decide⟩

/-! ## C40: when the error-returning variants return no error -/

/-- A singular lookup returns without an error exactly if the localizer has a locale of its own with a text, which it
then returns. -/
theorem C40_translated_iff (w : World L N V) {l : Localizer L N} (hl : Sane l) (domain ctx id : Bytes) (vars : List V)
    (t : Bytes) :
    (∃ tr, l.lookupSingular w domain ctx id vars = .ok (tr, t, none)) ↔
      l.localeFound = true ∧ Offers w l.locale domain ctx id vars t := by
  rcases three_cases w l.locale domain ctx id vars with ⟨t', ht⟩ | ⟨e, he⟩ | hn
  · have hres : l.lookupSingular w domain ctx id vars =
        .ok ([], t', if l.localeFound then none else some .missingLocale) := by
      unfold Localizer.lookupSingular; rw [lookup_offers ht]
    rw [hres]
    constructor
    · rintro ⟨tr, h⟩
      cases hlf : l.localeFound with
      | true => rw [hlf] at h; cases h; exact ⟨rfl, ht⟩
      | false => rw [hlf] at h; cases h
    · rintro ⟨hf, ho⟩
      have h1 := lookup_offers ht true
      rw [lookup_offers ho] at h1
      cases h1
      rw [hf]; exact ⟨_, rfl⟩
  · constructor
    · rintro ⟨tr, h⟩
      by_cases hne : l.locale.language = l.bundle.fallback.language
      · have he' := he
        rw [hl.same hne] at he'
        obtain ⟨tr', h'⟩ := C39_source (w := w) (vars := vars) hl he he'
        rw [h'] at h; cases h
      · rcases three_cases w l.bundle.fallback domain ctx id vars with ⟨t, ht⟩ | ⟨e', he'⟩ | hn
        · obtain ⟨tr, h'⟩ := C39_fallback hl he ht
          rw [h'] at h; cases h
        · obtain ⟨tr', h'⟩ := C39_source (w := w) (vars := vars) hl he he'
          rw [h'] at h; cases h
        · obtain ⟨f, h'⟩ := (C40_panics_iff w hl domain ctx id vars).mpr (.inr ⟨⟨e, he⟩, hne, hn⟩)
          rw [h'] at h; cases h
    · rintro ⟨_, ho⟩
      exact (not_misses_of_offers ho he).elim
  · constructor
    · rintro ⟨tr, h⟩
      obtain ⟨f, h'⟩ := (C40_panics_iff w hl domain ctx id vars).mpr (.inl hn)
      rw [h'] at h; cases h
    · rintro ⟨_, ho⟩
      exact (not_nil_of_offers ho hn).elim

/-- The same for plural lookups. -/
theorem C40_translated_plural_iff (w : World L N V) {l : Localizer L N} (hl : Sane l) (domain ctx s p : Bytes) (n : N)
    (vars : List V) (t : Bytes) :
    (∃ tr, l.lookupPlural w domain ctx s p n vars = .ok (tr, t, none)) ↔
      l.localeFound = true ∧ OffersN w l.locale domain ctx s p n vars t := by
  rcases three_casesN w l.locale domain ctx s p n vars with ⟨t', ht⟩ | ⟨e, he⟩ | hn
  · have hres : l.lookupPlural w domain ctx s p n vars =
        .ok (pluralReport w l.bundle.callback l.locale n, t', if l.localeFound then none else some .missingLocale) := by
      unfold Localizer.lookupPlural; rw [lookup_offersN ht]
    rw [hres]
    constructor
    · rintro ⟨tr, h⟩
      cases hlf : l.localeFound with
      | true => rw [hlf] at h; cases h; exact ⟨rfl, ht⟩
      | false => rw [hlf] at h; cases h
    · rintro ⟨hf, ho⟩
      have h1 := lookup_offersN ht true
      rw [lookup_offersN ho] at h1
      cases h1
      rw [hf]; exact ⟨_, rfl⟩
  · constructor
    · rintro ⟨tr, h⟩
      rcases three_casesN w l.bundle.fallback domain ctx s p n vars with ⟨t, ht⟩ | ⟨e', he'⟩ | hn
      · obtain ⟨tr, h'⟩ := C39_fallback_plural he ht
        rw [h'] at h; cases h
      · obtain ⟨t, ht⟩ := sourceForm_total w l.bundle.source.language s p n
        obtain ⟨tr', h'⟩ := C39_source_plural (vars := vars) hl he he' ht
        rw [h'] at h; cases h
      · obtain ⟨f, h'⟩ := (C40_panics_plural_iff w hl domain ctx s p n vars).mpr (.inr ⟨⟨e, he⟩, hn⟩)
        rw [h'] at h; cases h
    · rintro ⟨_, ho⟩
      exact (not_missesN_of_offersN ho he).elim
  · constructor
    · rintro ⟨tr, h⟩
      obtain ⟨f, h'⟩ := (C40_panics_plural_iff w hl domain ctx s p n vars).mpr (.inl hn)
      rw [h'] at h; cases h
    · rintro ⟨_, ho⟩
      exact (not_nil_of_offersN ho hn).elim

example : (∃ tr, demo.lookupSingular demoWorld [] [] b!"a" [] = .ok (tr, b!"A3", none)) ∧
    ¬ (∃ tr, demo.lookupSingular demoWorld [] [] b!"b" [] = .ok (tr, b!"B2", none)) :=
  ⟨⟨[], by decide⟩, by rintro ⟨tr, h⟩; cases h⟩

/-! ## C41: the reports of every plural lookup -/

/-- The reports of a plural lookup, for every localizer: what the source locale reports about the number, if it is
consulted, after one report for each consulted locale that misses the message. The own locale is consulted, and the
fallback locale, even if it is the same one, whenever the own locale misses the message. -/
theorem C41_plural_exact (w : World L N V) {l : Localizer L N} (hl : Sane l) (domain ctx s p : Bytes) (n : N)
    (vars : List V) :
    (∀ t, OffersN w l.locale domain ctx s p n vars t →
      ∃ r, l.lookupPlural w domain ctx s p n vars = .ok (pluralReport w l.bundle.callback l.locale n, r)) ∧
    (∀ e t, MissesN l.locale domain ctx s n e → OffersN w l.bundle.fallback domain ctx s p n vars t →
      ∃ r, l.lookupPlural w domain ctx s p n vars = .ok (report l.bundle.callback e ++
        pluralReport w l.bundle.callback l.bundle.fallback n, r)) ∧
    (∀ e e', MissesN l.locale domain ctx s n e → MissesN l.bundle.fallback domain ctx s n e' →
      ∃ r, l.lookupPlural w domain ctx s p n vars = .ok (report l.bundle.callback e ++ report l.bundle.callback e' ++
        pluralReport w l.bundle.callback l.bundle.source n, r)) := by
  refine ⟨fun t h => ?_, fun e t h hf => ?_, fun e e' h hf => ?_⟩
  · unfold Localizer.lookupPlural; rw [lookup_offersN h]; exact ⟨_, rfl⟩
  · unfold Localizer.lookupPlural
    rw [lookup_missesN w p vars h]
    simp only [lookup_offersN hf]
    exact ⟨_, rfl⟩
  · obtain ⟨t, ht⟩ := sourceForm_total w l.bundle.source.language s p n
    have hs := lookup_offersN (OffersN.source (l := l.bundle.source) (domain := domain) (ctx := ctx) (vars := vars)
      hl.source ht) l.bundle.callback
    unfold Localizer.lookupPlural
    rw [lookup_missesN w p vars h]
    simp only [lookup_missesN w p vars hf, hs]
    exact ⟨_, rfl⟩

/-- A plural message that own and fallback locale miss is reported once for each of the different locales exactly if the
own language is not the fallback language. -/
theorem C41_once_iff (w : World L N V) {l : Localizer L N} (hl : Sane l) (hcb : l.bundle.callback = true)
    {domain ctx s : Bytes} (p : Bytes) {n : N} (vars : List V) (hnum : w.plural l.bundle.source.language n ≠ none)
    {e e' : Err L} (h : MissesN l.locale domain ctx s n e) (hf : MissesN l.bundle.fallback domain ctx s n e') :
    (∃ r, l.lookupPlural w domain ctx s p n vars =
      .ok (if l.locale.language = l.bundle.fallback.language then [e] else [e, e'], r)) ↔
      l.locale.language ≠ l.bundle.fallback.language := by
  obtain ⟨r, hr⟩ := (C41_plural_exact w hl domain ctx s p n vars).2.2 e e' h hf
  have hp : pluralReport w l.bundle.callback l.bundle.source n = [] := by
    unfold pluralReport; rw [if_neg (fun h => hnum h.2)]
  rw [hp, hcb] at hr
  rw [hr]
  by_cases hne : l.locale.language = l.bundle.fallback.language
  · rw [if_pos hne]
    exact ⟨fun ⟨r, h⟩ => (by simp [report] at h), fun h => absurd hne h⟩
  · rw [if_neg hne]
    exact ⟨fun _ => hne, fun _ => ⟨r, rfl⟩⟩

example : demo.bundle.callback = true ∧ demoWorld.plural demo.bundle.source.language 5 ≠ none ∧
    (∃ e, MissesN demo.locale [] [] b!"c" 5 e) ∧ (∃ e, MissesN demo.bundle.fallback [] [] b!"c" 5 e) ∧
    demo.nGet demoWorld b!"c" b!"cs" (-5) = .ok ([.catalog 1, .catalog 1, .plural], b!"c") :=
  ⟨rfl, (fun h => nomatch h), ⟨_, .message rfl rfl rfl⟩, ⟨_, .message rfl rfl rfl⟩, by decide⟩

/-! ## C67: when `LocalizeError` translates -/

/-- The text that the own locale has for an error: for the message the error brings, in its domain, singular or plural,
or for the text of the error in the context for errors of the default domain. -/
inductive OffersError (w : World L N V) (l : Localizer L N) : GoError N V → Bytes → Prop
  | text {msg t : Bytes} : Offers w l.locale l.defaultDomain l.bundle.errContext msg [] t → OffersError w l ⟨msg, none⟩ t
  | singular {msg t : Bytes} {m : Localizable N V} : m.pluralID = [] →
      Offers w l.locale (m.domain.getD l.defaultDomain) m.context m.msgID m.vars t → OffersError w l ⟨msg, some m⟩ t
  | plural {msg t : Bytes} {m : Localizable N V} : m.pluralID ≠ [] →
      OffersN w l.locale (m.domain.getD l.defaultDomain) m.context m.msgID m.pluralID m.count m.vars t →
      OffersError w l ⟨msg, some m⟩ t

/-- `LocalizeError` gives an error with the text `t` exactly if the localizer has a locale of its own, whose text for
the error is `t`. -/
theorem C67_translated (w : World L N V) {l : Localizer L N} (hl : Sane l) (err : GoError N V) (t : Bytes) :
    (∃ tr, l.localizeError w err = .ok (tr, .translated t)) ↔ l.localeFound = true ∧ OffersError w l err t := by
  obtain ⟨msg, m⟩ := err
  simp only [C67_result]
  cases m with
  | none =>
    simp only []
    rw [C40_translated_iff w hl]
    constructor
    · rintro ⟨h, h'⟩; exact ⟨h, .text h'⟩
    · rintro ⟨h, h'⟩; cases h' with
      | text h' => exact ⟨h, h'⟩
  | some m =>
    by_cases hp : m.pluralID = []
    · have hr : l.localizeWithError w (some m) =
          l.lookupSingular w (m.domain.getD l.defaultDomain) m.context m.msgID m.vars := by
        unfold Localizer.localizeWithError
        simp only [hp, ne_eq, not_true_eq_false, if_false]
        cases m.domain <;> rfl
      simp only [hr]
      rw [C40_translated_iff w hl]
      constructor
      · rintro ⟨h, h'⟩; exact ⟨h, .singular hp h'⟩
      · rintro ⟨h, h'⟩; cases h' with
        | singular _ h' => exact ⟨h, h'⟩
        | plural hp' _ => exact absurd hp hp'
    · have hr : l.localizeWithError w (some m) =
          l.lookupPlural w (m.domain.getD l.defaultDomain) m.context m.msgID m.pluralID m.count m.vars := by
        unfold Localizer.localizeWithError
        simp only [ne_eq, hp, not_false_eq_true, if_true]
        cases m.domain <;> rfl
      simp only [hr]
      rw [C40_translated_plural_iff w hl]
      constructor
      · rintro ⟨h, h'⟩; exact ⟨h, .plural hp h'⟩
      · rintro ⟨h, h'⟩; cases h' with
        | singular hp' _ => exact absurd hp' hp
        | plural _ h' => exact ⟨h, h'⟩

/-- If it does not panic and the own locale has no text, the error comes back as it is. -/
theorem C67_original (w : World L N V) {l : Localizer L N} (hl : Sane l) (err : GoError N V) {tr : List (Err L)}
    {r : ErrorResult} (h : l.localizeError w err = .ok (tr, r))
    (hno : ¬ (l.localeFound = true ∧ ∃ t, OffersError w l err t)) : r = .original := by
  cases r with
  | original => rfl
  | translated t =>
    obtain ⟨h1, h2⟩ := (C67_translated w hl err t).mp ⟨tr, h⟩
    exact absurd ⟨h1, t, h2⟩ hno

example : OffersError demoWorld demo ⟨b!"a", none⟩ b!"A3" ∧
    OffersError demoWorld demo ⟨b!"x", some ⟨b!"a", b!"as", [], [], 5, none⟩⟩ b!"A3s" ∧
    demo.localizeError demoWorld ⟨b!"x", some ⟨b!"a", b!"as", [], [], 5, none⟩⟩ = .ok ([], .translated b!"A3s") :=
  ⟨.text (.translation rfl rfl rfl), .plural (by decide) (.translation rfl rfl rfl), by decide⟩

end Verif.Props.Localizer
