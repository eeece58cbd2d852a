import Verif.Proofs.Spreak.Bundle
/-!
# Two iteration orders over the loaders
-/
namespace Verif.Proofs.Spreak
open Verif.Go Verif.Model.Spreak

variable {L N V : Type} [DecidableEq L]

/-- The same locale up to the order of the catalogs. -/
structure SameLocale (l m : Locale L N) : Prop where
  language : l.language = m.language
  isSource : l.isSource = m.isSource
  catalogs : ∀ d, l.catalogs.get? d = m.catalogs.get? d

/-- Both there or both missing. -/
def SameOpt : Option (Locale L N) → Option (Locale L N) → Prop
  | none, none => True
  | some l, some m => SameLocale l m
  | _, _ => False

/-- Two builders that differ in nothing a lookup can see. -/
structure Sim (b c : Builder L N) : Prop where
  callback : b.callback = c.callback
  defaultDomain : b.defaultDomain = c.defaultDomain
  errContext : b.errContext = c.errContext
  source : b.sourceLanguage = c.sourceLanguage
  fallback : b.fallbackLanguage = c.fallbackLanguage
  loaders : b.loaders = c.loaders
  languages : b.languages = c.languages
  locales : ∀ t, SameOpt (b.locales.get? t) (c.locales.get? t)
  domains : ∀ d, d ∈ b.domains ↔ d ∈ c.domains

/-- No loader returns an `ErrMissingLanguage`. -/
def NoMissing (ls : GoMap Bytes (Loader L N)) : Prop := ∀ p ∈ ls, ∀ t t', p.2 t p.1 ≠ .error (.missingLanguage t')

/-- Two outcomes of `createLocale`. -/
inductive Alike : Builder L N × Except (Err L) Unit → Builder L N × Except (Err L) Unit → Prop
  | ok {b c : Builder L N} : Sim b c → Alike (b, .ok ()) (c, .ok ())
  | missing {b c : Builder L N} (t : L) : Sim b c → Alike (b, .error (.missingLanguage t)) (c, .error (.missingLanguage t))
  | fail {b c : Builder L N} {e e' : Err L} : (∀ t, e ≠ .missingLanguage t) → (∀ t, e' ≠ .missingLanguage t) →
      Alike (b, .error e) (c, .error e')

omit [DecidableEq L] in
theorem sameOpt_none {x y : Option (Locale L N)} (h : SameOpt x y) : x = none ↔ y = none := by
  cases x <;> cases y <;> simp_all [SameOpt]

theorem sim_set {b c : Builder L N} (hl : ∀ t, SameOpt (b.locales.get? t) (c.locales.get? t)) (lang : L)
    {x y : Locale L N} (h : SameLocale x y) (t : L) :
    SameOpt ((b.locales.set lang x).get? t) ((c.locales.set lang y).get? t) := by
  rw [GoMap.get?_set, GoMap.get?_set]
  split
  · exact h
  · exact hl t

theorem created_alike {w : World L N V} {optional : Bool} {b c : Builder L N} {lang : L} (h : Sim b c)
    (hno : NoMissing b.loaders) {r s : Builder L N × Except (Err L) Unit}
    (hr : Created w optional b lang r) (hs : Created w optional c lang s) : Alike r s := by
  have hsome : (b.locales.get? lang).isSome → ¬ c.locales.get? lang = none := by
    intro h1 h2
    rw [(sameOpt_none (h.locales lang)).mpr h2] at h1; cases h1
  have hnone : b.locales.get? lang = none → ¬ (c.locales.get? lang).isSome := by
    intro h1 h2
    rw [(sameOpt_none (h.locales lang)).mp h1] at h2; cases h2
  have hfail : ∀ e, (∃ p ∈ b.loaders, p.2 lang p.1 = .error e) → ∀ t, e ≠ .missingLanguage t := by
    rintro e ⟨p, hp, hpe⟩ t rfl
    exact hno p hp _ _ hpe
  cases hr with
  | und h1 =>
    cases hs with
    | und => exact .missing _ h
    | source _ k => exact absurd h1 k
    | cached k => exact absurd h1 k
    | bad _ _ _ _ k => exact absurd h1 k
    | empty _ _ _ k => exact absurd h1 k
    | new _ _ _ _ k => exact absurd h1 k
  | source es h1 h2 he =>
    cases hs with
    | und k => exact absurd k h1
    | source es' k1 k2 ke =>
      refine .ok ⟨h.callback, h.defaultDomain, h.errContext, h.source, h.fallback, h.loaders, ?_, ?_, h.domains⟩
      · simp only [h.languages]
      · exact sim_set h.locales lang ⟨h.source, rfl, fun _ => rfl⟩
    | cached _ k => exact absurd (h2.trans h.source) k
    | bad _ _ _ _ _ k => exact absurd (h2.trans h.source) k
    | empty _ _ _ _ k => exact absurd (h2.trans h.source) k
    | new _ _ _ _ _ k => exact absurd (h2.trans h.source) k
  | cached h1 h2 h3 =>
    cases hs with
    | und k => exact absurd k h1
    | source _ _ k => exact absurd (k.trans h.source.symm) h2
    | cached => exact .ok h
    | bad _ _ _ _ _ _ _ k => exact absurd k (hsome h3)
    | empty _ _ _ _ _ _ k => exact absurd k (hsome h3)
    | new _ _ _ _ _ _ _ k => exact absurd k (hsome h3)
  | bad ds es k e h1 h2 hr h3 hg he =>
    cases hs with
    | und k => exact absurd k h1
    | source _ _ k => exact absurd (k.trans h.source.symm) h2
    | cached _ _ k => exact absurd k (hnone h3)
    | bad _ _ _ _ _ _ _ _ _ ke => exact .fail (hfail _ he) (hfail _ (h.loaders ▸ ke))
    | empty _ _ _ _ _ _ _ k => exact absurd (h.loaders ▸ k) hg
    | new _ _ _ _ _ _ _ _ k => exact absurd (h.loaders ▸ k) hg
  | empty ds es k h1 h2 hr h3 hg hn hd hnd =>
    cases hs with
    | und k => exact absurd k h1
    | source _ _ k => exact absurd (k.trans h.source.symm) h2
    | cached _ _ k => exact absurd k (hnone h3)
    | bad _ _ _ _ _ _ _ _ k => exact absurd (h.loaders ▸ hg) k
    | empty ds' es' k' _ _ _ _ _ _ kd =>
      exact .missing _ ⟨h.callback, h.defaultDomain, h.errContext, h.source, h.fallback, h.loaders, h.languages, h.locales,
        fun d => (hd d).trans ((h.domains d).trans (kd d).symm)⟩
    | new _ _ _ _ _ _ _ _ _ k =>
      obtain ⟨d, hd⟩ := k
      rw [← h.loaders, hn d] at hd; cases hd
  | new ds es k cs h1 h2 hr h3 hg hex hcs hd hnd =>
    cases hs with
    | und k => exact absurd k h1
    | source _ _ k => exact absurd (k.trans h.source.symm) h2
    | cached _ _ k => exact absurd k (hnone h3)
    | bad _ _ _ _ _ _ _ _ k => exact absurd (h.loaders ▸ hg) k
    | empty _ _ _ _ _ _ _ _ k =>
      obtain ⟨d, hd⟩ := hex
      rw [h.loaders, k d] at hd; cases hd
    | new ds' es' k' cs' _ _ _ _ _ _ kcs kd _ =>
      refine .ok ⟨h.callback, h.defaultDomain, h.errContext, h.source, h.fallback, h.loaders, ?_, ?_, ?_⟩
      · simp only [h.languages]
      · exact sim_set h.locales lang ⟨rfl, rfl, fun d => by simp only; rw [hcs d, kcs d, h.loaders]⟩
      · intro d
        simp only
        rw [hd d, kd d, h.domains d, h.loaders]

theorem missing_sim {b c : Builder L N} (h : Sim b c) (e : Err L) : Sim (b.missing e) (c.missing e) := by
  obtain ⟨es, h1, _⟩ := missing_shape b e
  obtain ⟨es', h2, _⟩ := missing_shape c e
  rw [h1, h2]
  exact ⟨h.1, h.2, h.3, h.4, h.5, h.6, h.7, h.8, h.9⟩

/-- Both succeed with similar builders or both fail. -/
inductive Both : Except (Err L) (Builder L N) → Except (Err L) (Builder L N) → Prop
  | ok {b c : Builder L N} : Sim b c → Both (.ok b) (.ok c)
  | fail {e e' : Err L} : Both (.error e) (.error e')

/-- The outcome of an action. -/
def outcome : Builder L N × Except (Err L) Unit → Except (Err L) (Builder L N)
  | (_, .error e) => .error e
  | (b, .ok ()) => .ok b

theorem preload_both (w : World L N V) {o1 o2 : Order L N} (h1 : Perms o1) (h2 : Perms o2) (optional : Bool)
    (as : List (LangArg L)) : ∀ {b c : Builder L N}, Inv w b → Inv w c → NoMissing b.loaders → Sim b c →
      Both (outcome (b.preload w o1 optional as)) (outcome (c.preload w o2 optional as)) := by
  induction as with
  | nil => intro b c _ _ _ h; exact .ok h
  | cons a as ih =>
    intro b c hb hc hno h
    rw [Builder.preload, Builder.preload]
    cases ht : a.toTag w with
    | error e => exact .fail
    | ok tag =>
      simp only
      have hcb := createLocale_spec w h1 optional b hb.wf tag
      have hcc := createLocale_spec w h2 optional c hc.wf tag
      have hal := created_alike h hno hcb hcc
      obtain ⟨hsb, hib, _⟩ := created_inv hb hcb
      obtain ⟨hsc, hic, _⟩ := created_inv hc hcc
      generalize b.createLocale w o1 optional tag = r at hal hsb hib
      generalize c.createLocale w o2 optional tag = s at hal hsc hic
      cases hal with
      | ok hsim => exact ih hib hic (hsb.loaders ▸ hno) hsim
      | missing t hsim =>
        simp only
        cases optional with
        | false => exact .fail
        | true =>
          obtain ⟨hmb, hmbs⟩ := missing_inv hib (.missingLanguage t)
          obtain ⟨hmc, _⟩ := missing_inv hic (.missingLanguage t)
          exact ih hmb hmc (by rw [hmbs.loaders, hsb.loaders]; exact hno) (missing_sim hsim _)
      | @fail b1 c1 e e' he he' =>
        simp only
        cases optional with
        | false => exact .fail
        | true =>
          simp only [Bool.not_true, Bool.false_eq_true, if_false]
          exact .fail

theorem runActions_both (w : World L N V) {o1 o2 : Order L N} (h1 : Perms o1) (h2 : Perms o2)
    (as : List (Action L)) : ∀ {b c : Builder L N}, Inv w b → Inv w c → NoMissing b.loaders → Sim b c →
      Both (b.runActions w o1 as) (c.runActions w o2 as) := by
  induction as with
  | nil => intro b c _ _ _ h; exact .ok h
  | cons a as ih =>
    intro b c hb hc hno h
    rw [Builder.runActions, Builder.runActions]
    have hboth := preload_both w h1 h2 a.optional a.languages hb hc hno h
    cases hpb : b.preload w o1 a.optional a.languages with
    | mk b1 r1 =>
      cases hpc : c.preload w o2 a.optional a.languages with
      | mk c1 s1 =>
        rw [hpb, hpc] at hboth
        cases r1 with
        | error e =>
          cases s1 with
          | error e' => exact .fail
          | ok u => cases hboth
        | ok u =>
          cases s1 with
          | error e' => cases hboth
          | ok u' =>
            simp only [outcome] at hboth
            cases hboth with
            | ok hsim =>
              obtain ⟨hs1, hi1⟩ := preload_inv w h1 _ _ hb hpb
              obtain ⟨_, hi2⟩ := preload_inv w h2 _ _ hc hpc
              exact ih hi1 hi2 (hs1.loaders ▸ hno) hsim

/-! ## Lookups -/

omit [DecidableEq L] in
theorem lookupSingular_same (w : World L N V) {l m : Locale L N} (h : SameLocale l m) (cb : Bool) (d c id : Bytes)
    (vars : List V) : l.lookupSingular w cb d c id vars = m.lookupSingular w cb d c id vars := by
  unfold Locale.lookupSingular
  rw [h.isSource, h.catalogs, h.language]

omit [DecidableEq L] in
theorem lookupPlural_same (w : World L N V) {l m : Locale L N} (h : SameLocale l m) (cb : Bool) (d c s p : Bytes)
    (n : N) (vars : List V) : l.lookupPlural w cb d c s p n vars = m.lookupPlural w cb d c s p n vars := by
  unfold Locale.lookupPlural Locale.printSource
  rw [h.isSource, h.catalogs, h.language]

/-- Two bundles that no lookup can tell apart. -/
structure SameBundle (B C : Bundle L N) : Prop where
  callback : B.callback = C.callback
  defaultDomain : B.defaultDomain = C.defaultDomain
  errContext : B.errContext = C.errContext
  fallback : SameLocale B.fallback C.fallback
  source : SameLocale B.source C.source
  languages : B.languages = C.languages
  locales : ∀ t, SameOpt (B.locales.get? t) (C.locales.get? t)
  domains : ∀ d, d ∈ B.domains ↔ d ∈ C.domains

theorem finish_same {b c : Builder L N} (h : Sim b c) : SameBundle b.finish.1 c.finish.1 := by
  obtain ⟨s1, f1, p1, he1, hs1, hf1⟩ := finish_eq b
  obtain ⟨s2, f2, p2, he2, hs2, hf2⟩ := finish_eq c
  have hsrc : SameLocale s1 s2 := by
    have := h.locales b.sourceLanguage
    rcases hs1 with ⟨x, _⟩ | ⟨x, y, _⟩ <;> rcases hs2 with ⟨x', _⟩ | ⟨x', y', _⟩ <;> rw [← h.source] at x' <;>
      rw [x, x'] at this
    · exact this
    · cases this
    · cases this
    · subst y; subst y'; exact ⟨h.source, rfl, fun _ => rfl⟩
  have hfb : SameLocale f1 f2 := by
    have := h.locales b.fallbackLanguage
    rcases hf1 with x | ⟨x, y⟩ <;> rcases hf2 with x' | ⟨x', y'⟩ <;> rw [← h.fallback] at x' <;> rw [x, x'] at this
    · exact this
    · cases this
    · cases this
    · subst y; subst y'; exact hsrc
  rw [he1, he2]
  exact ⟨h.callback, h.defaultDomain, h.errContext, hfb, hsrc, h.languages, h.locales, h.domains⟩

/-- Two localizers that no lookup can tell apart. -/
structure SameLocalizer (l m : Localizer L N) : Prop where
  bundle : SameBundle l.bundle m.bundle
  locale : SameLocale l.locale m.locale
  defaultDomain : l.defaultDomain = m.defaultDomain
  found : l.localeFound = m.localeFound

theorem localizer_singular_same (w : World L N V) {l m : Localizer L N} (h : SameLocalizer l m) (d c id : Bytes)
    (vars : List V) : l.lookupSingular w d c id vars = m.lookupSingular w d c id vars := by
  unfold Localizer.lookupSingular
  rw [h.bundle.callback, lookupSingular_same w h.locale, lookupSingular_same w h.bundle.fallback,
    lookupSingular_same w h.bundle.source, h.locale.language, h.bundle.fallback.language, h.found]

theorem localizer_plural_same (w : World L N V) {l m : Localizer L N} (h : SameLocalizer l m) (d c s p : Bytes) (n : N)
    (vars : List V) : l.lookupPlural w d c s p n vars = m.lookupPlural w d c s p n vars := by
  unfold Localizer.lookupPlural
  rw [h.bundle.callback, lookupPlural_same w h.locale, lookupPlural_same w h.bundle.fallback,
    lookupPlural_same w h.bundle.source, h.found]

theorem fromTag_same {B C : Bundle L N} (h : SameBundle B C) (d : Bytes) (tag : Option L) :
    SameLocalizer (newLocalizerFromTag B d tag) (newLocalizerFromTag C d tag) := by
  unfold newLocalizerFromTag
  cases tag with
  | none => exact ⟨h, h.fallback, rfl, rfl⟩
  | some t =>
    simp only [Option.bind]
    have := h.locales t
    cases hb : B.locales.get? t with
    | none =>
      rw [hb] at this
      cases hc : C.locales.get? t with
      | none => exact ⟨h, h.fallback, rfl, rfl⟩
      | some y => rw [hc] at this; cases this
    | some x =>
      rw [hb] at this
      cases hc : C.locales.get? t with
      | none => rw [hc] at this; cases this
      | some y => rw [hc] at this; exact ⟨h, this, rfl, rfl⟩

end Verif.Proofs.Spreak
