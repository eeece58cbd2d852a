import Verif.Proofs.Spreak.Strict
import Verif.Props.Localizer
/-!
# C40, C43-C45, C68, C69: bundles

Options, loaders and iteration orders are arbitrary.
-/
namespace Verif.Props.Bundle
open Verif.Go Verif.Model.Spreak Verif.Proofs.Spreak Verif.Props.Localizer

variable {L N V : Type} [DecidableEq L]

/-! ## Examples -/

def enc (id : Bytes) : Catalog Nat Int := oneMessage id id id

/-- A loader that knows some languages; it reports the others as missing files. -/
def knows (langs : List Nat) : Loader Nat Int := fun t d => if t ∈ langs then .ok (some (enc d)) else .error .notFound

def ident : Order Nat Int := fun _ m => m
def rev : Order Nat Int := fun _ m => m.reverse

theorem ident_perms : Perms ident := fun _ _ => List.Perm.refl _
theorem rev_perms : Perms rev := fun _ m => List.reverse_perm m

/-- Two domains, source language 1, optional language 2, required language 3. -/
def demoOpts : List (Opt Nat Int) := [.source 1, .domainLoader b!"a" (some (knows [2, 3])),
  .domainLoader b!"b" (some (knows [3])), .language [.tag 2, .tag 9], .requiredLanguage [.tag 3], .fallback (.tag 3)]

/-! ## C43 -/

/-- The option makes a language required. -/
inductive Requires (w : World L N V) : Opt L N → L → Prop
  | required {ls : List (LangArg L)} {a : LangArg L} {t : L} : a ∈ ls → a.toTag w = .ok t → Requires w (.requiredLanguage ls) t
  | fallback {a : LangArg L} {t : L} : a.toTag w = .ok t → Requires w (.fallback a) t

/-- The option names an optional language. -/
def Names (w : World L N V) (o : Opt L N) (t : L) : Prop := ∃ ls, o = .language ls ∧ ∃ a ∈ ls, a.toTag w = .ok t

theorem finished {w : World L N V} {order : Order L N} (ho : Perms order) {opts : List (Opt L N)} {B : Bundle L N}
    {es : List (Event L)} (h : newBundle w order opts = .ok (B, es)) :
    ∃ b b', (Builder.start w).applyAll w opts = .ok b ∧ Fresh b ∧
      { b with domains := [] }.runActions w order b.actions = .ok b' ∧ b'.finish = (B, es) ∧
      Stays { b with domains := [] } b' ∧ Inv w b' ∧ B.locales = b'.locales ∧ B.languages = b'.languages ∧
      B.domains = b'.domains ∧ B.source.isSource = true ∧ B.source.language = b'.sourceLanguage := by
  obtain ⟨b, b', ha, hf, hr, hfin⟩ := newBundle_inv h
  obtain ⟨hs, hi⟩ := runActions_inv w ho _ (hf.inv w) hr
  obtain ⟨src, fb, post, he, hsrc, hfb⟩ := finish_eq b'
  have hB := hfin.symm.trans he
  have hB1 : B = _ := congrArg Prod.fst hB
  refine ⟨b, b', ha, hf, hr, hfin, hs, hi, by rw [hB1], by rw [hB1], by rw [hB1], ?_, ?_⟩
  · rw [hB1]
    rcases hsrc with ⟨hx, _⟩ | ⟨_, hx, _⟩
    · exact (hi.src _ _ hx).mpr rfl
    · rw [hx]
  · rw [hB1]
    rcases hsrc with ⟨hx, _⟩ | ⟨_, hx, _⟩
    · exact (hi.lang _ _ hx).1
    · rw [hx]

/-- A required language other than the source language has a catalog for every domain, if no option before it
names the language as an optional one. -/
theorem C43_required_partial {w : World L N V} {order : Order L N} (ho : Perms order) {pre post : List (Opt L N)}
    {o : Opt L N} {B : Bundle L N} {es : List (Event L)} (h : newBundle w order (pre ++ o :: post) = .ok (B, es))
    {t : L} (hreq : Requires w o t) (hsrc : t ≠ B.source.language) (hpre : ∀ o' ∈ pre, ¬ Names w o' t) :
    ∃ loc, B.locales.get? t = some loc ∧ ∀ d ld, .domainLoader d (some ld) ∈ pre ++ o :: post →
      ∃ c, ld t d = .ok c ∧ loc.catalogs.get? d = some c := by
  obtain ⟨b, b', ha, hf, hr, _, hs, hi, hloc, _, _, _, hsl⟩ := finished ho h
  obtain ⟨_, hact, hld⟩ := applyAll_fresh _ (fresh_start w) ha
  have hact' : b.actions = pre.flatMap (actionsOf w) ++ (actionsOf w o ++ post.flatMap (actionsOf w)) := by
    rw [hact, List.flatMap_append, List.flatMap_cons]; rfl
  obtain ⟨as, hao, hin⟩ : ∃ as, actionsOf w o = [⟨false, as⟩] ∧ ∃ a ∈ as, a.toTag w = .ok t := by
    cases hreq with
    | @required ls a _ hmem ht => exact ⟨ls, rfl, a, hmem, ht⟩
    | @fallback a _ ht => exact ⟨[.tag t], by simp only [actionsOf, ht], .tag t, List.mem_singleton.mpr rfl, rfl⟩
  have hinv := hf.inv w
  have hb0 : ({ b with domains := [] } : Builder L N).locales.get? t = none := by simp only [hf.locales]; rfl
  have hsrc' : t ≠ ({ b with domains := [] } : Builder L N).sourceLanguage := fun e => hsrc (e.trans (hs.source.symm.trans hsl.symm))
  have hget0 : ∀ d ld, ({ b with domains := [] } : Builder L N).loaders.get? d = some ld ↔ _ := hld
  generalize ({ b with domains := [] } : Builder L N) = b0 at hr hs hinv hb0 hsrc' hget0
  rw [hact', hao] at hr
  have hpre' : ∀ a ∈ pre.flatMap (actionsOf w), a.optional = true → ∀ x ∈ a.languages, x.toTag w ≠ .ok t := by
    intro a ha hopt x hx hxt
    obtain ⟨o', ho', hao'⟩ := List.mem_flatMap.mp ha
    apply hpre o' ho'
    cases o' with
    | language ls => simp only [actionsOf, List.mem_singleton] at hao'; subst hao'; exact ⟨ls, rfl, x, hx, hxt⟩
    | fallback l =>
      simp only [actionsOf] at hao'
      cases hl : l.toTag w with
      | error e => rw [hl] at hao'; cases hao'
      | ok tag => rw [hl] at hao'; simp only [List.mem_singleton] at hao'; subst hao'; cases hopt
    | source l => simp only [actionsOf, List.mem_singleton] at hao'; subst hao'; cases hopt
    | requiredLanguage l => simp only [actionsOf, List.mem_singleton] at hao'; subst hao'; cases hopt
    | _ => cases hao'
  obtain ⟨loc, hl, hd⟩ := runActions_required w ho hinv hb0 hr hsrc' hpre' hin
  refine ⟨loc, by rw [hloc]; exact hl, fun d ld hmem => ?_⟩
  have hget : b0.loaders.get? d = some ld := (hget0 d ld).mpr (Or.inr hmem)
  have hsome := hd d (GoMap.get?_isSome.mp (by rw [hget]; rfl))
  have hns : loc.isSource = false := by
    cases he : loc.isSource with
    | false => rfl
    | true => exact absurd (((hi.src t loc hl).mp he).trans hs.source) hsrc'
  rw [(hi.cats t loc hl hns).1 d, hs.loaders] at hsome ⊢
  simp only [loaded, hget] at hsome ⊢
  cases hc : ld t d with
  | ok c => exact ⟨c, rfl, rfl⟩
  | error e => rw [hc] at hsome; cases hsome

example : Requires demoWorld (.requiredLanguage [.tag 3] : Opt Nat Int) 3 ∧
    (∃ B es, newBundle demoWorld rev demoOpts = .ok (B, es) ∧ (3 : Nat) ≠ B.source.language ∧ B.languages = [1, 2, 3]) :=
  ⟨.required (List.mem_singleton.mpr rfl) rfl, _, _, rfl, by decide, by decide⟩

/-- Every loaded language has at least one catalog, and its catalogs are what the loaders gave. -/
theorem C43_optional {w : World L N V} {order : Order L N} (ho : Perms order) {opts : List (Opt L N)}
    {B : Bundle L N} {es : List (Event L)} (h : newBundle w order opts = .ok (B, es)) {t : L} {loc : Locale L N}
    (hl : B.locales.get? t = some loc) : loc.language = t ∧
      ((loc.isSource = true ∧ t = B.source.language) ∨
       (loc.isSource = false ∧ t ≠ B.source.language ∧ (∃ d c, loc.catalogs.get? d = some c) ∧
        ∀ d c, loc.catalogs.get? d = some c ↔ ∃ ld, .domainLoader d (some ld) ∈ opts ∧ ld t d = .ok c)) := by
  obtain ⟨b, b', ha, hf, hr, _, hs, hi, hloc, _, _, _, hsl⟩ := finished ho h
  obtain ⟨_, hact, hld⟩ := applyAll_fresh _ (fresh_start w) ha
  rw [hloc] at hl
  refine ⟨(hi.lang t loc hl).1, ?_⟩
  cases he : loc.isSource with
  | true => exact Or.inl ⟨rfl, ((hi.src t loc hl).mp he).trans hsl.symm⟩
  | false =>
    obtain ⟨h1, d, h2⟩ := hi.cats t loc hl he
    refine Or.inr ⟨rfl, fun e => ?_, ?_, fun d' c => ?_⟩
    · have := (hi.src t loc hl).mpr (e.trans hsl); rw [he] at this; cases this
    · cases hx : loaded t b'.loaders d with
      | none => rw [hx] at h2; cases h2
      | some c => exact ⟨d, c, (h1 d).trans hx⟩
    · rw [h1 d', hs.loaders, loaded]
      cases hg : b.loaders.get? d' with
      | none =>
        constructor
        · intro x; cases x
        · rintro ⟨ld, hm, _⟩
          have := (hld d' ld).mpr (Or.inr hm)
          rw [hg] at this; cases this
      | some ld =>
        simp only []
        constructor
        · intro x
          have hm := ((hld d' ld).mp hg).resolve_left (fun x => nomatch x)
          cases hc : ld t d' with
          | ok c' => rw [hc] at x; cases x; exact ⟨ld, hm, hc⟩
          | error e => rw [hc] at x; cases x
        · rintro ⟨ld', hm, hc⟩
          have := (hld d' ld').mpr (Or.inr hm)
          rw [hg] at this; cases this
          simp only [hc]

/-- A required language is always in the bundle, with at least one catalog; which domains lack one is decided by the loaders alone, and
this can only happen if an option before it names the language as an optional one. -/
theorem C43_required_exact {w : World L N V} {order : Order L N} (ho : Perms order) {pre post : List (Opt L N)}
    {o : Opt L N} {B : Bundle L N} {es : List (Event L)} (h : newBundle w order (pre ++ o :: post) = .ok (B, es))
    {t : L} (hreq : Requires w o t) (hsrc : t ≠ B.source.language) :
    ∃ loc, B.locales.get? t = some loc ∧ loc.isSource = false ∧ (∃ d c, loc.catalogs.get? d = some c) ∧
      (∀ d ld, .domainLoader d (some ld) ∈ pre ++ o :: post → (loc.catalogs.get? d = none ↔ ∀ c, ld t d ≠ .ok c)) ∧
      ((∃ d ld, .domainLoader d (some ld) ∈ pre ++ o :: post ∧ loc.catalogs.get? d = none) → ∃ o' ∈ pre, Names w o' t) := by
  have hpres : (B.locales.get? t).isSome = true := by
    obtain ⟨b, b', ha, hf, hr, _, hs, hi, hloc, _, _, _, hsl⟩ := finished ho h
    obtain ⟨_, hact, hld⟩ := applyAll_fresh _ (fresh_start w) ha
    have hact' : b.actions = pre.flatMap (actionsOf w) ++ (actionsOf w o ++ post.flatMap (actionsOf w)) := by
      rw [hact, List.flatMap_append, List.flatMap_cons]; rfl
    obtain ⟨as, hao, a, hin, hat⟩ : ∃ as, actionsOf w o = [⟨false, as⟩] ∧ ∃ a ∈ as, a.toTag w = .ok t := by
      cases hreq with
      | @required ls a _ hmem ht => exact ⟨ls, rfl, a, hmem, ht⟩
      | @fallback a _ ht => exact ⟨[.tag t], by simp only [actionsOf, ht], .tag t, List.mem_singleton.mpr rfl, rfl⟩
    have hinv := hf.inv w
    generalize ({ b with domains := [] } : Builder L N) = b0 at hr hinv
    rw [hact', hao, runActions_append] at hr
    cases hp : b0.runActions w order (pre.flatMap (actionsOf w)) with
    | error e => rw [hp] at hr; cases hr
    | ok b1 =>
      rw [hp] at hr
      simp only [List.cons_append, List.nil_append, Builder.runActions] at hr
      obtain ⟨_, hi1⟩ := runActions_inv w ho _ hinv hp
      cases hq : b1.preload w order false as with
      | mk b2 r =>
        rw [hq] at hr
        cases r with
        | error e => cases hr
        | ok u =>
          simp only [] at hr
          obtain ⟨_, hi2⟩ := preload_inv w ho _ _ hi1 hq
          obtain ⟨t', ht', hp1, _⟩ := preload_required w ho as hi1 hq a hin
          rw [hat] at ht'
          cases ht'
          rw [hloc]
          exact (runActions_inv w ho _ hi2 hr).1.present t hp1
  cases hl : B.locales.get? t with
  | none => rw [hl] at hpres; cases hpres
  | some loc =>
    obtain ⟨_, hc | ⟨h1, _, h3, h4⟩⟩ := C43_optional ho h hl
    · exact absurd hc.2 hsrc
    · have hdet : ∀ d ld, .domainLoader d (some ld) ∈ pre ++ o :: post → ∀ c, loc.catalogs.get? d = some c → ld t d = .ok c := by
        intro d ld hd c hc
        obtain ⟨ld', hm, hok⟩ := (h4 d c).mp hc
        obtain ⟨b, b', ha, _⟩ := finished ho h
        obtain ⟨_, _, hld⟩ := applyAll_fresh _ (fresh_start w) ha
        have e1 := (hld d ld).mpr (Or.inr hd)
        have e2 := (hld d ld').mpr (Or.inr hm)
        rw [e1] at e2
        cases e2
        exact hok
      refine ⟨loc, rfl, h1, h3, fun d ld hd => ⟨fun hn c hc => ?_, fun hn => ?_⟩, ?_⟩
      · rw [(h4 d c).mpr ⟨ld, hd, hc⟩] at hn; cases hn
      · cases hg : loc.catalogs.get? d with
        | none => rfl
        | some c => exact absurd (hdet d ld hd c hg) (hn c)
      · rintro ⟨d, ld, hd, hn⟩
        refine Classical.byContradiction fun hno => ?_
        obtain ⟨loc', hl', hall⟩ := C43_required_partial ho h hreq hsrc (fun o' ho' hx => hno ⟨o', ho', hx⟩)
        rw [hl] at hl'
        cases hl'
        obtain ⟨c, _, hc⟩ := hall d ld hd
        rw [hn] at hc
        cases hc

/-- The bundle of `C43_negation`: the required language is there, without a catalog for the domain `b`. -/
example : ∃ B es, newBundle demoWorld ident ([.domainLoader b!"a" (some (knows [2])), .domainLoader b!"b" (some (knows [])),
      .language [.tag 2]] ++ .requiredLanguage [.tag 2] :: []) = .ok (B, es) ∧
    Requires demoWorld (.requiredLanguage [.tag 2] : Opt Nat Int) 2 ∧ (2 : Nat) ≠ B.source.language :=
  ⟨_, _, rfl, .required (List.mem_singleton.mpr rfl) rfl, by decide⟩

/-- The bundle's source locale serves the source texts, whatever was loaded. -/
theorem C43_source {w : World L N V} {order : Order L N} (ho : Perms order) {opts : List (Opt L N)}
    {B : Bundle L N} {es : List (Event L)} (h : newBundle w order opts = .ok (B, es)) : B.source.isSource = true := by
  obtain ⟨_, _, _, _, _, _, _, _, _, _, _, hx, _⟩ := finished ho h
  exact hx

theorem applyAll_append {w : World L N V} (os os' : List (Opt L N)) : ∀ b : Builder L N,
    b.applyAll w (os ++ os') = match b.applyAll w os with | .error e => .error e | .ok b => b.applyAll w os' := by
  induction os with
  | nil => intro b; rfl
  | cons o os ih =>
    intro b
    simp only [List.cons_append, Builder.applyAll]
    cases b.apply w o with
    | error e => rfl
    | ok b1 => exact ih b1

theorem applyAll_source {w : World L N V} (os : List (Opt L N)) (hno : ∀ t, .source t ∉ os) :
    ∀ {b b' : Builder L N}, b.applyAll w os = .ok b' → b'.sourceLanguage = b.sourceLanguage := by
  induction os with
  | nil => intro b b' h; cases h; rfl
  | cons o os ih =>
    intro b b' h
    rw [Builder.applyAll] at h
    cases ho : b.apply w o with
    | error e => rw [ho] at h; cases h
    | ok b1 =>
      rw [ho] at h
      refine (ih (fun t ht => hno t (List.mem_cons_of_mem _ ht)) h).trans ?_
      cases o with
      | source t => exact absurd List.mem_cons_self (hno t)
      | fallback l =>
        simp only [Builder.apply] at ho
        cases hl : l.toTag w with
        | error e => rw [hl] at ho; cases ho
        | ok tag => rw [hl] at ho; simp only at ho; cases ho; rfl
      | domainLoader d l =>
        simp only [Builder.apply] at ho
        split at ho
        · cases ho
        · split at ho <;> cases ho; rfl
      | other ok => simp only [Builder.apply] at ho; split at ho <;> cases ho; rfl
      | _ => cases ho; try rfl

/-- The last source language given is the source language of the bundle, and it is one of its languages. -/
theorem C43_source_present {w : World L N V} {order : Order L N} (ho : Perms order) {pre post : List (Opt L N)}
    {t : L} (hpost : ∀ t', .source t' ∉ post) {B : Bundle L N} {es : List (Event L)}
    (h : newBundle w order (pre ++ .source t :: post) = .ok (B, es)) :
    B.source.language = t ∧ t ∈ B.languages ∧ B.locales.get? t = some B.source := by
  obtain ⟨b, b', ha, hf, hr, hfin, hs, hi, hloc, hlang, _, _, hsl⟩ := finished ho h
  obtain ⟨_, hact, hld⟩ := applyAll_fresh _ (fresh_start w) ha
  have hbs : b.sourceLanguage = t := by
    rw [applyAll_append] at ha
    cases hp : (Builder.start w : Builder L N).applyAll w pre with
    | error e => rw [hp] at ha; cases ha
    | ok b0 =>
      rw [hp] at ha
      simp only [Builder.applyAll, Builder.apply] at ha
      exact (applyAll_source post hpost ha)
  have hb's : b'.sourceLanguage = t := hs.source.trans hbs
  have hact' : b.actions = pre.flatMap (actionsOf w) ++ (⟨false, [.tag t]⟩ :: post.flatMap (actionsOf w)) := by
    rw [hact, List.flatMap_append, List.flatMap_cons]; rfl
  have hinv := hf.inv w
  generalize ({ b with domains := [] } : Builder L N) = b0 at hr hs hinv
  rw [hact', runActions_append] at hr
  cases hp : b0.runActions w order (pre.flatMap (actionsOf w)) with
  | error e => rw [hp] at hr; cases hr
  | ok b1 =>
    rw [hp] at hr
    obtain ⟨hs1, hi1⟩ := runActions_inv w ho _ hinv hp
    simp only [Builder.runActions] at hr
    cases hq : b1.preload w order false [.tag t] with
    | mk b2 r2 =>
      rw [hq] at hr
      cases r2 with
      | error e => cases hr
      | ok u =>
        simp only at hr
        obtain ⟨t', ht', hpres, _⟩ := preload_required w ho _ hi1 hq (.tag t) (List.mem_singleton.mpr rfl)
        cases ht'
        obtain ⟨_, hi2⟩ := preload_inv w ho _ _ hi1 hq
        obtain ⟨hs3, _⟩ := runActions_inv w ho _ hi2 hr
        have hfinal := hs3.present t hpres
        refine ⟨hsl.trans hb's, by rw [hlang]; exact (hi.langs t).mpr hfinal, ?_⟩
        obtain ⟨src, fb, post', he, hsrc, hfb⟩ := finish_eq b'
        have hB1 : B = _ := congrArg Prod.fst (hfin.symm.trans he)
        rcases hsrc with ⟨hx, _⟩ | ⟨hx, _, _⟩
        · rw [hB1]; simp only; rw [← hb's]; exact hx
        · rw [hb's] at hx; rw [hx] at hfinal; cases hfinal

/-- `WithLanguage(t)` before `WithRequiredLanguage(t)`: the language is kept although a domain has no catalog. -/
theorem C43_negation : ∃ B es loc, newBundle demoWorld ident [.domainLoader b!"a" (some (knows [2])),
      .domainLoader b!"b" (some (knows [])), .language [.tag 2], .requiredLanguage [.tag 2]] = .ok (B, es) ∧
    B.locales.get? 2 = some loc ∧ loc.catalogs.get? b!"b" = none ∧
    newBundle demoWorld ident [.domainLoader b!"a" (some (knows [2])),
      .domainLoader b!"b" (some (knows [])), .requiredLanguage [.tag 2]] = .error .notFound :=
  ⟨_, _, _, rfl, rfl, rfl, rfl⟩

/-- Localizers of a bundle are sane: C39, C41 and C67 apply to them. -/
theorem C43_localizer_sane {w : World L N V} {order : Order L N} (ho : Perms order) {opts : List (Opt L N)}
    {B : Bundle L N} {es : List (Event L)} (h : newBundle w order opts = .ok (B, es)) (domain : Bytes) (tag : Option L) :
    Sane (newLocalizerFromTag B domain tag) := by
  obtain ⟨b, b', ha, hf, hr, hfin, hs, hi, hloc, _, _, hsrcT, hsl⟩ := finished ho h
  obtain ⟨src, fb, post', he, hsrc, hfb⟩ := finish_eq b'
  have hB1 : B = _ := congrArg Prod.fst (hfin.symm.trans he)
  unfold newLocalizerFromTag
  cases hg : tag.bind B.locales.get? with
  | none => exact ⟨hsrcT, fun _ => rfl⟩
  | some l =>
    refine ⟨hsrcT, fun heq => ?_⟩
    cases tag with
    | none => cases hg
    | some t =>
      simp only [Option.bind, hloc] at hg
      simp only at heq ⊢
      have hl := (hi.lang t l hg).1
      have hBf : B.fallback = fb := by rw [hB1]
      have hBs : B.source = src := by rw [hB1]
      rw [hBf] at heq ⊢
      have hsrcl : src.language = b'.sourceLanguage := by rw [← hBs]; exact hsl
      rcases hfb with hx | ⟨hx, hy⟩
      · have := (hi.lang _ _ hx).1
        rw [← hl, heq, this, hx] at hg; cases hg; rfl
      · subst hy
        rw [← hl, heq, hsrcl] at hg
        rcases hsrc with ⟨hz, _⟩ | ⟨hz, _, _⟩
        · rw [hz] at hg; cases hg; rfl
        · rw [hz] at hg; cases hg

/-! ## C40 -/

/-- If no loader returns a nil catalog, no lookup through a localizer of the bundle panics, and it gives a text. -/
theorem C40_bundle_partial {w : World L N V} {order : Order L N} (ho : Perms order) {opts : List (Opt L N)}
    {B : Bundle L N} {es : List (Event L)} (h : newBundle w order opts = .ok (B, es))
    (hnil : ∀ d ld, .domainLoader d (some ld) ∈ opts → ∀ t, ld t d ≠ .ok none) (dd : Bytes) (tag : Option L)
    (domain ctx id p : Bytes) (n : N) (vars : List V) :
    (∃ tr t e, (newLocalizerFromTag B dd tag).lookupSingular w domain ctx id vars = .ok (tr, t, e)) ∧
    (∃ tr t e, (newLocalizerFromTag B dd tag).lookupPlural w domain ctx id p n vars = .ok (tr, t, e)) := by
  have hsane := C43_localizer_sane ho h dd tag
  have hloc : ∀ t loc, B.locales.get? t = some loc → NonNil loc domain := by
    intro t loc hl hs hc
    rcases (C43_optional ho h hl).2 with ⟨h1, _⟩ | ⟨_, _, _, h2⟩
    · rw [h1] at hs; cases hs
    · obtain ⟨ld, hm, hld⟩ := (h2 domain none).mp hc
      exact hnil domain ld hm t hld
  have hfb : NonNil B.fallback domain := by
    obtain ⟨b, b', ha, hf, hr, hfin, hs, hi, hlocs, _, _, hsrcT, hsl⟩ := finished ho h
    obtain ⟨src, fb, post', he, hsrc, hfb⟩ := finish_eq b'
    have hB1 : B = _ := congrArg Prod.fst (hfin.symm.trans he)
    have hBf : B.fallback = fb := by rw [hB1]
    have hBs : B.source = src := by rw [hB1]
    rcases hfb with hx | ⟨hx, hy⟩
    · rw [hBf]; exact hloc _ _ (by rw [hlocs]; exact hx)
    · rw [hBf, hy, ← hBs]; intro hns; rw [hsrcT] at hns; cases hns
  have hown : NonNil (newLocalizerFromTag B dd tag).locale domain := by
    unfold newLocalizerFromTag
    cases hg : tag.bind B.locales.get? with
    | none => exact hfb
    | some l =>
      cases tag with
      | none => cases hg
      | some t => exact hloc t l hg
  have hfb' : NonNil (newLocalizerFromTag B dd tag).bundle.fallback domain := by
    have : (newLocalizerFromTag B dd tag).bundle = B := by unfold newLocalizerFromTag; split <;> rfl
    rw [this]; exact hfb
  obtain ⟨tr, t, e, h1, _⟩ := C40_text_partial w hsane domain ctx id vars hown hfb'
  obtain ⟨tr', t', e', h2, _⟩ := C40_text_plural_partial w hsane domain ctx id p n vars hown hfb'
  exact ⟨⟨tr, t, e, h1⟩, ⟨tr', t', e', h2⟩⟩

example : ∀ d ld, Opt.domainLoader d (some ld) ∈ demoOpts → ∀ t, ld t d ≠ .ok none := by
  intro d ld h t hc
  simp only [demoOpts, List.mem_cons, Opt.domainLoader.injEq, Option.some.injEq, reduceCtorEq, List.not_mem_nil, or_false,
    false_or] at h
  rcases h with ⟨_, rfl⟩ | ⟨_, rfl⟩ <;> (unfold knows at hc; split at hc <;> cases hc)

/-! ## C44 -/

/-- No loader of the options returns an `ErrMissingLanguage`. -/
def NoMissingOpts (opts : List (Opt L N)) : Prop :=
  ∀ d ld, .domainLoader d (some ld) ∈ opts → ∀ t t', ld t d ≠ .error (.missingLanguage t')

/-- Two iteration orders: both calls fail, or both succeed with the same languages and domains, and no lookup can
tell the bundles apart. -/
theorem C44_order_partial {w : World L N V} {o1 o2 : Order L N} (h1 : Perms o1) (h2 : Perms o2) {opts : List (Opt L N)}
    (hno : NoMissingOpts opts) :
    (∃ e e', newBundle w o1 opts = .error e ∧ newBundle w o2 opts = .error e') ∨
    (∃ B C es es', newBundle w o1 opts = .ok (B, es) ∧ newBundle w o2 opts = .ok (C, es') ∧
      B.languages = C.languages ∧ (∀ t, (B.locales.get? t).isSome ↔ (C.locales.get? t).isSome) ∧
      (∀ d, d ∈ B.domains ↔ d ∈ C.domains) ∧
      ∀ dd tag, (∀ domain ctx id vars, (newLocalizerFromTag B dd tag).lookupSingular w domain ctx id vars =
          (newLocalizerFromTag C dd tag).lookupSingular w domain ctx id vars) ∧
        (∀ domain ctx id p n vars, (newLocalizerFromTag B dd tag).lookupPlural w domain ctx id p n vars =
          (newLocalizerFromTag C dd tag).lookupPlural w domain ctx id p n vars)) := by
  unfold newBundle
  cases ha : (Builder.start w : Builder L N).applyAll w opts with
  | error e => exact Or.inl ⟨e, e, rfl, rfl⟩
  | ok b =>
    obtain ⟨hf, hact, hld⟩ := applyAll_fresh _ (fresh_start w) ha
    have hnm : NoMissing b.loaders := by
      rintro ⟨d, ld⟩ hp t t' hx
      have hm := ((hld d ld).mp (GoMap.get?_of_mem hf.wf hp)).resolve_left (fun x => nomatch x)
      exact hno d ld hm t t' hx
    have hsim : Sim { b with domains := [] } { b with domains := [] } :=
      ⟨rfl, rfl, rfl, rfl, rfl, rfl, rfl, fun t => by
        simp only [hf.locales]; trivial, fun _ => Iff.rfl⟩
    have hb := runActions_both w h1 h2 b.actions (hf.inv w) (hf.inv w) hnm hsim
    simp only
    cases hr1 : { b with domains := [] }.runActions w o1 b.actions with
    | error e =>
      cases hr2 : { b with domains := [] }.runActions w o2 b.actions with
      | error e' => exact Or.inl ⟨e, e', rfl, rfl⟩
      | ok c => rw [hr1, hr2] at hb; cases hb
    | ok b1 =>
      cases hr2 : { b with domains := [] }.runActions w o2 b.actions with
      | error e' => rw [hr1, hr2] at hb; cases hb
      | ok c1 =>
        rw [hr1, hr2] at hb
        cases hb with
        | ok hs =>
          have hsame := finish_same hs
          refine Or.inr ⟨b1.finish.1, c1.finish.1, b1.finish.2, c1.finish.2, rfl, rfl, hsame.languages, fun t => ?_,
            hsame.domains, fun dd tag => ?_⟩
          · have := hsame.locales t
            revert this
            cases b1.finish.1.locales.get? t <;> cases c1.finish.1.locales.get? t <;> simp [SameOpt]
          · have hl := fromTag_same hsame dd tag
            exact ⟨fun domain ctx id vars => localizer_singular_same w hl domain ctx id vars,
              fun domain ctx id p n vars => localizer_plural_same w hl domain ctx id p n vars⟩

example : NoMissingOpts demoOpts := by
  intro d ld h t t' hc
  simp only [demoOpts, List.mem_cons, Opt.domainLoader.injEq, Option.some.injEq, reduceCtorEq, List.not_mem_nil, or_false,
    false_or] at h
  rcases h with ⟨_, rfl⟩ | ⟨_, rfl⟩ <;> (unfold knows at hc; split at hc <;> cases hc)

/-- A loader that returns an `ErrMissingLanguage` next to a loader with another error: one order gives a bundle,
the other an error. -/
theorem C44_negation :
    let opts : List (Opt Nat Int) := [.domainLoader b!"a" (some fun t _ => .error (.missingLanguage t)),
      .domainLoader b!"b" (some fun _ _ => .error (.loader 1)), .language [.tag 2]]
    (∃ B es, newBundle demoWorld ident opts = .ok (B, es)) ∧ newBundle demoWorld rev opts = .error (.loader 1) :=
  ⟨⟨_, _, rfl⟩, rfl⟩

/-! ## C45 -/

/-- `Init` is called exactly once; before it, the print function of every loaded language was already asked for.
So every bundle that loads a language refutes C45. -/
theorem C45_negation {w : World L N V} {order : Order L N} (ho : Perms order) {opts : List (Opt L N)} {B : Bundle L N}
    {es : List (Event L)} (h : newBundle w order opts = .ok (B, es)) : ∃ pre post, es = pre ++ .init B.languages :: post ∧
      (∀ t ∈ B.languages, .getPrintFunc t ∈ pre) ∧ (∀ ls, .init ls ∉ pre) ∧ (∀ ls, .init ls ∉ post) := by
  obtain ⟨b, b', ha, hf, hr, hfin, hs, hi, _, hlang, _⟩ := finished ho h
  obtain ⟨src, fb, post', he, hsrc, hfb⟩ := finish_eq b'
  have hE : es = _ := congrArg Prod.snd (hfin.symm.trans he)
  refine ⟨b'.events, post', by rw [hE, hlang], fun t ht => ?_, hi.noInit, fun ls hin => ?_⟩
  · rw [hlang] at ht
    have := (hi.langs t).mp ht
    cases hx : b'.locales.get? t with
    | none => rw [hx] at this; cases this
    | some loc => exact hi.printed t loc hx
  · rcases hsrc with ⟨_, hx⟩ | ⟨_, _, hx⟩
    · rw [hx] at hin; cases hin
    · rw [hx] at hin; rcases List.mem_singleton.mp hin with hin; cases hin

example : ∃ B es, newBundle demoWorld rev demoOpts = .ok (B, es) ∧ Event.getPrintFunc 1 ∈ es ∧ B.languages ≠ [] :=
  ⟨_, _, rfl, by decide, by decide⟩

/-- Without languages the printer is initialised before it is used. -/
theorem C45_no_language_partial {w : World L N V} {order : Order L N} {opts : List (Opt L N)}
    (hno : ∀ o ∈ opts, actionsOf w o = []) {B : Bundle L N} {es : List (Event L)}
    (h : newBundle w order opts = .ok (B, es)) : es = [.init [], .getPrintFunc w.und] := by
  obtain ⟨b, b', ha, hf, hr, hfin⟩ := newBundle_inv h
  obtain ⟨_, hact, _⟩ := applyAll_fresh _ (fresh_start w) ha
  have hnil : b.actions = [] := by
    rw [hact]
    simp only [Builder.start, List.nil_append, List.flatMap_eq_nil_iff]
    exact hno
  have hsrc : b.sourceLanguage = w.und := applyAll_source opts (fun t ht => by have := hno _ ht; cases this) ha
  have hb' : b' = { b with domains := [] } := by
    generalize ({ b with domains := [] } : Builder L N) = b0 at hr ⊢
    rw [hnil] at hr
    cases hr; rfl
  have : es = b'.finish.2 := by rw [hfin]
  rw [this, hb']
  simp only [Builder.finish, hf.locales, hf.events, hf.languages, GoMap.get?, hsrc]
  rfl

example : (∃ B es, newBundle demoWorld ident [.domainLoader b!"a" (some (knows [2]))] = .ok (B, es)) ∧
    ∀ o ∈ [Opt.domainLoader b!"a" (some (knows [2]))], actionsOf demoWorld o = [] :=
  ⟨⟨_, _, rfl⟩, fun o h => by cases List.mem_singleton.mp h; rfl⟩

/-! ## C68 -/

/-- A matched language gives a localizer for that language; without a match the fallback locale is used and marked
as not found. -/
theorem C68_localizer {w : World L N V} {order : Order L N} (ho : Perms order) {opts : List (Opt L N)} {B : Bundle L N}
    {es : List (Event L)} (h : newBundle w order opts = .ok (B, es)) (acceptLanguage : Bytes → Option (List L))
    (matcher : List L → Option Nat) (domain : Bytes) (langs : List (Accept L)) :
    (matcher (acceptTags acceptLanguage langs) = none →
      newLocalizerForDomain acceptLanguage matcher B domain langs = .ok ⟨B, B.fallback, domain, false⟩) ∧
    (∀ i t, matcher (acceptTags acceptLanguage langs) = some i → B.languages[i]? = some t →
      ∃ loc, loc.language = t ∧ B.locales.get? t = some loc ∧
        newLocalizerForDomain acceptLanguage matcher B domain langs = .ok ⟨B, loc, domain, true⟩) := by
  obtain ⟨b, b', ha, hf, hr, hfin, hs, hi, hloc, hlang, _⟩ := finished ho h
  constructor
  · intro hm
    unfold newLocalizerForDomain newLocalizerFromTag
    rw [hm]; rfl
  · intro i t hm ht
    have hmem : t ∈ B.languages := List.mem_of_getElem? ht
    rw [hlang] at hmem
    have := (hi.langs t).mp hmem
    cases hx : b'.locales.get? t with
    | none => rw [hx] at this; cases this
    | some loc =>
      refine ⟨loc, (hi.lang t loc hx).1, by rw [hloc]; exact hx, ?_⟩
      unfold newLocalizerForDomain newLocalizerFromTag
      simp only [hm, ht, Option.bind, hloc, hx]

/-- The tags given to the matcher: tags and the tags of texts, in order; anything else is dropped. -/
theorem C68_tags (acceptLanguage : Bytes → Option (List L)) (langs : List (Accept L)) :
    acceptTags acceptLanguage langs = langs.flatMap fun
      | .tag t => [t]
      | .text s => (acceptLanguage s).getD []
      | .other => [] := by
  induction langs with
  | nil => rfl
  | cons a rest ih => cases a <;> simp [acceptTags, ih]

example : ∃ B es loc, newBundle demoWorld rev demoOpts = .ok (B, es) ∧
    newLocalizerForDomain (fun _ => none) (fun _ => some 2) B [] [.tag 3, .other] = .ok ⟨B, loc, [], true⟩ ∧
    loc.language = 3 := ⟨_, _, _, rfl, rfl, rfl⟩

/-! ## C69 -/

/-- `Domains` and locales agree. -/
def DomInv (b : Builder L N) : Prop :=
  ∀ d, d ∈ b.domains ↔ ∃ t loc, b.locales.get? t = some loc ∧ (loc.catalogs.get? d).isSome

theorem created_dom {w : World L N V} {optional : Bool} {b : Builder L N} {lang : L} (h : Inv w b) (hd : DomInv b)
    (hno : NoMissing b.loaders) {r : Builder L N × Except (Err L) Unit} (hc : Created w optional b lang r)
    (hr : r.2 = .ok () ∨ ∃ l, r.2 = .error (.missingLanguage l)) (hs0 : ∀ loc, b.locales.get? b.sourceLanguage = some loc → loc.catalogs = []) :
    DomInv r.1 ∧ (∀ loc, r.1.locales.get? r.1.sourceLanguage = some loc → loc.catalogs = []) := by
  cases hc with
  | und => exact ⟨hd, hs0⟩
  | cached => exact ⟨hd, hs0⟩
  | source es h1 h2 he =>
    refine ⟨fun d => ?_, fun loc hl => ?_⟩
    · simp only
      rw [hd d]
      constructor
      · rintro ⟨t, loc, hl, hs⟩
        refine ⟨t, loc, ?_, hs⟩
        rw [GoMap.get?_set, if_neg]
        · exact hl
        · intro e
          rw [← e, h2] at hl
          rw [hs0 loc hl] at hs; cases hs
      · rintro ⟨t, loc, hl, hs⟩
        rw [GoMap.get?_set] at hl
        split at hl
        · cases hl; cases hs
        · exact ⟨t, loc, hl, hs⟩
    · simp only [GoMap.get?_set, if_pos h2] at hl
      cases hl; rfl
  | bad ds es k e h1 h2 hrr h3 hg he hnd =>
    obtain ⟨p, hp, hpe⟩ := he
    rcases hr with hr | ⟨l, hr⟩
    · cases hr
    · cases hr; exact absurd hpe (hno p hp _ _)
  | empty ds es k h1 h2 hrr h3 hg hn hds hnd => exact ⟨fun d => (hds d).trans (hd d), hs0⟩
  | new ds es k cs h1 h2 hrr h3 hg hex hcs hds hnd =>
    refine ⟨fun d => ?_, fun loc hl => ?_⟩
    · simp only
      rw [hds d, hd d]
      constructor
      · rintro (⟨t, loc, hl, hs⟩ | hs)
        · refine ⟨t, loc, ?_, hs⟩
          rw [GoMap.get?_set, if_neg (fun e => by rw [e, hl] at h3; cases h3)]
          exact hl
        · exact ⟨lang, _, by rw [GoMap.get?_set, if_pos rfl], by rw [hcs d]; exact hs⟩
      · rintro ⟨t, loc, hl, hs⟩
        rw [GoMap.get?_set] at hl
        split at hl
        · cases hl; exact Or.inr (by rw [← hcs d]; exact hs)
        · exact Or.inl ⟨t, loc, hl, hs⟩
    · simp only [GoMap.get?_set, if_neg h2] at hl
      exact hs0 loc hl

theorem preload_dom (w : World L N V) {order : Order L N} (ho : Perms order) (optional : Bool) (as : List (LangArg L)) :
    ∀ {b b' : Builder L N}, Inv w b → DomInv b → NoMissing b.loaders →
      (∀ loc, b.locales.get? b.sourceLanguage = some loc → loc.catalogs = []) →
      b.preload w order optional as = (b', .ok ()) →
      DomInv b' ∧ (∀ loc, b'.locales.get? b'.sourceLanguage = some loc → loc.catalogs = []) := by
  induction as with
  | nil => intro b b' _ h _ h' hr; cases hr; exact ⟨h, h'⟩
  | cons a as ih =>
    intro b b' h hd hno hs0 hr
    rw [Builder.preload] at hr
    cases ht : a.toTag w with
    | error e => rw [ht] at hr; cases hr
    | ok tag =>
      rw [ht] at hr
      simp only at hr
      have hcr := createLocale_spec w ho optional b h.wf tag
      obtain ⟨hs, hi, _⟩ := created_inv h hcr
      have hdom := created_dom h hd hno hcr
      generalize b.createLocale w order optional tag = r at hr hs hi hdom
      obtain ⟨b1, r1⟩ := r
      cases r1 with
      | ok u =>
        simp only at hr
        obtain ⟨hd1, hs1⟩ := hdom (Or.inl rfl) hs0
        exact ih hi hd1 (hs.loaders ▸ hno) hs1 hr
      | error e =>
        simp only at hr
        cases hop : optional with
        | false => rw [hop] at hr; cases hr
        | true =>
          rw [hop] at hr
          cases e with
          | missingLanguage l =>
            simp only [Bool.not_true, Bool.false_eq_true, if_false] at hr
            obtain ⟨hd1, hs1⟩ := hdom (Or.inr ⟨l, rfl⟩) hs0
            obtain ⟨hm, hms⟩ := missing_inv hi (.missingLanguage l)
            obtain ⟨es, hes, _⟩ := missing_shape b1 (.missingLanguage l)
            rw [← hop] at hr
            rw [hes] at hr hm
            exact ih hm hd1 (by simp only; exact hs.loaders ▸ hno) hs1 hr
          | _ => cases hr

theorem runActions_dom (w : World L N V) {order : Order L N} (ho : Perms order) (as : List (Action L)) :
    ∀ {b b' : Builder L N}, Inv w b → DomInv b → NoMissing b.loaders →
      (∀ loc, b.locales.get? b.sourceLanguage = some loc → loc.catalogs = []) →
      b.runActions w order as = .ok b' → DomInv b' := by
  induction as with
  | nil => intro b b' _ h _ _ hr; cases hr; exact h
  | cons a as ih =>
    intro b b' h hd hno hs0 hr
    rw [Builder.runActions] at hr
    cases hp : b.preload w order a.optional a.languages with
    | mk b1 r1 =>
      rw [hp] at hr
      cases r1 with
      | error e => cases hr
      | ok u =>
        simp only at hr
        obtain ⟨hs, hi⟩ := preload_inv w ho _ _ h hp
        obtain ⟨hd1, hs1⟩ := preload_dom w ho _ _ h hd hno hs0 hp
        exact ih hi hd1 (hs.loaders ▸ hno) hs1 hr

/-- The languages given to the matcher and to the printer are those with a locale. -/
theorem C69_languages {w : World L N V} {order : Order L N} (ho : Perms order) {opts : List (Opt L N)} {B : Bundle L N}
    {es : List (Event L)} (h : newBundle w order opts = .ok (B, es)) (t : L) :
    t ∈ B.languages ↔ t ∈ B.locales.keys := by
  obtain ⟨_, _, _, _, _, _, _, hi, hloc, hlang, _⟩ := finished ho h
  rw [hlang, hloc, hi.langs t, GoMap.get?_isSome]

/-- `Domains` lists, once each, the domains with a catalog in at least one language. -/
theorem C69_domains_partial {w : World L N V} {order : Order L N} (ho : Perms order) {opts : List (Opt L N)}
    (hno : NoMissingOpts opts) {B : Bundle L N} {es : List (Event L)} (h : newBundle w order opts = .ok (B, es)) :
    B.domains.Nodup ∧ ∀ d, d ∈ B.domains ↔ ∃ t loc, B.locales.get? t = some loc ∧ ∃ c, loc.catalogs.get? d = some c := by
  obtain ⟨b, b', ha, hf, hr, hfin, hs, hi, hloc, hlang, hdom, _⟩ := finished ho h
  obtain ⟨_, hact, hld⟩ := applyAll_fresh _ (fresh_start w) ha
  have hnm : NoMissing b.loaders := by
    rintro ⟨d, ld⟩ hp t t' hx
    have hm := ((hld d ld).mp (GoMap.get?_of_mem hf.wf hp)).resolve_left (fun x => nomatch x)
    exact hno d ld hm t t' hx
  have hdi : DomInv b' := by
    refine runActions_dom w ho _ (hf.inv w) ?_ hnm ?_ hr
    · intro d
      simp only [hf.locales]
      exact ⟨(fun x => nomatch x), (fun ⟨_, _, x, _⟩ => nomatch x)⟩
    · intro loc hl; simp only [hf.locales] at hl; cases hl
  rw [hdom, hloc]
  refine ⟨hi.nodup, fun d => ?_⟩
  rw [hdi d]
  constructor
  · rintro ⟨t, loc, hl, hc⟩; exact ⟨t, loc, hl, Option.isSome_iff_exists.mp hc⟩
  · rintro ⟨t, loc, hl, hc⟩; exact ⟨t, loc, hl, Option.isSome_iff_exists.mpr hc⟩

/-- A loader that returns an `ErrMissingLanguage` after another one succeeded: the domain is listed although no
language has it. -/
theorem C69_negation : ∃ B es, newBundle demoWorld ident [.domainLoader b!"a" (some (knows [2])),
      .domainLoader b!"b" (some fun t _ => .error (.missingLanguage t)), .language [.tag 2]] = .ok (B, es) ∧
    B.domains = [b!"a"] ∧ B.locales = [] := ⟨_, _, rfl, rfl, rfl⟩

example : ∃ B es, newBundle demoWorld rev demoOpts = .ok (B, es) ∧ B.domains = [b!"a", b!"b"] := ⟨_, _, rfl, rfl⟩

/-! ## C79 -/

/-- The option asks for a language: as source language, as fallback, as required or as optional language. -/
inductive Asks (w : World L N V) : Opt L N → L → Prop
  | source (t : L) : Asks w (.source t) t
  | fallback {a : LangArg L} {t : L} : a.toTag w = .ok t → Asks w (.fallback a) t
  | required {ls : List (LangArg L)} {a : LangArg L} {t : L} : a ∈ ls → a.toTag w = .ok t → Asks w (.requiredLanguage ls) t
  | optional {ls : List (LangArg L)} {a : LangArg L} {t : L} : a ∈ ls → a.toTag w = .ok t → Asks w (.language ls) t

theorem no_failure {w : World L N V} {order : Order L N} (ho : Perms order) {opts : List (Opt L N)}
    {B : Bundle L N} {es : List (Event L)} (h : newBundle w order opts = .ok (B, es))
    {o : Opt L N} (hm : o ∈ opts) {t : L} (ha : Asks w o t) (hu : t ≠ w.und) (hs : t ≠ B.source.language)
    (hno : ∀ d ld l, .domainLoader d (some ld) ∈ opts → ld t d ≠ .error (.missingLanguage l))
    {d : Bytes} {ld : Loader L N} (hl : .domainLoader d (some ld) ∈ opts) :
    (∃ c, ld t d = .ok c) ∨ ld t d = .error .notFound := by
  obtain ⟨b, b', hap, hf, hr, _, hst, _, _, _, _, _, hsl⟩ := finished ho h
  obtain ⟨_, hact, hld⟩ := applyAll_fresh _ (fresh_start w) hap
  have hnm : ∀ p ∈ b.loaders, ∀ l, p.2 t p.1 ≠ .error (.missingLanguage l) := by
    rintro ⟨d, ld⟩ hp l hx
    have hm := ((hld d ld).mp (GoMap.get?_of_mem hf.wf hp)).resolve_left (fun x => nomatch x)
    exact hno d ld l hm hx
  have hin : ∃ a ∈ b.actions, ∃ x ∈ a.languages, x.toTag w = .ok t := by
    rw [hact]
    have key : ∀ a, a ∈ actionsOf w o → a ∈ (Builder.start w : Builder L N).actions ++ opts.flatMap (actionsOf w) :=
      fun a ha => List.mem_append_right _ (List.mem_flatMap.mpr ⟨o, hm, ha⟩)
    cases ha with
    | source t => exact ⟨_, key _ (List.mem_singleton.mpr rfl), _, List.mem_singleton.mpr rfl, rfl⟩
    | @fallback a _ ht =>
      refine ⟨⟨false, [.tag t]⟩, key _ ?_, .tag t, List.mem_singleton.mpr rfl, rfl⟩
      simp only [actionsOf, ht, List.mem_singleton]
    | required h1 h2 => exact ⟨_, key _ (List.mem_singleton.mpr rfl), _, h1, h2⟩
    | optional h1 h2 => exact ⟨_, key _ (List.mem_singleton.mpr rfl), _, h1, h2⟩
  obtain ⟨a, ha1, x, hx, hxt⟩ := hin
  have hget : b.loaders.get? d = some ld := (hld d ld).mpr (Or.inr hl)
  have := runActions_good w ho b.actions (hf.inv w) hr a ha1 x hx t hxt hu
    (fun e => hs (e.trans (hst.source.symm.trans hsl.symm))) hnm _ (GoMap.mem_of_get? hget)
  rcases this with h1 | ⟨_, h1⟩
  · exact .inl h1
  · exact .inr h1

/-- If a bundle is created, every loader gave a catalog or reported a missing file, for every language that was asked
for: no failure is passed over.  Missing for the full property: loaders that return an `ErrMissingLanguage`
(`C79_negation`). -/
theorem C79_no_failure_partial {w : World L N V} {order : Order L N} (ho : Perms order) {opts : List (Opt L N)}
    (hno : NoMissingOpts opts) {B : Bundle L N} {es : List (Event L)} (h : newBundle w order opts = .ok (B, es))
    {o : Opt L N} (hm : o ∈ opts) {t : L} (ha : Asks w o t) (hu : t ≠ w.und) (hs : t ≠ B.source.language)
    {d : Bytes} {ld : Loader L N} (hl : .domainLoader d (some ld) ∈ opts) :
    (∃ c, ld t d = .ok c) ∨ ld t d = .error .notFound :=
  no_failure ho h hm ha hu hs (fun d ld l hd => hno d ld hd t l) hl

example : ∃ B es, newBundle demoWorld rev demoOpts = .ok (B, es) ∧ (9 : Nat) ≠ demoWorld.und ∧ 9 ≠ B.source.language ∧
    Asks demoWorld (.language [.tag 2, .tag 9] : Opt Nat Int) 9 :=
  ⟨_, _, rfl, by decide, by decide, .optional (List.mem_cons_of_mem _ (List.mem_singleton.mpr rfl)) rfl⟩

/-- The same for the supported languages, whatever the loaders return. -/
theorem C79_supported {w : World L N V} {order : Order L N} (ho : Perms order) {opts : List (Opt L N)}
    {B : Bundle L N} {es : List (Event L)} (h : newBundle w order opts = .ok (B, es))
    {t : L} (ht : t ∈ B.languages) (hs : t ≠ B.source.language) {d : Bytes} {ld : Loader L N}
    (hl : .domainLoader d (some ld) ∈ opts) : (∃ c, ld t d = .ok c) ∨ ld t d = .error .notFound := by
  obtain ⟨b, b', hap, hf, hr, _, hst, hi, _, hlang, _, _, hsl⟩ := finished ho h
  obtain ⟨_, _, hld⟩ := applyAll_fresh _ (fresh_start w) hap
  rw [hlang, hi.langs] at ht
  cases hg : b'.locales.get? t with
  | none => rw [hg] at ht; cases ht
  | some loc =>
    have hns : loc.isSource = false := by
      cases he : loc.isSource with
      | false => rfl
      | true => exact absurd (((hi.src t loc hg).mp he).trans hsl.symm) hs
    have hget : b'.loaders.get? d = some ld := by
      rw [hst.loaders]
      exact (hld d ld).mpr (Or.inr hl)
    rcases hi.good t loc hg hns _ (GoMap.mem_of_get? hget) with h1 | ⟨_, h1⟩
    · exact .inl h1
    · exact .inr h1

/-- Whatever the loaders return: no failure is passed over for a language that was asked for, unless a loader says that this very language
is missing; the language is then not in the bundle. -/
theorem C79_no_failure {w : World L N V} {order : Order L N} (ho : Perms order) {opts : List (Opt L N)}
    {B : Bundle L N} {es : List (Event L)} (h : newBundle w order opts = .ok (B, es))
    {o : Opt L N} (hm : o ∈ opts) {t : L} (ha : Asks w o t) (hu : t ≠ w.und) (hs : t ≠ B.source.language) :
    (∀ d ld, .domainLoader d (some ld) ∈ opts → (∃ c, ld t d = .ok c) ∨ ld t d = .error .notFound) ∨
    ((∃ d ld l, .domainLoader d (some ld) ∈ opts ∧ ld t d = .error (.missingLanguage l)) ∧ t ∉ B.languages) := by
  by_cases hx : ∃ d ld l, .domainLoader d (some ld) ∈ opts ∧ ld t d = .error (.missingLanguage l)
  · refine .inr ⟨hx, fun ht => ?_⟩
    obtain ⟨d, ld, l, hl, he⟩ := hx
    rcases C79_supported ho h ht hs hl with ⟨c, hc⟩ | hc <;> rw [he] at hc <;> cases hc
  · exact .inl fun d ld hl => no_failure ho h hm ha hu hs (fun d ld l h1 h2 => hx ⟨d, ld, l, h1, h2⟩) hl

/-- The options of `C79_negation` for the second case. -/
example : ∃ B es, newBundle demoWorld ident [.domainLoader b!"a" (some fun t _ => .error (.missingLanguage t)),
      .domainLoader b!"b" (some fun _ _ => .error (.loader 1)), .language [.tag 2]] = .ok (B, es) ∧ (2 : Nat) ≠ demoWorld.und ∧
    2 ≠ B.source.language ∧ Asks demoWorld (.language [.tag 2] : Opt Nat Int) 2 :=
  ⟨_, _, rfl, by decide, by decide, .optional (List.mem_singleton.mpr rfl) rfl⟩

/-- A loader that returns an `ErrMissingLanguage` hides the failure of another one. -/
theorem C79_negation :
    let opts : List (Opt Nat Int) := [.domainLoader b!"a" (some fun t _ => .error (.missingLanguage t)),
      .domainLoader b!"b" (some fun _ _ => .error (.loader 1)), .language [.tag 2]]
    ∃ B es, newBundle demoWorld ident opts = .ok (B, es) := ⟨_, _, rfl⟩

end Verif.Props.Bundle
