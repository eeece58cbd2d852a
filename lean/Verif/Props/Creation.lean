import Verif.Proofs.Spreak.Creation
import Verif.Props.Bundle
/-!
# C108, C109: when a bundle can be created, and the order of its options

`Verif.Spec.Creation` says what the options ask for.  `order` is the order in which Go visits the map of the loaders, any.
-/
namespace Verif.Props.Creation
open Verif.Go Verif.Model.Spreak Verif.Proofs.Spreak Verif.Spec.Creation Verif.Props.Bundle Verif.Props.Localizer

variable {L N V : Type} [DecidableEq L]

theorem noMissing {w : World L N V} {opts : List (Opt L N)} (hno : NoMissingOpts opts) {b : Builder L N} (h : Ready w opts b) :
    NoMissing b.loaders := by
  rintro ⟨d, ld⟩ hp t t' hx
  exact hno d ld ((h.mem d ld).mp hp) t t' hx

theorem hist_start {w : World L N V} {opts : List (Opt L N)} {b : Builder L N} (h : Ready w opts b) : Hist w b [] := by
  refine ⟨fun t => ?_, fun t ht => ?_⟩
  · rw [h.langs]
    exact ⟨(fun x => nomatch x), (fun ⟨_, ⟨_, x, _⟩, _⟩ => nomatch x)⟩
  · rw [h.langs] at ht; cases ht

/-! ## C108 -/

/-- **C108.** `NewBundle` succeeds if and only if the options are usable and every language they ask for can be served: an optional one
if all its files can be read, a required one if it is in every domain, or was optional before and is in some domain. -/
theorem C108_created_iff {w : World L N V} {order : Order L N} (ho : Perms order) {opts : List (Opt L N)} (hno : NoMissingOpts opts) :
    (∃ B es, newBundle w order opts = .ok (B, es)) ↔
      Usable opts ∧ ∀ pre q post, requests opts = pre ++ q :: post → Met w opts pre q := by
  unfold newBundle
  cases ha : (Builder.start w : Builder L N).applyAll w opts with
  | error e =>
    refine ⟨fun ⟨_, _, h⟩ => (by cases h), fun ⟨hu, hm⟩ => ?_⟩
    have hf : ∀ a, .fallback a ∈ opts → ∃ t, a.toTag w = .ok t := by
      intro a hfa
      have hin : (false, a) ∈ requests opts := List.mem_flatMap.mpr ⟨_, hfa, List.mem_singleton.mpr rfl⟩
      obtain ⟨pre, post, he⟩ := List.append_of_mem hin
      obtain ⟨t, ht, _⟩ := hm pre _ post he
      exact ⟨t, ht⟩
    obtain ⟨b, hb⟩ := (applyAll_usable w opts (Builder.start w)).mpr ⟨hu, fun _ _ => rfl, hf⟩
    rw [ha] at hb; cases hb
  | ok b =>
    have hr := ready ha
    have hiff := askAll_iff w ho (requests opts) hr.inv (noMissing hno hr) (hist_start hr)
    simp only [List.nil_append] at hiff
    simp only [actions_ask order ha]
    constructor
    · rintro ⟨B, es, h⟩
      refine ⟨((applyAll_usable w opts _).mp ⟨b, ha⟩).1, fun pre q post he => (hr.met pre q).mp (hiff.mp ?_ pre q post he)⟩
      cases hx : askAll w order { b with domains := [] } (requests opts) with
      | error e => rw [hx] at h; cases h
      | ok b' => exact ⟨b', rfl⟩
    · rintro ⟨_, hm⟩
      obtain ⟨b', hb'⟩ := hiff.mpr fun pre q post he => (hr.met pre q).mpr (hm pre q post he)
      rw [hb']
      exact ⟨_, _, rfl⟩

theorem opened {w : World L N V} {order : Order L N} {opts : List (Opt L N)} {B : Bundle L N} {es : List (Event L)}
    (h : newBundle w order opts = .ok (B, es)) : ∃ b b', (Builder.start w).applyAll w opts = .ok b ∧
      Ready w opts { b with domains := [] } ∧ askAll w order { b with domains := [] } (requests opts) = .ok b' ∧
      b'.finish = (B, es) := by
  obtain ⟨b, b', ha, _, hr, hfin⟩ := newBundle_inv h
  exact ⟨b, b', ha, ready ha, (actions_ask order ha) ▸ hr, hfin⟩

theorem finish_languages (b : Builder L N) : b.finish.1.languages = b.languages := by
  obtain ⟨_, _, _, he, _⟩ := finish_eq b
  rw [he]

/-- **C108.** The languages of a bundle, in the order that decides between them when a localizer is made: the source language for each
time it is asked for, any other language where it is asked for first, if it has a catalog. -/
theorem C108_languages {w : World L N V} {order : Order L N} (ho : Perms order) {opts : List (Opt L N)} (hno : NoMissingOpts opts)
    {B : Bundle L N} {es : List (Event L)} (h : newBundle w order opts = .ok (B, es)) : B.languages = languages w opts := by
  obtain ⟨b, b', ha, hr, hb, hfin⟩ := opened h
  obtain ⟨h1, _⟩ := askAll_result w ho (requests opts) hr.inv (noMissing hno hr) (by rw [hr.langs, hr.events]; rfl)
    (f := has opts) (fun t => (has_iff opts t).trans (hr.some t).symm) hb
  have := finish_languages b'
  rw [hfin] at this
  rw [this, h1, hr.langs, hr.source]
  rfl

/-- **C108.** Supported are exactly the languages that were asked for and have a catalog, and the source language. -/
theorem C108_supported {w : World L N V} {order : Order L N} (ho : Perms order) {opts : List (Opt L N)} (hno : NoMissingOpts opts)
    {B : Bundle L N} {es : List (Event L)} (h : newBundle w order opts = .ok (B, es)) (t : L) :
    (B.locales.get? t).isSome ↔
      t ≠ w.und ∧ (∃ q ∈ requests opts, q.2.toTag w = .ok t) ∧ (t = sourceOf w opts ∨ Served opts t) := by
  obtain ⟨b, b', ha, hr, hb, hfin⟩ := opened h
  obtain ⟨hh, hs⟩ := askAll_hist w ho (requests opts) hr.inv (noMissing hno hr) (hist_start hr) hb
  have h1 := hh.langs t
  rw [List.nil_append, hs.source, hr.source, someB_stays hs, hr.some] at h1
  rw [GoMap.get?_isSome, ← C69_languages ho h t, ← h1]
  have := finish_languages b'
  rw [hfin] at this
  rw [this]

/-- The last fallback language that was set. -/
def fallbackOf (opts : List (Opt L N)) : Option (LangArg L) :=
  opts.foldl (fun s o => match o with | .fallback a => some a | _ => s) none

theorem fallbackOf_spec (w : World L N V) (os : List (Opt L N)) : ∀ (s : Option (LangArg L)) (u : L),
    (∀ a, .fallback a ∈ os → ∃ t, a.toTag w = .ok t) →
    (∀ a, s = some a → a.toTag w = .ok u) →
    (∀ a, os.foldl (fun s o => match o with | .fallback a => some a | _ => s) s = some a →
      a.toTag w = .ok (os.foldl (fun s o => match o with | .fallback a => (a.toTag w).toOption.getD s | _ => s) u) ∧
      (.fallback a ∈ os ∨ s = some a)) ∧
    (os.foldl (fun s o => match o with | .fallback a => some a | _ => s) s = none →
      os.foldl (fun s o => match o with | .fallback a => (a.toTag w).toOption.getD s | _ => s) u = u) := by
  induction os with
  | nil => intro s u _ hs; exact ⟨fun a ha => ⟨hs a ha, .inr ha⟩, fun _ => rfl⟩
  | cons o os ih =>
    intro s u hf hs
    have hf' : ∀ a, .fallback a ∈ os → ∃ t, a.toTag w = .ok t := fun a ha => hf a (List.mem_cons_of_mem _ ha)
    rw [List.foldl_cons, List.foldl_cons]
    cases o with
    | fallback a =>
      obtain ⟨t, ht⟩ := hf a List.mem_cons_self
      have e : (a.toTag w).toOption.getD u = t := by rw [ht]; rfl
      simp only [e]
      obtain ⟨i1, i2⟩ := ih (some a) t hf' (fun a' h => by cases h; exact ht)
      refine ⟨fun a' h => ⟨(i1 a' h).1, ?_⟩, fun h => ?_⟩
      · rcases (i1 a' h).2 with x | x
        · exact .inl (List.mem_cons_of_mem _ x)
        · cases x; exact .inl List.mem_cons_self
      · have key : ∀ (l : List (Opt L N)) (x : LangArg L),
            l.foldl (fun s o => match o with | .fallback a => some a | _ => s) (some x) ≠ none := by
          intro l
          induction l with
          | nil => intro x hx; cases hx
          | cons o l ih => intro x; rw [List.foldl_cons]; cases o <;> exact ih _
        exact absurd h (key os a)
    | _ =>
      obtain ⟨i1, i2⟩ := ih s u hf' hs
      exact ⟨fun a' h => ⟨(i1 a' h).1, (i1 a' h).2.imp (List.mem_cons_of_mem _) id⟩, i2⟩

/-- **C108.** The texts of the source are those in the source language that was set last; where no language matches, the fallback
language that was set last is used, or the source if there is none. -/
theorem C108_fallback {w : World L N V} {order : Order L N} (ho : Perms order) {opts : List (Opt L N)} (hno : NoMissingOpts opts)
    {B : Bundle L N} {es : List (Event L)} (h : newBundle w order opts = .ok (B, es)) :
    B.source.language = sourceOf w opts ∧ B.source.isSource = true ∧
      (∀ a, fallbackOf opts = some a → a.toTag w = .ok B.fallback.language) ∧ (fallbackOf opts = none → B.fallback = B.source) := by
  obtain ⟨b, b', ha, hf, hr, hfin, hs, hi, hloc, hlang, _, hsrc, hsl⟩ := finished ho h
  have hrd := ready ha
  obtain ⟨g1, g2⟩ := fallbackOf_spec w opts none w.und ((applyAll_usable w opts _).mp ⟨b, ha⟩).2.2 (fun _ x => by cases x)
  have hfb : b'.fallbackLanguage = _ := hs.fallback.trans (applyAll_sourceOf w opts ha).2
  obtain ⟨src, fb, post, he, _, hfl⟩ := finish_eq b'
  have hB : B = _ := congrArg Prod.fst (hfin.symm.trans he)
  have hBf : B.fallback = fb := by rw [hB]
  have hBs : B.source = src := by rw [hB]
  refine ⟨hsl.trans (hs.source.trans hrd.source), hsrc, fun a hx => ?_, fun hx => ?_⟩
  · obtain ⟨k1, k2⟩ := g1 a hx
    have ht : a.toTag w = .ok b'.fallbackLanguage := k1.trans (congrArg Except.ok hfb.symm)
    have hin : (false, a) ∈ requests opts :=
      List.mem_flatMap.mpr ⟨_, k2.resolve_right (fun x => nomatch x), List.mem_singleton.mpr rfl⟩
    obtain ⟨pre, post', hreq⟩ := List.append_of_mem hin
    obtain ⟨t, ht', _, hm⟩ := ((C108_created_iff ho hno).mp ⟨B, es, h⟩).2 pre _ post' hreq
    rw [ht] at ht'
    cases ht'
    obtain ⟨hu, hm⟩ := hm rfl
    have hsome := (C108_supported ho hno h b'.fallbackLanguage).mpr ⟨hu, ⟨_, hin, ht⟩, hm.imp id fun x => x.1⟩
    rw [hloc] at hsome
    rcases hfl with hfl | ⟨hfl, _⟩
    · rw [ht, hBf, (hi.lang _ _ hfl).1]
    · rw [hfl] at hsome; cases hsome
  · have : b'.fallbackLanguage = w.und := hfb.trans (g2 hx)
    rw [this] at hfl
    rcases hfl with hfl | ⟨_, hfl⟩
    · exact absurd rfl (hi.lang _ _ hfl).2
    · rw [hBf, hBs, hfl]

/-- **C45, exactly.** The calls of the printer while a bundle is made, whatever the loaders return: `GetPrintFunc` for each of its
languages, then `Init`, then `GetPrintFunc` for the source language if it is not among them. -/
theorem C45_exact {w : World L N V} {order : Order L N} (ho : Perms order) {opts : List (Opt L N)} {B : Bundle L N}
    {es : List (Event L)} (h : newBundle w order opts = .ok (B, es)) :
    es.filter isPrinter = B.languages.map .getPrintFunc ++
      .init B.languages :: if B.source.language ∈ B.languages then [] else [.getPrintFunc B.source.language] := by
  obtain ⟨b, b', ha, hr, hb, hfin⟩ := opened h
  obtain ⟨hp, hi⟩ := askAll_printed w ho (requests opts) hr.inv (by unfold Printed; rw [hr.langs, hr.events]; rfl) hb
  obtain ⟨src, fb, post, he, hsrc, _⟩ := finish_eq b'
  have hB := hfin.symm.trans he
  have h1 : B = _ := congrArg Prod.fst hB
  have h2 : es = _ := congrArg Prod.snd hB
  unfold Printed calls at hp
  rw [h2, List.filter_append, hp, h1]
  simp only []
  rw [List.filter_cons_of_pos (by rfl)]
  rcases hsrc with ⟨hx, hpost⟩ | ⟨hx, hs, hpost⟩
  · have hm : src.language ∈ b'.languages := by
      rw [hi.langs, (hi.lang _ _ hx).1, hx]; rfl
    rw [if_pos hm, hpost]
    rfl
  · have hm : src.language ∉ b'.languages := by
      rw [hs]
      exact not_mem_langs hi hx
    rw [if_neg hm, hpost, hs]
    rfl

/-- **C45, exactly.** `Init` is the first call of the printer if and only if the bundle has no languages. -/
theorem C45_first_iff {w : World L N V} {order : Order L N} (ho : Perms order) {opts : List (Opt L N)} {B : Bundle L N}
    {es : List (Event L)} (h : newBundle w order opts = .ok (B, es)) :
    (∃ ls, (es.filter isPrinter).head? = some (.init ls)) ↔ B.languages = [] := by
  rw [C45_exact ho h]
  cases B.languages with
  | nil => exact ⟨fun _ => rfl, fun _ => ⟨[], rfl⟩⟩
  | cons t l => exact ⟨fun ⟨_, x⟩ => (by cases x), fun x => by cases x⟩

/-! ### Examples -/

theorem demo_noMissing : NoMissingOpts demoOpts := by
  intro d ld h t t' hc
  simp only [demoOpts, List.mem_cons, Opt.domainLoader.injEq, Option.some.injEq, reduceCtorEq, List.not_mem_nil, or_false,
    false_or] at h
  rcases h with ⟨_, rfl⟩ | ⟨_, rfl⟩ <;> (unfold knows at hc; split at hc <;> cases hc)

example : ∀ pre q post, requests demoOpts = pre ++ q :: post → Met demoWorld demoOpts pre q :=
  ((C108_created_iff rev_perms demo_noMissing).mp ⟨_, _, rfl⟩).2

example : languages demoWorld demoOpts = [1, 2, 3] := rfl

example : ∃ B es, newBundle demoWorld rev demoOpts = .ok (B, es) ∧ B.languages = languages demoWorld demoOpts :=
  ⟨_, _, rfl, C108_languages rev_perms demo_noMissing rfl⟩

example : ∃ a, fallbackOf demoOpts = some a ∧ a.toTag demoWorld = .ok 3 := ⟨_, rfl, rfl⟩

/-- A required language that one of the two domains lacks. -/
def lacking : List (Opt Nat Int) :=
  [.domainLoader b!"a" (some (knows [2])), .domainLoader b!"b" (some (knows [3])), .requiredLanguage [.tag 2]]

/-- It gives no bundle, by the theorem. -/
example : ¬ ∃ B es, newBundle demoWorld rev lacking = .ok (B, es) := by
  have hno : NoMissingOpts lacking := by
    intro d ld h t t' hc
    simp only [lacking, List.mem_cons, Opt.domainLoader.injEq, Option.some.injEq, reduceCtorEq, List.not_mem_nil, or_false] at h
    rcases h with ⟨_, rfl⟩ | ⟨_, rfl⟩ <;> (unfold knows at hc; split at hc <;> cases hc)
  intro h
  obtain ⟨t, ht, _, hq⟩ := ((C108_created_iff rev_perms hno).mp h).2 [] (false, .tag 2) [] rfl
  cases ht
  rcases (hq rfl).2 with hs | ⟨_, hc | ⟨_, hb, _⟩⟩
  · exact absurd hs (by decide)
  · obtain ⟨c, hc⟩ := hc b!"b" (knows [3]) (List.mem_cons_of_mem _ (List.mem_cons_self ..))
    cases hc
  · cases hb

/-! ## C109 -/

/-- No two options set different source languages. -/
def OneSource (opts : List (Opt L N)) : Prop := ∀ t t', .source t ∈ opts → .source t' ∈ opts → t = t'

/-- A language that is both required and optional is in every domain. -/
def Consistent (w : World L N V) (opts : List (Opt L N)) : Prop :=
  ∀ a a' t, (true, a) ∈ requests opts → (false, a') ∈ requests opts → a.toTag w = .ok t → a'.toTag w = .ok t →
    t = sourceOf w opts ∨ Complete opts t

theorem sourceOf_spec (os : List (Opt L N)) : ∀ u : L,
    os.foldl (fun s o => match o with | .source t => t | _ => s) u = u ∧ (∀ t, .source t ∉ os) ∨
      .source (os.foldl (fun s o => match o with | .source t => t | _ => s) u) ∈ os := by
  induction os with
  | nil => intro u; exact .inl ⟨rfl, fun _ x => nomatch x⟩
  | cons o os ih =>
    intro u
    rw [List.foldl_cons]
    cases o with
    | source t =>
      rcases ih t with ⟨h, _⟩ | h
      · exact .inr (by simp only [h]; exact List.mem_cons_self)
      · exact .inr (List.mem_cons_of_mem _ h)
    | _ =>
      rcases ih u with ⟨h, h'⟩ | h
      · exact .inl ⟨h, fun t x => (List.mem_cons.mp x).elim (fun y => nomatch y) (h' t)⟩
      · exact .inr (List.mem_cons_of_mem _ h)

theorem sourceOf_perm (w : World L N V) {opts opts' : List (Opt L N)} (hp : opts.Perm opts') (h1 : OneSource opts) :
    sourceOf w opts' = sourceOf w opts := by
  rcases sourceOf_spec opts w.und with ⟨h, hn⟩ | h
  · rcases sourceOf_spec opts' w.und with ⟨h', _⟩ | h'
    · exact h'.trans h.symm
    · exact absurd (hp.mem_iff.mpr h') (hn _)
  · rcases sourceOf_spec opts' w.und with ⟨_, hn⟩ | h'
    · exact absurd (hp.mem_iff.mp h) (hn _)
    · exact h1 _ _ (hp.mem_iff.mpr h') h

theorem usable_perm {opts opts' : List (Opt L N)} (hp : opts.Perm opts') (u : Usable opts) : Usable opts' :=
  ⟨fun x => u.nil (hp.mem_iff.mpr x), fun x => u.other (hp.mem_iff.mpr x), fun d x => u.loader d (hp.mem_iff.mpr x),
    (hp.filterMap domainOf).nodup_iff.mp u.domains⟩

theorem served_perm {opts opts' : List (Opt L N)} (hp : opts.Perm opts') (t : L) : Served opts' t ↔ Served opts t := by
  unfold Served; simp only [hp.mem_iff]

theorem complete_perm {opts opts' : List (Opt L N)} (hp : opts.Perm opts') (t : L) : Complete opts' t ↔ Complete opts t := by
  unfold Complete; simp only [hp.mem_iff]

theorem readable_perm {opts opts' : List (Opt L N)} (hp : opts.Perm opts') (t : L) : Readable opts' t ↔ Readable opts t := by
  unfold Readable; simp only [hp.mem_iff]

theorem consistent_perm {w : World L N V} {opts opts' : List (Opt L N)} (hp : opts.Perm opts') (h1 : OneSource opts)
    (hc : Consistent w opts) : Consistent w opts' := by
  intro a a' t h h' ht ht'
  have hr := hp.flatMap_right asked
  rw [sourceOf_perm w hp h1, complete_perm hp]
  exact hc a a' t (hr.mem_iff.mpr h) (hr.mem_iff.mpr h') ht ht'

theorem created_perm {w : World L N V} {order order' : Order L N} (ho : Perms order) (ho' : Perms order') {opts opts' : List (Opt L N)}
    (hp : opts.Perm opts') (hno : NoMissingOpts opts) (h1 : OneSource opts) (hc : Consistent w opts)
    (h : ∃ B es, newBundle w order opts = .ok (B, es)) : ∃ B es, newBundle w order' opts' = .ok (B, es) := by
  have hno' : NoMissingOpts opts' := fun d ld x => hno d ld (hp.mem_iff.mpr x)
  have hr := hp.flatMap_right asked
  obtain ⟨u, hm⟩ := (C108_created_iff ho hno).mp h
  refine (C108_created_iff ho' hno').mpr ⟨usable_perm hp u, fun pre q post he => ?_⟩
  have hin : q ∈ requests opts := hr.mem_iff.mpr (by
    show q ∈ requests opts'
    rw [he]; exact List.mem_append_right _ List.mem_cons_self)
  obtain ⟨p, s, hps⟩ := List.append_of_mem hin
  obtain ⟨t, ht, m1, m2⟩ := hm p q s hps
  refine ⟨t, ht, fun x => ?_, fun x => ?_⟩
  · rw [sourceOf_perm w hp h1, readable_perm hp]; exact m1 x
  · obtain ⟨n1, n2⟩ := m2 x
    rw [sourceOf_perm w hp h1, served_perm hp, complete_perm hp]
    refine ⟨n1, n2.elim .inl fun n3 => ?_⟩
    rcases n3.2 with n4 | ⟨a, n4, n5⟩
    · exact .inr ⟨n3.1, .inl n4⟩
    · have ha : (true, a) ∈ requests opts := by rw [hps]; exact List.mem_append_left _ n4
      have hq : (false, q.2) ∈ requests opts := by rw [← x]; exact hin
      exact (hc a q.2 t ha hq n5 ht).imp id fun y => ⟨n3.1, .inl y⟩

/-- The source locale has no catalogs. -/
theorem source_bare {w : World L N V} {order : Order L N} (ho : Perms order) {opts : List (Opt L N)} {B : Bundle L N}
    {es : List (Event L)} (h : newBundle w order opts = .ok (B, es)) :
    B.source.catalogs = [] ∧ ∀ t loc, B.locales.get? t = some loc → loc.isSource = true → loc.catalogs = [] := by
  obtain ⟨b, b', ha, hr, hb, hfin⟩ := opened h
  have hbare := askAll_bare w ho (requests opts) hr.inv (by intro t loc hl; rw [hr.locales] at hl; cases hl) hb
  have hi := (askAll_printed w ho (requests opts) hr.inv (by unfold Printed; rw [hr.langs, hr.events]; rfl) hb).2
  obtain ⟨src, fb, post, he, hsrc, _⟩ := finish_eq b'
  have h1 : B = _ := congrArg Prod.fst (hfin.symm.trans he)
  rw [h1]
  refine ⟨?_, hbare⟩
  rcases hsrc with ⟨hx, _⟩ | ⟨_, hs, _⟩
  · exact hbare _ _ hx ((hi.src _ _ hx).mpr rfl)
  · simp only [hs]

/-- **C109.** The options may be given in any order: if no two of them set different source languages, and no language is both
optional and required without being in every domain, then a bundle can be made from them in each order or in none, and it has the
same languages and catalogs. -/
theorem C109_order {w : World L N V} {order order' : Order L N} (ho : Perms order) (ho' : Perms order')
    {opts opts' : List (Opt L N)} (hp : opts.Perm opts') (hno : NoMissingOpts opts) (h1 : OneSource opts) (hc : Consistent w opts) :
    ((∃ B es, newBundle w order opts = .ok (B, es)) ↔ ∃ B es, newBundle w order' opts' = .ok (B, es)) ∧
    ∀ B es B' es', newBundle w order opts = .ok (B, es) → newBundle w order' opts' = .ok (B', es') →
      SameLocale B.source B'.source ∧ ∀ t, SameOpt (B.locales.get? t) (B'.locales.get? t) := by
  have hno' : NoMissingOpts opts' := fun d ld x => hno d ld (hp.mem_iff.mpr x)
  have hr := hp.flatMap_right asked
  have h1' : OneSource opts' := fun t t' x y => h1 t t' (hp.mem_iff.mpr x) (hp.mem_iff.mpr y)
  refine ⟨⟨created_perm ho ho' hp hno h1 hc, created_perm ho' ho hp.symm hno' h1' (consistent_perm hp h1 hc)⟩,
    fun B es B' es' h h' => ?_⟩
  obtain ⟨s1, s2, _⟩ := C108_fallback ho hno h
  obtain ⟨s1', s2', _⟩ := C108_fallback ho' hno' h'
  obtain ⟨e1, e2⟩ := source_bare ho h
  obtain ⟨e1', e2'⟩ := source_bare ho' h'
  have hsrc : B'.source.language = B.source.language := by rw [s1, s1', sourceOf_perm w hp h1]
  have hsame : ∀ t, (B'.locales.get? t).isSome ↔ (B.locales.get? t).isSome := by
    intro t
    rw [C108_supported ho hno h t, C108_supported ho' hno' h' t, sourceOf_perm w hp h1, served_perm hp]
    refine and_congr_right fun _ => and_congr_left fun _ => ?_
    unfold requests
    simp only [hr.mem_iff]
  have hcat : ∀ t loc loc', B.locales.get? t = some loc → B'.locales.get? t = some loc' → SameLocale loc loc' := by
    intro t loc loc' hl hl'
    obtain ⟨l1, l2⟩ := C43_optional ho h hl
    obtain ⟨l1', l2'⟩ := C43_optional ho' h' hl'
    rcases l2 with ⟨x, y⟩ | ⟨x, y, _, z⟩
    · rcases l2' with ⟨x', _⟩ | ⟨_, y', _⟩
      · exact ⟨l1.trans l1'.symm, x.trans x'.symm, fun d => by rw [e2 t loc hl x, e2' t loc' hl' x']⟩
      · exact absurd (y.trans hsrc.symm) y'
    · rcases l2' with ⟨_, y'⟩ | ⟨x', _, _, z'⟩
      · exact absurd (y'.trans hsrc) y
      · refine ⟨l1.trans l1'.symm, x.trans x'.symm, fun d => ?_⟩
        have key : ∀ c, loc.catalogs.get? d = some c ↔ loc'.catalogs.get? d = some c := by
          intro c; rw [z d c, z' d c]; simp only [hp.mem_iff]
        cases hg : loc.catalogs.get? d with
        | some c => exact ((key c).mp hg).symm
        | none =>
          cases hg' : loc'.catalogs.get? d with
          | none => rfl
          | some c => rw [(key c).mpr hg'] at hg; cases hg
  refine ⟨⟨hsrc.symm, s2.trans s2'.symm, fun d => by rw [e1, e1']⟩, fun t => ?_⟩
  have hs := hsame t
  cases hl : B.locales.get? t with
  | none =>
    cases hl' : B'.locales.get? t with
    | none => trivial
    | some loc' => rw [hl, hl'] at hs; exact nomatch hs.mp rfl
  | some loc =>
    cases hl' : B'.locales.get? t with
    | none => rw [hl, hl'] at hs; exact nomatch hs.mpr rfl
    | some loc' => exact hcat t loc loc' hl hl'

theorem demo_oneSource : OneSource demoOpts := by
  intro t t' h h'
  simp only [demoOpts, List.mem_cons, Opt.source.injEq, reduceCtorEq, List.not_mem_nil, or_false, false_or] at h h'
  rw [h, h']

theorem demo_consistent : Consistent demoWorld demoOpts := by
  intro a a' t h h' ht ht'
  simp only [requests, demoOpts, asked, List.flatMap_cons, List.flatMap_nil, List.map_cons, List.map_nil, List.append_nil,
    List.cons_append, List.nil_append, List.mem_cons, Prod.mk.injEq, List.not_mem_nil, or_false, reduceCtorEq, false_and,
    true_and, false_or] at h h'
  rcases h with rfl | rfl <;> cases ht <;> rcases h' with rfl | rfl | rfl <;> cases ht'

/-- The demo options in another order. -/
example : ∃ B es, newBundle demoWorld ident demoOpts.reverse = .ok (B, es) :=
  ((C109_order rev_perms ident_perms (List.reverse_perm demoOpts).symm demo_noMissing demo_oneSource demo_consistent).1).mp ⟨_, _, rfl⟩

/-- **C109 is false for a language that is optional and required**: with two domains of which one lacks it, the bundle is made if the
language is optional first, and not if it is required first. -/
theorem C109_required_negation :
    let a : Opt Nat Int := .domainLoader b!"a" (some (knows [2]))
    let b : Opt Nat Int := .domainLoader b!"b" (some (knows [3]))
    (∃ B es, newBundle demoWorld ident [a, b, .language [.tag 2], .requiredLanguage [.tag 2]] = .ok (B, es)) ∧
    newBundle demoWorld ident [a, b, .requiredLanguage [.tag 2], .language [.tag 2]] = .error .notFound :=
  ⟨⟨_, _, rfl⟩, rfl⟩

/-- **C109 is false for two source languages**: the last one counts, and the first must have catalogs then. -/
theorem C109_source_negation :
    let a : Opt Nat Int := .domainLoader b!"a" (some (knows [2]))
    (∃ B es, newBundle demoWorld ident [a, .source 2, .source 1] = .ok (B, es)) ∧
    newBundle demoWorld ident [a, .source 1, .source 2] = .error .notFound :=
  ⟨⟨_, _, rfl⟩, rfl⟩

end Verif.Props.Creation
