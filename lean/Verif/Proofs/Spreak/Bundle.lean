import Verif.Model.Spreak.Bundle
/-!
# Facts about the creation of a bundle
-/
namespace Verif.Proofs.Spreak
open Verif.Go Verif.Model.Spreak

variable {L N V : Type} [DecidableEq L]

/-- Every loop visits the loaders in some order. -/
def Perms (order : Order L N) : Prop := ∀ k m, (order k m).Perm m

/-- The loader gives a catalog, or the domain may be missing. -/
def Good (optional : Bool) (lang : L) (p : Bytes × Loader L N) : Prop :=
  (∃ c, p.2 lang p.1 = .ok c) ∨ (optional = true ∧ p.2 lang p.1 = .error .notFound)

/-- What the loaders give for a language. -/
def loaded (lang : L) (ls : GoMap Bytes (Loader L N)) (d : Bytes) : Option (Option (Catalog L N)) :=
  match ls.get? d with
  | none => none
  | some ld => match ld lang d with
    | .ok c => some c
    | .error _ => none

/-- Only reports were added to the events. -/
def Reported (es es' : List (Event L)) : Prop := ∃ ms, es' = es ++ ms ∧ ∀ e ∈ ms, ∃ x, e = .missing x

theorem Reported.refl (es : List (Event L)) : Reported es es := ⟨[], (List.append_nil _).symm, fun _ h => nomatch h⟩

theorem Reported.trans {a b c : List (Event L)} (h : Reported a b) (h' : Reported b c) : Reported a c := by
  obtain ⟨m, rfl, hm⟩ := h
  obtain ⟨m', rfl, hm'⟩ := h'
  refine ⟨m ++ m', List.append_assoc _ _ _, fun e he => ?_⟩
  rcases List.mem_append.mp he with he | he
  · exact hm e he
  · exact hm' e he

theorem missing_shape (b : Builder L N) (e : Err L) :
    ∃ es, b.missing e = { b with events := es } ∧ Reported b.events es := by
  unfold Builder.missing
  split
  · exact ⟨_, rfl, [.missing e], rfl, fun x hx => ⟨e, List.mem_singleton.mp hx⟩⟩
  · exact ⟨b.events, rfl, .refl _⟩

theorem loadAll_ok (optional : Bool) (lang : L) (ls : GoMap Bytes (Loader L N)) :
    ∀ (b : Builder L N) (cats : GoMap Bytes (Option (Catalog L N))), (∀ p ∈ ls, Good optional lang p) → ls.WF →
      ∃ ds es cs, b.loadAll optional lang cats ls = ({ b with domains := ds, events := es }, .ok cs) ∧
        Reported b.events es ∧ (∀ d, d ∈ ds ↔ d ∈ b.domains ∨ (loaded lang ls d).isSome) ∧ (b.domains.Nodup → ds.Nodup) ∧
        (∀ d, cs.get? d = match loaded lang ls d with | some c => some c | none => cats.get? d) := by
  induction ls with
  | nil =>
    intro b cats _ _
    exact ⟨b.domains, b.events, cats, rfl, .refl _, fun d => ⟨Or.inl, fun h => h.elim id (fun h => nomatch h)⟩, id, fun d => rfl⟩
  | cons p ls ih =>
    intro b cats hg hwf
    obtain ⟨d, ld⟩ := p
    obtain ⟨hnot, hwf'⟩ := GoMap.WF.cons_inv hwf
    have hg' : ∀ p ∈ ls, Good optional lang p := fun p hp => hg p (List.mem_cons_of_mem _ hp)
    have hself : loaded lang ls d = none := by
      unfold loaded; rw [GoMap.get?_eq_none.mpr hnot]
    have hl : ∀ d', loaded lang ((d, ld) :: ls) d' = if d = d' then (match ld lang d with
        | .ok c => some c
        | .error _ => none) else loaded lang ls d' := by
      intro d'
      unfold loaded
      simp only [GoMap.get?]
      by_cases hd : d = d'
      · subst hd; simp only [if_true]
      · simp only [if_neg hd]
    rcases hg (d, ld) List.mem_cons_self with ⟨c, hc⟩ | ⟨ho, hc⟩
    · simp only at hc
      have hstep : b.loadAll optional lang cats ((d, ld) :: ls) =
          (if d ∈ b.domains then b else { b with domains := b.domains ++ [d] }).loadAll optional lang (cats.set d c) ls := by
        rw [Builder.loadAll, hc]
      have hb : ∃ ds0, (if d ∈ b.domains then b else { b with domains := b.domains ++ [d] }) = { b with domains := ds0 } ∧
          (∀ x, x ∈ ds0 ↔ x ∈ b.domains ∨ x = d) ∧ (b.domains.Nodup → ds0.Nodup) := by
        by_cases hm : d ∈ b.domains
        · refine ⟨b.domains, by rw [if_pos hm], fun x => ⟨Or.inl, fun h => h.elim id (fun h => h ▸ hm)⟩, id⟩
        · refine ⟨b.domains ++ [d], by rw [if_neg hm], fun x => by simp, fun h => ?_⟩
          rw [List.nodup_append]
          refine ⟨h, List.nodup_cons.mpr ⟨List.not_mem_nil, List.nodup_nil⟩, ?_⟩
          intro x hx y hy he
          rw [List.mem_singleton] at hy
          exact hm (hy ▸ he ▸ hx)
      obtain ⟨ds0, hb0, hmem0, hnd0⟩ := hb
      rw [hstep, hb0]
      obtain ⟨ds, es, cs, h1, hr, h2, h3, h4⟩ := ih { b with domains := ds0 } (cats.set d c) hg' hwf'
      refine ⟨ds, es, cs, h1, hr, fun x => ?_, fun h => h3 (hnd0 h), fun x => ?_⟩
      · rw [h2 x, hl x]
        simp only [hmem0, hc]
        by_cases hx : d = x
        · subst hx; simp
        · rw [if_neg hx]
          constructor
          · rintro ((h | h) | h)
            · exact Or.inl h
            · exact absurd h.symm hx
            · exact Or.inr h
          · rintro (h | h)
            · exact Or.inl (Or.inl h)
            · exact Or.inr h
      · rw [h4 x, hl x, GoMap.get?_set]
        by_cases hx : d = x
        · subst hx; simp only [hself, if_true, hc]
        · simp only [if_neg hx]
    · simp only at hc
      obtain ⟨es0, hes0, hr0⟩ := missing_shape b .notFound
      have hstep : b.loadAll optional lang cats ((d, ld) :: ls) =
          { b with events := es0 }.loadAll optional lang cats ls := by
        rw [Builder.loadAll, hc]
        simp only [ho, if_true, hes0]
      rw [hstep]
      obtain ⟨ds, es, cs, h1, hr, h2, h3, h4⟩ := ih { b with events := es0 } cats hg' hwf'
      refine ⟨ds, es, cs, h1, hr0.trans hr, fun x => ?_, h3, fun x => ?_⟩
      · rw [h2 x, hl x]
        by_cases hx : d = x
        · subst hx; simp [hself, hc]
        · rw [if_neg hx]
      · rw [h4 x, hl x]
        by_cases hx : d = x
        · subst hx; simp [hself, hc]
        · rw [if_neg hx]

theorem loadAll_bad (optional : Bool) (lang : L) (ls : GoMap Bytes (Loader L N)) :
    ∀ (b : Builder L N) (cats : GoMap Bytes (Option (Catalog L N))), ¬ (∀ p ∈ ls, Good optional lang p) →
      ∃ ds es e, b.loadAll optional lang cats ls = ({ b with domains := ds, events := es }, .error e) ∧
        Reported b.events es ∧ (b.domains.Nodup → ds.Nodup) ∧ ∃ p ∈ ls, p.2 lang p.1 = .error e := by
  induction ls with
  | nil => intro b cats h; exact absurd (fun p hp => nomatch hp) h
  | cons p ls ih =>
    intro b cats h
    obtain ⟨d, ld⟩ := p
    cases hc : ld lang d with
    | ok c =>
      have hrest : ¬ ∀ p ∈ ls, Good optional lang p := by
        intro hall
        apply h
        intro p hp
        rcases List.mem_cons.mp hp with rfl | hp
        · exact Or.inl ⟨c, hc⟩
        · exact hall p hp
      have hb : ∃ ds0, (if d ∈ b.domains then b else { b with domains := b.domains ++ [d] }) = { b with domains := ds0 } ∧
          (b.domains.Nodup → ds0.Nodup) := by
        by_cases hm : d ∈ b.domains
        · exact ⟨b.domains, by rw [if_pos hm], id⟩
        · refine ⟨b.domains ++ [d], by rw [if_neg hm], fun h => ?_⟩
          rw [List.nodup_append]
          refine ⟨h, List.nodup_cons.mpr ⟨List.not_mem_nil, List.nodup_nil⟩, ?_⟩
          intro x hx y hy he
          rw [List.mem_singleton] at hy
          exact hm (hy ▸ he ▸ hx)
      obtain ⟨ds0, hb0, hnd0⟩ := hb
      obtain ⟨ds, es, e, h1, hr, hnd, p, hp, hpe⟩ := ih { b with domains := ds0 } (cats.set d c) hrest
      refine ⟨ds, es, e, ?_, hr, fun h => hnd (hnd0 h), p, List.mem_cons_of_mem _ hp, hpe⟩
      rw [Builder.loadAll, hc]
      simp only [hb0]
      exact h1
    | error e =>
      by_cases hn : e = .notFound
      · subst hn
        obtain ⟨es0, hes0, hr0⟩ := missing_shape b .notFound
        cases ho : optional with
        | true =>
          have hrest : ¬ ∀ p ∈ ls, Good optional lang p := by
            intro hall
            apply h
            intro p hp
            rcases List.mem_cons.mp hp with rfl | hp
            · exact Or.inr ⟨ho, hc⟩
            · exact hall p hp
          obtain ⟨ds, es, e, h1, hr, hnd, p, hp, hpe⟩ := ih { b with events := es0 } cats hrest
          refine ⟨ds, es, e, ?_, hr0.trans hr, hnd, p, List.mem_cons_of_mem _ hp, hpe⟩
          rw [Builder.loadAll, hc]
          simp only [hes0, if_true]
          rw [ho] at h1
          exact h1
        | false =>
          refine ⟨b.domains, es0, .notFound, ?_, hr0, id, (d, ld), List.mem_cons_self, hc⟩
          rw [Builder.loadAll, hc]
          simp [hes0]
      · refine ⟨b.domains, b.events, e, ?_, .refl _, id, (d, ld), List.mem_cons_self, hc⟩
        rw [Builder.loadAll, hc]
        split
        · rename_i h'; exact absurd (by cases h'; rfl) hn
        · rename_i h'; cases h'; rfl
        · rename_i h'; cases h'

/-! ## One language -/

/-- The outcomes of `createLocale`. -/
inductive Created (w : World L N V) (optional : Bool) (b : Builder L N) (lang : L) :
    Builder L N × Except (Err L) Unit → Prop
  | und : lang = w.und → Created w optional b lang (b, .error (.missingLanguage lang))
  | source (es : List (Event L)) : lang ≠ w.und → lang = b.sourceLanguage →
      es = b.events ++ [.getPrintFunc b.sourceLanguage] →
      Created w optional b lang ({ b with
        locales := b.locales.set lang ⟨b.sourceLanguage, [], true⟩
        languages := b.languages ++ [lang]
        events := es }, .ok ())
  | cached : lang ≠ w.und → lang ≠ b.sourceLanguage → (b.locales.get? lang).isSome →
      Created w optional b lang (b, .ok ())
  | bad (ds : List Bytes) (es : List (Event L)) (k : Nat) (e : Err L) : lang ≠ w.und → lang ≠ b.sourceLanguage →
      Reported b.events es → b.locales.get? lang = none → ¬ (∀ p ∈ b.loaders, Good optional lang p) → (∃ p ∈ b.loaders, p.2 lang p.1 = .error e) →
      (b.domains.Nodup → ds.Nodup) →
      Created w optional b lang ({ b with domains := ds, events := es, loops := k }, .error e)
  | empty (ds : List Bytes) (es : List (Event L)) (k : Nat) : lang ≠ w.und → lang ≠ b.sourceLanguage →
      Reported b.events es → b.locales.get? lang = none → (∀ p ∈ b.loaders, Good optional lang p) → (∀ d, loaded lang b.loaders d = none) →
      (∀ d, d ∈ ds ↔ d ∈ b.domains) → (b.domains.Nodup → ds.Nodup) →
      Created w optional b lang ({ b with domains := ds, events := es, loops := k }, .error (.missingLanguage lang))
  | new (ds : List Bytes) (es : List (Event L)) (k : Nat) (cs : GoMap Bytes (Option (Catalog L N))) : lang ≠ w.und →
      lang ≠ b.sourceLanguage → Reported b.events es → b.locales.get? lang = none →
      (∀ p ∈ b.loaders, Good optional lang p) → (∃ d, (loaded lang b.loaders d).isSome) → (∀ d, cs.get? d = loaded lang b.loaders d) →
      (∀ d, d ∈ ds ↔ d ∈ b.domains ∨ (loaded lang b.loaders d).isSome) → (b.domains.Nodup → ds.Nodup) →
      Created w optional b lang ({ b with
        domains := ds, loops := k
        locales := b.locales.set lang ⟨lang, cs, false⟩
        languages := b.languages ++ [lang]
        events := es ++ [.getPrintFunc lang] }, .ok ())

theorem loaded_same {m n : GoMap Bytes (Loader L N)} (h : m.Same n) (lang : L) (d : Bytes) :
    loaded lang m d = loaded lang n d := by unfold loaded; rw [h d]

theorem eq_nil_of_get? {κ α : Type} [DecidableEq κ] {m : GoMap κ α} (h : ∀ k, m.get? k = none) : m = [] := by
  cases m with
  | nil => rfl
  | cons p m =>
    obtain ⟨a, b⟩ := p
    have := h a
    simp [GoMap.get?] at this

theorem createLocale_spec (w : World L N V) {order : Order L N} (ho : Perms order) (optional : Bool) (b : Builder L N)
    (hwf : b.loaders.WF) (lang : L) : Created w optional b lang (b.createLocale w order optional lang) := by
  unfold Builder.createLocale
  by_cases h1 : lang = w.und
  · rw [if_pos h1]; exact .und h1
  rw [if_neg h1]
  by_cases h2 : lang = b.sourceLanguage
  · rw [if_pos h2]; exact .source _ h1 h2 rfl
  rw [if_neg h2]
  cases h3 : b.locales.get? lang with
  | some x => exact .cached h1 h2 (by rw [h3]; rfl)
  | none =>
  simp only [Option.isSome, Bool.false_eq_true, if_false]
  have hp := ho b.loops b.loaders
  have hgood : (∀ p ∈ order b.loops b.loaders, Good optional lang p) ↔ ∀ p ∈ b.loaders, Good optional lang p :=
    ⟨fun h p hx => h p (hp.mem_iff.mpr hx), fun h p hx => h p (hp.mem_iff.mp hx)⟩
  have hwf' : GoMap.WF (order b.loops b.loaders) := hwf.perm hp.symm
  have hl : ∀ d, loaded lang (order b.loops b.loaders) d = loaded lang b.loaders d := fun d =>
    (loaded_same (GoMap.same_of_perm hwf hp.symm) lang d).symm
  by_cases hg : ∀ p ∈ b.loaders, Good optional lang p
  · obtain ⟨ds, es, cs, he, hr, hd, hnd, hc⟩ := loadAll_ok optional lang _ { b with loops := b.loops + 1 } [] (hgood.mpr hg) hwf'
    rw [he]
    have hc' : ∀ d, cs.get? d = loaded lang b.loaders d := by
      intro d; rw [hc d, hl d]; cases loaded lang b.loaders d <;> rfl
    simp only
    by_cases hcs : cs = []
    · rw [if_pos hcs]
      have hn : ∀ d, loaded lang b.loaders d = none := fun d => by rw [← hc' d, hcs]; rfl
      exact .empty ds es _ h1 h2 hr h3 hg hn (fun d => by rw [hd d, hl d, hn d]; simp) hnd
    · rw [if_neg hcs]
      refine .new ds es _ cs h1 h2 hr h3 hg ?_ hc' (fun d => by rw [hd d, hl d]) hnd
      cases cs with
      | nil => exact absurd rfl hcs
      | cons p cs =>
        obtain ⟨d, c⟩ := p
        refine ⟨d, ?_⟩
        rw [← hc' d]
        simp [GoMap.get?]
  · obtain ⟨ds, es, e, he, hr, hnd, p, hp', hpe⟩ := loadAll_bad optional lang _ { b with loops := b.loops + 1 } []
      (fun h => hg (hgood.mp h))
    rw [he]
    exact .bad ds es _ e h1 h2 hr h3 hg ⟨p, hp.mem_iff.mp hp', hpe⟩ hnd

/-! ## The invariant -/

/-- What every builder satisfies while the setup actions run. -/
structure Inv (w : World L N V) (b : Builder L N) : Prop where
  wf : b.loaders.WF
  nodup : b.domains.Nodup
  lang : ∀ t loc, b.locales.get? t = some loc → loc.language = t ∧ t ≠ w.und
  src : ∀ t loc, b.locales.get? t = some loc → (loc.isSource = true ↔ t = b.sourceLanguage)
  cats : ∀ t loc, b.locales.get? t = some loc → loc.isSource = false →
    (∀ d, loc.catalogs.get? d = loaded t b.loaders d) ∧ ∃ d, (loaded t b.loaders d).isSome
  langs : ∀ t, t ∈ b.languages ↔ (b.locales.get? t).isSome
  printed : ∀ t loc, b.locales.get? t = some loc → Event.getPrintFunc t ∈ b.events
  noInit : ∀ ls, Event.init ls ∉ b.events
  good : ∀ t loc, b.locales.get? t = some loc → loc.isSource = false → ∀ p ∈ b.loaders, Good true t p

theorem Inv.shape {w : World L N V} {b : Builder L N} (h : Inv w b) {ds : List Bytes} {es : List (Event L)} (k : Nat)
    (hds : ds.Nodup) (hes : Reported b.events es) : Inv w { b with domains := ds, events := es, loops := k } := by
  obtain ⟨ms, rfl, hm⟩ := hes
  refine ⟨h.wf, hds, h.lang, h.src, h.cats, h.langs, fun t loc hl => List.mem_append.mpr (Or.inl (h.printed t loc hl)), ?_, h.good⟩
  intro ls hin
  rcases List.mem_append.mp hin with hin | hin
  · exact h.noInit ls hin
  · obtain ⟨x, hx⟩ := hm _ hin; cases hx

/-- What stays the same while the setup actions run. -/
structure Stays (b b' : Builder L N) : Prop where
  callback : b'.callback = b.callback
  defaultDomain : b'.defaultDomain = b.defaultDomain
  errContext : b'.errContext = b.errContext
  source : b'.sourceLanguage = b.sourceLanguage
  fallback : b'.fallbackLanguage = b.fallbackLanguage
  loaders : b'.loaders = b.loaders
  locales : ∀ t loc, t ≠ b.sourceLanguage → b.locales.get? t = some loc → b'.locales.get? t = some loc
  present : ∀ t, (b.locales.get? t).isSome → (b'.locales.get? t).isSome

theorem Stays.refl (b : Builder L N) : Stays b b :=
  ⟨rfl, rfl, rfl, rfl, rfl, rfl, fun _ _ _ h => h, fun _ h => h⟩

theorem Stays.trans {a b c : Builder L N} (h : Stays a b) (h' : Stays b c) : Stays a c :=
  ⟨h'.callback.trans h.callback, h'.defaultDomain.trans h.defaultDomain, h'.errContext.trans h.errContext,
    h'.source.trans h.source, h'.fallback.trans h.fallback, h'.loaders.trans h.loaders,
    fun t loc ht hl => h'.locales t loc (by rw [h.source]; exact ht) (h.locales t loc ht hl),
    fun t ht => h'.present t (h.present t ht)⟩

theorem isSome_set {κ α : Type} [DecidableEq κ] (m : GoMap κ α) (k : κ) (v : α) (t : κ) :
    ((m.set k v).get? t).isSome ↔ t = k ∨ (m.get? t).isSome := by
  rw [GoMap.get?_set]
  by_cases h : k = t
  · subst h; simp
  · rw [if_neg h]
    exact ⟨Or.inr, fun x => x.elim (fun e => absurd e.symm h) id⟩

theorem created_inv {w : World L N V} {optional : Bool} {b : Builder L N} {lang : L} (h : Inv w b)
    {r : Builder L N × Except (Err L) Unit} (hc : Created w optional b lang r) :
    Stays b r.1 ∧ Inv w r.1 ∧ (r.2 = .ok () → (r.1.locales.get? lang).isSome) := by
  cases hc with
  | und h1 => exact ⟨.refl _, h, (fun h => nomatch h)⟩
  | source es h1 h2 he =>
    subst he
    refine ⟨⟨rfl, rfl, rfl, rfl, rfl, rfl, fun t loc ht hl => ?_, fun t ht => ?_⟩, ?_, fun _ => ?_⟩
    · simp only
      rw [GoMap.get?_set, if_neg (fun e => ht (e.symm.trans h2))]; exact hl
    · exact (isSome_set _ _ _ _).mpr (Or.inr ht)
    · refine ⟨h.wf, h.nodup, fun t loc hl => ?_, fun t loc hl => ?_, fun t loc hl hs => ?_, fun t => ?_, fun t loc hl => ?_, fun ls hin => ?_, fun t loc hl hs => ?_⟩
      · simp only [GoMap.get?_set] at hl
        split at hl
        · rename_i e; cases hl; subst e; exact ⟨h2.symm, h1⟩
        · exact h.lang t loc hl
      · simp only [GoMap.get?_set] at hl
        split at hl
        · rename_i e; cases hl; subst e; exact ⟨fun _ => h2, fun _ => rfl⟩
        · exact h.src t loc hl
      · simp only [GoMap.get?_set] at hl
        split at hl
        · cases hl; cases hs
        · exact h.cats t loc hl hs
      · simp only [isSome_set, List.mem_append, List.mem_singleton, h.langs t]
        exact ⟨fun x => x.symm, fun x => x.symm⟩
      · simp only [GoMap.get?_set] at hl
        simp only [List.mem_append, List.mem_singleton]
        split at hl
        · rename_i e; exact Or.inr (by rw [← e, h2])
        · exact Or.inl (h.printed t loc hl)
      · simp only [List.mem_append, List.mem_singleton] at hin
        rcases hin with hin | hin
        · exact h.noInit ls hin
        · cases hin
      · simp only [GoMap.get?_set] at hl
        split at hl
        · cases hl; cases hs
        · exact h.good t loc hl hs
    · exact (isSome_set _ _ _ _).mpr (Or.inl rfl)
  | cached h1 h2 h3 => exact ⟨.refl _, h, fun _ => h3⟩
  | bad ds es k e h1 h2 hr h3 hg he hnd =>
    exact ⟨⟨rfl, rfl, rfl, rfl, rfl, rfl, fun _ _ _ h => h, fun _ h => h⟩, h.shape k (hnd h.nodup) hr, (fun h => nomatch h)⟩
  | empty ds es k h1 h2 hr h3 hg hn hd hnd =>
    exact ⟨⟨rfl, rfl, rfl, rfl, rfl, rfl, fun _ _ _ h => h, fun _ h => h⟩,
      h.shape k (hnd h.nodup) hr, (fun h => nomatch h)⟩
  | new ds es k cs h1 h2 hr h3 hg hex hcs hd hnd =>
    have h' := h.shape k (hnd h.nodup) hr
    refine ⟨⟨rfl, rfl, rfl, rfl, rfl, rfl, fun t loc ht hl => ?_, fun t ht => ?_⟩, ?_, fun _ => ?_⟩
    · simp only
      rw [GoMap.get?_set, if_neg (fun e => by rw [e] at h3; rw [h3] at hl; cases hl)]; exact hl
    · exact (isSome_set _ _ _ _).mpr (Or.inr ht)
    · refine ⟨h.wf, hnd h.nodup, fun t loc hl => ?_, fun t loc hl => ?_, fun t loc hl hs => ?_, fun t => ?_, fun t loc hl => ?_, fun ls hin => ?_, fun t loc hl hs => ?_⟩
      · simp only [GoMap.get?_set] at hl
        split at hl
        · rename_i e; cases hl; subst e; exact ⟨rfl, h1⟩
        · exact h.lang t loc hl
      · simp only [GoMap.get?_set] at hl
        split at hl
        · rename_i e; cases hl; subst e
          exact ⟨(fun x => nomatch x), fun x => absurd x h2⟩
        · exact h.src t loc hl
      · simp only [GoMap.get?_set] at hl
        split at hl
        · rename_i e; cases hl; subst e; exact ⟨hcs, hex⟩
        · exact h.cats t loc hl hs
      · simp only [isSome_set, List.mem_append, List.mem_singleton, h.langs t]
        exact ⟨fun x => x.symm, fun x => x.symm⟩
      · simp only [GoMap.get?_set] at hl
        simp only [List.mem_append, List.mem_singleton]
        split at hl
        · rename_i e; exact Or.inr (by rw [← e])
        · exact Or.inl (h'.printed t loc hl)
      · simp only [List.mem_append, List.mem_singleton] at hin
        rcases hin with hin | hin
        · exact h'.noInit ls hin
        · cases hin
      · simp only [GoMap.get?_set] at hl
        split at hl
        · rename_i e; cases hl; subst e
          exact fun p hp => (hg p hp).imp_right fun x => ⟨rfl, x.2⟩
        · exact h.good t loc hl hs
    · exact (isSome_set _ _ _ _).mpr (Or.inl rfl)

/-! ## All languages -/

theorem missing_inv {w : World L N V} {b : Builder L N} (h : Inv w b) (e : Err L) : Inv w (b.missing e) ∧ Stays b (b.missing e) := by
  obtain ⟨es, hes, hr⟩ := missing_shape b e
  rw [hes]
  exact ⟨h.shape b.loops h.nodup hr, ⟨rfl, rfl, rfl, rfl, rfl, rfl, fun _ _ _ h => h, fun _ h => h⟩⟩

theorem preload_inv (w : World L N V) {order : Order L N} (ho : Perms order) (optional : Bool) (as : List (LangArg L)) :
    ∀ {b b' : Builder L N}, Inv w b → b.preload w order optional as = (b', .ok ()) → Stays b b' ∧ Inv w b' := by
  induction as with
  | nil => intro b b' h hr; cases hr; exact ⟨.refl _, h⟩
  | cons a as ih =>
    intro b b' h hr
    rw [Builder.preload] at hr
    cases ht : a.toTag w with
    | error e => rw [ht] at hr; cases hr
    | ok tag =>
      rw [ht] at hr
      simp only at hr
      obtain ⟨hs, hi, _⟩ := created_inv h (createLocale_spec w ho optional b h.wf tag)
      generalize b.createLocale w order optional tag = r at hr hs hi
      obtain ⟨b1, r1⟩ := r
      cases r1 with
      | ok u =>
        simp only at hr
        obtain ⟨hs', hi'⟩ := ih hi hr
        exact ⟨hs.trans hs', hi'⟩
      | error e =>
        simp only at hr
        cases hop : optional with
        | false => rw [hop] at hr; cases hr
        | true =>
          rw [hop] at hr
          cases e with
          | missingLanguage l =>
            simp only [Bool.not_true, Bool.false_eq_true, if_false] at hr
            obtain ⟨hm, hms⟩ := missing_inv hi (.missingLanguage l)
            rw [← hop] at hr
            obtain ⟨hs', hi'⟩ := ih hm hr
            exact ⟨hs.trans (hms.trans hs'), hi'⟩
          | _ => cases hr

/-- The languages of a successful required action are present. -/
theorem preload_required (w : World L N V) {order : Order L N} (ho : Perms order) (as : List (LangArg L)) :
    ∀ {b b' : Builder L N}, Inv w b → b.preload w order false as = (b', .ok ()) →
      ∀ a ∈ as, ∃ t, a.toTag w = .ok t ∧ (b'.locales.get? t).isSome ∧
        (t ≠ b.sourceLanguage → b.locales.get? t = none → ∀ p ∈ b.loaders, Good false t p) := by
  induction as with
  | nil => intro b b' _ _ a ha; cases ha
  | cons a as ih =>
    intro b b' h hr x hx
    rw [Builder.preload] at hr
    cases ht : a.toTag w with
    | error e => rw [ht] at hr; cases hr
    | ok tag =>
      rw [ht] at hr
      simp only at hr
      have hcr := createLocale_spec w ho false b h.wf tag
      obtain ⟨hs, hi, hp⟩ := created_inv h hcr
      generalize b.createLocale w order false tag = r at hr hs hi hp hcr
      obtain ⟨b1, r1⟩ := r
      cases r1 with
      | error e => simp only [Bool.not_false, if_true] at hr; cases hr
      | ok u =>
        simp only at hr
        rcases List.mem_cons.mp hx with rfl | hx
        · refine ⟨tag, ht, (preload_inv w ho false as hi hr).1.present tag (hp rfl), fun h1 h2 => ?_⟩
          cases hcr with
          | source _ _ h => exact absurd h h1
          | cached _ _ h => rw [h2] at h; cases h
          | new _ _ _ _ _ _ _ _ hg => exact hg
        · obtain ⟨t, ht', hp', hg⟩ := ih hi hr x hx
          refine ⟨t, ht', hp', fun h1 h2 => ?_⟩
          by_cases hb1 : b1.locales.get? t = none
          · rw [← hs.loaders]; exact hg (by rw [hs.source]; exact h1) hb1
          · -- the language was created by this step
            cases hcr with
            | source _ _ hsrc =>
              simp only [GoMap.get?_set] at hb1
              split at hb1
              · rename_i e; exact absurd (e.symm.trans hsrc) h1
              · exact absurd h2 hb1
            | cached => exact absurd h2 hb1
            | new _ _ _ _ _ _ _ _ hg' =>
              simp only [GoMap.get?_set] at hb1
              split at hb1
              · rename_i e; rw [← e]; exact hg'
              · exact absurd h2 hb1

/-- A language that no action asks for stays out. -/
theorem preload_absent (w : World L N V) {order : Order L N} (ho : Perms order) (optional : Bool) (as : List (LangArg L))
    {t : L} (hno : ∀ a ∈ as, a.toTag w ≠ .ok t) :
    ∀ {b b' : Builder L N}, Inv w b → b.preload w order optional as = (b', .ok ()) → b.locales.get? t = none →
      b'.locales.get? t = none := by
  induction as with
  | nil => intro b b' _ hr h; cases hr; exact h
  | cons a as ih =>
    intro b b' h hr hb
    rw [Builder.preload] at hr
    have ih := @ih (fun x hx => hno x (List.mem_cons_of_mem _ hx))
    cases ht : a.toTag w with
    | error e => rw [ht] at hr; cases hr
    | ok tag =>
      have hne : tag ≠ t := fun e => hno a List.mem_cons_self (e ▸ ht)
      rw [ht] at hr
      simp only at hr
      have hcr := createLocale_spec w ho optional b h.wf tag
      obtain ⟨hs, hi, _⟩ := created_inv h hcr
      have hb1 : (b.createLocale w order optional tag).1.locales.get? t = none := by
        generalize b.createLocale w order optional tag = r at hcr
        cases hcr with
        | source => simp only [GoMap.get?_set, if_neg hne]; exact hb
        | new => simp only [GoMap.get?_set, if_neg hne]; exact hb
        | _ => exact hb
      generalize b.createLocale w order optional tag = r at hr hs hi hb1
      obtain ⟨b1, r1⟩ := r
      cases r1 with
      | ok u => exact ih hi hr hb1
      | error e =>
        simp only at hr
        cases hop : optional with
        | false => rw [hop] at hr; cases hr
        | true =>
          rw [hop] at hr
          cases e with
          | missingLanguage l =>
            simp only [Bool.not_true, Bool.false_eq_true, if_false] at hr
            obtain ⟨hm, hms⟩ := missing_inv hi (.missingLanguage l)
            rw [← hop] at hr
            refine ih hm hr ?_
            obtain ⟨es, hes, _⟩ := missing_shape b1 (.missingLanguage l)
            rw [hes]; exact hb1
          | _ => cases hr

theorem runActions_inv (w : World L N V) {order : Order L N} (ho : Perms order) (as : List (Action L)) :
    ∀ {b b' : Builder L N}, Inv w b → b.runActions w order as = .ok b' → Stays b b' ∧ Inv w b' := by
  induction as with
  | nil => intro b b' h hr; cases hr; exact ⟨.refl _, h⟩
  | cons a as ih =>
    intro b b' h hr
    rw [Builder.runActions] at hr
    cases hp : b.preload w order a.optional a.languages with
    | mk b1 r1 =>
      rw [hp] at hr
      cases r1 with
      | error e => cases hr
      | ok u =>
        simp only at hr
        obtain ⟨hs, hi⟩ := preload_inv w ho _ _ h hp
        obtain ⟨hs', hi'⟩ := ih hi hr
        exact ⟨hs.trans hs', hi'⟩

theorem runActions_append (w : World L N V) (order : Order L N) (as cs : List (Action L)) :
    ∀ b : Builder L N, b.runActions w order (as ++ cs) = match b.runActions w order as with
      | .error e => .error e
      | .ok b => b.runActions w order cs := by
  induction as with
  | nil => intro b; rfl
  | cons a as ih =>
    intro b
    simp only [List.cons_append, Builder.runActions]
    cases b.preload w order a.optional a.languages with
    | mk b1 r1 =>
      cases r1 with
      | error e => rfl
      | ok u => exact ih b1

omit [DecidableEq L] in
theorem loaded_of_good {t : L} {ls : GoMap Bytes (Loader L N)} (h : ∀ p ∈ ls, Good false t p) {d : Bytes} (hd : d ∈ ls.keys) :
    (loaded t ls d).isSome := by
  cases hg : ls.get? d with
  | none => exact absurd hd (GoMap.get?_eq_none.mp hg)
  | some ld =>
    rcases h _ (GoMap.mem_of_get? hg) with ⟨c, hc⟩ | ⟨h', _⟩
    · unfold loaded; rw [hg]; simp only at hc; simp only [hc]; rfl
    · cases h'

/-- A required language that nothing optional asks for before it is complete. -/
theorem runActions_required (w : World L N V) {order : Order L N} (ho : Perms order) {pre post : List (Action L)}
    {as : List (LangArg L)} {t : L} {b b' : Builder L N} (h : Inv w b) (hb : b.locales.get? t = none)
    (hr : b.runActions w order (pre ++ ⟨false, as⟩ :: post) = .ok b') (hsrc : t ≠ b.sourceLanguage)
    (hpre : ∀ a ∈ pre, a.optional = true → ∀ x ∈ a.languages, x.toTag w ≠ .ok t)
    (ht : ∃ a ∈ as, a.toTag w = .ok t) :
    ∃ loc, b'.locales.get? t = some loc ∧ ∀ d ∈ b.loaders.keys, (loc.catalogs.get? d).isSome := by
  induction pre generalizing b with
  | nil =>
    simp only [List.nil_append, Builder.runActions] at hr
    cases hp : b.preload w order false as with
    | mk b1 r1 =>
      rw [hp] at hr
      cases r1 with
      | error e => cases hr
      | ok u =>
        simp only at hr
        obtain ⟨hs, hi⟩ := preload_inv w ho _ _ h hp
        obtain ⟨a, ha, hat⟩ := ht
        obtain ⟨t', ht', hp1, hg⟩ := preload_required w ho as h hp a ha
        rw [hat] at ht'; cases ht'
        obtain ⟨hs', hi'⟩ := runActions_inv w ho post hi hr
        have hpres := hs'.present t hp1
        cases hl : b'.locales.get? t with
        | none => rw [hl] at hpres; cases hpres
        | some loc =>
          refine ⟨loc, rfl, fun d hd => ?_⟩
          have hsource : loc.isSource = false := by
            cases he : loc.isSource with
            | false => rfl
            | true => exact absurd (((hi'.src t loc hl).mp he).trans (hs'.source.trans hs.source)) hsrc
          rw [(hi'.cats t loc hl hsource).1 d, hs'.loaders, hs.loaders]
          exact loaded_of_good (hg hsrc hb) hd
  | cons a pre ih =>
    simp only [List.cons_append, Builder.runActions] at hr
    cases hp : b.preload w order a.optional a.languages with
    | mk b1 r1 =>
      rw [hp] at hr
      cases r1 with
      | error e => cases hr
      | ok u =>
        simp only at hr
        obtain ⟨hs, hi⟩ := preload_inv w ho _ _ h hp
        by_cases hb1 : b1.locales.get? t = none
        · obtain ⟨loc, hl, hd⟩ := ih hi hb1 hr (by rw [hs.source]; exact hsrc)
            (fun a' ha' => hpre a' (List.mem_cons_of_mem _ ha'))
          exact ⟨loc, hl, fun d hd' => hd d (by rw [hs.loaders]; exact hd')⟩
        · -- loaded by this action, which is a required one
          by_cases hask : ∃ x ∈ a.languages, x.toTag w = .ok t
          · obtain ⟨x, hx, hxt⟩ := hask
            have hopt : a.optional = false := by
              cases ho : a.optional with
              | false => rfl
              | true => exact absurd hxt (hpre a List.mem_cons_self ho x hx)
            rw [hopt] at hp
            obtain ⟨t', ht', hp1, hg⟩ := preload_required w ho _ h hp x hx
            rw [hxt] at ht'; cases ht'
            obtain ⟨hs', hi'⟩ := runActions_inv w ho _ hi hr
            have hpres := hs'.present t hp1
            cases hl : b'.locales.get? t with
            | none => rw [hl] at hpres; cases hpres
            | some loc =>
              refine ⟨loc, rfl, fun d hd => ?_⟩
              have hsource : loc.isSource = false := by
                cases he : loc.isSource with
                | false => rfl
                | true => exact absurd (((hi'.src t loc hl).mp he).trans (hs'.source.trans hs.source)) hsrc
              rw [(hi'.cats t loc hl hsource).1 d, hs'.loaders, hs.loaders]
              exact loaded_of_good (hg hsrc hb) hd
          · exact absurd (preload_absent w ho _ _ (fun x hx e => hask ⟨x, hx, e⟩) h hp hb) hb1

/-! ## The options -/

/-- The setup actions an option adds. -/
def actionsOf (w : World L N V) : Opt L N → List (Action L)
  | .fallback lang => match lang.toTag w with
    | .error _ => []
    | .ok tag => [⟨false, [.tag tag]⟩]
  | .source tag => [⟨false, [.tag tag]⟩]
  | .language ls => [⟨true, ls⟩]
  | .requiredLanguage ls => [⟨false, ls⟩]
  | _ => []

/-- A builder before the setup actions. -/
structure Fresh (b : Builder L N) : Prop where
  locales : b.locales = []
  languages : b.languages = []
  domains : b.domains = []
  events : b.events = []
  wf : b.loaders.WF

theorem apply_fresh {w : World L N V} {b b' : Builder L N} {o : Opt L N} (h : Fresh b) (hr : b.apply w o = .ok b') :
    Fresh b' ∧ b'.actions = b.actions ++ actionsOf w o ∧
      (∀ d ld, b'.loaders.get? d = some ld ↔ b.loaders.get? d = some ld ∨ o = .domainLoader d (some ld)) := by
  cases o with
  | nil => cases hr
  | fallback lang =>
    simp only [Builder.apply] at hr
    cases ht : lang.toTag w with
    | error e => rw [ht] at hr; cases hr
    | ok tag =>
      rw [ht] at hr
      simp only at hr
      cases hr
      exact ⟨⟨h.1, h.2, h.3, h.4, h.5⟩, by simp only [actionsOf, ht], fun d ld => ⟨Or.inl, fun x => x.elim id (fun x => nomatch x)⟩⟩
  | source tag => cases hr; exact ⟨⟨h.1, h.2, h.3, h.4, h.5⟩, rfl, fun d ld => ⟨Or.inl, fun x => x.elim id (fun x => nomatch x)⟩⟩
  | callback s =>
    cases hr
    exact ⟨⟨h.1, h.2, h.3, h.4, h.5⟩, (List.append_nil _).symm, fun d ld => ⟨Or.inl, fun x => x.elim id (fun x => nomatch x)⟩⟩
  | defaultDomain d =>
    cases hr
    exact ⟨⟨h.1, h.2, h.3, h.4, h.5⟩, (List.append_nil _).symm, fun d ld => ⟨Or.inl, fun x => x.elim id (fun x => nomatch x)⟩⟩
  | errorContext d =>
    cases hr
    exact ⟨⟨h.1, h.2, h.3, h.4, h.5⟩, (List.append_nil _).symm, fun d ld => ⟨Or.inl, fun x => x.elim id (fun x => nomatch x)⟩⟩
  | language ls => cases hr; exact ⟨⟨h.1, h.2, h.3, h.4, h.5⟩, rfl, fun d ld => ⟨Or.inl, fun x => x.elim id (fun x => nomatch x)⟩⟩
  | requiredLanguage ls => cases hr; exact ⟨⟨h.1, h.2, h.3, h.4, h.5⟩, rfl, fun d ld => ⟨Or.inl, fun x => x.elim id (fun x => nomatch x)⟩⟩
  | other ok =>
    simp only [Builder.apply] at hr
    cases ok with
    | false => cases hr
    | true => cases hr; exact ⟨h, (List.append_nil _).symm, fun d ld => ⟨Or.inl, fun x => x.elim id (fun x => nomatch x)⟩⟩
  | domainLoader d l =>
    simp only [Builder.apply] at hr
    cases hg : b.loaders.get? d with
    | some x => rw [hg] at hr; cases hr
    | none =>
      rw [hg] at hr
      cases l with
      | none => cases hr
      | some ld =>
        cases hr
        refine ⟨⟨h.1, h.2, h.3, h.4, h.5.set _ _⟩, (List.append_nil _).symm, fun d' ld' => ?_⟩
        simp only [GoMap.get?_set]
        by_cases he : d = d'
        · subst he
          rw [if_pos rfl, hg]
          constructor
          · intro x; cases x; exact Or.inr rfl
          · rintro (x | x)
            · cases x
            · cases x; rfl
        · rw [if_neg he]
          constructor
          · exact Or.inl
          · rintro (x | x)
            · exact x
            · cases x; exact absurd rfl he

theorem applyAll_fresh {w : World L N V} (os : List (Opt L N)) : ∀ {b b' : Builder L N}, Fresh b → b.applyAll w os = .ok b' →
    Fresh b' ∧ b'.actions = b.actions ++ os.flatMap (actionsOf w) ∧
      (∀ d ld, b'.loaders.get? d = some ld ↔ b.loaders.get? d = some ld ∨ .domainLoader d (some ld) ∈ os) := by
  induction os with
  | nil => intro b b' h hr; cases hr; exact ⟨h, (List.append_nil _).symm, fun d ld => ⟨Or.inl, fun x => x.elim id (fun x => nomatch x)⟩⟩
  | cons o os ih =>
    intro b b' h hr
    rw [Builder.applyAll] at hr
    cases ho : b.apply w o with
    | error e => rw [ho] at hr; cases hr
    | ok b1 =>
      rw [ho] at hr
      simp only at hr
      obtain ⟨h1, h2, h3⟩ := apply_fresh h ho
      obtain ⟨h4, h5, h6⟩ := ih h1 hr
      refine ⟨h4, by rw [h5, h2, List.flatMap_cons, List.append_assoc], fun d ld => ?_⟩
      rw [h6, h3, List.mem_cons]
      constructor
      · rintro ((x | x) | x)
        · exact Or.inl x
        · exact Or.inr (Or.inl x.symm)
        · exact Or.inr (Or.inr x)
      · rintro (x | x | x)
        · exact Or.inl (Or.inl x)
        · exact Or.inl (Or.inr x.symm)
        · exact Or.inr x

theorem fresh_start (w : World L N V) : Fresh (Builder.start w : Builder L N) := ⟨rfl, rfl, rfl, rfl, GoMap.WF.nil⟩

theorem Fresh.inv {b : Builder L N} (h : Fresh b) (w : World L N V) : Inv w { b with domains := [] } := by
  refine ⟨h.wf, List.nodup_nil, fun t loc hl => ?_, fun t loc hl => ?_, fun t loc hl => ?_, fun t => ?_, fun t loc hl => ?_, fun ls hin => ?_, fun t loc hl hs => ?_⟩
  · simp only [h.locales] at hl; cases hl
  · simp only [h.locales] at hl; cases hl
  · simp only [h.locales] at hl; cases hl
  · simp only [h.languages, h.locales]; exact ⟨(fun h => nomatch h), (fun h => nomatch h)⟩
  · simp only [h.locales] at hl; cases hl
  · simp only [h.events] at hin; cases hin
  · simp only [h.locales] at hl; cases hl

/-- A successful `NewBundle` taken apart. -/
theorem newBundle_inv {w : World L N V} {order : Order L N} {opts : List (Opt L N)} {B : Bundle L N} {es : List (Event L)}
    (h : newBundle w order opts = .ok (B, es)) : ∃ b b', (Builder.start w).applyAll w opts = .ok b ∧ Fresh b ∧
      { b with domains := [] }.runActions w order b.actions = .ok b' ∧ b'.finish = (B, es) := by
  unfold newBundle at h
  cases ha : (Builder.start w : Builder L N).applyAll w opts with
  | error e => rw [ha] at h; cases h
  | ok b =>
    rw [ha] at h
    simp only at h
    cases hr : { b with domains := [] }.runActions w order b.actions with
    | error e => rw [hr] at h; cases h
    | ok b' => rw [hr] at h; cases h; exact ⟨b, b', rfl, (applyAll_fresh opts (fresh_start w) ha).1, hr, rfl⟩

/-- The parts of a bundle. -/
theorem finish_eq (b : Builder L N) : ∃ src fb post, b.finish =
      (⟨b.callback, b.defaultDomain, b.errContext, fb, src, b.languages, b.locales, b.domains⟩,
        b.events ++ .init b.languages :: post) ∧
    ((b.locales.get? b.sourceLanguage = some src ∧ post = []) ∨
      (b.locales.get? b.sourceLanguage = none ∧ src = ⟨b.sourceLanguage, [], true⟩ ∧ post = [.getPrintFunc b.sourceLanguage])) ∧
    (b.locales.get? b.fallbackLanguage = some fb ∨ (b.locales.get? b.fallbackLanguage = none ∧ fb = src)) := by
  unfold Builder.finish
  cases hs : b.locales.get? b.sourceLanguage with
  | some s =>
    cases hf : b.locales.get? b.fallbackLanguage with
    | some f => exact ⟨s, f, [], by simp, Or.inl ⟨rfl, rfl⟩, Or.inl rfl⟩
    | none => exact ⟨s, s, [], by simp, Or.inl ⟨rfl, rfl⟩, Or.inr ⟨rfl, rfl⟩⟩
  | none =>
    cases hf : b.locales.get? b.fallbackLanguage with
    | some f => exact ⟨_, f, [.getPrintFunc b.sourceLanguage], by simp, Or.inr ⟨rfl, rfl, rfl⟩, Or.inl rfl⟩
    | none => exact ⟨_, _, [.getPrintFunc b.sourceLanguage], by simp, Or.inr ⟨rfl, rfl, rfl⟩, Or.inr ⟨rfl, rfl⟩⟩

end Verif.Proofs.Spreak
