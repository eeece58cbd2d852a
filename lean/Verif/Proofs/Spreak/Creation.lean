import Verif.Proofs.Spreak.Strict
import Verif.Spec.Creation
/-!
# When a bundle can be created
-/
namespace Verif.Proofs.Spreak
open Verif.Go Verif.Model.Spreak Verif.Spec.Creation

variable {L N V : Type} [DecidableEq L]

/-! ## One request after the other -/

/-- One request. -/
def ask (w : World L N V) (order : Order L N) (b : Builder L N) (q : Bool × LangArg L) : Except (Err L) (Builder L N) :=
  match b.preload w order q.1 [q.2] with
  | (_, .error e) => .error e
  | (b, .ok ()) => .ok b

/-- All requests. -/
def askAll (w : World L N V) (order : Order L N) : Builder L N → List (Bool × LangArg L) → Except (Err L) (Builder L N)
  | b, [] => .ok b
  | b, q :: qs => match ask w order b q with
    | .error e => .error e
    | .ok b => askAll w order b qs

theorem askAll_append (w : World L N V) (order : Order L N) (l m : List (Bool × LangArg L)) : ∀ b : Builder L N,
    askAll w order b (l ++ m) = match askAll w order b l with
      | .error e => .error e
      | .ok b => askAll w order b m := by
  induction l with
  | nil => intro b; rfl
  | cons q l ih =>
    intro b
    simp only [List.cons_append, askAll]
    cases ask w order b q with
    | error e => rfl
    | ok b => exact ih b

theorem preload_ask (w : World L N V) (order : Order L N) (o : Bool) (as : List (LangArg L)) : ∀ b : Builder L N,
    askAll w order b (as.map fun a => (o, a)) = match b.preload w order o as with
      | (_, .error e) => .error e
      | (b, .ok ()) => .ok b := by
  induction as with
  | nil => intro b; rfl
  | cons a as ih =>
    intro b
    simp only [List.map_cons, askAll, ask]
    rw [Builder.preload, Builder.preload]
    cases a.toTag w with
    | error e => rfl
    | ok tag =>
      simp only []
      cases b.createLocale w order o tag with
      | mk b1 r1 =>
        cases r1 with
        | ok u => exact ih b1
        | error e =>
          simp only []
          cases o with
          | false => rfl
          | true =>
            cases e with
            | missingLanguage l => exact ih _
            | _ => rfl

/-- The requests of the setup actions. -/
def reqs (as : List (Action L)) : List (Bool × LangArg L) := as.flatMap fun a => a.languages.map fun x => (a.optional, x)

theorem runActions_ask (w : World L N V) (order : Order L N) (as : List (Action L)) : ∀ b : Builder L N,
    b.runActions w order as = askAll w order b (reqs as) := by
  induction as with
  | nil => intro b; rfl
  | cons a as ih =>
    intro b
    rw [Builder.runActions, reqs, List.flatMap_cons, askAll_append, preload_ask]
    cases b.preload w order a.optional a.languages with
    | mk b1 r1 =>
      cases r1 with
      | error e => rfl
      | ok u => exact ih b1

/-! ## What one request does -/

/-- There is a catalog in some domain. -/
def SomeB (b : Builder L N) (t : L) : Prop := ∃ d, (loaded t b.loaders d).isSome

/-- The events without the reports. -/
def calls (es : List (Event L)) : List (Event L) := es.filter isPrinter

omit [DecidableEq L] in
theorem calls_reported {es es' : List (Event L)} (h : Reported es es') : calls es' = calls es := by
  obtain ⟨ms, rfl, hm⟩ := h
  unfold calls
  rw [List.filter_append]
  have : ms.filter isPrinter = [] := by
    rw [List.filter_eq_nil_iff]
    intro e he
    obtain ⟨x, rfl⟩ := hm e he
    simp [isPrinter]
  rw [this, List.append_nil]

omit [DecidableEq L] in
theorem calls_print (es : List (Event L)) (t : L) : calls (es ++ [.getPrintFunc t]) = calls es ++ [.getPrintFunc t] := by
  unfold calls
  rw [List.filter_append]
  rfl

/-- The outcome of a request for a language. -/
structure Asked (w : World L N V) (b : Builder L N) (t : L) (b' : Builder L N) : Prop where
  stays : Stays b b'
  inv : Inv w b'
  langs : (b'.languages = b.languages ∧ calls b'.events = calls b.events ∧
      (t = w.und ∨ (t ≠ b.sourceLanguage ∧ (t ∈ b.languages ∨ ¬ SomeB b t)))) ∨
    (b'.languages = b.languages ++ [t] ∧ calls b'.events = calls b.events ++ [.getPrintFunc t] ∧ t ≠ w.und ∧
      (t = b.sourceLanguage ∨ (t ≠ b.sourceLanguage ∧ t ∉ b.languages ∧ SomeB b t)))

theorem not_mem_langs {w : World L N V} {b : Builder L N} (h : Inv w b) {t : L} (hn : b.locales.get? t = none) : t ∉ b.languages := by
  intro hm
  have := (h.langs t).mp hm
  rw [hn] at this; cases this

theorem created_asked {w : World L N V} {o : Bool} {b : Builder L N} {t : L} (h : Inv w b)
    (hno : NoMissing b.loaders) {r : Builder L N × Except (Err L) Unit} (hc : Created w o b t r)
    (hr : r.2 = .ok () ∨ ∃ l, r.2 = .error (.missingLanguage l)) : Asked w b t r.1 := by
  obtain ⟨hs, hi, _⟩ := created_inv h hc
  refine ⟨hs, hi, ?_⟩
  cases hc with
  | und h1 => exact .inl ⟨rfl, rfl, .inl h1⟩
  | source es h1 h2 he => exact .inr ⟨rfl, by rw [he, ← h2]; exact calls_print _ _, h1, .inl h2⟩
  | cached h1 h2 h3 => exact .inl ⟨rfl, rfl, .inr ⟨h2, .inl ((h.langs t).mpr h3)⟩⟩
  | bad ds es k e h1 h2 h3 h4 h5 h6 h7 =>
    rcases hr with hr | ⟨l, hr⟩
    · cases hr
    · cases hr
      obtain ⟨p, hp, he⟩ := h6
      exact absurd he (hno p hp t l)
  | empty ds es k h1 h2 h3 h4 h5 h6 =>
    refine .inl ⟨rfl, calls_reported h3, .inr ⟨h2, .inr ?_⟩⟩
    rintro ⟨d, hd⟩
    rw [h6 d] at hd; cases hd
  | new ds es k cs h1 h2 h3 h4 h5 h6 =>
    refine .inr ⟨rfl, ?_, h1, .inr ⟨h2, not_mem_langs h h4, h6⟩⟩
    rw [calls_print, calls_reported h3]

/-- The condition under which a request does not stop the creation. -/
def Passes (w : World L N V) (b : Builder L N) (o : Bool) (t : L) : Prop :=
  (o = true → t = w.und ∨ t = b.sourceLanguage ∨ ∀ p ∈ b.loaders, Good true t p) ∧
  (o = false → t ≠ w.und ∧ (t = b.sourceLanguage ∨ t ∈ b.languages ∨ (SomeB b t ∧ ∀ p ∈ b.loaders, Good false t p)))

theorem created_passes {w : World L N V} {o : Bool} {b : Builder L N} {t : L} (h : Inv w b)
    (hno : NoMissing b.loaders) {r : Builder L N × Except (Err L) Unit} (hc : Created w o b t r) :
    (r.2 = .ok () ∨ (o = true ∧ ∃ l, r.2 = .error (.missingLanguage l))) ↔ Passes w b o t := by
  have good : t ≠ b.sourceLanguage → (b.locales.get? t).isSome → ∀ p ∈ b.loaders, Good true t p := by
    intro h2 h3
    cases hg : b.locales.get? t with
    | none => rw [hg] at h3; cases h3
    | some loc =>
      refine h.good t loc hg ?_
      cases he : loc.isSource with
      | false => rfl
      | true => exact absurd ((h.src t loc hg).1 he) h2
  cases hc with
  | und h1 =>
    constructor
    · rintro (x | ⟨x, _⟩)
      · cases x
      · exact ⟨fun _ => .inl h1, fun y => by rw [x] at y; cases y⟩
    · intro hp
      cases o with
      | true => exact .inr ⟨rfl, t, rfl⟩
      | false => exact absurd h1 (hp.2 rfl).1
  | source es h1 h2 he =>
    exact ⟨fun _ => ⟨fun _ => .inr (.inl h2), fun _ => ⟨h1, .inl h2⟩⟩, fun _ => .inl rfl⟩
  | cached h1 h2 h3 =>
    exact ⟨fun _ => ⟨fun _ => .inr (.inr (good h2 h3)), fun _ => ⟨h1, .inr (.inl ((h.langs t).mpr h3))⟩⟩, fun _ => .inl rfl⟩
  | bad ds es k e h1 h2 h3 h4 h5 h6 h7 =>
    constructor
    · rintro (x | ⟨_, l, x⟩)
      · cases x
      · cases x
        obtain ⟨p, hp, he⟩ := h6
        exact absurd he (hno p hp t l)
    · intro hp
      exfalso
      cases o with
      | true =>
        rcases hp.1 rfl with x | x | x
        · exact h1 x
        · exact h2 x
        · exact h5 x
      | false =>
        rcases (hp.2 rfl).2 with x | x | x
        · exact h2 x
        · exact not_mem_langs h h4 x
        · exact h5 x.2
  | empty ds es k h1 h2 h3 h4 h5 h6 =>
    constructor
    · rintro (x | ⟨x, _⟩)
      · cases x
      · subst x
        exact ⟨fun _ => .inr (.inr h5), fun y => by cases y⟩
    · intro hp
      cases o with
      | true => exact .inr ⟨rfl, t, rfl⟩
      | false =>
        exfalso
        rcases (hp.2 rfl).2 with x | x | ⟨⟨d, x⟩, _⟩
        · exact h2 x
        · exact not_mem_langs h h4 x
        · rw [h6 d] at x; cases x
  | new ds es k cs h1 h2 h3 h4 h5 h6 =>
    refine ⟨fun _ => ⟨fun e => ?_, fun e => ?_⟩, fun _ => .inl rfl⟩
    · subst e; exact .inr (.inr h5)
    · subst e; exact ⟨h1, .inr (.inr ⟨h6, h5⟩)⟩

theorem missing_asked {w : World L N V} {b b' : Builder L N} {t : L} (h : Asked w b t b') (e : Err L) : Asked w b t (b'.missing e) := by
  obtain ⟨hm, hms⟩ := missing_inv h.inv e
  refine ⟨h.stays.trans hms, hm, ?_⟩
  obtain ⟨es, hes, hr⟩ := missing_shape b' e
  have h1 : (b'.missing e).languages = b'.languages := by rw [hes]
  have h2 : calls (b'.missing e).events = calls b'.events := by rw [hes]; exact calls_reported hr
  rw [h1, h2]
  exact h.langs

/-- One request: when it passes, and what it does then. -/
theorem ask_spec (w : World L N V) {order : Order L N} (ho : Perms order) {b : Builder L N} (h : Inv w b)
    (hno : NoMissing b.loaders) (q : Bool × LangArg L) :
    (∀ b', ask w order b q = .ok b' → ∃ t, q.2.toTag w = .ok t ∧ Passes w b q.1 t ∧ Asked w b t b') ∧
    (∀ t, q.2.toTag w = .ok t → Passes w b q.1 t → ∃ b', ask w order b q = .ok b') := by
  obtain ⟨o, a⟩ := q
  unfold ask
  simp only []
  rw [Builder.preload]
  cases ht : a.toTag w with
  | error e =>
    refine ⟨fun b' hb => ?_, fun t hx => ?_⟩
    · cases hb
    · cases hx
  | ok tag =>
    simp only []
    have hcr := createLocale_spec w ho o b h.wf tag
    have hp := created_passes h hno hcr
    have ha := created_asked h hno hcr
    generalize b.createLocale w order o tag = r at hp ha
    obtain ⟨b1, r1⟩ := r
    cases r1 with
    | ok u =>
      simp only [Builder.preload]
      refine ⟨fun b' hb => ?_, fun t _ _ => ⟨b1, rfl⟩⟩
      cases hb
      exact ⟨tag, rfl, hp.mp (.inl rfl), ha (.inl rfl)⟩
    | error e =>
      simp only []
      cases o with
      | false =>
        refine ⟨fun b' hb => (by cases hb), fun t hx hps => ?_⟩
        cases hx
        rcases hp.mpr hps with x | ⟨x, _⟩ <;> cases x
      | true =>
        by_cases hm : ∃ l, e = .missingLanguage l
        · obtain ⟨l, rfl⟩ := hm
          simp only [Builder.preload, Bool.not_true, Bool.false_eq_true, if_false]
          refine ⟨fun b' hb => ?_, fun t _ _ => ⟨_, rfl⟩⟩
          cases hb
          exact ⟨tag, rfl, hp.mp (.inr ⟨rfl, l, rfl⟩), missing_asked (ha (.inr ⟨l, rfl⟩)) _⟩
        · have hx : ∀ t, Passes w b true t → Except.ok (ε := Err L) tag = .ok t → False := by
            intro t hps hx
            cases hx
            rcases hp.mpr hps with x | ⟨_, l, x⟩
            · cases x
            · cases x; exact hm ⟨l, rfl⟩
          refine ⟨fun b' hb => ?_, fun t hx' hps => (hx t hps hx').elim⟩
          cases e with
          | missingLanguage l => exact absurd ⟨l, rfl⟩ hm
          | _ => cases hb

/-! ## All requests -/

/-- A request can be met, by the builder. -/
def MetB (w : World L N V) (b : Builder L N) (before : List (Bool × LangArg L)) (q : Bool × LangArg L) : Prop :=
  ∃ t, q.2.toTag w = .ok t ∧
    (q.1 = true → t = w.und ∨ t = b.sourceLanguage ∨ ∀ p ∈ b.loaders, Good true t p) ∧
    (q.1 = false → t ≠ w.und ∧ (t = b.sourceLanguage ∨
      (SomeB b t ∧ ((∀ p ∈ b.loaders, Good false t p) ∨ ∃ a, (true, a) ∈ before ∧ a.toTag w = .ok t))))

/-- What the earlier requests left. -/
structure Hist (w : World L N V) (b : Builder L N) (before : List (Bool × LangArg L)) : Prop where
  langs : ∀ t, t ∈ b.languages ↔ t ≠ w.und ∧ (∃ q ∈ before, q.2.toTag w = .ok t) ∧ (t = b.sourceLanguage ∨ SomeB b t)
  first : ∀ t ∈ b.languages, t ≠ b.sourceLanguage →
    (∀ p ∈ b.loaders, Good false t p) ∨ ∃ a, (true, a) ∈ before ∧ a.toTag w = .ok t

theorem passes_iff {w : World L N V} {b : Builder L N} {before : List (Bool × LangArg L)} (hh : Hist w b before)
    (q : Bool × LangArg L) : (∃ t, q.2.toTag w = .ok t ∧ Passes w b q.1 t) ↔ MetB w b before q := by
  refine exists_congr fun t => and_congr_right fun ht => and_congr_right fun _ => imp_congr_right fun _ =>
    and_congr_right fun hu => ?_
  by_cases hs : t = b.sourceLanguage
  · simp [hs]
  · simp only [hs, false_or]
    constructor
    · rintro (hm | ⟨h1, h2⟩)
      · exact ⟨((hh.langs t).mp hm).2.2.resolve_left hs, hh.first t hm hs⟩
      · exact ⟨h1, .inl h2⟩
    · rintro ⟨h1, h2 | ⟨a, h2, h3⟩⟩
      · exact .inr ⟨h1, h2⟩
      · exact .inl ((hh.langs t).mpr ⟨hu, ⟨(true, a), h2, h3⟩, .inr h1⟩)

theorem someB_stays {b b' : Builder L N} (h : Stays b b') (t : L) : SomeB b' t ↔ SomeB b t := by
  unfold SomeB; rw [h.loaders]

theorem hist_next {w : World L N V} {b b' : Builder L N} {before : List (Bool × LangArg L)} (hh : Hist w b before)
    {q : Bool × LangArg L} {t : L} (ht : q.2.toTag w = .ok t) (hp : Passes w b q.1 t) (ha : Asked w b t b') :
    Hist w b' (before ++ [q]) := by
  have hmem : ∀ x, (∃ q' ∈ before ++ [q], q'.2.toTag w = .ok x) ↔ (∃ q' ∈ before, q'.2.toTag w = .ok x) ∨ x = t := by
    intro x
    constructor
    · rintro ⟨q', hq, hx⟩
      rcases List.mem_append.mp hq with hq | hq
      · exact .inl ⟨q', hq, hx⟩
      · rw [List.mem_singleton.mp hq, ht] at hx; cases hx; exact .inr rfl
    · rintro (⟨q', hq, hx⟩ | rfl)
      · exact ⟨q', List.mem_append_left _ hq, hx⟩
      · exact ⟨q, List.mem_append_right _ (List.mem_singleton.mpr rfl), ht⟩
  have grow : ∀ {x : L}, ((∀ p ∈ b.loaders, Good false x p) ∨ ∃ a, (true, a) ∈ before ∧ a.toTag w = .ok x) →
      ((∀ p ∈ b'.loaders, Good false x p) ∨ ∃ a, (true, a) ∈ before ++ [q] ∧ a.toTag w = .ok x) := by
    rintro x (h | ⟨a, h1, h2⟩)
    · exact .inl (by rw [ha.stays.loaders]; exact h)
    · exact .inr ⟨a, List.mem_append_left _ h1, h2⟩
  have hs := ha.stays.source
  rcases ha.langs with ⟨hl, _, hc⟩ | ⟨hl, _, hu, hc⟩
  · refine ⟨fun x => ?_, fun x hx hn => ?_⟩
    · rw [hl, hh.langs x, hmem x, hs, someB_stays ha.stays]
      refine and_congr_right fun hux => ⟨fun y => ⟨.inl y.1, y.2⟩, fun y => ?_⟩
      rcases y with ⟨y | rfl, z⟩
      · exact ⟨y, z⟩
      · rcases hc with hc | ⟨hc1, hc2⟩
        · exact absurd hc hux
        · have hm := hc2.resolve_right (fun k => k (z.resolve_left hc1))
          exact ((hh.langs x).mp hm).2
    · rw [hl] at hx
      rw [hs] at hn
      exact grow (hh.first x hx hn)
  · refine ⟨fun x => ?_, fun x hx hn => ?_⟩
    · rw [hl, List.mem_append, List.mem_singleton, hh.langs x, hmem x, hs, someB_stays ha.stays]
      constructor
      · rintro (⟨y1, y2, y3⟩ | rfl)
        · exact ⟨y1, .inl y2, y3⟩
        · exact ⟨hu, .inr rfl, hc.imp id fun k => k.2.2⟩
      · rintro ⟨y1, y2 | rfl, y3⟩
        · exact .inl ⟨y1, y2, y3⟩
        · exact .inr rfl
    · rw [hl] at hx
      rw [hs] at hn
      rcases List.mem_append.mp hx with hx | hx
      · exact grow (hh.first x hx hn)
      · rw [List.mem_singleton] at hx
        subst hx
        obtain ⟨o, a⟩ := q
        cases o with
        | true => exact .inr ⟨a, List.mem_append_right _ (List.mem_singleton.mpr rfl), ht⟩
        | false =>
          rcases (hp.2 rfl).2 with h1 | h1 | h1
          · exact absurd h1 hn
          · exact grow (hh.first x h1 hn)
          · exact grow (.inl h1.2)

theorem metB_stays {w : World L N V} {b b' : Builder L N} (h : Stays b b') (before : List (Bool × LangArg L)) (q : Bool × LangArg L) :
    MetB w b' before q ↔ MetB w b before q := by
  unfold MetB; simp only [h.loaders, h.source, someB_stays h]

theorem askAll_iff (w : World L N V) {order : Order L N} (ho : Perms order) (qs : List (Bool × LangArg L)) :
    ∀ {b : Builder L N} {before : List (Bool × LangArg L)}, Inv w b → NoMissing b.loaders → Hist w b before →
      ((∃ b', askAll w order b qs = .ok b') ↔ ∀ pre q post, qs = pre ++ q :: post → MetB w b (before ++ pre) q) := by
  induction qs with
  | nil =>
    intro b before _ _ _
    exact ⟨fun _ pre q post he => (by cases pre <;> cases he), fun _ => ⟨b, rfl⟩⟩
  | cons q qs ih =>
    intro b before hi hno hh
    obtain ⟨h1, h2⟩ := ask_spec w ho hi hno q
    have hp := passes_iff hh q
    constructor
    · rintro ⟨b', hb⟩ pre q' post he
      rw [askAll] at hb
      cases hq : ask w order b q with
      | error e => rw [hq] at hb; cases hb
      | ok b1 =>
        rw [hq] at hb
        simp only at hb
        obtain ⟨t, ht, hps, ha⟩ := h1 b1 hq
        cases pre with
        | nil =>
          cases he
          rw [List.append_nil]
          exact hp.mp ⟨t, ht, hps⟩
        | cons p pre =>
          cases he
          have := (ih ha.inv (by rw [ha.stays.loaders]; exact hno) (hist_next hh ht hps ha)).mp ⟨b', hb⟩ pre q' post rfl
          rw [metB_stays ha.stays, List.append_assoc] at this
          exact this
    · intro hall
      obtain ⟨t, ht, hps⟩ := hp.mpr (by have := hall [] q qs rfl; rwa [List.append_nil] at this)
      obtain ⟨b1, hb1⟩ := h2 t ht hps
      obtain ⟨t', ht', hps', ha⟩ := h1 b1 hb1
      rw [askAll, hb1]
      refine (ih ha.inv (by rw [ha.stays.loaders]; exact hno) (hist_next hh ht' hps' ha)).mpr fun pre q' post he => ?_
      rw [metB_stays ha.stays, List.append_assoc]
      exact hall (q :: pre) q' post (by rw [he]; rfl)

theorem asked_next {w : World L N V} {b b' : Builder L N} {a : LangArg L} {t : L} (ht : a.toTag w = .ok t) (ha : Asked w b t b')
    {f : L → Bool} (hf : ∀ t, f t = true ↔ SomeB b t) : b'.languages = next w b.sourceLanguage f b.languages a := by
  unfold next
  rw [ht]
  simp only []
  rcases ha.langs with ⟨hl, _, hc⟩ | ⟨hl, _, hu, hc⟩
  · rw [hl]
    rcases hc with hc | ⟨hc1, hc2⟩
    · rw [if_pos hc]
    · split
      · rfl
      · rw [if_neg]
        rintro (x | ⟨x, y⟩)
        · exact hc1 x
        · exact hc2.elim (fun k => x k) fun k => k ((hf t).mp y)
  · rw [hl, if_neg hu, if_pos]
    exact hc.imp id fun k => ⟨k.2.1, (hf t).mpr k.2.2⟩

/-- The languages and the calls of the printer after all requests. -/
theorem askAll_result (w : World L N V) {order : Order L N} (ho : Perms order) (qs : List (Bool × LangArg L)) :
    ∀ {b b' : Builder L N}, Inv w b → NoMissing b.loaders → calls b.events = b.languages.map Event.getPrintFunc →
      ∀ {f : L → Bool}, (∀ t, f t = true ↔ SomeB b t) → askAll w order b qs = .ok b' →
      b'.languages = (qs.map Prod.snd).foldl (next w b.sourceLanguage f) b.languages ∧
        calls b'.events = b'.languages.map Event.getPrintFunc := by
  induction qs with
  | nil => intro b b' _ _ hc f _ hb; cases hb; exact ⟨rfl, hc⟩
  | cons q qs ih =>
    intro b b' hi hno hc f hf hb
    rw [askAll] at hb
    cases hq : ask w order b q with
    | error e => rw [hq] at hb; cases hb
    | ok b1 =>
      rw [hq] at hb
      simp only at hb
      obtain ⟨t, ht, hps, ha⟩ := (ask_spec w ho hi hno q).1 b1 hq
      have hc1 : calls b1.events = b1.languages.map Event.getPrintFunc := by
        rcases ha.langs with ⟨hl, he, _⟩ | ⟨hl, he, _⟩
        · rw [hl, he, hc]
        · rw [hl, he, hc, List.map_append]; rfl
      obtain ⟨r1, r2⟩ := ih ha.inv (by rw [ha.stays.loaders]; exact hno) hc1
        (fun t => (hf t).trans (someB_stays ha.stays t).symm) hb
      refine ⟨?_, r2⟩
      rw [r1, ha.stays.source, asked_next ht ha hf]
      rfl

theorem askAll_hist (w : World L N V) {order : Order L N} (ho : Perms order) (qs : List (Bool × LangArg L)) :
    ∀ {b b' : Builder L N} {before : List (Bool × LangArg L)}, Inv w b → NoMissing b.loaders → Hist w b before →
      askAll w order b qs = .ok b' → Hist w b' (before ++ qs) ∧ Stays b b' := by
  induction qs with
  | nil => intro b b' before _ _ hh hb; cases hb; rw [List.append_nil]; exact ⟨hh, .refl _⟩
  | cons q qs ih =>
    intro b b' before hi hno hh hb
    rw [askAll] at hb
    cases hq : ask w order b q with
    | error e => rw [hq] at hb; cases hb
    | ok b1 =>
      rw [hq] at hb
      simp only at hb
      obtain ⟨t, ht, hps, ha⟩ := (ask_spec w ho hi hno q).1 b1 hq
      obtain ⟨r1, r2⟩ := ih ha.inv (by rw [ha.stays.loaders]; exact hno) (hist_next hh ht hps ha) hb
      rw [List.append_assoc] at r1
      exact ⟨r1, ha.stays.trans r2⟩

/-- The calls of the printer so far, whatever the loaders return. -/
def Printed (b : Builder L N) : Prop := calls b.events = b.languages.map Event.getPrintFunc

theorem created_printed {w : World L N V} {o : Bool} {b : Builder L N} {t : L} (h : Printed b)
    {r : Builder L N × Except (Err L) Unit} (hc : Created w o b t r) : Printed r.1 := by
  unfold Printed at *
  cases hc with
  | und h1 => exact h
  | source es h1 h2 he => simp only [he, calls_print, List.map_append, h, ← h2]; rfl
  | cached h1 h2 h3 => exact h
  | bad ds es k e h1 h2 h3 h4 h5 h6 h7 => exact (calls_reported h3).trans h
  | empty ds es k h1 h2 h3 h4 h5 h6 => exact (calls_reported h3).trans h
  | new ds es k cs h1 h2 h3 h4 h5 h6 => simp only [calls_print, calls_reported h3, List.map_append, h]; rfl

/-- What every outcome of `createLocale` and every report keeps is kept by a request. -/
theorem ask_keeps (w : World L N V) {order : Order L N} (ho : Perms order) {P : Builder L N → Prop}
    (hP : ∀ {o b t r}, P b → Created w o b t r → P r.1) (hE : ∀ {b : Builder L N} {e}, P b → P (b.missing e))
    {b b' : Builder L N} {q : Bool × LangArg L} (hi : Inv w b) (h : P b) (hb : ask w order b q = .ok b') : P b' ∧ Inv w b' := by
  obtain ⟨o, a⟩ := q
  have hinv : Inv w b' := by
    unfold ask at hb
    cases hp : b.preload w order o [a] with
    | mk b1 r1 =>
      simp only [hp] at hb
      cases r1 with
      | error e => cases hb
      | ok u => cases hb; exact (preload_inv w ho o [a] hi hp).2
  refine ⟨?_, hinv⟩
  unfold ask at hb
  simp only [Builder.preload] at hb
  cases ht : a.toTag w with
  | error e => rw [ht] at hb; cases hb
  | ok tag =>
    rw [ht] at hb
    simp only at hb
    have hp := hP h (createLocale_spec w ho o b hi.wf tag)
    generalize b.createLocale w order o tag = r at hb hp
    obtain ⟨b1, r1⟩ := r
    cases r1 with
    | ok u => cases hb; exact hp
    | error e =>
      cases o with
      | false => cases hb
      | true =>
        cases e with
        | missingLanguage l => cases hb; exact hE hp
        | _ => cases hb

theorem askAll_keeps (w : World L N V) {order : Order L N} (ho : Perms order) {P : Builder L N → Prop}
    (hP : ∀ {o b t r}, P b → Created w o b t r → P r.1) (hE : ∀ {b : Builder L N} {e}, P b → P (b.missing e))
    (qs : List (Bool × LangArg L)) :
    ∀ {b b' : Builder L N}, Inv w b → P b → askAll w order b qs = .ok b' → P b' ∧ Inv w b' := by
  induction qs with
  | nil => intro b b' hi h hb; cases hb; exact ⟨h, hi⟩
  | cons q qs ih =>
    intro b b' hi h hb
    rw [askAll] at hb
    cases hq : ask w order b q with
    | error e => rw [hq] at hb; cases hb
    | ok b1 =>
      rw [hq] at hb
      simp only at hb
      obtain ⟨h1, h2⟩ := ask_keeps w ho hP hE hi h hq
      exact ih h2 h1 hb

theorem askAll_printed (w : World L N V) {order : Order L N} (ho : Perms order) (qs : List (Bool × LangArg L))
    {b b' : Builder L N} (hi : Inv w b) (h : Printed b) (hb : askAll w order b qs = .ok b') : Printed b' ∧ Inv w b' := by
  refine askAll_keeps w ho (P := Printed) (fun h hc => created_printed h hc) (fun {b e} h => ?_) qs hi h hb
  obtain ⟨es, hes, hr⟩ := missing_shape b e
  rw [hes]
  exact (calls_reported hr).trans h

/-- The source locale has no catalogs. -/
def Bare (b : Builder L N) : Prop := ∀ t loc, b.locales.get? t = some loc → loc.isSource = true → loc.catalogs = []

theorem created_bare {w : World L N V} {o : Bool} {b : Builder L N} {t : L} (h : Bare b)
    {r : Builder L N × Except (Err L) Unit} (hc : Created w o b t r) : Bare r.1 := by
  cases hc with
  | und | cached | bad | empty => exact h
  | source es h1 h2 he =>
    intro x loc hl hs
    simp only [GoMap.get?_set] at hl
    split at hl
    · cases hl; rfl
    · exact h x loc hl hs
  | new =>
    intro x loc hl hs
    simp only [GoMap.get?_set] at hl
    split at hl
    · cases hl; cases hs
    · exact h x loc hl hs

theorem askAll_bare (w : World L N V) {order : Order L N} (ho : Perms order) (qs : List (Bool × LangArg L))
    {b b' : Builder L N} (hi : Inv w b) (h : Bare b) (hb : askAll w order b qs = .ok b') : Bare b' := by
  refine (askAll_keeps w ho (P := Bare) (fun h hc => created_bare h hc) (fun {b e} h => ?_) qs hi h hb).1
  obtain ⟨es, hes, hr⟩ := missing_shape b e
  rw [hes]
  exact h

/-! ## The options -/

theorem applyAll_usable (w : World L N V) (os : List (Opt L N)) : ∀ b : Builder L N,
    (∃ b', b.applyAll w os = .ok b') ↔ Usable os ∧ (∀ d ∈ os.filterMap domainOf, b.loaders.get? d = none) ∧
      ∀ a, .fallback a ∈ os → ∃ t, a.toTag w = .ok t := by
  induction os with
  | nil =>
    intro b
    exact ⟨fun _ => ⟨⟨List.not_mem_nil, List.not_mem_nil, fun _ => List.not_mem_nil, List.nodup_nil⟩, (fun d hd => by cases hd),
      (fun a ha => by cases ha)⟩, fun _ => ⟨b, rfl⟩⟩
  | cons o os ih =>
    intro b
    -- an option that changes neither loaders nor the conditions
    have plain : ∀ b1 : Builder L N, b.apply w o = .ok b1 → b1.loaders = b.loaders → domainOf o = none → o ≠ .nil → o ≠ .other false →
        (∀ d, o ≠ .domainLoader d none) → (∀ a, o = .fallback a → ∃ t, a.toTag w = .ok t) →
        ((∃ b', b.applyAll w (o :: os) = .ok b') ↔
          Usable (o :: os) ∧ (∀ d ∈ (o :: os).filterMap domainOf, b.loaders.get? d = none) ∧
            ∀ a, .fallback a ∈ o :: os → ∃ t, a.toTag w = .ok t) := by
      intro b1 h1 h2 h3 h4 h5 h6 h7
      rw [Builder.applyAll, h1]
      simp only []
      rw [ih b1, h2, List.filterMap_cons_none h3]
      constructor
      · rintro ⟨u, hd, hfb⟩
        refine ⟨⟨?_, ?_, ?_, by rw [List.filterMap_cons_none h3]; exact u.domains⟩, hd, ?_⟩
        · intro hm; exact (List.mem_cons.mp hm).elim (fun x => h4 x.symm) (u.nil)
        · intro hm; exact (List.mem_cons.mp hm).elim (fun x => h5 x.symm) (u.other)
        · intro d hm; exact (List.mem_cons.mp hm).elim (fun x => h6 d x.symm) (u.loader d)
        · intro a hm; exact (List.mem_cons.mp hm).elim (fun x => h7 a x.symm) (hfb a)
      · rintro ⟨u, hd, hfb⟩
        refine ⟨⟨fun hm => u.nil (List.mem_cons_of_mem _ hm), fun hm => u.other (List.mem_cons_of_mem _ hm),
          fun d hm => u.loader d (List.mem_cons_of_mem _ hm), ?_⟩, hd, fun a hm => hfb a (List.mem_cons_of_mem _ hm)⟩
        have := u.domains
        rwa [List.filterMap_cons_none h3] at this
    cases o with
    | nil => exact ⟨fun ⟨_, h⟩ => (by rw [Builder.applyAll] at h; cases h), fun ⟨u, _⟩ => absurd List.mem_cons_self u.nil⟩
    | fallback a =>
      cases ht : a.toTag w with
      | error e =>
        have hb : b.apply w (.fallback a) = .error e := by simp only [Builder.apply, ht]
        rw [Builder.applyAll, hb]
        refine ⟨fun ⟨_, h⟩ => (by cases h), fun ⟨_, _, h⟩ => ?_⟩
        obtain ⟨t, h⟩ := h a List.mem_cons_self
        rw [ht] at h; cases h
      | ok t =>
        have hb : b.apply w (.fallback a) =
            .ok { b with fallbackLanguage := t, actions := b.actions ++ [⟨false, [.tag t]⟩] } := by simp only [Builder.apply, ht]
        exact plain _ hb rfl rfl (by simp) (by simp) (by simp) (fun a' h => by cases h; exact ⟨t, ht⟩)
    | source t => exact plain _ rfl rfl rfl (by simp) (by simp) (by simp) (by simp)
    | callback s => exact plain _ rfl rfl rfl (by simp) (by simp) (by simp) (by simp)
    | defaultDomain s => exact plain _ rfl rfl rfl (by simp) (by simp) (by simp) (by simp)
    | language s => exact plain _ rfl rfl rfl (by simp) (by simp) (by simp) (by simp)
    | requiredLanguage s => exact plain _ rfl rfl rfl (by simp) (by simp) (by simp) (by simp)
    | errorContext s => exact plain _ rfl rfl rfl (by simp) (by simp) (by simp) (by simp)
    | other ok =>
      cases ok with
      | false => exact ⟨fun ⟨_, h⟩ => (by rw [Builder.applyAll] at h; cases h), fun ⟨u, _⟩ => absurd List.mem_cons_self u.other⟩
      | true => exact plain _ rfl rfl rfl (by simp) (by simp) (by simp) (by simp)
    | domainLoader d l =>
      have hfm : ((Opt.domainLoader d l : Opt L N) :: os).filterMap domainOf = d :: os.filterMap domainOf := rfl
      rw [hfm]
      cases hg : b.loaders.get? d with
      | some x =>
        have hb : b.apply w (.domainLoader d l) = .error .option := by simp only [Builder.apply, hg]; rfl
        rw [Builder.applyAll, hb]
        refine ⟨fun ⟨_, h⟩ => (by cases h), fun ⟨_, h, _⟩ => ?_⟩
        have := h d List.mem_cons_self
        rw [hg] at this; cases this
      | none =>
        cases l with
        | none =>
          have hb : b.apply w (.domainLoader d none) = .error .option := by simp only [Builder.apply, hg]; rfl
          rw [Builder.applyAll, hb]
          exact ⟨fun ⟨_, h⟩ => (by cases h), fun ⟨u, _⟩ => absurd List.mem_cons_self (u.loader d)⟩
        | some ld =>
          have hb : b.apply w (.domainLoader d (some ld)) = .ok { b with loaders := b.loaders.set d ld } := by
            simp only [Builder.apply, hg]; rfl
          rw [Builder.applyAll, hb]
          simp only []
          rw [ih]
          simp only []
          constructor
          · rintro ⟨u, hd, hfb⟩
            refine ⟨⟨?_, ?_, ?_, ?_⟩, ?_, ?_⟩
            · intro hm; exact (List.mem_cons.mp hm).elim (fun x => nomatch x) (u.nil)
            · intro hm; exact (List.mem_cons.mp hm).elim (fun x => nomatch x) (u.other)
            · intro d hm; exact (List.mem_cons.mp hm).elim (fun x => nomatch x) (u.loader d)
            · rw [hfm]
              refine List.nodup_cons.mpr ⟨fun hm => ?_, u.domains⟩
              have := hd d hm
              rw [GoMap.get?_set, if_pos rfl] at this; cases this
            · intro x hx
              rcases List.mem_cons.mp hx with rfl | hx
              · exact hg
              · have := hd x hx
                rw [GoMap.get?_set] at this
                split at this
                · cases this
                · exact this
            · intro a hm; exact (List.mem_cons.mp hm).elim (fun x => nomatch x) (hfb a)
          · rintro ⟨u, hd, hfb⟩
            have hn := u.domains
            rw [hfm] at hn
            obtain ⟨hn1, hn2⟩ := List.nodup_cons.mp hn
            refine ⟨⟨fun hm => u.nil (List.mem_cons_of_mem _ hm), fun hm => u.other (List.mem_cons_of_mem _ hm),
              fun d hm => u.loader d (List.mem_cons_of_mem _ hm), hn2⟩, fun x hx => ?_, fun a hm => hfb a (List.mem_cons_of_mem _ hm)⟩
            rw [GoMap.get?_set, if_neg (fun e => hn1 (by rw [e]; exact hx))]
            exact hd x (List.mem_cons_of_mem _ hx)

/-- The languages of the builder after the options. -/
theorem applyAll_sourceOf (w : World L N V) (os : List (Opt L N)) : ∀ {b b' : Builder L N}, b.applyAll w os = .ok b' →
    b'.sourceLanguage = os.foldl (fun s o => match o with | .source t => t | _ => s) b.sourceLanguage ∧
    b'.fallbackLanguage = os.foldl (fun s o => match o with | .fallback a => (a.toTag w).toOption.getD s | _ => s) b.fallbackLanguage := by
  induction os with
  | nil => intro b b' h; cases h; exact ⟨rfl, rfl⟩
  | cons o os ih =>
    intro b b' h
    rw [Builder.applyAll] at h
    cases ho : b.apply w o with
    | error e => rw [ho] at h; cases h
    | ok b1 =>
      rw [ho] at h
      simp only [] at h
      obtain ⟨i1, i2⟩ := ih h
      rw [i1, i2, List.foldl_cons, List.foldl_cons]
      cases o with
      | fallback l =>
        simp only [Builder.apply] at ho
        cases hl : l.toTag w with
        | error e => rw [hl] at ho; cases ho
        | ok tag => rw [hl] at ho; simp only at ho; cases ho; simp only [hl]; exact ⟨trivial, rfl⟩
      | domainLoader d l =>
        simp only [Builder.apply] at ho
        split at ho
        · cases ho
        · split at ho <;> cases ho; exact ⟨rfl, rfl⟩
      | other ok => simp only [Builder.apply] at ho; split at ho <;> cases ho; exact ⟨rfl, rfl⟩
      | nil => cases ho
      | _ => cases ho; exact ⟨rfl, rfl⟩

/-- The requests of the actions are those of the options. -/
theorem reqs_actions (w : World L N V) (os : List (Opt L N)) (hf : ∀ a, .fallback a ∈ os → ∃ t, a.toTag w = .ok t) :
    (reqs (os.flatMap (actionsOf w))).map (fun q => (q.1, q.2.toTag w)) = (requests os).map fun q => (q.1, q.2.toTag w) := by
  induction os with
  | nil => rfl
  | cons o os ih =>
    have ih := ih fun a ha => hf a (List.mem_cons_of_mem _ ha)
    unfold reqs requests at *
    rw [List.flatMap_cons, List.flatMap_append, List.flatMap_cons, List.map_append, List.map_append, ih]
    congr 1
    cases o with
    | fallback a =>
      obtain ⟨t, ht⟩ := hf a List.mem_cons_self
      have h1 : actionsOf w (.fallback a : Opt L N) = [⟨false, [.tag t]⟩] := by simp only [actionsOf, ht]
      rw [h1]
      simp only [asked, List.flatMap_cons, List.flatMap_nil, List.map_cons, List.map_nil, List.append_nil, ht]
      rfl
    | _ => simp [actionsOf, asked]

theorem ask_congr (w : World L N V) (order : Order L N) (b : Builder L N) {q q' : Bool × LangArg L}
    (h : (q.1, q.2.toTag w) = (q'.1, q'.2.toTag w)) : ask w order b q = ask w order b q' := by
  obtain ⟨h1, h2⟩ := Prod.mk.inj h
  unfold ask
  rw [Builder.preload, Builder.preload, h1, h2]

theorem askAll_congr (w : World L N V) (order : Order L N) : ∀ (l l' : List (Bool × LangArg L)) (b : Builder L N),
    l.map (fun q => (q.1, q.2.toTag w)) = l'.map (fun q => (q.1, q.2.toTag w)) → askAll w order b l = askAll w order b l'
  | [], [], _, _ => rfl
  | [], _ :: _, _, h => by cases h
  | _ :: _, [], _, h => by cases h
  | q :: l, q' :: l', b, h => by
    rw [List.map_cons, List.map_cons] at h
    obtain ⟨h1, h2⟩ := List.cons.inj h
    rw [askAll, askAll, ask_congr w order b h1]
    cases ask w order b q' with
    | error e => rfl
    | ok b1 => exact askAll_congr w order l l' b1 h2

/-! ## The whole creation -/

theorem has_iff (opts : List (Opt L N)) (t : L) : has opts t = true ↔ Served opts t := by
  unfold has Served
  rw [List.any_eq_true]
  constructor
  · rintro ⟨o, ho, hx⟩
    cases o with
    | domainLoader d l =>
      cases l with
      | none => cases hx
      | some ld =>
        simp only at hx
        cases hc : ld t d with
        | ok c => exact ⟨d, ld, c, ho, hc⟩
        | error e => rw [hc] at hx; cases hx
    | _ => cases hx
  · rintro ⟨d, ld, c, ho, hc⟩
    exact ⟨_, ho, by simp only [hc]; rfl⟩

/-- The builder at the start of the requests knows the loaders of the options. -/
structure Ready (w : World L N V) (opts : List (Opt L N)) (b : Builder L N) : Prop where
  inv : Inv w b
  langs : b.languages = []
  events : b.events = []
  locales : b.locales = []
  source : b.sourceLanguage = sourceOf w opts
  loaders : ∀ d ld, b.loaders.get? d = some ld ↔ .domainLoader d (some ld) ∈ opts

theorem Ready.mem {w : World L N V} {opts : List (Opt L N)} {b : Builder L N} (h : Ready w opts b) (d : Bytes) (ld : Loader L N) :
    (d, ld) ∈ b.loaders ↔ .domainLoader d (some ld) ∈ opts :=
  ⟨fun x => (h.loaders d ld).mp (GoMap.get?_of_mem h.inv.wf x), fun x => GoMap.mem_of_get? ((h.loaders d ld).mpr x)⟩

theorem Ready.some {w : World L N V} {opts : List (Opt L N)} {b : Builder L N} (h : Ready w opts b) (t : L) :
    SomeB b t ↔ Served opts t := by
  unfold SomeB Served loaded
  constructor
  · rintro ⟨d, hd⟩
    cases hg : b.loaders.get? d with
    | none => rw [hg] at hd; cases hd
    | some ld =>
      rw [hg] at hd
      simp only at hd
      cases hc : ld t d with
      | ok c => exact ⟨d, ld, c, (h.loaders d ld).mp hg, hc⟩
      | error e => rw [hc] at hd; cases hd
  · rintro ⟨d, ld, c, ho, hc⟩
    exact ⟨d, by rw [(h.loaders d ld).mpr ho]; simp only [hc]; rfl⟩

theorem Ready.met {w : World L N V} {opts : List (Opt L N)} {b : Builder L N} (h : Ready w opts b)
    (before : List (Bool × LangArg L)) (q : Bool × LangArg L) : MetB w b before q ↔ Met w opts before q := by
  have hg : ∀ t, (∀ p ∈ b.loaders, Good false t p) ↔ Complete opts t := by
    intro t
    constructor
    · intro x d ld ho
      exact (x (d, ld) ((h.mem d ld).mpr ho)).resolve_right fun y => by cases y.1
    · rintro x ⟨d, ld⟩ hp
      exact .inl (x d ld ((h.mem d ld).mp hp))
  have hr : ∀ t, (∀ p ∈ b.loaders, Good true t p) ↔ Readable opts t := by
    intro t
    constructor
    · intro x d ld ho
      exact (x (d, ld) ((h.mem d ld).mpr ho)).imp id fun y => y.2
    · rintro x ⟨d, ld⟩ hp
      exact (x d ld ((h.mem d ld).mp hp)).imp id fun y => ⟨rfl, y⟩
  unfold MetB Met
  simp only [h.some, hg, hr, h.source]

theorem ready {w : World L N V} {opts : List (Opt L N)} {b : Builder L N} (h : (Builder.start w).applyAll w opts = .ok b) :
    Ready w opts { b with domains := [] } := by
  obtain ⟨hf, _, hld⟩ := applyAll_fresh _ (fresh_start w) h
  refine ⟨hf.inv w, hf.languages, hf.events, hf.locales, (applyAll_sourceOf w opts h).1, fun d ld => ?_⟩
  exact (hld d ld).trans ⟨fun x => x.resolve_left (fun y => nomatch y), Or.inr⟩

/-- The run of the setup actions, as requests of the options. -/
theorem actions_ask {w : World L N V} (order : Order L N) {opts : List (Opt L N)} {b : Builder L N}
    (h : (Builder.start w).applyAll w opts = .ok b) :
    { b with domains := [] }.runActions w order b.actions = askAll w order { b with domains := [] } (requests opts) := by
  obtain ⟨_, hact, _⟩ := applyAll_fresh _ (fresh_start w) h
  rw [runActions_ask, hact]
  exact askAll_congr w order _ _ _ (reqs_actions w opts ((applyAll_usable w opts _).mp ⟨b, h⟩).2.2)

end Verif.Proofs.Spreak
