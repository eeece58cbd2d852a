import Verif.Proofs.Humanize.Collection
import Verif.Props.NaturalDay
import Verif.Props.Bundle
/-!
# Collections of locales and their formats: C76
-/
namespace Verif.Props.Collection
open Verif.Go Verif.Model.Humanize Verif.Model.Spreak Verif.Proofs.Spreak Verif.Proofs.Humanize Verif.Props.Numbers

variable {L N V : Type} [DecidableEq L]

/-- The keywords and the formats they name. -/
def keywords : List (Bytes × (FormatData → Bytes)) := [
  (b!"DATE_FORMAT", (·.dateFormat)), (b!"TIME_FORMAT", (·.timeFormat)), (b!"DATETIME_FORMAT", (·.dateTimeFormat)),
  (b!"YEAR_MONTH_FORMAT", (·.yearMonthFormat)), (b!"MONTH_DAY_FORMAT", (·.monthDayFormat)),
  (b!"SHORT_DATE_FORMAT", (·.shortDateFormat)), (b!"SHORT_DATETIME_FORMAT", (·.shortDatetimeFormat))]

/-- FormatTime applies the format that a keyword names. -/
theorem C76_keyword (env : Env) (f : FormatData) (t : Time) {k : Bytes} {field : FormatData → Bytes} (h : (k, field) ∈ keywords) :
    formatTime env f t k = dateFormat env t (field f) := by
  simp only [keywords, List.mem_cons, Prod.mk.injEq, List.not_mem_nil, or_false] at h
  rcases h with ⟨rfl, rfl⟩ | ⟨rfl, rfl⟩ | ⟨rfl, rfl⟩ | ⟨rfl, rfl⟩ | ⟨rfl, rfl⟩ | ⟨rfl, rfl⟩ | ⟨rfl, rfl⟩ <;> rfl

/-- Any other text is the format itself. -/
theorem C76_other (env : Env) (f : FormatData) (t : Time) {k : Bytes} (h : k ∉ keywords.map (·.1)) :
    formatTime env f t k = dateFormat env t k := by
  simp only [keywords, List.map_cons, List.map_nil, List.mem_cons, List.not_mem_nil, or_false, not_or] at h
  obtain ⟨h1, h2, h3, h4, h5, h6, h7⟩ := h
  unfold formatTime
  simp only [if_neg h1, if_neg h2, if_neg h3, if_neg h4, if_neg h5, if_neg h6, if_neg h7]

theorem defaults_eq (f : FormatData) : f.setDefaults =
    ⟨if f.dateFormat = [] then fallbackFormat.dateFormat else f.dateFormat,
     if f.timeFormat = [] then fallbackFormat.timeFormat else f.timeFormat,
     if f.dateTimeFormat = [] then fallbackFormat.dateTimeFormat else f.dateTimeFormat,
     if f.yearMonthFormat = [] then fallbackFormat.yearMonthFormat else f.yearMonthFormat,
     if f.monthDayFormat = [] then fallbackFormat.monthDayFormat else f.monthDayFormat,
     if f.shortDateFormat = [] then fallbackFormat.shortDateFormat else f.shortDateFormat,
     if f.shortDatetimeFormat = [] then fallbackFormat.shortDatetimeFormat else f.shortDatetimeFormat, f.firstDayOfWeek⟩ := by
  obtain ⟨a, b, c, d, e, g, i, j⟩ := f
  unfold FormatData.setDefaults
  by_cases ha : a = [] <;> by_cases hb : b = [] <;> by_cases hc : c = [] <;> by_cases hd : d = [] <;> by_cases he : e = [] <;>
    by_cases hg : g = [] <;> by_cases hi : i = [] <;> simp only [ha, hb, hc, hd, he, hg, hi, if_true, if_false]

/-- Empty formats are replaced by those of the fallback, the others are kept; none is empty afterwards. -/
theorem C76_defaults (f : FormatData) {k : Bytes} {field : FormatData → Bytes} (h : (k, field) ∈ keywords) :
    field f.setDefaults = (if field f = [] then field fallbackFormat else field f) ∧ field f.setDefaults ≠ [] ∧
      f.setDefaults.firstDayOfWeek = f.firstDayOfWeek := by
  rw [defaults_eq]
  simp only [keywords, List.mem_cons, Prod.mk.injEq, List.not_mem_nil, or_false] at h
  rcases h with ⟨rfl, rfl⟩ | ⟨rfl, rfl⟩ | ⟨rfl, rfl⟩ | ⟨rfl, rfl⟩ | ⟨rfl, rfl⟩ | ⟨rfl, rfl⟩ | ⟨rfl, rfl⟩ <;>
    refine ⟨rfl, ?_, rfl⟩ <;> simp only [] <;> split <;> first | assumption | decide

/-- The formats of a humanizer whose language says nothing: the American ones. -/
def builtinFormats : List (Bytes × Bytes) :=
  [(b!"DATE_FORMAT", b!"N j, Y"), (b!"TIME_FORMAT", b!"P"), (b!"DATETIME_FORMAT", b!"N j, Y, P"),
   (b!"YEAR_MONTH_FORMAT", b!"F Y"), (b!"MONTH_DAY_FORMAT", b!"F j"), (b!"SHORT_DATE_FORMAT", b!"m/d/Y"),
   (b!"SHORT_DATETIME_FORMAT", b!"m/d/Y P")]

/-- What the keywords stand for if the language has no formats of its own, or has left them empty; the week then starts
with Sunday. -/
theorem C76_fallback (env : Env) (t : Time) (first : Int) : ∀ p ∈ builtinFormats,
    formatTime env fallbackFormat t p.1 = dateFormat env t p.2 ∧
    formatTime env (FormatData.setDefaults ⟨[], [], [], [], [], [], [], first⟩) t p.1 = dateFormat env t p.2 ∧
    fallbackFormat.firstDayOfWeek = 0 := by
  intro p hp
  simp only [builtinFormats, List.mem_cons, List.not_mem_nil, or_false] at hp
  rcases hp with rfl | rfl | rfl | rfl | rfl | rfl | rfl <;> exact ⟨rfl, rfl, rfl⟩

/-- Completing twice is completing once: locales may share format data. -/
theorem C76_idempotent (f : FormatData) : f.setDefaults.setDefaults = f.setDefaults := by
  have e : ∀ a b : Bytes, b ≠ [] → (if (if a = [] then b else a) = [] then b else (if a = [] then b else a)) = if a = [] then b else a := by
    intro a b _
    by_cases h : a = [] <;> simp [h]
  rw [defaults_eq f.setDefaults, defaults_eq f]
  simp only []
  rw [e _ _ (by decide), e _ _ (by decide), e _ _ (by decide), e _ _ (by decide), e _ _ (by decide), e _ _ (by decide),
    e _ _ (by decide)]

/-! ## `New` -/

/-- The locale that counts for a language: the last one registered. -/
def lastOf (ds : List (LocaleData L)) (l : L) : Option (LocaleData L) := (ds.filter fun d => decide (d.lang = l)).getLast?

theorem completeAll_some (ds : List (LocaleData L)) : completeAll (ds.map some) = .ok (ds.map LocaleData.complete) := by
  induction ds with
  | nil => rfl
  | cons d ds ih => simp only [List.map_cons, completeAll, ih]

theorem newLoader_get (ds : List (LocaleData L)) (l : L) :
    (newLoader (ds.map LocaleData.complete)).get? l = (lastOf ds l).map LocaleData.complete := by
  have key : ∀ (ds : List (LocaleData L)) (m : GoMap L (LocaleData L)),
      ((ds.map LocaleData.complete).foldl (fun m d => m.set d.lang d) m).get? l =
        ((lastOf ds l).map LocaleData.complete).or (m.get? l) := by
    intro ds
    induction ds with
    | nil => intro m; rfl
    | cons d ds ih =>
      intro m
      rw [List.map_cons, List.foldl_cons, ih, GoMap.get?_set]
      have hl : (LocaleData.complete d).lang = d.lang := rfl
      rw [hl]
      unfold lastOf
      by_cases h : d.lang = l
      · rw [if_pos h, List.filter_cons_of_pos (by simpa using h), List.getLast?_cons]
        cases (List.filter (fun d => decide (d.lang = l)) ds).getLast? <;> rfl
      · rw [if_neg h, List.filter_cons_of_neg (by simpa using h)]
  unfold newLoader
  rw [key, GoMap.get?_nil, Option.or_none]

theorem newLoader_wf (ds : List (LocaleData L)) : (newLoader ds).WF := by
  have key : ∀ (ds : List (LocaleData L)) (m : GoMap L (LocaleData L)), m.WF → GoMap.WF (ds.foldl (fun m d => m.set d.lang d) m) := by
    intro ds
    induction ds with
    | nil => exact fun m h => h
    | cons d ds ih => exact fun m h => ih _ (h.set _ _)
  exact key ds [] GoMap.WF.nil

theorem collectFormats_get (m : GoMap L (LocaleData L)) (h : m.WF) (l : L) :
    (collectFormats m).get? l = (m.get? l).bind (·.format) := by
  have key : ∀ (m : GoMap L (LocaleData L)) (r : GoMap L FormatData), m.WF →
      GoMap.get? (m.foldl (fun r p => match p.2.format with
        | some f => GoMap.set r p.1 f
        | none => r) r) l = ((m.get? l).bind (·.format)).or (r.get? l) := by
    intro m
    induction m with
    | nil => intro r _; rfl
    | cons p m ih =>
      intro r hwf
      obtain ⟨k, d⟩ := p
      obtain ⟨hk, hwf'⟩ := hwf.cons_inv
      rw [List.foldl_cons, ih _ hwf']
      by_cases hkl : k = l
      · subst hkl
        have e1 : GoMap.get? m k = none := GoMap.get?_eq_none.mpr hk
        have e2 : GoMap.get? ((k, d) :: m) k = some d := by simp [GoMap.get?]
        rw [e1, e2]
        cases hd : d.format with
        | none => simp [hd]
        | some f => simp [hd, GoMap.get?_set]
      · have e2 : GoMap.get? ((k, d) :: m) l = GoMap.get? m l := by simp [GoMap.get?, hkl]
        rw [e2]
        cases hd : d.format with
        | none => rfl
        | some f => simp only [GoMap.get?_set, if_neg hkl]
  exact (key m [] h).trans (by rw [GoMap.get?_nil, Option.or_none])

/-- What the file of a locale gives: nothing, a catalog or an error. -/
def catalogOf (decode : L → Bytes → Bytes → Except (Err L) (Option (Catalog L N))) (ds : List (LocaleData L)) (l : L) :
    Option (Except (Err L) (Option (Catalog L N))) :=
  (lastOf ds l).bind fun d => (d.fs b!"django.po").map fun content => decode l b!"django" content

/-- The errors of the decoder are not the two errors of loaders that a bundle ignores. -/
def DecoderErrors (decode : L → Bytes → Bytes → Except (Err L) (Option (Catalog L N))) : Prop :=
  ∀ l d c e, decode l d c = .error e → e ≠ .notFound ∧ ∀ l', e ≠ .missingLanguage l'

theorem loaderLoad_eq (decode : L → Bytes → Bytes → Except (Err L) (Option (Catalog L N))) (ds : List (LocaleData L)) (l : L) :
    loaderLoad decode (newLoader (ds.map LocaleData.complete)) l b!"django" =
      (catalogOf decode ds l).getD (.error .notFound) := by
  unfold loaderLoad catalogOf
  rw [newLoader_get]
  cases lastOf ds l with
  | none => rfl
  | some d =>
    simp only [Option.map_some, Option.bind_some]
    have e : b!"django" ++ b!".po" = b!"django.po" := by decide
    rw [e]
    have e2 : (LocaleData.complete d).fs = d.fs := rfl
    rw [e2]
    cases d.fs b!"django.po" <;> rfl

theorem newBundle_eq (w : World L N V) {order : Order L N} (ho : Perms order) (ld : Loader L N) {en : L} (hen : en ≠ w.und)
    (hml : ∀ l e, ld l b!"django" = .error e → ∀ l', e ≠ .missingLanguage l') (ls : List L) (hnd : ls.Nodup) :
    (∃ B es, newBundle w order [.source en, .defaultDomain b!"django", .domainLoader b!"django" (some ld),
        .language (ls.map .tag)] = .ok (B, es) ∧ (∀ l ∈ ls, ¬ Fails w b!"django" ld en l) ∧
      B.defaultDomain = b!"django" ∧ B.source = ⟨en, [], true⟩ ∧ B.fallback = ⟨en, [], true⟩ ∧
      B.languages = en :: ls.filter (fun l => decide (l = en) || (adds w b!"django" ld en l).isSome) ∧
      ∀ x, B.locales.get? x = match (if x ∈ ls then adds w b!"django" ld en x else none) with
          | some c => some ⟨x, [(b!"django", c)], false⟩
          | none => if x = en then some ⟨en, [], true⟩ else none) ∨
    ((∃ e, newBundle w order [.source en, .defaultDomain b!"django", .domainLoader b!"django" (some ld),
        .language (ls.map .tag)] = .error e) ∧ ∃ l ∈ ls, Fails w b!"django" ld en l) := by
  obtain ⟨b0, hb0⟩ : ∃ b0 : Builder L N, b0 = ⟨false, b!"django", b!"errors", en, w.und, [(b!"django", ld)],
      [⟨false, [.tag en]⟩, ⟨true, ls.map .tag⟩], [en], [(en, ⟨en, [], true⟩)], [], 0, [.getPrintFunc en]⟩ := ⟨_, rfl⟩
  have e : newBundle w order [.source en, .defaultDomain b!"django", .domainLoader b!"django" (some ld),
        .language (ls.map .tag)] = match b0.preload w order true (ls.map .tag) with
      | (_, .error e) => .error e
      | (b, .ok ()) => .ok b.finish := by
    rw [hb0]
    have e1 : (Builder.start w).applyAll w [.source en, .defaultDomain b!"django", .domainLoader b!"django" (some ld),
        .language (ls.map .tag)] = .ok ⟨false, b!"django", b!"errors", en, w.und, [(b!"django", ld)],
          [⟨false, [.tag en]⟩, ⟨true, ls.map .tag⟩], [], [], [], 0, []⟩ := rfl
    unfold newBundle
    rw [e1]
    simp only [Builder.runActions, Builder.preload, LangArg.toTag, Builder.createLocale, if_neg hen, if_true, GoMap.set,
      List.nil_append]
    generalize hp : Builder.preload w order true _ (ls.map .tag) = r
    obtain ⟨b, r⟩ := r
    cases r with
    | error e => rfl
    | ok u => rfl
  have hs : Single b!"django" ld en b0 := by
    rw [hb0]
    exact ⟨rfl, rfl, rfl, by simp [GoMap.get?]⟩
  have hno : ∀ l ∈ ls, l ≠ en → b0.locales.get? l = none := by
    intro l _ hl
    rw [hb0]
    simp [GoMap.get?, Ne.symm hl]
  rw [e]
  rcases preload_single w ho b!"django" ld en hen hml ls b0 hs hnd hno with ⟨b', r1, r2, r3, r4, r5, r6, r7⟩ | ⟨⟨b', e, r1⟩, hf⟩
  · rw [r1]
    have hf : b'.fallbackLanguage = w.und := by rw [r5, hb0]
    have hund : b'.locales.get? w.und = none := by
      rw [r7]
      have : adds w b!"django" ld en w.und = none := by simp [adds]
      rw [this, ite_self, hb0]
      simp [GoMap.get?, hen]
    refine Or.inl ⟨b'.finish.1, b'.finish.2, rfl, r2, ?_, ?_, ?_, ?_, ?_⟩
    · unfold Builder.finish
      rw [r3.source, r3.locale]
      exact r4.trans (by rw [hb0])
    · unfold Builder.finish
      rw [r3.source, r3.locale]
    · unfold Builder.finish
      rw [r3.source, r3.locale, hf, hund]
    · unfold Builder.finish
      rw [r3.source, r3.locale]
      exact r6.trans (by rw [hb0]; rfl)
    · intro x
      have : b'.finish.1.locales = b'.locales := by
        unfold Builder.finish
        rw [r3.source, r3.locale]
      rw [this, r7, hb0]
      cases (if x ∈ ls then adds w b!"django" ld en x else none) with
      | some c => rfl
      | none =>
        by_cases hx : x = en
        · subst hx
          simp [GoMap.get?]
        · simp [GoMap.get?, hx, Ne.symm hx]
  · rw [r1]
    exact Or.inr ⟨⟨e, rfl⟩, hf⟩

/-- `New` panics exactly for a nil locale. -/
theorem C76_panic_iff (w : World L N V) (order : Order L N) (range : GoMap L (LocaleData L) → GoMap L (LocaleData L))
    (decode : L → Bytes → Bytes → Except (Err L) (Option (Catalog L N))) (english : L)
    (locales : List (Option (LocaleData L))) :
    (∃ f, newCollection w order range decode english locales = .error f) ↔ none ∈ locales := by
  have key : (∃ f, completeAll locales = .error f) ↔ none ∈ locales := by
    induction locales with
    | nil => simp [completeAll]
    | cons d ds ih =>
      cases d with
      | none => simp [completeAll]
      | some d =>
        rw [List.mem_cons, ← ih]
        cases h : completeAll ds with
        | ok r => simp [completeAll, h]
        | error f => simp [completeAll, h]
  rw [← key]
  unfold newCollection
  cases h : completeAll locales with
  | error f => simp
  | ok ds =>
    simp only []
    constructor
    · rintro ⟨f, hf⟩
      split at hf <;> cases hf
    · rintro ⟨f, hf⟩
      cases hf

theorem new_cases (w : World L N V) {order : Order L N} (ho : Perms order)
    {range : GoMap L (LocaleData L) → GoMap L (LocaleData L)} (hr : ∀ m, (range m).Perm m)
    {decode : L → Bytes → Bytes → Except (Err L) (Option (Catalog L N))} (hdec : DecoderErrors decode) {en : L} (hen : en ≠ w.und)
    (ds : List (LocaleData L)) :
    (∃ c, newCollection w order range decode en (ds.map some) = .ok (.ok c) ∧
      (∀ l, l ≠ w.und → l ≠ en → ∀ e, catalogOf decode ds l ≠ some (.error e)) ∧
      c.bundle.defaultDomain = b!"django" ∧ c.bundle.source = ⟨en, [], true⟩ ∧ c.bundle.fallback = ⟨en, [], true⟩ ∧
      (∀ x, x ∈ c.bundle.languages ↔ x = en ∨ (x ≠ w.und ∧ ∃ k, catalogOf decode ds x = some (.ok k))) ∧
      (∀ x, c.bundle.locales.get? x = if x = en then some ⟨en, [], true⟩ else if x = w.und then none else
        match catalogOf decode ds x with
          | some (.ok k) => some ⟨x, [(b!"django", k)], false⟩
          | _ => none) ∧
      (∀ x, humanizerFormat c.formats x = match lastOf ds x with
          | some d => (d.format.getD fallbackFormat).setDefaults
          | none => fallbackFormat)) ∨
    ((∃ e, newCollection w order range decode en (ds.map some) = .ok (.error e)) ∧
      ∃ l e, l ≠ w.und ∧ l ≠ en ∧ catalogOf decode ds l = some (.error e)) := by
  obtain ⟨m, hm⟩ : ∃ m, newLoader (ds.map LocaleData.complete) = m := ⟨_, rfl⟩
  have hwf : (range m).WF := GoMap.WF.perm (hm ▸ newLoader_wf _) (hr m).symm
  have hsame : ∀ l, (range m).get? l = (lastOf ds l).map LocaleData.complete := by
    intro l
    rw [GoMap.same_of_perm hwf (hr m) l, ← hm, newLoader_get]
  have hkeys : (range m).map (fun p => (LangArg.tag p.1 : LangArg L)) = (range m).keys.map .tag := by
    simp [GoMap.keys, List.map_map, Function.comp_def]
  have hld : ∀ l, loaderLoad decode m l b!"django" = (catalogOf decode ds l).getD (.error .notFound) := by
    intro l
    rw [← hm, loaderLoad_eq]
  have hdec' : ∀ l e, catalogOf decode ds l = some (.error e) → e ≠ .notFound ∧ ∀ l', e ≠ .missingLanguage l' := by
    intro l e he
    unfold catalogOf at he
    obtain ⟨d, hd, he⟩ := Option.bind_eq_some_iff.mp he
    obtain ⟨c, hc, he⟩ := Option.map_eq_some_iff.mp he
    exact hdec _ _ _ _ he
  have hml : ∀ l e, loaderLoad decode m l b!"django" = .error e → ∀ l', e ≠ .missingLanguage l' := by
    intro l e he l'
    rw [hld] at he
    cases hc : catalogOf decode ds l with
    | none => rw [hc] at he; cases he; simp
    | some r =>
      rw [hc] at he
      simp only [Option.getD_some] at he
      exact (hdec' l e (hc.trans (by rw [he]))).2 l'
  have hmem : ∀ l, (catalogOf decode ds l).isSome → l ∈ (range m).keys := by
    intro l hl
    rw [← GoMap.get?_isSome, hsame]
    unfold catalogOf at hl
    cases h : lastOf ds l with
    | none => rw [h] at hl; cases hl
    | some d => rfl
  have hadds : ∀ l, adds w b!"django" (loaderLoad decode m) en l = if l = w.und ∨ l = en then none else
      match catalogOf decode ds l with
      | some (.ok k) => some k
      | _ => none := by
    intro l
    unfold adds
    rw [hld]
    cases catalogOf decode ds l with
    | none => rfl
    | some r => cases r <;> rfl
  have hfails : ∀ l, Fails w b!"django" (loaderLoad decode m) en l ↔
      (l ≠ w.und ∧ l ≠ en ∧ ∃ e, catalogOf decode ds l = some (.error e)) := by
    intro l
    unfold Fails
    rw [hld]
    refine and_congr_right fun _ => and_congr_right fun _ => ⟨?_, ?_⟩
    · rintro ⟨e, he, hne⟩
      cases hc : catalogOf decode ds l with
      | none => rw [hc] at he; cases he; exact absurd rfl hne
      | some r =>
        rw [hc] at he
        exact ⟨e, by rw [← he]; rfl⟩
    · rintro ⟨e, he⟩
      exact ⟨e, by rw [he]; rfl, (hdec' l e he).1⟩
  have hnew : newCollection w order range decode en (ds.map some) =
      match newBundle w order [.source en, .defaultDomain b!"django", .domainLoader b!"django" (some (loaderLoad decode m)),
        .language ((range m).keys.map .tag)] with
      | .error e => .ok (.error e)
      | .ok (b, _) => .ok (.ok ⟨b, collectFormats (range m)⟩) := by
    unfold newCollection
    rw [completeAll_some]
    simp only []
    rw [hm, hkeys]
    generalize newBundle w order _ = r
    cases r <;> rfl
  rw [hnew]
  rcases newBundle_eq w ho (loaderLoad decode m) hen hml (range m).keys hwf with ⟨B, es, r1, r2, r3, r4, r5, r6, r7⟩ | ⟨⟨e, r1⟩, l, hl, hf⟩
  · refine Or.inl ⟨⟨B, collectFormats (range m)⟩, by rw [r1], ?_, r3, r4, r5, ?_, ?_, ?_⟩
    · intro l h1 h2 e he
      exact r2 l (hmem l (by rw [he]; rfl)) ((hfails l).mpr ⟨h1, h2, e, he⟩)
    · intro x
      simp only [r6, List.mem_cons, List.mem_filter, Bool.or_eq_true, decide_eq_true_eq, hadds]
      by_cases hx : x = en
      · simp [hx]
      · by_cases hu : x = w.und
        · simp [hu]
        · simp only [hx, hu, false_or, or_self, if_false, ne_eq, not_false_eq_true, true_and]
          cases hc : catalogOf decode ds x with
          | none => simp
          | some r =>
            cases r with
            | error e => simp
            | ok k => simp [hmem x (by rw [hc]; rfl)]
    · intro x
      simp only [r7, hadds]
      by_cases hx : x = en
      · simp [hx]
      · by_cases hu : x = w.und
        · simp [hu]
        · simp only [hx, hu, or_self, if_false]
          cases hc : catalogOf decode ds x with
          | none => simp
          | some r =>
            cases r with
            | error e => simp
            | ok k => simp [hmem x (by rw [hc]; rfl)]
    · intro x
      unfold humanizerFormat
      simp only [collectFormats_get _ hwf, hsame]
      cases lastOf ds x <;> rfl
  · refine Or.inr ⟨⟨e, by rw [r1]⟩, l, ?_⟩
    obtain ⟨h1, h2, e, he⟩ := (hfails l).mp hf
    exact ⟨e, h1, h2, he⟩

/-- `New` fails exactly when the file of a locale that counts is there and cannot be decoded; files that are not there
are no reason, whatever the order of the loops over the maps. -/
theorem C76_fails_iff (w : World L N V) {order : Order L N} (ho : Perms order)
    {range : GoMap L (LocaleData L) → GoMap L (LocaleData L)} (hr : ∀ m, (range m).Perm m)
    {decode : L → Bytes → Bytes → Except (Err L) (Option (Catalog L N))} (hdec : DecoderErrors decode) {en : L} (hen : en ≠ w.und)
    (ds : List (LocaleData L)) :
    (∃ e, newCollection w order range decode en (ds.map some) = .ok (.error e)) ↔
      ∃ l e, l ≠ w.und ∧ l ≠ en ∧ catalogOf decode ds l = some (.error e) := by
  rcases new_cases w ho hr hdec hen ds with ⟨c, h1, h2, _⟩ | ⟨h1, h2⟩
  · constructor
    · rintro ⟨e, he⟩
      rw [h1] at he
      cases he
    · rintro ⟨l, e, hu, he, hc⟩
      exact absurd hc (h2 l hu he e)
  · exact ⟨fun _ => h2, fun _ => h1⟩

/-- The collection: English is the source and the fallback; a language is supported iff it is English or the last locale registered
for it has a catalog, and then it translates with this catalog. -/
theorem C76_languages (w : World L N V) {order : Order L N} (ho : Perms order)
    {range : GoMap L (LocaleData L) → GoMap L (LocaleData L)} (hr : ∀ m, (range m).Perm m)
    {decode : L → Bytes → Bytes → Except (Err L) (Option (Catalog L N))} (hdec : DecoderErrors decode) {en : L} (hen : en ≠ w.und)
    (ds : List (LocaleData L)) {c : Collection L N} (hc : newCollection w order range decode en (ds.map some) = .ok (.ok c)) :
    c.bundle.defaultDomain = b!"django" ∧ c.bundle.source = ⟨en, [], true⟩ ∧ c.bundle.fallback = ⟨en, [], true⟩ ∧
      (∀ x, x ∈ c.bundle.languages ↔ x = en ∨ (x ≠ w.und ∧ ∃ k, catalogOf decode ds x = some (.ok k))) ∧
      (∀ x, c.bundle.locales.get? x = if x = en then some ⟨en, [], true⟩ else if x = w.und then none else
        match catalogOf decode ds x with
          | some (.ok k) => some ⟨x, [(b!"django", k)], false⟩
          | _ => none) := by
  rcases new_cases w ho hr hdec hen ds with ⟨c', h1, _, h2, h3, h4, h5, h6, _⟩ | ⟨⟨e, h1⟩, _⟩
  · rw [h1] at hc
    cases hc
    exact ⟨h2, h3, h4, h5, h6⟩
  · rw [h1] at hc
    cases hc

/-- A humanizer formats with the formats of the last locale registered for its language, completed; with the fallback if there is
none.  No format is empty. -/
theorem C76_formats (w : World L N V) {order : Order L N} (ho : Perms order)
    {range : GoMap L (LocaleData L) → GoMap L (LocaleData L)} (hr : ∀ m, (range m).Perm m)
    {decode : L → Bytes → Bytes → Except (Err L) (Option (Catalog L N))} (hdec : DecoderErrors decode) {en : L} (hen : en ≠ w.und)
    (ds : List (LocaleData L)) {c : Collection L N} (hc : newCollection w order range decode en (ds.map some) = .ok (.ok c))
    (language : L) {k : Bytes} {field : FormatData → Bytes} (hk : (k, field) ∈ keywords) :
    field (humanizerFormat c.formats language) ≠ [] ∧
    field (humanizerFormat c.formats language) =
      match (lastOf ds language).bind (·.format) with
      | some f => if field f = [] then field fallbackFormat else field f
      | none => field fallbackFormat := by
  rcases new_cases w ho hr hdec hen ds with ⟨c', h1, _, _, _, _, _, _, h7⟩ | ⟨⟨e, h1⟩, _⟩
  · rw [h1] at hc
    cases hc
    rw [h7]
    have hfb : field fallbackFormat ≠ [] := by
      have h := (C76_defaults fallbackFormat hk)
      rw [h.1] at h
      simpa using h.2.1
    cases lastOf ds language with
    | none => exact ⟨hfb, rfl⟩
    | some d =>
      simp only [Option.bind_some]
      cases d.format with
      | none =>
        have h := C76_defaults fallbackFormat hk
        refine ⟨h.2.1, h.1.trans (by simp)⟩
      | some f => exact ⟨(C76_defaults f hk).2.1, (C76_defaults f hk).1⟩
  · rw [h1] at hc
    cases hc
/-! A concrete collection: English is 1; language 2 is registered twice, 3 has no file, 4 a file that cannot be decoded. -/

def demoDecode : Nat → Bytes → Bytes → Except (Err Nat) (Option (Catalog Nat Int)) := fun _ _ content =>
  if content = b!"bad" then .error (.catalog 1) else .ok (some (Verif.Props.Bundle.enc content))

def file (content : Bytes) : Bytes → Option Bytes := fun name => if name = b!"django.po" then some content else none

def demoLocales : List (LocaleData Nat) := [⟨2, file b!"bad", none⟩, ⟨3, fun _ => none, none⟩,
  ⟨2, file b!"good", some ⟨b!"d.m.Y", [], [], [], [], [], [], 1⟩⟩]

example : DecoderErrors demoDecode := by
  intro l d c e h
  unfold demoDecode at h
  split at h
  · cases h
    simp
  · cases h

example : ∃ c, newCollection Verif.Props.Localizer.demoWorld Verif.Props.Bundle.ident id demoDecode 1 (demoLocales.map some) = .ok (.ok c) ∧
    c.bundle.languages = [1, 2] ∧ (humanizerFormat c.formats 2).dateFormat = b!"d.m.Y" ∧
    (humanizerFormat c.formats 2).timeFormat = b!"P" ∧ (humanizerFormat c.formats 3).dateFormat = b!"N j, Y" :=
  ⟨_, rfl, by decide +kernel, by decide +kernel, by decide +kernel, by decide +kernel⟩

example : ∃ e, newCollection Verif.Props.Localizer.demoWorld Verif.Props.Bundle.ident id demoDecode 1
    ((demoLocales ++ [(⟨4, file b!"bad", none⟩ : LocaleData Nat)]).map some) = .ok (.error e) := ⟨_, rfl⟩

example : (b!"SHORT_DATE_FORMAT", fun f : FormatData => f.shortDateFormat) ∈ keywords ∧ b!"Y" ∉ keywords.map (·.1) := by
  constructor
  · simp [keywords]
  · decide

end Verif.Props.Collection
