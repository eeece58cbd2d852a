import Verif.Props.Bundle
/-!
# C44, C69: bundles whose loaders may say that a language is missing
-/
namespace Verif.Props.Bundle
open Verif.Go Verif.Model.Spreak Verif.Proofs.Spreak Verif.Props.Localizer

variable {L N V : Type} [DecidableEq L]

/-- What holds of the domains while languages with the property `P` are loaded. -/
def Listed (P : L → Prop) (b : Builder L N) : Prop :=
  (∀ t loc d, b.locales.get? t = some loc → (loc.catalogs.get? d).isSome → d ∈ b.domains) ∧
  ∀ d ∈ b.domains, ∃ t ld c, P t ∧ (d, ld) ∈ b.loaders ∧ ld t d = .ok c

theorem missing_eq (b : Builder L N) (e : Err L) : ∃ es, b.missing e = { b with events := es } :=
  (missing_shape b e).imp fun _ h => h.1

theorem loadAll_listed (optional : Bool) (lang : L) : ∀ (ls : GoMap Bytes (Loader L N)) (b : Builder L N)
    (cats : GoMap Bytes (Option (Catalog L N))), ∃ ds es,
      (b.loadAll optional lang cats ls).1 = { b with domains := ds, events := es } ∧ (∀ d ∈ b.domains, d ∈ ds) ∧
      (∀ d ∈ ds, d ∈ b.domains ∨ ∃ ld c, (d, ld) ∈ ls ∧ ld lang d = .ok c) ∧
      ∀ cs, (b.loadAll optional lang cats ls).2 = .ok cs → ∀ d, (cs.get? d).isSome → d ∈ ds ∨ (cats.get? d).isSome
  | [], b, cats => ⟨b.domains, b.events, rfl, fun _ h => h, fun _ h => .inl h, fun cs h d hd => by cases h; exact .inr hd⟩
  | (d0, ld) :: rest, b, cats => by
    rw [Builder.loadAll]
    cases hc : ld lang d0 with
    | error e =>
      have stop : ∀ x : Builder L N, ∀ es, x = { b with events := es } → ∃ ds es,
          ((x, .error e) : Builder L N × Except (Err L) (GoMap Bytes (Option (Catalog L N)))).1 = { b with domains := ds, events := es } ∧
          (∀ d ∈ b.domains, d ∈ ds) ∧ (∀ d ∈ ds, d ∈ b.domains ∨ ∃ ld' c, (d, ld') ∈ (d0, ld) :: rest ∧ ld' lang d = .ok c) ∧
          ∀ cs, ((x, .error e) : Builder L N × Except (Err L) (GoMap Bytes (Option (Catalog L N)))).2 = .ok cs →
            ∀ d, (cs.get? d).isSome → d ∈ ds ∨ (cats.get? d).isSome := fun x es hx =>
        ⟨b.domains, es, hx, fun _ h => h, fun _ h => .inl h, fun _ h => nomatch h⟩
      cases e with
      | notFound =>
        obtain ⟨es0, he⟩ := missing_eq b (.notFound : Err L)
        cases hop : optional with
        | false => simp only [Bool.false_eq_true, if_false]; exact stop _ es0 he
        | true =>
          simp only [if_true]
          obtain ⟨ds, es, h1, h2, h3, h4⟩ := loadAll_listed true lang rest (b.missing .notFound) cats
          rw [he] at h1 h2 h3 h4 ⊢
          exact ⟨ds, es, h1, h2, fun d hd => (h3 d hd).imp id fun ⟨ld', c, hm, hx⟩ => ⟨ld', c, List.mem_cons_of_mem _ hm, hx⟩, h4⟩
      | _ => exact stop _ b.events rfl
    | ok cat =>
      simp only []
      have hb : ∃ ds0, (if d0 ∈ b.domains then b else { b with domains := b.domains ++ [d0] }) = { b with domains := ds0 } ∧
          ∀ x, x ∈ ds0 ↔ x ∈ b.domains ∨ x = d0 := by
        by_cases hm : d0 ∈ b.domains
        · exact ⟨b.domains, by rw [if_pos hm], fun x => ⟨Or.inl, fun h => h.elim id (fun h => h ▸ hm)⟩⟩
        · exact ⟨b.domains ++ [d0], by rw [if_neg hm], fun x => by simp⟩
      obtain ⟨ds0, hb0, hmem⟩ := hb
      rw [hb0]
      obtain ⟨ds, es, h1, h2, h3, h4⟩ := loadAll_listed optional lang rest { b with domains := ds0 } (cats.set d0 cat)
      refine ⟨ds, es, h1, fun d hd => h2 d ((hmem d).mpr (.inl hd)), fun d hd => ?_, fun cs hcs d hd => ?_⟩
      · rcases h3 d hd with h | ⟨ld', c, hm, hx⟩
        · rcases (hmem d).mp h with h | rfl
          · exact .inl h
          · exact .inr ⟨ld, cat, List.mem_cons_self, hc⟩
        · exact .inr ⟨ld', c, List.mem_cons_of_mem _ hm, hx⟩
      · rcases h4 cs hcs d hd with h | h
        · exact .inl h
        · rw [GoMap.get?_set] at h
          split at h
          · rename_i e
            exact .inl (h2 d ((hmem d).mpr (.inr e.symm)))
          · exact .inr h

theorem createLocale_listed {P : L → Prop} (w : World L N V) {order : Order L N} (ho : Perms order) (optional : Bool)
    {b : Builder L N} (h : Listed P b) {lang : L} (hp : P lang) :
    Listed P (b.createLocale w order optional lang).1 := by
  unfold Builder.createLocale
  by_cases h1 : lang = w.und
  · rw [if_pos h1]; exact h
  rw [if_neg h1]
  by_cases h2 : lang = b.sourceLanguage
  · rw [if_pos h2]
    refine ⟨fun t loc d hl hd => ?_, h.2⟩
    rw [GoMap.get?_set] at hl
    split at hl
    · cases hl; cases hd
    · exact h.1 t loc d hl hd
  rw [if_neg h2]
  by_cases h3 : (b.locales.get? lang).isSome
  · rw [if_pos h3]; exact h
  rw [if_neg h3]
  simp only []
  obtain ⟨ds, es, k1, k2, k3, k4⟩ := loadAll_listed optional lang (order b.loops b.loaders) { b with loops := b.loops + 1 } []
  have key : Listed P { b with domains := ds, events := es, loops := b.loops + 1 } := by
    refine ⟨fun t loc d hl hd => k2 d (h.1 t loc d hl hd), fun d hd => ?_⟩
    rcases k3 d hd with hx | ⟨ld, c, hm, hx⟩
    · exact h.2 d hx
    · exact ⟨lang, ld, c, hp, (ho _ _).mem_iff.mp hm, hx⟩
  generalize ({ b with loops := b.loops + 1 } : Builder L N).loadAll optional lang [] (order b.loops b.loaders) = r at k1 k4
  obtain ⟨b1, r⟩ := r
  simp only [] at k1 k4
  subst k1
  cases r with
  | error e => exact key
  | ok cats =>
    simp only []
    split
    · exact key
    · refine ⟨fun t loc d hl hd => ?_, key.2⟩
      simp only [] at hl
      rw [GoMap.get?_set] at hl
      split at hl
      · cases hl
        rcases k4 cats rfl d hd with hx | hx
        · exact hx
        · cases hx
      · exact key.1 t loc d hl hd

theorem preload_listed {P : L → Prop} (w : World L N V) {order : Order L N} (ho : Perms order) (optional : Bool) :
    ∀ (as : List (LangArg L)) {b b' : Builder L N}, Listed P b → (∀ a ∈ as, ∀ t, a.toTag w = .ok t → P t) →
      b.preload w order optional as = (b', .ok ()) → Listed P b'
  | [], b, b', h, _, hr => by cases hr; exact h
  | a :: as, b, b', h, hp, hr => by
    rw [Builder.preload] at hr
    have hp' : ∀ a ∈ as, ∀ t, a.toTag w = .ok t → P t := fun x hx => hp x (List.mem_cons_of_mem _ hx)
    cases ht : a.toTag w with
    | error e => rw [ht] at hr; cases hr
    | ok tag =>
      rw [ht] at hr
      simp only at hr
      have hc := createLocale_listed w ho optional h (hp a List.mem_cons_self tag ht)
      generalize b.createLocale w order optional tag = r at hr hc
      obtain ⟨b1, r1⟩ := r
      cases r1 with
      | ok u => exact preload_listed w ho optional as hc hp' hr
      | error e =>
        simp only at hr
        cases hop : optional with
        | false => rw [hop] at hr; cases hr
        | true =>
          rw [hop] at hr
          cases e with
          | missingLanguage l =>
            simp only [Bool.not_true, Bool.false_eq_true, if_false] at hr
            obtain ⟨es, hes⟩ := missing_eq b1 (.missingLanguage l)
            rw [hes] at hr
            exact preload_listed w ho true as (b := { b1 with events := es }) hc hp' hr
          | _ => cases hr

theorem runActions_listed {P : L → Prop} (w : World L N V) {order : Order L N} (ho : Perms order) :
    ∀ (as : List (Action L)) {b b' : Builder L N}, Listed P b →
      (∀ x ∈ as, ∀ a ∈ x.languages, ∀ t, a.toTag w = .ok t → P t) → b.runActions w order as = .ok b' → Listed P b'
  | [], b, b', h, _, hr => by cases hr; exact h
  | x :: as, b, b', h, hp, hr => by
    rw [Builder.runActions] at hr
    cases hq : b.preload w order x.optional x.languages with
    | mk b1 r1 =>
      rw [hq] at hr
      cases r1 with
      | error e => cases hr
      | ok u =>
        exact runActions_listed w ho as (preload_listed w ho _ _ h (hp x List.mem_cons_self) hq)
          (fun y hy => hp y (List.mem_cons_of_mem _ hy)) hr

/-- In every bundle, `Domains` lists once each all the domains with a catalog, and of the others at most those whose loader gave a
catalog for a language that an option asks for. -/
theorem C69_domains {w : World L N V} {order : Order L N} (ho : Perms order) {opts : List (Opt L N)} {B : Bundle L N}
    {es : List (Event L)} (h : newBundle w order opts = .ok (B, es)) :
    B.domains.Nodup ∧
    (∀ d t loc c, B.locales.get? t = some loc → loc.catalogs.get? d = some c → d ∈ B.domains) ∧
    ∀ d ∈ B.domains, ∃ o ∈ opts, ∃ t ld c, Asks w o t ∧ .domainLoader d (some ld) ∈ opts ∧ ld t d = .ok c := by
  obtain ⟨b, b', ha, hf, hr, hfin, hs, hi, hloc, hlang, hdom, _⟩ := finished ho h
  obtain ⟨_, hact, hld⟩ := applyAll_fresh _ (fresh_start w) ha
  have hL : Listed (fun t => ∃ o ∈ opts, Asks w o t) b' := by
    refine runActions_listed w ho b.actions (b := { b with domains := [] }) ⟨fun t loc d hl => ?_, fun d hd => nomatch hd⟩ ?_ hr
    · simp only [hf.locales] at hl; cases hl
    · rw [hact]
      intro x hx a hm t ht
      change x ∈ opts.flatMap (actionsOf w) at hx
      obtain ⟨o, hmem, hx⟩ := List.mem_flatMap.mp hx
      refine ⟨o, hmem, ?_⟩
      cases o with
      | language ls => simp only [actionsOf, List.mem_singleton] at hx; subst hx; exact .optional hm ht
      | fallback l =>
        simp only [actionsOf] at hx
        cases hl : l.toTag w with
        | error e => rw [hl] at hx; cases hx
        | ok tag =>
          rw [hl] at hx
          simp only [List.mem_singleton] at hx
          subst hx
          cases List.mem_singleton.mp hm
          cases ht
          exact .fallback hl
      | source l =>
        simp only [actionsOf, List.mem_singleton] at hx
        subst hx
        cases List.mem_singleton.mp hm
        cases ht
        exact .source _
      | requiredLanguage l => simp only [actionsOf, List.mem_singleton] at hx; subst hx; exact .required hm ht
      | _ => cases hx
  rw [hdom, hloc]
  refine ⟨hi.nodup, fun d t loc c hl hc => hL.1 t loc d hl (by rw [hc]; rfl), fun d hd => ?_⟩
  obtain ⟨t, ld, c, ⟨o, hmem, hask⟩, hm, hx⟩ := hL.2 d hd
  rw [hs.loaders] at hm
  exact ⟨o, hmem, t, ld, c, hask, ((hld d ld).mp (GoMap.get?_of_mem hf.wf hm)).resolve_left (fun x => nomatch x), hx⟩

/-- The bundle of `C69_negation` has a listed domain without a catalog. -/
example : ∃ B es, newBundle demoWorld ident [.domainLoader b!"a" (some (knows [2])),
      .domainLoader b!"b" (some fun t _ => .error (.missingLanguage t)), .language [.tag 2]] = .ok (B, es) ∧
    b!"a" ∈ B.domains ∧ Asks demoWorld (.language [.tag 2] : Opt Nat Int) 2 :=
  ⟨_, _, rfl, List.mem_singleton.mpr rfl, .optional (List.mem_singleton.mpr rfl) rfl⟩

/-! ## C44 -/

/-- Two builders that differ in nothing a lookup can see, and perhaps in the domains. -/
def Close (b c : Builder L N) : Prop := Sim { b with domains := [] } { c with domains := [] }

theorem close_of {b c b' c' : Builder L N} (h : Close b c) {ds es k ds' es' k'}
    (hb : b' = { b with domains := ds, events := es, loops := k })
    (hc : c' = { c with domains := ds', events := es', loops := k' }) : Close b' c' := by
  subst hb; subst hc
  exact ⟨h.1, h.2, h.3, h.4, h.5, h.6, h.7, h.8, fun _ => Iff.rfl⟩

theorem created_close {w : World L N V} {optional : Bool} {b c : Builder L N} {lang : L} (h : Close b c)
    {r s : Builder L N × Except (Err L) Unit} (hr : Created w optional b lang r) (hs : Created w optional c lang s) :
    Close r.1 s.1 ∧ (r.2 = .ok () ↔ s.2 = .ok ()) := by
  have hsrcL : b.sourceLanguage = c.sourceLanguage := h.source
  have hlds : b.loaders = c.loaders := h.loaders
  have hlocs : ∀ t, SameOpt (b.locales.get? t) (c.locales.get? t) := h.locales
  have hlang : b.languages = c.languages := h.languages
  have hsome : (b.locales.get? lang).isSome → ¬ c.locales.get? lang = none := by
    intro h1 h2
    rw [(sameOpt_none (hlocs lang)).mpr h2] at h1; cases h1
  have hnone : b.locales.get? lang = none → ¬ (c.locales.get? lang).isSome := by
    intro h1 h2
    rw [(sameOpt_none (hlocs lang)).mp h1] at h2; cases h2
  have both : ∀ {e e' : Err L}, ((.error e : Except (Err L) Unit) = .ok () ↔ (.error e' : Except (Err L) Unit) = .ok ()) :=
    ⟨(fun h => nomatch h), (fun h => nomatch h)⟩
  cases hr with
  | und h1 =>
    cases hs with
    | und => exact ⟨h, both⟩
    | source _ k => exact absurd h1 k
    | cached k => exact absurd h1 k
    | bad _ _ _ _ k => exact absurd h1 k
    | empty _ _ _ k => exact absurd h1 k
    | new _ _ _ _ k => exact absurd h1 k
  | source es h1 h2 he =>
    cases hs with
    | und k => exact absurd k h1
    | source es' k1 k2 ke =>
      refine ⟨⟨h.callback, h.defaultDomain, h.errContext, h.source, h.fallback, h.loaders, ?_, ?_, fun _ => Iff.rfl⟩, Iff.rfl⟩
      · simp only [hlang]
      · exact sim_set hlocs lang ⟨hsrcL, rfl, fun _ => rfl⟩
    | cached _ k => exact absurd (h2.trans hsrcL) k
    | bad _ _ _ _ _ k => exact absurd (h2.trans hsrcL) k
    | empty _ _ _ _ k => exact absurd (h2.trans hsrcL) k
    | new _ _ _ _ _ k => exact absurd (h2.trans hsrcL) k
  | cached h1 h2 h3 =>
    cases hs with
    | und k => exact absurd k h1
    | source _ _ k => exact absurd (k.trans hsrcL.symm) h2
    | cached => exact ⟨h, Iff.rfl⟩
    | bad _ _ _ _ _ _ _ k => exact absurd k (hsome h3)
    | empty _ _ _ _ _ _ k => exact absurd k (hsome h3)
    | new _ _ _ _ _ _ _ k => exact absurd k (hsome h3)
  | bad ds es k e h1 h2 hr h3 hg he =>
    cases hs with
    | und k => exact absurd k h1
    | source _ _ k => exact absurd (k.trans hsrcL.symm) h2
    | cached _ _ k => exact absurd k (hnone h3)
    | bad => exact ⟨close_of h rfl rfl, both⟩
    | empty _ _ _ _ _ _ _ k => exact absurd (hlds ▸ k) hg
    | new _ _ _ _ _ _ _ _ k => exact absurd (hlds ▸ k) hg
  | empty ds es k h1 h2 hr h3 hg hn hd hnd =>
    cases hs with
    | und k => exact absurd k h1
    | source _ _ k => exact absurd (k.trans hsrcL.symm) h2
    | cached _ _ k => exact absurd k (hnone h3)
    | bad _ _ _ _ _ _ _ _ k => exact absurd (hlds ▸ hg) k
    | empty => exact ⟨close_of h rfl rfl, both⟩
    | new _ _ _ _ _ _ _ _ _ k =>
      obtain ⟨d, hd⟩ := k
      rw [← hlds, hn d] at hd; cases hd
  | new ds es k cs h1 h2 hr h3 hg hex hcs hd hnd =>
    cases hs with
    | und k => exact absurd k h1
    | source _ _ k => exact absurd (k.trans hsrcL.symm) h2
    | cached _ _ k => exact absurd k (hnone h3)
    | bad _ _ _ _ _ _ _ _ k => exact absurd (hlds ▸ hg) k
    | empty _ _ _ _ _ _ _ _ k =>
      obtain ⟨d, hd⟩ := hex
      rw [hlds, k d] at hd; cases hd
    | new ds' es' k' cs' _ _ _ _ _ _ kcs kd _ =>
      refine ⟨⟨h.callback, h.defaultDomain, h.errContext, h.source, h.fallback, h.loaders, ?_, ?_, fun _ => Iff.rfl⟩, Iff.rfl⟩
      · simp only [hlang]
      · exact sim_set hlocs lang ⟨rfl, rfl, fun d => by simp only; rw [hcs d, kcs d, hlds]⟩

theorem missing_close {b c : Builder L N} (h : Close b c) (e e' : Err L) : Close (b.missing e) (c.missing e') := by
  obtain ⟨es, h1⟩ := missing_eq b e
  obtain ⟨es', h2⟩ := missing_eq c e'
  rw [h1, h2]
  exact close_of h (ds := b.domains) (k := b.loops) (ds' := c.domains) (k' := c.loops) rfl rfl

theorem preload_close (w : World L N V) {o1 o2 : Order L N} (h1 : Perms o1) (h2 : Perms o2) (optional : Bool) :
    ∀ (as : List (LangArg L)) {b c b' c' : Builder L N}, Inv w b → Inv w c → Close b c →
      b.preload w o1 optional as = (b', .ok ()) → c.preload w o2 optional as = (c', .ok ()) → Close b' c'
  | [], b, c, b', c', _, _, h, hb, hc => by cases hb; cases hc; exact h
  | a :: as, b, c, b', c', hib, hic, h, hb, hc => by
    rw [Builder.preload] at hb hc
    cases ht : a.toTag w with
    | error e => rw [ht] at hb; cases hb
    | ok tag =>
      rw [ht] at hb hc
      simp only at hb hc
      have hcb := createLocale_spec w h1 optional b hib.wf tag
      have hcc := createLocale_spec w h2 optional c hic.wf tag
      obtain ⟨hcl, hiff⟩ := created_close h hcb hcc
      obtain ⟨_, hib', _⟩ := created_inv hib hcb
      obtain ⟨_, hic', _⟩ := created_inv hic hcc
      generalize b.createLocale w o1 optional tag = r at hb hcl hiff hib'
      generalize c.createLocale w o2 optional tag = s at hc hcl hiff hic'
      obtain ⟨b1, r1⟩ := r
      obtain ⟨c1, s1⟩ := s
      simp only [] at hcl hiff hib' hic'
      cases r1 with
      | ok u =>
        cases s1 with
        | ok u' => exact preload_close w h1 h2 optional as hib' hic' hcl hb hc
        | error e => cases hiff.mp rfl
      | error e =>
        cases s1 with
        | ok u' => cases hiff.mpr rfl
        | error e' =>
          simp only at hb hc
          cases hop : optional with
          | false => rw [hop] at hb; cases hb
          | true =>
            rw [hop] at hb hc
            cases e with
            | missingLanguage l =>
              cases e' with
              | missingLanguage l' =>
                simp only [Bool.not_true, Bool.false_eq_true, if_false] at hb hc
                exact preload_close w h1 h2 true as (missing_inv hib' _).1 (missing_inv hic' _).1 (missing_close hcl _ _) hb hc
              | _ => cases hc
            | _ => cases hb

theorem runActions_close (w : World L N V) {o1 o2 : Order L N} (h1 : Perms o1) (h2 : Perms o2) :
    ∀ (as : List (Action L)) {b c b' c' : Builder L N}, Inv w b → Inv w c → Close b c →
      b.runActions w o1 as = .ok b' → c.runActions w o2 as = .ok c' → Close b' c'
  | [], b, c, b', c', _, _, h, hb, hc => by cases hb; cases hc; exact h
  | a :: as, b, c, b', c', hib, hic, h, hb, hc => by
    rw [Builder.runActions] at hb hc
    cases hpb : b.preload w o1 a.optional a.languages with
    | mk b1 r1 =>
      cases hpc : c.preload w o2 a.optional a.languages with
      | mk c1 s1 =>
        rw [hpb] at hb
        rw [hpc] at hc
        cases r1 with
        | error e => cases hb
        | ok u =>
          cases s1 with
          | error e => cases hc
          | ok u' =>
            exact runActions_close w h1 h2 as (preload_inv w h1 _ _ hib hpb).2 (preload_inv w h2 _ _ hic hpc).2
              (preload_close w h1 h2 _ _ hib hic h hpb hpc) hb hc

theorem finish_domains (b : Builder L N) : b.finish.1 = { ({ b with domains := [] } : Builder L N).finish.1 with domains := b.domains } := by
  rfl

theorem singular_domains (w : World L N V) (B : Bundle L N) (ds : List Bytes) (dd : Bytes) (tag : Option L) (d c id : Bytes)
    (vars : List V) : (newLocalizerFromTag { B with domains := ds } dd tag).lookupSingular w d c id vars =
      (newLocalizerFromTag B dd tag).lookupSingular w d c id vars := by
  unfold newLocalizerFromTag
  cases tag.bind B.locales.get? <;> rfl

theorem plural_domains (w : World L N V) (B : Bundle L N) (ds : List Bytes) (dd : Bytes) (tag : Option L) (d c id p : Bytes) (n : N)
    (vars : List V) : (newLocalizerFromTag { B with domains := ds } dd tag).lookupPlural w d c id p n vars =
      (newLocalizerFromTag B dd tag).lookupPlural w d c id p n vars := by
  unfold newLocalizerFromTag
  cases tag.bind B.locales.get? <;> rfl

/-- Whatever the loaders return: if the bundle is created with two iteration orders, it has the same languages, and no lookup can tell
which order it was.  Without restrictions on the loaders, the order decides only on whether there is a bundle (`C44_negation`), and on
`Domains` (`C44_domains_negation`). -/
theorem C44_created {w : World L N V} {o1 o2 : Order L N} (h1 : Perms o1) (h2 : Perms o2) {opts : List (Opt L N)}
    {B C : Bundle L N} {es es' : List (Event L)} (hB : newBundle w o1 opts = .ok (B, es)) (hC : newBundle w o2 opts = .ok (C, es')) :
    B.languages = C.languages ∧ (∀ t, (B.locales.get? t).isSome ↔ (C.locales.get? t).isSome) ∧
    ∀ dd tag, (∀ domain ctx id vars, (newLocalizerFromTag B dd tag).lookupSingular w domain ctx id vars =
        (newLocalizerFromTag C dd tag).lookupSingular w domain ctx id vars) ∧
      (∀ domain ctx id p n vars, (newLocalizerFromTag B dd tag).lookupPlural w domain ctx id p n vars =
        (newLocalizerFromTag C dd tag).lookupPlural w domain ctx id p n vars) := by
  obtain ⟨b, b', ha, hf, hr, hfin, _⟩ := finished h1 hB
  obtain ⟨c, c', ha', _, hr', hfin', _⟩ := finished h2 hC
  rw [ha] at ha'
  cases ha'
  have hsim : Close { b with domains := [] } { b with domains := [] } :=
    ⟨rfl, rfl, rfl, rfl, rfl, rfl, rfl, fun t => by simp only [hf.locales]; trivial, fun _ => Iff.rfl⟩
  have hs := finish_same (runActions_close w h1 h2 b.actions (hf.inv w) (hf.inv w) hsim hr hr')
  have eB : B = _ := (congrArg Prod.fst hfin).symm.trans (finish_domains b')
  have eC : C = _ := (congrArg Prod.fst hfin').symm.trans (finish_domains c')
  rw [eB, eC]
  refine ⟨hs.languages, fun t => ?_, fun dd tag => ⟨fun domain ctx id vars => ?_, fun domain ctx id p n vars => ?_⟩⟩
  · have := hs.locales t
    revert this
    simp only []
    cases (Builder.finish { b' with domains := [] }).1.locales.get? t <;>
      cases (Builder.finish { c' with domains := [] }).1.locales.get? t <;> simp [SameOpt]
  · exact (singular_domains w _ _ dd tag domain ctx id vars).trans
      ((localizer_singular_same w (fromTag_same hs dd tag) domain ctx id vars).trans (singular_domains w _ _ dd tag domain ctx id vars).symm)
  · exact (plural_domains w _ _ dd tag domain ctx id p n vars).trans
      ((localizer_plural_same w (fromTag_same hs dd tag) domain ctx id p n vars).trans (plural_domains w _ _ dd tag domain ctx id p n vars).symm)

/-- Two orders give bundles with different `Domains`, without and with a domain that has no catalog. -/
theorem C44_domains_negation :
    let opts : List (Opt Nat Int) := [.domainLoader b!"a" (some (knows [2])),
      .domainLoader b!"b" (some fun t _ => .error (.missingLanguage t)), .language [.tag 2]]
    ∃ B C es es', newBundle demoWorld ident opts = .ok (B, es) ∧ newBundle demoWorld rev opts = .ok (C, es') ∧
      B.domains = [b!"a"] ∧ C.domains = [] := ⟨_, _, _, _, rfl, rfl, rfl, rfl⟩

end Verif.Props.Bundle
