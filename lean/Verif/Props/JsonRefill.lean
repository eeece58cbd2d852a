import Verif.Props.Json
/-!
# C63: catalogs that are filled more than once
-/
namespace Verif.Props.JsonRefill
open Verif.Go Verif.Model.Po Verif.Model.Catalog Verif.Proofs.Catalog Verif.Props.Json

/-- A catalog that was filled message by message, with any number of calls of `UnmarshalJSON`, failing ones included, and any orders of
the loops over maps. -/
inductive Filled (lang : Tag) (domain : Bytes) : JsonCatalog → Prop
  | new : Filled lang domain (JsonCatalog.new lang domain)
  | set {c c' : JsonCatalog} {names : List Int} {key : Bytes} {src : Option JsonMessage} : Filled lang domain c →
      names.Perm categoryNames → c.setMessage names key src = .ok c' → Filled lang domain c'

/-- No key is that of messages in two contexts. -/
def OneContext (c : JsonCatalog) : Prop :=
  ∀ ctx ctx' k, (entry c.lookupMap ctx k).isSome = true → (entry c.lookupMap ctx' k).isSome = true → ctx = ctx'

/-- What holds for every filled catalog. -/
structure Facts (lang : Tag) (domain : Bytes) (c : JsonCatalog) : Prop where
  dom : c.domain = (JsonCatalog.new lang domain).domain
  categories : c.categories = (JsonCatalog.new lang domain).categories
  plural : c.plural = (JsonCatalog.new lang domain).plural
  wf : MapWF c.lookupMap
  context : ∀ ctx k m, entry c.lookupMap ctx k = some m → m.context = ctx
  nonempty : ∀ ctx, (c.lookupMap.get? ctx).isSome = true → ∃ k m, entry c.lookupMap ctx k = some m
  again : ∀ ctx k m, entry c.lookupMap ctx k = some m → ∀ names : List Int, names.Perm categoryNames →
    prepare names c.categories k (some m) = .ok m

theorem empty_new (lang : Tag) (domain : Bytes) : (JsonCatalog.new lang domain).lookupMap = [] := by
  unfold JsonCatalog.new
  cases (Verif.Model.Cldr.forLanguage lang).1 <;> rfl

theorem prepare_again' {names names' cats : List Int} (hn : names.Perm names') {key : Bytes} {src : Option JsonMessage}
    {m : JsonMessage} (ho : other ∈ cats) (h : prepare names cats key src = .ok m) : prepare names' cats key (some m) = .ok m := by
  have h0 := prepare_again ho h
  obtain ⟨s, rfl, _⟩ := prepare_ok h
  obtain ⟨_, _, _, hm⟩ := prepare_iff.mp h
  obtain ⟨g1, g2, g3, _⟩ := prepare_iff.mp h0
  refine prepare_iff.mpr ⟨g1, g2, g3, ?_⟩
  have ht : m.tr = applyCategories names cats s.tr := by rw [hm]; rfl
  have : applyCategories names' cats m.tr = m.tr := by
    by_cases h' : Single m.tr
    · exact if_pos h'
    · have e : applyCategories names' cats m.tr = applyLoop cats m.tr names' := if_neg h'
      rw [e]
      refine applyLoop_fix _ _ _ fun k hk => ?_
      have hs : ¬ Single s.tr := by
        intro hs
        apply h'
        rw [ht]
        have : applyCategories names cats s.tr = s.tr := if_pos hs
        rw [this]; exact hs
      rw [ht, applyCategories_get?, if_neg hs, if_pos (hn.mem_iff.2 hk)]
      split <;> simp [*]
  rw [this, ht, hm]

theorem facts {lang : Tag} {domain : Bytes} {c : JsonCatalog} (h : Filled lang domain c) : Facts lang domain c := by
  induction h with
  | new =>
    refine ⟨rfl, rfl, rfl, ?_, ?_, ?_, ?_⟩
    · rw [empty_new]; exact ⟨GoMap.WF.nil, fun _ _ h => by cases h⟩
    · intro ctx k m h; rw [empty_new] at h; cases h
    · intro ctx h; rw [empty_new] at h; cases h
    · intro ctx k m h; rw [empty_new] at h; cases h
  | @set c c' names key src _ hn hs ih =>
    rw [setMessage_eq] at hs
    cases hp : prepare names c.categories key src with
    | error e => rw [hp] at hs; cases hs
    | ok m =>
      rw [hp] at hs
      cases hs
      refine ⟨ih.dom, ih.categories, ih.plural, insert_wf ih.wf key m, ?_, ?_, ?_⟩
      · intro ctx k x hx
        simp only [entry_insert] at hx
        split at hx
        · rename_i e; cases hx; exact e.1
        · exact ih.context ctx k x hx
      · intro ctx hc
        by_cases e : m.context = ctx
        · exact ⟨key, m, by simp only [entry_insert, e, and_self, if_true]⟩
        · have : (c.lookupMap.get? ctx).isSome = true := by
            simp only [insertMsg, GoMap.get?_set, if_neg e] at hc; exact hc
          obtain ⟨k, x, hx⟩ := ih.nonempty ctx this
          exact ⟨k, x, by simp only [entry_insert]; rw [if_neg fun h => e h.1]; exact hx⟩
      · intro ctx k x hx names' hn'
        simp only [entry_insert] at hx
        split at hx
        · rename_i e
          cases hx
          rw [← e.2]
          have ho : other ∈ c.categories := by rw [ih.categories]; exact (new_categories lang domain).1
          exact prepare_again' (hn.trans hn'.symm) ho hp
        · exact ih.again ctx k x hx names' hn'

theorem Facts.built {lang : Tag} {domain : Bytes} {c : JsonCatalog} (f : Facts lang domain c) (h1 : OneContext c) {names : List Int}
    (hn : names.Perm categoryNames) : Built names c :=
  ⟨f.wf, f.context, fun ctx ctx' k m m' h h' => h1 ctx ctx' k (by rw [h]; rfl) (by rw [h']; rfl), f.nonempty,
    fun ctx k m h => f.again ctx k m h names hn⟩

/-- Flattening keeps nothing but messages of the catalog. -/
theorem flatten_sound : ∀ (m : JsonLookupMap) (cpy : GoMap Bytes JsonMessage), MapWF m → ∀ k x, (flatten cpy m).get? k = some x →
    (∃ ctx, entry m ctx k = some x) ∨ cpy.get? k = some x
  | [], cpy, _, k, x => by intro h; exact Or.inr h
  | (c0, inner) :: rest, cpy, hw, k, x => by
    have hn := GoMap.WF.cons_inv hw.1
    have hin : inner.WF := hw.2 c0 inner (by simp [GoMap.get?])
    have hrw : MapWF rest := by
      refine ⟨hn.2, fun ctx i hi => ?_⟩
      have : ctx ≠ c0 := by
        rintro rfl; rw [GoMap.get?_eq_none.mpr hn.1] at hi; cases hi
      exact hw.2 ctx i (by simp only [GoMap.get?, if_neg (fun e => this (Eq.symm e))]; exact hi)
    intro h
    rw [flatten] at h
    rcases flatten_sound rest _ hrw k x h with ⟨ctx, hx⟩ | hx
    · left
      refine ⟨ctx, ?_⟩
      have : ctx ≠ c0 := by
        rintro rfl; unfold entry at hx; rw [GoMap.get?_eq_none.mpr hn.1] at hx; cases hx
      unfold entry at hx ⊢
      simp only [GoMap.get?, if_neg (fun e => this (Eq.symm e))]
      exact hx
    · rw [foldl_set_get? inner cpy hin] at hx
      cases hi : inner.get? k with
      | some y =>
        rw [hi] at hx
        left
        exact ⟨c0, by unfold entry; simp only [GoMap.get?, if_true]; rw [hi]; exact hx⟩
      | none => rw [hi] at hx; exact Or.inr hx

theorem full_of_suffix {ctx key : Bytes} (h : ¬ (ctx ≠ [] ∧ hasSuffix key (b!"_" ++ ctx) = false)) : ∃ id, fullKey ctx id = key := by
  unfold fullKey
  by_cases e : ctx = []
  · exact ⟨key, by rw [if_pos e]⟩
  · have hs : hasSuffix key (b!"_" ++ ctx) = true := by
      cases hh : hasSuffix key (b!"_" ++ ctx) with
      | true => rfl
      | false => exact absurd ⟨e, hh⟩ h
    obtain ⟨id, hid⟩ := List.isSuffixOf_iff_suffix.1 hs
    exact ⟨id, by rw [if_neg e, List.append_assoc]; exact hid⟩

/-- A lookup tells whether the catalog has the message. -/
theorem lookup_entry {c d : JsonCatalog} {ctx id : Bytes} (h : c.lookup ctx id = d.lookup ctx id)
    (hc : (entry c.lookupMap ctx (fullKey ctx id)).isSome = true) : (entry d.lookupMap ctx (fullKey ctx id)).isSome = true := by
  have fc := C19_json_lookup c ctx id
  have fd := C19_json_lookup d ctx id
  rw [← h] at fd
  have some_of : ∀ {inner : GoMap Bytes JsonMessage} {msg : JsonMessage}, d.lookupMap.get? ctx = some inner →
      inner.get? (fullKey ctx id) = some msg → (entry d.lookupMap ctx (fullKey ctx id)).isSome = true := by
    intro inner msg h1 h2; unfold entry; rw [h1]; simp only [h2]; rfl
  unfold GoodAnswer at fc fd
  cases he : (c.lookup ctx id).2 with
  | none =>
    rw [he] at fd
    obtain ⟨_, inner, msg, h1, h2, _⟩ := fd
    exact some_of h1 h2
  | some e =>
    rw [he] at fc fd
    rcases fc.2 with ⟨_, h1⟩ | ⟨_, inner, h1, h2⟩ | ⟨h0, _⟩
    · unfold entry at hc; rw [h1] at hc; cases hc
    · unfold entry at hc; rw [h1] at hc; simp only [h2] at hc; cases hc
    · rcases fd.2 with ⟨h1, _⟩ | ⟨h1, _⟩ | ⟨_, inner, msg, h1, h2, _⟩
      · rw [h0] at h1; cases h1
      · rw [h0] at h1; cases h1
      · exact some_of h1 h2

theorem dump_wf (c : JsonCatalog) : (asSource c.messages).WF := by
  unfold GoMap.WF asSource
  rw [GoMap.keys_map]
  exact flatten_wf _ _ GoMap.WF.nil

/-- A catalog that was filled any number of times can be built again from its messages exactly if no key is that of messages in two
contexts. -/
theorem C63_iff {lang : Tag} {domain : Bytes} {c : JsonCatalog} (h : Filled lang domain c) :
    (∀ (names : List Int) (dump : GoMap Bytes (Option JsonMessage)), names.Perm categoryNames → dump.Perm (asSource c.messages) →
      ∃ c', newJSONCatalogWithMessages names lang domain dump = .ok c' ∧ Alike c c') ↔ OneContext c := by
  have f := facts h
  constructor
  · intro hall ctx ctx' k h1 h2
    obtain ⟨c', hc', ha⟩ := hall categoryNames _ (.refl _) (.refl _)
    have hb := built_of (dump_wf c) hc'
    have up : ∀ x, (entry c.lookupMap x k).isSome = true → (entry c'.lookupMap x k).isSome = true := by
      intro x hx
      obtain ⟨m, hm⟩ := Option.isSome_iff_exists.1 hx
      have hp := prepare_iff.1 (f.again x k m hm categoryNames (.refl _))
      rw [f.context x k m hm] at hp
      obtain ⟨id, rfl⟩ := full_of_suffix hp.2.1
      exact lookup_entry (ha.1 x id) hx
    obtain ⟨m1, hm1⟩ := Option.isSome_iff_exists.1 (up _ h1)
    obtain ⟨m2, hm2⟩ := Option.isSome_iff_exists.1 (up _ h2)
    exact hb.uniq _ _ _ _ _ hm1 hm2
  · intro h1 names dump hn hp
    refine rebuild (.refl names) (f.built h1 hn) ((dump_wf c).perm hp.symm) (fun k => ?_) (empty_new lang domain)
      f.dom.symm f.categories.symm f.plural.symm
    rw [← GoMap.same_of_perm (dump_wf c) hp.symm k]
    unfold asSource
    rw [GoMap.get?_map]
    cases c.messages.get? k with
    | none => trivial
    | some m => exact ⟨rfl, GoMap.Same.refl _, rfl⟩

/-- `UnmarshalJSON` and `NewJSONCatalogWithMessages` give filled catalogs. -/
theorem filled_setAll {lang : Tag} {domain : Bytes} {names : List Int} (hn : names.Perm categoryNames) :
    ∀ (msgs : GoMap Bytes (Option JsonMessage)) (c c' : JsonCatalog), Filled lang domain c → c.setAll names msgs = .ok c' →
      Filled lang domain c'
  | [], c, c', hf, h => by cases h; exact hf
  | (k, s) :: rest, c, c', hf, h => by
    rw [JsonCatalog.setAll] at h
    cases hs : c.setMessage names k s with
    | error e => rw [hs] at h; cases h
    | ok d => rw [hs] at h; exact filled_setAll hn rest d c' (.set hf hn hs) h

/-- One message in the context m, then one of the same key without context: filled, but not with one context for each key; and a catalog
that was filled twice and has one context for each key. -/
example : (∃ c, Filled [("de", some "de")] b!"d" c ∧ c.lookup b!"m" b!"k" = (b!"y", none) ∧ ¬ OneContext c) ∧
    ∃ c, Filled [("de", some "de")] b!"d" c ∧ c.lookup b!"m" b!"k" = (b!"y", none) ∧ c.lookup [] b!"k" = (b!"z", none) ∧ OneContext c := by
  refine ⟨⟨_, .set (.set .new (.refl _) (names := categoryNames) (key := b!"k_m") (src := some ⟨[], b!"m", some [(5, b!"y")]⟩) rfl)
      (.refl _) (names := categoryNames) (key := b!"k_m") (src := some ⟨[], [], some [(5, b!"x")]⟩) rfl, rfl, fun h => ?_⟩,
    ⟨_, .set (.set .new (.refl _) (names := categoryNames) (key := b!"k_m") (src := some ⟨[], b!"m", some [(5, b!"y")]⟩) rfl)
      (.refl _) (names := categoryNames) (key := b!"k") (src := some ⟨[], [], some [(5, b!"z")]⟩) rfl, rfl, rfl, ?_⟩⟩
  · exact absurd (h b!"m" [] b!"k_m" rfl rfl) (by decide)
  · intro a b k ha hb
    have key : ∀ a k, (entry [(b!"m", [(b!"k_m", ⟨[], b!"m", some [(5, b!"y")]⟩)]), ([], [(b!"k", ⟨[], [], some [(5, b!"z")]⟩)])] a k).isSome
        = true → (a = b!"m" ∧ k = b!"k_m") ∨ (a = [] ∧ k = b!"k") := by
      intro a k h
      unfold entry at h
      by_cases e : b!"m" = a
      · simp only [GoMap.get?, if_pos e] at h
        by_cases e' : b!"k_m" = k
        · exact Or.inl ⟨e.symm, e'.symm⟩
        · rw [if_neg e'] at h; cases h
      · simp only [GoMap.get?, if_neg e] at h
        by_cases e2 : [] = a
        · simp only [if_pos e2, GoMap.get?] at h
          by_cases e' : b!"k" = k
          · exact Or.inr ⟨e2.symm, e'.symm⟩
          · rw [if_neg e'] at h; cases h
        · rw [if_neg e2] at h; cases h
    rcases key a k ha with ⟨rfl, rfl⟩ | ⟨rfl, rfl⟩ <;> rcases key b _ hb with ⟨rfl, h⟩ | ⟨rfl, h⟩ <;> first | rfl | exact absurd h (by decide)

end Verif.Props.JsonRefill
