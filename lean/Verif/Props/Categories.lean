import Verif.Spec.Categories
import Verif.Props.Json
/-!
# C105: `ApplyPluralCategoriesToJSONMessage`
-/
namespace Verif.Props.Categories
open Verif.Go Verif.Model.Po Verif.Model.Catalog Verif.Model.Catalog.Heap Verif.Spec.Categories Verif.Proofs.Catalog

theorem categories_iff (lang : Tag) (domain : Bytes) (k : Int) : k ∈ (JsonCatalog.new lang domain).categories ↔ IsCategoryOf lang k := by
  unfold JsonCatalog.new IsCategoryOf
  cases h : (Verif.Model.Cldr.forLanguage lang).1 with
  | none => simp
  | some rs =>
    simp only [List.mem_map, Option.some.injEq]
    constructor
    · rintro ⟨c, hc, rfl⟩; exact ⟨rs, c, rfl, hc, rfl⟩
    · rintro ⟨_, c, rfl, hc, rfl⟩; exact ⟨c, hc, rfl⟩

theorem get?_isSome_mem {tr : GoMap Int Bytes} {k : Int} : (tr.get? k).isSome = true ↔ k ∈ tr.map (·.1) := by
  induction tr with
  | nil => simp [GoMap.get?]
  | cons p tr ih =>
    obtain ⟨x, y⟩ := p
    simp only [GoMap.get?, List.map_cons, List.mem_cons]
    by_cases e : x = k
    · rw [if_pos e]; simp [e]
    · rw [if_neg e, ih]
      constructor
      · exact Or.inr
      · rintro (h | h)
        · exact absurd h.symm e
        · exact h

theorem single_iff {tr : GoMap Int Bytes} (hw : tr.WF) : Single tr ↔ OnlyOther tr := by
  unfold Single OnlyOther
  constructor
  · rintro ⟨h1, h2⟩ k
    rw [get?_isSome_mem] at h2 ⊢
    match tr, h1, h2 with
    | [(x, y)], _, h2 =>
      simp only [List.map_cons, List.map_nil, List.mem_singleton] at h2 ⊢
      rw [h2]
  · intro h
    have ho := (h other).2 rfl
    refine ⟨?_, ho⟩
    unfold GoMap.WF at hw
    match tr, hw, h, ho with
    | [], _, _, ho => cases ho
    | [_], _, _, _ => rfl
    | (x, y) :: (x', y') :: rest, hw, h, _ =>
      have h1 := (h x).1 (by rw [get?_isSome_mem]; simp)
      have h2 := (h x').1 (by rw [get?_isSome_mem]; simp)
      subst h1; subst h2
      exact absurd List.mem_cons_self (GoMap.WF.cons_inv hw).1

theorem apply_fits {names : List Int} (hn : names.Perm categoryNames) (lang : Tag) {tr : GoMap Int Bytes} (hw : tr.WF) :
    Fits lang tr (applyCategories names (JsonCatalog.new lang []).categories tr) := by
  refine ⟨fun h => if_pos ((single_iff hw).2 h), fun h k hk => ?_, fun k hk => ?_⟩
  · have h' : ¬ Single tr := fun e => h ((single_iff hw).1 e)
    rw [applyCategories_get?, if_neg h', if_pos (hn.mem_iff.2 hk)]
    exact ⟨fun hc => if_pos ((categories_iff ..).2 hc), fun hc => if_neg fun e => hc ((categories_iff ..).1 e)⟩
  · rw [applyCategories_get?, if_neg fun e => hk (hn.mem_iff.1 e)]
    exact ite_self _

/-- The texts of the message are made fit for the language; no message and no other map changes. -/
theorem C105_apply {names : List Int} (hn : names.Perm categoryNames) (lang : Tag) (h : Heap) (a t : Nat)
    (ha : (h.msg a).translations = some t) (ht : t < h.maps.length) (hw : (h.map t).WF) :
    Fits lang (h.map t) ((applyPluralCategories names lang h (some a)).map t) ∧
    (applyPluralCategories names lang h (some a)).msgs = h.msgs ∧ (applyPluralCategories names lang h (some a)).files = h.files ∧
    ∀ u, u ≠ t → (applyPluralCategories names lang h (some a)).map u = h.map u := by
  unfold applyPluralCategories
  simp only [ha]
  refine ⟨?_, rfl, rfl, fun u hu => ?_⟩
  · have : (h.setMap t (applyCategories names (JsonCatalog.new lang []).categories (h.map t))).map t =
        applyCategories names (JsonCatalog.new lang []).categories (h.map t) := by
      unfold Heap.map Heap.setMap
      simp [List.getElem?_set_self ht]
    rw [this]
    exact apply_fits hn lang hw
  · unfold Heap.map Heap.setMap
    simp only [List.getElem?_set_ne (Ne.symm hu)]

/-- A nil message and a message with a nil map: nothing happens. -/
theorem C105_nil (names : List Int) (lang : Tag) (h : Heap) : applyPluralCategories names lang h none = h ∧
    ∀ a, (h.msg a).translations = none → applyPluralCategories names lang h (some a) = h := by
  refine ⟨rfl, fun a ha => ?_⟩
  unfold applyPluralCategories
  simp only [ha]

theorem value_apply (names : List Int) (lang : Tag) (h : Heap) (a t : Nat) (ha : (h.msg a).translations = some t)
    (ht : t < h.maps.length) : (applyPluralCategories names lang h (some a)).value a =
      ⟨(h.msg a).comment, (h.msg a).context, some (applyCategories names (JsonCatalog.new lang []).categories (h.map t))⟩ := by
  have h1 : (applyPluralCategories names lang h (some a)).msg a = h.msg a := by
    unfold applyPluralCategories; simp only [ha]; rfl
  unfold Heap.value
  rw [h1, ha]
  simp only [Option.map_some]
  congr 2
  unfold applyPluralCategories
  simp only [ha]
  unfold Heap.map Heap.setMap
  simp [List.getElem?_set_self ht]

/-- A second call changes nothing. -/
theorem C105_again (names : List Int) (lang : Tag) (h : Heap) (msg : Option Nat)
    (hv : ∀ a t, msg = some a → (h.msg a).translations = some t → t < h.maps.length) :
    applyPluralCategories names lang (applyPluralCategories names lang h msg) msg = applyPluralCategories names lang h msg := by
  cases msg with
  | none => rfl
  | some a =>
    cases ha : (h.msg a).translations with
    | none => rw [(C105_nil names lang h).2 a ha, (C105_nil names lang h).2 a ha]
    | some t =>
      have ht := hv a t rfl ha
      have e : applyPluralCategories names lang h (some a) =
          h.setMap t (applyCategories names (JsonCatalog.new lang []).categories (h.map t)) := by
        unfold applyPluralCategories; simp only [ha]
      have e2 : ∀ m, ((h.setMap t m).msg a).translations = some t := fun m => ha
      have e3 : ∀ m, (h.setMap t m).map t = m := by
        intro m; unfold Heap.map Heap.setMap; simp [List.getElem?_set_self ht]
      rw [e]
      conv => lhs; unfold applyPluralCategories
      simp only [e2, e3, applyCategories_idem]
      unfold Heap.setMap
      simp only [List.set_set]

/-- Behind the call a message with a map that is not nil is good for a catalog, and a catalog of the language gets the same from it
as before. -/
theorem C105_catalog {names : List Int} (hn : names.Perm categoryNames) (lang : Tag) (h : Heap) (a t : Nat)
    (ha : (h.msg a).translations = some t) (ht : t < h.maps.length) (key : Bytes) (hk : key ≠ [])
    (hc : (h.msg a).context = [] ∨ hasSuffix key (b!"_" ++ (h.msg a).context) = true) (c : JsonCatalog) :
    (∃ c', c.setMessage names key (some ((applyPluralCategories names lang h (some a)).value a)) = .ok c') ∧
    (((h.map t).get? other).isSome = true → c.categories = (JsonCatalog.new lang []).categories →
      c.setMessage names key (some ((applyPluralCategories names lang h (some a)).value a)) =
        c.setMessage names key (some (h.value a))) := by
  rw [value_apply names lang h a t ha ht]
  have hc' : ¬ ((h.msg a).context ≠ [] ∧ hasSuffix key (b!"_" ++ (h.msg a).context) = false) := by
    rintro ⟨h1, h2⟩
    rcases hc with hc | hc
    · exact h1 hc
    · rw [hc] at h2; cases h2
  have ho : ((applyCategories names (JsonCatalog.new lang []).categories (h.map t)).get? other).isNone = false := by
    rw [applyCategories_get?]
    by_cases hs : Single (h.map t)
    · rw [if_pos hs]; have := hs.2; cases hg : (h.map t).get? other with
      | none => rw [hg] at this; cases this
      | some v => rfl
    · rw [if_neg hs, if_pos (hn.mem_iff.2 (by decide)), if_pos (Json.new_categories lang []).1]; rfl
  have hv : h.value a = ⟨(h.msg a).comment, (h.msg a).context, some (h.map t)⟩ := by unfold Heap.value; rw [ha]; rfl
  constructor
  · rw [setMessage_eq]
    unfold prepare
    rw [if_neg hk]
    simp only []
    rw [if_neg hc']
    simp only [JsonMessage.tr, Option.getD_some, ho]
    exact ⟨_, rfl⟩
  · intro h1 h2
    have h3 : ((h.map t).get? other).isNone = false := by
      cases hg : (h.map t).get? other with
      | none => rw [hg] at h1; cases h1
      | some v => rfl
    rw [setMessage_eq, setMessage_eq, hv]
    unfold prepare
    rw [if_neg hk, if_neg hk]
    simp only []
    rw [if_neg hc', if_neg hc']
    simp only [JsonMessage.tr, Option.getD_some, ho, h3, h2, applyCategories_idem]

/-- A German message with texts for One and Few, and another one with the same map. -/
def demo : Heap := ⟨[[(1, b!"Tag"), (3, b!"x")]], [⟨[], [], some 0⟩, ⟨b!"c", [], some 0⟩], []⟩

example : (demo.msg 0).translations = some 0 ∧ 0 < demo.maps.length ∧ (demo.map 0).WF ∧ ¬ OnlyOther (demo.map 0) ∧
    (applyPluralCategories categoryNames [("de", some "de")] demo (some 0)).map 0 = [(1, b!"Tag"), (5, [])] := by
  refine ⟨rfl, by decide, by unfold GoMap.WF; decide, fun h => ?_, rfl⟩
  have := (h 1).1 rfl
  exact absurd this (by decide)

example : ∃ (h : Heap) (a t : Nat), (h.msg a).translations = some t ∧ OnlyOther (h.map t) ∧ (h.map t).WF := by
  refine ⟨⟨[[(5, b!"x")]], [⟨[], [], some 0⟩], []⟩, 0, 0, rfl, (single_iff (by unfold GoMap.WF; decide)).1 ⟨rfl, rfl⟩, by unfold GoMap.WF; decide⟩

end Verif.Props.Categories
