import Verif.Proofs.SharedTable
/-!
# C122: the gettext rule and the CLDR rules of a language agree on the integers

poplural.ForLanguage numbers the plural forms of a language, cldrplural.ForLanguage names them.  For
every language the two describe the same forms: the number of a form is the position of its category
among the categories that integers have, in the order of the CLDR.
-/
namespace Verif.Props.SharedPlurals
open Verif.Cldr Verif.Spec.SharedPlurals Verif.Proofs.Shared
open Verif.Model.Cldr (RuleSet newOperandsInt)
open Verif.Model.PoPlural (Rule pluralRuleForLanguage)

/-- The names of the languages of a table. -/
def names {α : Type} (table : List (List String × α)) : List String := (table.map (·.1)).flatten

theorem mem_names {α : Type} {table : List (List String × α)} {lang : String} {x : α}
    (h : (table.find? (fun p => p.1.contains lang)).map (·.2) = some x) : lang ∈ names table := by
  obtain ⟨p, hp, _⟩ := Option.map_eq_some_iff.mp h
  have hc : p.1.contains lang = true := by
    have := List.find?_some hp
    exact this
  exact List.mem_flatten.mpr ⟨p.1, List.mem_map.mpr ⟨p, List.mem_of_find?_eq_some hp, rfl⟩,
    List.elem_iff.mp hc⟩

/-- The rules that the two packages have for two names agree. -/
def pairOk (a b : String) : Bool :=
  match place Model.PoPlural.langTable a, place Model.Cldr.langTable b with
  | some i, some j => shared.contains (i, j)
  | _, _ => false

theorem fits_of_ok {a b : String} (h : pairOk a b = true) :
    ∃ r rs, Model.PoPlural.getBuiltInForLanguage a = some r ∧
      Model.Cldr.getBuiltInForLanguage b = some rs ∧ Fits r rs := by
  unfold pairOk at h
  split at h
  · rename_i i j hi hj
    obtain ⟨e, f, he, hf, hx⟩ := shared_fits _ (List.elem_iff.mp h)
    refine ⟨e.2, f.2, ?_, ?_, hx⟩
    · unfold Model.PoPlural.getBuiltInForLanguage
      rw [find_place, hi]; simp [he]
    · unfold Model.Cldr.getBuiltInForLanguage
      rw [find_place, hj]; simp [hf]
  · cases h

/-- Everything about the names of the gettext table. -/
def nameOk (k : String) : Bool :=
  let t := dashed k
  (match place Model.Cldr.langTable t with
   | some _ => pairOk k t
   | none => pairOk k (base t)) &&
  (match place Model.Cldr.langTable k with
   | some _ => pairOk k k
   | none => k != base k || k.toList.contains '_') &&
  (place Model.PoPlural.langTable t == place Model.PoPlural.langTable k)

theorem names_ok : ∀ k ∈ names Model.PoPlural.langTable, nameOk k = true := by decide +kernel

theorem cldr_names : ∀ k ∈ names Model.Cldr.langTable,
    k = "jw" ∨ k = "mo" ∨ k = "und" ∨ pairOk k k = true := by decide +kernel

/-- The rules of a name that both packages know agree: for every integer that a float64 holds exactly
the number of the form is the position of the category, and the number of forms is the number of
categories that occur. -/
theorem C122_same_language {lang : String} {r : Rule} {rs : RuleSet}
    (h : Model.PoPlural.getBuiltInForLanguage lang = some r)
    (hs : Model.Cldr.getBuiltInForLanguage lang = some rs) :
    Agree (2 ^ 53) r.nPlurals r.form (fun n => rs.form (newOperandsInt n)) := by
  have hk := names_ok lang (mem_names h)
  unfold nameOk at hk
  simp only [Bool.and_eq_true] at hk
  unfold Model.Cldr.getBuiltInForLanguage at hs
  rw [find_place] at hs
  cases hp : place Model.Cldr.langTable lang with
  | none => rw [hp] at hs; cases hs
  | some j =>
    have h2 := hk.1.2
    rw [hp] at h2
    obtain ⟨r', rs', hr, hrs, hf⟩ := fits_of_ok h2
    rw [h] at hr
    unfold Model.Cldr.getBuiltInForLanguage at hrs
    rw [find_place, hs] at hrs
    cases hr; cases hrs
    exact hf

/-- What agreement means for two counts: they get the same gettext form exactly if they have the same
category, and the forms are ordered as the categories are. -/
theorem C122_same_form_iff {limit : Nat} {count : Int} {form : Int → Int} {category : Int → Category}
    (h : Agree limit count form category) {m n : Nat} (hm : m < limit) (hn : n < limit) :
    (form m = form n ↔ category m = category n) ∧
    (form m < form n ↔ order.idxOf (category m) < order.idxOf (category n)) := by
  obtain ⟨cats, hc⟩ := h
  obtain ⟨i, hi, hci⟩ := hc.forms m hm
  obtain ⟨j, hj, hcj⟩ := hc.forms n hn
  have hpw : cats.Pairwise (fun a b => order.idxOf a < order.idxOf b) :=
    List.Pairwise.sublist hc.sorted (by decide)
  obtain ⟨hil, hie⟩ := List.getElem?_eq_some_iff.mp hci
  obtain ⟨hjl, hje⟩ := List.getElem?_eq_some_iff.mp hcj
  have hlt : ∀ {a b : Nat} (ha : a < cats.length) (hb : b < cats.length), a < b →
      order.idxOf cats[a] < order.idxOf cats[b] := fun ha hb hab =>
    List.pairwise_iff_getElem.mp hpw _ _ ha hb hab
  rw [hi, hj, ← hie, ← hje]
  rcases Nat.lt_trichotomy i j with hij | hij | hij
  · have := hlt hil hjl hij
    refine ⟨⟨fun h => by omega, fun h => ?_⟩, ⟨fun _ => this, fun _ => by omega⟩⟩
    rw [h] at this; omega
  · subst hij
    exact ⟨⟨fun _ => rfl, fun _ => rfl⟩, ⟨fun h => by omega, fun h => by omega⟩⟩
  · have := hlt hjl hil hij
    refine ⟨⟨fun h => by omega, fun h => ?_⟩, ⟨fun h => by omega, fun h => by omega⟩⟩
    rw [h] at this; omega

/-- Every language with a gettext rule has CLDR rules, and they agree: also the names with a script or
a region and the names with an underscore. -/
theorem C122_every_language {lang : String} {r : Rule}
    (h : Model.PoPlural.getBuiltInForLanguage lang = some r) (parents : List (String × Option String)) :
    ∃ rs, Model.Cldr.forLanguage ((dashed lang, some (base (dashed lang))) :: parents) = (some rs, true) ∧
      Agree (2 ^ 53) r.nPlurals r.form (fun n => rs.form (newOperandsInt n)) := by
  have hk := names_ok lang (mem_names h)
  unfold nameOk at hk
  simp only [Bool.and_eq_true] at hk
  have h1 := hk.1.1
  unfold Model.Cldr.forLanguage
  split at h1
  · obtain ⟨r', rs, hr, hrs, hf⟩ := fits_of_ok h1
    rw [h] at hr; cases hr
    exact ⟨rs, by rw [hrs], hf⟩
  · rename_i hp
    obtain ⟨r', rs, hr, hrs, hf⟩ := fits_of_ok h1
    rw [h] at hr; cases hr
    have hnone : Model.Cldr.getBuiltInForLanguage (dashed lang) = none := by
      unfold Model.Cldr.getBuiltInForLanguage
      rw [find_place, hp]; rfl
    exact ⟨rs, by rw [hnone]; simp [hrs], hf⟩

/-- The name of a language may be written with an underscore. -/
theorem C122_underscore {lang : String} {r : Rule}
    (h : Model.PoPlural.getBuiltInForLanguage lang = some r) :
    Model.PoPlural.getBuiltInForLanguage (dashed lang) = some r := by
  have hk := names_ok lang (mem_names h)
  unfold nameOk at hk
  simp only [Bool.and_eq_true] at hk
  have h3 := eq_of_beq hk.2
  rw [← h]
  unfold Model.PoPlural.getBuiltInForLanguage
  rw [find_place, find_place, h3]

/-- The names that only the CLDR table has: the old codes of Javanese and Moldavian and the root. -/
theorem C122_only_cldr {lang : String} {rs : RuleSet}
    (hs : Model.Cldr.getBuiltInForLanguage lang = some rs) :
    Model.PoPlural.getBuiltInForLanguage lang = none ↔ lang = "jw" ∨ lang = "mo" ∨ lang = "und" := by
  constructor
  · intro h
    rcases cldr_names lang (mem_names hs) with hk | hk | hk | hk
    · exact .inl hk
    · exact .inr (.inl hk)
    · exact .inr (.inr hk)
    · obtain ⟨_, _, hr, _⟩ := fits_of_ok hk
      rw [h] at hr; cases hr
  · have hd : ∀ k ∈ ["jw", "mo", "und"], (Model.PoPlural.getBuiltInForLanguage k).isNone = true := by
      decide +kernel
    intro h
    exact Option.isNone_iff_eq_none.mp (hd lang (by simpa using h))

/-- What a step of the search for the rules of a tag sees: the tag has no underscore, it starts with
its base language, or the base language is guessed because the tag does not name one; the base
language is a bare name.  The three names that only the CLDR knows do not occur. -/
structure Seen (p : String × Option String) : Prop where
  plain : '_' ∉ p.1.toList
  known : p.1 ≠ "jw" ∧ p.1 ≠ "mo" ∧ p.1 ≠ "und"
  starts : p.2 = some (base p.1) ∨ base p.1 = "und"
  bare : ∀ b, p.2 = some b → base b = b ∧ '_' ∉ b.toList ∧ b ≠ "jw" ∧ b ≠ "mo" ∧ b ≠ "und"

theorem und_unknown : ∀ k ∈ names Model.PoPlural.langTable ++ names Model.Cldr.langTable,
    base k = "und" → k = "und" := by decide +kernel

theorem none_of_not_mem {α : Type} {table : List (List String × α)} {lang : String}
    (h : lang ∉ names table) : (table.find? (fun p => p.1.contains lang)).map (·.2) = none := by
  cases hf : (table.find? (fun p => p.1.contains lang)).map (·.2) with
  | none => rfl
  | some x => exact absurd (mem_names hf) h

theorem bare_both {b : String} (h : base b = b ∧ '_' ∉ b.toList ∧ b ≠ "jw" ∧ b ≠ "mo" ∧ b ≠ "und") :
    (Model.PoPlural.getBuiltInForLanguage b = none ∧ Model.Cldr.getBuiltInForLanguage b = none) ∨
    ∃ r rs, Model.PoPlural.getBuiltInForLanguage b = some r ∧
      Model.Cldr.getBuiltInForLanguage b = some rs ∧ Fits r rs := by
  obtain ⟨hb, hu, h1, h2, h3⟩ := h
  cases hr : Model.PoPlural.getBuiltInForLanguage b with
  | none =>
    cases hs : Model.Cldr.getBuiltInForLanguage b with
    | none => exact .inl ⟨rfl, rfl⟩
    | some rs =>
      rcases (C122_only_cldr hs).mp hr with h | h | h
      · exact absurd h h1
      · exact absurd h h2
      · exact absurd h h3
  | some r =>
    have hk := names_ok b (mem_names hr)
    unfold nameOk at hk
    simp only [Bool.and_eq_true] at hk
    have hk2 := hk.1.2
    split at hk2
    · obtain ⟨r', rs, hr', hrs, hf⟩ := fits_of_ok hk2
      rw [hr] at hr'; cases hr'
      exact .inr ⟨r, rs, rfl, hrs, hf⟩
    · simp only [hb, bne_self_eq_false, Bool.false_or] at hk2
      exact absurd (List.elem_iff.mp hk2) hu

theorem dashed_plain {t : String} (h : '_' ∉ t.toList) : dashed t = t := by
  unfold dashed
  have : t.toList.map (fun c => if c = '_' then '-' else c) = t.toList := by
    rw [List.map_congr_left (g := id)]
    · simp
    · intro c hc
      simp only [id_eq, ite_eq_right_iff]
      rintro rfl
      exact absurd hc h
  rw [this, String.ofList_toList]

/-- Choosing the rules of a tag in the two packages: both know the language or neither does, and the
rules agree. -/
theorem C122_for_language (chain : List (String × Option String)) (h : ∀ p ∈ chain, Seen p) :
    ∃ r rs, (pluralRuleForLanguage chain).1 = some r ∧ (Model.Cldr.forLanguage chain).1 = some rs ∧
      (pluralRuleForLanguage chain).2 = (Model.Cldr.forLanguage chain).2 ∧
      Agree (2 ^ 53) r.nPlurals r.form (fun n => rs.form (newOperandsInt n)) := by
  induction chain with
  | nil =>
    obtain ⟨r, rs, hr, hrs, hf⟩ := fits_of_ok (a := "en") (b := "en") (by decide +kernel)
    exact ⟨r, rs, hr, hrs, rfl, hf⟩
  | cons p ps ih =>
    obtain ⟨t, b⟩ := p
    have hp := h _ List.mem_cons_self
    obtain ⟨r0, rs0, hr0, hrs0, hfl, hf0⟩ := ih (fun q hq => h q (List.mem_cons_of_mem _ hq))
    cases hr : Model.PoPlural.getBuiltInForLanguage t with
    | some r =>
      have hu : base t ≠ "und" := fun hb =>
        absurd (und_unknown t (List.mem_append.mpr (.inl (mem_names hr))) hb) hp.known.2.2
      have hb : b = some (base t) := hp.starts.resolve_right hu
      obtain ⟨rs, hrs, hf⟩ := C122_every_language hr ps
      rw [dashed_plain hp.plain] at hrs
      subst hb
      refine ⟨r, rs, ?_, by rw [hrs], ?_, hf⟩
      · simp [pluralRuleForLanguage, hr]
      · simp [pluralRuleForLanguage, hr, hrs]
    | none =>
      have hs : Model.Cldr.getBuiltInForLanguage t = none := by
        cases hs : Model.Cldr.getBuiltInForLanguage t with
        | none => rfl
        | some rs =>
          rcases (C122_only_cldr hs).mp hr with h | h | h
          · exact absurd h hp.known.1
          · exact absurd h hp.known.2.1
          · exact absurd h hp.known.2.2
      cases b with
      | none =>
        simp only [pluralRuleForLanguage, Model.Cldr.forLanguage, hr, hs, Option.bind_none]
        exact ⟨r0, rs0, hr0, hrs0, hfl, hf0⟩
      | some b =>
        rcases bare_both (hp.bare b rfl) with ⟨hbr, hbs⟩ | ⟨r, rs, hbr, hbs, hf⟩
        · simp only [pluralRuleForLanguage, Model.Cldr.forLanguage, hr, hs, Option.bind_some, hbr, hbs]
          exact ⟨r0, rs0, hr0, hrs0, hfl, hf0⟩
        · refine ⟨r, rs, ?_, ?_, ?_, hf⟩ <;>
            simp [pluralRuleForLanguage, Model.Cldr.forLanguage, hr, hs, hbr, hbs]

example : ∀ p ∈ [("de-AT", some "de"), ("de", some "de")], Seen p := by
  intro p hp
  simp only [List.mem_cons, List.not_mem_nil, or_false] at hp
  rcases hp with rfl | rfl
  · refine ⟨by decide +kernel, by decide +kernel, .inl (by decide +kernel), ?_⟩
    intro b hb; cases hb; decide +kernel
  · refine ⟨by decide +kernel, by decide +kernel, .inl (by decide +kernel), ?_⟩
    intro b hb; cases hb; decide +kernel

example : (∃ r, Model.PoPlural.getBuiltInForLanguage "ar_001" = some r) ∧
    (∃ rs, Model.Cldr.getBuiltInForLanguage "lt" = some rs) ∧
    (∃ r, Model.PoPlural.getBuiltInForLanguage "lt" = some r) :=
  ⟨Option.isSome_iff_exists.mp (by decide +kernel), Option.isSome_iff_exists.mp (by decide +kernel),
   Option.isSome_iff_exists.mp (by decide +kernel)⟩

/-- Above 2^53 they do not agree: in Latvian 2^53 and 2^53 + 7 have the same gettext form, but the
CLDR rules see 2^53 + 8 instead of 2^53 + 7, because they compute with a float64. -/
theorem C122_large_negation :
    ¬ ∀ lang r rs, Model.PoPlural.getBuiltInForLanguage lang = some r →
      Model.Cldr.getBuiltInForLanguage lang = some rs →
      Agree (2 ^ 63) r.nPlurals r.form (fun n => rs.form (newOperandsInt n)) := by
  intro h
  have hx := h "lv" Model.PoPlural.rule_lv Model.Cldr.rs_lv rfl rfl
  have h2 := (C122_same_form_iff hx (m := 2 ^ 53) (n := 2 ^ 53 + 7) (by decide) (by decide)).1
  have h3 := h2.mp (by decide +kernel)
  revert h3
  decide +kernel

/-- The form number is not always the position among all categories of the language, which is what the
option to use the CLDR rules for PO files takes: in Czech and Lithuanian a category that only fractions
have stands before the category of the largest form. -/
theorem C122_position_negation :
    ¬ ∀ lang r rs, Model.PoPlural.getBuiltInForLanguage lang = some r →
      Model.Cldr.getBuiltInForLanguage lang = some rs → ∀ n : Nat, n < 2 ^ 53 →
      r.form n = rs.categories.idxOf (rs.form (newOperandsInt n)) := by
  intro h
  have hx := h "cs" Model.PoPlural.rule_cs Model.Cldr.rs_cs rfl rfl 5 (by decide)
  revert hx
  decide +kernel

end Verif.Props.SharedPlurals
