import Verif.Proofs.Catalog.Json
import Verif.Props.Cldr
import Verif.Props.Gettext
/-!
# C19, C22, C24-C26, C63-C66: JSON catalogs

`names` is the order in which the map `CategoryNames` is visited; theorems hold for every such order.
-/
namespace Verif.Props.Json
open Verif.Go Verif.Model.Po Verif.Model.Catalog Verif.Proofs.Catalog Verif.Cldr
open Verif.Model.Cldr (RuleSet forLanguage newOperandsInt)
open Verif.Props.PoFile (asciiLower)

/-- The key under which an id with a context is stored. -/
def fullKey (ctx id : Bytes) : Bytes := if ctx = [] then id else id ++ b!"_" ++ ctx

/-- A catalog for the examples. -/
def demo : JsonCatalog where
  language := [("de", some "de")]
  domain := b!"app"
  categories := [1, 5]
  plural := fun n => n.rounded.map fun k => if k = 1 then 1 else 5
  lookupMap := [([], [(b!"day", ⟨[], [], some [(1, b!"Tag"), (5, b!"Tage")]⟩), (b!"void", ⟨[], [], some [(5, [])]⟩)]),
    (b!"menu", [(b!"open_menu", ⟨[], b!"menu", some [(5, b!"Auf")]⟩)])]

/-! ## C19 -/

/-- The text stored for context, id and category. -/
def stored (c : JsonCatalog) (ctx id : Bytes) (cat : Int) (text : Bytes) : Prop :=
  ∃ inner msg, c.lookupMap.get? ctx = some inner ∧ inner.get? (fullKey ctx id) = some msg ∧ msg.tr.get? cat = some text

/-- What a lookup of category `cat` may answer. -/
def GoodAnswer (c : JsonCatalog) (ctx id : Bytes) (cat : Int) (r : Bytes × Option LookupErr) : Prop :=
  match r.2 with
  | none => r.1 ≠ [] ∧ stored c ctx id cat r.1
  | some e => r.1 = id ∧
    (e = .missingContext c.domain ctx ∧ c.lookupMap.get? ctx = none ∨
     e = .missingMessageID c.domain ctx (fullKey ctx id) ∧
       (∃ inner, c.lookupMap.get? ctx = some inner ∧ inner.get? (fullKey ctx id) = none) ∨
     e = .missingTranslation c.domain ctx (fullKey ctx id) cat ∧
       (∃ inner msg, c.lookupMap.get? ctx = some inner ∧ inner.get? (fullKey ctx id) = some msg ∧
         (msg.tr.get? cat = none ∨ msg.tr.get? cat = some [])))

theorem fullKey_eq (ctx id : Bytes) : (if ctx ≠ [] then id ++ b!"_" ++ ctx else id) = fullKey ctx id := by
  unfold fullKey
  by_cases h : ctx = []
  · rw [if_neg (fun e => e h), if_pos h]
  · rw [if_pos h, if_neg h]

theorem answer_of_getTranslation (c : JsonCatalog) (ctx id : Bytes) (cat : Int) :
    GoodAnswer c ctx id cat (match c.getTranslation ctx id cat with
      | .error e => (id, some e)
      | .ok t => (t, none)) := by
  unfold JsonCatalog.getTranslation
  simp only [fullKey_eq]
  cases h1 : c.lookupMap.get? ctx with
  | none => exact ⟨rfl, Or.inl ⟨rfl, h1⟩⟩
  | some inner =>
    simp only []
    cases h2 : inner.get? (fullKey ctx id) with
    | none => exact ⟨rfl, Or.inr (Or.inl ⟨rfl, inner, h1, h2⟩)⟩
    | some msg =>
      simp only []
      cases h3 : msg.tr.get? cat with
      | none => exact ⟨rfl, Or.inr (Or.inr ⟨rfl, inner, msg, h1, h2, Or.inl h3⟩)⟩
      | some tr =>
        by_cases ht : tr = []
        · simp only [if_pos ht]
          exact ⟨rfl, Or.inr (Or.inr ⟨rfl, inner, msg, h1, h2, Or.inr (ht ▸ h3)⟩)⟩
        · simp only [if_neg ht]
          exact ⟨ht, inner, msg, h1, h2, h3⟩

/-- `Lookup` of a JSON catalog: a non-empty stored text for the form Other, or the id and the right error. -/
theorem C19_json_lookup (c : JsonCatalog) (ctx id : Bytes) : GoodAnswer c ctx id other (c.lookup ctx id) :=
  answer_of_getTranslation c ctx id other

example : demo.lookup b!"menu" b!"open" = (b!"Auf", none) ∧
    demo.lookup [] b!"void" = (b!"void", some (.missingTranslation b!"app" [] b!"void" 5)) ∧
    demo.lookup b!"menu" b!"x" = (b!"x", some (.missingMessageID b!"app" b!"menu" b!"x_menu")) := by decide

/-- `LookupPlural` of a JSON catalog: the same for the category of the number; a number that has none gives an
error. -/
theorem C19_json_lookup_plural (c : JsonCatalog) (ctx id : Bytes) (n : Num) :
    match c.plural n with
    | none => c.lookupPlural ctx id n = (id, some .plural)
    | some cat => GoodAnswer c ctx id cat (c.lookupPlural ctx id n) := by
  unfold JsonCatalog.lookupPlural
  cases c.plural n with
  | none => rfl
  | some cat => exact answer_of_getTranslation c ctx id cat

/-- Every stored non-empty text is found. -/
theorem C19_json_complete (c : JsonCatalog) (ctx id : Bytes) (cat : Int) (t : Bytes) (ht : t ≠ [])
    (h : stored c ctx id cat t) :
    (cat = other → c.lookup ctx id = (t, none)) ∧
    (∀ n, c.plural n = some cat → c.lookupPlural ctx id n = (t, none)) := by
  obtain ⟨inner, msg, h1, h2, h3⟩ := h
  have hg : c.getTranslation ctx id cat = .ok t := by
    unfold JsonCatalog.getTranslation
    simp only [fullKey_eq, h1, h2, h3, if_neg ht]
  constructor
  · rintro rfl
    unfold JsonCatalog.lookup; rw [hg]
  · intro n hn
    unfold JsonCatalog.lookupPlural; rw [hn]; simp only [hg]

example : stored demo [] b!"day" 1 b!"Tag" ∧ demo.plural ⟨some (newOperandsInt 1), some 1⟩ = some 1 :=
  ⟨⟨_, _, rfl, rfl, rfl⟩, rfl⟩

/-! ## C22 -/

/-- The domain an error names. -/
def errDomain : LookupErr → Option Bytes
  | .missingContext d _ => some d
  | .missingMessageID d _ _ => some d
  | .missingTranslation d _ _ _ => some d
  | .plural => none

theorem setAll_meta (names : List Int) : ∀ (msgs : GoMap Bytes (Option JsonMessage)) (c c' : JsonCatalog),
    c.setAll names msgs = .ok c' →
    c'.language = c.language ∧ c'.domain = c.domain ∧ c'.categories = c.categories ∧ c'.plural = c.plural
  | [], c, c', h => by cases h; exact ⟨rfl, rfl, rfl, rfl⟩
  | (k, s) :: rest, c, c', h => by
    rw [JsonCatalog.setAll, setMessage_eq] at h
    cases hp : prepare names c.categories k s with
    | error e => rw [hp] at h; cases h
    | ok m =>
      rw [hp] at h
      simp only at h
      exact setAll_meta names rest { c with lookupMap := insertMsg c.lookupMap k m } c' h

theorem new_meta (lang : Tag) (domain : Bytes) :
    (JsonCatalog.new lang domain).language = lang ∧ (JsonCatalog.new lang domain).domain = domain := by
  unfold JsonCatalog.new
  cases (forLanguage lang).1 <;> exact ⟨rfl, rfl⟩

theorem decode_setAll {names : List Int} {lower : Char → Char} {order : GoMap Bytes Bytes → GoMap Bytes Bytes}
    {fileOrder : GoMap Bytes (Option JsonMessage) → GoMap Bytes (Option JsonMessage)} {lang : Tag} {domain : Bytes}
    {data : Json} {c : JsonCatalog} (h : jsonDecode names lower order fileOrder lang domain data = .ok (some c)) :
    ∃ fields file, data = .obj fields ∧ decodeFile lower order [] fields = some file ∧ file ≠ [] ∧
      (JsonCatalog.new lang domain).setAll names (fileOrder file) = .ok c := by
  unfold jsonDecode at h
  cases data with
  | null => cases h
  | str s => cases h
  | other => cases h
  | obj fields =>
    simp only [JsonCatalog.unmarshal] at h
    cases hd : decodeFile lower order [] fields with
    | none => rw [hd] at h; cases h
    | some file =>
      rw [hd] at h
      cases file with
      | nil => cases h
      | cons p file =>
        refine ⟨fields, p :: file, rfl, hd, by simp, ?_⟩
        simp only at h
        cases hs : (JsonCatalog.new lang domain).setAll names (fileOrder (p :: file)) with
        | error e => rw [hs] at h; cases h
        | ok c' => rw [hs] at h; cases h; rfl

/-- A decoded JSON catalog has the language and domain it was decoded for, and every lookup error that has a
domain names it. -/
theorem C22_json_domain_partial {names : List Int} {lower : Char → Char}
    {order : GoMap Bytes Bytes → GoMap Bytes Bytes}
    {fileOrder : GoMap Bytes (Option JsonMessage) → GoMap Bytes (Option JsonMessage)} {lang : Tag} {domain : Bytes}
    {data : Json} {c : JsonCatalog} (h : jsonDecode names lower order fileOrder lang domain data = .ok (some c)) :
    c.language = lang ∧ c.domain = domain ∧
    (∀ ctx id e, (c.lookup ctx id).2 = some e → errDomain e = some domain) ∧
    (∀ ctx id n e, (c.lookupPlural ctx id n).2 = some e → e = .plural ∨ errDomain e = some domain) := by
  obtain ⟨fields, file, _, _, _, hs⟩ := decode_setAll h
  obtain ⟨h1, h2, _, _⟩ := setAll_meta _ _ _ _ hs
  have hd : c.domain = domain := h2.trans (new_meta _ _).2
  have key : ∀ ctx id cat r e, GoodAnswer c ctx id cat r → r.2 = some e → errDomain e = some domain := by
    intro ctx id cat r e hg he
    unfold GoodAnswer at hg
    rw [he] at hg
    rcases hg.2 with h | h | h <;> (rw [h.1, errDomain, hd])
  refine ⟨h1.trans (new_meta _ _).1, hd, fun ctx id e he => key _ _ _ _ _ (C19_json_lookup c ctx id) he, ?_⟩
  intro ctx id n e he
  have := C19_json_lookup_plural c ctx id n
  cases hp : c.plural n with
  | none => rw [hp] at this; rw [this] at he; cases he; exact Or.inl rfl
  | some cat => rw [hp] at this; exact Or.inr (key _ _ _ _ _ this he)

example : ∃ c, jsonDecode categoryNames asciiLower id id [("de", some "de")] b!"app"
    (.obj [(b!"day", .obj [(b!"One", .str b!"Tag"), (b!"other", .str b!"Tage")])]) = .ok (some c) ∧
    c.domain = b!"app" :=
  ⟨_, rfl, rfl⟩

/-! ## C24 -/

/-- A stored message as it should be: it has the form Other, and unless that is its only form, the named
categories it has are exactly those of the language. -/
def Normal (cats : List Int) (m : JsonMessage) : Prop :=
  (m.tr.get? other).isSome ∧ (m.tr.length = 1 ∨ ∀ k ∈ categoryNames, (m.tr.get? k).isSome ↔ k ∈ cats)

/-- The categories of a new catalog are the named categories of its language, Other among them. -/
theorem new_categories (lang : Tag) (domain : Bytes) :
    other ∈ (JsonCatalog.new lang domain).categories ∧ ∀ k ∈ (JsonCatalog.new lang domain).categories, k ∈ categoryNames := by
  obtain ⟨rs, hrs, _, _, hl⟩ := Verif.Props.Cldr.C33_category_listed lang
  unfold JsonCatalog.new
  rw [hrs]
  constructor
  · exact List.mem_map.mpr ⟨.other, List.mem_of_getLast? hl, rfl⟩
  · intro k hk
    obtain ⟨c, _, rfl⟩ := List.mem_map.mp hk
    cases c <;> decide

theorem prepare_ok {names cats : List Int} {key : Bytes} {src : Option JsonMessage} {m : JsonMessage}
    (h : prepare names cats key src = .ok m) : ∃ s, src = some s ∧ key ≠ [] ∧ (s.tr.get? other).isSome ∧
      m.comment = s.comment ∧ m.context = s.context ∧ m.tr = applyCategories names cats s.tr := by
  unfold prepare at h
  by_cases hk : key = []
  · rw [if_pos hk] at h; cases h
  rw [if_neg hk] at h
  cases src with
  | none => cases h
  | some s =>
    simp only [] at h
    by_cases h1 : s.context ≠ [] ∧ hasSuffix key (b!"_" ++ s.context) = false
    · rw [if_pos h1] at h; cases h
    · rw [if_neg h1] at h
      by_cases h2 : (s.tr.get? other).isNone = true
      · rw [if_pos h2] at h; cases h
      · rw [if_neg h2] at h
        cases h
        refine ⟨s, rfl, hk, ?_, rfl, rfl, rfl⟩
        cases hg : s.tr.get? other with
        | none => rw [hg] at h2; exact absurd rfl h2
        | some v => rfl

/-- Normalising for a language that has the form Other. -/
theorem normal_apply {names cats : List Int} (hn : ∀ k, k ∈ names ↔ k ∈ categoryNames) (ho : other ∈ cats)
    {m s : JsonMessage} (hs : (s.tr.get? other).isSome) (hm : m.tr = applyCategories names cats s.tr) : Normal cats m := by
  unfold Normal
  rw [hm]
  by_cases h : Single s.tr
  · have e : applyCategories names cats s.tr = s.tr := if_pos h
    rw [e]; exact ⟨hs, Or.inl h.1⟩
  · constructor
    · rw [applyCategories_get?, if_neg h, if_pos ((hn _).mpr (by decide)), if_pos ho]; rfl
    · refine Or.inr fun k hk => ?_
      rw [applyCategories_get?, if_neg h, if_pos ((hn _).mpr hk)]
      split <;> simp [*]

/-- Every message stored in a catalog. -/
def AllStored (c : JsonCatalog) (P : JsonMessage → Prop) : Prop := ∀ ctx key m, entry c.lookupMap ctx key = some m → P m

theorem setAll_all (names : List Int) (P : JsonMessage → Prop) : ∀ (msgs : GoMap Bytes (Option JsonMessage))
    (c c' : JsonCatalog), (∀ key src m, (key, src) ∈ msgs → prepare names c.categories key src = .ok m → P m) →
    AllStored c P → c.setAll names msgs = .ok c' → AllStored c' P
  | [], c, c', _, h0, h => by cases h; exact h0
  | (k, s) :: rest, c, c', hp, h0, h => by
    rw [JsonCatalog.setAll, setMessage_eq] at h
    cases hm : prepare names c.categories k s with
    | error e => rw [hm] at h; cases h
    | ok m =>
      rw [hm] at h
      simp only at h
      refine setAll_all names P rest { c with lookupMap := insertMsg c.lookupMap k m } c' (fun key src m hmem => hp key src m (List.mem_cons_of_mem _ hmem)) ?_ h
      intro ctx key x hx
      simp only [entry_insert] at hx
      split at hx
      · cases hx; exact hp _ _ _ List.mem_cons_self hm
      · exact h0 ctx key x hx

theorem new_all (lang : Tag) (domain : Bytes) (P : JsonMessage → Prop) : AllStored (JsonCatalog.new lang domain) P := by
  intro ctx key m h
  unfold JsonCatalog.new at h
  cases hf : (forLanguage lang).1 <;> rw [hf] at h <;> cases h

/-- Every message stored in a built catalog is normal, and normalising it again changes nothing.  Missing for
the full property: the text of Other may be empty, and keys that are no category stay (`C24_negation`). -/
theorem C24_built_partial {names : List Int} (hn : names.Perm categoryNames) {lang : Tag} {domain : Bytes}
    {msgs : GoMap Bytes (Option JsonMessage)} {c : JsonCatalog}
    (h : newJSONCatalogWithMessages names lang domain msgs = .ok c) :
    AllStored c fun m => Normal c.categories m ∧ applyCategories names c.categories m.tr = m.tr := by
  have hc := (setAll_meta _ _ _ _ h).2.2.1
  refine setAll_all names _ _ _ c ?_ (new_all _ _ _) h
  intro key src m _ hm
  obtain ⟨s, _, _, ho, _, _, ht⟩ := prepare_ok hm
  rw [hc]
  exact ⟨normal_apply (fun k => hn.mem_iff) (new_categories lang domain).1 ho ht, by rw [ht, applyCategories_idem]⟩

theorem assignAll_named (lower : Char → Char) : ∀ (l : GoMap Bytes Bytes) (m : JsonMessage),
    (∀ k, (m.tr.get? k).isSome → k ∈ categoryNames) → ∀ k, ((m.assignAll lower l).tr.get? k).isSome → k ∈ categoryNames
  | [], _, h => h
  | (x, v) :: rest, m, h => by
    refine assignAll_named lower rest (m.assign (toLower lower x) v) ?_
    have hr := assign_reads m (toLower lower x) v
    intro k hk
    by_cases hm : k ∈ categoryNames
    · exact hm
    · rw [hr.unnamed k hm] at hk; exact h k hk

theorem unmarshal_named {lower : Char → Char} {order : GoMap Bytes Bytes → GoMap Bytes Bytes} {j : Json}
    {m : JsonMessage} (h : JsonMessage.zero.unmarshal lower order j = some m) :
    ∀ k, (m.tr.get? k).isSome → k ∈ categoryNames := by
  have one : ∀ (s : Bytes) k, (GoMap.get? [(other, s)] k).isSome → k ∈ categoryNames := by
    intro s k hk
    simp only [GoMap.get?] at hk
    by_cases e : other = k
    · subst e; decide
    · rw [if_neg e] at hk; cases hk
  unfold JsonMessage.unmarshal at h
  cases j with
  | null => cases h; exact one []
  | str s => cases h; exact one s
  | other => cases h
  | obj fields =>
    simp only [] at h
    cases hd : decodeStrings [] fields with
    | none => rw [hd] at h; cases h
    | some mm =>
      rw [hd] at h
      cases h
      exact assignAll_named lower _ _ (fun k hk => by cases hk)

theorem decodeFile_named {lower : Char → Char} {order : GoMap Bytes Bytes → GoMap Bytes Bytes} :
    ∀ {fields : List (Bytes × Json)} {acc file : GoMap Bytes (Option JsonMessage)},
    (∀ key s, (key, some s) ∈ acc → ∀ k, (s.tr.get? k).isSome → k ∈ categoryNames) →
    decodeFile lower order acc fields = some file →
    ∀ key s, (key, some s) ∈ file → ∀ k, (s.tr.get? k).isSome → k ∈ categoryNames
  | [], acc, file, ha, h => by cases h; exact ha
  | (k0, j) :: rest, acc, file, ha, h => by
    unfold decodeFile at h
    cases hd : decodeEntry lower order j with
    | none => rw [hd] at h; cases h
    | some msg =>
      rw [hd] at h
      refine decodeFile_named ?_ h
      have mem_set : ∀ (a : GoMap Bytes (Option JsonMessage)) (p : Bytes × Option JsonMessage),
          p ∈ a.set k0 msg → p ∈ a ∨ p = (k0, msg) := by
        intro a
        induction a with
        | nil => intro p hp; right; simpa [GoMap.set] using hp
        | cons q a ih =>
          obtain ⟨x, y⟩ := q
          intro p hp
          simp only [GoMap.set] at hp
          split at hp
          · rename_i e
            rcases List.mem_cons.mp hp with h | h
            · right; exact h
            · left; exact List.mem_cons_of_mem _ h
          · rcases List.mem_cons.mp hp with h | h
            · left; rw [h]; exact List.mem_cons_self
            · rcases ih p h with h | h
              · left; exact List.mem_cons_of_mem _ h
              · right; exact h
      intro key s hs
      rcases mem_set acc (key, some s) hs with hs | hs
      · exact ha key s hs
      · cases hs
        have : ∃ j', j' = j ∧ JsonMessage.zero.unmarshal lower order j' = some s := by
          unfold decodeEntry at hd
          cases j with
          | null => cases hd
          | str t =>
            simp only [Option.map] at hd
            split at hd
            · cases hd; exact ⟨_, rfl, by assumption⟩
            · cases hd
          | other => cases hd
          | obj f =>
            simp only [Option.map] at hd
            split at hd
            · cases hd; exact ⟨_, rfl, by assumption⟩
            · cases hd
        obtain ⟨_, rfl, hj⟩ := this
        exact unmarshal_named hj

/-- In a catalog decoded from JSON text every message has the form Other, and unless it is the only form, the
message has a text for a category exactly if it is a category of the language. -/
theorem C24_decoded_partial {names : List Int} (hn : names.Perm categoryNames) {lower : Char → Char}
    {order : GoMap Bytes Bytes → GoMap Bytes Bytes}
    {fileOrder : GoMap Bytes (Option JsonMessage) → GoMap Bytes (Option JsonMessage)}
    (ho : ∀ m, (fileOrder m).Perm m) {lang : Tag} {domain : Bytes}
    {data : Json} {c : JsonCatalog} (h : jsonDecode names lower order fileOrder lang domain data = .ok (some c)) :
    AllStored c fun m => (m.tr.get? other).isSome ∧
      (m.tr.length = 1 ∨ ∀ k, (m.tr.get? k).isSome ↔ k ∈ c.categories) := by
  obtain ⟨fields, file, _, hd, _, hs⟩ := decode_setAll h
  have hc := (setAll_meta _ _ _ _ hs).2.2.1
  have hnm := decodeFile_named (acc := []) (by intro key s hm; cases hm) hd
  refine setAll_all names _ _ _ c ?_ (new_all _ _ _) hs
  intro key src m hmem hm
  obtain ⟨s, rfl, _, hs, _, _, ht⟩ := prepare_ok hm
  have hN := normal_apply (fun k => hn.mem_iff) (new_categories lang domain).1 hs ht
  refine ⟨hN.1, hN.2.imp id fun hk k => ?_⟩
  rw [hc]
  by_cases hkn : k ∈ categoryNames
  · exact hk k hkn
  · constructor
    · intro hsome
      refine absurd (hnm key s ((ho _).mem_iff.mp hmem) k ?_) hkn
      rw [ht, applyCategories_get?] at hsome
      split at hsome
      · exact hsome
      · rw [if_neg (fun hh => hkn (hn.mem_iff.mp hh))] at hsome; exact hsome
    · intro hmem; exact absurd ((new_categories lang domain).2 k hmem) hkn

example : ∃ c m, jsonDecode [5, 3, 1, 0, 2, 4] asciiLower id id [("de", some "de")] b!"app"
    (.obj [(b!"day", .obj [(b!"few", .str b!"x"), (b!"other", .str b!"Tage")])]) = .ok (some c) ∧
    entry c.lookupMap [] b!"day" = some m ∧ c.categories = [1, 5] ∧ m.tr = [(5, b!"Tage"), (1, [])] :=
  ⟨_, _, rfl, rfl, rfl, rfl⟩

/-- The texts of the source message are kept for the categories of the language. -/
theorem C24_texts {names : List Int} {c c' : JsonCatalog} {key : Bytes} {s : JsonMessage}
    (h : c.setMessage names key (some s) = .ok c') :
    ∃ m, entry c'.lookupMap s.context key = some m ∧ m.comment = s.comment ∧ m.context = s.context ∧
      ∀ k ∈ c.categories, ∀ t, s.tr.get? k = some t → m.tr.get? k = some t := by
  rw [setMessage_eq] at h
  cases hm : prepare names c.categories key (some s) with
  | error e => rw [hm] at h; cases h
  | ok m =>
    rw [hm] at h
    cases h
    obtain ⟨s', he, _, _, h1, h2, ht⟩ := prepare_ok hm
    cases he
    refine ⟨m, by simp only [entry_insert, h2, and_self, if_true], h1, h2, fun k hk t hkt => ?_⟩
    rw [ht, applyCategories_get?]
    split
    · exact hkt
    · rw [hkt]
      split <;> rfl

example : ∃ c', demo.setMessage categoryNames b!"a" (some ⟨[], [], some [(1, b!"x"), (5, b!"y")]⟩) = .ok c' := ⟨_, rfl⟩

/-- The stronger claim is false: a message with an empty text for Other is accepted, and so is one with a text
for a number that is no category; it stays. -/
theorem C24_negation :
    (∃ c m, newJSONCatalogWithMessages categoryNames [("de", some "de")] b!"d" [(b!"k", some ⟨[], [], some [(5, [])]⟩)] = .ok c ∧
      entry c.lookupMap [] b!"k" = some m ∧ m.tr.get? other = some []) ∧
    (∃ c m, newJSONCatalogWithMessages categoryNames [("de", some "de")] b!"d"
        [(b!"k", some ⟨[], [], some [(5, b!"x"), (9, b!"y")]⟩)] = .ok c ∧
      entry c.lookupMap [] b!"k" = some m ∧ m.tr.get? 9 = some b!"y" ∧ (9 : Int) ∉ c.categories) :=
  ⟨⟨_, _, rfl, rfl, rfl⟩, ⟨_, _, rfl, rfl, by decide, by decide⟩⟩

/-! ## C25 -/

theorem prepare_same {names names' : List Int} (hn : names.Perm names') (cats : List Int) (key : Bytes)
    (src : Option JsonMessage) :
    match prepare names cats key src, prepare names' cats key src with
    | .ok m, .ok m' => m.context = m'.context ∧ m.comment = m'.comment ∧ m.tr.Same m'.tr
    | .error e, .error e' => e = e'
    | _, _ => False := by
  unfold prepare
  by_cases hk : key = []
  · rw [if_pos hk, if_pos hk]
  rw [if_neg hk, if_neg hk]
  cases src with
  | none => rfl
  | some s =>
    simp only []
    by_cases h1 : s.context ≠ [] ∧ hasSuffix key (b!"_" ++ s.context) = false
    · rw [if_pos h1, if_pos h1]
    · rw [if_neg h1, if_neg h1]
      by_cases h2 : (s.tr.get? other).isNone = true
      · rw [if_pos h2, if_pos h2]
      · rw [if_neg h2, if_neg h2]
        refine ⟨rfl, rfl, fun k => ?_⟩
        show (applyCategories names cats s.tr).get? k = (applyCategories names' cats s.tr).get? k
        rw [applyCategories_get?, applyCategories_get?]
        split
        · rfl
        · by_cases hm : k ∈ names
          · rw [if_pos hm, if_pos (hn.mem_iff.mp hm)]
          · rw [if_neg hm, if_neg (fun h => hm (hn.mem_iff.mpr h))]

/-- Two catalogs that answer every lookup alike. -/
def Alike (c d : JsonCatalog) : Prop :=
  (∀ ctx id, c.lookup ctx id = d.lookup ctx id) ∧ ∀ ctx id n, c.lookupPlural ctx id n = d.lookupPlural ctx id n

theorem alike_of {c d : JsonCatalog} (hd : c.domain = d.domain) (hp : c.plural = d.plural)
    (hctx : ∀ ctx, (c.lookupMap.get? ctx).isSome ↔ (d.lookupMap.get? ctx).isSome)
    (he : ∀ ctx k, match entry c.lookupMap ctx k, entry d.lookupMap ctx k with
      | some m, some m' => m.tr.Same m'.tr
      | none, none => True
      | _, _ => False) : Alike c d := by
  have key : ∀ ctx id cat, c.getTranslation ctx id cat = d.getTranslation ctx id cat := by
    intro ctx id cat
    unfold JsonCatalog.getTranslation
    simp only [fullKey_eq]
    have h1 := hctx ctx
    have h2 := he ctx (fullKey ctx id)
    unfold entry at h2
    cases hc : c.lookupMap.get? ctx with
    | none =>
      cases hdd : d.lookupMap.get? ctx with
      | none => simp only [hd]
      | some x => rw [hc, hdd] at h1; simp at h1
    | some x =>
      cases hdd : d.lookupMap.get? ctx with
      | none => rw [hc, hdd] at h1; simp at h1
      | some y =>
        rw [hc, hdd] at h2
        simp only at h2 ⊢
        cases hx : x.get? (fullKey ctx id) with
        | none =>
          cases hy : y.get? (fullKey ctx id) with
          | none => simp only [hd]
          | some m' => rw [hx, hy] at h2; exact h2.elim
        | some m =>
          cases hy : y.get? (fullKey ctx id) with
          | none => rw [hx, hy] at h2; exact h2.elim
          | some m' =>
            rw [hx, hy] at h2
            simp only at h2 ⊢
            rw [h2 cat, hd]
  constructor
  · intro ctx id; unfold JsonCatalog.lookup; rw [key]
  · intro ctx id n; unfold JsonCatalog.lookupPlural; rw [hp]; simp only [key]

theorem setAll_order {names names' : List Int} (hn : names.Perm names') {msgs msgs' : GoMap Bytes (Option JsonMessage)}
    (hw : msgs.WF) (hp : msgs.Perm msgs') (c : JsonCatalog) :
    match c.setAll names msgs, c.setAll names' msgs' with
    | .ok d, .ok d' => Alike d d'
    | .error _, .error _ => True
    | _, _ => False := by
  by_cases hbad : ∃ key src e, (key, src) ∈ msgs ∧ prepare names c.categories key src = .error e
  · obtain ⟨key, src, e, hm, he⟩ := hbad
    obtain ⟨e1, h1⟩ := setAll_error names msgs c hm he
    have hs := prepare_same hn c.categories key src
    rw [he] at hs
    cases he' : prepare names' c.categories key src with
    | ok m => rw [he'] at hs; exact hs.elim
    | error e' =>
      obtain ⟨e2, h2⟩ := setAll_error names' msgs' c (hp.mem_iff.mp hm) he'
      rw [h1, h2]; trivial
  · have hok : ∀ key src, (key, src) ∈ msgs → ∃ m, prepare names c.categories key src = .ok m := by
      intro key src hm
      cases he : prepare names c.categories key src with
      | ok m => exact ⟨m, rfl⟩
      | error e => exact absurd ⟨key, src, e, hm, he⟩ hbad
    have hok' : ∀ key src, (key, src) ∈ msgs' → ∃ m, prepare names' c.categories key src = .ok m := by
      intro key src hm
      obtain ⟨m, h⟩ := hok key src (hp.mem_iff.mpr hm)
      have hs := prepare_same hn c.categories key src
      rw [h] at hs
      cases he : prepare names' c.categories key src with
      | ok m' => exact ⟨m', rfl⟩
      | error e => rw [he] at hs; exact hs.elim
    obtain ⟨d, h1, _, h3, _, h5, h6, h7⟩ := setAll_spec names msgs c hw hok
    obtain ⟨d', g1, _, g3, _, g5, g6, g7⟩ := setAll_spec names' msgs' c (hw.perm hp) hok'
    rw [h1, g1]
    have hpre : ∀ k, match preparedFor names c.categories msgs k, preparedFor names' c.categories msgs' k with
        | some m, some m' => m.context = m'.context ∧ m.tr.Same m'.tr
        | none, none => True
        | _, _ => False := by
      intro k
      unfold preparedFor
      rw [← GoMap.same_of_perm hw hp k]
      cases hk : msgs.get? k with
      | none => trivial
      | some src =>
        have hs := prepare_same hn c.categories k src
        simp only []
        cases ha : prepare names c.categories k src <;> cases hb : prepare names' c.categories k src <;>
          rw [ha, hb] at hs
        · trivial
        · exact hs.elim
        · exact hs.elim
        · exact ⟨hs.1, hs.2.2⟩
    refine alike_of (h3.trans g3.symm) (h5.trans g5.symm) (fun ctx => ?_) (fun ctx k => ?_)
    · rw [h7, g7]
      refine or_congr Iff.rfl ⟨?_, ?_⟩
      · rintro ⟨k, m, hk, hm⟩
        have := hpre k
        rw [hk] at this
        cases hb : preparedFor names' c.categories msgs' k with
        | none => rw [hb] at this; exact this.elim
        | some m' => rw [hb] at this; exact ⟨k, m', hb, this.1.symm.trans hm⟩
      · rintro ⟨k, m, hk, hm⟩
        have := hpre k
        rw [hk] at this
        cases hb : preparedFor names c.categories msgs k with
        | none => rw [hb] at this; exact this.elim
        | some m' => rw [hb] at this; exact ⟨k, m', hb, this.1.trans hm⟩
    · rw [h6, g6]
      have := hpre k
      have hrefl : (match entry c.lookupMap ctx k, entry c.lookupMap ctx k with
          | some m, some m' => m.tr.Same m'.tr
          | none, none => True
          | _, _ => False) := by
        cases entry c.lookupMap ctx k with
        | none => trivial
        | some m => exact GoMap.Same.refl _
      cases ha : preparedFor names c.categories msgs k with
      | none =>
        cases hb : preparedFor names' c.categories msgs' k with
        | none => exact hrefl
        | some m' => rw [ha, hb] at this; exact this.elim
      | some m =>
        cases hb : preparedFor names' c.categories msgs' k with
        | none => rw [ha, hb] at this; exact this.elim
        | some m' =>
          rw [ha, hb] at this
          simp only []
          by_cases e : m.context = ctx
          · rw [if_pos e, if_pos (this.1.symm.trans e)]; exact this.2
          · rw [if_neg e, if_neg (fun h => e (this.1.trans h))]; exact hrefl

/-- Building from a Go map: in whatever order the message map and the category names are visited, building
fails for all orders or succeeds for all orders, and then all lookups agree.  (Go maps have distinct keys: `WF`.) -/
theorem C25_message_order {names names' : List Int} (hn : names.Perm names') {lang : Tag} {domain : Bytes}
    {msgs msgs' : GoMap Bytes (Option JsonMessage)} (hw : msgs.WF) (hp : msgs.Perm msgs') :
    match newJSONCatalogWithMessages names lang domain msgs, newJSONCatalogWithMessages names' lang domain msgs' with
    | .ok d, .ok d' => Alike d d'
    | .error _, .error _ => True
    | _, _ => False := setAll_order hn hw hp _

example : GoMap.WF [(b!"a", some (⟨[], [], some [(5, b!"x")]⟩ : JsonMessage)), (b!"b", none)] := by
  unfold GoMap.WF; decide

/-- Reading one JSON message: if the keys differ also in lower case, the order of the keys does not matter. -/
theorem C25_key_order_partial {lower : Char → Char} {l l' : GoMap Bytes Bytes} (hw : (lowered lower l).WF)
    (hp : l.Perm l') (m : JsonMessage) :
    (m.assignAll lower l).comment = (m.assignAll lower l').comment ∧
    (m.assignAll lower l).context = (m.assignAll lower l').context ∧
    (m.assignAll lower l).tr.Same (m.assignAll lower l').tr := by
  have h1 := assignAll_reads lower l m hw
  have h2 := assignAll_reads lower l' m (hw.perm (lowered_perm hp))
  have hs := GoMap.same_of_perm hw (lowered_perm (lower := lower) hp)
  refine ⟨?_, ?_, fun k => ?_⟩
  · rw [h1.comment, h2.comment]; unfold valueOr; rw [hs]
  · rw [h1.context, h2.context]; unfold valueOr; rw [hs]
  · by_cases hk : k ∈ categoryNames
    · rw [h1.named k hk, h2.named k hk, hs]
    · rw [h1.unnamed k hk, h2.unnamed k hk]

example : (lowered asciiLower [(b!"One", b!"a"), (b!"OTHER", b!"b")]).WF := by unfold GoMap.WF; decide

/-- Without that, it does: the object {"one": "a", "One": "b", "other": "c"} is read in two ways. -/
theorem C25_negation : ∃ (l l' : GoMap Bytes Bytes), l.WF ∧ l.Perm l' ∧
    (JsonMessage.zero.assignAll asciiLower l).tr.get? 1 = some b!"b" ∧
    (JsonMessage.zero.assignAll asciiLower l').tr.get? 1 = some b!"a" :=
  ⟨[(b!"one", b!"a"), (b!"One", b!"b"), (b!"other", b!"c")], [(b!"One", b!"b"), (b!"one", b!"a"), (b!"other", b!"c")],
    by unfold GoMap.WF; decide, .swap _ _ _, by decide, by decide⟩

/-! ## C26 -/

/-- A text that is valid UTF-8. -/
def Utf8 (s : Bytes) : Prop := ∃ cs, s = utf8 cs

/-- A message that JSON can carry: valid texts, at least one translation, only named categories, and not just
one translation for another category than Other without comment and context. -/
structure Portable (m : JsonMessage) : Prop where
  wf : m.tr.WF
  comment : Utf8 m.comment
  context : Utf8 m.context
  text : ∀ k t, m.tr.get? k = some t → Utf8 t
  nonempty : m.tr ≠ []
  named : ∀ k t, m.tr.get? k = some t → k ∈ categoryNames
  single : m.comment = [] → m.context = [] → m.tr.length = 1 → (m.tr.get? other).isSome

theorem sanitize_of {s : Bytes} (h : Utf8 s) : sanitize s = s := by
  obtain ⟨cs, rfl⟩ := h; exact sanitize_valid cs

/-- The fields of the translations as texts. -/
def catTexts (tr : GoMap Int Bytes) (cats : List Int) : GoMap Bytes Bytes :=
  cats.filterMap fun c => (tr.get? c).map fun t => (categoryKey c, t)

theorem categoryFields_eq {tr : GoMap Int Bytes} (h : ∀ k t, tr.get? k = some t → Utf8 t) :
    ∀ cats, categoryFields tr cats = textFields (catTexts tr cats)
  | [] => rfl
  | c :: cats => by
    unfold categoryFields catTexts
    rw [categoryFields_eq h cats]
    cases hg : tr.get? c with
    | none => simp [hg, catTexts]
    | some t => simp [hg, catTexts, textFields, sanitize_of (h c t hg)]

/-- The fields of the comment and the context. -/
def headTexts (m : JsonMessage) : GoMap Bytes Bytes :=
  (if m.comment = [] then [] else [(b!"comment", m.comment)]) ++ (if m.context = [] then [] else [(b!"context", m.context)])

theorem key_mem {tr : GoMap Int Bytes} {cats : List Int} {k : Bytes} (h : k ∈ (catTexts tr cats).keys) :
    ∃ c ∈ cats, k = categoryKey c ∧ (tr.get? c).isSome := by
  obtain ⟨p, hp, rfl⟩ := List.mem_map.mp h
  obtain ⟨c, hc, he⟩ := List.mem_filterMap.mp hp
  cases hg : tr.get? c with
  | none => rw [hg] at he; cases he
  | some t => rw [hg] at he; cases he; exact ⟨c, hc, rfl, by rw [hg]; rfl⟩

theorem categoryKey_inj {a b : Int} (ha : a ∈ categoryNames) (hb : b ∈ categoryNames)
    (h : categoryKey a = categoryKey b) : a = b := by
  simp only [categoryNames, List.mem_cons, List.not_mem_nil, or_false] at ha hb
  rcases ha with rfl | rfl | rfl | rfl | rfl | rfl <;>
    rcases hb with rfl | rfl | rfl | rfl | rfl | rfl <;> first | rfl | exact absurd h (by decide)

theorem catTexts_wf (tr : GoMap Int Bytes) : ∀ cats : List Int, cats.Nodup → (∀ c ∈ cats, c ∈ categoryNames) →
    (catTexts tr cats).WF
  | [], _, _ => GoMap.WF.nil
  | c :: cats, hn, hm => by
    have ih := catTexts_wf tr cats (List.nodup_cons.mp hn).2 fun x hx => hm x (List.mem_cons_of_mem _ hx)
    cases hg : tr.get? c with
    | none =>
      have : catTexts tr (c :: cats) = catTexts tr cats := by simp [catTexts, hg]
      rw [this]; exact ih
    | some t =>
      have : catTexts tr (c :: cats) = (categoryKey c, t) :: catTexts tr cats := by simp [catTexts, hg]
      rw [this]
      unfold GoMap.WF
      rw [GoMap.keys_cons, List.nodup_cons]
      refine ⟨fun hk => ?_, ih⟩
      obtain ⟨c', hc', he, _⟩ := key_mem hk
      have := categoryKey_inj (hm c List.mem_cons_self) (hm c' (List.mem_cons_of_mem _ hc')) he
      subst this
      exact (List.nodup_cons.mp hn).1 hc'

theorem head_key {m : JsonMessage} {k : Bytes} (h : k ∈ (headTexts m).keys) :
    k = b!"comment" ∨ k = b!"context" := by
  obtain ⟨p, hp, rfl⟩ := List.mem_map.mp h
  unfold headTexts at hp
  rcases List.mem_append.mp hp with hp | hp
  · split at hp
    · cases hp
    · simp only [List.mem_singleton] at hp; subst hp; exact Or.inl rfl
  · split at hp
    · cases hp
    · simp only [List.mem_singleton] at hp; subst hp; exact Or.inr rfl

theorem categoryKey_ne {c : Int} (hc : c ∈ categoryNames) : categoryKey c ≠ b!"comment" ∧ categoryKey c ≠ b!"context" := by
  simp only [categoryNames, List.mem_cons, List.not_mem_nil, or_false] at hc
  rcases hc with rfl | rfl | rfl | rfl | rfl | rfl <;> decide

theorem fields_wf (m : JsonMessage) : (headTexts m ++ catTexts m.tr categoryNames).keys.Nodup := by
  unfold GoMap.keys
  rw [List.map_append, List.nodup_append]
  refine ⟨?_, catTexts_wf m.tr categoryNames (by decide) (fun _ h => h), ?_⟩
  · unfold headTexts
    by_cases h1 : m.comment = [] <;> by_cases h2 : m.context = [] <;> simp [h1, h2] <;> decide
  · rintro a ha b hb rfl
    obtain ⟨c, hc, rfl, _⟩ := key_mem hb
    rcases head_key ha with h | h
    · exact (categoryKey_ne hc).1 h
    · exact (categoryKey_ne hc).2 h

theorem get?_append {κ α : Type} [DecidableEq κ] (a b : GoMap κ α) (k : κ) :
    GoMap.get? (a ++ b) k = match a.get? k with | some v => some v | none => b.get? k := by
  induction a with
  | nil => rfl
  | cons p a ih =>
    obtain ⟨x, y⟩ := p
    simp only [List.cons_append, GoMap.get?]
    by_cases e : x = k
    · simp [e]
    · simp only [if_neg e]; exact ih

theorem catTexts_get {tr : GoMap Int Bytes} {c : Int} (hc : c ∈ categoryNames) :
    (catTexts tr categoryNames).get? (categoryKey c) = tr.get? c := by
  cases hg : tr.get? c with
  | none =>
    refine GoMap.get?_eq_none.mpr fun hk => ?_
    obtain ⟨c', hc', he, hs⟩ := key_mem hk
    have := categoryKey_inj hc hc' he
    subst this
    rw [hg] at hs; cases hs
  | some t =>
    refine GoMap.get?_of_mem (catTexts_wf tr categoryNames (by decide) (fun _ h => h)) ?_
    exact List.mem_filterMap.mpr ⟨c, hc, by rw [hg]; rfl⟩

theorem catTexts_head {tr : GoMap Int Bytes} {k : Bytes} (h : k = b!"comment" ∨ k = b!"context") :
    (catTexts tr categoryNames).get? k = none := by
  refine GoMap.get?_eq_none.mpr fun hk => ?_
  obtain ⟨c, hc, he, _⟩ := key_mem hk
  rcases h with h | h
  · exact (categoryKey_ne hc).1 (he.symm.trans h)
  · exact (categoryKey_ne hc).2 (he.symm.trans h)

/-- `unicode.ToLower` leaves the lower case ASCII letters alone. -/
def KeepsAscii (lower : Char → Char) : Prop := ∀ c : Char, 'a' ≤ c → c ≤ 'z' → lower c = c

theorem toLower_plain {lower : Char → Char} (h : KeepsAscii lower) {k : Bytes} (cs : List Char) (hk : k = utf8 cs)
    (hc : ∀ c ∈ cs, 'a' ≤ c ∧ c ≤ 'z') : toLower lower k = k := by
  subst hk
  unfold toLower
  rw [runes_utf8]
  congr 1
  conv => rhs; rw [← List.map_id cs]
  exact List.map_congr_left fun c hcm => h c (hc c hcm).1 (hc c hcm).2

theorem fields_lower {lower : Char → Char} (h : KeepsAscii lower) (m : JsonMessage) :
    lowered lower (headTexts m ++ catTexts m.tr categoryNames) = headTexts m ++ catTexts m.tr categoryNames := by
  unfold lowered
  conv => rhs; rw [← List.map_id (headTexts m ++ catTexts m.tr categoryNames)]
  refine List.map_congr_left fun p hp => ?_
  have hk : toLower lower p.1 = p.1 := by
    rcases List.mem_append.mp hp with hp | hp
    · rcases head_key (List.mem_map.mpr ⟨p, hp, rfl⟩) with e | e
      · rw [e]; exact toLower_plain h "comment".toList (by decide) (by decide)
      · rw [e]; exact toLower_plain h "context".toList (by decide) (by decide)
    · obtain ⟨c, hc, e, _⟩ := key_mem (List.mem_map.mpr ⟨p, hp, rfl⟩)
      rw [e]
      simp only [categoryNames, List.mem_cons, List.not_mem_nil, or_false] at hc
      rcases hc with rfl | rfl | rfl | rfl | rfl | rfl
      · exact toLower_plain h "zero".toList (by decide) (by decide)
      · exact toLower_plain h "one".toList (by decide) (by decide)
      · exact toLower_plain h "two".toList (by decide) (by decide)
      · exact toLower_plain h "few".toList (by decide) (by decide)
      · exact toLower_plain h "many".toList (by decide) (by decide)
      · exact toLower_plain h "other".toList (by decide) (by decide)
  show (toLower lower p.1, p.2) = id p
  rw [hk]; rfl

theorem head_get (m : JsonMessage) :
    valueOr (headTexts m) b!"comment" [] = m.comment ∧ valueOr (headTexts m) b!"context" [] = m.context := by
  unfold headTexts valueOr
  by_cases h1 : m.comment = [] <;> by_cases h2 : m.context = [] <;> simp [h1, h2, GoMap.get?] <;> decide

theorem marshal_portable {m : JsonMessage} (hp : Portable m) :
    (∃ t, m.comment = [] ∧ m.context = [] ∧ m.tr = [(other, t)] ∧ m.marshal = .some (.str t)) ∨
    m.marshal = .some (.obj (textFields (headTexts m ++ catTexts m.tr categoryNames))) := by
  unfold JsonMessage.marshal
  simp only [if_neg hp.nonempty]
  by_cases h : m.comment = [] ∧ m.context = [] ∧ m.tr.length = 1
  · left
    have hs := hp.single h.1 h.2.1 h.2.2
    cases htr : m.tr with
    | nil => exact absurd htr hp.nonempty
    | cons p rest =>
      cases rest with
      | cons q r => rw [htr] at h; simp at h
      | nil =>
        obtain ⟨k, t⟩ := p
        rw [htr] at hs
        have hk : k = other := by
          simp only [GoMap.get?] at hs
          by_cases e : k = other
          · exact e
          · rw [if_neg e] at hs; cases hs
        subst hk
        refine ⟨t, h.1, h.2.1, rfl, ?_⟩
        rw [if_pos ⟨h.1, h.2.1, rfl⟩]
        have hg : GoMap.get? [(other, t)] other = .some t := by simp [GoMap.get?]
        rw [hg]
        simp only [Option.getD_some]
        rw [sanitize_of (hp.text other t (by rw [htr]; exact hg))]
  · right
    rw [if_neg h, categoryFields_eq hp.text]
    have hcat : catTexts m.tr categoryNames ≠ [] := by
      cases htr : m.tr with
      | nil => exact absurd htr hp.nonempty
      | cons p rest =>
        obtain ⟨k, t⟩ := p
        have hg : m.tr.get? k = .some t := by rw [htr]; simp [GoMap.get?]
        intro he
        have := catTexts_get (tr := m.tr) (hp.named k t hg)
        rw [htr] at this hg
        rw [he, hg] at this
        cases this
    have hne : (textFields (catTexts m.tr [0, 1, 2, 3, 4, 5])).isEmpty = false := by
      cases hl : catTexts m.tr categoryNames with
      | nil => exact absurd hl hcat
      | cons p rest =>
        show (textFields (catTexts m.tr categoryNames)).isEmpty = false
        rw [hl]; rfl
    rw [hne]
    simp only [Bool.and_false, Bool.false_eq_true, if_false]
    congr 2
    unfold headTexts textFields
    rw [List.map_append, List.map_append, sanitize_of hp.comment, sanitize_of hp.context]
    congr 2
    · split <;> rfl
    · split <;> rfl

/-- Writing a portable message and reading the result, in any order of the keys, gives the message back. -/
theorem C26_round_trip_partial {m : JsonMessage} (hp : Portable m) {lower : Char → Char} (hl : KeepsAscii lower)
    {order : GoMap Bytes Bytes → GoMap Bytes Bytes} (ho : ∀ l, (order l).Perm l) :
    ∃ j m', m.marshal = some j ∧ JsonMessage.zero.unmarshal lower order j = some m' ∧
      m'.comment = m.comment ∧ m'.context = m.context ∧ m'.tr.Same m.tr := by
  rcases marshal_portable hp with ⟨t, h1, h2, h3, h4⟩ | h
  · exact ⟨_, ⟨[], [], some [(other, t)]⟩, h4, rfl, h1.symm, h2.symm, by rw [h3]; exact GoMap.Same.refl _⟩
  · have hw := fields_wf m
    have hd : decodeStrings [] (textFields (headTexts m ++ catTexts m.tr categoryNames)) =
        some (headTexts m ++ catTexts m.tr categoryNames) := decodeStrings_text _ [] hw
    have hperm := ho (headTexts m ++ catTexts m.tr categoryNames)
    have hlow := fields_lower hl m
    have hwf : (lowered lower (order (headTexts m ++ catTexts m.tr categoryNames))).WF := by
      refine GoMap.WF.perm (m := headTexts m ++ catTexts m.tr categoryNames) hw ?_
      have := lowered_perm (lower := lower) hperm
      rw [hlow] at this
      exact this.symm
    have hsame : (lowered lower (order (headTexts m ++ catTexts m.tr categoryNames))).Same
        (headTexts m ++ catTexts m.tr categoryNames) := by
      refine GoMap.same_of_perm hwf ?_
      have := lowered_perm (lower := lower) hperm
      rw [hlow] at this
      exact this
    refine ⟨_, JsonMessage.assignAll lower ⟨[], [], some []⟩ (order (headTexts m ++ catTexts m.tr categoryNames)), h, ?_, ?_⟩
    · show (decodeStrings [] (textFields _)).map _ = _
      rw [hd]; rfl
    · have hr := assignAll_reads lower (order (headTexts m ++ catTexts m.tr categoryNames)) ⟨[], [], some []⟩ hwf
      have hv : ∀ k, k = b!"comment" ∨ k = b!"context" →
          valueOr (lowered lower (order (headTexts m ++ catTexts m.tr categoryNames))) k [] = valueOr (headTexts m) k [] := by
        intro k hk
        unfold valueOr
        rw [hsame k, get?_append, catTexts_head hk]
        cases (headTexts m).get? k <;> rfl
      refine ⟨?_, ?_, fun c => ?_⟩
      · rw [hr.comment, hv _ (Or.inl rfl), (head_get m).1]
      · rw [hr.context, hv _ (Or.inr rfl), (head_get m).2]
      · by_cases hc : c ∈ categoryNames
        · rw [hr.named c hc, hsame, get?_append]
          have : (headTexts m).get? (categoryKey c) = none := by
            refine GoMap.get?_eq_none.mpr fun hk => ?_
            rcases head_key hk with e | e
            · exact (categoryKey_ne hc).1 e
            · exact (categoryKey_ne hc).2 e
          rw [this]
          simp only [catTexts_get hc]
          cases m.tr.get? c <;> rfl
        · rw [hr.unnamed c hc]
          cases hg : m.tr.get? c with
          | none => rfl
          | some t => exact absurd (hp.named c t hg) hc

theorem portable_demo : Portable ⟨b!"c", b!"menu", some [(1, b!"a"), (5, b!"b")]⟩ := by
  have hk : ∀ k t, GoMap.get? [((1 : Int), b!"a"), (5, b!"b")] k = some t → (k = 1 ∧ t = b!"a") ∨ (k = 5 ∧ t = b!"b") := by
    intro k t h
    have := GoMap.mem_of_get? h
    simpa using this
  refine ⟨by unfold GoMap.WF; decide, ⟨['c'], by decide⟩, ⟨"menu".toList, by decide⟩, fun k t h => ?_, by decide,
    fun k t h => ?_, (fun h => absurd h (by decide))⟩
  · rcases hk k t h with ⟨_, rfl⟩ | ⟨_, rfl⟩
    · exact ⟨['a'], by decide⟩
    · exact ⟨['b'], by decide⟩
  · rcases hk k t h with ⟨rfl, _⟩ | ⟨rfl, _⟩ <;> decide

example : Portable ⟨b!"c", b!"menu", some [(1, b!"a"), (5, b!"b")]⟩ ∧ KeepsAscii asciiLower := by
  refine ⟨portable_demo, fun c h1 h2 => ?_⟩
  unfold asciiLower
  rw [if_neg]
  rintro ⟨_, h⟩
  have h1' : (97 : Nat) ≤ c.toNat := h1
  have h' : c.toNat ≤ 90 := h
  omega

/-- Not every message survives: a single text for another category than Other is written as an empty text, an
unknown category disappears, malformed bytes change, and with a comment and only unknown categories no valid JSON
is written. -/
theorem C26_negation :
    (JsonMessage.marshal ⟨[], [], some [(1, b!"a")]⟩).bind (JsonMessage.zero.unmarshal asciiLower id) =
      some ⟨[], [], some [(5, [])]⟩ ∧
    (JsonMessage.marshal ⟨[], [], some [(5, b!"a"), (9, b!"b")]⟩).bind (JsonMessage.zero.unmarshal asciiLower id) =
      some ⟨[], [], some [(5, b!"a")]⟩ ∧
    (JsonMessage.marshal ⟨[], [], some [(5, [0xff])]⟩).bind (JsonMessage.zero.unmarshal asciiLower id) =
      some ⟨[], [], some [(5, [0xef, 0xbf, 0xbd])]⟩ ∧
    JsonMessage.marshal ⟨b!"c", [], some [(9, b!"b")]⟩ = none :=
  ⟨by rfl, by rfl, by rfl, by rfl⟩

/-! ## C63, C64: dumping a catalog and building it again -/

/-- The keys of a lookup map are distinct on both levels. -/
def MapWF (m : JsonLookupMap) : Prop := m.WF ∧ ∀ ctx inner, m.get? ctx = some inner → inner.WF

theorem insert_wf {m : JsonLookupMap} (h : MapWF m) (key : Bytes) (msg : JsonMessage) : MapWF (insertMsg m key msg) := by
  refine ⟨h.1.set _ _, fun ctx inner hi => ?_⟩
  unfold insertMsg at hi
  rw [GoMap.get?_set] at hi
  by_cases e : msg.context = ctx
  · rw [if_pos e] at hi
    cases hi
    refine GoMap.WF.set ?_ _ _
    cases hg : m.get? msg.context with
    | none => exact GoMap.WF.nil
    | some x => exact h.2 _ x hg
  · rw [if_neg e] at hi
    exact h.2 ctx inner hi

theorem setAll_wf (names : List Int) : ∀ (msgs : GoMap Bytes (Option JsonMessage)) (c c' : JsonCatalog),
    MapWF c.lookupMap → c.setAll names msgs = .ok c' → MapWF c'.lookupMap
  | [], c, c', h0, h => by cases h; exact h0
  | (k, s) :: rest, c, c', h0, h => by
    rw [JsonCatalog.setAll, setMessage_eq] at h
    cases hm : prepare names c.categories k s with
    | error e => rw [hm] at h; cases h
    | ok m =>
      rw [hm] at h
      simp only at h
      exact setAll_wf names rest { c with lookupMap := insertMsg c.lookupMap k m } c' (insert_wf h0 k m) h

/-- What is known of a catalog made by `NewJSONCatalogWithMessages`. -/
structure Built (names : List Int) (c : JsonCatalog) : Prop where
  wf : MapWF c.lookupMap
  context : ∀ ctx k m, entry c.lookupMap ctx k = some m → m.context = ctx
  uniq : ∀ ctx ctx' k m m', entry c.lookupMap ctx k = some m → entry c.lookupMap ctx' k = some m' → ctx = ctx'
  nonempty : ∀ ctx, (c.lookupMap.get? ctx).isSome → ∃ k m, entry c.lookupMap ctx k = some m
  again : ∀ ctx k m, entry c.lookupMap ctx k = some m → prepare names c.categories k (some m) = .ok m

theorem prepare_again {names cats : List Int} {key : Bytes} {src : Option JsonMessage} {m : JsonMessage}
    (ho : other ∈ cats) (h : prepare names cats key src = .ok m) : prepare names cats key (some m) = .ok m := by
  unfold prepare at h
  by_cases hk : key = []
  · rw [if_pos hk] at h; cases h
  rw [if_neg hk] at h
  cases src with
  | none => cases h
  | some s =>
    simp only [] at h
    by_cases h1 : s.context ≠ [] ∧ hasSuffix key (b!"_" ++ s.context) = false
    · rw [if_pos h1] at h; cases h
    · rw [if_neg h1] at h
      by_cases h2 : (s.tr.get? other).isNone = true
      · rw [if_pos h2] at h; cases h
      · rw [if_neg h2] at h
        cases h
        unfold prepare
        rw [if_neg hk]
        simp only []
        rw [if_neg h1]
        have ht : ∀ (x : GoMap Int Bytes), (JsonMessage.mk s.comment s.context (some x)).tr = x := fun _ => rfl
        rw [if_neg, ht, applyCategories_idem]
        rw [ht, applyCategories_get?]
        by_cases hs : Single s.tr
        · rw [if_pos hs]; exact h2
        · rw [if_neg hs]
          split
          · simp
          · exact h2

theorem built_of {names : List Int} {lang : Tag} {domain : Bytes} {msgs : GoMap Bytes (Option JsonMessage)}
    (hw : msgs.WF) {c : JsonCatalog} (h : newJSONCatalogWithMessages names lang domain msgs = .ok c) : Built names c := by
  have hc := (setAll_meta _ _ _ _ h).2.2.1
  have hempty : (JsonCatalog.new lang domain).lookupMap = [] := by
    unfold JsonCatalog.new
    cases (forLanguage lang).1 <;> rfl
  have hok : ∀ key src, (key, src) ∈ msgs →
      ∃ m, prepare names (JsonCatalog.new lang domain).categories key src = .ok m := by
    intro key src hm
    cases he : prepare names (JsonCatalog.new lang domain).categories key src with
    | ok m => exact ⟨m, rfl⟩
    | error e =>
      obtain ⟨e', h'⟩ := setAll_error names msgs _ hm he
      rw [newJSONCatalogWithMessages, h'] at h; cases h
  obtain ⟨c1, h1, _, _, _, _, h6, h7⟩ := setAll_spec names msgs _ hw hok
  rw [newJSONCatalogWithMessages, h1] at h
  cases h
  have hent : ∀ ctx k m, entry c.lookupMap ctx k = some m ↔
      preparedFor names (JsonCatalog.new lang domain).categories msgs k = some m ∧ m.context = ctx := by
    intro ctx k m
    rw [h6, hempty]
    cases hp : preparedFor names (JsonCatalog.new lang domain).categories msgs k with
    | none => exact ⟨(fun h => nomatch h), (fun h => nomatch h.1)⟩
    | some x =>
      simp only []
      by_cases e : x.context = ctx
      · rw [if_pos e]
        constructor
        · intro h; cases h; exact ⟨rfl, e⟩
        · rintro ⟨h, _⟩; exact h
      · rw [if_neg e]
        constructor
        · intro h; cases h
        · rintro ⟨h, h'⟩; cases h; exact absurd h' e
  refine ⟨?_, fun ctx k m hm => ((hent _ _ _).mp hm).2, ?_, fun ctx hctx => ?_, fun ctx k m hm => ?_⟩
  · refine setAll_wf names msgs _ c ?_ h1
    rw [hempty]
    exact ⟨GoMap.WF.nil, fun _ _ h => by cases h⟩
  · intro ctx ctx' k m m' hm hm'
    have a := (hent _ _ _).mp hm
    have b := (hent _ _ _).mp hm'
    rw [a.1] at b
    have := Option.some.inj b.1
    subst this
    exact a.2.symm.trans b.2
  · rcases (h7 ctx).mp hctx with h | ⟨k, m, hk, hm⟩
    · rw [hempty] at h; cases h
    · exact ⟨k, m, (hent _ _ _).mpr ⟨hk, hm⟩⟩
  · obtain ⟨hp, _⟩ := (hent _ _ _).mp hm
    rw [hc]
    unfold preparedFor at hp
    cases hg : msgs.get? k with
    | none => rw [hg] at hp; cases hp
    | some src =>
      rw [hg] at hp
      simp only at hp
      cases hx : prepare names (JsonCatalog.new lang domain).categories k src with
      | error e => rw [hx] at hp; cases hp
      | ok x =>
        rw [hx] at hp
        cases hp
        exact prepare_again (new_categories lang domain).1 hx

theorem foldl_set_get? : ∀ (inner cpy : GoMap Bytes JsonMessage), inner.WF → ∀ k,
    (inner.foldl (fun (m : GoMap Bytes JsonMessage) p => m.set p.1 p.2) cpy).get? k =
      match inner.get? k with | some x => some x | none => cpy.get? k
  | [], cpy, _, k => rfl
  | (a, b) :: inner, cpy, h, k => by
    have hn := GoMap.WF.cons_inv h
    rw [List.foldl_cons, foldl_set_get? inner _ hn.2]
    simp only [GoMap.get?_set, GoMap.get?]
    by_cases e : a = k
    · subst e
      rw [GoMap.get?_eq_none.mpr hn.1]
      simp
    · simp only [if_neg e]

theorem foldl_set_wf : ∀ (inner cpy : GoMap Bytes JsonMessage), cpy.WF →
    GoMap.WF (inner.foldl (fun (m : GoMap Bytes JsonMessage) p => m.set p.1 p.2) cpy)
  | [], _, h => h
  | _ :: inner, _, h => foldl_set_wf inner _ (h.set _ _)

theorem flatten_wf : ∀ (m : JsonLookupMap) (cpy : GoMap Bytes JsonMessage), cpy.WF → (flatten cpy m).WF
  | [], _, h => h
  | (_, inner) :: rest, cpy, h => flatten_wf rest _ (foldl_set_wf inner cpy h)

theorem flatten_get? : ∀ (m : JsonLookupMap) (cpy : GoMap Bytes JsonMessage), MapWF m →
    (∀ ctx ctx' k x x', entry m ctx k = some x → entry m ctx' k = some x' → ctx = ctx') →
    ∀ k x, (flatten cpy m).get? k = some x ↔
      (∃ ctx, entry m ctx k = some x) ∨ ((∀ ctx, entry m ctx k = none) ∧ cpy.get? k = some x)
  | [], cpy, _, _, k, x => by
    simp [flatten, entry, GoMap.get?]
  | (c0, inner) :: rest, cpy, hw, hu, k, x => by
    have hn := GoMap.WF.cons_inv hw.1
    have hin : inner.WF := hw.2 c0 inner (by simp [GoMap.get?])
    have hne : ∀ ctx, ctx ≠ c0 → entry ((c0, inner) :: rest) ctx k = entry rest ctx k := by
      intro ctx h
      unfold entry
      simp only [GoMap.get?, if_neg (fun e => h (Eq.symm e))]
    have h0 : entry ((c0, inner) :: rest) c0 k = inner.get? k := by
      unfold entry; simp [GoMap.get?]
    have hr0 : ∀ k, entry rest c0 k = none := by
      intro k; unfold entry; rw [GoMap.get?_eq_none.mpr hn.1]
    have sub : ∀ ctx k y, entry rest ctx k = some y → entry ((c0, inner) :: rest) ctx k = some y := by
      intro ctx k y h
      have : ctx ≠ c0 := by rintro rfl; rw [hr0] at h; cases h
      unfold entry at h ⊢
      simp only [GoMap.get?, if_neg (fun e => this (Eq.symm e))]
      exact h
    have hrw : MapWF rest := by
      refine ⟨hn.2, fun ctx i hi => ?_⟩
      have : ctx ≠ c0 := by
        rintro rfl; rw [GoMap.get?_eq_none.mpr hn.1] at hi; cases hi
      exact hw.2 ctx i (by simp only [GoMap.get?, if_neg (fun e => this (Eq.symm e))]; exact hi)
    rw [flatten, flatten_get? rest _ hrw (fun a b k y y' h h' => hu a b k y y' (sub _ _ _ h) (sub _ _ _ h')),
      foldl_set_get? inner cpy hin]
    constructor
    · rintro (⟨ctx, h⟩ | ⟨h1, h2⟩)
      · exact Or.inl ⟨ctx, sub _ _ _ h⟩
      · cases hi : inner.get? k with
        | some y => rw [hi] at h2; exact Or.inl ⟨c0, by rw [h0, hi]; exact h2⟩
        | none =>
          rw [hi] at h2
          refine Or.inr ⟨fun ctx => ?_, h2⟩
          by_cases e : ctx = c0
          · rw [e, h0, hi]
          · rw [hne ctx e]; exact h1 ctx
    · rintro (⟨ctx, h⟩ | ⟨h1, h2⟩)
      · by_cases e : ctx = c0
        · subst e
          rw [h0] at h
          refine Or.inr ⟨fun ctx' => ?_, by rw [h]⟩
          cases hc : entry rest ctx' k with
          | none => rfl
          | some y =>
            have := hu ctx ctx' k x y (by rw [h0, h]) (sub _ _ _ hc)
            subst this
            rw [hr0] at hc; cases hc
        · rw [hne ctx e] at h; exact Or.inl ⟨ctx, h⟩
      · have hi : inner.get? k = none := by rw [← h0]; exact h1 c0
        rw [hi]
        refine Or.inr ⟨fun ctx => ?_, h2⟩
        cases hc : entry rest ctx k with
        | none => rfl
        | some y => have := sub _ _ _ hc; rw [h1] at this; cases this

theorem messages_get? {names : List Int} {c : JsonCatalog} (hb : Built names c) (k : Bytes) (x : JsonMessage) :
    c.messages.get? k = some x ↔ entry c.lookupMap x.context k = some x := by
  unfold JsonCatalog.messages
  rw [flatten_get? _ _ hb.wf hb.uniq]
  constructor
  · rintro (⟨ctx, h⟩ | ⟨_, h⟩)
    · rw [hb.context _ _ _ h]; exact h
    · cases h
  · intro h; exact Or.inl ⟨_, h⟩

theorem prepare_iff {names cats : List Int} {key : Bytes} {s m : JsonMessage} :
    prepare names cats key (some s) = .ok m ↔ key ≠ [] ∧
      ¬ (s.context ≠ [] ∧ hasSuffix key (b!"_" ++ s.context) = false) ∧ (s.tr.get? other).isSome = true ∧
      m = { s with translations := some (applyCategories names cats s.tr) } := by
  unfold prepare
  by_cases hk : key = []
  · rw [if_pos hk]; exact ⟨(fun h => nomatch h), fun h => absurd hk h.1⟩
  rw [if_neg hk]
  simp only []
  by_cases h1 : s.context ≠ [] ∧ hasSuffix key (b!"_" ++ s.context) = false
  · rw [if_pos h1]; exact ⟨(fun h => nomatch h), fun h => absurd h1 h.2.1⟩
  rw [if_neg h1]
  cases hg : s.tr.get? other with
  | none => exact ⟨(fun h => nomatch h), fun h => by simp at h⟩
  | some t =>
    simp only [Option.isNone_some, Bool.false_eq_true, if_false]
    constructor
    · intro h; cases h; exact ⟨hk, h1, rfl, rfl⟩
    · rintro ⟨_, _, _, rfl⟩; rfl

/-- Loading again messages that are those of the catalog, up to the order of translations, gives the same
lookups. -/
theorem rebuild {names names' : List Int} (hn : names'.Perm names) {c : JsonCatalog} (hb : Built names c)
    {file : GoMap Bytes (Option JsonMessage)} (hw : file.WF)
    (hf : ∀ k, match c.messages.get? k, file.get? k with
      | some m, some (some m') => m.context = m'.context ∧ m.tr.Same m'.tr ∧ m.tr.length = m'.tr.length
      | none, none => True
      | _, _ => False)
    {e : JsonCatalog} (he : e.lookupMap = []) (hd : e.domain = c.domain) (hc : e.categories = c.categories)
    (hp : e.plural = c.plural) : ∃ c', e.setAll names' file = .ok c' ∧ Alike c c' := by
  have hprep : ∀ k src, file.get? k = some src → ∃ m m' m'', src = some m' ∧ c.messages.get? k = some m ∧
      prepare names' e.categories k src = .ok m'' ∧ m''.context = m.context ∧ m''.tr.Same m.tr := by
    intro k src hs
    have := hf k
    rw [hs] at this
    cases hm : c.messages.get? k with
    | none => rw [hm] at this; cases src <;> exact this.elim
    | some m =>
      rw [hm] at this
      cases src with
      | none => exact this.elim
      | some m' =>
        obtain ⟨h1, h2, h3⟩ := this
        have ha := hb.again _ k m ((messages_get? hb k m).mp hm)
        obtain ⟨g1, g2, g3, g4⟩ := prepare_iff.mp ha
        have g5 : m.tr = applyCategories names c.categories m.tr := congrArg JsonMessage.tr g4
        refine ⟨m, m', ⟨m'.comment, m'.context, some (applyCategories names' e.categories m'.tr)⟩, rfl, rfl,
          prepare_iff.mpr ⟨g1, by rw [← h1]; exact g2, by rw [← h2]; exact g3, rfl⟩, h1.symm, fun x => ?_⟩
        show (applyCategories names' e.categories m'.tr).get? x = m.tr.get? x
        rw [g5, applyCategories_get?, applyCategories_get?, hc]
        have hsing : Single m'.tr ↔ Single m.tr := by unfold Single; rw [h3, h2]
        by_cases hs : Single m.tr
        · rw [if_pos hs, if_pos (hsing.mpr hs), h2]
        · rw [if_neg hs, if_neg (fun h => hs (hsing.mp h)), h2 x]
          by_cases hx : x ∈ names
          · rw [if_pos hx, if_pos (hn.mem_iff.mpr hx)]
          · rw [if_neg hx, if_neg (fun h => hx (hn.mem_iff.mp h))]
  obtain ⟨c', k1, _, k3, _, k5, k6, k7⟩ := setAll_spec names' file e hw (fun key src hm => by
    obtain ⟨_, _, m'', _, _, h, _⟩ := hprep key src (GoMap.get?_of_mem hw hm)
    exact ⟨m'', h⟩)
  refine ⟨c', k1, ?_⟩
  have hpf : ∀ k, match c.messages.get? k, preparedFor names' e.categories file k with
      | some m, some m'' => m''.context = m.context ∧ m''.tr.Same m.tr
      | none, none => True
      | _, _ => False := by
    intro k
    unfold preparedFor
    cases hs : file.get? k with
    | none =>
      have := hf k
      rw [hs] at this
      cases hm : c.messages.get? k with
      | none => trivial
      | some m => rw [hm] at this; exact this.elim
    | some src =>
      obtain ⟨m, m', m'', rfl, hm, hx, h1, h2⟩ := hprep k src hs
      rw [hm]
      simp only [hx, Except.toOption]
      exact ⟨h1, h2⟩
  have hent : ∀ ctx k m, entry c.lookupMap ctx k = some m ↔ c.messages.get? k = some m ∧ m.context = ctx := by
    intro ctx k m
    rw [messages_get? hb]
    constructor
    · intro h
      have := hb.context _ _ _ h
      exact ⟨by rw [this]; exact h, this⟩
    · rintro ⟨h, rfl⟩; exact h
  refine alike_of (hd.symm.trans k3.symm) (hp.symm.trans k5.symm) (fun ctx => ?_) (fun ctx k => ?_)
  · rw [k7, he]
    constructor
    · intro h
      obtain ⟨k, m, hm⟩ := hb.nonempty ctx h
      obtain ⟨h1, h2⟩ := (hent _ _ _).mp hm
      have := hpf k
      rw [h1] at this
      cases hx : preparedFor names' e.categories file k with
      | none => rw [hx] at this; exact this.elim
      | some m'' => rw [hx] at this; exact Or.inr ⟨k, m'', hx, this.1.trans h2⟩
    · rintro (h | ⟨k, m'', hx, hctx⟩)
      · cases h
      · have := hpf k
        rw [hx] at this
        cases hm : c.messages.get? k with
        | none => rw [hm] at this; exact this.elim
        | some m =>
          rw [hm] at this
          have h := (hent ctx k m).mpr ⟨hm, this.1.symm.trans hctx⟩
          unfold entry at h
          cases hg : c.lookupMap.get? ctx with
          | none => rw [hg] at h; cases h
          | some i => rfl
  · rw [k6, he]
    have := hpf k
    cases hx : preparedFor names' e.categories file k with
    | none =>
      rw [hx] at this
      cases hc : entry c.lookupMap ctx k with
      | none => trivial
      | some m => rw [((hent _ _ _).mp hc).1] at this; exact this.elim
    | some m'' =>
      rw [hx] at this
      simp only []
      cases hm : c.messages.get? k with
      | none => rw [hm] at this; exact this.elim
      | some m =>
        rw [hm] at this
        by_cases ec : m''.context = ctx
        · rw [if_pos ec, (hent ctx k m).mpr ⟨hm, this.1.symm.trans ec⟩]
          exact this.2.symm
        · rw [if_neg ec]
          cases hc : entry c.lookupMap ctx k with
          | none => trivial
          | some y =>
            obtain ⟨h1, h2⟩ := (hent _ _ _).mp hc
            rw [hm] at h1
            cases h1
            exact absurd (this.1.trans h2) ec

/-- The messages a catalog reports. -/
def asSource (m : GoMap Bytes JsonMessage) : GoMap Bytes (Option JsonMessage) := m.map fun p => (p.1, some p.2)

/-- Building a catalog from the messages another one reports gives the same lookups, for every iteration order.  Missing for the full
property: catalogs that are filled more than once (`C63_negation`; see `C63_iff`). -/
theorem C63_rebuild_partial {names names' : List Int} (hn : names'.Perm names) {lang : Tag} {domain : Bytes}
    {msgs : GoMap Bytes (Option JsonMessage)} (hw : msgs.WF) {c : JsonCatalog}
    (h : newJSONCatalogWithMessages names lang domain msgs = .ok c)
    {dump : GoMap Bytes (Option JsonMessage)} (hp : dump.Perm (asSource c.messages)) :
    ∃ c', newJSONCatalogWithMessages names' lang domain dump = .ok c' ∧ Alike c c' := by
  have hb := built_of hw h
  obtain ⟨_, m2, m3, m4⟩ := setAll_meta _ _ _ _ h
  have hwd : (asSource c.messages).WF := by
    unfold GoMap.WF asSource
    rw [GoMap.keys_map]
    exact flatten_wf _ _ GoMap.WF.nil
  have hempty : (JsonCatalog.new lang domain).lookupMap = [] := by
    unfold JsonCatalog.new
    cases (forLanguage lang).1 <;> rfl
  refine rebuild hn hb (hwd.perm hp.symm) (fun k => ?_) hempty m2.symm m3.symm m4.symm
  rw [← GoMap.same_of_perm hwd hp.symm k]
  unfold asSource
  rw [GoMap.get?_map]
  cases c.messages.get? k with
  | none => trivial
  | some m => exact ⟨rfl, GoMap.Same.refl _, rfl⟩

example : ∃ c, newJSONCatalogWithMessages categoryNames [("de", some "de")] b!"d"
    [(b!"k", some ⟨[], [], some [(5, b!"x")]⟩), (b!"open_menu", some ⟨[], b!"menu", some [(1, b!"y"), (5, b!"z")]⟩)] = .ok c ∧
    c.messages.keys = [b!"k", b!"open_menu"] := ⟨_, rfl, rfl⟩

/-- A catalog filled twice may hold the same key in two contexts; its dump then has one of them only. -/
theorem C63_negation : ∃ c c' : JsonCatalog,
    newJSONCatalogWithMessages categoryNames [("de", some "de")] b!"d" [(b!"k_m", some ⟨[], [], some [(5, b!"x")]⟩)] = .ok c ∧
    c.setAll categoryNames [(b!"k_m", some ⟨[], b!"m", some [(5, b!"y")]⟩)] = .ok c' ∧
    c'.lookup [] b!"k_m" = (b!"x", none) ∧ c'.lookup b!"m" b!"k" = (b!"y", none) ∧ c'.messages.length = 1 :=
  ⟨_, _, rfl, rfl, by rfl, by rfl, by rfl⟩

theorem assign_wf {m : JsonMessage} (h : m.tr.WF) (k v : Bytes) : (m.assign k v).tr.WF := by
  unfold JsonMessage.assign
  by_cases h1 : k = b!"comment"
  · rw [if_pos h1]; exact h
  rw [if_neg h1]
  by_cases h2 : k = b!"context"
  · rw [if_pos h2]; exact h
  rw [if_neg h2]
  by_cases k0 : k = b!"zero"
  · rw [if_pos k0]; exact h.set _ _
  rw [if_neg k0]
  by_cases k1 : k = b!"one"
  · rw [if_pos k1]; exact h.set _ _
  rw [if_neg k1]
  by_cases k2 : k = b!"two"
  · rw [if_pos k2]; exact h.set _ _
  rw [if_neg k2]
  by_cases k3 : k = b!"few"
  · rw [if_pos k3]; exact h.set _ _
  rw [if_neg k3]
  by_cases k4 : k = b!"many"
  · rw [if_pos k4]; exact h.set _ _
  rw [if_neg k4]
  by_cases k5 : k = b!"other"
  · rw [if_pos k5]; exact h.set _ _
  rw [if_neg k5]; exact h

theorem assignAll_wf (lower : Char → Char) : ∀ (l : GoMap Bytes Bytes) (m : JsonMessage), m.tr.WF →
    (m.assignAll lower l).tr.WF
  | [], _, h => h
  | (k, v) :: l, m, h => assignAll_wf lower l _ (assign_wf h (toLower lower k) v)

theorem unmarshal_wf {lower : Char → Char} {order : GoMap Bytes Bytes → GoMap Bytes Bytes} {j : Json}
    {m : JsonMessage} (h : JsonMessage.zero.unmarshal lower order j = some m) : m.tr.WF := by
  unfold JsonMessage.unmarshal at h
  cases j with
  | null => cases h; exact List.nodup_cons.mpr ⟨List.not_mem_nil, List.nodup_nil⟩
  | str s => cases h; exact List.nodup_cons.mpr ⟨List.not_mem_nil, List.nodup_nil⟩
  | other => cases h
  | obj fields =>
    simp only [] at h
    cases hd : decodeStrings [] fields with
    | none => rw [hd] at h; cases h
    | some mm => rw [hd] at h; cases h; exact assignAll_wf lower _ _ GoMap.WF.nil

theorem marshal_not_null {m : JsonMessage} (hp : Portable m) : m.marshal ≠ some .null := by
  rcases marshal_portable hp with ⟨t, _, _, _, h⟩ | h <;> rw [h] <;> exact (fun h => nomatch h)

theorem members_read {lower : Char → Char} (hl : KeepsAscii lower) {order : GoMap Bytes Bytes → GoMap Bytes Bytes}
    (ho : ∀ l, (order l).Perm l) (msgs : GoMap Bytes JsonMessage) :
    ∀ (ks : List Bytes) (acc : GoMap Bytes (Option JsonMessage)), ks.Nodup → (∀ k ∈ ks, k ∉ acc.keys) →
    (∀ k ∈ ks, Utf8 k ∧ ∃ m, msgs.get? k = some m ∧ Portable m) →
    ∃ members, ∃ file : GoMap Bytes (Option JsonMessage), marshalMembers msgs ks = some members ∧
      decodeFile lower order acc members = some (acc ++ file) ∧ file.keys = ks ∧
      ∀ k src, (k, src) ∈ file → ∃ m m', src = some m' ∧ msgs.get? k = some m ∧ m.comment = m'.comment ∧
        m.context = m'.context ∧ m.tr.Same m'.tr ∧ m.tr.length = m'.tr.length
  | [], acc, _, _, _ => ⟨[], [], rfl, by simp [decodeFile], rfl, fun _ _ h => nomatch h⟩
  | k :: ks, acc, hn, hd, hp => by
    obtain ⟨hu, m, hm, hpm⟩ := hp k List.mem_cons_self
    obtain ⟨j, m', hj, hr, h1, h2, h3⟩ := C26_round_trip_partial hpm hl ho
    have hk : k ∉ acc.keys := hd k List.mem_cons_self
    obtain ⟨members, file, i1, i2, i3, i4⟩ := members_read hl ho msgs ks (acc ++ [(k, some m')])
      (List.nodup_cons.mp hn).2 (fun x hx => by
        unfold GoMap.keys
        rw [List.map_append, List.mem_append, not_or]
        refine ⟨hd x (List.mem_cons_of_mem _ hx), ?_⟩
        simp only [List.map_cons, List.map_nil, List.mem_singleton]
        rintro rfl
        exact (List.nodup_cons.mp hn).1 hx)
      (fun x hx => hp x (List.mem_cons_of_mem _ hx))
    refine ⟨(k, j) :: members, (k, some m') :: file, ?_, ?_, ?_, ?_⟩
    · unfold marshalMembers
      rw [hm, i1]
      simp only [Option.bind, hj, sanitize_of hu]
    · unfold decodeFile
      have hde : decodeEntry lower order j = some (some m') := by
        unfold decodeEntry
        cases j with
        | null => exact absurd hj (marshal_not_null hpm)
        | str s => simp only [hr, Option.map]
        | other => simp only [hr, Option.map]
        | obj f => simp only [hr, Option.map]
      rw [hde]
      simp only []
      rw [set_absent hk, i2]
      simp
    · rw [GoMap.keys_cons, i3]
    · intro x src hx
      rcases List.mem_cons.mp hx with hx | hx
      · cases hx
        refine ⟨m, m', rfl, hm, h1.symm, h2.symm, h3.symm, ?_⟩
        exact (GoMap.perm_of_same hpm.wf (unmarshal_wf hr) h3.symm).length_eq
      · exact i4 x src hx

/-- The file that is written for a catalog with portable messages, and the messages that are read from it. -/
theorem written_file {names : List Int} {c : JsonCatalog} (hb : Built names c) (hne : c.messages ≠ [])
    (hp : ∀ k m, c.messages.get? k = some m → Utf8 k ∧ Portable m)
    {lower : Char → Char} (hl : KeepsAscii lower) {order : GoMap Bytes Bytes → GoMap Bytes Bytes}
    (ho : ∀ l, (order l).Perm l) : ∃ (members : List (Bytes × Json)) (file : GoMap Bytes (Option JsonMessage)),
      c.marshal = some (.obj members) ∧ decodeFile lower order [] members = some file ∧ file.WF ∧ file ≠ [] ∧
      ∀ k, match c.messages.get? k, file.get? k with
        | some m, some (some m') => m.comment = m'.comment ∧ m.context = m'.context ∧ m.tr.Same m'.tr ∧ m.tr.length = m'.tr.length
        | none, none => True
        | _, _ => False := by
  have hwm : c.messages.WF := flatten_wf _ _ GoMap.WF.nil
  have hperm : (sortBy bytesLe c.messages.keys).Perm c.messages.keys := sortBy_perm _ _
  obtain ⟨members, file, i1, i2, i3, i4⟩ := members_read hl ho c.messages (sortBy bytesLe c.messages.keys) []
    (hperm.nodup_iff.mpr hwm) (fun _ _ h => nomatch h) (fun k hk => by
      have hs := GoMap.get?_isSome.mpr (hperm.mem_iff.mp hk)
      cases hg : c.messages.get? k with
      | none => rw [hg] at hs; cases hs
      | some m => exact ⟨(hp k m hg).1, m, rfl, (hp k m hg).2⟩)
  refine ⟨members, file, ?_, i2, ?_, ?_, fun k => ?_⟩
  · unfold JsonCatalog.marshal
    show (marshalMembers c.messages (sortBy bytesLe c.messages.keys)).map Json.obj = _
    rw [i1]; rfl
  · unfold GoMap.WF; rw [i3]; exact hperm.nodup_iff.mpr hwm
  · rintro rfl
    have : c.messages.keys = [] := List.Perm.eq_nil (by rw [← i3] at hperm; exact hperm.symm)
    cases hc : c.messages with
    | nil => exact hne hc
    | cons p r => rw [hc] at this; cases this
  · cases hg : file.get? k with
    | none =>
      have : k ∉ c.messages.keys := by
        rw [← hperm.mem_iff, ← i3]; exact GoMap.get?_eq_none.mp hg
      rw [GoMap.get?_eq_none.mpr this]; trivial
    | some src =>
      obtain ⟨m, m', rfl, hm, h1⟩ := i4 k src (GoMap.mem_of_get? hg)
      rw [hm]; exact h1

/-- Writing a catalog with portable messages as JSON and reading it gives a catalog with the same lookups, for
every iteration order. -/
theorem C64_catalog_round_trip_partial {names names' : List Int} (hn : names'.Perm names) {lang : Tag} {domain : Bytes}
    {msgs : GoMap Bytes (Option JsonMessage)} (hw : msgs.WF) {c : JsonCatalog}
    (h : newJSONCatalogWithMessages names lang domain msgs = .ok c) (hne : c.messages ≠ [])
    (hp : ∀ k m, c.messages.get? k = some m → Utf8 k ∧ Portable m)
    {lower : Char → Char} (hl : KeepsAscii lower) {order : GoMap Bytes Bytes → GoMap Bytes Bytes}
    (ho : ∀ l, (order l).Perm l)
    {fileOrder : GoMap Bytes (Option JsonMessage) → GoMap Bytes (Option JsonMessage)} (hf : ∀ l, (fileOrder l).Perm l) :
    ∃ j c', c.marshal = some j ∧ jsonDecode names' lower order fileOrder lang domain j = .ok (some c') ∧ Alike c c' := by
  have hb := built_of hw h
  obtain ⟨_, m2, m3, m4⟩ := setAll_meta _ _ _ _ h
  have hempty : (JsonCatalog.new lang domain).lookupMap = [] := by
    unfold JsonCatalog.new
    cases (forLanguage lang).1 <;> rfl
  obtain ⟨members, file, i1, i2, hwf, hfn, i4⟩ := written_file hb hne hp hl ho
  obtain ⟨c', r1, r2⟩ := rebuild (names' := names') hn hb (file := fileOrder file) (hwf.perm (hf _).symm) (fun k => by
    rw [GoMap.same_of_perm (hwf.perm (hf _).symm) (hf file) k]
    have := i4 k
    revert this
    cases c.messages.get? k <;> cases file.get? k with
    | none => exact id
    | some src => cases src <;> first | exact id | exact And.right) hempty m2.symm m3.symm m4.symm
  refine ⟨.obj members, c', i1, ?_, r2⟩
  unfold jsonDecode JsonCatalog.unmarshal
  simp only []
  rw [i2]
  cases file with
  | nil => exact absurd rfl hfn
  | cons p r => simp only []; rw [r1]; rfl

example : ∃ c, newJSONCatalogWithMessages categoryNames [("de", some "de")] b!"d"
    [(b!"x_menu", some ⟨b!"c", b!"menu", some [(1, b!"a"), (5, b!"b")]⟩)] = .ok c ∧ c.messages ≠ [] ∧
    ∀ k m, c.messages.get? k = some m → Utf8 k ∧ Portable m := by
  refine ⟨_, rfl, by exact (fun h => nomatch h), fun k m h => ?_⟩
  have h' : GoMap.get? [(b!"x_menu", (⟨b!"c", b!"menu", some [(1, b!"a"), (5, b!"b")]⟩ : JsonMessage))] k = some m := h
  simp only [GoMap.get?] at h'
  split at h'
  · cases h'
    rename_i e
    exact ⟨⟨"x_menu".toList, by rw [← e]; decide⟩, portable_demo⟩
  · cases h'

/-- Restrictions are needed: an empty catalog is written but cannot be read. -/
theorem C64_negation : ∃ c j, newJSONCatalogWithMessages categoryNames [("de", some "de")] b!"d" [] = .ok c ∧
    c.marshal = some j ∧ jsonDecode categoryNames asciiLower id id [("de", some "de")] b!"d" j = .error .emptyFile :=
  ⟨_, _, rfl, rfl, rfl⟩

/-! ## C65, C66 -/

/-- Writing leaves a message with translations, or with a nil map, as it was. -/
theorem C65_marshal_pure_partial {m : JsonMessage} (h : m.translations ≠ some []) : m.afterMarshal = m := by
  unfold JsonMessage.afterMarshal
  split
  · rename_i e; exact absurd e h
  · rfl

example : (⟨[], [], some [(5, b!"x")]⟩ : JsonMessage).translations ≠ some [] := by decide

/-- Writing a message whose map is empty adds a text to it. -/
theorem C65_negation : ∃ m : JsonMessage, m.tr.get? other = none ∧ m.afterMarshal.tr.get? other = some [] :=
  ⟨⟨[], [], some []⟩, rfl, rfl⟩

/-- Unless the file is the text `null`, decoding returns an error or a catalog. -/
theorem C66_error_or_catalog_partial (names : List Int) (lower : Char → Char)
    (order : GoMap Bytes Bytes → GoMap Bytes Bytes)
    (fileOrder : GoMap Bytes (Option JsonMessage) → GoMap Bytes (Option JsonMessage)) (lang : Tag) (domain : Bytes)
    (data : Json) (h : data ≠ .null) :
    (∃ e, jsonDecode names lower order fileOrder lang domain data = .error e) ∨
    ∃ c, jsonDecode names lower order fileOrder lang domain data = .ok (some c) := by
  unfold jsonDecode
  cases data with
  | null => exact absurd rfl h
  | str s => exact Or.inl ⟨_, rfl⟩
  | other => exact Or.inl ⟨_, rfl⟩
  | obj fields =>
    simp only []
    cases (JsonCatalog.new lang domain).unmarshal names lower order fileOrder (.obj fields) with
    | error e => exact Or.inl ⟨e, rfl⟩
    | ok c => exact Or.inr ⟨c, rfl⟩

example : Json.obj [] ≠ .null := fun h => nomatch h

/-- For `null` it returns neither. -/
theorem C66_negation : jsonDecode categoryNames asciiLower id id [("de", some "de")] b!"d" .null = .ok none := rfl

end Verif.Props.Json
