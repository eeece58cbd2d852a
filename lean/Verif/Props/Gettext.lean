import Verif.Proofs.Catalog.Gettext
import Verif.Props.PoFile
/-!
# C19-C23, C62: gettext catalogs

`Consistent` files have messages stored under their own context and id; every file made by `AddMessage`
is (`C20_parsed_files_consistent`).  `Num` is a number as the plural engines see it.
-/
namespace Verif.Props.Gettext
open Verif.Go Verif.Model.Po Verif.Model.Catalog Verif.Proofs.Catalog Verif.Cldr
open Verif.Model.Cldr (RuleSet forLanguage newOperandsInt Operands)

/-- A catalog for the examples. -/
def demo : GettextCatalog where
  language := [("de", none)]
  domain := []
  pluralFunc := fun n => n.rounded.map fun k => if k = 1 then 0 else 1
  lookupMap := [([], [(b!"day", [(0, b!"Tag"), (1, b!"Tage")]), (b!"empty", [(0, [])])]), (b!"menu", [(b!"open", [(0, b!"Auf")])])]

/-! ## C19 -/

/-- The translation stored for context, id and form. -/
def stored (m : PoLookupMap) (ctx id : Bytes) (idx : Int) (text : Bytes) : Prop :=
  ∃ inner msg, m.get? ctx = some inner ∧ inner.get? id = some msg ∧ msg.get? idx = some text

/-- What a lookup of form `idx` may answer. -/
def GoodAnswer (c : GettextCatalog) (ctx id : Bytes) (idx : Int) (r : Bytes × Option LookupErr) : Prop :=
  match r.2 with
  | none => r.1 ≠ [] ∧ stored c.lookupMap ctx id idx r.1
  | some e => r.1 = id ∧
    (e = .missingContext c.domain ctx ∧ c.lookupMap.get? ctx = none ∨
     e = .missingMessageID c.domain ctx id ∧ (∃ inner, c.lookupMap.get? ctx = some inner ∧ inner.get? id = none) ∨
     e = .missingTranslation c.domain ctx id idx ∧
       (∃ inner msg, c.lookupMap.get? ctx = some inner ∧ inner.get? id = some msg ∧
         (msg.get? idx = none ∨ msg.get? idx = some [])))

theorem answer_of_getMessage (c : GettextCatalog) (ctx id : Bytes) (idx : Int) :
    GoodAnswer c ctx id idx (match c.getMessage ctx id idx with
      | .error e => (id, some e)
      | .ok msg => ((msg.get? idx).getD [], none)) := by
  unfold GettextCatalog.getMessage
  cases h1 : c.lookupMap.get? ctx with
  | none => exact ⟨rfl, Or.inl ⟨rfl, h1⟩⟩
  | some inner =>
    simp only []
    cases h2 : inner.get? id with
    | none => exact ⟨rfl, Or.inr (Or.inl ⟨rfl, inner, h1, h2⟩)⟩
    | some msg =>
      simp only []
      cases h3 : msg.get? idx with
      | none => exact ⟨rfl, Or.inr (Or.inr ⟨rfl, inner, msg, h1, h2, Or.inl h3⟩)⟩
      | some tr =>
        by_cases ht : tr = []
        · simp only [if_pos ht]
          exact ⟨rfl, Or.inr (Or.inr ⟨rfl, inner, msg, h1, h2, Or.inr (ht ▸ h3)⟩)⟩
        · simp only [if_neg ht]
          simp only [GoodAnswer, h3, Option.getD_some]
          exact ⟨ht, inner, msg, h1, h2, h3⟩

/-- `Lookup`: a non-empty stored text for form 0, or the id and the right error. -/
theorem C19_lookup (c : GettextCatalog) (ctx id : Bytes) : GoodAnswer c ctx id 0 (c.lookup ctx id) :=
  answer_of_getMessage c ctx id 0

/-- `LookupPlural`: a non-empty stored text for the form of the number, or the id and the right error. -/
theorem C19_lookup_plural (c : GettextCatalog) (ctx id : Bytes) (n : Num) :
    (∃ idx, c.pluralFunc n = some idx ∧ GoodAnswer c ctx id idx (c.lookupPlural ctx id n)) ∨
    (c.pluralFunc n = none ∧ c.lookupPlural ctx id n = (id, some .plural)) := by
  unfold GettextCatalog.lookupPlural
  cases h : c.pluralFunc n with
  | none => exact Or.inr ⟨rfl, rfl⟩
  | some idx => exact Or.inl ⟨idx, rfl, answer_of_getMessage c ctx id idx⟩

/-- Every stored non-empty text is found. -/
theorem C19_lookup_complete (c : GettextCatalog) (ctx id text : Bytes) (h : stored c.lookupMap ctx id 0 text)
    (hne : text ≠ []) : c.lookup ctx id = (text, none) := by
  obtain ⟨inner, msg, h1, h2, h3⟩ := h
  simp only [GettextCatalog.lookup, GettextCatalog.getMessage, h1, h2, h3, if_neg hne, Option.getD_some]

theorem C19_lookup_plural_complete (c : GettextCatalog) (ctx id text : Bytes) (n : Num) (idx : Int)
    (hp : c.pluralFunc n = some idx) (h : stored c.lookupMap ctx id idx text) (hne : text ≠ []) :
    c.lookupPlural ctx id n = (text, none) := by
  obtain ⟨inner, msg, h1, h2, h3⟩ := h
  simp only [GettextCatalog.lookupPlural, GettextCatalog.getMessage, hp, h1, h2, h3, if_neg hne, Option.getD_some]

example : demo.lookup b!"menu" b!"open" = (b!"Auf", none) ∧
    demo.lookupPlural [] b!"day" ⟨none, some 3⟩ = (b!"Tage", none) ∧
    demo.lookup [] b!"empty" = (b!"empty", some (.missingTranslation [] [] b!"empty" 0)) ∧
    demo.lookup b!"x" b!"day" = (b!"day", some (.missingContext [] b!"x")) := by decide

/-! ## C20 -/

/-- Fuzzy messages are those with the flag "fuzzy". -/
theorem C20_fuzzy (m : Message) : isFuzzy m = true ↔ ∃ c, m.comment = some c ∧ b!"fuzzy" ∈ c.flags := by
  unfold isFuzzy
  cases m.comment with
  | none => simp
  | some c => simp [Comment.hasFlag]

/-- The message of a file that a catalog should hold: not the header, not fuzzy. -/
def expected (f : File) (ctx id : Bytes) : Option (GoMap Int Bytes) :=
  match f.getMessage ctx id with
  | none => none
  | some m => if id = [] ∨ isFuzzy m then none else some m.str

/-- The message that a catalog holds. -/
def held (m : PoLookupMap) (ctx id : Bytes) : Option (GoMap Int Bytes) :=
  match m.get? ctx with
  | none => none
  | some inner => inner.get? id

/-- Every file built with `AddMessage` is consistent (the PO and MO parsers use nothing else). -/
theorem C20_parsed_files_consistent (h : Option Header) (msgs : List Message) :
    Consistent (msgs.foldl File.addMessage ⟨h, []⟩).messages := consistent_addAll Consistent.nil msgs

/-- For every consistent file, in every order of its maps, building does not panic, and the catalog holds
exactly the non-fuzzy messages with their translations. -/
theorem C20_exactly_non_fuzzy (u : Unicode) (f : File) (lang : Tag) (domain : Bytes) (useCLDR : Bool)
    (hc : Consistent f.messages) :
    ∃ r, buildGettextCatalog u f lang domain useCLDR = .ok r ∧
      ∀ c, r = some c → ∀ ctx id, held c.lookupMap ctx id = expected f ctx id := by
  obtain ⟨look, h1, h2⟩ := buildLookup_ok hc
  have hh : ∀ ctx id, held look ctx id = expected f ctx id := by
    intro ctx id
    have := h2 ctx
    unfold ContextOk at this
    unfold held expected File.getMessage
    cases hm : GoMap.get? f.messages ctx with
    | none => rw [hm] at this; simp only [] at this; rw [this]
    | some msgs =>
      rw [hm] at this
      cases msgs with
      | nil => simp only [] at this; rw [this]; rfl
      | cons p ps =>
        simp only [] at this
        obtain ⟨inner, hi, hw⟩ := this
        rw [hi]
        simp only [hw, wanted]
        by_cases h0 : id = []
        · rw [if_pos h0]
          cases GoMap.get? (p :: ps) id with
          | none => rfl
          | some m => simp [h0]
        · rw [if_neg h0]
          cases GoMap.get? (p :: ps) id with
          | none => rfl
          | some m => simp [h0]
  unfold buildGettextCatalog
  simp only [h1, bind, Except.bind]
  cases choosePlural u f.header lang useCLDR with
  | none => exact ⟨none, rfl, fun _ h => by cases h⟩
  | some pf =>
    refine ⟨_, rfl, ?_⟩
    rintro c ⟨rfl⟩
    exact hh

/-- What the catalog of a consistent file has stored: the texts of the non-fuzzy messages. -/
theorem stored_iff {u : Unicode} {f : File} {lang : Tag} {domain : Bytes} {useCLDR : Bool} {c : GettextCatalog}
    (hc : Consistent f.messages) (hb : buildGettextCatalog u f lang domain useCLDR = .ok (some c)) (ctx id text : Bytes) (k : Int) :
    stored c.lookupMap ctx id k text ↔
      id ≠ [] ∧ ∃ m, f.getMessage ctx id = some m ∧ isFuzzy m = false ∧ m.str.get? k = some text := by
  obtain ⟨r, hr, hh⟩ := C20_exactly_non_fuzzy u f lang domain useCLDR hc
  rw [hb] at hr
  have hh := hh c (Except.ok.inj hr).symm ctx id
  have hst : stored c.lookupMap ctx id k text ↔ ∃ tr, held c.lookupMap ctx id = some tr ∧ tr.get? k = some text := by
    unfold stored held
    constructor
    · rintro ⟨inner, msg, h1, h2, h3⟩
      rw [h1]; exact ⟨msg, h2, h3⟩
    · rintro ⟨tr, h, h3⟩
      cases h1 : c.lookupMap.get? ctx with
      | none => rw [h1] at h; cases h
      | some inner => rw [h1] at h; exact ⟨inner, tr, rfl, h, h3⟩
  have hex : ∀ tr, held c.lookupMap ctx id = some tr ↔
      id ≠ [] ∧ ∃ m, f.getMessage ctx id = some m ∧ isFuzzy m = false ∧ m.str = tr := by
    intro tr
    rw [hh]
    unfold expected
    cases f.getMessage ctx id with
    | none => simp
    | some m =>
      by_cases h0 : id = []
      · simp [h0]
      · by_cases hf : isFuzzy m = true
        · simp [hf]
        · simp [h0, hf]
  rw [hst]
  constructor
  · rintro ⟨tr, h1, h2⟩
    obtain ⟨h0, m, hm, hf, rfl⟩ := (hex tr).mp h1
    exact ⟨h0, m, hm, hf, h2⟩
  · rintro ⟨h0, m, hm, hf, ht⟩
    exact ⟨m.str, (hex _).mpr ⟨h0, m, hm, hf, rfl⟩, ht⟩

/-- What can be looked up in the catalog of a consistent file: exactly the non-empty texts of the non-fuzzy
messages. -/
theorem C20_lookup (u : Unicode) (f : File) (lang : Tag) (domain : Bytes) (useCLDR : Bool) (c : GettextCatalog)
    (hc : Consistent f.messages) (hb : buildGettextCatalog u f lang domain useCLDR = .ok (some c))
    (ctx id text : Bytes) :
    c.lookup ctx id = (text, none) ↔
      id ≠ [] ∧ text ≠ [] ∧ ∃ m, f.getMessage ctx id = some m ∧ isFuzzy m = false ∧ m.str.get? 0 = some text := by
  have hst := stored_iff hc hb ctx id text 0
  constructor
  · intro h
    have hg := C19_lookup c ctx id
    rw [h] at hg
    obtain ⟨hne, hs⟩ := hg
    obtain ⟨h0, hm⟩ := hst.mp hs
    exact ⟨h0, hne, hm⟩
  · rintro ⟨h0, hne, hm⟩
    exact C19_lookup_complete c ctx id text (hst.mpr ⟨h0, hm⟩) hne

/-- The same for plural forms: the text of the form that the plural function of the catalog chooses. -/
theorem C20_lookup_plural (u : Unicode) (f : File) (lang : Tag) (domain : Bytes) (useCLDR : Bool) (c : GettextCatalog)
    (hc : Consistent f.messages) (hb : buildGettextCatalog u f lang domain useCLDR = .ok (some c))
    (ctx id text : Bytes) (n : Num) :
    c.lookupPlural ctx id n = (text, none) ↔
      id ≠ [] ∧ text ≠ [] ∧ ∃ k m, c.pluralFunc n = some k ∧ f.getMessage ctx id = some m ∧ isFuzzy m = false ∧
        m.str.get? k = some text := by
  constructor
  · intro h
    rcases C19_lookup_plural c ctx id n with ⟨k, hk, hg⟩ | ⟨_, h'⟩
    · rw [h] at hg
      obtain ⟨hne, hs⟩ := hg
      obtain ⟨h0, m, hm⟩ := (stored_iff hc hb ctx id text k).mp hs
      exact ⟨h0, hne, k, m, hk, hm⟩
    · rw [h] at h'
      cases (Prod.mk.inj h').2
  · rintro ⟨h0, hne, k, m, hk, hm⟩
    exact C19_lookup_plural_complete c ctx id text n k hk ((stored_iff hc hb ctx id text k).mpr ⟨h0, m, hm⟩) hne

/-- The order of the maps does not matter: consistent files with the same messages give catalogs that hold
the same messages. -/
theorem C20_map_order (u : Unicode) (f g : File) (lang : Tag) (domain : Bytes) (useCLDR : Bool)
    (hf : Consistent f.messages) (hg : Consistent g.messages)
    (same : ∀ ctx id, f.getMessage ctx id = g.getMessage ctx id) (cf cg : GettextCatalog)
    (h1 : buildGettextCatalog u f lang domain useCLDR = .ok (some cf))
    (h2 : buildGettextCatalog u g lang domain useCLDR = .ok (some cg)) (ctx id : Bytes) :
    held cf.lookupMap ctx id = held cg.lookupMap ctx id := by
  obtain ⟨r, hr, hh⟩ := C20_exactly_non_fuzzy u f lang domain useCLDR hf
  obtain ⟨r', hr', hh'⟩ := C20_exactly_non_fuzzy u g lang domain useCLDR hg
  rw [h1] at hr; rw [h2] at hr'
  rw [hh cf (Except.ok.inj hr).symm, hh' cg (Except.ok.inj hr').symm]
  unfold expected
  rw [same]

/-- A file with a fuzzy and a non-fuzzy message. -/
def demoFile : File :=
  [⟨none, [], b!"day", b!"days", [(0, b!"Tag"), (1, b!"Tage")]⟩,
   ⟨some { Comment.new with flags := [b!"fuzzy"] }, [], b!"night", [], [(0, b!"Nacht?")]⟩,
   ⟨none, b!"menu", b!"open", [], [(0, b!"Auf")]⟩].foldl File.addMessage ⟨none, []⟩

example : Consistent demoFile.messages ∧
    ((buildGettextCatalog PoFile.ascii demoFile [] [] false).toOption.bind id).map
      (fun c => (held c.lookupMap [] b!"day", held c.lookupMap [] b!"night", held c.lookupMap b!"menu" b!"open")) =
    some (some [(0, b!"Tag"), (1, b!"Tage")], none, some [(0, b!"Auf")]) :=
  ⟨C20_parsed_files_consistent none _, rfl⟩

/-- A file whose maps do not match the messages makes `buildGettextCatalog` panic (writing to a nil map);
only files assembled by hand are like that. -/
theorem C20_inconsistent_file_panics (u : Unicode) (lang : Tag) (domain : Bytes) (useCLDR : Bool) :
    ∃ f, buildGettextCatalog u f lang domain useCLDR = .error .nilMapWrite :=
  ⟨⟨none, [([], [(b!"a", ⟨none, b!"other", b!"a", [], []⟩)])]⟩, rfl⟩

/-! ## C21 -/

theorem copyOuter_error : ∀ {m : PoLookupMap} {cpy : PoLookupMap} {ctx : Bytes} {inner : GoMap Bytes (GoMap Int Bytes)},
    (ctx, inner) ∈ m → inner ≠ [] → copyOuter cpy m = .error .nilDereference
  | (c, i) :: m, cpy, ctx, inner, h, hne => by
    unfold copyOuter
    cases i with
    | cons p i => obtain ⟨a, b⟩ := p; rfl
    | nil =>
      rcases List.mem_cons.mp h with e | h
      · cases e; exact absurd rfl hne
      · exact copyOuter_error h hne

/-- `Messages()` panics for every catalog that holds a message. -/
theorem C21_negation (c : GettextCatalog) (ctx id : Bytes) (tr : GoMap Int Bytes)
    (h : held c.lookupMap ctx id = some tr) : c.messages = .error .nilDereference := by
  unfold held at h
  cases h1 : c.lookupMap.get? ctx with
  | none => rw [h1] at h; cases h
  | some inner =>
    rw [h1] at h
    refine copyOuter_error (GoMap.mem_of_get? h1) ?_
    rintro rfl
    cases h

example : held demo.lookupMap [] b!"day" ≠ none ∧ demo.messages = .error .nilDereference := ⟨by decide, rfl⟩

theorem copyOuter_empty : ∀ {m : PoLookupMap} {cpy : PoLookupMap}, (∀ ctx inner, (ctx, inner) ∈ m → inner = []) →
    ∃ r, copyOuter cpy m = .ok r ∧ ∀ ctx, r.get? ctx = if ctx ∈ m.keys then some [] else cpy.get? ctx
  | [], cpy, _ => ⟨cpy, rfl, fun _ => rfl⟩
  | (c, i) :: m, cpy, h => by
    have hi := h c i List.mem_cons_self
    subst hi
    obtain ⟨r, h1, h2⟩ := copyOuter_empty (m := m) (cpy := cpy.set c []) fun c i hm => h c i (List.mem_cons_of_mem _ hm)
    refine ⟨r, h1, fun ctx => ?_⟩
    rw [h2, GoMap.keys_cons, GoMap.get?_set]
    by_cases hk : ctx ∈ GoMap.keys m
    · rw [if_pos hk, if_pos (List.mem_cons_of_mem _ hk)]
    · rw [if_neg hk]
      by_cases e : c = ctx
      · rw [if_pos e, if_pos (e ▸ List.mem_cons_self)]
      · rw [if_neg e, if_neg (List.not_mem_cons_of_ne_of_not_mem (Ne.symm e) hk)]

/-- `Messages()` of a catalog without messages returns a copy.  Missing for the full claim: every catalog
with a message (see `C21_negation`). -/
theorem C21_copy_of_empty_partial (c : GettextCatalog) (h : ∀ ctx inner, (ctx, inner) ∈ c.lookupMap → inner = []) :
    ∃ r, c.messages = .ok r ∧ ∀ ctx, r.get? ctx = c.lookupMap.get? ctx := by
  obtain ⟨r, h1, h2⟩ := copyOuter_empty (cpy := []) h
  refine ⟨r, h1, fun ctx => ?_⟩
  rw [h2]
  split
  · rename_i hk
    cases hg : c.lookupMap.get? ctx with
    | none => exact absurd hk (GoMap.get?_eq_none.mp hg)
    | some inner => rw [h _ _ (GoMap.mem_of_get? hg)]
  · rename_i hk
    rw [GoMap.get?_eq_none.mpr hk]; rfl

example : ∃ c : GettextCatalog, c.lookupMap ≠ [] ∧ ∀ ctx inner, (ctx, inner) ∈ c.lookupMap → inner = [] := by
  refine ⟨{ demo with lookupMap := [(b!"only fuzzy", [])] }, by decide, ?_⟩
  intro ctx inner h
  simp only [List.mem_cons, Prod.mk.injEq, List.not_mem_nil, or_false] at h
  exact h.2

/-! ## C22 (gettext part) -/

/-- The catalog of a PO or MO file never knows its domain: it reports the empty domain whatever was passed. -/
theorem C22_negation (u : Unicode) (f : File) (lang : Tag) (domain : Bytes) (useCLDR : Bool) (c : GettextCatalog)
    (h : buildGettextCatalog u f lang domain useCLDR = .ok (some c)) : c.domain = [] := by
  unfold buildGettextCatalog at h
  simp only [bind, Except.bind] at h
  cases hb : buildLookup [] f.messages with
  | error e => rw [hb] at h; cases h
  | ok look =>
    rw [hb] at h
    cases hp : choosePlural u f.header lang useCLDR with
    | none => rw [hp] at h; cases h
    | some pf => rw [hp] at h; cases h; rfl

example : ∃ c, buildGettextCatalog PoFile.ascii demoFile [] b!"web" false = .ok (some c) ∧
    c.lookup [] b!"night" = (b!"night", some (.missingMessageID [] [] b!"night")) := ⟨_, rfl, by decide⟩

/-! ## C23 -/

/-- For every language and every number the CLDR plural index is the position of its category in the
ascending list of categories; it is in range, and equal indices mean equal categories. -/
theorem C23_cldr_index (lang : Tag) :
    ∃ rs, (forLanguage lang).1 = some rs ∧
      (∀ n ops, n.operands = some ops → ∃ k : Nat, getCLDRPluralFunction lang n = some (k : Int) ∧
        k < rs.categories.length ∧ rs.categories[k]? = some (rs.form ops)) ∧
      (∀ n, n.operands = none → getCLDRPluralFunction lang n = none) ∧
      rs.categories.Pairwise (fun a b => a.toNat < b.toNat) := by
  obtain ⟨rs, hrs, hmem, hasc, _⟩ := Cldr.C33_category_listed lang
  have hnd : rs.categories.Nodup := by
    refine hasc.imp ?_
    rintro a b h rfl
    exact Nat.lt_irrefl _ h
  refine ⟨rs, hrs, fun n ops hn => ⟨rs.categories.idxOf (rs.form ops), ?_, ?_, ?_⟩, fun n hn => ?_, hasc⟩
  · simp only [getCLDRPluralFunction, hrs, RuleSet.evaluate, hn, Option.map_some]
    rw [fillForms_get? _ _ _ _ hnd, if_pos (hmem ops)]
    simp
  · exact List.idxOf_lt_length_of_mem (hmem ops)
  · rw [List.getElem?_eq_getElem (List.idxOf_lt_length_of_mem (hmem ops)), List.getElem_idxOf]
  · simp only [getCLDRPluralFunction, hrs, RuleSet.evaluate, hn, Option.map_none]

example : getCLDRPluralFunction [("ru", some "ru")] ⟨some (newOperandsInt 3), none⟩ = some 1 ∧
    getCLDRPluralFunction [("ru", some "ru")] ⟨some (newOperandsInt 5), none⟩ = some 2 := by decide +kernel

/-- Numbers of different categories get different indices. -/
theorem C23_injective (lang : Tag) (rs : RuleSet) (h : (forLanguage lang).1 = some rs) (n n' : Num)
    (ops ops' : Operands) (hn : n.operands = some ops) (hn' : n'.operands = some ops') :
    getCLDRPluralFunction lang n = getCLDRPluralFunction lang n' ↔ rs.form ops = rs.form ops' := by
  obtain ⟨rs', hrs, hidx, _⟩ := C23_cldr_index lang
  rw [h] at hrs
  cases hrs
  obtain ⟨k, h1, _, h2⟩ := hidx n ops hn
  obtain ⟨k', h1', _, h2'⟩ := hidx n' ops' hn'
  constructor
  · intro e
    rw [h1, h1'] at e
    have : k = k' := Int.ofNat.inj (Option.some.inj e)
    rw [this, h2'] at h2
    exact (Option.some.inj h2).symm
  · intro e
    simp only [getCLDRPluralFunction, h, RuleSet.evaluate, hn, hn', Option.map_some, e]

/-! ## C62: which plural rule a catalog uses -/

/-- Without CLDR decoder and CLDR header, a readable Plural-Forms header decides, and an unreadable one is an
error; in all other cases the CLDR rules of the language decide.  Missing for the full property: the header decides
for a CLDR decoder and a language without CLDR rules (`C62_negation`). -/
theorem C62_plural_rule_partial (u : Unicode) (f : File) (lang : Tag) (domain : Bytes) (useCLDR : Bool)
    (hc : Consistent f.messages) :
    (∀ h, f.header = some h → useCLDR = false → h.pluralForms ≠ [] → u.equalFold (h.get u poCLDRHeader) b!"true" = false →
      (∀ rule, Verif.Model.PoPlural.parseRule (runes h.pluralForms) = .ok rule →
        ∃ c, buildGettextCatalog u f lang domain useCLDR = .ok (some c) ∧
          ∀ n, c.pluralFunc n = n.rounded.map rule.form) ∧
      (∀ e, Verif.Model.PoPlural.parseRule (runes h.pluralForms) = .error e →
        buildGettextCatalog u f lang domain useCLDR = .ok none)) ∧
    ((f.header = none ∨ (∃ h, f.header = some h ∧
        (useCLDR = true ∨ h.pluralForms = [] ∨ u.equalFold (h.get u poCLDRHeader) b!"true" = true))) →
      ∃ c, buildGettextCatalog u f lang domain useCLDR = .ok (some c) ∧
        c.pluralFunc = getCLDRPluralFunction lang) := by
  obtain ⟨look, h1, _⟩ := buildLookup_ok hc
  have hb : buildGettextCatalog u f lang domain useCLDR = (match choosePlural u f.header lang useCLDR with
      | none => .ok none
      | some f => .ok (some { language := lang, domain := [], pluralFunc := f, lookupMap := look })) := by
    unfold buildGettextCatalog
    simp only [h1, bind, Except.bind]
    cases choosePlural u f.header lang useCLDR <;> rfl
  rw [hb]
  refine ⟨fun h hh hu hp hx => ?_, fun hor => ?_⟩
  · refine ⟨fun rule hr => ?_, fun e he => ?_⟩
    · simp only [choosePlural, hh, hu, hp, hx, hr, Bool.false_or, decide_false, Bool.false_eq_true, if_false]
      exact ⟨_, rfl, fun n => rfl⟩
    · simp only [choosePlural, hh, hu, hp, hx, he, Bool.false_or, decide_false, Bool.false_eq_true, if_false]
  · have : choosePlural u f.header lang useCLDR = some (getCLDRPluralFunction lang) := by
      rcases hor with h | ⟨h, hh, ho⟩
      · rw [h]; rfl
      · rw [hh]
        unfold choosePlural
        simp only []
        rcases ho with h' | h' | h'
        · simp [h']
        · simp [h']
        · split
          · rfl
          · rfl
    rw [this]
    exact ⟨_, rfl, rfl⟩

example : ∃ (h : Header) (rule : Verif.Model.PoPlural.Rule), h.pluralForms ≠ [] ∧
    PoFile.ascii.equalFold (h.get PoFile.ascii poCLDRHeader) b!"true" = false ∧
    Verif.Model.PoPlural.parseRule (runes h.pluralForms) = .ok rule := by
  refine ⟨{ pluralForms := b!"nplurals=2; plural=n != 1;" }, Verif.Model.PoPlural.rule_af, by decide, by decide, ?_⟩
  rfl

/-- Contrary to its documentation (po_decoder.go:38-44), a CLDR decoder does not use the Plural-Forms header
for a language without CLDR rule: it uses the English rules. -/
theorem C62_negation (u : Unicode) (f : File) (domain : Bytes) (lang : Tag) (hc : Consistent f.messages)
    (hl : (forLanguage lang).2 = false) :
    ∃ c, buildGettextCatalog u f lang domain true = .ok (some c) ∧
      c.pluralFunc = getCLDRPluralFunction lang ∧ (forLanguage lang).1 = (forLanguage [("en", none)]).1 := by
  obtain ⟨_, h2⟩ := C62_plural_rule_partial u f lang domain true hc
  have hor : f.header = none ∨ (∃ h, f.header = some h ∧
      (true = true ∨ h.pluralForms = [] ∨ u.equalFold (h.get u poCLDRHeader) b!"true" = true)) := by
    cases f.header with
    | none => exact Or.inl rfl
    | some h => exact Or.inr ⟨h, rfl, Or.inl rfl⟩
  obtain ⟨c, hb, hp⟩ := h2 hor
  refine ⟨c, hb, hp, ?_⟩
  have key : ∀ lang : Tag, (forLanguage lang).2 = false →
      (forLanguage lang).1 = Verif.Model.Cldr.getBuiltInForLanguage "en" := by
    intro lang
    induction lang with
    | nil => intro _; rfl
    | cons x lang ih =>
      obtain ⟨t, b⟩ := x
      intro h
      unfold forLanguage at h ⊢
      split at h
      · cases h
      · split at h
        · cases h
        · rename_i h1 _ h2
          exact ih h
  rw [key lang hl]
  rfl

example : (forLanguage [("tlh", some "tlh")]).2 = false := by decide +kernel

end Verif.Props.Gettext
