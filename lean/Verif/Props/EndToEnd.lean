import Verif.Model.Spreak.Files
import Verif.Props.Bundle
import Verif.Props.Gettext
import Verif.Props.JsonSave
import Verif.Props.Loader
import Verif.Props.Mo
import Verif.Props.PoEncoder
import Verif.Props.PoParser
/-!
# C78: from the file to the text
-/
namespace Verif.Props.EndToEnd
open Verif.Go Verif.Model.PoString Verif.Model.Spreak Verif.Props.Loader Verif.Model.Catalog
open Verif.Proofs.Spreak hiding outcome
open Verif.Model.Po (Unicode Message File Header trimSpace)

variable {V : Type}

/-- A bundle that was created with a loader for a domain which reads a file system. -/
structure Deployed (w : World Lang Num V) (B : Bundle Lang Num) (domain : Bytes) (fs : FileSystem) (r : DefaultResolver)
    (ds : List (Bytes × Decoder Lang Outcome)) : Prop where
  created : ∃ (order : Order Lang Num) (opts : List (Opt Lang Num)) (es : List (Event Lang)) (ld : Loader Lang Num),
    Perms order ∧ newBundle w order opts = .ok (B, es) ∧ .domainLoader domain (some ld) ∈ opts ∧
    Behaves (loaderOf fs r Lang.info ds) ld

/-- The file that is read for a language and a domain: the first place that exists, its decoder and its content. -/
def FileFor (fs : FileSystem) (r : DefaultResolver) (ds : List (Bytes × Decoder Lang Outcome)) (lang : Lang) (domain : Bytes)
    (d : Decoder Lang Outcome) (content : Bytes) : Prop :=
  ∃ before p after, searched r Lang.info ds lang domain = before ++ (d, p) :: after ∧ fs p = some (.file content) ∧
    ∀ x ∈ before, fs x.2 = none

/-- The decoders of the package: none of them says that a file does not exist. -/
def Honest (ds : List (Bytes × Decoder Lang Outcome)) : Prop :=
  ∀ d ∈ ds, (∃ u c, d.2 = poDecoder u c) ∨ (∃ u c, d.2 = moDecoder u c) ∨ ∃ j, d.2 = jsonDecoder j

theorem outcome_notExist (d : Decoded) : outcome d ≠ .error .notExist := by cases d <;> simp [outcome]

theorem honest_notExist {ds : List (Bytes × Decoder Lang Outcome)} (h : Honest ds) (lang : Lang) (domain : Bytes) :
    ∀ d ∈ ds, ∀ c, d.2 lang domain c ≠ .error .notExist := by
  intro d hd c
  rcases h d hd with ⟨u, b, e⟩ | ⟨u, b, e⟩ | ⟨j, e⟩
  · rw [e]
    cases c with
    | none => simp [poDecoder]
    | some c => exact outcome_notExist _
  · rw [e]
    cases c with
    | none => simp [moDecoder]
    | some c => exact outcome_notExist _
  · rw [e]
    unfold jsonDecoder
    split
    · simp
    · split <;> simp

/-- A loader that is created with a file system alone reads PO, MO and JSON files of it, in this order, with the decoders
of the package. -/
theorem C78_standard (u : Unicode) (j : JsonWorld) (fs : FileSystem) :
    newFilesystemLoader Lang.info (poDecoder u false) (moDecoder u false) (jsonDecoder j) [.fs (some fs)] =
      some (loaderOf fs {} Lang.info (standardDecoders u j)) ∧
    Honest (standardDecoders u j) ∧ (standardDecoders u j).map Prod.fst = [b!".po", b!".mo", b!".json"] := by
  refine ⟨rfl, fun d hd => ?_, rfl⟩
  simp only [standardDecoders, List.mem_cons, List.not_mem_nil, or_false] at hd
  rcases hd with rfl | rfl | rfl
  · exact .inl ⟨_, _, rfl⟩
  · exact .inr (.inl ⟨_, _, rfl⟩)
  · exact .inr (.inr ⟨_, rfl⟩)

/-- The catalog that a supported language has for the domain. -/
theorem catalog_of {w : World Lang Num V} {B : Bundle Lang Num} {domain : Bytes} {fs : FileSystem} {r : DefaultResolver}
    {ds : List (Bytes × Decoder Lang Outcome)} (hd : Deployed w B domain fs r ds) (hh : Honest ds) {lang : Lang}
    (hl : lang ∈ B.languages) (hs : lang ≠ B.source.language) {d : Decoder Lang Outcome} {content : Bytes}
    (hf : FileFor fs r ds lang domain d content) :
    ∃ loc, B.locales.get? lang = some loc ∧ loc.language = lang ∧ loc.isSource = false ∧
      ∀ c, d lang domain (some content) = .ok (.catalog c) → loc.catalogs.get? domain = some c := by
  obtain ⟨order, opts, es, ld, ho, hb, hm, hbe⟩ := hd.created
  have hk := (Bundle.C69_languages ho hb lang).1 hl
  cases hg : B.locales.get? lang with
  | none => exact absurd hk (GoMap.get?_eq_none.1 hg)
  | some loc =>
    obtain ⟨h1, h2⟩ := Bundle.C43_optional ho hb hg
    rcases h2 with ⟨_, h2⟩ | ⟨h3, _, _, h4⟩
    · exact absurd h2 hs
    · refine ⟨loc, rfl, h1, h3, fun c hc => (h4 domain c).2 ⟨ld, hm, ?_⟩⟩
      obtain ⟨before, p, after, hse, hp, hbf⟩ := hf
      have := C46_first_file_partial fs r Lang.info ds lang domain (honest_notExist hh lang domain) before after d p content hse hp hbf
      have hbe := hbe lang domain
      rw [this, hc] at hbe
      exact hbe

/-- What the catalog of the file answers is what a localizer for the language returns, without error and without report;
and it returns nothing else without error. -/
theorem C78_served {w : World Lang Num V} {B : Bundle Lang Num} {domain : Bytes} {fs : FileSystem} {r : DefaultResolver}
    {ds : List (Bytes × Decoder Lang Outcome)} (hd : Deployed w B domain fs r ds) (hh : Honest ds) {lang : Lang}
    (hl : lang ∈ B.languages) (hs : lang ≠ B.source.language) {d : Decoder Lang Outcome} {content : Bytes}
    (hf : FileFor fs r ds lang domain d content) {c : Model.Spreak.Catalog Lang Num}
    (hc : d lang domain (some content) = .ok (.catalog (some c))) (dd ctx id plural t : Bytes) (n : Num) (vars : List V)
    (reports : List (Err Lang)) :
    ((newLocalizerFromTag B dd (some lang)).lookupSingular w domain ctx id vars = .ok (reports, t, none) ↔
      reports = [] ∧ ∃ text, c.lookup ctx id = .ok text ∧ t = w.print lang text vars) ∧
    ((newLocalizerFromTag B dd (some lang)).lookupPlural w domain ctx id plural n vars = .ok (reports, t, none) ↔
      reports = [] ∧ ∃ text, c.lookupPlural ctx id n = .ok text ∧ t = w.print lang text vars) := by
  obtain ⟨loc, h1, h2, h3, h4⟩ := catalog_of hd hh hl hs hf
  have e : newLocalizerFromTag B dd (some lang) = ⟨B, loc, dd, true⟩ := by
    unfold newLocalizerFromTag
    simp only [Option.bind_some, h1]
  rw [e]
  constructor
  · unfold Localizer.lookupSingular
    simp only []
    rw [Locale.lookupSingular.eq_1 w B.callback loc domain ctx id vars, h3, h4 _ hc]
    simp only [Bool.false_eq_true, if_false]
    cases c.lookup ctx id with
    | ok text =>
      simp only [h2, if_true]
      constructor
      · intro h
        cases h
        exact ⟨rfl, _, rfl, rfl⟩
      · rintro ⟨rfl, _, h, rfl⟩
        cases h
        rfl
    | error e =>
      simp only []
      constructor
      · intro h
        split at h <;> split at h <;> try split at h
        all_goals cases h
      · rintro ⟨_, _, h, _⟩
        cases h
  · unfold Localizer.lookupPlural
    simp only []
    rw [Locale.lookupPlural.eq_1 w B.callback loc domain ctx id plural n vars, h3, h4 _ hc]
    simp only [Bool.false_eq_true, if_false]
    cases c.lookupPlural ctx id n with
    | ok text =>
      simp only [h2, if_true]
      constructor
      · intro h
        cases h
        exact ⟨rfl, _, rfl, rfl⟩
      · rintro ⟨rfl, _, h, rfl⟩
        cases h
        rfl
    | error e =>
      simp only []
      constructor
      · intro h
        split at h <;> try split at h
        all_goals cases h
      · rintro ⟨_, _, h, _⟩
        cases h

/-! ## Gettext files -/

/-- The plural form of a number: by the rule in the header, or by the CLDR rules of the language if the header has none or
asks for them. -/
def Form (u : Unicode) (lang : Lang) (header : Option Header) (n : Num) (k : Int) : Prop :=
  (∃ h rule, header = some h ∧ h.pluralForms ≠ [] ∧ u.equalFold (h.get u b!"X-spreak-use-CLDR") b!"true" = false ∧
    Model.PoPlural.parseRule (runes h.pluralForms) = .ok rule ∧ n.rounded.map rule.form = some k) ∨
  (∀ h ∈ header, h.pluralForms = [] ∨ u.equalFold (h.get u b!"X-spreak-use-CLDR") b!"true" = true) ∧
    getCLDRPluralFunction lang.tag n = some k

/-- The rule in the header can be read, if there is one. -/
def Readable (header : Option Header) : Prop :=
  ∀ h ∈ header, h.pluralForms ≠ [] → ∃ rule, Model.PoPlural.parseRule (runes h.pluralForms) = .ok rule

/-- A text that a file has as translation: of a message that is not marked as fuzzy. -/
def Translated (f : File) (ctx id : Bytes) (k : Int) (text : Bytes) : Prop :=
  id ≠ [] ∧ text ≠ [] ∧ ∃ m, f.getMessage ctx id = some m ∧ isFuzzy m = false ∧ m.str.get? k = some text

/-- A localizer for the language serves the translations of a file, and serves nothing else without error. -/
def Serves (w : World Lang Num V) (u : Unicode) (B : Bundle Lang Num) (lang : Lang) (domain : Bytes) (f : File) : Prop :=
  ∀ (dd ctx id plural t : Bytes) (n : Num) (vars : List V) (reports : List (Err Lang)),
    ((newLocalizerFromTag B dd (some lang)).lookupSingular w domain ctx id vars = .ok (reports, t, none) ↔
      reports = [] ∧ ∃ text, Translated f ctx id 0 text ∧ t = w.print lang text vars) ∧
    ((newLocalizerFromTag B dd (some lang)).lookupPlural w domain ctx id plural n vars = .ok (reports, t, none) ↔
      reports = [] ∧ ∃ k text, Form u lang f.header n k ∧ Translated f ctx id k text ∧ t = w.print lang text vars)

theorem answer_ok (r : Bytes × Option LookupErr) (t : Bytes) : answer r = .ok t ↔ r = (t, none) := by
  obtain ⟨t', e⟩ := r
  cases e <;> simp [answer]

/-- The plural function of the catalog that is built for a file. -/
theorem built {u : Unicode} {f : File} (hc : Proofs.Catalog.Consistent f.messages) (hr : Readable f.header) (lang : Lang) (domain : Bytes) :
    ∃ c, buildGettextCatalog u f lang.tag domain false = .ok (some c) ∧ ∀ n k, c.pluralFunc n = some k ↔ Form u lang f.header n k := by
  obtain ⟨h1, h2⟩ := Gettext.C62_plural_rule_partial u f lang.tag domain false hc
  by_cases hd : ∀ h ∈ f.header, h.pluralForms = [] ∨ u.equalFold (h.get u b!"X-spreak-use-CLDR") b!"true" = true
  · obtain ⟨c, hb, hp⟩ := h2 (by
      cases hf : f.header with
      | none => exact .inl rfl
      | some h => exact .inr ⟨h, rfl, .inr (hd h hf)⟩)
    refine ⟨c, hb, fun n k => ?_⟩
    rw [hp]
    constructor
    · exact fun h => .inr ⟨hd, h⟩
    · rintro (⟨h, rule, e, q1, q2, _⟩ | ⟨_, h⟩)
      · rcases hd h e with h' | h'
        · exact absurd h' q1
        · rw [q2] at h'; cases h'
      · exact h
  · simp only [not_forall, not_or] at hd
    obtain ⟨h, e, q1, q2⟩ := hd
    have q2 : u.equalFold (h.get u b!"X-spreak-use-CLDR") b!"true" = false := by simpa using q2
    obtain ⟨rule, hrule⟩ := hr h e q1
    obtain ⟨c, hb, hp⟩ := (h1 h e rfl q1 q2).1 rule hrule
    refine ⟨c, hb, fun n k => ?_⟩
    rw [hp]
    constructor
    · exact fun h' => .inl ⟨h, rule, e, q1, q2, hrule, h'⟩
    · rintro (⟨h', rule', e', _, _, hr', q⟩ | ⟨hd, _⟩)
      · rw [e] at e'
        cases e'
        rw [hrule] at hr'
        cases hr'
        exact q
      · rcases hd h e with h' | h'
        · exact absurd h' q1
        · rw [q2] at h'; cases h'

/-- What is served is what the file has. -/
theorem serves {w : World Lang Num V} {u : Unicode} {B : Bundle Lang Num} {domain : Bytes} {fs : FileSystem} {r : DefaultResolver}
    {ds : List (Bytes × Decoder Lang Outcome)} (hd : Deployed w B domain fs r ds) (hh : Honest ds) {lang : Lang}
    (hl : lang ∈ B.languages) (hs : lang ≠ B.source.language) {d : Decoder Lang Outcome} {content : Bytes}
    (hf : FileFor fs r ds lang domain d content) {f : File} (hc : Proofs.Catalog.Consistent f.messages) (hr : Readable f.header)
    (hdec : ∀ c, buildGettextCatalog u f lang.tag domain false = .ok (some c) →
      d lang domain (some content) = .ok (.catalog (some (gettextCatalog c)))) : Serves w u B lang domain f := by
  obtain ⟨c, hb, hp⟩ := built (u := u) hc hr lang domain
  intro dd ctx id plural t n vars reports
  obtain ⟨s1, s2⟩ := C78_served hd hh hl hs hf (hdec c hb) dd ctx id plural t n vars reports
  refine ⟨s1.trans (and_congr_right fun _ => exists_congr fun text => and_congr_left fun _ => ?_),
    s2.trans (and_congr_right fun _ => ?_)⟩
  · exact (answer_ok _ _).trans (Gettext.C20_lookup u f lang.tag domain false c hc hb ctx id text)
  · have key : ∀ text, (gettextCatalog c).lookupPlural ctx id n = .ok text ↔
        ∃ k, Form u lang f.header n k ∧ Translated f ctx id k text := by
      intro text
      refine (answer_ok _ _).trans ((Gettext.C20_lookup_plural u f lang.tag domain false c hc hb ctx id text n).trans ?_)
      constructor
      · rintro ⟨q1, q2, k, m, q3, q4⟩
        exact ⟨k, (hp n k).1 q3, q1, q2, m, q4⟩
      · rintro ⟨k, q3, q1, q2, m, q4⟩
        exact ⟨q1, q2, k, m, (hp n k).2 q3, q4⟩
    constructor
    · rintro ⟨text, h, rfl⟩
      obtain ⟨k, h1, h2⟩ := (key text).1 h
      exact ⟨k, text, h1, h2, rfl⟩
    · rintro ⟨k, text, h1, h2, rfl⟩
      exact ⟨text, (key text).2 ⟨k, h1, h2⟩, rfl⟩

/-- PO files. -/
theorem C78_po {w : World Lang Num V} {u : Unicode} {B : Bundle Lang Num} {domain : Bytes} {fs : FileSystem} {r : DefaultResolver}
    {ds : List (Bytes × Decoder Lang Outcome)} (hd : Deployed w B domain fs r ds) (hh : Honest ds) {lang : Lang}
    (hl : lang ∈ B.languages) (hs : lang ≠ B.source.language) {content : Bytes}
    (hf : FileFor fs r ds lang domain (poDecoder u false) content) {f : File} (hp : Model.Po.parse u true content = .ok f)
    (hr : Readable f.header) : Serves w u B lang domain f := by
  obtain ⟨_, hc, _⟩ := Proofs.Po.parse_ok hp
  refine serves hd hh hl hs hf hc hr fun c hb => ?_
  simp only [poDecoder, poDecode, hp, hb, outcome]

/-- MO files. -/
theorem C78_mo {w : World Lang Num V} {u : Unicode} {B : Bundle Lang Num} {domain : Bytes} {fs : FileSystem} {r : DefaultResolver}
    {ds : List (Bytes × Decoder Lang Outcome)} (hd : Deployed w B domain fs r ds) (hh : Honest ds) {lang : Lang}
    (hl : lang ∈ B.languages) (hs : lang ≠ B.source.language) {content : Bytes}
    (hf : FileFor fs r ds lang domain (moDecoder u false) content) {f : File} (hp : Model.Mo.parse u content = some f)
    (hr : Readable f.header) : Serves w u B lang domain f := by
  have hc : Proofs.Catalog.Consistent f.messages := by
    obtain ⟨_, _, _, _, _, _, _, _, _, _, _, _, _, hf⟩ := Proofs.Mo.parse_iff.1 hp
    rw [hf]; exact Proofs.Mo.load_consistent u _ Verif.Proofs.Catalog.Consistent.nil
  refine serves hd hh hl hs hf hc hr fun c hb => ?_
  simp only [moDecoder, Model.Mo.moDecode, hp, hb, outcome]

/-! ## Files written by the encoder -/

/-- The header has tidy values, and says at most once whether to use CLDR rules. -/
structure Tidy (u : Unicode) (h : Header) : Prop where
  pluralForms : trimSpace h.pluralForms = h.pluralForms
  unknown : ∀ p ∈ h.unknownFields, trimSpace p.2 = p.2
  once : ∀ p ∈ h.unknownFields, ∀ q ∈ h.unknownFields, u.equalFold p.1 b!"X-spreak-use-CLDR" = true →
    u.equalFold q.1 b!"X-spreak-use-CLDR" = true → p = q

theorem fieldOf_cldr {u : Unicode} (hu : PoFile.AsciiOk u) : Model.Po.fieldOf u b!"X-spreak-use-CLDR" = none := by
  have : Model.Po.fieldOf u b!"X-spreak-use-CLDR" = Model.Po.fieldOf PoFile.ascii b!"X-spreak-use-CLDR" := by
    unfold Model.Po.fieldOf
    congr 1
    funext g
    rw [PoFile.toUpper_key hu]
    have : u.toUpper b!"X-spreak-use-CLDR" = PoFile.ascii.toUpper b!"X-spreak-use-CLDR" := by
      unfold Unicode.toUpper
      rw [List.map_congr_left fun c hc => hu.upper c ?_]
      · rfl
      · revert c; decide
    rw [this]
  rw [this]
  decide

/-- The value found is that of a name of the right spelling, if there is one. -/
theorem findFold_spec (u : Unicode) (key : Bytes) : ∀ m : GoMap Bytes Bytes,
    (∃ k v, m.get? k = some v ∧ u.equalFold k key = true ∧ Model.Po.findFold u key m = v) ∨
    (∀ k v, m.get? k = some v → u.equalFold k key = false) ∧ Model.Po.findFold u key m = []
  | [] => .inr ⟨nofun, rfl⟩
  | (k, v) :: m => by
    unfold Model.Po.findFold
    by_cases hq : u.equalFold k key = true
    · rw [if_pos hq]
      exact .inl ⟨k, v, by simp [GoMap.get?], hq, rfl⟩
    · rw [if_neg hq]
      rcases findFold_spec u key m with ⟨k', v', h1, h2, h3⟩ | ⟨h1, h2⟩
      · refine .inl ⟨k', v', ?_, h2, h3⟩
        have : k ≠ k' := by rintro rfl; exact hq h2
        simpa [GoMap.get?, this] using h1
      · refine .inr ⟨fun k' v' h => ?_, h2⟩
        by_cases hk : k = k'
        · subst hk; simpa using hq
        · exact h1 k' v' (by simpa [GoMap.get?, hk] using h)

/-- Headers with the same fields choose the same forms. -/
theorem form_congr {u : Unicode} (hu : PoFile.AsciiOk u) {h h' : Header} (ht : Tidy u h)
    (hf : h'.pluralForms = h.pluralForms) (hk : ∀ k, h'.unknownFields.get? k = h.unknownFields.get? k) (lang : Lang) (n : Num) (k : Int) :
    Form u lang (some h') n k ↔ Form u lang (some h) n k := by
  have hg : h'.get u b!"X-spreak-use-CLDR" = h.get u b!"X-spreak-use-CLDR" := by
    unfold Header.get
    rw [fieldOf_cldr hu]
    simp only []
    rcases findFold_spec u b!"X-spreak-use-CLDR" h.unknownFields with ⟨k, v, h1, h2, h3⟩ | ⟨h1, h3⟩
    · rcases findFold_spec u b!"X-spreak-use-CLDR" h'.unknownFields with ⟨k', v', q1, q2, q3⟩ | ⟨q1, q3⟩
      · rw [h3, q3]
        rw [hk] at q1
        exact (Prod.mk.inj (ht.once _ (GoMap.mem_of_get? q1) _ (GoMap.mem_of_get? h1) q2 h2)).2
      · rw [← hk] at h1
        rw [q1 k v h1] at h2
        cases h2
    · rcases findFold_spec u b!"X-spreak-use-CLDR" h'.unknownFields with ⟨k', v', q1, q2, q3⟩ | ⟨q1, q3⟩
      · rw [hk] at q1
        rw [h1 k' v' q1] at q2
        cases q2
      · rw [h3, q3]
  unfold Form
  simp only [Option.some.injEq, Option.mem_def, exists_and_left, exists_eq_left', forall_eq', hf, hg]

open Verif.Model.Po (Encoder Sorter) in
open Verif.Spec.PoFile Verif.Spec.PoEntry Verif.Proofs.Po in
/-- A message is read as translated as it was written. -/
theorem translated_read {f f' : File} {enc : Encoder}
    (h : ∀ c i, Option.Rel (fun m m' => ∃ m1, Reordered m m1 ∧
        MessageRead enc.wrapWidth enc.writeReferences m1 ((entryOf enc m1).message false) ∧ m' = (entryOf enc m1).message true)
      (f.getMessage c i) (f'.getMessage c i)) (ctx id : Bytes) (k : Int) (text : Bytes) :
    Translated f' ctx id k text ↔ Translated f ctx id k text := by
  unfold Translated
  refine and_congr_right fun _ => and_congr_right fun hne => ?_
  have := h ctx id
  revert this
  generalize f.getMessage ctx id = a
  generalize f'.getMessage ctx id = b
  intro this
  cases this with
  | none => simp
  | @some m m' h =>
    obtain ⟨m1, q1, q2, rfl⟩ := h
    have hfz : isFuzzy ((entryOf enc m1).message true) = isFuzzy m := by
      obtain ⟨c', e1, e2⟩ := q2.comment
      have e3 : c'.flags = flagsOf (entryOf enc m1).comments := by
        have : ((entryOf enc m1).message false).comment = some (commentOf false (entryOf enc m1).comments) := rfl
        rw [this] at e1
        cases e1
        rfl
      have e4 : isFuzzy ((entryOf enc m1).message true) = decide (b!"fuzzy" ∈ (m1.comment.getD .new).flags) := by
        rw [← e2.flags, e3]
        rfl
      rw [e4]
      have hc := q1.comment
      cases hm : m.comment with
      | none =>
        rw [hm] at hc
        cases hm1 : m1.comment with
        | some _ => rw [hm1] at hc; cases hc
        | none =>
          simp only [isFuzzy, hm]
          rfl
      | some c =>
        rw [hm] at hc
        cases hm1 : m1.comment with
        | none => rw [hm1] at hc; cases hc
        | some c1 =>
          rw [hm1] at hc
          cases hc with
          | some hs =>
            simp only [isFuzzy, hm, Option.getD_some, Model.Po.Comment.hasFlag]
            exact decide_eq_decide.2 hs.flags.mem_iff
    have hstr : ((entryOf enc m1).message true).str.get? k = some text ↔ m.str.get? k = some text := by
      have : ((entryOf enc m1).message true).str.get? k = filled m1 k := q2.str k
      rw [this]
      unfold filled
      rw [q1.str]
      cases m.str.get? k with
      | some t => simp
      | none =>
        simp only [Option.none_or]
        split
        · simp [Ne.symm hne]
        · simp
    simp only [Option.some.injEq, exists_eq_left', hfz, hstr]

open Verif.Model.Po (Encoder Sorter) in
open Verif.Spec.PoFile Verif.Spec.PoEntry Verif.Proofs.Po in
/-- What a program has put into a `po.File` and written with the encoder is served. -/
theorem C78_written {w : World Lang Num V} {u : Unicode} (hu : PoFile.AsciiOk u) {enc : Encoder} {sort : Sorter}
    (hs : Spec.PoSort.Honest sort) {f : File} (hok : FileOk enc f)
    (hhd : (f.header = none ∧ ∃ c i m, f.getMessage c i = some m) ∨
      ∃ h, f.header = some h ∧ WritesHeader enc h ∧ NamesOk u h ∧ Tidy u h) (hr : Readable f.header)
    {out : Bytes} (ho : enc.encode sort f = .ok out) (hsh : Short (splitByte 0x0a out))
    {B : Bundle Lang Num} {domain : Bytes} {fs : FileSystem} {r : DefaultResolver}
    {ds : List (Bytes × Decoder Lang Outcome)} (hd : Deployed w B domain fs r ds) (hh : Honest ds) {lang : Lang}
    (hl : lang ∈ B.languages) (hsrc : lang ≠ B.source.language)
    (hf : FileFor fs r ds lang domain (poDecoder u false) out) : Serves w u B lang domain f := by
  obtain ⟨out', ho', hrt⟩ := round_trip_any u true enc sort hs f hok
  rw [ho] at ho'
  cases ho'
  have key : ∃ f', Model.Po.parse u true out = .ok f' ∧ (∀ c i, Option.Rel (fun m m' => ∃ m1, Reordered m m1 ∧
        MessageRead enc.wrapWidth enc.writeReferences m1 ((entryOf enc m1).message false) ∧ m' = (entryOf enc m1).message true)
      (f.getMessage c i) (f'.getMessage c i)) ∧ Readable f'.header ∧ ∀ n k, Form u lang f'.header n k ↔ Form u lang f.header n k := by
    rcases hhd with ⟨hn, hm⟩ | ⟨h, hhd, hw, hn, ht⟩
    · obtain ⟨f', h1, h2, h3⟩ := hrt hsh (.inl (PoEncoder.get_ne_nil hok.keyed hm))
      have hhead : headOf enc f = none := by unfold headOf; rw [hn]
      rw [hhead] at h3
      simp only [Option.bind_none, Option.getD_none] at h3
      refine ⟨f', h1, h2, ?_, fun n k => ?_⟩
      · rw [h3]
        intro h hh
        cases hh
        intro hc
        exact absurd rfl hc
      · rw [h3, hn]
        unfold Form
        simp
    · have hhead : headOf enc f = some (headerEntry enc h) := by
        unfold headOf
        rw [hhd]
        simp only
        rw [if_pos ⟨hw.1, fun hsk => hw.2 ((skipped_iff enc h).1 hsk)⟩]
      obtain ⟨h', hp, hrd⟩ := header_read hu enc (hok.header h hhd) fun e he => by
        obtain ⟨h1, h2, h3⟩ := hn e he
        refine ⟨?_, h2, h3⟩
        unfold Model.Po.fieldOf
        rw [List.find?_eq_none]
        intro g _
        simpa using h1 g
      have hp' : Model.Po.parseHeader u ((headerEntry enc h).message true) =
          some { h' with comment := ((headerEntry enc h).message true).comment } := by
        unfold Model.Po.parseHeader at hp ⊢
        cases hl : Model.Po.headerLoop u {} (splitByte 0x0a (Model.Po.strAt ((headerEntry enc h).message false).str 0)) with
        | none => rw [hl] at hp; cases hp
        | some x =>
          rw [hl] at hp
          cases hp
          have : ((headerEntry enc h).message true).str = ((headerEntry enc h).message false).str := rfl
          rw [this, hl]
          rfl
      obtain ⟨f', h1, h2, h3⟩ := hrt hsh (.inr ⟨_, hhead, by rw [hp']; nofun⟩)
      rw [hhead] at h3
      simp only [Option.bind_some, hp', Option.getD_some] at h3
      have hpf : h'.pluralForms = h.pluralForms := by
        have := hrd.fields .pluralForms
        exact this.trans ht.pluralForms
      refine ⟨f', h1, h2, ?_, fun n k => ?_⟩
      · rw [h3]
        intro x hx
        cases hx
        intro hne
        rw [hpf] at hne ⊢
        exact hr h hhd hne
      · rw [h3, hhd]
        refine form_congr (h' := { h' with comment := ((headerEntry enc h).message true).comment }) hu ht hpf (fun k => ?_) lang n k
        show h'.unknownFields.get? k = _
        rw [hrd.unknown]
        cases hg : h.unknownFields.get? k with
        | none => rfl
        | some v => simp [ht.unknown _ (GoMap.mem_of_get? hg)]
  obtain ⟨f', h1, h2, h3, h4⟩ := key
  have := C78_po (w := w) (u := u) hd hh hl hsrc hf h1 h3
  intro dd ctx id plural t n vars reports
  obtain ⟨s1, s2⟩ := this dd ctx id plural t n vars reports
  simp only [translated_read h2] at s1 s2
  simp only [h4] at s2
  exact ⟨s1, s2⟩

/-! ## JSON files -/

/-- A localizer for the language serves the non-empty texts of a JSON catalog, and serves nothing else without error. -/
def ServesJson (w : World Lang Num V) (B : Bundle Lang Num) (lang : Lang) (domain : Bytes) (c : JsonCatalog) : Prop :=
  ∀ (dd ctx id plural t : Bytes) (n : Num) (vars : List V) (reports : List (Err Lang)),
    ((newLocalizerFromTag B dd (some lang)).lookupSingular w domain ctx id vars = .ok (reports, t, none) ↔
      reports = [] ∧ ∃ text, text ≠ [] ∧ Json.stored c ctx id other text ∧ t = w.print lang text vars) ∧
    ((newLocalizerFromTag B dd (some lang)).lookupPlural w domain ctx id plural n vars = .ok (reports, t, none) ↔
      reports = [] ∧ ∃ k text, c.plural n = some k ∧ text ≠ [] ∧ Json.stored c ctx id k text ∧ t = w.print lang text vars)

theorem json_lookup (c : JsonCatalog) (ctx id text : Bytes) :
    (jsonCatalog c).lookup ctx id = .ok text ↔ text ≠ [] ∧ Json.stored c ctx id other text := by
  refine (answer_ok _ _).trans ⟨fun h => ?_, fun h => (Json.C19_json_complete c ctx id other text h.1 h.2).1 rfl⟩
  have := Json.C19_json_lookup c ctx id
  rw [h] at this
  exact this

theorem json_lookupPlural (c : JsonCatalog) (ctx id text : Bytes) (n : Num) :
    (jsonCatalog c).lookupPlural ctx id n = .ok text ↔ ∃ k, c.plural n = some k ∧ text ≠ [] ∧ Json.stored c ctx id k text := by
  refine (answer_ok _ _).trans ⟨fun h => ?_, fun ⟨k, hk, h⟩ => (Json.C19_json_complete c ctx id k text h.1 h.2).2 n hk⟩
  have := Json.C19_json_lookup_plural c ctx id n
  rw [h] at this
  cases hk : c.plural n with
  | none => rw [hk] at this; simp at this
  | some k => rw [hk] at this; exact ⟨k, rfl, this⟩

theorem servesJson {w : World Lang Num V} {B : Bundle Lang Num} {domain : Bytes} {fs : FileSystem} {r : DefaultResolver}
    {ds : List (Bytes × Decoder Lang Outcome)} (hd : Deployed w B domain fs r ds) (hh : Honest ds) {lang : Lang}
    (hl : lang ∈ B.languages) (hs : lang ≠ B.source.language) {content : Bytes} {j : JsonWorld}
    (hf : FileFor fs r ds lang domain (jsonDecoder j) content) {c' : JsonCatalog}
    (hc : jsonDecodeText j.names j.lower j.order j.fileOrder lang.tag domain content = .ok (some c'))
    {c : JsonCatalog} (hcc : Json.Alike c c') : ServesJson w B lang domain c := by
  intro dd ctx id plural t n vars reports
  obtain ⟨s1, s2⟩ := C78_served hd hh hl hs hf (c := jsonCatalog c') (by
    simp only [jsonDecoder, hc, Option.map_some]) dd ctx id plural t n vars reports
  have e1 : ∀ ctx id, (jsonCatalog c').lookup ctx id = (jsonCatalog c).lookup ctx id := fun ctx id =>
    (congrArg answer (hcc.1 ctx id)).symm
  have e2 : ∀ ctx id n, (jsonCatalog c').lookupPlural ctx id n = (jsonCatalog c).lookupPlural ctx id n := fun ctx id n =>
    (congrArg answer (hcc.2 ctx id n)).symm
  refine ⟨s1.trans (and_congr_right fun _ => exists_congr fun text => ?_), s2.trans (and_congr_right fun _ => ?_)⟩
  · rw [e1, json_lookup, and_assoc]
  · constructor
    · rintro ⟨text, h, rfl⟩
      rw [e2, json_lookupPlural] at h
      obtain ⟨k, h1, h2, h3⟩ := h
      exact ⟨k, text, h1, h2, h3, rfl⟩
    · rintro ⟨k, text, h1, h2, h3, rfl⟩
      exact ⟨text, by rw [e2, json_lookupPlural]; exact ⟨k, h1, h2, h3⟩, rfl⟩

/-- JSON files. -/
theorem C78_json {w : World Lang Num V} {B : Bundle Lang Num} {domain : Bytes} {fs : FileSystem} {r : DefaultResolver}
    {ds : List (Bytes × Decoder Lang Outcome)} (hd : Deployed w B domain fs r ds) (hh : Honest ds) {lang : Lang}
    (hl : lang ∈ B.languages) (hs : lang ≠ B.source.language) {content : Bytes} {j : JsonWorld}
    (hf : FileFor fs r ds lang domain (jsonDecoder j) content) {c : JsonCatalog}
    (hc : jsonDecodeText j.names j.lower j.order j.fileOrder lang.tag domain content = .ok (some c)) :
    ServesJson w B lang domain c :=
  servesJson hd hh hl hs hf hc ⟨fun _ _ => rfl, fun _ _ _ => rfl⟩

/-- A catalog with portable messages that was written as JSON is served. -/
theorem C78_json_written {w : World Lang Num V} {names : List Int} {lang : Lang} {domain : Bytes}
    {msgs : GoMap Bytes (Option JsonMessage)} (hw : msgs.WF) {c : JsonCatalog}
    (h : newJSONCatalogWithMessages names lang.tag domain msgs = .ok c) (hne : c.messages ≠ [])
    (hp : ∀ k m, c.messages.get? k = some m → Json.Utf8 k ∧ Json.Portable m)
    {j : JsonWorld} (hn : j.names.Perm names) (hlow : Json.KeepsAscii j.lower) (ho : ∀ l, (j.order l).Perm l)
    (hfo : ∀ l, (j.fileOrder l).Perm l) {content : Bytes} (hr : jsonEncode (some c) = some content)
    {B : Bundle Lang Num} {fs : FileSystem} {r : DefaultResolver}
    {ds : List (Bytes × Decoder Lang Outcome)} (hd : Deployed w B domain fs r ds) (hh : Honest ds)
    (hl : lang ∈ B.languages) (hs : lang ≠ B.source.language)
    (hf : FileFor fs r ds lang domain (jsonDecoder j) content) : ServesJson w B lang domain c := by
  obtain ⟨t, c', h1, h2, h3⟩ := JsonText.C84_round_trip_partial hn hw h hne hp hlow ho hfo
  rw [hr] at h1
  cases h1
  exact servesJson hd hh hl hs hf h2 h3

/-- A JSON file that was read and saved is served as before. -/
theorem C78_json_saved {w : World Lang Num V} {j0 j : JsonWorld} (hn : j.names.Perm j0.names) (hlow : Json.KeepsAscii j.lower)
    (ho0 : ∀ l, (j0.order l).Perm l) (ho : ∀ l, (j.order l).Perm l) (hfo0 : ∀ l, (j0.fileOrder l).Perm l)
    (hfo : ∀ l, (j.fileOrder l).Perm l) {lang : Lang} {domain : Bytes} {old : Bytes} {c : JsonCatalog}
    (h : jsonDecodeText j0.names j0.lower j0.order j0.fileOrder lang.tag domain old = .ok (some c)) {content : Bytes}
    (hr : jsonEncode (some c) = some content) {B : Bundle Lang Num} {fs : FileSystem} {r : DefaultResolver}
    {ds : List (Bytes × Decoder Lang Outcome)} (hd : Deployed w B domain fs r ds) (hh : Honest ds)
    (hl : lang ∈ B.languages) (hs : lang ≠ B.source.language)
    (hf : FileFor fs r ds lang domain (jsonDecoder j) content) : ServesJson w B lang domain c := by
  obtain ⟨t, c', h1, h2, h3, _⟩ := JsonSave.C85_save hn hlow ho0 ho hfo0 hfo h
  rw [hr] at h1
  cases h1
  exact servesJson hd hh hl hs hf h2 h3

/-! ## C79: files that cannot be read -/

/-- All loaders of the options read a file system with decoders of the package. -/
def FilesOnly (opts : List (Opt Lang Num)) : Prop := ∀ d ld, .domainLoader d (some ld) ∈ opts →
  ∃ fs r ds, Honest ds ∧ Behaves (loaderOf fs r Lang.info ds) ld ∧ ∀ t, ∃ x, (loaderOf fs r Lang.info ds).load t d = .ok x ∧
    x ≠ .ok .panic ∧ x ≠ .ok .hang

theorem behaves_cases {l : FsLoader Lang Outcome} {ld : Loader Lang Num} (h : Behaves l ld) {t : Lang} {d : Bytes}
    (hx : ∃ x, l.load t d = .ok x ∧ x ≠ .ok .panic ∧ x ≠ .ok .hang) :
    (∃ c, ld t d = .ok c) ∨ ld t d = .error .notFound ∨ ∃ k, ld t d = .error (.loader k) := by
  obtain ⟨x, h1, h2, h3⟩ := hx
  have := h t d
  rw [h1] at this
  match x, h2, h3, this with
  | .ok (.catalog c), _, _, this => exact .inl ⟨c, this⟩
  | .ok .panic, h2, _, _ => exact absurd rfl h2
  | .ok .hang, _, h3, _ => exact absurd rfl h3
  | .error .notFound, _, _, this => exact .inr (.inl this)
  | .error .notExist, _, _, this => exact .inr (.inr this)
  | .error .other, _, _, this => exact .inr (.inr this)

/-- A file that cannot be decoded prevents the creation of every bundle that asks for its language. -/
theorem C79_broken_file {w : World Lang Num V} {order : Order Lang Num} (ho : Perms order) {opts : List (Opt Lang Num)}
    (hfo : FilesOnly opts) {domain : Bytes} {ld : Loader Lang Num} (hl : .domainLoader domain (some ld) ∈ opts)
    {fs : FileSystem} {r : DefaultResolver} {ds : List (Bytes × Decoder Lang Outcome)} (hh : Honest ds)
    (hbe : Behaves (loaderOf fs r Lang.info ds) ld) {lang : Lang} {d : Decoder Lang Outcome} {content : Bytes}
    (hf : FileFor fs r ds lang domain d content) {e : LoadErr} (hbad : d lang domain (some content) = .error e)
    {o : Opt Lang Num} (hm : o ∈ opts) (ha : Bundle.Asks w o lang) (hu : lang ≠ w.und) (B : Bundle Lang Num) (es : List (Event Lang))
    (hs : lang ≠ B.source.language) : newBundle w order opts ≠ .ok (B, es) := by
  intro hb
  have hno : Bundle.NoMissingOpts opts := by
    intro d ld hd t t' hc
    obtain ⟨fs, r, ds, _, h1, h2⟩ := hfo d ld hd
    rcases behaves_cases h1 (h2 t) with ⟨c, h⟩ | h | ⟨k, h⟩ <;> (rw [h] at hc; cases hc)
  have hg := Bundle.C79_no_failure_partial ho hno hb hm ha hu hs hl
  obtain ⟨before, p, after, hse, hp, hbf⟩ := hf
  have hmem : (d, p) ∈ searched r Lang.info ds lang domain := by rw [hse]; simp
  have hdec : e = .other := by
    unfold searched at hmem
    obtain ⟨x, hx, hy⟩ := List.mem_flatMap.1 hmem
    obtain ⟨q, _, hq⟩ := List.mem_map.1 hy
    have hd : d = x.2 := (Prod.mk.inj hq).1.symm
    rw [hd] at hbad
    rcases hh x hx with ⟨u, b, e'⟩ | ⟨u, b, e'⟩ | ⟨j, e'⟩
    · rw [e'] at hbad
      simp only [poDecoder] at hbad
      revert hbad
      cases poDecode u lang.tag domain b content <;> simp [outcome] <;> exact fun h => h.symm
    · rw [e'] at hbad
      simp only [moDecoder] at hbad
      revert hbad
      cases Model.Mo.moDecode u lang.tag domain b content <;> simp [outcome] <;> exact fun h => h.symm
    · rw [e'] at hbad
      unfold jsonDecoder at hbad
      split at hbad
      · cases hbad; rfl
      · split at hbad
        · cases hbad; rfl
        · cases hbad
  have := C46_first_file_partial fs r Lang.info ds lang domain (honest_notExist hh lang domain) before after d p content hse hp hbf
  have hbe := hbe lang domain
  rw [this, hbad, hdec] at hbe
  obtain ⟨k, hk⟩ := hbe
  rcases hg with ⟨c, hc⟩ | hc <;> (rw [hk] at hc; cases hc)

/-! ## A deployment -/

def english : Lang := ⟨[("en", some "en")], ⟨b!"en", some (b!"en", b!"eng"), none, none⟩⟩
def german : Lang := ⟨[("de", some "de")], ⟨b!"de", some (b!"de", b!"deu"), none, none⟩⟩
def french : Lang := ⟨[("fr", some "fr")], ⟨b!"fr", some (b!"fr", b!"fra"), none, none⟩⟩

/-- Texts are printed as they are. -/
def demoWorld : World Lang Num Unit := ⟨⟨[], ⟨b!"und", none, none, none⟩⟩, fun _ t _ => t, fun _ n => n.rounded, fun _ => none⟩

def demoJson : JsonWorld := ⟨[], id, id, id⟩

/-- A German file, and a French one that is broken. -/
def demoFs : FileSystem := fun p =>
  if p = b!"de/LC_MESSAGES/app.po" then
    some (.file b!"msgid \"\"\nmsgstr \"Plural-Forms: nplurals=2; plural=n != 1;\\n\"\n\nmsgid \"%d day\"\nmsgid_plural \"%d days\"\nmsgstr[0] \"%d Tag\"\nmsgstr[1] \"%d Tage\"\n\n#, fuzzy\nmsgid \"a\"\nmsgstr \"A\"\n")
  else if p = b!"fr.po" then some (.file b!"x")
  else none

abbrev demoDecoders : List (Bytes × Decoder Lang Outcome) := standardDecoders PoFile.ascii demoJson

/-- The loader that reads them. -/
def demoLoader : Loader Lang Num := fun t d =>
  match (loaderOf demoFs {} Lang.info demoDecoders).load t d with
  | .ok (.ok (.catalog c)) => .ok c
  | .ok (.error .notFound) => .error .notFound
  | _ => .error (.loader 0)

theorem demo_behaves : Behaves (loaderOf demoFs {} Lang.info demoDecoders) demoLoader := by
  intro t d
  unfold demoLoader
  split <;> simp_all

theorem demo_honest : Honest demoDecoders := (C78_standard _ _ demoFs).2.1

def demoOpts : List (Opt Lang Num) := [.source english, .domainLoader b!"app" (some demoLoader), .language [.tag german]]

theorem demo_deployed : ∃ B, Deployed demoWorld B b!"app" demoFs {} demoDecoders ∧ german ∈ B.languages ∧
    german ≠ B.source.language ∧
    (newLocalizerFromTag B [] (some german)).lookupPlural demoWorld b!"app" [] b!"%d day" b!"%d days" ⟨none, some 3⟩ [] =
      .ok ([], b!"%d Tage", none) ∧
    (∃ e, (newLocalizerFromTag B [] (some german)).lookupSingular demoWorld b!"app" [] b!"a" [] = .ok ([], b!"a", some e)) := by
  have h : ∃ B es, newBundle demoWorld (fun _ m => m) demoOpts = .ok (B, es) ∧ german ∈ B.languages ∧
    german ≠ B.source.language ∧
    (newLocalizerFromTag B [] (some german)).lookupPlural demoWorld b!"app" [] b!"%d day" b!"%d days" ⟨none, some 3⟩ [] =
      .ok ([], b!"%d Tage", none) ∧
    (∃ e, (newLocalizerFromTag B [] (some german)).lookupSingular demoWorld b!"app" [] b!"a" [] = .ok ([], b!"a", some e)) :=
    ⟨_, _, rfl, by decide, by decide, rfl, _, rfl⟩
  obtain ⟨B, es, h1, h2⟩ := h
  exact ⟨B, ⟨_, demoOpts, es, demoLoader, fun _ _ => .refl _, h1, by simp [demoOpts], demo_behaves⟩, h2⟩

theorem fileFor_of {fs : FileSystem} {r : DefaultResolver} {ds : List (Bytes × Decoder Lang Outcome)} {lang : Lang} {domain : Bytes}
    {d : Decoder Lang Outcome} {content p : Bytes} (n : Nat) (h : (searched r Lang.info ds lang domain)[n]? = some (d, p))
    (hp : fs p = some (.file content))
    (hb : (((searched r Lang.info ds lang domain).take n).map Prod.snd).all (fun p => (fs p).isNone) = true) :
    FileFor fs r ds lang domain d content := by
  obtain ⟨hn, he⟩ := List.getElem?_eq_some_iff.1 h
  refine ⟨(searched r Lang.info ds lang domain).take n, p, (searched r Lang.info ds lang domain).drop (n + 1), ?_, hp, fun x hx => ?_⟩
  · rw [← he]
    exact ((List.take_append_drop n _).symm.trans (by rw [List.drop_eq_getElem_cons hn]))
  · have := List.all_eq_true.1 hb x.2 (List.mem_map.2 ⟨x, hx, rfl⟩)
    simpa using this

example : ∃ content f h, FileFor demoFs {} demoDecoders german b!"app" (poDecoder PoFile.ascii false) content ∧
    Model.Po.parse PoFile.ascii true content = .ok f ∧ f.header = some h ∧ h.pluralForms ≠ [] ∧ Readable f.header ∧
    Form PoFile.ascii german f.header ⟨none, some 3⟩ 1 ∧ Translated f [] b!"%d day" 1 b!"%d Tage" := by
  refine ⟨_, _, _, fileFor_of 8 rfl rfl (by decide +kernel), rfl, rfl, by decide, ?_, .inl ⟨_, _, rfl, by decide, by decide, rfl, rfl⟩,
    by decide, by decide, _, rfl, rfl, rfl⟩
  rintro h ⟨rfl⟩ _
  exact ⟨_, rfl⟩

example : Tidy PoFile.ascii { pluralForms := b!"nplurals=2; plural=n != 1;", unknownFields := [(b!"X-Poedit", b!"3"), (b!"x-SPREAK-use-cldr", b!"no")] } := by
  refine ⟨by decide +kernel, by decide +kernel, ?_⟩
  decide +kernel

/-- A broken file. -/
def brokenFs : FileSystem := fun p => if p = b!"fr.po" then some (.file b!"x") else none

def brokenLoader : Loader Lang Num := fun t d =>
  match (loaderOf brokenFs {} Lang.info demoDecoders).load t d with
  | .ok (.ok (.catalog c)) => .ok c
  | .ok (.error .notFound) => .error .notFound
  | _ => .error (.loader 0)

theorem broken_behaves : Behaves (loaderOf brokenFs {} Lang.info demoDecoders) brokenLoader := by
  intro t d
  unfold brokenLoader
  split <;> simp_all

example : FilesOnly [.domainLoader b!"app" (some brokenLoader), .language [.tag french]] ∧
    FileFor brokenFs {} demoDecoders french b!"app" (poDecoder PoFile.ascii false) b!"x" ∧
    poDecoder PoFile.ascii false french b!"app" (some b!"x") = .error .other := by
  refine ⟨?_, fileFor_of 11 rfl rfl (by decide +kernel), rfl⟩
  intro d ld h
  simp only [List.mem_cons, Opt.domainLoader.injEq, Option.some.injEq, reduceCtorEq, List.not_mem_nil, or_false] at h
  obtain ⟨rfl, rfl⟩ := h
  refine ⟨brokenFs, {}, demoDecoders, demo_honest, broken_behaves, fun t => ?_⟩
  rw [C46_first_existing_partial brokenFs {} Lang.info demoDecoders t b!"app" (honest_notExist demo_honest t _)]
  split
  · exact ⟨_, rfl, nofun, nofun⟩
  · rename_i d p hf
    have hm := List.mem_of_find?_eq_some hf
    obtain ⟨x, hx, hy⟩ := List.mem_flatMap.1 hm
    obtain ⟨q, _, hq⟩ := List.mem_map.1 hy
    have hd : d = x.2 := (Prod.mk.inj hq).1.symm
    rw [hd]
    simp only [demoDecoders, standardDecoders, List.mem_cons, List.not_mem_nil, or_false] at hx
    have hc : (brokenFs p).bind Node.content = none ∨ (brokenFs p).bind Node.content = some b!"x" := by
      unfold brokenFs
      split
      · exact .inr rfl
      · exact .inl rfl
    rcases hx with rfl | rfl | rfl <;> rcases hc with hc | hc <;> rw [hc] <;> exact ⟨_, rfl, nofun, nofun⟩

/-- A JSON file. -/
def jsonText : Bytes := b!"{\"a\": \"A\", \"day\": {\"one\": \"Tag\", \"other\": \"Tage\"}}"

def jsonFs : FileSystem := fun p => if p = b!"de.json" then some (.file jsonText) else none

def jsonReader : JsonWorld := ⟨categoryNames, PoFile.asciiLower, id, id⟩

abbrev jsonDecoders : List (Bytes × Decoder Lang Outcome) := standardDecoders PoFile.ascii jsonReader

def jsonLoader : Loader Lang Num := fun t d =>
  match (loaderOf jsonFs {} Lang.info jsonDecoders).load t d with
  | .ok (.ok (.catalog c)) => .ok c
  | .ok (.error .notFound) => .error .notFound
  | _ => .error (.loader 0)

example : ∃ B, Deployed demoWorld B b!"app" jsonFs {} jsonDecoders ∧ german ∈ B.languages ∧ german ≠ B.source.language ∧
    (newLocalizerFromTag B [] (some german)).lookupPlural demoWorld b!"app" [] b!"day" [] ⟨some (Model.Cldr.newOperandsInt 1), some 1⟩ [] =
      .ok ([], b!"Tag", none) := by
  have h : ∃ B es, newBundle demoWorld (fun _ m => m) [.source english, .domainLoader b!"app" (some jsonLoader), .language [.tag german]] =
      .ok (B, es) ∧ german ∈ B.languages ∧ german ≠ B.source.language ∧
    (newLocalizerFromTag B [] (some german)).lookupPlural demoWorld b!"app" [] b!"day" [] ⟨some (Model.Cldr.newOperandsInt 1), some 1⟩ [] =
      .ok ([], b!"Tag", none) :=
    ⟨_, _, rfl, by decide, by decide, rfl⟩
  obtain ⟨B, es, h1, h2⟩ := h
  refine ⟨B, ⟨_, _, es, jsonLoader, fun _ _ => .refl _, h1, by simp, ?_⟩, h2⟩
  intro t d
  unfold jsonLoader
  split <;> simp_all

example : ∃ c, FileFor jsonFs {} jsonDecoders german b!"app" (jsonDecoder jsonReader) jsonText ∧
    jsonDecodeText jsonReader.names jsonReader.lower jsonReader.order jsonReader.fileOrder german.tag b!"app" jsonText = .ok (some c) ∧
    Json.stored c [] b!"day" 1 b!"Tag" :=
  ⟨_, fileFor_of 39 rfl rfl (by decide +kernel), rfl, _, _, rfl, rfl, rfl⟩

/-- What is written for it, which a program may have in place of the file. -/
example : ∃ c, jsonDecodeText jsonReader.names jsonReader.lower jsonReader.order jsonReader.fileOrder german.tag b!"app" jsonText = .ok (some c) ∧
    jsonEncode (some c) = some b!"{\n  \"a\": \"A\",\n  \"day\": {\n    \"one\": \"Tag\",\n    \"other\": \"Tage\"\n  }\n}\n" :=
  ⟨_, rfl, by decide +kernel⟩

end Verif.Props.EndToEnd
