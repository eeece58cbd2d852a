import Verif.Model.Humanize.Kabyle
import Verif.Model.Humanize.Localizer
import Verif.Props.Counts
import Verif.Props.EndToEnd
import Verif.Props.Names
/-!
# From the file of a locale to the humanizer: C100
-/
namespace Verif.Props.Humanizer
open Verif.Go Verif.Model.Humanize Verif.Model.Spreak Verif.Model.Catalog Verif.Spec.Counts Verif.Spec.Names
open Verif.Props.EndToEnd (Form Readable Translated built answer_ok)
open Verif.Props.Collection (lastOf catalogOf DecoderErrors)
open Verif.Proofs.Spreak (Perms)
open Verif.Model.Po (Unicode File)

/-- The decoder of the loader is that for PO files. -/
def ReadsPo (u : Unicode) (decode : Lang → Bytes → Bytes → Except (Err Lang) (Option (Model.Spreak.Catalog Lang Num))) : Prop :=
  ∀ lang domain content,
    match poDecode u lang.tag domain false content with
    | .catalog c => decode lang domain content = .ok (some (gettextCatalog c))
    | .error => ∃ k, decode lang domain content = .error (.loader k)
    | _ => True

/-- The numbers that the plural functions see: exact up to 2^53. -/
def Exact (num : Int → Num) : Prop := ∀ n, 0 ≤ n → n ≤ 2 ^ 53 → (num n).rounded = some n

/-- A localizer says what a file has: translations are printed as in the language of the file, messages without translation
as in English; these are singular for 1. -/
structure Says (print : Lang → Bytes → List Arg → Bytes) (u : Unicode) (lang en : Lang) (f : File) (num : Int → Num) (loc : Loc) :
    Prop where
  single : ∀ ctx id args,
    (∃ t, Translated f ctx id 0 t ∧ loc.pGetf ctx id args = print lang t args) ∨
    (¬ ∃ t, Translated f ctx id 0 t) ∧ loc.pGetf ctx id args = print en id args
  plural : ∀ ctx s p n args, 0 ≤ n → n ≤ 2 ^ 53 →
    (∃ k t, Form u lang f.header (num n) k ∧ Translated f ctx s k t ∧ loc.npGetf ctx s p n args = print lang t args) ∨
    (¬ ∃ k t, Form u lang f.header (num n) k ∧ Translated f ctx s k t) ∧
      loc.npGetf ctx s p n args = print en (if n = 1 ∨ p = [] then s else p) args
  getf : ∀ id args, loc.getf id args = loc.pGetf [] id args
  get : ∀ id, loc.get id = loc.pGetf [] id []
  pGet : ∀ ctx id, loc.pGet ctx id = loc.pGetf ctx id []
  nGetf : ∀ s p n args, loc.nGetf s p n args = loc.npGetf [] s p n args
  print : ∀ t args, loc.print t args = print lang t args

/-- A localizer that has source texts only. -/
structure SaysSource (print : Lang → Bytes → List Arg → Bytes) (en : Lang) (loc : Loc) : Prop where
  single : ∀ ctx id args, loc.pGetf ctx id args = print en id args ∧ loc.getf id args = print en id args ∧
    loc.pGet ctx id = print en id [] ∧ loc.get id = print en id []
  plural : ∀ ctx s p n args, 0 ≤ n → n ≤ 2 ^ 53 →
    loc.npGetf ctx s p n args = print en (if n = 1 ∨ p = [] then s else p) args ∧
    loc.nGetf s p n args = print en (if n = 1 ∨ p = [] then s else p) args
  print : ∀ t args, loc.print t args = print en t args

/-! ## The catalog of a file -/

theorem catalog_says {u : Unicode} {content : Bytes} {f : File} (hp : Model.Po.parse u true content = .ok f)
    (hr : Readable f.header) (lang : Lang) (domain : Bytes) :
    ∃ c, poDecode u lang.tag domain false content = .catalog c ∧
      (∀ ctx id t, (gettextCatalog c).lookup ctx id = .ok t ↔ Translated f ctx id 0 t) ∧
      ∀ ctx id n t, (gettextCatalog c).lookupPlural ctx id n = .ok t ↔ ∃ k, Form u lang f.header n k ∧ Translated f ctx id k t := by
  obtain ⟨_, hc, _⟩ := Proofs.Po.parse_ok hp
  obtain ⟨c, hb, hpf⟩ := built (u := u) hc hr lang domain
  refine ⟨c, by simp only [poDecode, hp, hb], fun ctx id t => ?_, fun ctx id n t => ?_⟩
  · exact (answer_ok _ _).trans (Gettext.C20_lookup u f lang.tag domain false c hc hb ctx id t)
  · refine (answer_ok _ _).trans ((Gettext.C20_lookup_plural u f lang.tag domain false c hc hb ctx id t n).trans ?_)
    constructor
    · rintro ⟨q1, q2, k, m, q3, q4⟩
      exact ⟨k, (hpf n k).1 q3, q1, q2, m, q4⟩
    · rintro ⟨k, q3, q1, q2, m, q4⟩
      exact ⟨q1, q2, k, m, (hpf n k).2 q3, q4⟩

/-- The built-in rule for English. -/
theorem english_rule {en : Lang} (he : en.tag = [("en", some "en")]) {num : Int → Num} (hn : Exact num) (n : Int) (h0 : 0 ≤ n)
    (hb : n ≤ 2 ^ 53) : builtinPlural en (num n) = some (if n = 1 then 0 else 1) := by
  have h : ∃ r, (Model.PoPlural.pluralRuleForLanguage [("en", some "en")]).1 = some r ∧ ∀ n, r.form n = if n = 1 then 0 else 1 := by
    refine ⟨_, rfl, fun n => ?_⟩
    show (if n ≠ 1 then (1 : Int) else 0) = _
    by_cases h : n = 1 <;> simp [h]
  obtain ⟨r, h1, h2⟩ := h
  unfold builtinPlural
  rw [he, h1]
  simp only [hn n h0 hb, Option.map_some, h2]

/-! ## The localizer -/

section
variable {und : Lang} {print : Lang → Bytes → List Arg → Bytes} {parse : Bytes → Option Lang}

theorem source_single (cb : Bool) (en : Lang) (d ctx id : Bytes) (args : List Arg) :
    (⟨en, [], true⟩ : Locale Lang Num).lookupSingular (humanizerWorld und print parse) cb d ctx id args =
      .ok ([], .ok (print en id args)) := rfl

theorem source_plural {en : Lang} (he : en.tag = [("en", some "en")]) {num : Int → Num} (hx : Exact num) (cb : Bool)
    (d ctx s p : Bytes) (n : Int) (args : List Arg) (h0 : 0 ≤ n) (hb : n ≤ 2 ^ 53) :
    (⟨en, [], true⟩ : Locale Lang Num).lookupPlural (humanizerWorld und print parse) cb d ctx s p (num n) args =
      .ok ([], .ok (print en (if n = 1 ∨ p = [] then s else p) args)) := by
  unfold Locale.lookupPlural Locale.printSource
  simp only [humanizerWorld, english_rule he hx n h0 hb, if_true, Option.getD_some]
  by_cases h1 : n = 1
  · simp [h1]
  · by_cases h2 : p = [] <;> simp [h1, h2]

/-- A localizer with the source locale. -/
theorem source_says {en : Lang} (he : en.tag = [("en", some "en")]) {num : Int → Num} (hx : Exact num) (B : Bundle Lang Num)
    (d : Bytes) (found : Bool) :
    SaysSource print en (locOf (humanizerWorld und print parse) num ⟨B, ⟨en, [], true⟩, d, found⟩) := by
  refine ⟨fun ctx id args => ⟨rfl, rfl, rfl, rfl⟩, fun ctx s p n args h0 hb => ⟨?_, ?_⟩, fun t args => rfl⟩
  · have h := source_plural (und := und) (print := print) (parse := parse) he hx B.callback d ctx s p n args h0 hb
    simp only [locOf, Localizer.npGetf, Localizer.lookupPlural, h, text, ran]
  · have h := source_plural (und := und) (print := print) (parse := parse) he hx B.callback d [] s p n args h0 hb
    simp only [locOf, Localizer.nGetf, Localizer.lookupPlural, h, text, ran]

/-- A localizer with a catalog. -/
theorem catalog_loc_says {u : Unicode} {lang en : Lang} (hne : lang ≠ en) (he : en.tag = [("en", some "en")]) {num : Int → Num}
    (hx : Exact num) {f : File} {c : GettextCatalog} (B : Bundle Lang Num) (hs : B.source = ⟨en, [], true⟩)
    (hfb : B.fallback = ⟨en, [], true⟩) (d : Bytes) (found : Bool)
    (h1 : ∀ ctx id t, (gettextCatalog c).lookup ctx id = .ok t ↔ Translated f ctx id 0 t)
    (h2 : ∀ ctx id n t, (gettextCatalog c).lookupPlural ctx id n = .ok t ↔ ∃ k, Form u lang f.header n k ∧ Translated f ctx id k t) :
    Says print u lang en f num
      (locOf (humanizerWorld und print parse) num ⟨B, ⟨lang, [(d, some (gettextCatalog c))], false⟩, d, found⟩) := by
  refine ⟨fun ctx id args => ?_, fun ctx s p n args h0 hb => ?_, fun _ _ => rfl, fun _ => rfl, fun _ _ => rfl, fun _ _ _ _ => rfl,
    fun _ _ => rfl⟩
  · simp only [locOf, Localizer.pGetf, Localizer.lookupSingular, Locale.lookupSingular, GoMap.get?, if_true, Bool.false_eq_true,
      if_false, hfb, hs]
    cases hl : (gettextCatalog c).lookup ctx id with
    | ok t => exact .inl ⟨t, (h1 ctx id t).1 hl, rfl⟩
    | error e =>
      refine .inr ⟨?_, ?_⟩
      · rintro ⟨t, ht⟩
        rw [(h1 ctx id t).2 ht] at hl
        cases hl
      · simp only [ne_eq, hne, not_false_eq_true, if_true, text, ran]
        rfl
  · have hsrc := source_plural (und := und) (print := print) (parse := parse) he hx B.callback d ctx s p n args h0 hb
    simp only [locOf, Localizer.npGetf, Localizer.lookupPlural]
    rw [Locale.lookupPlural.eq_1 _ _ ⟨lang, _, false⟩]
    simp only [GoMap.get?, if_true, Bool.false_eq_true, if_false, hfb, hs]
    cases hl : (gettextCatalog c).lookupPlural ctx s (num n) with
    | ok t =>
      obtain ⟨k, q1, q2⟩ := (h2 ctx s (num n) t).1 hl
      exact .inl ⟨k, t, q1, q2, rfl⟩
    | error e =>
      refine .inr ⟨?_, ?_⟩
      · rintro ⟨k, t, ht⟩
        rw [(h2 ctx s (num n) t).2 ⟨k, ht⟩] at hl
        cases hl
      · simp only [hsrc, text, ran]

/-! ## C100 -/

/-- C100: a humanizer for a language of a collection says what the file of its locale has, and says the rest in English. -/
theorem C100_says {u : Unicode} {order : Order Lang Num} (ho : Perms order)
    {range : GoMap Lang (LocaleData Lang) → GoMap Lang (LocaleData Lang)} (hrange : ∀ m, (range m).Perm m)
    {decode : Lang → Bytes → Bytes → Except (Err Lang) (Option (Model.Spreak.Catalog Lang Num))} (hread : ReadsPo u decode)
    (hdec : DecoderErrors decode) {en : Lang} (hen : en ≠ und) (he : en.tag = [("en", some "en")])
    {ds : List (LocaleData Lang)} {c : Collection Lang Num}
    (hc : newCollection (humanizerWorld und print parse) order range decode en (ds.map some) = .ok (.ok c))
    {num : Int → Num} (hx : Exact num) {lang : Lang} (hne : lang ≠ en) (hnu : lang ≠ und) {d : LocaleData Lang}
    (hd : lastOf ds lang = some d) {content : Bytes} (hf : d.fs b!"django.po" = some content) {f : File}
    (hp : Model.Po.parse u true content = .ok f) (hr : Readable f.header) :
    Says print u lang en f num
      (locOf (humanizerWorld und print parse) num (newLocalizerFromTag c.bundle c.bundle.defaultDomain (some lang))) := by
  obtain ⟨k, hk, h1, h2⟩ := catalog_says hp hr lang b!"django"
  obtain ⟨q1, q2, q3, _, q5⟩ := Collection.C76_languages (humanizerWorld und print parse) ho hrange hdec hen ds hc
  have hdc := hread lang b!"django" content
  rw [hk] at hdc
  have hcat : catalogOf decode ds lang = some (.ok (some (gettextCatalog k))) := by
    unfold catalogOf
    rw [hd]
    simp only [Option.bind_some, hf, Option.map_some, hdc]
  have hloc := q5 lang
  rw [if_neg hne, if_neg (show lang ≠ (humanizerWorld und print parse).und from hnu), hcat] at hloc
  have e : newLocalizerFromTag c.bundle c.bundle.defaultDomain (some lang) =
      ⟨c.bundle, ⟨lang, [(b!"django", some (gettextCatalog k))], false⟩, b!"django", true⟩ := by
    unfold newLocalizerFromTag
    simp only [Option.bind_some, hloc, q1]
  rw [e]
  exact catalog_loc_says hne he hx c.bundle q2 q3 b!"django" true h1 h2

/-- A humanizer for English, or for a language that the collection does not have, says everything in English. -/
theorem C100_english {order : Order Lang Num} (ho : Perms order)
    {range : GoMap Lang (LocaleData Lang) → GoMap Lang (LocaleData Lang)} (hrange : ∀ m, (range m).Perm m)
    {decode : Lang → Bytes → Bytes → Except (Err Lang) (Option (Model.Spreak.Catalog Lang Num))}
    (hdec : DecoderErrors decode) {en : Lang} (hen : en ≠ und) (he : en.tag = [("en", some "en")])
    {ds : List (LocaleData Lang)} {c : Collection Lang Num}
    (hc : newCollection (humanizerWorld und print parse) order range decode en (ds.map some) = .ok (.ok c))
    {num : Int → Num} (hx : Exact num) (tag : Option Lang) (ht : tag = some en ∨ ∀ l, tag = some l → l ∉ c.bundle.languages) :
    SaysSource print en (locOf (humanizerWorld und print parse) num (newLocalizerFromTag c.bundle c.bundle.defaultDomain tag)) := by
  obtain ⟨_, _, q3, q4, q5⟩ := Collection.C76_languages (humanizerWorld und print parse) ho hrange hdec hen ds hc
  have e : ∃ found, newLocalizerFromTag c.bundle c.bundle.defaultDomain tag =
      ⟨c.bundle, ⟨en, [], true⟩, c.bundle.defaultDomain, found⟩ := by
    unfold newLocalizerFromTag
    rcases ht with rfl | ht
    · have := q5 en
      rw [if_pos rfl] at this
      simp only [Option.bind_some, this]
      exact ⟨_, rfl⟩
    · cases tag with
      | none => exact ⟨false, by simp only [Option.bind_none, q3]⟩
      | some l =>
        have hn : c.bundle.locales.get? l = none := by
          have hl := ht l rfl
          rw [q4, not_or, not_and] at hl
          rw [q5, if_neg hl.1]
          split
          · rfl
          · rename_i hu
            have := hl.2 hu
            split
            · rename_i k hk
              exact absurd ⟨k, hk⟩ this
            · rfl
        exact ⟨false, by simp only [Option.bind_some, hn, q3]⟩
  obtain ⟨found, e⟩ := e
  rw [e]
  exact source_says he hx c.bundle _ found

/-- The language of a humanizer is the one that the matcher finds for the wishes, or English; its formats are those of the
language. -/
theorem C100_created (acceptLanguage : Bytes → Option (List Lang)) (matcher : List Lang → Option Nat) (c : Collection Lang Num)
    (langs : List (Accept Lang)) :
    (matcher (acceptTags acceptLanguage langs) = none →
      createHumanizer acceptLanguage matcher c langs =
        .ok (newLocalizerFromTag c.bundle c.bundle.defaultDomain none,
          humanizerFormat c.formats (newLocalizerFromTag c.bundle c.bundle.defaultDomain none).language)) ∧
    ∀ i lang, matcher (acceptTags acceptLanguage langs) = some i → c.bundle.languages[i]? = some lang →
      createHumanizer acceptLanguage matcher c langs =
        .ok (newLocalizerFromTag c.bundle c.bundle.defaultDomain (some lang),
          humanizerFormat c.formats (newLocalizerFromTag c.bundle c.bundle.defaultDomain (some lang)).language) := by
  constructor
  · intro h
    simp only [createHumanizer, newLocalizer, newLocalizerForDomain, h]
  · intro i lang h hl
    simp only [createHumanizer, newLocalizer, newLocalizerForDomain, h, hl]

end

/-! ## The texts of the shipped locales -/

/-- A file has the texts that are transcribed for a locale, and its Plural-Forms header. -/
structure Carries (u : Unicode) (f : File) (c : Counts) : Prop where
  header : ∃ h, f.header = some h ∧ h.pluralForms ≠ [] ∧ runes h.pluralForms = c.locale.pluralForms ∧
    u.equalFold (h.get u b!"X-spreak-use-CLDR") b!"true" = false
  plural : ∀ (i : Nat) (ctx s p : Bytes) (forms : List Bytes), pluralMessages[i]? = some (ctx, s, p) → c.plural[i]? = some forms →
    ∀ k t, Translated f ctx s k t ↔ 0 ≤ k ∧ forms[k.toNat]? = some t ∧ t ≠ []
  single : ∀ (i : Nat) (ctx source : Bytes) (x : Option Bytes), singularMessages[i]? = some (ctx, source) → c.singular[i]? = some x →
    ∀ t, Translated f ctx source 0 t ↔ x = some t ∧ t ≠ []

/-- A file has the names of languages that are transcribed for a locale. -/
def CarriesNames (f : File) (x : Names) : Prop :=
  ∀ (i : Nat) (code : Bytes) (info : LocaleInfo) (t : Bytes), localeInfos[i]? = some (code, info) → x.names[i]? = some t →
    ∀ y, Translated f [] info.name 0 y ↔ y = t ∧ y ≠ []

/-- The print function of a language writes as the writer does, where this is modelled. -/
def Writes (print : Bytes → List Arg → Bytes) (w : Writer) : Prop := ∀ t args out, w.print t args = some out → print t args = out

/-- The hypothesis of C98 holds for a humanizer with a file that has the transcribed texts. -/
theorem C100_answers {print : Lang → Bytes → List Arg → Bytes} {u : Unicode} {lang en : Lang} {f : File} {num : Int → Num}
    (hx : Exact num) {loc : Loc} (hs : Says print u lang en f num loc) {c : Counts} (hm : c ∈ shippedCounts) (hc : Carries u f c) {w e : Writer}
    (hw : Writes (print lang) w) (he : Writes (print en) e) : Answers w e c loc := by
  obtain ⟨h, hh, hpf, hru, hcl⟩ := hc.header
  constructor
  · intro i ctx s p forms r n args out hi hf hr h0 hb ho
    have hform : ∀ k, Form u lang f.header (num n) k ↔ k = r.form n := by
      intro k
      unfold Form
      rw [hh]
      constructor
      · rintro (⟨h', r', e', _, _, hr', hk⟩ | ⟨hd, _⟩)
        · cases e'
          rw [hru, hr] at hr'
          cases hr'
          rw [hx n h0 hb] at hk
          exact (Option.some.inj hk).symm
        · rcases hd h rfl with h' | h'
          · exact absurd h' hpf
          · rw [hcl] at h'; cases h'
      · rintro rfl
        exact .inl ⟨h, r, rfl, hpf, hcl, by rw [hru, hr], by rw [hx n h0 hb]; rfl⟩
    have hp0 : p ≠ [] := by
      have : (pluralMessages.all fun m => !m.2.2.isEmpty) = true := by decide
      have := List.all_eq_true.mp this _ (List.mem_of_getElem? hi)
      rintro rfl
      simp at this
    have key : loc.npGetf ctx s p n args = out := by
      rcases hs.plural ctx s p n args h0 hb with ⟨k, t, q1, q2, q3⟩ | ⟨q1, q2⟩
      · rw [hform] at q1
        subst q1
        obtain ⟨_, q4, q5⟩ := (hc.plural i ctx s p forms hi hf _ t).1 q2
        rw [q3]
        apply hw
        cases t with
        | nil => exact absurd rfl q5
        | cons b t =>
          have e1 : template r forms s p n = b :: t := by unfold template; rw [q4]
          have e2 : hand w e forms[(r.form n).toNat]? = w := by unfold hand; rw [q4]
          rw [e1, e2] at ho
          exact ho
      · rw [q2]
        apply he
        have hno : ∀ b t, forms[(r.form n).toNat]? ≠ some (b :: t) := by
          intro b t hbt
          obtain ⟨r', hr', _, hpos⟩ := Locales.C94_rules c.locale (Counts.locale_mem hm)
          rw [hr] at hr'
          cases hr'
          exact q1 ⟨r.form n, b :: t, (hform _).2 rfl, (hc.plural i ctx s p forms hi hf _ _).2 ⟨(hpos n).1, hbt, by simp⟩⟩
        have e1 : template r forms s p n = if n = 1 then s else p := by
          unfold template
          split
          · rename_i b t hbt; exact absurd hbt (hno b t)
          · rfl
        have e2 : hand w e forms[(r.form n).toNat]? = e := by
          unfold hand
          split
          · rename_i b t hbt; exact absurd hbt (hno b t)
          · rfl
        rw [e1, e2] at ho
        simpa [hp0] using ho
    exact ⟨key, fun hctx => by subst hctx; rw [hs.nGetf]; exact key⟩
  · intro i ctx source t args out hi hf ho
    have key : loc.pGetf ctx source args = out := by
      rcases hs.single ctx source args with ⟨y, q1, q2⟩ | ⟨q1, q2⟩
      · obtain ⟨q3, q4⟩ := (hc.single i ctx source t hi hf y).1 q1
        subst q3
        rw [q2]
        apply hw
        cases y with
        | nil => exact absurd rfl q4
        | cons b y => exact ho
      · rw [q2]
        apply he
        have hno : ∀ b y, t ≠ some (b :: y) := fun b y hby => q1 ⟨_, (hc.single i ctx source t hi hf _).2 ⟨hby, by simp⟩⟩
        have e1 : single t source = source := by
          unfold single
          split
          · rename_i b y; exact absurd rfl (hno b y)
          · rfl
        have e2 : hand w e t = e := by
          unfold hand
          split
          · rename_i b y; exact absurd rfl (hno b y)
          · rfl
        rw [e1, e2] at ho
        exact ho
    exact ⟨key, fun hctx => by subst hctx; rw [hs.getf]; exact key⟩

/-- The hypothesis of C99 holds for a humanizer with a file that has the transcribed names. -/
theorem C100_names {print : Lang → Bytes → List Arg → Bytes} (hpr : ∀ l t, print l t [] = t) {u : Unicode} {lang en : Lang} {f : File}
    {num : Int → Num} {loc : Loc} (hs : Says print u lang en f num loc) {x : Names} (hc : CarriesNames f x) : ServesNames loc x := by
  intro i code info t hi ht
  rw [hs.get]
  rcases hs.single [] info.name [] with ⟨y, q1, q2⟩ | ⟨q1, q2⟩
  · obtain ⟨rfl, q4⟩ := (hc i code info t hi ht y).1 q1
    rw [q2, hpr, if_neg q4]
  · rw [q2, hpr]
    by_cases h : t = []
    · rw [if_pos h]
    · exact absurd ⟨t, (hc i code info t hi ht t).2 ⟨rfl, h⟩⟩ q1

/-- The text that a file has for a message without plural: its translation, or the message itself. -/
def textIn (f : File) (ctx id : Bytes) : Bytes :=
  match f.getMessage ctx id with
  | none => id
  | some m => if id ≠ [] ∧ isFuzzy m = false ∧ (m.str.get? 0).getD [] ≠ [] then (m.str.get? 0).getD [] else id

theorem says_text {print : Lang → Bytes → List Arg → Bytes} (hpr : ∀ l t, print l t [] = t) {u : Unicode} {lang en : Lang} {f : File}
    {num : Int → Num} {loc : Loc} (hs : Says print u lang en f num loc) (ctx id : Bytes) : loc.pGetf ctx id [] = textIn f ctx id := by
  unfold textIn
  rcases hs.single ctx id [] with ⟨t, ⟨q1, q2, m, q3, q4, q5⟩, q6⟩ | ⟨q1, q2⟩
  · rw [q6, hpr, q3]
    simp only [q5, Option.getD_some]
    rw [if_pos ⟨q1, q4, q2⟩]
  · rw [q2, hpr]
    cases hg : f.getMessage ctx id with
    | none => rfl
    | some m =>
      simp only []
      split
      · rename_i h
        obtain ⟨h1, h2, h3⟩ := h
        cases hm : m.str.get? 0 with
        | none => rw [hm] at h3; exact absurd rfl h3
        | some t =>
          rw [hm] at h3
          exact absurd ⟨t, h1, h3, m, hg, h2, hm⟩ q1
      · rfl

open Verif.Spec.DateFormat in
/-- A file has the names for dates that are transcribed for a locale. -/
structure CarriesDates (toUpper : Char → Char) (f : File) (x : Texts) : Prop where
  months : x.months = monthNames.map (textIn f [])
  alternative : x.alternative = monthNames.map (textIn f b!"alt. month")
  abbreviated : x.abbreviated = apNames.map (textIn f b!"abbrev. month")
  short : ∀ (i : Nat) (name text : Bytes), monthNames[i]? = some name → x.short[i]? = some text →
    ∃ (r : Char) (rest : List Char), textIn f [] (lowerFirst (name.take 3)) = utf8 (r :: rest) ∧ text = utf8 (toUpper r :: rest)
  twelve : x.short.length = 12
  days : x.days = dayNames.map (textIn f [])
  words : [x.am, x.pm, x.bigAm, x.bigPm, x.midnight, x.noon] =
    [b!"a.m.", b!"p.m.", b!"AM", b!"PM", b!"midnight", b!"noon"].map (textIn f [])

/-- The hypothesis of C92 and C95 holds for a humanizer with a file that has the transcribed names. -/
theorem C100_dates {print : Lang → Bytes → List Arg → Bytes} (hpr : ∀ l t, print l t [] = t) {u : Unicode} {lang en : Lang} {f : File}
    {num : Int → Num} (env : Env) (hs : Says print u lang en f num env.loc) {x : Texts} (hc : CarriesDates env.toUpper f x) :
    Verif.Spec.Locales.Serves env x := by
  have hg : env.loc.get = textIn f [] := funext fun id => (hs.get id).trans (says_text hpr hs [] id)
  have hp : ∀ ctx, env.loc.pGet ctx = textIn f ctx := fun ctx => funext fun id => (hs.pGet ctx id).trans (says_text hpr hs ctx id)
  have hw := hc.words
  simp only [List.map_cons, List.map_nil, List.cons.injEq, and_true] at hw
  obtain ⟨w1, w2, w3, w4, w5, w6⟩ := hw
  constructor <;> (try simp only [hg, hp])
  · exact hc.months
  · exact hc.alternative
  · exact hc.abbreviated
  · exact hc.short
  · exact hc.twelve
  · exact hc.days
  all_goals assumption

/-! ## A real file

The check that a file has the transcribed texts, and the file of Kabyle, /repo/humanize/locale/kab/django.po. -/

/-- The translations of a message are the forms. -/
def formsB (str : GoMap Int Bytes) (forms : List Bytes) : Bool :=
  (str.all fun p => p.2.isEmpty || (decide (0 ≤ p.1) && forms[p.1.toNat]? == some p.2)) &&
  forms.zipIdx.all fun p => p.1.isEmpty || str.get? (p.2 : Int) == some p.1

theorem formsB_iff {str : GoMap Int Bytes} {forms : List Bytes} (h : formsB str forms = true) (k : Int) (t : Bytes) (ht : t ≠ []) :
    str.get? k = some t ↔ 0 ≤ k ∧ forms[k.toNat]? = some t := by
  unfold formsB at h
  rw [Bool.and_eq_true] at h
  obtain ⟨h1, h2⟩ := h
  have hb : t.isEmpty = false := by cases t with
    | nil => exact absurd rfl ht
    | cons _ _ => rfl
  constructor
  · intro hk
    have := List.all_eq_true.mp h1 _ (GoMap.mem_of_get? hk)
    simpa [hb] using this
  · rintro ⟨h0, hk⟩
    have hm : (t, k.toNat) ∈ forms.zipIdx := List.mem_zipIdx_iff_getElem?.mpr hk
    have := List.all_eq_true.mp h2 _ hm
    simp only [hb, Bool.false_or, beq_iff_eq] at this
    rwa [Int.toNat_of_nonneg h0] at this

/-- A message of a file has the forms as translations. -/
def translatesB (f : File) (ctx id : Bytes) (forms : List Bytes) : Bool :=
  !id.isEmpty &&
  match f.getMessage ctx id with
  | none => forms.all (·.isEmpty)
  | some m => if isFuzzy m then forms.all (·.isEmpty) else formsB m.str forms

theorem translatesB_iff {f : File} {ctx id : Bytes} {forms : List Bytes} (h : translatesB f ctx id forms = true) (k : Int) (t : Bytes) :
    Translated f ctx id k t ↔ 0 ≤ k ∧ forms[k.toNat]? = some t ∧ t ≠ [] := by
  unfold translatesB at h
  rw [Bool.and_eq_true] at h
  obtain ⟨h1, h2⟩ := h
  have hid : id ≠ [] := by rintro rfl; cases h1
  have empty : forms.all (·.isEmpty) = true → ¬ (0 ≤ k ∧ forms[k.toNat]? = some t ∧ t ≠ []) := by
    rintro he ⟨_, hk, ht⟩
    have := List.all_eq_true.mp he _ (List.mem_of_getElem? hk)
    exact ht (by simpa using this)
  unfold Translated
  cases hg : f.getMessage ctx id with
  | none =>
    rw [hg] at h2
    simp only [reduceCtorEq, false_and, exists_false, and_false, false_iff]
    exact empty h2
  | some m =>
    rw [hg] at h2
    simp only [] at h2
    by_cases hfz : isFuzzy m = true
    · rw [if_pos hfz] at h2
      simp only [Option.some.injEq, exists_eq_left', hfz, Bool.true_eq_false, false_and, and_false, false_iff]
      exact empty h2
    · rw [if_neg hfz] at h2
      have hfz : isFuzzy m = false := by simpa using hfz
      simp only [Option.some.injEq, exists_eq_left', hfz, true_and]
      constructor
      · rintro ⟨_, ht, hk⟩
        exact ⟨((formsB_iff h2 k t ht).1 hk).1, ((formsB_iff h2 k t ht).1 hk).2, ht⟩
      · rintro ⟨h0, hk, ht⟩
        exact ⟨hid, ht, (formsB_iff h2 k t ht).2 ⟨h0, hk⟩⟩

/-- The check of a file. -/
def carriesB (u : Unicode) (f : File) (c : Counts) (x : Names) : Bool :=
  (match f.header with
    | none => false
    | some h => !h.pluralForms.isEmpty && (runes h.pluralForms == c.locale.pluralForms) &&
      !u.equalFold (h.get u b!"X-spreak-use-CLDR") b!"true") &&
  ((pluralMessages.zip c.plural).all fun p => translatesB f p.1.1 p.1.2.1 p.2) &&
  ((singularMessages.zip c.singular).all fun p => translatesB f p.1.1 p.1.2 [p.2.getD []]) &&
  (localeInfos.zip x.names).all fun p => translatesB f [] p.1.2.name [p.2]

open Verif.Spec.DateFormat in
/-- The check of the names for dates. -/
def datesB (toUpper : Char → Char) (f : File) (x : Texts) : Bool :=
  x.months == monthNames.map (textIn f []) && x.alternative == monthNames.map (textIn f b!"alt. month") &&
  x.abbreviated == apNames.map (textIn f b!"abbrev. month") &&
  ((monthNames.zip x.short).all fun p =>
    match runes (textIn f [] (lowerFirst (p.1.take 3))) with
    | [] => false
    | r :: rest => textIn f [] (lowerFirst (p.1.take 3)) == utf8 (r :: rest) && p.2 == utf8 (toUpper r :: rest)) &&
  x.short.length == 12 && x.days == dayNames.map (textIn f []) &&
  [x.am, x.pm, x.bigAm, x.bigPm, x.midnight, x.noon] ==
    [b!"a.m.", b!"p.m.", b!"AM", b!"PM", b!"midnight", b!"noon"].map (textIn f [])

theorem datesB_ok {toUpper : Char → Char} {f : File} {x : Texts} (h : datesB toUpper f x = true) : CarriesDates toUpper f x := by
  simp only [datesB, Bool.and_eq_true, beq_iff_eq] at h
  obtain ⟨⟨⟨⟨⟨⟨h1, h2⟩, h3⟩, h4⟩, h5⟩, h6⟩, h7⟩ := h
  refine ⟨h1, h2, h3, ?_, h5, h6, h7⟩
  intro i name text hn ht
  have := List.all_eq_true.mp h4 (name, text) (List.mem_of_getElem? (i := i) (by rw [List.getElem?_zip_eq_some]; exact ⟨hn, ht⟩))
  simp only [] at this
  split at this
  · cases this
  · rename_i r rest _
    simp only [Bool.and_eq_true, beq_iff_eq] at this
    exact ⟨r, rest, this⟩

/-- The check of the text of a file. -/
def contentB (u : Unicode) (toUpper : Char → Char) (content : Bytes) (c : Counts) (x : Names) : Bool :=
  match Model.Po.parse u true content with
  | .ok f => carriesB u f c x && datesB toUpper f c.locale.texts
  | _ => false

theorem contentB_ok {u : Unicode} {toUpper : Char → Char} {content : Bytes} {c : Counts} {x : Names} (hm : c ∈ shippedCounts)
    (h : contentB u toUpper content c x = true) :
    ∃ f, Model.Po.parse u true content = .ok f ∧ Readable f.header ∧ Carries u f c ∧ CarriesNames f x ∧
      CarriesDates toUpper f c.locale.texts := by
  unfold contentB at h
  cases hp : Model.Po.parse u true content with
  | ok f =>
    rw [hp] at h
    simp only [carriesB, Bool.and_eq_true] at h
    obtain ⟨⟨⟨⟨h1, h2⟩, h3⟩, h4⟩, h5⟩ := h
    cases hh : f.header with
    | none => rw [hh] at h1; cases h1
    | some hd =>
      rw [hh] at h1
      simp only [Bool.and_eq_true, Bool.not_eq_true', beq_iff_eq] at h1
      obtain ⟨⟨q1, q2⟩, q3⟩ := h1
      have q1 : hd.pluralForms ≠ [] := by rintro e; rw [e] at q1; cases q1
      refine ⟨f, rfl, ?_, ⟨⟨hd, hh, q1, q2, q3⟩, ?_, ?_⟩, ?_, datesB_ok h5⟩
      · intro h' e' _
        rw [hh] at e'
        cases e'
        obtain ⟨r, hr, _⟩ := Locales.C94_rules c.locale (Counts.locale_mem hm)
        exact ⟨r, by rw [q2, hr]⟩
      · intro i ctx s p forms hi hf k t
        exact translatesB_iff (List.all_eq_true.mp h2 ((ctx, s, p), forms)
          (List.mem_of_getElem? (i := i) (by rw [List.getElem?_zip_eq_some]; exact ⟨hi, hf⟩))) k t
      · intro i ctx source y hi hf t
        have := translatesB_iff (List.all_eq_true.mp h3 ((ctx, source), y)
          (List.mem_of_getElem? (i := i) (by rw [List.getElem?_zip_eq_some]; exact ⟨hi, hf⟩))) 0 t
        rw [this]
        cases y with
        | none =>
          simp only [Option.getD_none, Int.toNat_zero, List.getElem?_cons_zero, Option.some.injEq, reduceCtorEq, false_and, iff_false]
          rintro ⟨_, rfl, h⟩
          exact h rfl
        | some y =>
          simp only [Option.getD_some, Int.toNat_zero, List.getElem?_cons_zero, Option.some.injEq, le_refl, true_and]
      · intro i code info t hi ht y
        have := translatesB_iff (List.all_eq_true.mp h4 ((code, info), t)
          (List.mem_of_getElem? (i := i) (by rw [List.getElem?_zip_eq_some]; exact ⟨hi, ht⟩))) 0 y
        rw [this]
        simp only [Int.toNat_zero, List.getElem?_cons_zero, Option.some.injEq, le_refl, true_and]
        exact and_congr_left fun _ => eq_comm
  | eof => rw [hp] at h; cases h
  | error e => rw [hp] at h; cases h
  | panic => rw [hp] at h; cases h
  | hang => rw [hp] at h; cases h

/-- Integers are exact for the plural functions, up to 2^53. -/
theorem C100_numbers (rest : List Char → Option F64) (oor : F64 → Int) (fmtV : F64 → List Char) :
    Exact fun n => Num.of rest oor fmtV (.int n) (.int n) := by
  intro n h0 hb
  have := PoPlural.C32_int_partial (parse := Model.Cldr.parseFloat rest) (oor := oor) ⟨1, id⟩ n (by omega) (.int n) rfl
  simp only [Model.PoPlural.Rule.evaluate] at this
  unfold Num.of
  simp only []
  cases h : Model.PoPlural.toNumber (Model.Cldr.parseFloat rest) (.int n) with
  | none => rw [h] at this; cases this
  | some x =>
    rw [h] at this
    simp only [Option.some.injEq] at this
    simp only [Option.map_some, Option.some.injEq]
    have h2 : x.abs.roundToEven.toInt64 oor = n.natAbs := this
    rw [h2]
    omega

/-- C100 for the shipped texts: a collection in which the file of a language passes the check gives humanizers that meet the
hypotheses of C92, C98 and C99. -/
theorem C100_checked {und : Lang} {print : Lang → Bytes → List Arg → Bytes} {parse : Bytes → Option Lang} {u : Unicode}
    {order : Order Lang Num} (ho : Perms order)
    {range : GoMap Lang (LocaleData Lang) → GoMap Lang (LocaleData Lang)} (hrange : ∀ m, (range m).Perm m)
    {decode : Lang → Bytes → Bytes → Except (Err Lang) (Option (Model.Spreak.Catalog Lang Num))} (hread : ReadsPo u decode)
    (hdec : DecoderErrors decode) {en : Lang} (hen : en ≠ und) (he : en.tag = [("en", some "en")])
    {ds : List (LocaleData Lang)} {c : Collection Lang Num}
    (hc : newCollection (humanizerWorld und print parse) order range decode en (ds.map some) = .ok (.ok c))
    {num : Int → Num} (hx : Exact num) {lang : Lang} (hne : lang ≠ en) (hnu : lang ≠ und) {d : LocaleData Lang}
    (hd : lastOf ds lang = some d) {content : Bytes} (hf : d.fs b!"django.po" = some content)
    (hpr : ∀ l t, print l t [] = t) {w e : Writer} (hw : Writes (print lang) w) (hwe : Writes (print en) e)
    {x : Counts} {y : Names} (hm : x ∈ shippedCounts) (env : Env) (hck : contentB u env.toUpper content x y = true)
    (henv : env.loc = locOf (humanizerWorld und print parse) num
      (newLocalizerFromTag c.bundle c.bundle.defaultDomain (some lang))) :
    Answers w e x env.loc ∧ ServesNames env.loc y ∧ Verif.Spec.Locales.Serves env x.locale.texts := by
  obtain ⟨f, hp, hr, h1, h2, h3⟩ := contentB_ok hm hck
  have hs := C100_says ho hrange hread hdec hen he hc hx hne hnu hd hf hp hr
  rw [← henv] at hs
  exact ⟨C100_answers hx hs hm h1 hw hwe, C100_names hpr hs h2, C100_dates hpr env hs h3⟩

/-- `unicode.ToUpper` on the letters of the example. -/
def kabUpper (c : Char) : Char := if c = 'ɣ' then 'Ɣ' else c.toUpper

set_option maxRecDepth 100000 in
/-- The file of Kabyle has the texts that are transcribed for Kabyle. -/
theorem kab_content : contentB PoFile.ascii kabUpper kabFile counts_kab names_kab = true := by decide +kernel

def english : Lang := ⟨[("en", some "en")], ⟨b!"en", some (b!"en", b!"eng"), none, none⟩⟩
def kabyle : Lang := ⟨[("kab", some "kab")], ⟨b!"kab", some (b!"kab", b!"kab"), none, none⟩⟩
def undefined : Lang := ⟨[], ⟨b!"und", none, none, none⟩⟩

/-- The decoder. -/
def poReader : Lang → Bytes → Bytes → Except (Err Lang) (Option (Model.Spreak.Catalog Lang Num)) := fun lang domain content =>
  match poDecode PoFile.ascii lang.tag domain false content with
  | .catalog c => .ok (some (gettextCatalog c))
  | _ => .error (.loader 0)

theorem poReader_reads : ReadsPo PoFile.ascii poReader ∧ DecoderErrors poReader := by
  constructor
  · intro lang domain content
    unfold poReader
    split <;> simp_all
  · intro lang domain content e h
    unfold poReader at h
    split at h
    · cases h
    · cases h
      exact ⟨nofun, nofun⟩

/-- The numbers of the examples. -/
def intNum (n : Int) : Num := Num.of (fun _ => none) (fun _ => 0) (fun _ => []) (.int n) (.int n)

/-- The print function of the examples: as `plainWriter` writes. -/
def plainPrint : Lang → Bytes → List Arg → Bytes := fun _ t args => (Counts.plainWriter.print t args).getD []

/-- A collection with the Kabyle locale. -/
def kabLocales : List (LocaleData Lang) := [⟨kabyle, Collection.file kabFile, none⟩]

attribute [local irreducible] kabFile in
/-- The collection can be created, and its Kabyle humanizer meets the hypotheses of C92, C98 and C99. -/
theorem kab_humanizer : ∃ c, newCollection (humanizerWorld undefined plainPrint fun _ => none) (fun _ m => m) id poReader english
      (kabLocales.map some) = .ok (.ok c) ∧
    counts_kab ∈ shippedCounts ∧ names_kab ∈ shippedNames ∧
    Answers Counts.plainWriter Counts.plainWriter counts_kab
      (locOf (humanizerWorld undefined plainPrint fun _ => none) intNum
        (newLocalizerFromTag c.bundle c.bundle.defaultDomain (some kabyle))) ∧
    ServesNames (locOf (humanizerWorld undefined plainPrint fun _ => none) intNum
        (newLocalizerFromTag c.bundle c.bundle.defaultDomain (some kabyle))) names_kab ∧
    Verif.Spec.Locales.Serves { Verif.Props.Numbers.showEnv with
      toUpper := kabUpper
      loc := locOf (humanizerWorld undefined plainPrint fun _ => none) intNum
        (newLocalizerFromTag c.bundle c.bundle.defaultDomain (some kabyle)) } loc_kab.texts := by
  have hm : counts_kab ∈ shippedCounts := by
    unfold shippedCounts
    simp only [List.mem_cons, true_or, or_true]
  have hn : names_kab ∈ shippedNames := by
    unfold shippedNames
    simp only [List.mem_cons, true_or, or_true]
  obtain ⟨f, hp, hr, hc, hx, hd⟩ := contentB_ok hm kab_content
  obtain ⟨k, hk, _, _⟩ := catalog_says hp hr kabyle b!"django"
  have hdec := poReader_reads.1 kabyle b!"django" kabFile
  rw [hk] at hdec
  simp only [] at hdec
  have hnum : Exact intNum := C100_numbers (fun _ => none) (fun _ => 0) (fun _ => [])
  have hw : Writes (plainPrint kabyle) Counts.plainWriter := fun t args out h => by
    show (Counts.plainWriter.print t args).getD [] = out
    rw [h]; rfl
  have he : Writes (plainPrint english) Counts.plainWriter := fun t args out h => by
    show (Counts.plainWriter.print t args).getD [] = out
    rw [h]; rfl
  rcases Collection.new_cases (humanizerWorld undefined plainPrint fun _ => none) (order := fun _ m => m) (fun _ _ => .refl _)
      (range := id) (fun _ => .refl _) poReader_reads.2 (en := english) (by decide) kabLocales with ⟨c, h1, _⟩ | ⟨_, l, e, _, _, h2⟩
  · have hs := C100_says (print := plainPrint) (order := fun _ m => m) (fun _ _ => .refl _) (range := id) (fun _ => .refl _) poReader_reads.1
      poReader_reads.2 (en := english) (und := undefined) (by decide) rfl h1 hnum (lang := kabyle) (by decide) (by decide)
      (d := ⟨kabyle, Collection.file kabFile, none⟩) rfl (content := kabFile) rfl hp hr
    exact ⟨c, h1, hm, hn, C100_answers hnum hs hm hc hw he, C100_names (fun _ _ => rfl) hs hx,
      C100_dates (fun _ _ => rfl) _ hs hd⟩
  · exfalso
    unfold catalogOf lastOf kabLocales at h2
    by_cases hl : kabyle = l
    · subst hl
      have h3 : some (poReader kabyle b!"django" kabFile) = some (Except.error e) := h2
      rw [hdec] at h3
      cases h3
    · simp [hl] at h2

end Verif.Props.Humanizer
