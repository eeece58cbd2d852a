import Verif.Props.Generator
import Verif.Proofs.Cldr.GeneratorMain
/-!
# C96: the CLDR generator gives every language its own rules

`table` is the map from languages to rule texts of `plurals.json`, in the order in which the generator visits it.  `sha` is
SHA-256, of which only is assumed that different texts have different hashes.  `upper` is `unicode.ToUpper`, `canon` is
`language.MustParse(…).String()`.  `Sets upper sha table out` says that `out` are the named data sets that the templates are
executed with, `Generated … file` that `file` is the generated file (Verif/Model/Cldr/GeneratorMain.lean).
-/
namespace Verif.Props.GenData
open Verif.Go Verif.Cldr Verif.Spec.GenData Verif.Proofs.Gen

section cldr
open Verif.Spec.Cldr Verif.Proofs.Cldr Verif.Proofs.Cldr.Generator Verif.Proofs.Cldr.GeneratorMain
open Verif.Model.Cldr (newOperandsString)
open Verif.Model.Cldr.Generator (goEnv compileNode convertToGo)
open Verif.Model.Cldr.GeneratorMain
open Verif.Model.Gen (quoted named nameOf SortedBy less collect caseLabels)
open Verif.Spec.GoCode (Condition)
open Verif.Props.Generator (FewRanges ranges_length)

/-- The texts of all categories, one after the other. -/
def written (j : RuleJSON) : Bytes := (order ++ [Category.other]).flatMap fun c => utf8 (j.text c)

/-- Different rules of two languages have different hashes, even though the texts of all categories are hashed one after the
other without a mark between them. -/
def Distinguished (sha : Bytes → Bytes) (table : List (Bytes × RuleJSON)) : Prop :=
  ∀ a ∈ table, ∀ b ∈ table, sha (written a.2) = sha (written b.2) → a.2 = b.2

theorem input_eq (j : RuleJSON) : j.input = written j := by
  simp [RuleJSON.input, written, order, RuleJSON.text]

theorem noClash_iff {sha : Bytes → Bytes} {table : List (Bytes × RuleJSON)} :
    NoClash (key sha) RuleJSON.toData table ↔ Distinguished sha table := by
  unfold Distinguished NoClash key
  simp only [input_eq]
  exact ⟨fun h a ha b hb he => toData_inj (h a ha b hb he), fun h a ha b hb he => by rw [h a ha b hb he]⟩

/-- Every language is in exactly one data set, and this set has the rules of the language: for each order in which the map is
visited, exactly if the texts are distinguished. -/
theorem C96_own_rules {upper : Char → Char} {sha : Bytes → Bytes}
    {table : List (Bytes × RuleJSON)} (hn : (table.map (·.1)).Nodup) {out : List (Bytes × DataSet)} (h : Sets upper sha table out) :
    Own RuleJSON.toData table (out.map fun p => (p.2.languages, p.2.rules)) ↔ Distinguished sha table := by
  rw [← noClash_iff, ← setsOf_own hn]
  exact ⟨own_perm (sets_perm h), own_perm (sets_perm h).symm⟩

/-- The data of a language have a rule for each category with a text, in the order of UTS 35, and determine the texts. -/
theorem C96_data (j : RuleJSON) : j.toData = ((order ++ [Category.other]).filter fun c => j.text c ≠ []).map fun c => (c, j.text c) := by
  have : ∀ l : List Category, (l.flatMap fun c => rule c (j.text c)) = (l.filter fun c => j.text c ≠ []).map fun c => (c, j.text c) := by
    intro l
    induction l with
    | nil => rfl
    | cons c l ih =>
      rw [List.flatMap_cons, ih]
      unfold rule
      by_cases hc : j.text c = [] <;> simp [hc]
  rw [← this, List.flatMap_append, toData_eq]
  simp

theorem C96_data_determines {j j' : RuleJSON} (h : j.toData = j'.toData) : j = j' := toData_inj h

/-- The names of the data sets differ, for languages with codes of the usual form. -/
theorem C96_names {upper : Char → Char} (hu : Upper upper) {sha : Bytes → Bytes} {table : List (Bytes × RuleJSON)}
    (hn : (table.map (·.1)).Nodup) (hcode : ∀ e ∈ table, Code e.1) {out : List (Bytes × DataSet)} (h : Sets upper sha table out) :
    (out.map (·.1)).Nodup := by
  have hp := sets_perm h
  have hholds := collect_holds (key sha) table
  have hlangs : ∀ p ∈ out, ∀ l ∈ p.2.languages, ∃ b, (l, b) ∈ table := fun p hp' l hl => by
    have hm : (p.2.languages, p.2.rules) ∈ setsOf (key sha) RuleJSON.toData table :=
      hp.mem_iff.mp (List.mem_map.mpr ⟨p, hp', rfl⟩)
    obtain ⟨g, hg, he⟩ := List.mem_map.mp hm
    have hl' : l ∈ g.languages := mem_sortBy.mp (by rw [(Prod.mk.inj he).1]; exact hl)
    obtain ⟨b, hb, -⟩ := (hholds.mem_langs hg).mp hl'
    exact ⟨b, hb⟩
  have hne : ∀ p ∈ out, p.2.languages ≠ [] := fun p hp' => by
    have hm : (p.2.languages, p.2.rules) ∈ setsOf (key sha) RuleJSON.toData table :=
      hp.mem_iff.mp (List.mem_map.mpr ⟨p, hp', rfl⟩)
    obtain ⟨g, hg, he⟩ := List.mem_map.mp hm
    obtain ⟨l, -, hl, -⟩ := hholds.data_mem hg
    rw [← (Prod.mk.inj he).1]
    exact List.ne_nil_of_mem (mem_sortBy.mpr hl)
  have hdis : (out.map (·.2.languages)).flatten.Nodup := by
    have e : out.map (·.2.languages) = (plain out).map (·.1) := by unfold plain; rw [List.map_map]; rfl
    rw [e]
    refine (hp.map (·.1)).flatten.nodup_iff.mpr ?_
    have hp2 : ((setsOf (key sha) RuleJSON.toData table).map (·.1)).flatten.Perm ((collect (key sha) table).map (·.languages)).flatten := by
      unfold setsOf
      rw [List.map_map]
      generalize collect (key sha) table = gs
      induction gs with
      | nil => exact .refl _
      | cons g gs ih => exact (sortBy_perm _ _).append ih
    exact hp2.nodup_iff.mpr (languages_nodup hholds hn)
  obtain ⟨l, hl, hs, -⟩ := h
  have hname : ∀ p ∈ out, nameOf upper p.2.languages = some p.1 := fun p hp' => named_name hl p (hs.mem_iff.mp hp')
  rw [List.Nodup, List.pairwise_map]
  rw [List.Nodup, List.pairwise_flatten] at hdis
  have := hdis.2
  rw [List.pairwise_map] at this
  refine this.imp_of_mem fun {a b} ha hb hab he => ?_
  have e : a.2.languages = b.2.languages := name_injective hu
    (fun l hl => let ⟨d, hd⟩ := hlangs a ha l hl; hcode _ hd) (fun l hl => let ⟨d, hd⟩ := hlangs b hb l hl; hcode _ hd)
    (by rw [hname a ha, hname b hb, he])
  obtain ⟨x, hx⟩ := List.exists_mem_of_ne_nil _ (hne a ha)
  exact hab x hx x (e ▸ hx) rfl

/-- The file does not depend on the order in which the map is visited, if the texts are distinguished. -/
theorem C96_order_free {upper : Char → Char} (hu : Upper upper) {sha : Bytes → Bytes}
    {table table' : List (Bytes × RuleJSON)} (hp : table.Perm table') (hn : (table.map (·.1)).Nodup)
    (hcode : ∀ e ∈ table, Code e.1) (hd : Distinguished sha table) {canon : Bytes → Option Bytes} {budget : Nat} {file file' : List Case}
    (h : Generated upper sha canon budget table file) (h' : Generated upper sha canon budget table' file') : file = file' := by
  obtain ⟨out, ho, hf⟩ := h
  obtain ⟨out', ho', hf'⟩ := h'
  have hnames := C96_names hu hn hcode ho
  have hsets := setsOf_perm hp (noClash_iff.mpr hd)
  obtain ⟨l, hl, hs⟩ := ho
  obtain ⟨l', hl', hs'⟩ := ho'
  have hll : l.Perm l' := by
    rw [named_eq hl, named_eq hl', dataSets_eq, dataSets_eq]
    exact (hsets.map _).map _
  have : out = out' := sorted_same hll ((hs.1.map _).nodup_iff.mp hnames) hs hs'
  subst this
  rw [hf] at hf'
  exact Option.some.inj hf'

/-- Every statement of a function returns the category of its rule, and it has a condition exactly if the text of the rule
does not begin with the samples. -/
theorem C96_statements {budget : Nat} : ∀ {rules : List (Category × List Char)} {body : List (Category × Option (List Char))},
    statements budget rules = some body → body.map (·.1) = rules.map (·.1) ∧
      body.map (·.2.isSome) = rules.map fun r => decide ((r.2.dropWhile Go.isSpace).head? ≠ some '@')
  | [], body, h => by cases h; exact ⟨rfl, rfl⟩
  | r :: rs, body, h => by
    unfold statements at h
    split at h
    · rename_i s ss h1 h2
      cases h
      obtain ⟨i1, i2⟩ := C96_statements h2
      have : s.1 = r.1 ∧ s.2.isSome = hasCondition r.2 := by
        unfold statement at h1
        split at h1
        · rename_i hc
          split at h1
          · obtain ⟨t, -, rfl⟩ := Option.map_eq_some_iff.mp h1
            exact ⟨rfl, hc.symm⟩
          · cases h1
        · rename_i hc
          cases h1
          exact ⟨rfl, (by simpa using hc : hasCondition r.2 = false).symm⟩
      refine ⟨by rw [List.map_cons, List.map_cons, i1, this.1], ?_⟩
      rw [List.map_cons, List.map_cons, i2, this.2]
      rfl
    · cases h

/-- No label is there twice, and every spelling of a language leads to the categories and statements of its own rules. -/
theorem C96_switch {upper : Char → Char} {sha : Bytes → Bytes}
    {table : List (Bytes × RuleJSON)} (hn : (table.map (·.1)).Nodup) (hd : Distinguished sha table) {canon : Bytes → Option Bytes}
    (hc : ∀ a ∈ table, ∀ b ∈ table, ∀ x, Spelling canon a.1 x → Spelling canon b.1 x → a.2 = b.2) {budget : Nat} {file : List Case}
    (h : Generated upper sha canon budget table file) :
    (file.map (·.labels)).flatten.Nodup ∧
      (∀ e ∈ table, ∀ x, Spelling canon e.1 x → ∃ c ∈ file, quoted x ∈ c.labels ∧
        c.categories = ((order ++ [Category.other]).filter fun k => e.2.text k ≠ []) ∧ statements budget e.2.toData = some c.body) ∧
      ∀ c ∈ file, ∀ y ∈ c.labels, ∃ e ∈ table, ∃ x, Spelling canon e.1 x ∧ y = quoted x := by
  obtain ⟨out, ho, hf⟩ := h
  have hown := (C96_own_rules hn ho).mpr hd
  obtain ⟨hc1, hc2, -⟩ := cases_spec hf
  have hset : ∀ d ∈ out, ∀ l ∈ d.2.languages, ∃ b, (l, b) ∈ table ∧ d.2.rules = b.toData := fun d hd' l hl =>
    hown.own (d.2.languages, d.2.rules) (List.mem_map.mpr ⟨d, hd', rfl⟩) l hl
  refine ⟨labels_nodup hf ?_, fun e he x hx => ?_, fun c hcm y hy => ?_⟩
  · have hdis := hown.once
    rw [List.map_map, List.Nodup, List.pairwise_flatten] at hdis
    have hdis := hdis.2
    rw [List.pairwise_map] at hdis
    have hkeys : out.Pairwise fun a b => a.2.rules ≠ b.2.rules := by
      have hp := sets_perm ho
      have hk : ((setsOf (key sha) RuleJSON.toData table).map (·.2)).Nodup := by
        have hh := collect_holds (key sha) table
        unfold setsOf
        rw [List.map_map, List.Nodup, List.pairwise_map]
        have := hh.nodup
        rw [List.Nodup, List.pairwise_map] at this
        refine this.imp_of_mem fun {a b} ha hb hab he => hab ?_
        obtain ⟨-, -, -, h1⟩ := hh.data_mem ha
        obtain ⟨-, -, -, h2⟩ := hh.data_mem hb
        rw [← h1, ← h2, toData_inj he]
      have := ((hp.map (·.2)).nodup_iff).mpr hk
      unfold plain at this
      rw [List.map_map, List.Nodup, List.pairwise_map] at this
      exact this
    refine hkeys.imp_of_mem fun {a b} ha hb hab l hl l' hl' x hx hx' => ?_
    obtain ⟨u, hu1, hu2⟩ := hset a ha l hl
    obtain ⟨v, hv1, hv2⟩ := hset b hb l' hl'
    exact hab (by rw [hu2, hv2]; exact congrArg RuleJSON.toData (hc _ hu1 _ hv1 x hx hx'))
  · obtain ⟨s, hs, hl⟩ := hown.all e he
    obtain ⟨d, hd', rfl⟩ := List.mem_map.mp hs
    obtain ⟨b, hb, hr⟩ := hset d hd' e.1 hl
    obtain ⟨c, hcm, hcase⟩ := hc1 d hd'
    rw [entry_unique hn hb he] at hr
    refine ⟨c, hcm, ((caseLabels_spec hcase.labels).2 _).mpr ⟨e.1, hl, x, hx, rfl⟩, ?_, ?_⟩
    · rw [hcase.categories, hr, C96_data, List.map_map]
      exact List.map_id _
    · rw [← hr]; exact hcase.body
  · obtain ⟨d, hd', hcase⟩ := hc2 c hcm
    obtain ⟨l, hl, x, hx, rfl⟩ := ((caseLabels_spec hcase.labels).2 y).mp hy
    obtain ⟨b, hb, -⟩ := hset d hd' l hl
    exact ⟨(l, b), hb, x, hx, rfl⟩

theorem statements_append {budget : Nat} : ∀ {a b : List (Category × List Char)} {l : List (Category × Option (List Char))},
    statements budget (a ++ b) = some l → ∃ x y, statements budget a = some x ∧ statements budget b = some y ∧ l = x ++ y
  | [], b, l, h => ⟨[], l, rfl, h, rfl⟩
  | r :: a, b, l, h => by
    unfold statements at h
    rw [List.cons_append] at h
    simp only [] at h
    split at h
    · rename_i s ss h1 h2
      cases h
      obtain ⟨x, y, hx, hy, rfl⟩ := statements_append h2
      exact ⟨s :: x, y, by simp only [statements, h1, hx], hy, rfl⟩
    · cases h

/-- What the statements of rules of the UTS 35 grammar do, before the last one. -/
theorem rules_return {ops : Model.Cldr.Operands} {o : Ops} {nv : Option Nat} (hm : Match ops o nv) {budget : Nat}
    {text : Category → List Char} : ∀ {rules : List (Category × Cond)},
    (∀ r ∈ rules, r.2.WF (2 ^ 53) ∧ FewRanges r.2) → (∀ r ∈ rules, ∃ s, Samples s ∧ text r.1 = r.2.text ++ s) →
    ∀ {body : List (Category × Option (List Char))}, statements budget (rules.map fun r => (r.1, text r.1)) = some body →
    (∀ s ∈ body, ∀ t, s.2 = some t → ∃ e, Spec.GoCode.Reads t e ∧ Spec.GoCode.typeOf (goEnv ops) e = some .bool) ∧
    ∃ c, Returns (goEnv ops) (body ++ [(.other, none)]) c ∧ Selects o rules c
  | [], _, _, body, h => by
    cases h
    exact ⟨by simp, .other, .ret, .other⟩
  | r :: rules, hw, ht, body, h => by
    rw [List.map_cons] at h
    unfold statements at h
    split at h
    · rename_i s ss h1 h2
      cases h
      obtain ⟨ih1, c, hret, hsel⟩ := rules_return hm (fun x hx => hw x (List.mem_cons_of_mem _ hx))
        (fun x hx => ht x (List.mem_cons_of_mem _ hx)) h2
      obtain ⟨hwf, hfew⟩ := hw r (by simp)
      obtain ⟨smp, hsmp, he⟩ := ht r (by simp)
      unfold statement at h1
      simp only [he, cond_has_condition hwf, if_true] at h1
      rw [if_pos (List.mem_append.mpr (.inr (samples_at hsmp)))] at h1
      obtain ⟨t, htext, rfl⟩ := Option.map_eq_some_iff.mp h1
      have hcomp := convert_written (by decide) hwf hsmp htext
      obtain ⟨t', hct, hM, -⟩ := cond_means hm hwf.1 fun conj hconj => ⟨(hwf.2 conj hconj).1, fun x hx =>
        ⟨(hwf.2 conj hconj).2 x hx, fun hn => by rw [ranges_length]; exact hfew conj hconj x hx hn⟩⟩
      rw [hcomp] at hct
      cases hct
      obtain ⟨b, hb, hbi⟩ := hM.condition
      refine ⟨fun s hs u hu => ?_, ?_⟩
      · rcases List.mem_cons.mp hs with rfl | hs
        · cases hu
          obtain ⟨e, h3, h4, -⟩ := hb
          exact ⟨e, h3, h4⟩
        · exact ih1 s hs u hu
      · cases b
        · exact ⟨c, .next hb hret, .skip (fun hh => absurd (hbi.mpr hh) (by decide)) hsel⟩
        · exact ⟨r.1, .here hb, .hit (hbi.mp rfl)⟩
    · cases h

/-- The statements for a language whose texts are rules of the UTS 35 grammar with samples compile, and they return the
category that UTS 35 gives, for every decimal that a float64 holds exactly enough. -/
theorem C96_category_partial {rules : List (Category × Cond)} {j : RuleJSON} (hj : Written rules j.text)
    (hw : ∀ r ∈ rules, r.2.WF (2 ^ 53) ∧ FewRanges r.2) {budget : Nat} {body : List (Category × Option (List Char))}
    (hb : statements budget j.toData = some body) {d : Decimal} (h : d.WF) (hs : Small d) (rest : List Char → Option F64)
    (oor : F64 → Int) :
    ∃ ops c, newOperandsString rest oor d.text = some ops ∧ Compiles (goEnv ops) body ∧ Returns (goEnv ops) body c ∧
      Selects (d.ops 0) rules c := by
  obtain ⟨ops, nv, ho, hm⟩ := match_decimal h hs rest oor 0
  rw [toData_written hj] at hb
  obtain ⟨x, y, hx, hy, rfl⟩ := statements_append hb
  have : y = [(.other, none)] := by
    unfold statements statement at hy
    simp only [samples_no_condition hj.other, statements] at hy
    cases hy
    rfl
  subst this
  obtain ⟨h1, c, h2, h3⟩ := rules_return hm hw hj.rule hx
  refine ⟨ops, c, by rw [newOperandsString_plain h]; exact ho, ⟨fun s hs' t ht => ?_, .other, by simp⟩, h2, h3⟩
  rcases List.mem_append.mp hs' with hs' | hs'
  · exact h1 s hs' t ht
  · simp only [List.mem_singleton] at hs'
    subst hs'
    cases ht

/-- Both together: from the file of a language with rules of the UTS 35 grammar to the function that its case returns. -/
theorem C96_language_partial {upper : Char → Char} {sha : Bytes → Bytes}
    {table : List (Bytes × RuleJSON)} (hn : (table.map (·.1)).Nodup) (hd : Distinguished sha table) {canon : Bytes → Option Bytes}
    (hc : ∀ a ∈ table, ∀ b ∈ table, ∀ x, Spelling canon a.1 x → Spelling canon b.1 x → a.2 = b.2) {budget : Nat} {file : List Case}
    (h : Generated upper sha canon budget table file) {e : Bytes × RuleJSON} (he : e ∈ table) {x : Bytes} (hx : Spelling canon e.1 x)
    {rules : List (Category × Cond)} (hj : Written rules e.2.text) (hw : ∀ r ∈ rules, r.2.WF (2 ^ 53) ∧ FewRanges r.2) :
    ∃ k ∈ file, quoted x ∈ k.labels ∧ (∀ k' ∈ file, quoted x ∈ k'.labels → k' = k) ∧ k.categories = rules.map (·.1) ++ [.other] ∧
      ∀ {d : Decimal}, d.WF → Small d → ∀ (rest : List Char → Option F64) (oor : F64 → Int),
        ∃ ops c, newOperandsString rest oor d.text = some ops ∧ Compiles (goEnv ops) k.body ∧ Returns (goEnv ops) k.body c ∧
          Selects (d.ops 0) rules c := by
  obtain ⟨hnd, hall, -⟩ := C96_switch hn hd hc h
  obtain ⟨k, hk, hkl, hcat, hkb⟩ := hall e he x hx
  refine ⟨k, hk, hkl, fun k' hk' hkl' => ?_, ?_, fun {d} h1 h2 rest oor => C96_category_partial hj hw hkb h1 h2 rest oor⟩
  · rw [List.Nodup, List.pairwise_flatten] at hnd
    have hp := hnd.2
    rw [List.pairwise_map] at hp
    by_cases hkk : k' = k
    · exact hkk
    · rcases pairwise_mem hp hk' hk hkk with hr | hr
      · exact absurd rfl (hr _ hkl' _ hkl)
      · exact absurd rfl (hr _ hkl _ hkl')
  · rw [hcat]
    have := congrArg (List.map Prod.fst) (C96_data e.2)
    rw [toData_written hj, List.map_map, List.map_append, List.map_map] at this
    exact (this.trans (List.map_id _)).symm

/-- `unicode.ToUpper` on ASCII. -/
def up (c : Char) : Char := if 'a' ≤ c ∧ c ≤ 'z' then Char.ofNat (c.toNat - 32) else c

theorem up_upper : Upper up := fun c h => if_pos (show 'a' ≤ c ∧ c ≤ 'z' from h)

/-! A file for four languages; the data set of `de` and `en` has the name `DeEn`. -/

def jsonEn : RuleJSON := { one := c!"i = 1 and v = 0 @integer 1", other := c!" @integer 0, 2~4, … @decimal 0.0~0.2, …" }
def jsonFr : RuleJSON := { one := c!"i = 0,1 @integer 0, 1 @decimal 0.0~0.2", other := c!" @integer 2~4, …" }
def jsonZh : RuleJSON := { other := c!" @integer 0~3, …" }

def demo : List (Bytes × RuleJSON) := [(b!"zh-Hant", jsonZh), (b!"en", jsonEn), (b!"fr", jsonFr), (b!"de", jsonEn)]

/-- As for the tag `zh-TW`, which is looked up as `zh-Hant` as well. -/
def demoCanon (l : Bytes) : Option Bytes := if l = b!"zh-Hant" then some b!"zh-TW" else some l

def demoSets : List (Bytes × DataSet) := [(b!"Zh_Hant", ⟨[b!"zh-Hant"], jsonZh.toData⟩),
  (b!"DeEn", ⟨[b!"de", b!"en"], jsonEn.toData⟩), (b!"Fr", ⟨[b!"fr"], jsonFr.toData⟩)]

def demoFile : List Case := [
  ⟨[b!"\"zh-Hant\"", b!"\"zh-TW\""], b!"Zh_Hant", [.other], [(.other, none)]⟩,
  ⟨[b!"\"de\"", b!"\"en\""], b!"DeEn", [.one, .other], [(.one, some c!"ops.I == 1 && ops.V == 0"), (.other, none)]⟩,
  ⟨[b!"\"fr\""], b!"Fr", [.one, .other], [(.one, some c!"( (ops.I == 0 || ops.I == 1) )"), (.other, none)]⟩]

theorem demo_generated : Generated up id demoCanon 9 demo demoFile :=
  ⟨demoSets, ⟨demoSets, by decide +kernel, .refl _, by unfold demoSets; decide +kernel⟩, by decide +kernel⟩

theorem code_of {w : List Char} {subs : List (List Char)} {lang : Bytes} (h : lang = utf8 (w ++ subs.flatMap ('-' :: ·)))
    (hw : w ≠ [] ∧ ∀ c ∈ w, Low c) (hs : ∀ s ∈ subs, Subtag s) : Code lang := ⟨w, subs, hw.1, hw.2, hs, h⟩

instance (c : Char) : Decidable (Low c) := inferInstanceAs (Decidable (_ ∧ _))

example : (demo.map (·.1)).Nodup ∧ Distinguished id demo ∧ (∀ e ∈ demo, Code e.1) := by
  refine ⟨by decide, by unfold Distinguished id demo; decide +kernel, ?_⟩
  intro e he
  simp only [demo, List.mem_cons, List.not_mem_nil, or_false] at he
  rcases he with rfl | rfl | rfl | rfl
  · exact code_of (w := ['z', 'h']) (subs := [['H', 'a', 'n', 't']]) (by decide) (by decide)
      (by simp only [List.mem_singleton, forall_eq]; exact .script (by unfold Upp; decide) (by decide) (by decide) (by decide))
  · exact code_of (w := ['e', 'n']) (subs := []) (by decide) (by decide) (by simp)
  · exact code_of (w := ['f', 'r']) (subs := []) (by decide) (by decide) (by simp)
  · exact code_of (w := ['d', 'e']) (subs := []) (by decide) (by decide) (by simp)

example : ∀ a ∈ demo, ∀ b ∈ demo, ∀ x, Spelling demoCanon a.1 x → Spelling demoCanon b.1 x → a.2 = b.2 := by
  have : ∀ a ∈ demo, ∀ b ∈ demo, (a.1 = b.1 ∨ demoCanon a.1 = some b.1 ∨ demoCanon b.1 = some a.1 ∨ demoCanon a.1 = demoCanon b.1) →
      a.2 = b.2 := by unfold demo; decide +kernel
  rintro a ha b hb x (rfl | h1) (h2 | h2)
  · exact this a ha b hb (.inl h2)
  · exact this a ha b hb (.inr (.inr (.inl h2)))
  · exact this a ha b hb (.inr (.inl (h2 ▸ h1)))
  · exact this a ha b hb (.inr (.inr (.inr (h1.trans h2.symm))))

/-- `i = 1 and v = 0` -/
def condEn : Cond := [[⟨.i, none, false, [(1, none)]⟩, ⟨.v, none, false, [(0, none)]⟩]]

example : Written [(.one, condEn)] jsonEn.text ∧ condEn.WF (2 ^ 53) ∧ FewRanges condEn ∧
    statements 9 jsonEn.toData = some [(.one, some c!"ops.I == 1 && ops.V == 0"), (.other, none)] := by
  refine ⟨⟨by decide, ?_, ⟨c!"0, 2~4, … @decimal 0.0~0.2, …", .inl rfl⟩, by decide⟩, condOk_wf (by decide +kernel),
    by unfold FewRanges condEn; decide, by decide +kernel⟩
  simp only [List.mem_singleton, forall_eq]
  exact ⟨c!" @integer 1", ⟨['1'], .inl rfl⟩, by decide⟩

/-! Two languages with the same texts for different categories. -/

def jsonA : RuleJSON := { one := c!"n = 1 @integer 1", other := c!" @integer 2" }
def jsonB : RuleJSON := { two := c!"n = 1 @integer 1", other := c!" @integer 2" }

def clash : List (Bytes × RuleJSON) := [(b!"aa", jsonA), (b!"bb", jsonB)]

def clashBody (c : Category) : List (Category × Option (List Char)) := [(c, some c!"ops.N == 1"), (.other, none)]

/-- `n = 1` -/
def condOne : Cond := [[⟨.n, none, false, [(1, none)]⟩]]

theorem clash_sets (upper : Char → Char) (sha : Bytes → Bytes) (a b : Bytes) (ja jb : RuleJSON) (hi : ja.input = jb.input)
    (c : Category) (hj : statements 9 ja.toData = some (clashBody c)) (hcap : ∀ l ∈ [a, b], ∃ x, Model.Gen.capital upper l = some x) :
    ∃ file, Generated upper sha some 9 [(a, ja), (b, jb)] file ∧ ∃ k ∈ file, quoted a ∈ k.labels ∧ quoted b ∈ k.labels ∧ k.body = clashBody c := by
  have hds : dataSets sha [(a, ja), (b, jb)] = [⟨sortBy bytesLe [a, b], ja.toData⟩] := by
    simp [dataSets, collect, Model.Gen.addTo, hi]
  have hname : ∀ langs : List Bytes, (∀ l ∈ langs, l ∈ [a, b]) → ∃ n, nameOf upper langs = some n := by
    intro langs
    induction langs with
    | nil => exact fun _ => ⟨[], rfl⟩
    | cons l ls ih =>
      intro h
      obtain ⟨n, hn⟩ := ih fun x hx => h x (List.mem_cons_of_mem _ hx)
      obtain ⟨m, hm⟩ := hcap l (h l (by simp))
      exact ⟨m ++ n, by simp only [nameOf, hm, hn]⟩
  obtain ⟨n, hn⟩ := hname (sortBy bytesLe [a, b]) fun l hl => mem_sortBy.mp hl
  have hkeys : ∀ langs acc, ∃ keys, Model.Gen.caseKeys some acc langs = some keys := by
    intro langs
    induction langs with
    | nil => exact fun acc => ⟨acc, rfl⟩
    | cons l ls ih => intro acc; simpa [Model.Gen.caseKeys] using ih _
  obtain ⟨keys, hkeys⟩ := hkeys (sortBy bytesLe [a, b]) []
  have hlab : caseLabels some (sortBy bytesLe [a, b]) = some (sortBy bytesLe keys) := by rw [caseLabels, hkeys]; rfl
  refine ⟨[⟨sortBy bytesLe keys, n, ja.toData.map Prod.fst, clashBody c⟩], ⟨[(n, ⟨sortBy bytesLe [a, b], ja.toData⟩)], ⟨_, ?_, .refl _,
    List.pairwise_singleton _ _⟩, ?_⟩, _, List.mem_singleton.mpr rfl, ?_, ?_, rfl⟩
  · rw [hds]; simp only [named, hn]
  · simp only [cases, hlab, hj]
  · exact ((caseLabels_spec hlab).2 _).mpr ⟨a, mem_sortBy.mpr (by simp), a, .inl rfl, rfl⟩
  · exact ((caseLabels_spec hlab).2 _).mpr ⟨b, mem_sortBy.mpr (by simp), b, .inl rfl, rfl⟩

/-- In general a language gets the rules of another one, and which one depends on the order in which the map is visited:
the texts of all categories are hashed without a mark between them, so that `one: "n = 1 …"` and `two: "n = 1 …"` count as
the same rules. -/
theorem C96_negation (upper : Char → Char) (sha : Bytes → Bytes) :
    ∃ (file file' : List Case) (k k' : Case) (d : Decimal) (ops : Model.Cldr.Operands), (clash.map (·.1)).Nodup ∧
      Written [(.one, condOne)] jsonA.text ∧ Written [(.two, condOne)] jsonB.text ∧
      Generated upper sha some 9 clash file ∧ Generated upper sha some 9 clash.reverse file' ∧
      k ∈ file ∧ quoted b!"bb" ∈ k.labels ∧ k' ∈ file' ∧ quoted b!"aa" ∈ k'.labels ∧
      newOperandsString Props.Cldr.noRest Props.Cldr.noOor d.text = some ops ∧
      Returns (goEnv ops) k.body .one ∧ Selects (d.ops 0) [(.two, condOne)] .two ∧
      Returns (goEnv ops) k'.body .two ∧ Selects (d.ops 0) [(.one, condOne)] .one := by
  have hcap : ∀ l ∈ [b!"aa", b!"bb"], ∃ x, Model.Gen.capital upper l = some x := by
    intro l hl
    simp only [List.mem_cons, List.not_mem_nil, or_false] at hl
    rcases hl with rfl | rfl
    · exact ⟨_, rfl⟩
    · exact ⟨_, rfl⟩
  have hwr : ∀ {c : Category} {j : RuleJSON}, c ∈ order → (∀ k ∈ order, k ≠ c → j.text k = []) → j.text c = c!"n = 1 @integer 1" →
      j.text .other = c!" @integer 2" → Written [(c, condOne)] j.text := by
    intro c j hc h1 h2 h3
    refine ⟨by simpa using hc, ?_, ⟨['2'], .inl h3⟩, fun k hk hn => h1 k hk (by simpa using hn)⟩
    simp only [List.mem_singleton, forall_eq]
    exact ⟨c!" @integer 1", ⟨['1'], .inl rfl⟩, by rw [h2]; decide⟩
  obtain ⟨file, hf, k, hk, -, hkl, hkb⟩ := clash_sets upper sha b!"aa" b!"bb" jsonA jsonB (by decide) .one (by decide +kernel) hcap
  obtain ⟨file', hf', k', hk', -, hkl', hkb'⟩ := clash_sets upper sha b!"bb" b!"aa" jsonB jsonA (by decide) .two (by decide +kernel)
    (fun l hl => hcap l (by simp only [List.mem_cons, List.not_mem_nil, or_false] at hl ⊢; exact hl.symm))
  have hA : Written [(.one, condOne)] jsonA.text := hwr (by decide) (by decide) rfl rfl
  have hB : Written [(.two, condOne)] jsonB.text := hwr (by decide) (by decide) rfl rfl
  have hone : Cond.Holds condOne ((⟨['1'], []⟩ : Decimal).ops 0) := by
    refine ⟨_, List.mem_singleton.mpr rfl, ?_⟩
    simp only [List.mem_singleton, forall_eq]
    exact ⟨(1, none), List.mem_singleton.mpr rfl, 1, by decide, by decide, rfl⟩
  have hwf : condOne.WF (2 ^ 53) ∧ FewRanges condOne := ⟨condOk_wf (by decide +kernel), by unfold FewRanges condOne; decide⟩
  have hsel : ∀ {c d : Category}, Selects ((⟨['1'], []⟩ : Decimal).ops 0) [(c, condOne)] d → d = c := by
    intro c d h
    cases h with
    | hit => rfl
    | skip h => exact absurd hone h
  obtain ⟨ops, c, ho, -, hr, hs⟩ := C96_category_partial hA (by simpa using hwf) (body := clashBody .one) (budget := 9) (by decide +kernel)
    (d := ⟨['1'], []⟩) (by simp [Decimal.WF]) (.inl (by decide +kernel)) Props.Cldr.noRest Props.Cldr.noOor
  obtain ⟨ops', c', ho', -, hr', hs'⟩ := C96_category_partial hB (by simpa using hwf) (body := clashBody .two) (budget := 9) (by decide +kernel)
    (d := ⟨['1'], []⟩) (by simp [Decimal.WF]) (.inl (by decide +kernel)) Props.Cldr.noRest Props.Cldr.noOor
  rw [ho] at ho'
  cases ho'
  cases hsel hs
  cases hsel hs'
  exact ⟨file, file', k, k', ⟨['1'], []⟩, ops, by decide, hA, hB, hf, hf', hk, hkl, hk', hkl', ho, hkb ▸ hr, hs', hkb' ▸ hr', hs⟩

end cldr
end Verif.Props.GenData
