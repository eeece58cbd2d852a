import Verif.Props.Generator
import Verif.Props.GenData
import Verif.Proofs.PoPlural.GeneratorMain
/-!
# C97: the generator of catalog/poplural gives every language its own formula

`table` is the map from languages to formulas and numbers of plurals of `plurals.json`, in the order in which the generator
visits it.  `Rules upper table out` says that `out` are the named rules that the templates are executed with,
`Generated upper canon table file` that `file` is the generated file (Verif/Model/PoPlural/GeneratorMain.lean).
-/
namespace Verif.Props.GenFormulas
open Verif.Go Verif.Spec.GenData Verif.Spec.PoPlural Verif.Proofs.Gen Verif.Proofs.PoPlural.GeneratorMain
open Verif.Model.PoPlural (astParse compileToString)
open Verif.Model.PoPlural.Generator (compiled goEnv compileForms)
open Verif.Model.PoPlural.GeneratorMain
open Verif.Model.Gen (quoted named nameOf SortedBy less caseLabels)
open Verif.Spec.GoCode (Function)
open Verif.Props.PoPlural (frame frame_formula vN sp spD)
open Verif.Proofs.PoPlural (der_le render)

/-- Languages with the same formula have the same number of plurals. -/
def Agree (table : List (Bytes × FileLang)) : Prop :=
  ∀ a ∈ table, ∀ b ∈ table, a.2.formula = b.2.formula → a.2.plurals = b.2.plurals

theorem noClash_iff {table : List (Bytes × FileLang)} : NoClash FileLang.formula view table ↔ Agree table :=
  ⟨fun h a ha b hb he => (Prod.mk.inj (h a ha b hb he)).1, fun h a ha b hb he => by
    have := h a ha b hb he
    unfold view rawOf
    rw [this, he]⟩

/-- The rules of the file and the others. -/
theorem rules_perm {upper : Char → Char} {table : List (Bytes × FileLang)} {out : List (Bytes × RuleData)} (h : Rules upper table out) :
    ∃ a b, readJSONRules table = some a ∧ getExtraRules = some b ∧ (out.map (·.2)).Perm (a ++ b) ∧
      ∀ p ∈ out, p.2.name upper = some p.1 := by
  obtain ⟨a, b, l, ha, hb, hl, hs, -⟩ := h
  refine ⟨a, b, ha, hb, ?_, fun p hp => named_name hl p (hs.mem_iff.mp hp)⟩
  rw [← named_snd hl]
  exact hs.map _

theorem json_ne {table : List (Bytes × FileLang)} (hn : (table.map (·.1)).Nodup) {a : List RuleData} (ha : readJSONRules table = some a) :
    ∀ r ∈ a, r.languages ≠ [] ∧ ∀ l ∈ r.languages, ∃ d, (l, d) ∈ table := fun r hr => by
  have hm : shown r ∈ setsOf FileLang.formula view table := (json_shown ha).1 ▸ List.mem_map.mpr ⟨r, hr, rfl⟩
  exact (setsOf_langs hn).1 _ hm

theorem filter_perm {table : List (Bytes × FileLang)} (hn : (table.map (·.1)).Nodup) {a b : List RuleData}
    (ha : readJSONRules table = some a) (hb : getExtraRules = some b) {out : List (Bytes × RuleData)}
    (hp : (out.map (·.2)).Perm (a ++ b)) :
    ((out.filter fun p => p.2.languages ≠ []).map fun p => (p.2.languages, p.2.count, p.2.raw)).Perm
      (setsOf FileLang.formula view table) := by
  have h1 := hp.filter fun r => decide (r.languages ≠ [])
  rw [List.filter_append, List.filter_eq_self.mpr (fun r (hr : r ∈ a) => by simpa using (json_ne hn ha r hr).1),
    List.filter_eq_nil_iff.mpr (fun r (hr : r ∈ b) => by simpa using (extra_made hb r hr).1), List.append_nil] at h1
  have h2 := h1.map shown
  rw [(json_shown ha).1, List.filter_map, List.map_map] at h2
  exact h2

/-- Every language is in exactly one rule, and this is the one with the formula and the number of plurals of the language:
for each order in which the map is visited, exactly if languages with the same formula have the same number of plurals. -/
theorem C97_own_rules {upper : Char → Char} {table : List (Bytes × FileLang)} (hn : (table.map (·.1)).Nodup)
    {out : List (Bytes × RuleData)} (h : Rules upper table out) :
    Own (fun d => (d.plurals, rawOf d)) table
      ((out.filter fun p => p.2.languages ≠ []).map fun p => (p.2.languages, p.2.count, p.2.raw)) ↔ Agree table := by
  obtain ⟨a, b, ha, hb, hp, -⟩ := rules_perm h
  have hf := filter_perm hn ha hb hp
  rw [← noClash_iff, ← setsOf_own hn]
  exact ⟨own_perm hf, own_perm hf.symm⟩

/-- The other rules have no languages; they are those of extra.go. -/
theorem C97_extra_rules {upper : Char → Char} {table : List (Bytes × FileLang)} (hn : (table.map (·.1)).Nodup)
    {out : List (Bytes × RuleData)} (h : Rules upper table out) :
    ((out.filter fun p => p.2.languages = []).map (·.2.raw)).Perm extraRulesTable := by
  obtain ⟨a, b, ha, hb, hp, -⟩ := rules_perm h
  have h1 := hp.filter fun r => decide (r.languages = [])
  rw [List.filter_append, List.filter_eq_nil_iff.mpr (fun r (hr : r ∈ a) => by simpa using (json_ne hn ha r hr).1),
    List.filter_eq_self.mpr (fun r (hr : r ∈ b) => by simpa using (extra_made hb r hr).1), List.nil_append] at h1
  have h2 := h1.map (·.raw)
  rw [List.filter_map, List.map_map] at h2
  refine h2.trans (.of_eq ?_)
  replace hb := allSome_eq hb
  generalize extraRulesTable = l at hb ⊢
  clear h1 h2 hp
  induction b generalizing l with
  | nil =>
    cases l with
    | nil => rfl
    | cons => cases hb
  | cons r b ih =>
    cases l with
    | nil => cases hb
    | cons x l =>
      rw [List.map_cons, List.map_cons, List.cons.injEq] at hb
      rw [List.map_cons, ih l hb.2, (newRuleData_made hb.1).2.1]

theorem extra_nodup {b : List RuleData} (hb : getExtraRules = some b) : (b.map (·.compiledRaw)).Nodup := by
  have : getExtraRules.map (fun b => decide (b.map (·.compiledRaw)).Nodup) = some true := by decide +kernel
  rw [hb] at this
  simpa using this

theorem names_nodup {upper : Char → Char} (hu : Upper upper) {table : List (Bytes × FileLang)} (hn : (table.map (·.1)).Nodup)
    (hcode : ∀ e ∈ table, Code e.1) {a b : List RuleData} (ha : readJSONRules table = some a) (hb : getExtraRules = some b) :
    (a ++ b).Pairwise fun x y => x.name upper ≠ y.name upper := by
  have hcodes : ∀ r ∈ a, ∀ l ∈ r.languages, Code l := fun r hr l hl => by
    obtain ⟨d, hd⟩ := (json_ne hn ha r hr).2 l hl
    exact hcode _ hd
  refine List.pairwise_append.mpr ⟨?_, ?_, fun x hx y hy => ?_⟩
  · have := (setsOf_langs (key := FileLang.formula) (view := view) hn).2.1
    rw [← (json_shown ha).1, List.pairwise_map] at this
    refine this.imp_of_mem fun {x y} hx hy hxy he => ?_
    unfold RuleData.name at he
    rw [if_neg (json_ne hn ha x hx).1, if_neg (json_ne hn ha y hy).1] at he
    have e := name_injective hu (hcodes x hx) (hcodes y hy) he
    obtain ⟨l, hl⟩ := List.exists_mem_of_ne_nil _ (json_ne hn ha x hx).1
    exact hxy l hl (by show l ∈ y.languages; rw [← e]; exact hl)
  · have := extra_nodup hb
    rw [List.Nodup, List.pairwise_map] at this
    refine this.imp_of_mem fun {x y} hx hy hxy he => ?_
    unfold RuleData.name at he
    rw [if_pos (extra_made hb x hx).1, if_pos (extra_made hb y hy).1, Option.some.injEq] at he
    exact hxy (utf8_injective he)
  · unfold RuleData.name
    rw [if_neg (json_ne hn ha x hx).1, if_pos (extra_made hb y hy).1]
    intro he
    have := code_name_head hu (json_ne hn ha x hx).1 (hcodes x hx) he
    exact this (made_head (extra_made hb y hy).2.2)

/-- The names of the rules differ, for languages with codes of the usual form. -/
theorem C97_names {upper : Char → Char} (hu : Upper upper) {table : List (Bytes × FileLang)} (hn : (table.map (·.1)).Nodup)
    (hcode : ∀ e ∈ table, Code e.1) {out : List (Bytes × RuleData)} (h : Rules upper table out) : (out.map (·.1)).Nodup := by
  obtain ⟨a, b, ha, hb, hp, hname⟩ := rules_perm h
  have := (hp.pairwise_iff fun hxy => hxy.symm).mpr (names_nodup hu hn hcode ha hb)
  rw [List.Nodup, List.pairwise_map]
  rw [List.pairwise_map] at this
  exact this.imp_of_mem fun {x y} hx hy hxy he => hxy (by rw [hname x hx, hname y hy, he])

/-- The file does not depend on the order in which the map is visited, if languages with the same formula have the same
number of plurals. -/
theorem C97_order_free {upper : Char → Char} (hu : Upper upper) {table table' : List (Bytes × FileLang)} (hp : table.Perm table')
    (hn : (table.map (·.1)).Nodup) (hcode : ∀ e ∈ table, Code e.1) (hd : Agree table) {canon : Bytes → Option Bytes}
    {file file' : List Case} (h : Generated upper canon table file) (h' : Generated upper canon table' file') : file = file' := by
  obtain ⟨out, ho, hf⟩ := h
  obtain ⟨out', ho', hf'⟩ := h'
  have hnames := C97_names hu hn hcode ho
  have hsets := setsOf_perm hp (noClash_iff.mpr hd)
  obtain ⟨a, b, l, ha, hb, hl, hs⟩ := ho
  obtain ⟨a', b', l', ha', hb', hl', hs'⟩ := ho'
  rw [hb] at hb'
  cases hb'
  have haa : a.Perm a' := by
    rw [readJSONRules_eq] at ha ha'
    exact allSome_perm (hsets.map make) ha ha'
  have hll : l.Perm l' := by
    rw [named_eq hl, named_eq hl']
    exact (haa.append_right b).map _
  have : out = out' := sorted_same hll ((hs.1.map _).nodup_iff.mp hnames) hs hs'
  subst this
  rw [hf] at hf'
  exact Option.some.inj hf'

/-- No language label is there twice, and every spelling of a language leads to the number of plurals of the language and to
the function for its own formula. -/
theorem C97_switch {upper : Char → Char} {table : List (Bytes × FileLang)} (hn : (table.map (·.1)).Nodup) (hd : Agree table)
    {canon : Bytes → Option Bytes}
    (hc : ∀ a ∈ table, ∀ b ∈ table, ∀ x, Spelling canon a.1 x → Spelling canon b.1 x → a.2.formula = b.2.formula) {file : List Case}
    (h : Generated upper canon table file) :
    (file.map (·.labels)).flatten.Nodup ∧
      (∀ e ∈ table, ∀ x, Spelling canon e.1 x → ∃ c ∈ file, quoted x ∈ c.labels ∧ c.count = e.2.plurals ∧
        compiled (rawOf e.2) = some c.body ∧ ∃ f, astParse (rawOf e.2) = .ok f ∧ c.raw = compileToString f) ∧
      ∀ c ∈ file, ∀ y ∈ c.labels, ∃ e ∈ table, ∃ x, Spelling canon e.1 x ∧ y = quoted x := by
  obtain ⟨out, ho, hf⟩ := h
  have hown := (C97_own_rules hn ho).mpr hd
  obtain ⟨a, b, ha, hb, hp, -⟩ := rules_perm ho
  obtain ⟨hc1, hc2, -⟩ := cases_spec hf
  have hmade : ∀ d ∈ out, Made d.2 := fun d hd' => by
    rcases List.mem_append.mp (hp.mem_iff.mp (List.mem_map.mpr ⟨d, hd', rfl⟩)) with h1 | h1
    · exact (json_shown ha).2 _ h1
    · exact (extra_made hb _ h1).2.2
  have hset : ∀ d ∈ out, ∀ l ∈ d.2.languages, ∃ b, (l, b) ∈ table ∧ (d.2.count, d.2.raw) = (b.plurals, rawOf b) := fun d hd' l hl =>
    hown.own (d.2.languages, d.2.count, d.2.raw) (List.mem_map.mpr ⟨d, List.mem_filter.mpr
      ⟨hd', by simpa using List.ne_nil_of_mem hl⟩, rfl⟩) l hl
  refine ⟨labels_nodup hf ?_, fun e he x hx => ?_, fun c hcm y hy => ?_⟩
  · have h1 := (setsOf_langs (key := FileLang.formula) (view := view) hn).2.2
    have h2 : (a ++ b).Pairwise fun u v => ∀ l ∈ u.languages, ∀ l' ∈ v.languages, ∀ x y, (l, x) ∈ table → (l', y) ∈ table →
        x.formula ≠ y.formula := by
      rw [← (json_shown ha).1, List.pairwise_map] at h1
      refine List.pairwise_append.mpr ⟨h1, ?_, fun u hu v hv l hl l' hl' => ?_⟩
      · refine List.pairwise_of_forall_mem_list fun u hu v hv l hl => ?_
        rw [(extra_made hb u hu).1] at hl
        cases hl
      · rw [(extra_made hb v hv).1] at hl'
        cases hl'
    have h3 := (hp.pairwise_iff fun hxy l hl l' hl' x y hx hy e => hxy l' hl' l hl y x hy hx e.symm).mpr h2
    rw [List.pairwise_map] at h3
    refine h3.imp_of_mem fun {u v} hu hv huv l hl l' hl' x hx hx' => ?_
    obtain ⟨p, hp1, -⟩ := hset u hu l hl
    obtain ⟨q, hq1, -⟩ := hset v hv l' hl'
    exact huv l hl l' hl' p q hp1 hq1 (hc _ hp1 _ hq1 x hx hx')
  · obtain ⟨s, hs, hl⟩ := hown.all e he
    obtain ⟨d, hd', rfl⟩ := List.mem_map.mp hs
    have hd' := (List.mem_filter.mp hd').1
    obtain ⟨b, hb, hr⟩ := hset d hd' e.1 hl
    obtain ⟨c, hcm, hcase⟩ := hc1 d hd'
    rw [entry_unique hn hb he] at hr
    obtain ⟨e1, e2⟩ := Prod.mk.inj hr
    obtain ⟨f, hp1, hp2, hp3⟩ := (hmade d hd').ex
    rw [e2] at hp1
    refine ⟨c, hcm, ((caseLabels_spec hcase.labels).2 _).mpr ⟨e.1, hl, x, hx, rfl⟩, hcase.count.trans e1, ?_, f, hp1, hcase.raw.trans hp3⟩
    rw [hcase.body, hp2, compiled, hp1]
  · obtain ⟨d, hd', hcase⟩ := hc2 c hcm
    obtain ⟨l, hl, x, hx, rfl⟩ := ((caseLabels_spec hcase.labels).2 y).mp hy
    obtain ⟨b, hb, -⟩ := hset d hd' l hl
    exact ⟨(l, b), hb, x, hx, rfl⟩

/-- The string of a rule, by which it is looked up, leads to the function of the rule: no two cases have the same one exactly
if different formulas are compiled to different strings, none of which is the string of a rule of extra.go. -/
theorem C97_raw_switch {upper : Char → Char} {table : List (Bytes × FileLang)} (hn : (table.map (·.1)).Nodup) (hd : Agree table)
    {canon : Bytes → Option Bytes} {file : List Case} (h : Generated upper canon table file) :
    (file.map (·.raw)).Nodup ↔
      (∀ a ∈ table, ∀ b ∈ table, ∀ f g, astParse (rawOf a.2) = .ok f → astParse (rawOf b.2) = .ok g →
        compileToString f = compileToString g → a.2.formula = b.2.formula) ∧
      ∀ a ∈ table, ∀ raw ∈ extraRulesTable, ∀ f g, astParse (rawOf a.2) = .ok f → astParse raw = .ok g →
        compileToString f ≠ compileToString g := by
  obtain ⟨out, ho, hf⟩ := h
  obtain ⟨-, -, hraw⟩ := cases_spec hf
  obtain ⟨a, b, ha, hb, hp, -⟩ := rules_perm ho
  have hown := (setsOf_own (key := FileLang.formula) hn).mpr (noClash_iff.mpr hd)
  rw [← (json_shown ha).1] at hown
  have hmade := (json_shown ha).2
  have hall : ∀ e ∈ table, ∀ f, astParse (rawOf e.2) = .ok f →
      ∃ r ∈ a, e.1 ∈ r.languages ∧ r.raw = rawOf e.2 ∧ r.count = e.2.plurals ∧ r.compiledRaw = compileToString f := by
    intro e he f hf
    obtain ⟨s, hs, hl⟩ := hown.all e he
    obtain ⟨r, hr, rfl⟩ := List.mem_map.mp hs
    obtain ⟨x, hx, hv⟩ := hown.own _ hs e.1 hl
    rw [entry_unique hn hx he] at hv
    obtain ⟨e1, e2⟩ := Prod.mk.inj hv
    obtain ⟨g, hg, -, hc⟩ := (hmade r hr).ex
    rw [show r.raw = rawOf e.2 from e2, hf] at hg
    cases hg
    exact ⟨r, hr, hl, e2, e1, hc⟩
  have hfrom : ∀ r ∈ a, ∃ e ∈ table, e.1 ∈ r.languages ∧ ∃ f, astParse (rawOf e.2) = .ok f ∧ r.compiledRaw = compileToString f := by
    intro r hr
    obtain ⟨l, hl⟩ := List.exists_mem_of_ne_nil _ (json_ne hn ha r hr).1
    obtain ⟨x, hx, hv⟩ := hown.own _ (List.mem_map.mpr ⟨r, hr, rfl⟩) l hl
    obtain ⟨g, hg, -, hc⟩ := (hmade r hr).ex
    rw [show r.raw = rawOf x from (Prod.mk.inj hv).2] at hg
    exact ⟨(l, x), hx, hl, g, hg, hc⟩
  have hextra : ∀ raw ∈ extraRulesTable, ∀ g, astParse raw = .ok g → ∃ r ∈ b, r.compiledRaw = compileToString g := by
    intro raw hr g hg
    have : newRuleData raw ∈ b.map some := by rw [← allSome_eq hb]; exact List.mem_map.mpr ⟨raw, hr, rfl⟩
    obtain ⟨r, hr, he⟩ := List.mem_map.mp this
    obtain ⟨-, h2, h3⟩ := newRuleData_made he.symm
    obtain ⟨g', hg', -, hc⟩ := h3.ex
    rw [h2, hg] at hg'
    cases hg'
    exact ⟨r, hr, hc⟩
  have hperm : (file.map (·.raw)).Perm (a.map (·.compiledRaw) ++ b.map (·.compiledRaw)) := by
    rw [hraw, ← List.map_append]
    have := hp.map (·.compiledRaw)
    rwa [List.map_map] at this
  rw [hperm.nodup_iff, List.nodup_append]
  constructor
  · rintro ⟨h1, -, h3⟩
    refine ⟨fun x hx y hy f g hf hg he => ?_, fun x hx raw hr f g hf hg he => ?_⟩
    · obtain ⟨r, hr, -, e1, e2, e3⟩ := hall x hx f hf
      obtain ⟨r', hr', -, e4, e5, e6⟩ := hall y hy g hg
      rw [List.Nodup, List.pairwise_map] at h1
      have : r = r' := by
        have h6 := e3.trans (he.trans e6.symm)
        by_cases hrr : r = r'
        · exact hrr
        · rcases pairwise_mem h1 hr hr' hrr with h | h
          · exact absurd h6 h
          · exact absurd h6.symm h
      subst this
      have h5 := e1.symm.trans e4
      unfold rawOf at h5
      rw [e2.symm.trans e5] at h5
      simpa using h5
    · obtain ⟨r', hr', e6⟩ := hextra raw hr g hg
      obtain ⟨r, hr, -, -, -, e3⟩ := hall x hx f hf
      exact h3 _ (List.mem_map.mpr ⟨r, hr, rfl⟩) _ (List.mem_map.mpr ⟨r', hr', rfl⟩) (e3.trans (he.trans e6.symm))
  · rintro ⟨h1, h2⟩
    refine ⟨?_, extra_nodup hb, fun x hx y hy he => ?_⟩
    · have h3 := (setsOf_langs (key := FileLang.formula) (view := view) hn).2.2
      rw [← (json_shown ha).1, List.pairwise_map] at h3
      rw [List.Nodup, List.pairwise_map]
      refine h3.imp_of_mem fun {r r'} hr hr' hrr he => ?_
      obtain ⟨e, hem, hl, f, hf, hc⟩ := hfrom r hr
      obtain ⟨e', hem', hl', f', hf', hc'⟩ := hfrom r' hr'
      exact hrr e.1 hl e'.1 hl' e.2 e'.2 hem hem' (h1 e hem e' hem' f f' hf hf' (hc.symm.trans (he.trans hc')))
    · obtain ⟨r, hr, rfl⟩ := List.mem_map.mp hx
      obtain ⟨r', hr', rfl⟩ := List.mem_map.mp hy
      obtain ⟨e, hem, -, f, hf, hc⟩ := hfrom r hr
      obtain ⟨-, hraw', hm⟩ := extra_made hb r' hr'
      obtain ⟨g, hg, -, hc'⟩ := hm.ex
      exact h2 e hem _ hraw' f g hf hg (hc.symm.trans (he.trans hc'))

/-- For a formula of the usual shape, every spelling of the language leads to a function that compiles and returns the value
of the formula in C. -/
theorem C97_function_partial {upper : Char → Char} {table : List (Bytes × FileLang)} (hn : (table.map (·.1)).Nodup) (hd : Agree table)
    {canon : Bytes → Option Bytes}
    (hc : ∀ a ∈ table, ∀ b ∈ table, ∀ x, Spelling canon a.1 x → Spelling canon b.1 x → a.2.formula = b.2.formula) {file : List Case}
    (h : Generated upper canon table file) {e : Bytes × FileLang} (he : e ∈ table) {k : Nat} {ex : Expr} (hf : Formula (rawOf e.2) k ex)
    (hk : k < 2 ^ 63) (hs : Small ex) (hu : Usual k ex) {x : Bytes} (hx : Spelling canon e.1 x) :
    ∃ c ∈ file, quoted x ∈ c.labels ∧ c.count = e.2.plurals ∧
      ∀ m v, cval ex m = some v → (k = 1 → v = 0) → Function (goEnv m) c.body v := by
  obtain ⟨c, hcm, hl, hcount, hbody, -⟩ := (C97_switch hn hd hc h).2.1 e he x hx
  refine ⟨c, hcm, hl, hcount, fun m v hv h0 => ?_⟩
  obtain ⟨s, hs, hfun⟩ := Props.Generator.C89_generated_function_partial hf hk hs hu hv h0
  rw [hbody] at hs
  cases hs
  exact hfun

/-! ## Examples -/

/-- What is generated for a table, if nothing stops the generator. -/
def outOf (table : List (Bytes × FileLang)) : Option (List (Bytes × RuleData)) :=
  match readJSONRules table, getExtraRules with
  | some a, some b =>
    match named (RuleData.name Props.GenData.up) (a ++ b) with
    | some l => some (sortBy (fun a b => !less RuleData.count b a) l)
    | none => none
  | _, _ => none

theorem outOf_rules {table : List (Bytes × FileLang)} {out : List (Bytes × RuleData)} (h : outOf table = some out)
    (hs : out.Pairwise fun a b => less RuleData.count b a = false) : Rules Props.GenData.up table out := by
  unfold outOf at h
  split at h
  · rename_i a b ha hb
    split at h
    · rename_i l hl
      cases h
      exact ⟨a, b, l, ha, hb, hl, sortBy_perm _ _, hs⟩
    · cases h
  · cases h

/-- The file, with the check that the rules are sorted. -/
def fileOf (table : List (Bytes × FileLang)) : Option (List Case) :=
  match outOf table with
  | some out => if out.Pairwise (fun a b => less RuleData.count b a = false) then cases some out else none
  | none => none

theorem fileOf_generated {table : List (Bytes × FileLang)} {file : List Case} (h : fileOf table = some file) :
    Generated Props.GenData.up some table file := by
  unfold fileOf at h
  split at h
  · rename_i out ho
    split at h
    · rename_i hs
      exact ⟨out, outOf_rules ho hs, h⟩
    · cases h
  · cases h

theorem any_some {α : Type} {o : Option α} {p : α → Bool} (h : o.any p = true) : ∃ a, o = some a ∧ p a = true := by
  cases o with
  | none => cases h
  | some a => exact ⟨a, rfl, h⟩

instance (table : List (Bytes × FileLang)) : Decidable (Agree table) := inferInstanceAs (Decidable (∀ _ ∈ _, _))

def demo : List (Bytes × FileLang) :=
  [(b!"en", ⟨c!"n != 1", 2⟩), (b!"ja", ⟨c!"0", 1⟩), (b!"fr", ⟨c!"n > 1", 2⟩), (b!"de", ⟨c!"n != 1", 2⟩),
    (b!"ga", ⟨c!"n == 1 ? 0 : n == 2 ? 1 : 2", 3⟩)]

example : (fileOf demo).map (fun f => (f.length, f.take 2)) = some (11, [
    ⟨c!"nplurals=1; plural=0;", [b!"\"ja\""], b!"Ja", 1, c!"return 0"⟩,
    ⟨c!"nplurals=2; plural=n != 1;", [b!"\"de\"", b!"\"en\""], b!"DeEn", 2, c!"if n != 1{\nreturn 1\n}\nreturn 0"⟩]) := by
  decide +kernel

example : (demo.map (·.1)).Nodup ∧ Agree demo ∧ (fileOf demo).any (fun f => (f.map (·.raw)).Nodup) = true := by
  decide +kernel

example : ∀ e ∈ demo, Code e.1 := by
  have : ∀ e ∈ demo, (runes e.1) ≠ [] ∧ (∀ c ∈ runes e.1, 'a' ≤ c ∧ c ≤ 'z') ∧ e.1 = utf8 (runes e.1 ++ []) := by decide +kernel
  intro e he
  obtain ⟨h1, h2, h3⟩ := this e he
  exact ⟨_, [], h1, h2, by simp, h3⟩

example : ∀ a ∈ demo, ∀ b ∈ demo, ∀ x, Spelling some a.1 x → Spelling some b.1 x → a.2.formula = b.2.formula := by
  have : ∀ a ∈ demo, ∀ b ∈ demo, a.1 = b.1 → a.2.formula = b.2.formula := by decide +kernel
  rintro a ha b hb x hx hx'
  have e : ∀ {l}, Spelling some l x → x = l := by rintro l (h | h); exact h; exact (Option.some.inj h).symm
  exact this a ha b hb ((e hx).symm.trans (e hx'))

example : Formula (rawOf ⟨c!"n != 1", 2⟩) 2 (.bin .ne .n (.num 1)) ∧ Usual 2 (.bin .ne .n (.num 1)) ∧ Small (.bin .ne .n (.num 1)) :=
  ⟨(by decide : render [] (frame '2' [vN, sp .ne, spD ['1']]) = rawOf ⟨c!"n != 1", 2⟩) ▸ frame_formula '2' _ _ (by decide +kernel)
      (der_le (by omega) (.eq (o := .ne) trivial (der_le (by omega) (.n ['n'])) (der_le (by omega) (.num ['1'])))),
    .inr (.inl ⟨rfl, trivial, trivial⟩), by simp [Small]⟩

/-! Two languages with the same formula and different numbers of plurals. -/

def clash : List (Bytes × FileLang) := [(b!"aa", ⟨c!"n != 1", 2⟩), (b!"bb", ⟨c!"n != 1", 3⟩)]

/-- In general a language gets the number of plurals of another one, and which one depends on the order in which the map is
visited: rules with the same formula count as the same. -/
theorem C97_negation : ∃ (file file' : List Case) (k k' : Case), (clash.map (·.1)).Nodup ∧
    Generated Props.GenData.up some clash file ∧ Generated Props.GenData.up some clash.reverse file' ∧
    k ∈ file ∧ quoted b!"bb" ∈ k.labels ∧ k.count = 2 ∧ (b!"bb", ⟨c!"n != 1", 3⟩) ∈ clash ∧
    k' ∈ file' ∧ quoted b!"aa" ∈ k'.labels ∧ k'.count = 3 ∧ (b!"aa", ⟨c!"n != 1", 2⟩) ∈ clash := by
  have h1 : (fileOf clash).any (fun f => f.any fun k => quoted b!"bb" ∈ k.labels ∧ k.count = 2) = true := by decide +kernel
  have h2 : (fileOf clash.reverse).any (fun f => f.any fun k => quoted b!"aa" ∈ k.labels ∧ k.count = 3) = true := by decide +kernel
  obtain ⟨file, hf, h1⟩ := any_some h1
  obtain ⟨file', hf', h2⟩ := any_some h2
  obtain ⟨k, hk, h1⟩ := List.any_eq_true.mp h1
  obtain ⟨k', hk', h2⟩ := List.any_eq_true.mp h2
  exact ⟨file, file', k, k', by decide, fileOf_generated hf, fileOf_generated hf', hk, (of_decide_eq_true h1).1, (of_decide_eq_true h1).2,
    by simp [clash], hk', (of_decide_eq_true h2).1, (of_decide_eq_true h2).2, by simp [clash]⟩

/-- `n != 1` and `n!=1`, as they stand in the file. -/
def spaced : List (Bytes × FileLang) := [(b!"aa", ⟨c!"n != 1", 2⟩), (b!"bb", ⟨c!"n!=1", 2⟩)]

/-- In general the generated file does not compile: formulas that differ in spaces or parentheses only are different rules
with the same string, so that a case is there twice. -/
theorem C97_duplicate_negation : ∃ file : List Case, (spaced.map (·.1)).Nodup ∧ Agree spaced ∧
    Generated Props.GenData.up some spaced file ∧ ¬ (file.map (·.raw)).Nodup := by
  have h : (fileOf spaced).any (fun f => ¬ (f.map (·.raw)).Nodup) = true := by decide +kernel
  obtain ⟨file, hf, h⟩ := any_some h
  exact ⟨file, by decide, by decide, fileOf_generated hf, of_decide_eq_true h⟩

end Verif.Props.GenFormulas
