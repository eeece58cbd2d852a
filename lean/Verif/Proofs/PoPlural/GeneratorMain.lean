import Verif.Proofs.Gen.Cases
import Verif.Model.PoPlural.GeneratorMain
/-!
# The rules and the generated file of the generator of catalog/poplural
-/
namespace Verif.Proofs.PoPlural.GeneratorMain
open Verif.Go Verif.Model.Gen Verif.Model.PoPlural Verif.Model.PoPlural.Generator Verif.Model.PoPlural.GeneratorMain
open Verif.Spec.GenData Verif.Proofs.Gen

variable {α : Type}

theorem allSome_eq : ∀ {l : List (Option α)} {a : List α}, allSome l = some a → l = a.map some
  | [], a, h => by cases h; rfl
  | none :: l, a, h => by cases h
  | some x :: l, a, h => by
    unfold allSome at h
    split at h
    · rename_i as hs
      cases h
      rw [allSome_eq hs]; rfl
    · cases h

theorem allSome_perm {l l' : List (Option α)} {a a' : List α} (hp : l.Perm l') (h : allSome l = some a) (h' : allSome l' = some a') :
    a.Perm a' := by
  rw [allSome_eq h, allSome_eq h'] at hp
  have := hp.filterMap id
  simpa using this

/-- What is shown of the data of a language. -/
def view (d : FileLang) : Int × List Char := (d.plurals, rawOf d)

def make (s : List Bytes × Int × List Char) : Option RuleData := newRule s.1 s.2.1 s.2.2

theorem readJSONRules_eq (table : List (Bytes × FileLang)) :
    readJSONRules table = allSome ((setsOf FileLang.formula view table).map make) := by
  unfold readJSONRules setsOf
  rw [List.map_map]
  rfl

/-- What belongs to a rule. -/
structure Made (r : RuleData) : Prop where
  ex : ∃ f, astParse r.raw = .ok f ∧ r.compiled = compileForms f ∧ r.compiledRaw = compileToString f

theorem newRule_made {langs : List Bytes} {c : Int} {raw : List Char} {r : RuleData} (h : newRule langs c raw = some r) :
    r.languages = langs ∧ r.count = c ∧ r.raw = raw ∧ Made r := by
  unfold newRule at h
  split at h
  · rename_i f hf
    cases h
    exact ⟨rfl, rfl, rfl, ⟨f, hf, rfl, rfl⟩⟩
  · cases h

theorem newRuleData_made {raw : List Char} {r : RuleData} (h : newRuleData raw = some r) :
    r.languages = [] ∧ r.raw = raw ∧ Made r := by
  unfold newRuleData at h
  split at h
  · rename_i f hf
    cases h
    exact ⟨rfl, rfl, ⟨f, hf, rfl, rfl⟩⟩
  · cases h

/-- A rule without the parts that follow from the others. -/
def shown (r : RuleData) : List Bytes × Int × List Char := (r.languages, r.count, r.raw)

theorem json_shown {table : List (Bytes × FileLang)} {a : List RuleData} (h : readJSONRules table = some a) :
    a.map shown = setsOf FileLang.formula view table ∧ ∀ r ∈ a, Made r := by
  rw [readJSONRules_eq] at h
  replace h := allSome_eq h
  generalize setsOf FileLang.formula view table = l at h
  induction a generalizing l with
  | nil =>
    cases l with
    | nil => exact ⟨rfl, by simp⟩
    | cons => cases h
  | cons r a ih =>
    cases l with
    | nil => cases h
    | cons s l =>
      rw [List.map_cons, List.map_cons, List.cons.injEq] at h
      obtain ⟨h1, h2⟩ := ih l h.2
      obtain ⟨e1, e2, e3, hm⟩ := newRule_made h.1
      refine ⟨by rw [List.map_cons, h1]; simp only [shown, e1, e2, e3], fun x hx => ?_⟩
      rcases List.mem_cons.mp hx with rfl | hx
      · exact hm
      · exact h2 x hx

theorem extra_made {b : List RuleData} (h : getExtraRules = some b) :
    ∀ r ∈ b, r.languages = [] ∧ r.raw ∈ extraRulesTable ∧ Made r := by
  have h := allSome_eq h
  intro r hr
  have : some r ∈ extraRulesTable.map newRuleData := by rw [h]; exact List.mem_map.mpr ⟨r, hr, rfl⟩
  obtain ⟨raw, hraw, he⟩ := List.mem_map.mp this
  obtain ⟨h1, h2, h3⟩ := newRuleData_made he
  exact ⟨h1, h2 ▸ hraw, h3⟩

/-! ## Names -/

theorem code_name_head {upper : Char → Char} (hu : Upper upper) {langs : List Bytes} (hne : langs ≠ []) (hc : ∀ l ∈ langs, Code l)
    {n : Bytes} (h : nameOf upper langs = some n) : n.head? ≠ some 0x6e := by
  cases langs with
  | nil => exact absurd rfl hne
  | cons l ls =>
    obtain ⟨cs, h1, -⟩ := name_chars hu fun l hl => hc l (List.mem_cons_of_mem _ hl)
    obtain ⟨w, subs, hw, hl, hs, rfl⟩ := hc l (by simp)
    simp only [nameOf, capital_code hu hw hl hs, h1, Option.some.injEq] at h
    subst h
    cases w with
    | nil => exact absurd rfl hw
    | cons c w =>
      have h2 := upper_nat hu (hl c (by simp))
      have h3 := low_nat (hl c (by simp))
      have : utf8 (cap upper (c :: w) subs) = encodeRune (upper c) ++ utf8 (w ++ subs.flatMap ('_' :: ·)) := by
        show utf8 (upper c :: (w ++ _)) = _
        rw [utf8_cons]
      rw [this]
      have h4 : encodeRune (upper c) = [UInt8.ofNat (upper c).toNat] := by
        unfold encodeRune
        simp only []
        rw [if_pos (by omega)]
      rw [h4]
      simp only [List.cons_append, List.nil_append, List.head?_cons, ne_eq, Option.some.injEq]
      intro e
      have e2 := congrArg UInt8.toNat e
      rw [UInt8.toNat_ofNat', h2] at e2
      have : (c.toNat - 32) % 2 ^ 8 = 110 := e2
      omega

theorem made_head {r : RuleData} (h : Made r) : (utf8 r.compiledRaw).head? = some 0x6e := by
  obtain ⟨f, -, -, h⟩ := h.ex
  rw [h]
  rfl

/-! ## The cases -/

/-- A case for a rule. -/
structure CaseOf (canon : Bytes → Option Bytes) (d : Bytes × RuleData) (c : Case) : Prop where
  labels : caseLabels canon d.2.languages = some c.labels
  raw : c.raw = d.2.compiledRaw
  name : c.name = d.1
  count : c.count = d.2.count
  body : c.body = d.2.compiled

theorem cases_spec {canon : Bytes → Option Bytes} : ∀ {out : List (Bytes × RuleData)} {file : List Case},
    cases canon out = some file →
    (∀ d ∈ out, ∃ c ∈ file, CaseOf canon d c) ∧ (∀ c ∈ file, ∃ d ∈ out, CaseOf canon d c) ∧
      file.map (·.raw) = out.map (·.2.compiledRaw)
  | [], file, h => by cases h; simp
  | d :: ds, file, h => by
    unfold cases at h
    split at h
    · rename_i l cs h1 h3
      cases h
      obtain ⟨ih1, ih2, ih3⟩ := cases_spec h3
      have hd : CaseOf canon d ⟨d.2.compiledRaw, l, d.1, d.2.count, d.2.compiled⟩ := ⟨h1, rfl, rfl, rfl, rfl⟩
      refine ⟨fun x hx => ?_, fun x hx => ?_, by simp [ih3]⟩
      · rcases List.mem_cons.mp hx with rfl | hx
        · exact ⟨_, List.mem_cons_self, hd⟩
        · obtain ⟨c, hc, h⟩ := ih1 x hx; exact ⟨c, List.mem_cons_of_mem _ hc, h⟩
      · rcases List.mem_cons.mp hx with rfl | hx
        · exact ⟨_, List.mem_cons_self, hd⟩
        · obtain ⟨c, hc, h⟩ := ih2 x hx; exact ⟨c, List.mem_cons_of_mem _ hc, h⟩
    · cases h

theorem labels_nodup {canon : Bytes → Option Bytes} : ∀ {out : List (Bytes × RuleData)} {file : List Case},
    cases canon out = some file →
    (out.Pairwise fun a b => ∀ l ∈ a.2.languages, ∀ l' ∈ b.2.languages, ∀ x, Spelling canon l x → ¬ Spelling canon l' x) →
    (file.map (·.labels)).flatten.Nodup
  | [], file, h, _ => by cases h; simp
  | d :: ds, file, h, hp => by
    unfold cases at h
    split at h
    · rename_i l cs h1 h3
      cases h
      obtain ⟨hp1, hp2⟩ := List.pairwise_cons.mp hp
      have ih := labels_nodup h3 hp2
      obtain ⟨-, hc, -⟩ := cases_spec h3
      obtain ⟨hn, hl⟩ := caseLabels_spec h1
      rw [List.map_cons, List.flatten_cons]
      refine List.nodup_append.mpr ⟨hn, ih, fun x hx y hy => ?_⟩
      rintro rfl
      obtain ⟨ls, hls, hy⟩ := List.mem_flatten.mp hy
      obtain ⟨c, hcm, rfl⟩ := List.mem_map.mp hls
      obtain ⟨d', hd', hcd⟩ := hc c hcm
      obtain ⟨a, ha, u, hu, e⟩ := (hl x).mp hx
      obtain ⟨a', ha', u', hu', e'⟩ := ((caseLabels_spec hcd.labels).2 x).mp hy
      have : u = u' := quoted_inj (e.symm.trans e')
      subst this
      exact hp1 d' hd' a ha a' ha' u hu hu'
    · cases h

end Verif.Proofs.PoPlural.GeneratorMain
