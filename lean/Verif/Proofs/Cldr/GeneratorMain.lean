import Verif.Proofs.Gen.Cases
import Verif.Proofs.Cldr.Generator
import Verif.Proofs.Cldr.Final
import Verif.Model.Cldr.GeneratorMain
/-!
# The data sets and the generated file of the CLDR generator
-/
namespace Verif.Proofs.Cldr.GeneratorMain
open Verif.Go Verif.Cldr Verif.Model.Gen Verif.Model.Cldr.GeneratorMain Verif.Spec.GenData Verif.Proofs.Gen
open Verif.Spec.Cldr Verif.Proofs.Cldr Verif.Model.Cldr
open Verif.Model.Cldr.Generator (convertToGo compileNode)

theorem toData_eq (j : RuleJSON) :
    j.toData = (order.flatMap fun c => rule c (j.text c)) ++ rule .other (j.text .other) := by
  simp [order, RuleJSON.toData, RuleJSON.text, List.flatMap_cons]

/-- A rule text says which of the categories it belongs to. -/
theorem toData_inj {j j' : RuleJSON} (h : j.toData = j'.toData) : j = j' := by
  have key : ∀ (j : RuleJSON) (c : Category), j.text c = ((j.toData.find? fun r => r.1 = c).map (·.2)).getD [] := by
    intro j c
    have fr : ∀ c' t, (rule c' t).find? (fun r => decide (r.1 = c)) = if c' = c ∧ t ≠ [] then some (c', t) else none := by
      intro c' t
      unfold rule
      by_cases ht : t = [] <;> by_cases hc : c' = c <;> simp [ht, hc]
    unfold RuleJSON.toData
    simp only [List.find?_append, fr]
    cases c <;> simp only [RuleJSON.text, reduceCtorEq, false_and, if_false, true_and, Option.or_none, Option.none_or]
    case zero => by_cases h : j.zero = [] <;> simp [h]
    case one => by_cases h : j.one = [] <;> simp [h]
    case two => by_cases h : j.two = [] <;> simp [h]
    case few => by_cases h : j.few = [] <;> simp [h]
    case many => by_cases h : j.many = [] <;> simp [h]
    case other => by_cases h : j.other = [] <;> simp [h]
  have ht : ∀ c, j.text c = j'.text c := fun c => by rw [key j, key j', h]
  obtain ⟨a, b, c, d, e, f⟩ := j
  obtain ⟨a', b', c', d', e', f'⟩ := j'
  have h1 := ht .zero; have h2 := ht .one; have h3 := ht .two; have h4 := ht .few; have h5 := ht .many; have h6 := ht .other
  simp only [RuleJSON.text] at h1 h2 h3 h4 h5 h6
  subst h1 h2 h3 h4 h5 h6
  rfl

def key (sha : Bytes → Bytes) (j : RuleJSON) : Bytes := sha j.input

def asSet (p : List Bytes × List (Category × List Char)) : DataSet := ⟨p.1, p.2⟩

theorem dataSets_eq (sha : Bytes → Bytes) (table : List (Bytes × RuleJSON)) :
    dataSets sha table = (setsOf (key sha) RuleJSON.toData table).map asSet := by
  unfold dataSets setsOf
  rw [List.map_map]
  rfl

/-- The sets without their names. -/
def plain (out : List (Bytes × DataSet)) : List (List Bytes × List (Category × List Char)) :=
  out.map fun p => (p.2.languages, p.2.rules)

theorem sets_perm {upper : Char → Char} {sha : Bytes → Bytes} {table : List (Bytes × RuleJSON)} {out : List (Bytes × DataSet)}
    (h : Sets upper sha table out) : (plain out).Perm (setsOf (key sha) RuleJSON.toData table) := by
  obtain ⟨l, hl, hs, -⟩ := h
  have h1 := hs.map fun p : Bytes × DataSet => (p.2.languages, p.2.rules)
  have h2 : l.map (fun p : Bytes × DataSet => (p.2.languages, p.2.rules)) = setsOf (key sha) RuleJSON.toData table := by
    have := named_snd hl
    rw [dataSets_eq] at this
    have h3 := congrArg (List.map fun d : DataSet => (d.languages, d.rules)) this
    rw [List.map_map, List.map_map] at h3
    exact h3.trans (List.map_id _)
  rw [← h2]
  exact h1

/-! ## The cases -/

/-- A case for a data set. -/
structure CaseOf (canon : Bytes → Option Bytes) (budget : Nat) (d : Bytes × DataSet) (c : Case) : Prop where
  labels : caseLabels canon d.2.languages = some c.labels
  name : c.name = d.1
  categories : c.categories = d.2.rules.map (·.1)
  body : statements budget d.2.rules = some c.body

theorem cases_spec {canon : Bytes → Option Bytes} {budget : Nat} : ∀ {out : List (Bytes × DataSet)} {file : List Case},
    cases canon budget out = some file →
    (∀ d ∈ out, ∃ c ∈ file, CaseOf canon budget d c) ∧ (∀ c ∈ file, ∃ d ∈ out, CaseOf canon budget d c) ∧
      file.map (·.name) = out.map (·.1)
  | [], file, h => by cases h; simp
  | d :: ds, file, h => by
    unfold cases at h
    split at h
    · rename_i l b cs h1 h2 h3
      cases h
      obtain ⟨ih1, ih2, ih3⟩ := cases_spec h3
      have hd : CaseOf canon budget d ⟨l, d.1, d.2.rules.map Prod.fst, b⟩ := ⟨h1, rfl, rfl, h2⟩
      refine ⟨fun x hx => ?_, fun x hx => ?_, by simp [ih3]⟩
      · rcases List.mem_cons.mp hx with rfl | hx
        · exact ⟨_, List.mem_cons_self, hd⟩
        · obtain ⟨c, hc, h⟩ := ih1 x hx; exact ⟨c, List.mem_cons_of_mem _ hc, h⟩
      · rcases List.mem_cons.mp hx with rfl | hx
        · exact ⟨_, List.mem_cons_self, hd⟩
        · obtain ⟨c, hc, h⟩ := ih2 x hx; exact ⟨c, List.mem_cons_of_mem _ hc, h⟩
    · cases h

theorem labels_nodup {canon : Bytes → Option Bytes} {budget : Nat} : ∀ {out : List (Bytes × DataSet)} {file : List Case},
    cases canon budget out = some file →
    (out.Pairwise fun a b => ∀ l ∈ a.2.languages, ∀ l' ∈ b.2.languages, ∀ x, Spelling canon l x → ¬ Spelling canon l' x) →
    (file.map (·.labels)).flatten.Nodup
  | [], file, h, _ => by cases h; simp
  | d :: ds, file, h, hp => by
    unfold cases at h
    split at h
    · rename_i l b cs h1 h2 h3
      cases h
      obtain ⟨hp1, hp2⟩ := List.pairwise_cons.mp hp
      have ih := labels_nodup h3 hp2
      obtain ⟨-, hc, -⟩ := cases_spec h3
      obtain ⟨hn, hl⟩ := caseLabels_spec h1
      rw [List.map_cons, List.flatten_cons]
      refine List.nodup_append.mpr ⟨hn, ih, fun x hx y hy => ?_⟩
      rintro rfl
      obtain ⟨ls, hls, hy⟩ := List.mem_flatten.mp hy
      obtain ⟨c, hcm, rfl⟩ := List.mem_map.mp hls
      obtain ⟨d', hd', hcd⟩ := hc c hcm
      obtain ⟨a, ha, u, hu, e⟩ := (hl x).mp hx
      obtain ⟨a', ha', u', hu', e'⟩ := ((caseLabels_spec hcd.labels).2 x).mp hy
      have : u = u' := quoted_inj (e.symm.trans e')
      subst this
      exact hp1 d' hd' a ha a' ha' u hu hu'
    · cases h

/-! ## The functions -/

theorem flatMap_rules {text : Category → List Char} : ∀ {cats : List Category} {rules : List (Category × Cond)}, cats.Nodup →
    (rules.map (·.1)).Sublist cats → (∀ r ∈ rules, text r.1 ≠ []) → (∀ c ∈ cats, c ∉ rules.map (·.1) → text c = []) →
    (cats.flatMap fun c => rule c (text c)) = rules.map fun r => (r.1, text r.1)
  | [], rules, _, hs, _, _ => by
    have := List.eq_nil_of_map_eq_nil (List.sublist_nil.mp hs)
    subst this
    rfl
  | c :: cats, rules, hn, hs, hr, hc => by
    rw [List.nodup_cons] at hn
    rw [List.flatMap_cons]
    cases rules with
    | nil =>
      rw [hc c (by simp) (by simp), flatMap_rules (rules := []) hn.2 (List.nil_sublist _) (by simp)
        (fun c' h' => hc c' (List.mem_cons_of_mem _ h'))]
      rfl
    | cons r rules =>
      by_cases he : r.1 = c
      · have hs' : (rules.map (·.1)).Sublist cats := by
          rw [List.map_cons, he] at hs
          exact List.cons_sublist_cons.mp hs
        rw [flatMap_rules hn.2 hs' (fun x hx => hr x (List.mem_cons_of_mem _ hx)) fun c' h' hnot =>
          hc c' (List.mem_cons_of_mem _ h') (by
            rw [List.map_cons, List.mem_cons, not_or]
            exact ⟨fun e => hn.1 (by rw [← he, ← e]; exact h'), hnot⟩)]
        rw [← he, rule, if_neg (hr r (by simp))]
        rfl
      · have hs' : ((r :: rules).map (·.1)).Sublist cats := by
          rw [List.map_cons] at hs ⊢
          cases hs with
          | cons _ h => exact h
          | cons_cons _ h => exact absurd rfl he
        have hnot : c ∉ (r :: rules).map (·.1) := fun h => hn.1 (hs'.subset h)
        rw [hc c (by simp) hnot, flatMap_rules hn.2 hs' hr fun c' h' => hc c' (List.mem_cons_of_mem _ h')]
        rfl

theorem samples_ne {s : List Char} (h : Samples s) : s ≠ [] := by
  obtain ⟨r, rfl | rfl⟩ := h <;> simp

theorem samples_at {s : List Char} (h : Samples s) : '@' ∈ s := by
  obtain ⟨r, rfl | rfl⟩ := h <;> simp

theorem samples_no_condition {s : List Char} (h : Samples s) : hasCondition s = false := by
  obtain ⟨r, rfl | rfl⟩ := h <;> rfl

theorem samples_tail {s : List Char} (h : Samples s) : Tail (generateTokens s) := by
  obtain ⟨r, rfl | rfl⟩ := h
  · exact .integer (R := generateTokens r)
  · exact .decimal (R := generateTokens r)

theorem sepBy_head {sep : List Char} {P : Char → Prop} : ∀ {l : List (List Char)}, l ≠ [] → (∀ x ∈ l, ∃ c r, x = c :: r ∧ P c) →
    ∃ c r, sepBy sep l = c :: r ∧ P c
  | [], h, _ => absurd rfl h
  | [x], _, hx => hx x (by simp)
  | x :: y :: l, _, hx => by
    obtain ⟨c, r, rfl, hc⟩ := hx x (by simp)
    exact ⟨c, _, rfl, hc⟩

theorem cond_head {b : Nat} {c : Cond} (h : c.WF b) : ∃ x r, c.text = x :: r ∧ isSpace x = false ∧ x ≠ '@' := by
  refine sepBy_head (P := fun x => isSpace x = false ∧ x ≠ '@') (by simpa using h.1) fun t ht => ?_
  obtain ⟨conj, hconj, rfl⟩ := List.mem_map.mp ht
  refine sepBy_head (P := fun x => isSpace x = false ∧ x ≠ '@') (by simpa using (h.2 conj hconj).1) fun t ht => ?_
  obtain ⟨r, -, rfl⟩ := List.mem_map.mp ht
  unfold Rel.text
  cases r.opd <;> exact ⟨_, _, rfl, by decide, by decide⟩

theorem cond_has_condition {b : Nat} {c : Cond} (h : c.WF b) (s : List Char) : hasCondition (c.text ++ s) = true := by
  obtain ⟨x, r, he, h1, h2⟩ := cond_head h
  unfold hasCondition
  rw [he, List.cons_append, List.dropWhile_cons, h1]
  simpa using h2

theorem toData_written {rules : List (Category × Cond)} {j : RuleJSON} (h : Written rules j.text) :
    j.toData = (rules.map fun r => (r.1, j.text r.1)) ++ [(.other, j.text .other)] := by
  rw [toData_eq, flatMap_rules (by decide) h.cats _ h.rest]
  · rw [rule, if_neg (samples_ne h.other)]
  · intro r hr
    obtain ⟨s, hs, he⟩ := h.rule r hr
    rw [he]
    intro e
    exact samples_ne hs (List.append_eq_nil_iff.mp e).2

theorem convert_written {c : Cond} {b : Nat} (hb : b ≤ 2 ^ 63) (hc : c.WF b) {s : List Char} (hs : Samples s) {budget : Nat}
    {t : List Char} (h : convertToGo budget (c.text ++ s) = some t) : compileNode (astCond c) = some t := by
  unfold convertToGo at h
  rw [parse_cond hb hc budget (.inr (by obtain ⟨r, rfl | rfl⟩ := hs <;> exact ⟨_, _, rfl, by decide⟩)) (samples_tail hs)] at h
  revert h
  cases samples budget _ _ <;> simp [Except.map]

end Verif.Proofs.Cldr.GeneratorMain
