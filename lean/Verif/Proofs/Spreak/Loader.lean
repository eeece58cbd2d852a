import Verif.Spec.Loader
import Verif.Proofs.Po.Trim
/-!
# The loader
-/
namespace Verif.Proofs.Spreak
open Verif.Go Verif.Model.Spreak Verif.Spec.Loader Verif.Model.Po

/-! ## Candidates -/

theorem tryPath_eq (fs : FileSystem) (es : List Bytes) :
    tryPath fs es = [joinPath es].find? fun p => (fs p).isSome := by
  unfold tryPath
  rw [List.find?_cons]
  cases (fs (joinPath es)).isSome <;> rfl

theorem find_append_match {α : Type} (p : α → Bool) (l m : List α) :
    (l ++ m).find? p = match l.find? p with | some x => some x | none => m.find? p := by
  rw [List.find?_append]
  cases l.find? p <;> rfl

theorem joinPath_skip (es : List Bytes) : joinPath ([] :: es) = joinPath es := by
  unfold joinPath
  rw [List.filter_cons_of_neg (by simp)]

/-- One spelling: the first existing place. -/
theorem searchFile_eq (fs : FileSystem) (r : DefaultResolver) (locale domain ext : Bytes) :
    searchFile fs r locale domain ext = (places r domain locale ext).find? fun p => (fs p).isSome := by
  obtain ⟨search, category⟩ := r
  unfold searchFile places documented
  simp only [tryPath_eq]
  have hnil : ([] : List Bytes).find? (fun p => (fs p).isSome) = none := rfl
  have h3 : [joinPath [locale ++ ext], joinPath [category, locale ++ ext], joinPath [b!"LC_MESSAGES", locale ++ ext]].find?
      (fun p => (fs p).isSome) =
      match [joinPath [locale ++ ext]].find? (fun p => (fs p).isSome) with
      | some p => some p
      | none =>
        match (if category ≠ [] then [joinPath [category, locale ++ ext]].find? (fun p => (fs p).isSome) else none) with
        | some p => some p
        | none => if category ≠ b!"LC_MESSAGES" then [joinPath [b!"LC_MESSAGES", locale ++ ext]].find? (fun p => (fs p).isSome) else none := by
    by_cases h1 : category = []
    · subst h1
      rw [joinPath_skip]
      simp only [List.find?_cons]
      cases (fs (joinPath [locale ++ ext])).isSome <;> simp
    · rw [if_pos h1]
      by_cases h2 : category = b!"LC_MESSAGES"
      · subst h2
        simp only [List.find?_cons]
        cases (fs (joinPath [locale ++ ext])).isSome <;> simp
        cases (fs (joinPath [b!"LC_MESSAGES", locale ++ ext])).isSome <;> simp
      · rw [if_pos h2]
        simp only [List.find?_cons]
        cases (fs (joinPath [locale ++ ext])).isSome <;> simp
        cases (fs (joinPath [category, locale ++ ext])).isSome <;> simp
  by_cases hd : domain = []
  · subst hd
    cases search
    · simp
    · simp only [ne_eq, not_true_eq_false, if_false, if_true, List.nil_append, List.drop_succ_cons, List.drop_zero,
        List.map_cons, List.map_nil, Bool.true_eq_false]
      rw [h3]
      rfl
  · cases search
    · simp only [ne_eq, hd, not_false_eq_true, if_true, if_false, List.take_succ_cons, List.take_zero, List.map_cons,
        List.map_nil, List.append_nil, Bool.false_eq_true]
      cases [joinPath [locale, category, domain ++ ext]].find? (fun p => (fs p).isSome) <;> rfl
    · simp only [ne_eq, hd, not_false_eq_true, if_true, if_false, List.take_succ_cons, List.take_zero,
        List.drop_succ_cons, List.drop_zero, List.map_cons, List.map_nil, List.cons_append, List.nil_append,
        Bool.true_eq_false]
      have e : ∀ (a b c d : Bytes) (l : List Bytes), a :: b :: c :: d :: l = [a] ++ ([b] ++ ([c] ++ ([d] ++ l))) :=
        fun _ _ _ _ _ => rfl
      rw [e, find_append_match, find_append_match, find_append_match, find_append_match, h3]
      cases [joinPath [locale, category, domain ++ ext]].find? (fun p => (fs p).isSome) with
      | some => rfl
      | none =>
      cases [joinPath [locale, b!"LC_MESSAGES", domain ++ ext]].find? (fun p => (fs p).isSome) with
      | some => rfl
      | none =>
      cases [joinPath [locale, domain ++ ext]].find? (fun p => (fs p).isSome) with
      | some => rfl
      | none =>
      cases [joinPath [domain, locale ++ ext]].find? (fun p => (fs p).isSome) with
      | some => rfl
      | none => rfl

theorem resolveFrom_eq (fs : FileSystem) (r : DefaultResolver) (domain ext : Bytes) (ls : List Bytes) :
    resolveFrom fs r domain ext ls = match (candidates r ls domain ext).find? (fun p => (fs p).isSome) with
      | some p => .ok p
      | none => .error .notExist := by
  induction ls with
  | nil => rfl
  | cons l ls ih =>
    rw [resolveFrom, searchFile_eq]
    have : candidates r (l :: ls) domain ext = places r domain l ext ++ candidates r ls domain ext := rfl
    rw [this, find_append_match]
    cases (places r domain l ext).find? (fun p => (fs p).isSome) with
    | some p => rfl
    | none => simp only; exact ih

/-! ## Loading -/

variable {L C : Type}

theorem find_map_pair {α β : Type} (d : α) (p : β → Bool) (l : List β) :
    (l.map fun x => (d, x)).find? (fun c => p c.2) = (l.find? p).map fun x => (d, x) := by
  induction l with
  | nil => rfl
  | cons x l ih =>
    rw [List.map_cons, List.find?_cons, List.find?_cons, ih]
    cases p x <;> rfl

theorem loadFrom_eq (l : FsLoader L C) (fs : FileSystem) (r : DefaultResolver) (info : L → TagInfo) (lang : L) (domain : Bytes)
    (ds : List (Bytes × Decoder L C)) : ∀ (done : List (Decoder L C)), l.decoder = done ++ ds.map Prod.snd →
    (∀ d ∈ ds, ∀ c, d.2 lang domain c ≠ .error .notExist) →
    l.loadFrom fs (r.resolver info) lang domain done.length (ds.map Prod.fst) =
      match (ds.flatMap fun d => (candidates r (expandLanguage (info lang)) domain d.1).map fun p => (d.2, p)).find?
        (fun c => (fs c.2).isSome) with
      | none => .ok (.error .notFound)
      | some (d, p) => .ok (d lang domain ((fs p).bind Node.content)) := by
  induction ds with
  | nil => intro done _ _; rfl
  | cons d ds ih =>
    intro done hd hn
    rw [List.map_cons, FsLoader.loadFrom, List.flatMap_cons, find_append_match,
      find_map_pair d.2 (fun p => (fs p).isSome)]
    unfold FsLoader.loadFromFile DefaultResolver.resolver
    rw [resolveFrom_eq]
    have hi : l.decoder[done.length]? = some d.2 := by rw [hd]; simp
    have ih := ih (done ++ [d.2]) (by rw [hd]; simp) fun x hx => hn x (List.mem_cons_of_mem _ hx)
    rw [List.length_append] at ih
    cases hf : (candidates r (expandLanguage (info lang)) domain d.1).find? (fun p => (fs p).isSome) with
    | none =>
      simp only [Option.map_none]
      exact ih
    | some p =>
      have hp : (fs p).isSome = true := by simpa using List.find?_some hf
      obtain ⟨node, hnode⟩ := Option.isSome_iff_exists.1 hp
      simp only [hnode, hi, Option.map_some, Option.bind_some]
      have hne := hn d List.mem_cons_self (Node.content node)
      cases hr : d.2 lang domain (Node.content node) with
      | ok c => rfl
      | error e =>
        cases e with
        | notExist => exact absurd hr hne
        | notFound => rfl
        | other => rfl

/-! ## Spellings -/

theorem longestFirst_order : TotalOrder longestFirst := by
  refine ⟨?_, ?_, ?_⟩
  · intro a b c h1 h2
    unfold longestFirst at *
    by_cases e1 : a.length = b.length
    · by_cases e2 : b.length = c.length
      · rw [if_neg (by omega)] at h1 h2 ⊢
        exact bytesLe_trans a b c h1 h2
      · rw [if_pos e2] at h2
        simp only [decide_eq_true_eq] at h2
        rw [if_pos (by omega)]
        simp only [decide_eq_true_eq]; omega
    · rw [if_pos e1] at h1
      simp only [decide_eq_true_eq] at h1
      by_cases e2 : b.length = c.length
      · rw [if_pos (by omega)]; simp only [decide_eq_true_eq]; omega
      · rw [if_pos e2] at h2
        simp only [decide_eq_true_eq] at h2
        rw [if_pos (by omega)]; simp only [decide_eq_true_eq]; omega
  · intro a b
    unfold longestFirst
    by_cases e : a.length = b.length
    · rw [if_neg (by omega), if_neg (by omega)]; exact bytesLe_total a b
    · rw [if_pos e, if_pos (by omega)]; simp only [decide_eq_true_eq]; omega
  · intro a b h1 h2
    unfold longestFirst at *
    by_cases e : a.length = b.length
    · rw [if_neg (by omega)] at h1 h2; exact bytesLe_antisymm a b h1 h2
    · rw [if_pos e] at h1; rw [if_pos (by omega)] at h2
      simp only [decide_eq_true_eq] at h1 h2; omega

theorem bytesLe_lt : ∀ {a b : Bytes}, bytesLe a b = true → a ≠ b → a < b
  | [], [], _, h => absurd rfl h
  | [], y :: ys, _, _ => List.nil_lt_cons y ys
  | x :: xs, [], h, _ => by simp [bytesLe] at h
  | x :: xs, y :: ys, h, hne => by
    rw [List.cons_lt_cons_iff]
    rw [bytesLe] at h
    by_cases hxy : x = y
    · subst hxy
      right
      refine ⟨rfl, bytesLe_lt (by simpa using h) (fun e => hne (by rw [e]))⟩
    · left
      rw [if_neg hxy] at h
      exact UInt8.lt_iff_toNat_lt.2 (of_decide_eq_true h)

theorem longestFirst_before {a b : Bytes} (h : longestFirst a b = true) (hne : a ≠ b) : Before a b := by
  unfold longestFirst at h
  by_cases e : a.length = b.length
  · rw [if_neg (by omega)] at h
    exact .inr ⟨e, bytesLe_lt h hne⟩
  · rw [if_pos e] at h
    exact .inl (by simpa using h)

theorem mem_addEntry {l : List Bytes} {s x : Bytes} : x ∈ addEntry l s ↔ x ∈ l ∨ x = s := by
  unfold addEntry
  split
  · constructor
    · exact .inl
    · rintro (h | rfl)
      · exact h
      · assumption
  · simp

theorem nodup_addEntry {l : List Bytes} (s : Bytes) (h : l.Nodup) : (addEntry l s).Nodup := by
  unfold addEntry
  split
  · exact h
  · rename_i hs
    rw [List.nodup_append]
    refine ⟨h, by simp, ?_⟩
    intro a ha b hb
    simp only [List.mem_singleton] at hb
    subst hb
    rintro rfl
    exact hs ha

/-- The list before it is sorted. -/
theorem expand_raw (t : TagInfo) : ∃ l : List Bytes, expandLanguage t = sortBy longestFirst l ∧ l.Nodup ∧
    ∀ s, s ∈ l ↔ s ∈ spellings t := by
  refine ⟨_, rfl, ?_, ?_⟩
  · obtain ⟨str, base, region, script⟩ := t
    have h0 : (addEntry [] str).Nodup := nodup_addEntry _ List.nodup_nil
    cases base with
    | none => cases region <;> cases script <;> exact h0
    | some b =>
      have h1 := nodup_addEntry b.1 (nodup_addEntry b.2 h0)
      cases region with
      | none =>
        cases script with
        | none => exact h1
        | some s => exact nodup_addEntry _ (nodup_addEntry _ h1)
      | some r =>
        have h2 := nodup_addEntry (b.1 ++ b!"-" ++ r) (nodup_addEntry (b.1 ++ b!"_" ++ r) h1)
        cases script with
        | none => exact h2
        | some s => exact nodup_addEntry _ (nodup_addEntry _ h2)
  · intro s
    obtain ⟨str, base, region, script⟩ := t
    unfold spellings
    cases base with
    | none => cases region <;> cases script <;> simp [mem_addEntry]
    | some b => cases region <;> cases script <;> simp [mem_addEntry, or_assoc]

/-! ## Names -/

def IsSep (c : UInt8) : Prop := c = 0x3a ∨ c = 0x40 ∨ c = 0x2e

theorem cutAt_spec (c : UInt8) (s : Bytes) : ∃ rest, s = cutAt c s ++ rest ∧ c ∉ cutAt c s ∧ (rest = [] ∨ rest.head? = some c) := by
  have key : ∀ s : Bytes, match indexByte? c s with
      | none => c ∉ s
      | some i => ∃ rest, s = s.take i ++ rest ∧ c ∉ s.take i ∧ rest.head? = some c := by
    intro s
    induction s with
    | nil => simp [indexByte?]
    | cons x xs ih =>
      rw [indexByte?]
      by_cases hx : x = c
      · rw [if_pos hx]
        exact ⟨x :: xs, rfl, by simp, by simp [hx]⟩
      · rw [if_neg hx]
        cases h : indexByte? c xs with
        | none =>
          rw [h] at ih
          simp only [Option.map_none, List.mem_cons, not_or]
          exact ⟨fun e => hx e.symm, ih⟩
        | some i =>
          rw [h] at ih
          obtain ⟨rest, h1, h2, h3⟩ := ih
          simp only [Option.map_some]
          refine ⟨rest, ?_, ?_, h3⟩
          · rw [List.take_succ_cons, List.cons_append, ← h1]
          · rw [List.take_succ_cons, List.mem_cons, not_or]; exact ⟨fun e => hx e.symm, h2⟩
  have := key s
  unfold cutAt
  cases h : indexByte? c s with
  | none => rw [h] at this; exact ⟨[], by simp, this, .inl rfl⟩
  | some i => rw [h] at this; obtain ⟨rest, h1, h2, h3⟩ := this; exact ⟨rest, h1, h2, .inr h3⟩

/-- The three cuts together. -/
theorem cuts_spec (s : Bytes) : ∃ rest, s = cutAt 0x2e (cutAt 0x40 (cutAt 0x3a s)) ++ rest ∧
    (∀ c ∈ cutAt 0x2e (cutAt 0x40 (cutAt 0x3a s)), ¬ IsSep c) ∧ (rest = [] ∨ ∃ c, rest.head? = some c ∧ IsSep c) := by
  obtain ⟨r1, a1, b1, c1⟩ := cutAt_spec 0x3a s
  obtain ⟨r2, a2, b2, c2⟩ := cutAt_spec 0x40 (cutAt 0x3a s)
  obtain ⟨r3, a3, b3, c3⟩ := cutAt_spec 0x2e (cutAt 0x40 (cutAt 0x3a s))
  refine ⟨r3 ++ (r2 ++ r1), ?_, ?_, ?_⟩
  · rw [← List.append_assoc, ← a3, ← List.append_assoc, ← a2, ← a1]
  · rintro c hc (rfl | rfl | rfl)
    · exact b1 (by rw [a2, a3]; simp [hc])
    · exact b2 (by rw [a3]; simp [hc])
    · exact b3 hc
  · rcases c3 with rfl | c3
    · rcases c2 with rfl | c2
      · rcases c1 with rfl | c1
        · left; rfl
        · right; exact ⟨_, by simpa using c1, .inl rfl⟩
      · right
        cases r2 with
        | nil => cases c2
        | cons x xs => exact ⟨x, rfl, by simp at c2; exact .inr (.inl c2)⟩
    · right
      cases r3 with
      | nil => cases c3
      | cons x xs => exact ⟨x, rfl, by simp at c3; exact .inr (.inr c3)⟩

open Verif.Proofs.Po

theorem trimSpace_spec (s : Bytes) : ∃ a b, Spaces a ∧ Spaces b ∧ s = a ++ trimSpace s ++ b ∧
    (∀ e ∈ spaceEncodings, ¬ e <+: trimSpace s) ∧ ∀ e ∈ spaceEncodings, ¬ e <:+ trimSpace s := by
  obtain ⟨a, ha, h1, h2⟩ := trimLeft_spec s
  obtain ⟨b, hb, h3, h4⟩ := trimRight_spec (trimLeft s)
  refine ⟨a, b, ha, hb, ?_, ?_, h4⟩
  · unfold trimSpace
    rw [List.append_assoc, ← h3, ← h1]
  · intro e he hp
    refine h2 e he ?_
    rw [h3]
    exact hp.trans (List.prefix_append _ _)

theorem trimLeft_id {s : Bytes} (h : ∀ e ∈ spaceEncodings, ¬ e <+: s) : trimLeft s = s := by
  obtain ⟨a, ⟨xs, hx, rfl⟩, h1, _⟩ := trimLeft_spec s
  cases xs with
  | nil => exact h1.symm
  | cons x xs =>
    exfalso
    refine h x (hx x List.mem_cons_self) ?_
    rw [h1]
    simp only [List.flatten_cons, List.append_assoc]
    exact List.prefix_append _ _

theorem trimRight_id {s : Bytes} (h : ∀ e ∈ spaceEncodings, ¬ e <:+ s) : trimRight s = s := by
  obtain ⟨b, ⟨xs, hx, rfl⟩, h1, _⟩ := trimRight_spec s
  rcases List.eq_nil_or_concat xs with rfl | ⟨ys, y, rfl⟩
  · rw [List.flatten_nil, List.append_nil] at h1; exact h1.symm
  · exfalso
    refine h y (hx y (by simp)) ?_
    refine ⟨trimRight s ++ ys.flatten, ?_⟩
    conv => rhs; rw [h1]
    simp

theorem trimSpace_id {s : Bytes} (h1 : ∀ e ∈ spaceEncodings, ¬ e <+: s) (h2 : ∀ e ∈ spaceEncodings, ¬ e <:+ s) :
    trimSpace s = s := by
  unfold trimSpace
  rw [trimLeft_id h1, trimRight_id h2]

theorem cutAt_id {c : UInt8} {s : Bytes} (h : c ∉ s) : cutAt c s = s := by
  obtain ⟨rest, h1, h2, h3⟩ := cutAt_spec c s
  rcases h3 with rfl | h3
  · simpa using h1.symm
  · exfalso
    refine h ?_
    rw [h1]
    cases rest with
    | nil => cases h3
    | cons x xs => simp at h3; simp [h3]

end Verif.Proofs.Spreak
