import Verif.Model.Catalog.Json
import Verif.Proofs.Catalog.Gettext
import Verif.Proofs.Utf8
/-!
# Proofs about JSON catalogs
-/
namespace Verif.Proofs.Catalog
open Verif.Go Verif.Model.Po Verif.Model.Catalog Verif.Cldr

/-! ## `applyCategories` -/

theorem applyLoop_get? (cats : List Int) : ∀ (names : List Int) (tr : GoMap Int Bytes) (k : Int),
    (applyLoop cats tr names).get? k =
      if k ∈ names then (if k ∈ cats then some ((tr.get? k).getD []) else none) else tr.get? k
  | [], tr, k => by simp [applyLoop]
  | a :: names, tr, k => by
    unfold applyLoop
    by_cases ha : a ∈ cats
    · rw [if_pos ha]
      by_cases hn : (tr.get? a).isNone = true
      · rw [if_pos hn, applyLoop_get?, GoMap.get?_set]
        have hn' : tr.get? a = none := by simpa using hn
        by_cases e : a = k
        · subst e; simp [ha, hn']
        · have e' : k ≠ a := fun h => e h.symm
          simp [e, e']
      · rw [if_neg hn, applyLoop_get?]
        by_cases e : k = a
        · subst e
          cases hg : tr.get? k with
          | none => rw [hg] at hn; exact absurd rfl hn
          | some v => simp [ha]
        · simp [e]
    · rw [if_neg ha, applyLoop_get?, GoMap.get?_erase]
      by_cases e : a = k
      · subst e; simp [ha]
      · have e' : k ≠ a := fun h => e h.symm
        simp [e, e']

theorem erase_absent {tr : GoMap Int Bytes} {k : Int} (h : tr.get? k = none) : tr.erase k = tr := by
  rw [GoMap.erase_eq_filter, List.filter_eq_self]
  rintro ⟨a, b⟩ hm
  have := GoMap.get?_eq_none.mp h
  simp only [ne_eq, decide_not, Bool.not_eq_eq_eq_not, Bool.not_true, decide_eq_false_iff_not]
  rintro rfl
  exact this (GoMap.mem_keys_of_mem hm)

/-- The loop changes nothing if every name is present exactly when it is supported. -/
theorem applyLoop_fix (cats : List Int) : ∀ (names : List Int) (tr : GoMap Int Bytes),
    (∀ k ∈ names, (tr.get? k).isSome ↔ k ∈ cats) → applyLoop cats tr names = tr
  | [], _, _ => rfl
  | a :: names, tr, h => by
    have h' := applyLoop_fix cats names tr fun k hk => h k (List.mem_cons_of_mem _ hk)
    have ha := h a List.mem_cons_self
    unfold applyLoop
    by_cases hc : a ∈ cats
    · rw [if_pos hc, if_neg (by have := ha.mpr hc; cases hg : tr.get? a <;> simp_all), h']
    · rw [if_neg hc, erase_absent (by
        cases hg : tr.get? a with
        | none => rfl
        | some v => exact absurd (ha.mp (by simp [hg])) hc), h']

theorem applyLoop_wf (cats : List Int) : ∀ (names : List Int) (tr : GoMap Int Bytes), tr.WF →
    (applyLoop cats tr names).WF
  | [], _, h => h
  | a :: names, tr, h => by
    unfold applyLoop
    split
    · split
      · exact applyLoop_wf cats names _ (h.set _ _)
      · exact applyLoop_wf cats names _ h
    · exact applyLoop_wf cats names _ (h.erase _)

/-- The message has only the form Other. -/
def Single (tr : GoMap Int Bytes) : Prop := tr.length = 1 ∧ (tr.get? other).isSome

instance (tr : GoMap Int Bytes) : Decidable (Single tr) := inferInstanceAs (Decidable (_ ∧ _))

theorem applyCategories_get? (names cats : List Int) (tr : GoMap Int Bytes) (k : Int) :
    (applyCategories names cats tr).get? k =
      if Single tr then tr.get? k
      else if k ∈ names then (if k ∈ cats then some ((tr.get? k).getD []) else none) else tr.get? k := by
  by_cases h : Single tr
  · have e : applyCategories names cats tr = tr := if_pos h
    rw [if_pos h, e]
  · have e : applyCategories names cats tr = applyLoop cats tr names := if_neg h
    rw [if_neg h, e, applyLoop_get?]

theorem applyCategories_idem (names cats : List Int) (tr : GoMap Int Bytes) :
    applyCategories names cats (applyCategories names cats tr) = applyCategories names cats tr := by
  by_cases h : Single tr
  · have e : applyCategories names cats tr = tr := if_pos h
    rw [e, e]
  · have e : applyCategories names cats tr = applyLoop cats tr names := if_neg h
    rw [e]
    by_cases h' : Single (applyLoop cats tr names)
    · exact if_pos h'
    · have e' : applyCategories names cats (applyLoop cats tr names) = applyLoop cats (applyLoop cats tr names) names :=
        if_neg h'
      rw [e']
      refine applyLoop_fix _ _ _ fun k hk => ?_
      rw [applyLoop_get?, if_pos hk]
      split <;> simp [*]

/-! ## Building -/

/-- The message that `setMessage` stores. -/
def prepare (names cats : List Int) (key : Bytes) (src : Option JsonMessage) : Except JsonErr JsonMessage :=
  if key = [] then .error .emptyKey
  else match src with
    | none => .error .noMessage
    | some src =>
      if src.context ≠ [] ∧ hasSuffix key (b!"_" ++ src.context) = false then .error .contextMismatch
      else if (src.tr.get? other).isNone then .error .noOther
      else .ok { src with translations := some (applyCategories names cats src.tr) }

/-- Insertion of a prepared message. -/
def insertMsg (m : JsonLookupMap) (key : Bytes) (msg : JsonMessage) : JsonLookupMap :=
  m.set msg.context (((m.get? msg.context).getD []).set key msg)

theorem setMessage_eq (names : List Int) (c : JsonCatalog) (key : Bytes) (src : Option JsonMessage) :
    c.setMessage names key src =
      match prepare names c.categories key src with
      | .error e => .error e
      | .ok msg => .ok { c with lookupMap := insertMsg c.lookupMap key msg } := by
  unfold JsonCatalog.setMessage prepare
  by_cases hk : key = []
  · rw [if_pos hk, if_pos hk]
  · rw [if_neg hk, if_neg hk]
    cases src with
    | none => rfl
    | some src =>
      simp only []
      by_cases h1 : src.context ≠ [] ∧ hasSuffix key (b!"_" ++ src.context) = false
      · rw [if_pos h1, if_pos h1]
      · rw [if_neg h1, if_neg h1]
        by_cases h2 : (src.tr.get? other).isNone = true
        · rw [if_pos h2, if_pos h2]
        · rw [if_neg h2, if_neg h2]
          rfl

/-- The message stored under context and full key. -/
def entry (m : JsonLookupMap) (ctx key : Bytes) : Option JsonMessage :=
  match m.get? ctx with
  | none => none
  | some inner => inner.get? key

theorem entry_insert (m : JsonLookupMap) (key : Bytes) (msg : JsonMessage) (ctx k : Bytes) :
    entry (insertMsg m key msg) ctx k = if msg.context = ctx ∧ key = k then some msg else entry m ctx k := by
  unfold entry insertMsg
  rw [GoMap.get?_set]
  by_cases h : msg.context = ctx
  · subst h
    rw [if_pos rfl]
    simp only [GoMap.get?_set, true_and]
    cases hg : GoMap.get? m msg.context with
    | none => rfl
    | some inner => rfl
  · rw [if_neg h, if_neg (fun e => h e.1)]

theorem context_insert (m : JsonLookupMap) (key : Bytes) (msg : JsonMessage) (ctx : Bytes) :
    ((insertMsg m key msg).get? ctx).isSome = (decide (msg.context = ctx) || (m.get? ctx).isSome) := by
  unfold insertMsg
  rw [GoMap.get?_set]
  by_cases h : msg.context = ctx
  · simp [h]
  · simp [h]

/-- The prepared message for a key of the source map. -/
def preparedFor (names cats : List Int) (msgs : GoMap Bytes (Option JsonMessage)) (key : Bytes) : Option JsonMessage :=
  match msgs.get? key with
  | none => none
  | some src => (prepare names cats key src).toOption

theorem setAll_spec (names : List Int) : ∀ (msgs : GoMap Bytes (Option JsonMessage)) (c : JsonCatalog), msgs.WF →
    (∀ key src, (key, src) ∈ msgs → ∃ m, prepare names c.categories key src = .ok m) →
    ∃ c', c.setAll names msgs = .ok c' ∧ c'.language = c.language ∧ c'.domain = c.domain ∧
      c'.categories = c.categories ∧ c'.plural = c.plural ∧
      (∀ ctx k, entry c'.lookupMap ctx k =
        match preparedFor names c.categories msgs k with
        | some m => if m.context = ctx then some m else entry c.lookupMap ctx k
        | none => entry c.lookupMap ctx k) ∧
      (∀ ctx, (c'.lookupMap.get? ctx).isSome ↔ (c.lookupMap.get? ctx).isSome ∨
        ∃ k m, preparedFor names c.categories msgs k = some m ∧ m.context = ctx)
  | [], c, _, _ => by
    refine ⟨c, rfl, rfl, rfl, rfl, rfl, fun ctx k => rfl, fun ctx => ?_⟩
    constructor
    · exact Or.inl
    · rintro (h | ⟨k, m, h, _⟩)
      · exact h
      · cases h
  | (key, src) :: rest, c, hwf, hok => by
    have hn := GoMap.WF.cons_inv hwf
    obtain ⟨m, hm⟩ := hok key src List.mem_cons_self
    obtain ⟨c', h1, h2, h3, h4, h5, h6, h7⟩ := setAll_spec names rest
      { c with lookupMap := insertMsg c.lookupMap key m } hn.2
      (fun k s h => hok k s (List.mem_cons_of_mem _ h))
    have hpre : ∀ k, preparedFor names c.categories ((key, src) :: rest) k =
        if key = k then some m else preparedFor names c.categories rest k := by
      intro k
      unfold preparedFor
      simp only [GoMap.get?]
      by_cases e : key = k
      · subst e; simp [hm, Except.toOption]
      · simp [e]
    have hrest : preparedFor names c.categories rest key = none := by
      unfold preparedFor; rw [GoMap.get?_eq_none.mpr hn.1]
    refine ⟨c', ?_, h2, h3, h4, h5, fun ctx k => ?_, fun ctx => ?_⟩
    · rw [JsonCatalog.setAll, setMessage_eq, hm]; exact h1
    · rw [h6, hpre]
      simp only [entry_insert]
      by_cases e : key = k
      · subst e
        simp [hrest]
      · simp [e]
    · rw [h7]
      simp only [context_insert, Bool.or_eq_true, decide_eq_true_eq]
      constructor
      · rintro ((h | h) | ⟨k, x, hk, hx⟩)
        · exact Or.inr ⟨key, m, by rw [hpre, if_pos rfl], h⟩
        · exact Or.inl h
        · refine Or.inr ⟨k, x, ?_, hx⟩
          rw [hpre, if_neg]
          · exact hk
          · rintro rfl
            have hk' : preparedFor names c.categories rest key = some x := hk
            rw [hrest] at hk'; cases hk'
      · rintro (h | ⟨k, x, hk, hx⟩)
        · exact Or.inl (Or.inr h)
        · rw [hpre] at hk
          by_cases e : key = k
          · rw [if_pos e] at hk; cases hk; exact Or.inl (Or.inl hx)
          · rw [if_neg e] at hk; exact Or.inr ⟨k, x, hk, hx⟩

theorem setAll_error (names : List Int) : ∀ (msgs : GoMap Bytes (Option JsonMessage)) (c : JsonCatalog)
    {key : Bytes} {src : Option JsonMessage} {e : JsonErr}, (key, src) ∈ msgs →
    prepare names c.categories key src = .error e → ∃ e', c.setAll names msgs = .error e'
  | (k0, s0) :: rest, c, key, src, e, h, he => by
    rw [JsonCatalog.setAll, setMessage_eq]
    cases hp : prepare names c.categories k0 s0 with
    | error e' => exact ⟨e', rfl⟩
    | ok m =>
      rcases List.mem_cons.mp h with h | h
      · cases h; rw [hp] at he; cases he
      · exact setAll_error names rest _ h he

/-! ## Reading one message -/

theorem tr_set (m : JsonMessage) (k : Int) (v : Bytes) :
    ({ m with translations := some (m.tr.set k v) } : JsonMessage).tr = m.tr.set k v := rfl

/-- The value of a key, else the old one. -/
def valueOr (l : GoMap Bytes Bytes) (k old : Bytes) : Bytes := (l.get? k).getD old

/-- What reading the keys `l` (in lower case) must give. -/
structure Reads (m : JsonMessage) (l : GoMap Bytes Bytes) (r : JsonMessage) : Prop where
  comment : r.comment = valueOr l b!"comment" m.comment
  context : r.context = valueOr l b!"context" m.context
  named : ∀ c ∈ categoryNames, r.tr.get? c =
    match l.get? (categoryKey c) with
    | some v => some v
    | none => m.tr.get? c
  unnamed : ∀ c, c ∉ categoryNames → r.tr.get? c = m.tr.get? c

theorem assign_reads (m : JsonMessage) (k v : Bytes) : Reads m [(k, v)] (m.assign k v) := by
  by_cases h1 : k = b!"comment"
  · subst h1
    exact ⟨rfl, rfl, by intro c hc; simp only [categoryNames, List.mem_cons, List.not_mem_nil, or_false] at hc
                        rcases hc with rfl | rfl | rfl | rfl | rfl | rfl <;> rfl, fun _ _ => rfl⟩
  by_cases h2 : k = b!"context"
  · subst h2
    exact ⟨rfl, rfl, by intro c hc; simp only [categoryNames, List.mem_cons, List.not_mem_nil, or_false] at hc
                        rcases hc with rfl | rfl | rfl | rfl | rfl | rfl <;> rfl, fun _ _ => rfl⟩
  have cat : ∀ d ∈ categoryNames, k = categoryKey d →
      m.assign k v = { m with translations := some (m.tr.set d v) } → Reads m [(k, v)] (m.assign k v) := by
    intro d hd hk he
    rw [he]
    refine ⟨?_, ?_, fun c hc => ?_, fun c hc => ?_⟩
    · simp [valueOr, GoMap.get?, h1]
    · simp [valueOr, GoMap.get?, h2]
    · rw [tr_set, GoMap.get?_set]
      simp only [GoMap.get?, hk]
      by_cases e : d = c
      · subst e; simp
      · have : categoryKey d ≠ categoryKey c := by
          simp only [categoryNames, List.mem_cons, List.not_mem_nil, or_false] at hc hd
          rcases hc with rfl | rfl | rfl | rfl | rfl | rfl <;>
            rcases hd with rfl | rfl | rfl | rfl | rfl | rfl <;>
              first | exact absurd rfl e | decide
        simp [e, this]
    · rw [tr_set, GoMap.get?_set, if_neg]
      rintro rfl
      exact hc hd
  by_cases k0 : k = b!"zero"
  · exact cat 0 (by decide) k0 (by subst k0; rfl)
  by_cases k1 : k = b!"one"
  · exact cat 1 (by decide) k1 (by subst k1; rfl)
  by_cases k2 : k = b!"two"
  · exact cat 2 (by decide) k2 (by subst k2; rfl)
  by_cases k3 : k = b!"few"
  · exact cat 3 (by decide) k3 (by subst k3; rfl)
  by_cases k4 : k = b!"many"
  · exact cat 4 (by decide) k4 (by subst k4; rfl)
  by_cases k5 : k = b!"other"
  · exact cat 5 (by decide) k5 (by subst k5; rfl)
  have he : m.assign k v = m := by
    unfold JsonMessage.assign
    simp only [if_neg h1, if_neg h2, if_neg k0, if_neg k1, if_neg k2, if_neg k3, if_neg k4, if_neg k5]
  rw [he]
  refine ⟨by simp [valueOr, GoMap.get?, h1], by simp [valueOr, GoMap.get?, h2], fun c hc => ?_, fun _ _ => rfl⟩
  have : k ≠ categoryKey c := by
    simp only [categoryNames, List.mem_cons, List.not_mem_nil, or_false] at hc
    rcases hc with rfl | rfl | rfl | rfl | rfl | rfl <;> assumption
  simp [GoMap.get?, this]

/-- The keys in lower case. -/
def lowered (lower : Char → Char) (l : GoMap Bytes Bytes) : GoMap Bytes Bytes :=
  l.map fun p => (toLower lower p.1, p.2)

theorem assignAll_reads (lower : Char → Char) : ∀ (l : GoMap Bytes Bytes) (m : JsonMessage),
    (lowered lower l).WF → Reads m (lowered lower l) (m.assignAll lower l)
  | [], m, _ => ⟨rfl, rfl, fun _ _ => rfl, fun _ _ => rfl⟩
  | (k, v) :: rest, m, h => by
    have hn : toLower lower k ∉ (lowered lower rest).keys ∧ (lowered lower rest).WF := GoMap.WF.cons_inv h
    have ih := assignAll_reads lower rest (m.assign (toLower lower k) v) hn.2
    have st := assign_reads m (toLower lower k) v
    have hcons : lowered lower ((k, v) :: rest) = (toLower lower k, v) :: lowered lower rest := rfl
    have hg : ∀ x, GoMap.get? (lowered lower ((k, v) :: rest)) x =
        match (lowered lower rest).get? x with
        | some w => some w
        | none => GoMap.get? [(toLower lower k, v)] x := by
      intro x
      rw [hcons]
      simp only [GoMap.get?]
      by_cases e : toLower lower k = x
      · subst e; rw [GoMap.get?_eq_none.mpr hn.1]
      · simp only [if_neg e]
        cases (lowered lower rest).get? x <;> rfl
    have hv : ∀ x old, valueOr (lowered lower rest) x (valueOr [(toLower lower k, v)] x old) =
        valueOr (lowered lower ((k, v) :: rest)) x old := by
      intro x old
      unfold valueOr
      rw [hg]
      cases (lowered lower rest).get? x <;> rfl
    rw [JsonMessage.assignAll]
    refine ⟨?_, ?_, fun c hc => ?_, fun c hc => ?_⟩
    · rw [ih.comment, st.comment, hv]
    · rw [ih.context, st.context, hv]
    · rw [ih.named c hc, st.named c hc, hg]
      cases (lowered lower rest).get? (categoryKey c) <;> rfl
    · rw [ih.unnamed c hc, st.unnamed c hc]

theorem lowered_perm {lower : Char → Char} {l l' : GoMap Bytes Bytes} (h : l.Perm l') :
    (lowered lower l).Perm (lowered lower l') := h.map _

/-! ## Writing and reading -/

/-- Fields with text values, as the encoder writes them. -/
def textFields (l : GoMap Bytes Bytes) : List (Bytes × Json) := l.map fun p => (p.1, Json.str p.2)

theorem set_absent {κ α : Type} [DecidableEq κ] {m : GoMap κ α} {k : κ} {v : α} (h : k ∉ m.keys) : m.set k v = m ++ [(k, v)] := by
  induction m with
  | nil => rfl
  | cons p m ih =>
    obtain ⟨a, b⟩ := p
    rw [GoMap.keys_cons, List.mem_cons, not_or] at h
    simp only [GoMap.set, if_neg (fun e => h.1 (Eq.symm e)), ih h.2, List.cons_append]

theorem decodeStrings_text : ∀ (l acc : GoMap Bytes Bytes), GoMap.WF (acc ++ l) →
    decodeStrings acc (textFields l) = some (acc ++ l)
  | [], acc, _ => by simp [textFields, decodeStrings]
  | (k, v) :: l, acc, h => by
    have hk : k ∉ GoMap.keys acc := by
      unfold GoMap.WF GoMap.keys at h
      rw [List.map_append, List.nodup_append] at h
      intro hk
      exact h.2.2 k hk k (by simp) rfl
    show decodeStrings (GoMap.set acc k v) (textFields l) = _
    rw [set_absent hk, decodeStrings_text l (acc ++ [(k, v)]) (by simpa using h)]
    simp

theorem sanitize_valid (cs : List Char) : sanitize (utf8 cs) = utf8 cs := by
  unfold sanitize; rw [runes_utf8]

end Verif.Proofs.Catalog
