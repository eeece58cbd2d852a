import Verif.Props.Json
/-!
# C24, C25, C26, C65, C66: exactly when

The partial theorems of `Verif.Props.Json` give conditions under which a claim holds; here the conditions are shown to be
necessary too.
-/
namespace Verif.Props.Json
open Verif.Go Verif.Model.Po Verif.Model.Catalog Verif.Proofs.Catalog Verif.Cldr
open Verif.Props.PoFile (asciiLower)

/-! ## C25: the order of the keys in one message -/

/-- A name that a JSON message gives a meaning. -/
def Known (name : Bytes) : Prop :=
  name = b!"comment" ∨ name = b!"context" ∨ ∃ c ∈ categoryNames, name = categoryKey c

/-- Two messages that cannot be told apart. -/
def SameMessage (m m' : JsonMessage) : Prop :=
  m.comment = m'.comment ∧ m.context = m'.context ∧ m.tr.Same m'.tr

/-- Of keys with the same lower case the last one counts. -/
theorem assignAll_last (lower : Char → Char) : ∀ (l : GoMap Bytes Bytes) (m : JsonMessage),
    Reads m (lowered lower l).reverse (m.assignAll lower l)
  | [], m => ⟨rfl, rfl, fun _ _ => rfl, fun _ _ => rfl⟩
  | (k, v) :: rest, m => by
    have ih := assignAll_last lower rest (m.assign (toLower lower k) v)
    have st := assign_reads m (toLower lower k) v
    have hg : ∀ x, GoMap.get? (lowered lower ((k, v) :: rest)).reverse x =
        match GoMap.get? (lowered lower rest).reverse x with
        | some w => some w
        | none => GoMap.get? [(toLower lower k, v)] x := by
      intro x
      have : (lowered lower ((k, v) :: rest)).reverse = (lowered lower rest).reverse ++ [(toLower lower k, v)] := by
        unfold lowered; rw [List.map_cons, List.reverse_cons]
      rw [this, get?_append]
      cases GoMap.get? (lowered lower rest).reverse x <;> rfl
    have hv : ∀ x old, valueOr (lowered lower rest).reverse x (valueOr [(toLower lower k, v)] x old) =
        valueOr (lowered lower ((k, v) :: rest)).reverse x old := by
      intro x old
      unfold valueOr
      rw [hg]
      cases GoMap.get? (lowered lower rest).reverse x <;> rfl
    rw [JsonMessage.assignAll]
    refine ⟨?_, ?_, fun c hc => ?_, fun c hc => ?_⟩
    · rw [ih.comment, st.comment, hv]
    · rw [ih.context, st.context, hv]
    · rw [ih.named c hc, st.named c hc, hg]
      cases GoMap.get? (lowered lower rest).reverse (categoryKey c) <;> rfl
    · rw [ih.unnamed c hc, st.unnamed c hc]

/-- The keys of an object that name the same thing have the same value. -/
def Unambiguous (lower : Char → Char) (l : GoMap Bytes Bytes) : Prop :=
  ∀ p ∈ l, ∀ q ∈ l, Known (toLower lower p.1) → toLower lower p.1 = toLower lower q.1 → p.2 = q.2

theorem last_eq {lower : Char → Char} {l l' : GoMap Bytes Bytes} (hp : l'.Perm l) (hu : Unambiguous lower l) {name : Bytes}
    (hk : Known name) : GoMap.get? (lowered lower l).reverse name = GoMap.get? (lowered lower l').reverse name := by
  have mem : ∀ {l : GoMap Bytes Bytes} {v : Bytes}, GoMap.get? (lowered lower l).reverse name = some v →
      ∃ k, (k, v) ∈ l ∧ toLower lower k = name := by
    intro l v h
    have := List.mem_reverse.mp (GoMap.mem_of_get? h)
    obtain ⟨⟨k, v'⟩, hm, he⟩ := List.mem_map.mp this
    cases he
    exact ⟨k, hm, rfl⟩
  have absent : ∀ {l : GoMap Bytes Bytes} {k v : Bytes}, (k, v) ∈ l → toLower lower k = name →
      GoMap.get? (lowered lower l).reverse name ≠ none := by
    intro l k v hm he hn
    refine GoMap.get?_eq_none.mp hn (List.mem_map.mpr ⟨(name, v), List.mem_reverse.mpr ?_, rfl⟩)
    exact List.mem_map.mpr ⟨(k, v), hm, by rw [he]⟩
  cases h : GoMap.get? (lowered lower l).reverse name with
  | none =>
    cases h' : GoMap.get? (lowered lower l').reverse name with
    | none => rfl
    | some v =>
      obtain ⟨k, hm, he⟩ := mem h'
      exact absurd h (absent (hp.mem_iff.mp hm) he)
  | some v =>
    obtain ⟨k, hm, he⟩ := mem h
    cases h' : GoMap.get? (lowered lower l').reverse name with
    | none => exact absurd h' (absent (hp.mem_iff.mpr hm) he)
    | some v' =>
      obtain ⟨k', hm', he'⟩ := mem h'
      have : v = v' := hu (k, v) hm (k', v') (hp.mem_iff.mp hm') (by rw [he]; exact hk) (he.trans he'.symm)
      rw [this]

/-- A JSON message is read in the same way for all orders of its keys exactly if keys that name the same thing have the
same value. -/
theorem C25_key_order_iff (lower : Char → Char) (l : GoMap Bytes Bytes) (m : JsonMessage) :
    (∀ l', l'.Perm l → SameMessage (m.assignAll lower l') (m.assignAll lower l)) ↔ Unambiguous lower l := by
  constructor
  · intro h p hp q hq hk he
    by_cases hpq : p = q
    · rw [hpq]
    obtain ⟨r, hr⟩ : ∃ r, l.Perm (p :: r) := ⟨List.erase l p, List.perm_cons_erase hp⟩
    have hqr : q ∈ r := by
      rcases List.mem_cons.mp (hr.mem_iff.mp hq) with e | e
      · exact absurd e.symm hpq
      · exact e
    obtain ⟨r', hr'⟩ : ∃ r', r.Perm (q :: r') := ⟨List.erase r q, List.perm_cons_erase hqr⟩
    have h1 : (r' ++ [p, q]).Perm l := (List.perm_append_comm.trans (List.Perm.cons p hr'.symm)).trans hr.symm
    have h2 : (r' ++ [q, p]).Perm l := (List.Perm.append_left r' (.swap p q [])).trans h1
    obtain ⟨a1, a2, a3⟩ := h _ h1
    obtain ⟨b1, b2, b3⟩ := h _ h2
    have c1 := assignAll_last lower (r' ++ [p, q]) m
    have c2 := assignAll_last lower (r' ++ [q, p]) m
    have g1 : GoMap.get? (lowered lower (r' ++ [p, q])).reverse (toLower lower p.1) = some q.2 := by
      simp [lowered, GoMap.get?, he]
    have g2 : GoMap.get? (lowered lower (r' ++ [q, p])).reverse (toLower lower p.1) = some p.2 := by
      simp [lowered, GoMap.get?]
    rcases hk with hk | hk | ⟨c, hc, hk⟩
    · have := c1.comment.symm.trans ((a1.trans b1.symm).trans c2.comment)
      unfold valueOr at this
      rw [← hk, g1, g2] at this
      exact this.symm
    · have := c1.context.symm.trans ((a2.trans b2.symm).trans c2.context)
      unfold valueOr at this
      rw [← hk, g1, g2] at this
      exact this.symm
    · have := (c1.named c hc).symm.trans (((a3 c).trans (b3 c).symm).trans (c2.named c hc))
      rw [← hk, g1, g2] at this
      injection this with this
      exact this.symm
  · intro hu l' hp
    have h1 := assignAll_last lower l m
    have h2 := assignAll_last lower l' m
    refine ⟨?_, ?_, fun c => ?_⟩
    · rw [h1.comment, h2.comment]; unfold valueOr; rw [last_eq hp hu (.inl rfl)]
    · rw [h1.context, h2.context]; unfold valueOr; rw [last_eq hp hu (.inr (.inl rfl))]
    · by_cases hc : c ∈ categoryNames
      · rw [h1.named c hc, h2.named c hc, last_eq hp hu (.inr (.inr ⟨c, hc, rfl⟩))]
      · rw [h1.unnamed c hc, h2.unnamed c hc]

example : Unambiguous asciiLower [(b!"one", b!"a"), (b!"One", b!"a"), (b!"note", b!"x"), (b!"Note", b!"y")] ∧
    ¬ Unambiguous asciiLower [(b!"one", b!"a"), (b!"One", b!"b")] := by
  constructor
  · have hn : ¬ Known b!"note" := by
      rintro (h | h | ⟨c, hc, h⟩)
      · exact absurd h (by decide)
      · exact absurd h (by decide)
      · simp only [categoryNames, List.mem_cons, List.not_mem_nil, or_false] at hc
        rcases hc with rfl | rfl | rfl | rfl | rfl | rfl <;> exact absurd h (by decide)
    have e1 : toLower asciiLower b!"note" = b!"note" := by decide
    have e2 : toLower asciiLower b!"Note" = b!"note" := by decide
    intro p hp q hq hk he
    simp only [List.mem_cons, List.not_mem_nil, or_false] at hp hq
    rcases hp with rfl | rfl | rfl | rfl
    · rcases hq with rfl | rfl | rfl | rfl <;> first | rfl | exact absurd he (by decide)
    · rcases hq with rfl | rfl | rfl | rfl <;> first | rfl | exact absurd he (by decide)
    · exact absurd (e1 ▸ hk) hn
    · exact absurd (e2 ▸ hk) hn
  · intro h
    have := h (b!"one", b!"a") (by simp) (b!"One", b!"b") (by simp) (.inr (.inr ⟨1, by decide, by decide⟩)) (by decide)
    exact absurd this (by decide)

/-! ## C26: which messages survive a round trip -/

theorem sanitize_utf8 (s : Bytes) : Utf8 (sanitize s) := ⟨runes s, rfl⟩

theorem sanitize_eq_nil {s : Bytes} : sanitize s = [] ↔ s = [] := by
  constructor
  · intro h
    cases s with
    | nil => rfl
    | cons b bs =>
      unfold sanitize at h
      have : runes (b :: bs) = (decodeRune (b :: bs)).1 :: runesAux bs.length ((b :: bs).drop (decodeRune (b :: bs)).2) := rfl
      rw [this] at h
      unfold utf8 at h
      rw [List.flatMap_cons] at h
      exact absurd (List.append_eq_nil_iff.mp h).1 (Verif.Go.encodeRune_ne_nil _)
  · rintro rfl; rfl

/-- The message that is written: with an empty text if there is none, and with valid texts. -/
def written (m : JsonMessage) : JsonMessage :=
  ⟨sanitize m.comment, sanitize m.context,
    some ((if m.tr = [] then [(other, [])] else m.tr).map fun p => (p.1, sanitize p.2))⟩

theorem categoryFields_all (tr : GoMap Int Bytes) :
    ∀ cats, categoryFields tr cats = textFields (catTexts (tr.map fun p => (p.1, sanitize p.2)) cats)
  | [] => rfl
  | c :: cats => by
    unfold categoryFields catTexts
    rw [categoryFields_all tr cats]
    cases hg : tr.get? c with
    | none => simp [hg, catTexts, GoMap.get?_map]
    | some t => simp [hg, catTexts, textFields, GoMap.get?_map]

/-- What is written is a text or an object with the fields of `written m`. -/
theorem marshal_written {m : JsonMessage} {j : Json} (h : m.marshal = some j) :
    (m.comment = [] ∧ m.context = [] ∧ (m.tr.length ≤ 1) ∧ ∃ t, j = .str (sanitize t)) ∨
    j = .obj (textFields (headTexts (written m) ++ catTexts (written m).tr categoryNames)) := by
  unfold JsonMessage.marshal at h
  simp only [] at h
  by_cases hs : m.comment = [] ∧ m.context = [] ∧ (if m.tr = [] then [(other, [])] else m.tr).length = 1
  · rw [if_pos hs] at h
    left
    refine ⟨hs.1, hs.2.1, ?_, ?_⟩
    · by_cases he : m.tr = []
      · rw [he]; exact Nat.zero_le 1
      · have := hs.2.2
        rw [if_neg he] at this
        omega
    · cases h; exact ⟨_, rfl⟩
  · rw [if_neg hs] at h
    right
    cases hb : (!((if m.comment = [] then [] else [(b!"comment", Json.str (sanitize m.comment))]) ++
        (if m.context = [] then [] else [(b!"context", Json.str (sanitize m.context))])).isEmpty &&
        (categoryFields (if m.tr = [] then [(other, [])] else m.tr) [0, 1, 2, 3, 4, 5]).isEmpty) with
    | true => rw [hb, if_pos rfl] at h; cases h
    | false =>
      rw [hb, if_neg (by decide)] at h
      injection h with h
      rw [← h, categoryFields_all]
      congr 1
      unfold textFields
      rw [List.map_append]
      congr 1
      unfold headTexts written
      simp only [sanitize_eq_nil, List.map_append]
      congr 1
      · split <;> rfl
      · split <;> rfl

/-- Reading the fields of any message gives what it has for the named categories. -/
theorem read_fields (m : JsonMessage) {lower : Char → Char} (hl : KeepsAscii lower)
    {order : GoMap Bytes Bytes → GoMap Bytes Bytes} (ho : ∀ l, (order l).Perm l) :
    ∃ m', JsonMessage.zero.unmarshal lower order (.obj (textFields (headTexts m ++ catTexts m.tr categoryNames))) = some m' ∧
      m'.comment = m.comment ∧ m'.context = m.context ∧
      ∀ c, m'.tr.get? c = if c ∈ categoryNames then m.tr.get? c else none := by
  have hw := fields_wf m
  have hd : decodeStrings [] (textFields (headTexts m ++ catTexts m.tr categoryNames)) =
      some (headTexts m ++ catTexts m.tr categoryNames) := decodeStrings_text _ [] hw
  have hperm := ho (headTexts m ++ catTexts m.tr categoryNames)
  have hlow := fields_lower hl m
  have hp := lowered_perm (lower := lower) hperm
  rw [hlow] at hp
  have hwf : (lowered lower (order (headTexts m ++ catTexts m.tr categoryNames))).WF :=
    GoMap.WF.perm (m := headTexts m ++ catTexts m.tr categoryNames) hw hp.symm
  have hsame : (lowered lower (order (headTexts m ++ catTexts m.tr categoryNames))).Same
      (headTexts m ++ catTexts m.tr categoryNames) := GoMap.same_of_perm hwf hp
  refine ⟨JsonMessage.assignAll lower ⟨[], [], some []⟩ (order (headTexts m ++ catTexts m.tr categoryNames)), ?_, ?_⟩
  · show (decodeStrings [] (textFields _)).map _ = _
    rw [hd]; rfl
  · have hr := assignAll_reads lower (order (headTexts m ++ catTexts m.tr categoryNames)) ⟨[], [], some []⟩ hwf
    have hv : ∀ k, k = b!"comment" ∨ k = b!"context" →
        valueOr (lowered lower (order (headTexts m ++ catTexts m.tr categoryNames))) k [] = valueOr (headTexts m) k [] := by
      intro k hk
      unfold valueOr
      rw [hsame k, get?_append, catTexts_head hk]
      cases (headTexts m).get? k <;> rfl
    refine ⟨?_, ?_, fun c => ?_⟩
    · rw [hr.comment, hv _ (Or.inl rfl), (head_get m).1]
    · rw [hr.context, hv _ (Or.inr rfl), (head_get m).2]
    · by_cases hc : c ∈ categoryNames
      · rw [hr.named c hc, hsame, get?_append, if_pos hc]
        have : (headTexts m).get? (categoryKey c) = none := by
          refine GoMap.get?_eq_none.mpr fun hk => ?_
          rcases head_key hk with e | e
          · exact (categoryKey_ne hc).1 e
          · exact (categoryKey_ne hc).2 e
        rw [this]
        simp only [catTexts_get hc]
        cases m.tr.get? c <;> rfl
      · rw [hr.unnamed c hc, if_neg hc]; rfl

/-- A message (its translations a Go map) is written and read back as it was exactly if it is `Portable`. -/
theorem C26_round_trip_iff {m : JsonMessage} (hw : m.tr.WF) {lower : Char → Char} (hl : KeepsAscii lower)
    {order : GoMap Bytes Bytes → GoMap Bytes Bytes} (ho : ∀ l, (order l).Perm l) :
    (∃ j m', m.marshal = some j ∧ JsonMessage.zero.unmarshal lower order j = some m' ∧ SameMessage m' m) ↔ Portable m := by
  refine ⟨?_, fun hp => C26_round_trip_partial hp hl ho⟩
  rintro ⟨j, m', hj, hm, h1, h2, h3⟩
  rcases marshal_written hj with ⟨e1, e2, elen, t, rfl⟩ | rfl
  · have hm' : m' = ⟨[], [], some [(other, sanitize t)]⟩ := by
      have : JsonMessage.zero.unmarshal lower order (.str (sanitize t)) = some ⟨[], [], some [(other, sanitize t)]⟩ := rfl
      rw [this] at hm
      injection hm with hm
      exact hm.symm
    have hg : ∀ k, m.tr.get? k = if other = k then some (sanitize t) else none := by
      intro k
      rw [← h3 k, hm']
      rfl
    refine ⟨hw, ?_, ?_, ?_, ?_, ?_, ?_⟩
    · rw [e1]; exact ⟨[], rfl⟩
    · rw [e2]; exact ⟨[], rfl⟩
    · intro k x hx
      rw [hg k] at hx
      split at hx
      · injection hx with hx; rw [← hx]; exact sanitize_utf8 t
      · cases hx
    · intro he
      have := hg other
      rw [he, if_pos rfl] at this
      cases this
    · intro k x hx
      rw [hg k] at hx
      split at hx
      · rename_i e; rw [← e]; decide
      · cases hx
    · intro _ _ _
      rw [hg other, if_pos rfl]; rfl
  · obtain ⟨m'', g0, g1, g2, g3⟩ := read_fields (written m) hl ho
    rw [g0] at hm
    injection hm with hm
    subst hm
    have hne : m.tr ≠ [] := by
      intro he
      have h := h3 other
      rw [g3 other, if_pos (by decide)] at h
      have : (written m).tr = [(other, [])] := by
        show (if m.tr = [] then [(other, [])] else m.tr).map _ = _
        rw [if_pos he]; rfl
      rw [this, he] at h
      cases h
    have htr : (written m).tr = m.tr.map fun p => (p.1, sanitize p.2) := by
      show (if m.tr = [] then [(other, [])] else m.tr).map _ = _
      rw [if_neg hne]
    have hg : ∀ k, m.tr.get? k = if k ∈ categoryNames then (m.tr.get? k).map sanitize else none := by
      intro k
      have := h3 k
      rw [g3 k, htr, GoMap.get?_map] at this
      exact this.symm
    refine ⟨hw, ?_, ?_, ?_, hne, ?_, ?_⟩
    · rw [← h1, g1]; exact sanitize_utf8 _
    · rw [← h2, g2]; exact sanitize_utf8 _
    · intro k x hx
      have h := hg k
      rw [hx] at h
      split at h
      · injection h with h; rw [h]; exact sanitize_utf8 _
      · cases h
    · intro k x hx
      rw [hg k] at hx
      split at hx
      · assumption
      · cases hx
    · intro e1 e2 elen
      unfold JsonMessage.marshal at hj
      simp only [if_neg hne, if_pos (show m.comment = [] ∧ m.context = [] ∧ m.tr.length = 1 from ⟨e1, e2, elen⟩)] at hj
      cases hj

example : (⟨[], [], some [(1, b!"a")]⟩ : JsonMessage).tr.WF ∧ ¬ Portable ⟨[], [], some [(1, b!"a")]⟩ :=
  ⟨by unfold GoMap.WF; decide, fun h => absurd (h.single rfl rfl rfl) (by decide)⟩

/-! ## C65, C66 -/

/-- Writing leaves a message as it was exactly if its map is nil or has an entry. -/
theorem C65_marshal_pure_iff (m : JsonMessage) : m.afterMarshal = m ↔ m.translations ≠ some [] := by
  refine ⟨fun h he => ?_, C65_marshal_pure_partial⟩
  unfold JsonMessage.afterMarshal at h
  rw [he] at h
  simp only [] at h
  rw [← h] at he
  cases he

/-- Decoding returns neither an error nor a catalog exactly for the text `null`. -/
theorem C66_nothing_iff (names : List Int) (lower : Char → Char) (order : GoMap Bytes Bytes → GoMap Bytes Bytes)
    (fileOrder : GoMap Bytes (Option JsonMessage) → GoMap Bytes (Option JsonMessage)) (lang : Tag) (domain : Bytes)
    (data : Json) : jsonDecode names lower order fileOrder lang domain data = .ok none ↔ data = .null := by
  constructor
  · intro h
    by_cases hd : data = .null
    · exact hd
    · rcases C66_error_or_catalog_partial names lower order fileOrder lang domain data hd with ⟨e, he⟩ | ⟨c, hc⟩
      · rw [he] at h; cases h
      · rw [hc] at h; cases h
  · rintro rfl; rfl

example : (⟨[], [], none⟩ : JsonMessage).afterMarshal = ⟨[], [], none⟩ ∧
    (⟨[], [], some []⟩ : JsonMessage).afterMarshal ≠ ⟨[], [], some []⟩ := ⟨rfl, fun h => by cases h⟩

/-! ## C24: which messages are stored as claimed -/

/-- What is stored, text by text: a message with only the form Other is kept; otherwise the supported categories are
filled up with empty texts, the other five category numbers are dropped, and further numbers stay. -/
theorem C24_stored {names : List Int} (hn : names.Perm categoryNames) {c c' : JsonCatalog} {key : Bytes} {s : JsonMessage}
    (h : c.setMessage names key (some s) = .ok c') :
    ∃ m, entry c'.lookupMap s.context key = some m ∧
      (s.tr.length = 1 → m.tr = s.tr) ∧
      (s.tr.length ≠ 1 → ∀ k, m.tr.get? k =
        if k ∈ categoryNames then (if k ∈ c.categories then some ((s.tr.get? k).getD []) else none) else s.tr.get? k) := by
  rw [setMessage_eq] at h
  cases hm : prepare names c.categories key (some s) with
  | error e => rw [hm] at h; cases h
  | ok m =>
    rw [hm] at h
    cases h
    obtain ⟨s', he, _, hs, h1, h2, ht⟩ := prepare_ok hm
    cases he
    refine ⟨m, by simp only [entry_insert, h2, and_self, if_true], fun hl => ?_, fun hl k => ?_⟩
    · rw [ht]; exact if_pos ⟨hl, hs⟩
    · rw [ht, applyCategories_get?, if_neg (fun hh => hl hh.1)]
      simp only [hn.mem_iff]

/-- The claim about one stored message holds exactly if the given message has a non-empty text for Other and, unless it
has a single form, no number beside the six categories. -/
theorem C24_stored_iff {names : List Int} (hn : names.Perm categoryNames) {c c' : JsonCatalog}
    (ho : other ∈ c.categories) (hc : ∀ k ∈ c.categories, k ∈ categoryNames) {key : Bytes} {s : JsonMessage}
    (h : c.setMessage names key (some s) = .ok c') :
    (∃ m, entry c'.lookupMap s.context key = some m ∧ (∃ t, m.tr.get? other = some t ∧ t ≠ []) ∧
      (m.tr.length = 1 ∨ ∀ k, (m.tr.get? k).isSome ↔ k ∈ c.categories)) ↔
    (∃ t, s.tr.get? other = some t ∧ t ≠ []) ∧
      (s.tr.length = 1 ∨ ∀ k, (s.tr.get? k).isSome → k ∈ categoryNames) := by
  obtain ⟨m, hm, h1, h2⟩ := C24_stored hn h
  have hon : other ∈ categoryNames := hc _ ho
  have e : (∃ m', entry c'.lookupMap s.context key = some m' ∧ (∃ t, m'.tr.get? other = some t ∧ t ≠ []) ∧
      (m'.tr.length = 1 ∨ ∀ k, (m'.tr.get? k).isSome ↔ k ∈ c.categories)) ↔
      ((∃ t, m.tr.get? other = some t ∧ t ≠ []) ∧
      (m.tr.length = 1 ∨ ∀ k, (m.tr.get? k).isSome ↔ k ∈ c.categories)) := by
    constructor
    · rintro ⟨m', hm', hp⟩
      rw [hm] at hm'
      cases hm'
      exact hp
    · exact fun hp => ⟨m, hm, hp⟩
  rw [e]
  by_cases hl : s.tr.length = 1
  · rw [h1 hl]
    exact ⟨fun hp => ⟨hp.1, .inl hl⟩, fun hp => ⟨hp.1, .inl hl⟩⟩
  · have hg := h2 hl
    have hto : (∃ t, m.tr.get? other = some t ∧ t ≠ []) ↔ ∃ t, s.tr.get? other = some t ∧ t ≠ [] := by
      rw [hg other, if_pos hon, if_pos ho]
      cases s.tr.get? other <;> simp
    rw [hto]
    refine and_congr_right fun ⟨t, hst, _⟩ => ⟨fun hp => .inr fun k hk => ?_, fun hp => .inr fun k => ?_⟩
    · refine Decidable.byContradiction fun hkn => ?_
      have hmk : (m.tr.get? k).isSome := by rw [hg k, if_neg hkn]; exact hk
      rcases hp with hp | hp
      · have hmo : (m.tr.get? other).isSome := by rw [hg other, if_pos hon, if_pos ho]; rfl
        have : k = other := by
          obtain ⟨⟨a, b⟩, hab⟩ := List.length_eq_one_iff.mp hp
          obtain ⟨u, hu⟩ := Option.isSome_iff_exists.mp hmk
          obtain ⟨w, hw⟩ := Option.isSome_iff_exists.mp hmo
          have hu' := GoMap.mem_of_get? hu
          have hw' := GoMap.mem_of_get? hw
          rw [hab] at hu' hw'
          simp only [List.mem_singleton, Prod.mk.injEq] at hu' hw'
          rw [hu'.1, hw'.1]
        exact hkn (this ▸ hon)
      · exact hkn (hc k ((hp k).mp hmk))
    · rcases hp with hp | hp
      · exact absurd hp hl
      · rw [hg k]
        by_cases hkn : k ∈ categoryNames
        · rw [if_pos hkn]
          by_cases hkc : k ∈ c.categories
          · simp [hkc]
          · simp [hkc]
        · rw [if_neg hkn]
          exact ⟨fun hk => absurd (hp k hk) hkn, fun hk => absurd (hc k hk) hkn⟩

example : other ∈ demo.categories ∧ (∀ k ∈ demo.categories, k ∈ categoryNames) ∧
    (∃ c', demo.setMessage categoryNames b!"a" (some ⟨[], [], some [(3, b!"x"), (5, b!"y")]⟩) = .ok c') ∧
    ∃ c', demo.setMessage categoryNames b!"a" (some ⟨[], [], some [(9, b!"x"), (5, b!"y")]⟩) = .ok c' :=
  ⟨by decide, by decide, ⟨_, rfl⟩, ⟨_, rfl⟩⟩

end Verif.Props.Json
