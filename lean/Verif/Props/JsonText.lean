import Verif.Proofs.Catalog.JsonAccept
import Verif.Proofs.Catalog.JsonWrite
import Verif.Props.Json
/-!
# JSON files as bytes (C84)

What `MarshalJSON` and `JSONEncoder` write is JSON with the meaning of the written tree, and `JSONDecoder` reads it
back.  `Denotes`, `Layout` and `HtmlSafe` are in `Verif.Spec.JsonText`.
-/
namespace Verif.Props.JsonText
open Verif.Go Verif.Model.Catalog Verif.Model.Po Verif.Cldr Verif.Spec.JsonText Verif.Proofs.JsonText

/-! ## Messages -/

/-- A key of `writeKeyValue`. -/
def PlainKey (k : Bytes) : Prop := ∀ c ∈ k, 97 ≤ c.toNat ∧ c.toNat ≤ 122

instance (k : Bytes) : Decidable (PlainKey k) := by unfold PlainKey; infer_instance

theorem body_plain : ∀ {k : Bytes}, PlainKey k → Body k k
  | [], _ => .nil
  | c :: k, h => by
    have hc := h c List.mem_cons_self
    have e := encodeRune_ascii (b := c) (by omega)
    have hn := toNat_ofNat_of_valid (n := c.toNat) (by omega)
    have hp := Piece.plain (Char.ofNat c.toNat) (by omega) (fun e => by rw [e] at hn; simp at hn; omega)
      (fun e => by rw [e] at hn; simp at hn; omega)
    rw [e] at hp
    exact .cons hp (body_plain fun d hd => h d (List.mem_cons_of_mem _ hd))

theorem str_key {k : Bytes} (h : PlainKey k) : Str (0x22 :: k ++ [0x22]) k := ⟨k, rfl, body_plain h⟩

theorem writeKeyValue_eq (k v : Bytes) :
    writeKeyValue k v = [] ++ (0x22 :: k ++ [0x22]) ++ [] ++ b!":" ++ b!" " ++ quote v ++ [] := by
  simp [writeKeyValue]

theorem denotes_quote (v : Bytes) : Denotes (quote v) (.str (sanitize v)) := .str (str_quote v)

theorem members_one {k : Bytes} (h : PlainKey k) (v : Bytes) : Members (writeKeyValue k v) [(k, .str (sanitize v))] := by
  rw [writeKeyValue_eq]
  exact .one ws_nil ws_nil ws_space ws_nil (str_key h) (denotes_quote v)

theorem members_cons {k : Bytes} (h : PlainKey k) (v : Bytes) {t : Bytes} {fs : List (Bytes × Json)} (hm : Members t fs) :
    Members (writeKeyValue k v ++ [0x2C] ++ t) ((k, .str (sanitize v)) :: fs) := by
  rw [writeKeyValue_eq]
  exact .cons ws_nil ws_nil ws_space ws_nil (str_key h) (denotes_quote v) hm

theorem plain_categoryKey (c : Int) : PlainKey (categoryKey c) := by
  unfold categoryKey
  split <;> decide

theorem categoryTexts_eq (tr : GoMap Int Bytes) : ∀ (cats : List Int) (i : Nat),
    (categoryFields tr cats = [] ∧ categoryTexts tr i cats = []) ∨
    ∃ t, categoryTexts tr i cats = (if i > 0 then [0x2C] else []) ++ t ∧ Members t (categoryFields tr cats)
  | [], _ => .inl ⟨rfl, rfl⟩
  | cat :: cats, i => by
    rw [categoryTexts, categoryFields]
    cases tr.get? cat with
    | none => exact categoryTexts_eq tr cats i
    | some v =>
      right
      simp only []
      rcases categoryTexts_eq tr cats (i + 1) with ⟨h1, h2⟩ | ⟨t, h1, h2⟩
      · rw [h1, h2]
        exact ⟨_, by rw [List.append_nil], members_one (plain_categoryKey cat) v⟩
      · rw [h1, if_pos (Nat.succ_pos i)]
        exact ⟨_, by simp only [List.append_assoc], members_cons (plain_categoryKey cat) v h2⟩

/-- A trailing comma is not JSON. -/
theorem readMembers_trailing {k : Bytes} (h : PlainKey k) (v : Bytes) {rest : Bytes} {f : Nat}
    (hr : ∀ g, readMembers g rest = none) (hf : (quote v).length < f) :
    readMembers (f + 1) (writeKeyValue k v ++ [0x2C] ++ rest) = none := by
  rw [writeKeyValue_eq, List.append_assoc, readMembers_member ws_nil ws_nil ws_space ws_nil (str_key h) f _
    (readValue_denotes (denotes_quote v) f _ hf), List.singleton_append, skipWs_cons (by decide)]
  simp only [if_true]
  rw [hr]; rfl

theorem readMembers_close : ∀ g, readMembers g [0x7D] = none
  | 0 => rfl
  | g + 1 => by rw [readMembers, skipWs_cons (by decide)]; rfl

theorem readMembers_mono_trailing {k : Bytes} (h : PlainKey k) (v : Bytes) {rest : Bytes}
    (hr : ∀ g, readMembers g rest = none) {f : Nat} (hf : (quote v).length + 1 < f) :
    readMembers f (writeKeyValue k v ++ [0x2C] ++ rest) = none := by
  obtain ⟨f, rfl⟩ : ∃ g, f = g + 1 := ⟨f - 1, by omega⟩
  exact readMembers_trailing h v hr (by omega)

/-- A text that starts with a member is read as the members of an object. -/
theorem readJson_object {s : Bytes} (hs : ∃ r, s = 0x22 :: r) (h : readMembers (s.length + 1) s = none) :
    readJson (0x7B :: s) = none := by
  obtain ⟨r, rfl⟩ := hs
  unfold readJson
  rw [List.length_cons, readValue, skipWs_cons (by decide)]
  simp only [if_true]
  rw [skipWs_cons (by decide)]
  simp only []
  rw [if_neg (by decide), h]
  rfl

theorem readMembers_two {k₁ k₂ : Bytes} (h₁ : PlainKey k₁) (h₂ : PlainKey k₂) (v₁ v₂ : Bytes) {f : Nat}
    (hf : (quote v₁).length + (quote v₂).length + 2 < f) :
    readMembers f (writeKeyValue k₁ v₁ ++ [0x2C] ++ (writeKeyValue k₂ v₂ ++ [0x2C] ++ [0x7D])) = none := by
  obtain ⟨f, rfl⟩ : ∃ g, f = g + 1 := ⟨f - 1, by omega⟩
  rw [writeKeyValue_eq k₁, List.append_assoc, readMembers_member ws_nil ws_nil ws_space ws_nil (str_key h₁) f _
    (readValue_denotes (denotes_quote v₁) f _ (by omega)), List.singleton_append, skipWs_cons (by decide)]
  simp only [if_true]
  rw [readMembers_mono_trailing h₂ v₂ readMembers_close (by omega)]
  rfl

/-- The text of a message is JSON with the meaning of the tree; where the tree says that `json.Marshal` reports an
error, the text is not JSON. -/
theorem C84_message_text (m : JsonMessage) : match m.marshal with
    | some j => Denotes m.text j ∧ readJson m.text = some j
    | none => readJson m.text = none := by
  suffices h : match m.marshal with | some j => Denotes m.text j | none => readJson m.text = none by
    cases hm : m.marshal with
    | none => rw [hm] at h; exact h
    | some j => rw [hm] at h; exact ⟨h, readJson_denotes h⟩
  unfold JsonMessage.marshal JsonMessage.text
  generalize (if m.tr = [] then [(other, [])] else m.tr) = tr
  simp only []
  by_cases h1 : m.comment = [] ∧ m.context = [] ∧ tr.length = 1
  · rw [if_pos h1, if_pos h1]
    exact denotes_quote _
  rw [if_neg h1, if_neg h1]
  have hk1 : PlainKey b!"comment" := by decide
  have hk2 : PlainKey b!"context" := by decide
  rcases categoryTexts_eq tr [0, 1, 2, 3, 4, 5] 0 with ⟨c1, c2⟩ | ⟨t, c1, c2⟩
  · rw [c1, c2]
    by_cases hc : m.comment = [] <;> by_cases hx : m.context = []
    · simp only [hc, hx, if_true, List.append_nil, List.isEmpty_nil, Bool.not_true, Bool.false_and,
        Bool.false_eq_true, if_false]
      exact .empty ws_nil
    · simp only [hc, hx, if_true, if_false, List.append_nil, List.nil_append, List.isEmpty_cons, Bool.not_false, Bool.true_and,
        List.isEmpty_nil]
      rw [List.cons_append]
      refine readJson_object ⟨_, rfl⟩ (readMembers_mono_trailing hk2 _ readMembers_close ?_)
      simp [writeKeyValue]
    · simp only [hc, hx, if_true, if_false, List.append_nil, List.isEmpty_cons, Bool.not_false, Bool.true_and,
        List.isEmpty_nil]
      rw [List.cons_append]
      refine readJson_object ⟨_, rfl⟩ (readMembers_mono_trailing hk1 _ readMembers_close ?_)
      simp [writeKeyValue]
    · simp only [hc, hx, if_false, List.append_nil, List.isEmpty_cons, Bool.not_false, Bool.true_and,
        List.isEmpty_nil, List.cons_append, if_true]
      rw [List.append_assoc]
      refine readJson_object ⟨_, rfl⟩ ?_
      rw [readMembers_two hk1 hk2]
      simp [writeKeyValue]
      omega
  · have hne : (categoryFields tr [0, 1, 2, 3, 4, 5]).isEmpty = false := by
      cases h : categoryFields tr [0, 1, 2, 3, 4, 5] with
      | nil => rw [h] at c2; cases c2
      | cons _ _ => rfl
    rw [c1, if_neg (Nat.lt_irrefl 0), List.nil_append, hne, Bool.and_false]
    simp only [Bool.false_eq_true, if_false]
    have hobj : Members ((if m.comment = [] then [] else writeKeyValue b!"comment" m.comment ++ [0x2C]) ++
        ((if m.context = [] then [] else writeKeyValue b!"context" m.context ++ [0x2C]) ++ t))
        ((if m.comment = [] then [] else [(b!"comment", .str (sanitize m.comment))]) ++
          ((if m.context = [] then [] else [(b!"context", .str (sanitize m.context))]) ++ categoryFields tr [0, 1, 2, 3, 4, 5])) := by
      have h2 : Members ((if m.context = [] then [] else writeKeyValue b!"context" m.context ++ [0x2C]) ++ t)
          ((if m.context = [] then [] else [(b!"context", .str (sanitize m.context))]) ++ categoryFields tr [0, 1, 2, 3, 4, 5]) := by
        by_cases hx : m.context = []
        · rw [if_pos hx, if_pos hx]; exact c2
        · rw [if_neg hx, if_neg hx]; exact members_cons hk2 _ c2
      by_cases hc : m.comment = []
      · rw [if_pos hc, if_pos hc]; exact h2
      · rw [if_neg hc, if_neg hc]; exact members_cons hk1 _ h2
    have := Denotes.obj hobj
    simpa only [List.append_assoc, List.cons_append] using this

example : (JsonMessage.marshal ⟨b!"c", [], some [(1, b!"a<b"), (5, b!"\"")]⟩).isSome ∧
    JsonMessage.text ⟨b!"c", [], some [(1, b!"a<b"), (5, b!"\"")]⟩ =
      b!"{\"comment\": \"c\",\"one\": \"a\\u003cb\",\"other\": \"\\\"\"}" ∧
    JsonMessage.marshal ⟨b!"c", [], some [(9, b!"a")]⟩ = none ∧
    JsonMessage.text ⟨b!"c", [], some [(9, b!"a")]⟩ = b!"{\"comment\": \"c\",}" := ⟨by rfl, by rfl, by rfl, by rfl⟩

/-! ## Catalogs -/

/-- `json.Marshal` of a message. -/
theorem compact_message (m : JsonMessage) : match m.marshal with
    | some j => ∃ t, compact m.text = some t ∧ Tight t j
    | none => compact m.text = none := by
  have := C84_message_text m
  cases hm : m.marshal with
  | none =>
    rw [hm] at this
    simp only [] at this ⊢
    unfold compact
    rw [this]; rfl
  | some j =>
    rw [hm] at this
    simp only [] at this ⊢
    obtain ⟨t, h1, _, h3⟩ := compactFrom_denotes this.1
    have h3 := h3 []
    rw [List.append_nil, compactFrom, List.append_nil] at h3
    refine ⟨t, ?_, h1⟩
    unfold compact
    rw [this.2, h3]; rfl

theorem memberTexts_eq (messages : GoMap Bytes JsonMessage) : ∀ (ks : List Bytes) (i : Nat),
    match marshalMembers messages ks with
    | none => memberTexts messages i ks = none
    | some fs => (ks = [] ∧ fs = [] ∧ memberTexts messages i ks = some []) ∨
      ∃ t, memberTexts messages i ks = some ((if i > 0 then [0x2C] else []) ++ t) ∧ TightMembers t fs
  | [], _ => .inl ⟨rfl, rfl, rfl⟩
  | k :: ks, i => by
    have ih := memberTexts_eq messages ks (i + 1)
    rw [marshalMembers, memberTexts]
    cases hg : messages.get? k with
    | none => simp
    | some m =>
      have hc := compact_message m
      simp only [Option.bind_some]
      cases hm : m.marshal with
      | none =>
        rw [hm] at hc
        simp only [] at hc ⊢
        rw [hc]
      | some j =>
        rw [hm] at hc
        simp only [] at hc
        obtain ⟨d, h1, h2⟩ := hc
        rw [h1]
        cases hr : marshalMembers messages ks with
        | none =>
          rw [hr] at ih
          simp only [] at ih ⊢
          rw [ih]
        | some fs =>
          rw [hr] at ih
          simp only [] at ih ⊢
          right
          rcases ih with ⟨_, rfl, e⟩ | ⟨t, e, ht⟩
          · rw [e]
            exact ⟨_, by simp only [List.append_assoc, List.append_nil], .one (str_quote k) h2⟩
          · rw [e, if_pos (Nat.succ_pos i)]
            exact ⟨_, by simp only [List.append_assoc, List.cons_append, List.nil_append], .cons (str_quote k) h2 ht⟩

theorem text_tight (c : JsonCatalog) : match c.marshal with
    | none => c.text = none
    | some j => ∃ t, c.text = some t ∧ Tight t j := by
  unfold JsonCatalog.marshal JsonCatalog.text
  simp only []
  have := memberTexts_eq (flatten [] c.lookupMap) (sortBy bytesLe (flatten [] c.lookupMap).keys) 0
  cases hm : marshalMembers (flatten [] c.lookupMap) (sortBy bytesLe (flatten [] c.lookupMap).keys) with
  | none =>
    rw [hm] at this
    simp only [] at this
    rw [this]; rfl
  | some fs =>
    rw [hm] at this
    simp only [] at this
    rcases this with ⟨_, rfl, e⟩ | ⟨t, e, ht⟩
    · rw [e]
      exact ⟨_, rfl, .empty⟩
    · rw [e, if_neg (Nat.lt_irrefl 0)]
      exact ⟨_, rfl, .obj ht⟩

/-- The bytes that `indentFrom` adds are line breaks and spaces. -/
theorem mem_indentFrom {c : UInt8} (h1 : c ≠ 0x0A) (h2 : c ≠ 0x20) : ∀ (s : Bytes) (st : Scan) (d : Nat) (need : Bool),
    c ∈ indentFrom st d need s → c ∈ s := by
  have hnl : ∀ d, c ∉ newline d := by
    intro d hc
    rw [newline_eq] at hc
    unfold line at hc
    rcases List.mem_append.1 hc with h | h
    · exact h1 (List.mem_singleton.1 h)
    · exact h2 (List.eq_of_mem_replicate h)
  intro s
  induction s with
  | nil => intro st d need h; cases st <;> exact h
  | cons x s ih =>
    intro st d need h
    cases st <;> simp only [indentFrom] at h <;> (repeat' split at h) <;>
      simp only [List.mem_cons, List.mem_append, hnl, h2, false_or, List.not_mem_nil, or_false] at h ⊢ <;>
      first
        | exact .inr (ih _ _ _ h)
        | (rcases h with h | h
           · exact .inl h
           · exact .inr (ih _ _ _ h))

/-- What `Encode` writes: an error exactly if the tree cannot be written; otherwise the tree in the layout with one
member per line, ended by a line break, without bytes that mean something in HTML. -/
theorem C84_written (c : JsonCatalog) : match c.marshal with
    | none => jsonEncode (some c) = none
    | some j => ∃ t, jsonEncode (some c) = some (t ++ b!"\n") ∧ Layout 0 t j ∧ HtmlSafe t := by
  have := text_tight c
  cases hm : c.marshal with
  | none =>
    rw [hm] at this
    simp only [] at this ⊢
    unfold jsonEncode
    simp only [this]; rfl
  | some j =>
    rw [hm] at this
    simp only [] at this ⊢
    obtain ⟨t, e, ht⟩ := this
    obtain ⟨t', h1, h2, h3⟩ := compactFrom_denotes (denotes_tight ht)
    have h3 := h3 []
    rw [List.append_nil, compactFrom, List.append_nil] at h3
    obtain ⟨u, i1, i2⟩ := indentFrom_tight h1 0
    have i2 := i2 []
    rw [List.append_nil, indentFrom, List.append_nil] at i2
    refine ⟨u, ?_, i1, ?_⟩
    · unfold jsonEncode compact
      simp only [e, Option.bind_some, readJson_denotes (denotes_tight ht), Option.isSome_some, if_true, h3, Option.map_some, i2]
    · intro x hx hm
      rw [← i2] at hm
      refine h2 x hx (mem_indentFrom ?_ ?_ _ _ _ _ hm) <;>
        (rintro rfl; revert hx; decide)

/-- What `Encode` writes is read as the tree that was written. -/
theorem C84_read {c : JsonCatalog} {t : Bytes} (h : jsonEncode (some c) = some t) :
    ∃ j, c.marshal = some j ∧ Document t j ∧ readJson t = some j := by
  have := C84_written c
  cases hm : c.marshal with
  | none => rw [hm] at this; simp only [] at this; rw [h] at this; cases this
  | some j =>
    rw [hm] at this
    simp only [] at this
    obtain ⟨u, e, hl, _⟩ := this
    rw [h] at e
    cases e
    have hd : Document (u ++ b!"\n") j := ⟨[], u, b!"\n", by simp, ws_nil, ws_line 0, denotes_layout hl⟩
    exact ⟨j, rfl, hd, readJson_document hd⟩

/-- The reader accepts exactly the grammar of JSON, made more lenient in two points, and reads what the grammar says. -/
theorem C84_reader (t : Bytes) (j : Json) : readJson t = some j ↔ Acceptable t j := ⟨readJson_sound, readJson_complete⟩

/-- A file is decoded exactly if it is a JSON text whose content is decoded; everything else is a decoding error. -/
theorem C84_decode (names : List Int) (lower : Char → Char) (order : GoMap Bytes Bytes → GoMap Bytes Bytes)
    (fileOrder : GoMap Bytes (Option JsonMessage) → GoMap Bytes (Option JsonMessage)) (lang : Tag) (domain t : Bytes) :
    (∀ c, jsonDecodeText names lower order fileOrder lang domain t = .ok c ↔
      ∃ j, Acceptable t j ∧ jsonDecode names lower order fileOrder lang domain j = .ok c) ∧
    ((∀ j, ¬ Acceptable t j) → jsonDecodeText names lower order fileOrder lang domain t = .error .decode) := by
  unfold jsonDecodeText
  cases h : readJson t with
  | none =>
    have hn : ∀ j, ¬ Acceptable t j := fun j hj => by rw [(C84_reader t j).2 hj] at h; cases h
    exact ⟨fun c => ⟨(fun e => nomatch e), fun ⟨j, hj, _⟩ => absurd hj (hn j)⟩, fun _ => rfl⟩
  | some j =>
    have hj := (C84_reader t j).1 h
    refine ⟨fun c => ⟨fun e => ⟨j, hj, e⟩, fun ⟨j', hj', e⟩ => ?_⟩, fun hn => absurd hj (hn j)⟩
    have := (C84_reader t j').2 hj'
    rw [h] at this
    cases this
    exact e

/-- A text that is no JSON text, and its decoding. -/
example : (∀ j, ¬ Acceptable b!"{\"k\": \"v\",}" j) ∧
    jsonDecodeText categoryNames Verif.Props.PoFile.asciiLower id id [("de", some "de")] b!"d" b!"{\"k\": \"v\",}" = .error .decode := by
  have hr : readJson b!"{\"k\": \"v\",}" = none := by decide +kernel
  have h : ∀ j, ¬ Acceptable b!"{\"k\": \"v\",}" j := fun j hj => by rw [(C84_reader _ j).2 hj] at hr; cases hr
  exact ⟨h, (C84_decode _ _ _ _ _ _ _).2 h⟩

/-- A catalog that meets the hypotheses of `C84_read`, `C84_writable` and `C84_utf8`. -/
example : ∃ c t, newJSONCatalogWithMessages categoryNames [("de", some "de")] b!"d"
      [(b!"k", some ⟨[], [], some [(1, b!"<"), (5, b!"ö")]⟩)] = .ok c ∧ jsonEncode (some c) = some t ∧
    readJson t = some (.obj [(b!"k", .obj [(b!"one", .str b!"<"), (b!"other", .str b!"ö")])]) :=
  ⟨_, b!"{\n  \"k\": {\n    \"one\": \"\\u003c\",\n    \"other\": \"ö\"\n  }\n}\n", rfl, by decide +kernel, by rfl⟩

/-- Every string is quoted so that it is read back, malformed bytes replaced by U+FFFD. -/
theorem C84_quote (s : Bytes) : Denotes (quote s) (.str (sanitize s)) ∧ readJson (quote s) = some (.str (sanitize s)) :=
  ⟨denotes_quote s, readJson_denotes (denotes_quote s)⟩

theorem categoryFields_other {tr : GoMap Int Bytes} (h : (tr.get? other).isSome) :
    ∀ cats, other ∈ cats → (categoryFields tr cats).isEmpty = false
  | cat :: cats, hm => by
    rw [categoryFields]
    cases hg : tr.get? cat with
    | some v => rfl
    | none =>
      refine categoryFields_other h cats ?_
      rcases List.mem_cons.1 hm with rfl | hm
      · rw [hg] at h; cases h
      · exact hm

theorem marshal_isSome {m : JsonMessage} (h : (m.tr.get? other).isSome) : m.marshal.isSome := by
  unfold JsonMessage.marshal
  have hne : m.tr ≠ [] := by intro e; rw [e] at h; cases h
  simp only [if_neg hne]
  split
  · rfl
  · rw [categoryFields_other h _ (by decide), Bool.and_false]; rfl

theorem marshalMembers_isSome {messages : GoMap Bytes JsonMessage} :
    ∀ ks, (∀ k ∈ ks, ∃ m, messages.get? k = some m ∧ m.marshal.isSome) → (marshalMembers messages ks).isSome
  | [], _ => rfl
  | k :: ks, h => by
    obtain ⟨m, h1, h2⟩ := h k List.mem_cons_self
    obtain ⟨j, hj⟩ := Option.isSome_iff_exists.1 h2
    obtain ⟨fs, hfs⟩ := Option.isSome_iff_exists.1 (marshalMembers_isSome ks fun k hk => h k (List.mem_cons_of_mem _ hk))
    rw [marshalMembers, h1, Option.bind_some, hj, hfs]
    rfl

/-- Every catalog that `NewJSONCatalogWithMessages` builds can be written. -/
theorem C84_writable {names : List Int} {lang : Tag} {domain : Bytes} {msgs : GoMap Bytes (Option JsonMessage)}
    (hw : msgs.WF) {c : JsonCatalog} (h : newJSONCatalogWithMessages names lang domain msgs = .ok c) :
    ∃ t, jsonEncode (some c) = some t := by
  have hb := Json.built_of hw h
  have hs : c.marshal.isSome := by
    unfold JsonCatalog.marshal
    simp only [Option.isSome_map]
    refine marshalMembers_isSome _ fun k hk => ?_
    have hk := (sortBy_perm _ _).mem_iff.1 hk
    obtain ⟨m, hm⟩ := Option.isSome_iff_exists.1 ((GoMap.get?_isSome (m := flatten [] c.lookupMap) (k := k)).2 hk)
    refine ⟨m, hm, ?_⟩
    rcases (Json.flatten_get? c.lookupMap [] hb.wf hb.uniq k m).1 hm with ⟨ctx, he⟩ | ⟨_, he⟩
    · obtain ⟨s, e, _, ho, _⟩ := Json.prepare_ok (hb.again ctx k m he)
      cases e
      exact marshal_isSome ho
    · cases he
  obtain ⟨j, hj⟩ := Option.isSome_iff_exists.1 hs
  have := C84_written c
  rw [hj] at this
  obtain ⟨t, e, _⟩ := this
  exact ⟨_, e⟩

/-! ## UTF-8 -/

theorem utf8_ascii : ∀ {s : Bytes}, (∀ c ∈ s, c.toNat < 0x80) → Json.Utf8 s
  | [], _ => ⟨[], rfl⟩
  | c :: s, h => by
    obtain ⟨cs, e⟩ := utf8_ascii (s := s) fun d hd => h d (List.mem_cons_of_mem _ hd)
    refine ⟨Char.ofNat c.toNat :: cs, ?_⟩
    rw [utf8_cons, encodeRune_ascii (h c List.mem_cons_self), e]
    rfl

theorem _root_.Verif.Props.Json.Utf8.append {a b : Bytes} (ha : Json.Utf8 a) (hb : Json.Utf8 b) : Json.Utf8 (a ++ b) := by
  obtain ⟨x, rfl⟩ := ha
  obtain ⟨y, rfl⟩ := hb
  exact ⟨x ++ y, (Verif.Go.utf8_append x y).symm⟩

theorem utf8_hex4 {ds : Bytes} {n : Nat} (h : Hex4 ds n) : Json.Utf8 ds := by
  refine utf8_ascii fun c hc => ?_
  obtain ⟨a, b, c', d, va, vb, vc, vd, rfl, ha, hb, hc', hd, _⟩ := h
  have key : ∀ {c v}, Hex c v → c.toNat < 0x80 := by
    intro c v h
    have h1 := (hexValue_hex h).1
    unfold hexValue at h1
    (repeat' split at h1) <;> first | omega | cases h1
  simp only [List.mem_cons, List.not_mem_nil, or_false] at hc
  rcases hc with rfl | rfl | rfl | rfl
  · exact key ha
  · exact key hb
  · exact key hc'
  · exact key hd

theorem utf8_body {b s : Bytes} (h : Body b s) : Json.Utf8 b := by
  induction h with
  | nil => exact ⟨[], rfl⟩
  | cons hp _ ih =>
    refine .append ?_ ih
    cases hp with
    | plain c => exact ⟨[c], by simp⟩
    | short e x he =>
      refine utf8_ascii ?_
      revert he
      simp only [shortEscapes, List.mem_cons, Prod.mk.injEq, List.not_mem_nil, or_false]
      rintro (⟨rfl, rfl⟩ | ⟨rfl, rfl⟩ | ⟨rfl, rfl⟩ | ⟨rfl, rfl⟩ | ⟨rfl, rfl⟩ | ⟨rfl, rfl⟩ | ⟨rfl, rfl⟩ | ⟨rfl, rfl⟩) <;> simp
    | code ds c hh => exact .append (utf8_ascii (by decide)) (utf8_hex4 hh)
    | pair hs ls hi lo c h1 h2 =>
      exact .append (.append (.append (utf8_ascii (by decide)) (utf8_hex4 h1)) (utf8_ascii (by decide))) (utf8_hex4 h2)

theorem utf8_str {t s : Bytes} (h : Str t s) : Json.Utf8 t := by
  obtain ⟨b, rfl, hb⟩ := h
  exact .append (.append (a := [0x22]) (utf8_ascii (by decide)) (utf8_body hb)) (utf8_ascii (by decide))

theorem utf8_line (d : Nat) : Json.Utf8 (line d) := by
  refine utf8_ascii fun c hc => ?_
  have := ws_line d c hc
  revert this
  simp only [List.mem_cons, List.not_mem_nil, or_false]
  rintro (rfl | rfl | rfl | rfl) <;> decide

mutual

theorem utf8_layout {d : Nat} {t : Bytes} {j : Json} : Layout d t j → Json.Utf8 t
  | .null => utf8_ascii (by decide)
  | .str h => utf8_str h
  | .empty => utf8_ascii (by decide)
  | .obj h => .append (.append (.append (utf8_ascii (by decide)) (utf8_rows h)) (utf8_line d)) (utf8_ascii (by decide))

theorem utf8_rows {d : Nat} {t : Bytes} {fs : List (Bytes × Json)} : Rows d t fs → Json.Utf8 t
  | .one hk hv => .append (.append (.append (utf8_line d) (utf8_str hk)) (utf8_ascii (by decide))) (utf8_layout hv)
  | .cons hk hv hm => .append (.append (.append (.append (.append (utf8_line d) (utf8_str hk)) (utf8_ascii (by decide)))
      (utf8_layout hv)) (utf8_ascii (by decide))) (utf8_rows hm)

end

/-- What is written is valid UTF-8, whatever the texts are. -/
theorem C84_utf8 {c : Option JsonCatalog} {t : Bytes} (h : jsonEncode c = some t) : ∃ cs, t = utf8 cs := by
  cases c with
  | none => cases h; exact utf8_ascii (by decide)
  | some c =>
    have := C84_written c
    cases hm : c.marshal with
    | none => rw [hm] at this; simp only [] at this; rw [h] at this; cases this
    | some j =>
      rw [hm] at this
      simp only [] at this
      obtain ⟨u, e, hl, _⟩ := this
      rw [h] at e
      cases e
      exact Json.Utf8.append (utf8_layout hl) (utf8_ascii (by decide))

/-! ## Writing and reading a file -/

/-- A catalog with portable messages that is written with `JSONEncoder` is read back by `JSONDecoder`: the file is
accepted and all lookups give the same. -/
theorem C84_round_trip_partial {names names' : List Int} (hn : names'.Perm names) {lang : Tag} {domain : Bytes}
    {msgs : GoMap Bytes (Option JsonMessage)} (hw : msgs.WF) {c : JsonCatalog}
    (h : newJSONCatalogWithMessages names lang domain msgs = .ok c) (hne : c.messages ≠ [])
    (hp : ∀ k m, c.messages.get? k = some m → Json.Utf8 k ∧ Json.Portable m)
    {lower : Char → Char} (hl : Json.KeepsAscii lower) {order : GoMap Bytes Bytes → GoMap Bytes Bytes}
    (ho : ∀ l, (order l).Perm l)
    {fileOrder : GoMap Bytes (Option JsonMessage) → GoMap Bytes (Option JsonMessage)} (hf : ∀ l, (fileOrder l).Perm l) :
    ∃ t c', jsonEncode (some c) = some t ∧
      jsonDecodeText names' lower order fileOrder lang domain t = .ok (some c') ∧ Json.Alike c c' := by
  obtain ⟨j, c', h1, h2, h3⟩ := Json.C64_catalog_round_trip_partial hn hw h hne hp hl ho hf
  have := C84_written c
  rw [h1] at this
  simp only [] at this
  obtain ⟨u, e, _⟩ := this
  obtain ⟨j', e1, _, e3⟩ := C84_read e
  rw [h1] at e1
  cases e1
  exact ⟨_, c', e, by unfold jsonDecodeText; rw [e3]; exact h2, h3⟩

/-- The example of C64, as a file. -/
example : ∃ c, newJSONCatalogWithMessages categoryNames [("de", some "de")] b!"d"
      [(b!"b", some ⟨b!"n", [], some [(1, b!"x & y"), (5, b!"ö")]⟩), (b!"a", some ⟨[], [], some [(5, b!"z")]⟩)] = .ok c ∧
    jsonEncode (some c) =
      some b!"{\n  \"a\": \"z\",\n  \"b\": {\n    \"comment\": \"n\",\n    \"one\": \"x \\u0026 y\",\n    \"other\": \"ö\"\n  }\n}\n" :=
  ⟨_, rfl, by decide +kernel⟩

/-- The file of an empty catalog, and of no catalog, is not accepted; a catalog with a comment but no named category
cannot be written. -/
theorem C84_negation :
    (∃ c t, newJSONCatalogWithMessages categoryNames [("de", some "de")] b!"d" [] = .ok c ∧ jsonEncode (some c) = some t ∧
      jsonDecodeText categoryNames Verif.Props.PoFile.asciiLower id id [("de", some "de")] b!"d" t = .error .emptyFile) ∧
    (∃ t, jsonEncode none = some t ∧
      jsonDecodeText categoryNames Verif.Props.PoFile.asciiLower id id [("de", some "de")] b!"d" t = .error .emptyFile) ∧
    (∃ c : JsonCatalog, (Verif.Proofs.Catalog.entry c.lookupMap [] b!"k").isSome ∧ jsonEncode (some c) = none) := by
  refine ⟨⟨_, b!"{}\n", rfl, by decide +kernel, ?_⟩, ⟨_, rfl, ?_⟩,
    ⟨{ JsonCatalog.new [("de", some "de")] b!"d" with lookupMap := [([], [(b!"k", ⟨b!"c", [], some [(9, b!"x")]⟩)])] }, by rfl, by decide +kernel⟩⟩
  all_goals rfl

end Verif.Props.JsonText
