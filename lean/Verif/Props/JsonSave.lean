import Verif.Props.JsonText
/-!
# Saving JSON catalogs that were read (C85)

For every file that `JSONDecoder` accepts: the catalog can be written, what is written is accepted again with the same
lookups, and writing that catalog gives the same bytes.
-/
namespace Verif.Props.JsonSave
open Verif.Go Verif.Model.Catalog Verif.Model.Po Verif.Cldr Verif.Proofs.Catalog Verif.Props.JsonText
open Verif.Props.Json (Utf8 Portable Alike KeepsAscii Built AllStored built_of messages_get? prepare_iff setAll_meta
  written_file rebuild flatten_wf setAll_all new_all prepare_ok unmarshal_wf unmarshal_named decode_setAll new_categories)

/-! ## All texts that are read are valid UTF-8 -/

/-- All strings of a tree are valid UTF-8. -/
inductive Clean : Json → Prop
  | null : Clean .null
  | other : Clean .other
  | str {s} : Utf8 s → Clean (.str s)
  | obj {fs : List (Bytes × Json)} : (∀ k v, (k, v) ∈ fs → Utf8 k) → (∀ k v, (k, v) ∈ fs → Clean v) → Clean (.obj fs)

theorem utf8_nil : Utf8 [] := ⟨[], rfl⟩

theorem utf8_rune (c : Char) : Utf8 (encodeRune c) := ⟨[c], by simp⟩

theorem readChars_utf8 : ∀ (f : Nat) (s t rest : Bytes), readChars f s = some (t, rest) → Utf8 t
  | 0, _, _, _, h => by cases h
  | _ + 1, [], _, _, h => by cases h
  | f + 1, b :: bs, t, rest, h => by
    rw [Verif.Proofs.JsonText.readChars_cons] at h
    by_cases h1 : b = 0x22
    · rw [if_pos h1] at h; cases h; exact utf8_nil
    rw [if_neg h1] at h
    by_cases h2 : b = 0x5C
    · rw [if_pos h2] at h
      cases bs with
      | nil => cases h
      | cons e bs =>
        simp only [] at h
        by_cases h3 : e = 0x75
        · rw [if_pos h3] at h
          cases hc : readCode (b :: e :: bs) with
          | none => rw [hc] at h; cases h
          | some p =>
            rw [hc] at h
            simp only [Option.map_eq_some_iff] at h
            obtain ⟨⟨t', r'⟩, hr, e⟩ := h
            cases e
            exact Json.Utf8.append (utf8_rune _) (readChars_utf8 f _ _ _ hr)
        · rw [if_neg h3] at h
          cases hc : readEscape e with
          | none => rw [hc] at h; cases h
          | some x =>
            rw [hc] at h
            simp only [Option.map_eq_some_iff] at h
            obtain ⟨⟨t', r'⟩, hr, e'⟩ := h
            cases e'
            have hx : x.toNat < 0x80 := by
              unfold readEscape at hc
              by_cases h3 : e = 0x22 ∨ e = 0x5C ∨ e = 0x2F
              · rw [if_pos h3] at hc
                cases hc
                rcases h3 with rfl | rfl | rfl <;> decide
              · rw [if_neg h3] at hc
                (repeat' split at hc) <;> first | (cases hc; decide) | cases hc
            exact Json.Utf8.append (a := [x]) (utf8_ascii fun c hc => by rw [List.mem_singleton.1 hc]; exact hx)
              (readChars_utf8 f _ _ _ hr)
    · rw [if_neg h2] at h
      by_cases h3 : b.toNat < 0x20
      · rw [if_pos h3] at h; cases h
      · rw [if_neg h3] at h
        simp only [Option.map_eq_some_iff] at h
        obtain ⟨⟨t', r'⟩, hr, e⟩ := h
        cases e
        exact Json.Utf8.append (utf8_rune _) (readChars_utf8 f _ _ _ hr)

theorem read_clean : ∀ (f : Nat),
    (∀ (s : Bytes) (j : Json) (rest : Bytes), readValue f s = some (j, rest) → Clean j) ∧
    (∀ (s : Bytes) (fs : List (Bytes × Json)) (rest : Bytes), readMembers f s = some (fs, rest) → Clean (.obj fs))
  | 0 => ⟨(fun _ _ _ h => nomatch h), (fun _ _ _ h => nomatch h)⟩
  | f + 1 => by
    obtain ⟨ih1, ih2⟩ := read_clean f
    constructor
    · intro s j rest h
      rw [readValue] at h
      split at h
      · cases h
      · rename_i c r _
        split at h
        · split at h
          · cases h
          · split at h
            · cases h; exact .obj (fun _ _ h => nomatch h) (fun _ _ h => nomatch h)
            · simp only [Option.map_eq_some_iff] at h
              obtain ⟨⟨fs, r'⟩, hr, e⟩ := h
              cases e
              exact ih2 _ _ _ hr
        · split at h
          · split at h
            · cases h
            · split at h
              · cases h; exact .other
              · simp only [Option.map_eq_some_iff] at h
                obtain ⟨_, _, e⟩ := h
                cases e; exact .other
          · split at h
            · simp only [Option.map_eq_some_iff] at h
              obtain ⟨⟨t, r'⟩, hr, e⟩ := h
              cases e
              exact .str (readChars_utf8 _ _ _ _ hr)
            · split at h
              · cases h; exact .null
              · split at h
                · cases h; exact .other
                · split at h
                  · cases h; exact .other
                  · simp only [Option.map_eq_some_iff] at h
                    obtain ⟨_, _, e⟩ := h
                    cases e; exact .other
    · intro s fs rest h
      rw [readMembers] at h
      split at h
      · cases h
      split at h
      · split at h
        · cases h
        · rename_i k r hk
          split at h
          · cases h
          split at h
          · split at h
            · cases h
            · rename_i v r' hv
              split at h
              · cases h
              split at h
              · simp only [Option.map_eq_some_iff] at h
                obtain ⟨⟨fs', r''⟩, hr, e⟩ := h
                cases e
                cases ih2 _ _ _ hr with
                | obj i1 i2 =>
                  refine .obj (fun x y hx => ?_) (fun x y hx => ?_)
                  · rcases List.mem_cons.1 hx with e | e
                    · cases e; exact readChars_utf8 _ _ _ _ hk
                    · exact i1 x y e
                  · rcases List.mem_cons.1 hx with e | e
                    · cases e; exact ih1 _ _ _ hv
                    · exact i2 x y e
              · split at h
                · cases h
                  refine .obj (fun x y hx => ?_) (fun x y hx => ?_)
                  · cases List.mem_singleton.1 hx; exact readChars_utf8 _ _ _ _ hk
                  · cases List.mem_singleton.1 hx; exact ih1 _ _ _ hv
                · cases h
          · cases h
      · cases h

/-- The tree that is read from a text has only valid strings, whatever the text is. -/
theorem readJson_clean {s : Bytes} {j : Json} (h : readJson s = some j) : Clean j := by
  unfold readJson at h
  cases hr : readValue (s.length + 1) s with
  | none => rw [hr] at h; cases h
  | some p =>
    rw [hr] at h
    simp only [] at h
    split at h
    · cases h; exact (read_clean _).1 _ _ _ hr
    · cases h

/-! ## Messages that are read -/

/-- The texts of a message are valid UTF-8. -/
structure Texts (m : JsonMessage) : Prop where
  comment : Utf8 m.comment
  context : Utf8 m.context
  text : ∀ k t, m.tr.get? k = some t → Utf8 t

theorem texts_set {m : JsonMessage} (h : Texts m) (k : Int) {v : Bytes} (hv : Utf8 v) :
    Texts { m with translations := some (m.tr.set k v) } := by
  refine ⟨h.comment, h.context, fun x t hx => ?_⟩
  rw [tr_set, GoMap.get?_set] at hx
  split at hx
  · cases hx; exact hv
  · exact h.text x t hx

theorem texts_assign {m : JsonMessage} (h : Texts m) (k : Bytes) {v : Bytes} (hv : Utf8 v) : Texts (m.assign k v) := by
  unfold JsonMessage.assign
  split
  · exact ⟨hv, h.context, h.text⟩
  split
  · exact ⟨h.comment, hv, h.text⟩
  (repeat' split) <;> first | exact texts_set h _ hv | exact h

theorem texts_assignAll (lower : Char → Char) : ∀ (l : GoMap Bytes Bytes) (m : JsonMessage), Texts m →
    (∀ k v, (k, v) ∈ l → Utf8 v) → Texts (m.assignAll lower l)
  | [], _, h, _ => h
  | (k, v) :: l, m, h, hl => texts_assignAll lower l _ (texts_assign h _ (hl k v List.mem_cons_self))
      fun x y hx => hl x y (List.mem_cons_of_mem _ hx)

theorem mem_set {α : Type} {k : Bytes} {v : α} : ∀ {a : GoMap Bytes α} {p : Bytes × α}, p ∈ a.set k v → p ∈ a ∨ p = (k, v)
  | [], p, hp => by right; simpa [GoMap.set] using hp
  | (x, y) :: a, p, hp => by
    simp only [GoMap.set] at hp
    split at hp
    · rcases List.mem_cons.mp hp with h | h
      · right; exact h
      · left; exact List.mem_cons_of_mem _ h
    · rcases List.mem_cons.mp hp with h | h
      · left; rw [h]; exact List.mem_cons_self
      · rcases mem_set h with h | h
        · left; exact List.mem_cons_of_mem _ h
        · right; exact h

theorem decodeStrings_utf8 : ∀ (fs : List (Bytes × Json)) (acc r : GoMap Bytes Bytes), Clean (.obj fs) →
    (∀ k v, (k, v) ∈ acc → Utf8 v) → decodeStrings acc fs = some r → ∀ k v, (k, v) ∈ r → Utf8 v
  | [], acc, r, _, ha, h => by cases h; exact ha
  | (x, j) :: fs, acc, r, hc, ha, h => by
    have hcs : Clean (.obj fs) := by
      cases hc with
      | obj h1 h2 => exact .obj (fun k v hk => h1 k v (List.mem_cons_of_mem _ hk)) (fun k v hk => h2 k v (List.mem_cons_of_mem _ hk))
    have hj : Clean j := by
      cases hc with
      | obj h1 h2 => exact h2 x j List.mem_cons_self
    cases j with
    | null =>
      refine decodeStrings_utf8 fs _ r hcs (fun k v hk => ?_) h
      rcases mem_set hk with hk | hk
      · exact ha k v hk
      · cases hk; exact utf8_nil
    | str s =>
      refine decodeStrings_utf8 fs _ r hcs (fun k v hk => ?_) h
      rcases mem_set hk with hk | hk
      · exact ha k v hk
      · cases hk; cases hj; assumption
    | obj _ => cases h
    | other => cases h

/-- A message that was read. -/
structure Carried (m : JsonMessage) : Prop where
  texts : Texts m
  wf : m.tr.WF
  named : ∀ k, (m.tr.get? k).isSome → k ∈ categoryNames

theorem unmarshal_carried {lower : Char → Char} {order : GoMap Bytes Bytes → GoMap Bytes Bytes} (ho : ∀ l, (order l).Perm l)
    {j : Json} (hc : Clean j) {m : JsonMessage} (h : JsonMessage.zero.unmarshal lower order j = some m) : Carried m := by
  refine ⟨?_, unmarshal_wf h, unmarshal_named h⟩
  have zero : Texts { JsonMessage.zero with translations := some JsonMessage.zero.tr } :=
    ⟨utf8_nil, utf8_nil, fun k t h => nomatch h⟩
  unfold JsonMessage.unmarshal at h
  cases j with
  | null => cases h; exact texts_set zero other utf8_nil
  | str s => cases h; cases hc; exact texts_set zero other (by assumption)
  | other => cases h
  | obj fields =>
    simp only [Option.map_eq_some_iff] at h
    obtain ⟨mm, hm, rfl⟩ := h
    exact texts_assignAll lower _ _ zero fun k v hk =>
      decodeStrings_utf8 fields [] mm hc (fun _ _ h => nomatch h) hm k v ((ho mm).mem_iff.1 hk)

theorem decodeFile_carried {lower : Char → Char} {order : GoMap Bytes Bytes → GoMap Bytes Bytes} (ho : ∀ l, (order l).Perm l) :
    ∀ (fs : List (Bytes × Json)) (acc file : GoMap Bytes (Option JsonMessage)), Clean (.obj fs) → acc.WF →
    (∀ k s, (k, s) ∈ acc → Utf8 k ∧ ∀ m, s = some m → Carried m) → decodeFile lower order acc fs = some file →
    file.WF ∧ ∀ k s, (k, s) ∈ file → Utf8 k ∧ ∀ m, s = some m → Carried m
  | [], acc, file, _, hw, ha, h => by cases h; exact ⟨hw, ha⟩
  | (x, j) :: fs, acc, file, hc, hw, ha, h => by
    obtain ⟨hx, hj, hcs⟩ : Utf8 x ∧ Clean j ∧ Clean (.obj fs) := by
      cases hc with
      | obj h1 h2 => exact ⟨h1 x j List.mem_cons_self, h2 x j List.mem_cons_self,
          .obj (fun k v hk => h1 k v (List.mem_cons_of_mem _ hk)) (fun k v hk => h2 k v (List.mem_cons_of_mem _ hk))⟩
    rw [decodeFile] at h
    cases hd : decodeEntry lower order j with
    | none => rw [hd] at h; cases h
    | some msg =>
      rw [hd] at h
      refine decodeFile_carried ho fs _ file hcs (hw.set x msg) (fun k s hk => ?_) h
      rcases mem_set hk with hk | hk
      · exact ha k s hk
      · cases hk
        refine ⟨hx, fun m hm => ?_⟩
        subst hm
        unfold decodeEntry at hd
        cases j with
        | null => cases hd
        | str t => simp only [Option.map_eq_some_iff] at hd; obtain ⟨m', h1, e⟩ := hd; cases e; exact unmarshal_carried ho hj h1
        | other => simp only [Option.map_eq_some_iff] at hd; obtain ⟨m', h1, e⟩ := hd; cases e; exact unmarshal_carried ho hj h1
        | obj f => simp only [Option.map_eq_some_iff] at hd; obtain ⟨m', h1, e⟩ := hd; cases e; exact unmarshal_carried ho hj h1

theorem decodeFile_wf {lower : Char → Char} {order : GoMap Bytes Bytes → GoMap Bytes Bytes} :
    ∀ (fs : List (Bytes × Json)) (acc file : GoMap Bytes (Option JsonMessage)),
    (∀ k m, (k, some m) ∈ acc → m.tr.WF) → decodeFile lower order acc fs = some file →
    ∀ k m, (k, some m) ∈ file → m.tr.WF
  | [], acc, file, ha, h => by cases h; exact ha
  | (x, j) :: fs, acc, file, ha, h => by
    rw [decodeFile] at h
    cases hd : decodeEntry lower order j with
    | none => rw [hd] at h; cases h
    | some msg =>
      rw [hd] at h
      refine decodeFile_wf fs _ file (fun k m hk => ?_) h
      rcases mem_set hk with hk | hk
      · exact ha k m hk
      · cases hk
        unfold decodeEntry at hd
        cases j with
        | null => cases hd
        | str t => simp only [Option.map_eq_some_iff] at hd; obtain ⟨m', h1, e⟩ := hd; cases e; exact unmarshal_wf h1
        | other => simp only [Option.map_eq_some_iff] at hd; obtain ⟨m', h1, e⟩ := hd; cases e; exact unmarshal_wf h1
        | obj f => simp only [Option.map_eq_some_iff] at hd; obtain ⟨m', h1, e⟩ := hd; cases e; exact unmarshal_wf h1

/-! ## The messages of a catalog -/

/-- The messages that a catalog reports are those it was built from, prepared. -/
theorem messages_prepared {names : List Int} {lang : Tag} {domain : Bytes} {msgs : GoMap Bytes (Option JsonMessage)}
    (hw : msgs.WF) {c : JsonCatalog} (h : newJSONCatalogWithMessages names lang domain msgs = .ok c) (k : Bytes) :
    c.messages.get? k = preparedFor names (JsonCatalog.new lang domain).categories msgs k := by
  have hb := built_of hw h
  have hok : ∀ key src, (key, src) ∈ msgs →
      ∃ m, prepare names (JsonCatalog.new lang domain).categories key src = .ok m := by
    intro key src hm
    cases he : prepare names (JsonCatalog.new lang domain).categories key src with
    | ok m => exact ⟨m, rfl⟩
    | error e =>
      obtain ⟨e', h'⟩ := setAll_error names msgs _ hm he
      rw [newJSONCatalogWithMessages, h'] at h; cases h
  have hempty : (JsonCatalog.new lang domain).lookupMap = [] := by
    unfold JsonCatalog.new
    cases (Verif.Model.Cldr.forLanguage lang).1 <;> rfl
  obtain ⟨c1, h1, _, _, _, _, h6, h7⟩ := setAll_spec names msgs _ hw hok
  rw [newJSONCatalogWithMessages, h1] at h
  cases h
  refine Option.ext fun m => ?_
  rw [messages_get? hb, h6, hempty]
  cases hp : preparedFor names (JsonCatalog.new lang domain).categories msgs k with
  | none => exact ⟨(fun h => nomatch h), (fun h => nomatch h)⟩
  | some x =>
    simp only []
    by_cases e : x.context = m.context
    · rw [if_pos e]
    · rw [if_neg e]
      constructor
      · intro h; cases h
      · intro h; cases h; exact absurd rfl e

/-- The messages of a catalog that was read can be carried by JSON. -/
theorem read_portable {names : List Int} {lang : Tag} {domain : Bytes} {file : GoMap Bytes (Option JsonMessage)}
    (hw : file.WF) (hc : ∀ k s, (k, s) ∈ file → Utf8 k ∧ ∀ m, s = some m → Carried m) {c : JsonCatalog}
    (h : newJSONCatalogWithMessages names lang domain file = .ok c) (k : Bytes) (m : JsonMessage)
    (hm : c.messages.get? k = some m) : Utf8 k ∧ Portable m := by
  rw [messages_prepared hw h] at hm
  unfold preparedFor at hm
  cases hg : file.get? k with
  | none => rw [hg] at hm; cases hm
  | some src =>
    rw [hg] at hm
    simp only [] at hm
    cases hp : prepare names (JsonCatalog.new lang domain).categories k src with
    | error e => rw [hp] at hm; cases hm
    | ok x =>
      rw [hp] at hm
      cases hm
      obtain ⟨hk, hs⟩ := hc k src (GoMap.mem_of_get? hg)
      refine ⟨hk, ?_⟩
      cases src with
      | none => obtain ⟨s, e, _⟩ := prepare_ok hp; cases e
      | some s =>
        obtain ⟨⟨t1, t2, t3⟩, swf, sn⟩ := hs s rfl
        obtain ⟨_, _, ho, hx⟩ := prepare_iff.1 hp
        have htr : m.tr = applyCategories names (JsonCatalog.new lang domain).categories s.tr := by rw [hx]; rfl
        have hother : (m.tr.get? other).isSome := by
          rw [htr, applyCategories_get?]
          split
          · exact ho
          · split
            · rw [if_pos (new_categories lang domain).1]; rfl
            · exact ho
        refine ⟨?_, by rw [hx]; exact t1, by rw [hx]; exact t2, fun x t ht => ?_, ?_, fun x t ht => ?_, fun _ _ _ => hother⟩
        · rw [htr]
          unfold applyCategories
          split
          · exact swf
          · exact applyLoop_wf _ _ _ swf
        · rw [htr, applyCategories_get?] at ht
          split at ht
          · exact t3 x t ht
          · split at ht
            · split at ht
              · cases ht
                cases hsx : s.tr.get? x with
                | none => exact utf8_nil
                | some t' => exact t3 x t' hsx
              · cases ht
            · exact t3 x t ht
        · intro e; rw [e] at hother; cases hother
        · rw [htr, applyCategories_get?] at ht
          split at ht
          · exact sn x (by rw [ht]; rfl)
          · split at ht
            · split at ht
              · rename_i hx; exact (new_categories lang domain).2 x hx
              · cases ht
            · exact sn x (by rw [ht]; rfl)

/-! ## Writing again -/

/-- Messages that are written alike. -/
def SameMessage (m m' : JsonMessage) : Prop :=
  m.comment = m'.comment ∧ m.context = m'.context ∧ m.tr.Same m'.tr ∧ m.tr.length = m'.tr.length

theorem categoryTexts_same {a b : GoMap Int Bytes} (h : a.Same b) : ∀ cats i, categoryTexts a i cats = categoryTexts b i cats
  | [], _ => rfl
  | c :: cats, i => by
    rw [categoryTexts, categoryTexts, h c, categoryTexts_same h cats i, categoryTexts_same h cats (i + 1)]

theorem text_same {m m' : JsonMessage} (h : SameMessage m m') : m.text = m'.text := by
  obtain ⟨h1, h2, h3, h4⟩ := h
  have hnil : m.tr = [] ↔ m'.tr = [] := by
    rw [← List.length_eq_zero_iff, ← List.length_eq_zero_iff, h4]
  unfold JsonMessage.text
  simp only [h1, h2]
  have hs : ((if m.tr = [] then [(other, [])] else m.tr) : GoMap Int Bytes).Same (if m'.tr = [] then [(other, [])] else m'.tr) := by
    by_cases e : m.tr = []
    · rw [if_pos e, if_pos (hnil.1 e)]; exact GoMap.Same.refl _
    · rw [if_neg e, if_neg (fun x => e (hnil.2 x))]; exact h3
  have hl : ((if m.tr = [] then [(other, [])] else m.tr) : GoMap Int Bytes).length =
      ((if m'.tr = [] then [(other, [])] else m'.tr) : GoMap Int Bytes).length := by
    by_cases e : m.tr = []
    · rw [if_pos e, if_pos (hnil.1 e)]
    · rw [if_neg e, if_neg (fun x => e (hnil.2 x)), h4]
  rw [hl, hs other, categoryTexts_same hs]

theorem memberTexts_same {a b : GoMap Bytes JsonMessage}
    (h : ∀ k, match a.get? k, b.get? k with
      | some m, some m' => SameMessage m m'
      | none, none => True
      | _, _ => False) : ∀ ks i, memberTexts a i ks = memberTexts b i ks
  | [], _ => rfl
  | k :: ks, i => by
    rw [memberTexts, memberTexts, memberTexts_same h ks]
    have := h k
    cases ha : a.get? k <;> cases hb : b.get? k <;> rw [ha, hb] at this
    · exact this.elim
    · exact this.elim
    · simp only [Option.bind_some, text_same this]

theorem encode_same {c c' : JsonCatalog}
    (h : ∀ k, match c.messages.get? k, c'.messages.get? k with
      | some m, some m' => SameMessage m m'
      | none, none => True
      | _, _ => False) : jsonEncode (some c) = jsonEncode (some c') := by
  have hk : c.messages.keys.Perm c'.messages.keys := by
    refine (List.perm_ext_iff_of_nodup (flatten_wf _ _ GoMap.WF.nil) (flatten_wf _ _ GoMap.WF.nil)).2 fun k => ?_
    rw [← GoMap.get?_isSome, ← GoMap.get?_isSome]
    change (c.messages.get? k).isSome ↔ (c'.messages.get? k).isSome
    have := h k
    cases ha : c.messages.get? k <;> cases hb : c'.messages.get? k <;> rw [ha, hb] at this
    · exact this.elim
    · exact this.elim
    · exact ⟨fun _ => rfl, fun _ => rfl⟩
  have ht : c.text = c'.text := by
    show (memberTexts c.messages 0 (sortBy bytesLe c.messages.keys)).map _ =
      (memberTexts c'.messages 0 (sortBy bytesLe c'.messages.keys)).map _
    rw [sortBy_perm_eq bytesLe_order hk, memberTexts_same h]
  unfold jsonEncode
  simp only [ht]

/-- A message that is prepared again after it was written and read is written alike. -/
theorem prepared_same {names names' cats : List Int} (hn : names'.Perm names) {k : Bytes} {m m' : JsonMessage}
    (hw : m.tr.WF) (hw' : m'.tr.WF) (ha : prepare names cats k (some m) = .ok m) (hs : SameMessage m m') :
    ∃ m'', prepare names' cats k (some m') = .ok m'' ∧ SameMessage m m'' := by
  obtain ⟨h0, h1, h2, h3⟩ := hs
  obtain ⟨g1, g2, g3, g4⟩ := prepare_iff.mp ha
  have g5 : m.tr = applyCategories names cats m.tr := congrArg JsonMessage.tr g4
  have hsame : m.tr.Same (applyCategories names' cats m'.tr) := by
    intro x
    rw [g5, applyCategories_get?, applyCategories_get?]
    have hsing : Single m'.tr ↔ Single m.tr := by unfold Single; rw [h3, h2]
    by_cases hs : Single m.tr
    · rw [if_pos hs, if_pos (hsing.mpr hs), h2]
    · rw [if_neg hs, if_neg (fun h => hs (hsing.mp h)), h2 x]
      by_cases hx : x ∈ names
      · rw [if_pos hx, if_pos (hn.mem_iff.mpr hx)]
      · rw [if_neg hx, if_neg (fun h => hx (hn.mem_iff.mp h))]
  have hwf : (applyCategories names' cats m'.tr).WF := by
    unfold applyCategories
    split
    · exact hw'
    · exact applyLoop_wf _ _ _ hw'
  exact ⟨⟨m'.comment, m'.context, some (applyCategories names' cats m'.tr)⟩,
    prepare_iff.mpr ⟨g1, by rw [← h1]; exact g2, by rw [← h2]; exact g3, rfl⟩, h0, h1, hsame,
    (GoMap.perm_of_same hw hwf hsame).length_eq⟩

/-- A file that is accepted can be written, what is written is accepted again and gives the same lookups, and writing
that once more gives the same bytes. -/
theorem C85_save {names names' : List Int} (hn : names'.Perm names) {lower lower' : Char → Char} (hl : KeepsAscii lower')
    {order order' : GoMap Bytes Bytes → GoMap Bytes Bytes} (ho : ∀ l, (order l).Perm l) (ho' : ∀ l, (order' l).Perm l)
    {fileOrder fileOrder' : GoMap Bytes (Option JsonMessage) → GoMap Bytes (Option JsonMessage)}
    (hf : ∀ l, (fileOrder l).Perm l) (hf' : ∀ l, (fileOrder' l).Perm l) {lang : Tag} {domain : Bytes} {data : Bytes}
    {c : JsonCatalog} (h : jsonDecodeText names lower order fileOrder lang domain data = .ok (some c)) :
    ∃ t c', jsonEncode (some c) = some t ∧
      jsonDecodeText names' lower' order' fileOrder' lang domain t = .ok (some c') ∧ Alike c c' ∧
      jsonEncode (some c') = some t := by
  unfold jsonDecodeText at h
  cases hr : readJson data with
  | none => rw [hr] at h; cases h
  | some j =>
  rw [hr] at h
  simp only [] at h
  obtain ⟨fields, file0, rfl, hd, hne0, hset⟩ := decode_setAll h
  obtain ⟨hw0, hc0⟩ := decodeFile_carried ho fields [] file0 (readJson_clean hr) GoMap.WF.nil (fun _ _ h => nomatch h) hd
  have hw : (fileOrder file0).WF := hw0.perm (hf _).symm
  have hc : ∀ k s, (k, s) ∈ fileOrder file0 → Utf8 k ∧ ∀ m, s = some m → Carried m :=
    fun k s hk => hc0 k s ((hf file0).mem_iff.1 hk)
  have hb := built_of hw hset
  have hp := read_portable hw hc hset
  obtain ⟨_, m2, m3, m4⟩ := setAll_meta _ _ _ _ hset
  have hempty : (JsonCatalog.new lang domain).lookupMap = [] := by
    unfold JsonCatalog.new
    cases (Verif.Model.Cldr.forLanguage lang).1 <;> rfl
  have hne : c.messages ≠ [] := by
    intro he
    have hcons : fileOrder file0 ≠ [] := fun e => hne0 (List.Perm.nil_eq (e ▸ (hf file0))).symm
    obtain ⟨⟨k, src⟩, hk⟩ := List.exists_mem_of_ne_nil _ hcons
    have hnone : preparedFor names (JsonCatalog.new lang domain).categories (fileOrder file0) k = none := by
      rw [← messages_prepared hw hset, he]; rfl
    unfold preparedFor at hnone
    rw [GoMap.get?_of_mem hw hk] at hnone
    simp only [] at hnone
    cases hq : prepare names (JsonCatalog.new lang domain).categories k src with
    | ok m => rw [hq] at hnone; cases hnone
    | error e =>
      obtain ⟨e', h'⟩ := setAll_error names _ _ hk hq
      rw [h'] at hset; cases hset
  obtain ⟨members, file, i1, i2, hwf, hfn, i4⟩ := written_file hb hne hp hl ho'
  have hwf' : (fileOrder' file).WF := hwf.perm (hf' _).symm
  have i4' : ∀ k, match c.messages.get? k, (fileOrder' file).get? k with
      | some m, some (some m') => SameMessage m m'
      | none, none => True
      | _, _ => False := fun k => by
    rw [GoMap.same_of_perm hwf' (hf' file) k]; exact i4 k
  obtain ⟨c', r1, r2⟩ := rebuild (names' := names') hn hb (file := fileOrder' file) hwf' (fun k => by
    have := i4' k
    revert this
    cases c.messages.get? k <;> cases (fileOrder' file).get? k with
    | none => exact id
    | some src => cases src <;> first | exact id | exact And.right) hempty m2.symm m3.symm m4.symm
  have hcarried : ∀ k m', (fileOrder' file).get? k = some (some m') → m'.tr.WF := by
    intro k m' hk
    exact decodeFile_wf members [] file (fun _ _ h => nomatch h) i2 k m' ((hf' file).mem_iff.1 (GoMap.mem_of_get? hk))
  have hsame : jsonEncode (some c) = jsonEncode (some c') := by
    refine encode_same fun k => ?_
    rw [messages_prepared hwf' r1]
    unfold preparedFor
    have := i4' k
    cases hm : c.messages.get? k with
    | none =>
      rw [hm] at this
      cases hg : (fileOrder' file).get? k with
      | none => trivial
      | some s => rw [hg] at this; cases s <;> exact this.elim
    | some m =>
      rw [hm] at this
      cases hg : (fileOrder' file).get? k with
      | none => rw [hg] at this; exact this.elim
      | some s =>
        rw [hg] at this
        cases s with
        | none => exact this.elim
        | some m' =>
          obtain ⟨m'', q1, q2⟩ := prepared_same (names' := names') hn (hp k m hm).2.wf (hcarried k m' hg)
            (hb.again _ k m ((messages_get? hb k m).mp hm)) this
          simp only []
          rw [← m3, q1]
          exact q2
  have hwritten := C84_written c
  rw [i1] at hwritten
  simp only [] at hwritten
  obtain ⟨u, hu, _⟩ := hwritten
  obtain ⟨j', e1, _, e3⟩ := C84_read hu
  rw [i1] at e1
  cases e1
  refine ⟨_, c', hu, ?_, r2, ?_⟩
  · unfold jsonDecodeText
    rw [e3]
    unfold jsonDecode JsonCatalog.unmarshal
    simp only []
    rw [i2]
    cases file with
    | nil => exact absurd rfl hfn
    | cons p r => simp only []; rw [r1]; rfl
  · rw [← hsame]; exact hu

/-- A file as an author may write it: other spaces, escapes, capital letters in field names, an unused category. -/
def demoFile : Bytes := b!"{\"b\" :{\"Other\":\"\\u00f6\",\"one\":\"\\/\",\"few\":\"f\"},\n\"a\":\"z\"}"

example : ∃ c, jsonDecodeText categoryNames Verif.Props.PoFile.asciiLower id id [("de", some "de")] b!"d" demoFile = .ok (some c) ∧
    jsonEncode (some c) = some b!"{\n  \"a\": \"z\",\n  \"b\": {\n    \"one\": \"/\",\n    \"other\": \"ö\"\n  }\n}\n" :=
  ⟨_, rfl, by decide +kernel⟩

/-- The first saving may lose texts: those of categories that the language does not use. -/
theorem C85_negation : ∃ (data : Bytes) (c : JsonCatalog),
    jsonDecodeText categoryNames Verif.Props.PoFile.asciiLower id id [("de", some "de")] b!"d" data = .ok (some c) ∧
    readJson data = some (.obj [(b!"b", .obj [(b!"few", .str b!"f"), (b!"other", .str b!"o")])]) ∧
    (jsonEncode (some c)).bind readJson = some (.obj [(b!"b", .obj [(b!"one", .str []), (b!"other", .str b!"o")])]) :=
  ⟨b!"{\"b\":{\"few\":\"f\",\"other\":\"o\"}}", _, rfl, by rfl, by rfl⟩

end Verif.Props.JsonSave
