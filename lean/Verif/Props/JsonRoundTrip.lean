import Verif.Props.JsonExact
import Verif.Props.JsonRefill
import Verif.Props.JsonText
/-!
# C64, C84: exactly which catalogs survive writing and reading
-/
namespace Verif.Props.Json
open Verif.Go Verif.Model.Po Verif.Model.Catalog Verif.Proofs.Catalog Verif.Cldr

/-- A category that lookups in the catalog may ask for: Other, and those of the numbers. -/
def Asked (c : JsonCatalog) (cat : Int) : Prop := cat = other ∨ ∃ n, c.plural n = some cat

/-- A file can carry the catalog: it is not empty, and the keys, contexts and all texts that lookups may ask for are valid UTF-8. -/
def Carried (c : JsonCatalog) : Prop :=
  c.messages ≠ [] ∧ ∀ k m, c.messages.get? k = some m → Utf8 k ∧ Utf8 m.context ∧
    ∀ cat t, m.tr.get? cat = some t → Asked c cat → Utf8 t

theorem categoryFields_ne {tr : GoMap Int Bytes} {cat : Int} (h : (tr.get? cat).isSome) : ∀ {cats : List Int}, cat ∈ cats →
    categoryFields tr cats ≠ []
  | c :: cats, hc => by
    unfold categoryFields
    cases hg : tr.get? c with
    | some t => simp
    | none =>
      rcases List.mem_cons.mp hc with rfl | hc
      · rw [hg] at h; cases h
      · exact categoryFields_ne h hc

theorem marshal_some {m : JsonMessage} (ho : (m.tr.get? other).isSome) : ∃ j, m.marshal = some j := by
  have hne : m.tr ≠ [] := by intro h; rw [h] at ho; cases ho
  unfold JsonMessage.marshal
  simp only [if_neg hne]
  split
  · exact ⟨_, rfl⟩
  · rw [if_neg]
    · exact ⟨_, rfl⟩
    · have := categoryFields_ne ho (cats := [0, 1, 2, 3, 4, 5]) (by decide)
      simp [this]

/-- What is read back from any message that a catalog accepts. -/
theorem message_read {m : JsonMessage} {j : Json} (hj : m.marshal = some j) (ho : (m.tr.get? other).isSome)
    {lower : Char → Char} (hl : KeepsAscii lower) {order : GoMap Bytes Bytes → GoMap Bytes Bytes} (hp : ∀ l, (order l).Perm l) :
    ∃ m', decodeEntry lower order j = some (some m') ∧ m'.context = sanitize m.context ∧ m'.tr.WF ∧
      ∀ cat, m'.tr.get? cat = if cat ∈ categoryNames then (m.tr.get? cat).map sanitize else none := by
  have hne : m.tr ≠ [] := by intro h; rw [h] at ho; cases ho
  by_cases hs : m.comment = [] ∧ m.context = [] ∧ m.tr.length = 1
  · have hm : m.marshal = some (.str (sanitize ((m.tr.get? other).getD []))) := by
      unfold JsonMessage.marshal
      simp only [if_neg hne, if_pos hs]
    rw [hj] at hm
    cases hm
    refine ⟨⟨[], [], some [(other, sanitize ((m.tr.get? other).getD []))]⟩, rfl, ?_,
      List.nodup_cons.mpr ⟨List.not_mem_nil, List.nodup_nil⟩, fun cat => ?_⟩
    · rw [hs.2.1]; exact (sanitize_eq_nil.mpr rfl).symm
    · obtain ⟨⟨k, t⟩, htr⟩ := List.length_eq_one_iff.mp hs.2.2
      have hk : k = other := by
        rw [htr] at ho
        simp only [GoMap.get?] at ho
        split at ho
        · assumption
        · cases ho
      subst hk
      rw [htr]
      by_cases e : other = cat
      · subst e
        rw [if_pos (by decide)]
        simp [JsonMessage.tr, GoMap.get?]
      · simp [JsonMessage.tr, GoMap.get?, e]
  · rcases marshal_written hj with ⟨e1, e2, elen, _⟩ | rfl
    · refine absurd ⟨e1, e2, ?_⟩ hs
      have : m.tr.length ≠ 0 := fun h => hne (List.eq_nil_of_length_eq_zero h)
      omega
    · obtain ⟨m', g0, _, g2, g3⟩ := read_fields (written m) hl hp
      have htr : (written m).tr = m.tr.map fun p => (p.1, sanitize p.2) := by
        show (if m.tr = [] then [(other, [])] else m.tr).map _ = _
        rw [if_neg hne]
      refine ⟨m', by unfold decodeEntry; simp only [g0, Option.map], g2, unmarshal_wf g0, fun cat => ?_⟩
      rw [g3 cat, htr, GoMap.get?_map]

theorem single_iff {tr : GoMap Int Bytes} (h : tr.WF) : Single tr ↔ ∀ x, (tr.get? x).isSome ↔ x = other := by
  constructor
  · rintro ⟨h1, h2⟩ x
    obtain ⟨⟨k, t⟩, rfl⟩ := List.length_eq_one_iff.mp h1
    have hk : k = other := by
      simp only [GoMap.get?] at h2
      split at h2
      · assumption
      · cases h2
    subst hk
    simp only [GoMap.get?]
    by_cases e : other = x
    · simp [e]
    · simpa [e] using fun h : x = other => e h.symm
  · intro hx
    have ho := (hx other).mpr rfl
    refine ⟨?_, ho⟩
    cases tr with
    | nil => cases ho
    | cons p tr =>
      cases tr with
      | nil => rfl
      | cons q tr =>
        have h1 := (hx p.1).mp (GoMap.get?_isSome.mpr (by simp [GoMap.keys]))
        have h2 := (hx q.1).mp (GoMap.get?_isSome.mpr (by simp [GoMap.keys]))
        unfold GoMap.WF at h
        simp [GoMap.keys, h1, h2] at h

/-- A message that is stored once more after it was read has the same texts for the named categories, but for malformed bytes. -/
theorem stored_again {names names' cats : List Int} (hn : names.Perm categoryNames) (hn' : names'.Perm categoryNames)
    {m m' : JsonMessage} (hm : m.tr = applyCategories names cats m.tr) (hw : m'.tr.WF)
    (hg : ∀ cat, m'.tr.get? cat = if cat ∈ categoryNames then (m.tr.get? cat).map sanitize else none) {cat : Int}
    (hc : cat ∈ categoryNames) : (applyCategories names' cats m'.tr).get? cat = (m.tr.get? cat).map sanitize := by
  rw [applyCategories_get?]
  by_cases hs' : Single m'.tr
  · rw [if_pos hs', hg, if_pos hc]
  · rw [if_neg hs', if_pos (hn'.mem_iff.mpr hc), hg, if_pos hc]
    by_cases hs : Single m.tr
    · refine absurd ((single_iff hw).mpr fun x => ?_) hs'
      rw [hg]
      obtain ⟨⟨k, t⟩, htr⟩ := List.length_eq_one_iff.mp hs.1
      have hk : k = other := by
        have h2 := hs.2
        rw [htr] at h2
        simp only [GoMap.get?] at h2
        split at h2
        · assumption
        · cases h2
      subst hk
      rw [htr]
      simp only [GoMap.get?]
      by_cases e : other = x
      · subst e; simp; decide
      · simpa [e] using fun h : x = other => e h.symm
    · have h2 : m.tr.get? cat = if cat ∈ cats then some ((m.tr.get? cat).getD []) else none := by
        conv => lhs; rw [hm]
        rw [applyCategories_get?, if_neg hs, if_pos (hn.mem_iff.mpr hc)]
      by_cases hcc : cat ∈ cats
      · rw [if_pos hcc] at h2 ⊢
        rw [h2]; simp
      · rw [if_neg hcc] at h2 ⊢
        rw [h2]; rfl

theorem plural_named {lang : Tag} {domain : Bytes} {c : JsonCatalog} (hp : c.plural = (JsonCatalog.new lang domain).plural)
    {cat : Int} (h : Asked c cat) : cat ∈ categoryNames := by
  rcases h with rfl | ⟨n, h⟩
  · decide
  · rw [hp] at h
    unfold JsonCatalog.new at h
    cases hr : (Verif.Model.Cldr.forLanguage lang).1 with
    | none => rw [hr] at h; cases h
    | some rs =>
      rw [hr] at h
      simp only [] at h
      cases he : rs.evaluate n.operands with
      | none => rw [he] at h; cases h
      | some k => rw [he] at h; cases h; cases k <;> decide

theorem alike_asked {c d : JsonCatalog} (hd : c.domain = d.domain) (hp : c.plural = d.plural)
    (hctx : ∀ ctx, (c.lookupMap.get? ctx).isSome ↔ (d.lookupMap.get? ctx).isSome)
    (he : ∀ ctx k, match entry c.lookupMap ctx k, entry d.lookupMap ctx k with
      | some m, some m' => ∀ cat, Asked c cat → m.tr.get? cat = m'.tr.get? cat
      | none, none => True
      | _, _ => False) : Alike c d := by
  have key : ∀ ctx id cat, Asked c cat → c.getTranslation ctx id cat = d.getTranslation ctx id cat := by
    intro ctx id cat ha
    unfold JsonCatalog.getTranslation
    simp only [fullKey_eq]
    have h1 := hctx ctx
    have h2 := he ctx (fullKey ctx id)
    unfold entry at h2
    cases hc : c.lookupMap.get? ctx with
    | none =>
      cases hdd : d.lookupMap.get? ctx with
      | none => simp only [hd]
      | some x => rw [hc, hdd] at h1; simp at h1
    | some x =>
      cases hdd : d.lookupMap.get? ctx with
      | none => rw [hc, hdd] at h1; simp at h1
      | some y =>
        rw [hc, hdd] at h2
        simp only at h2 ⊢
        cases hx : x.get? (fullKey ctx id) with
        | none =>
          cases hy : y.get? (fullKey ctx id) with
          | none => simp only [hd]
          | some m' => rw [hx, hy] at h2; exact h2.elim
        | some m =>
          cases hy : y.get? (fullKey ctx id) with
          | none => rw [hx, hy] at h2; exact h2.elim
          | some m' =>
            rw [hx, hy] at h2
            simp only at h2 ⊢
            rw [h2 cat ha, hd]
  constructor
  · intro ctx id; unfold JsonCatalog.lookup; rw [key _ _ _ (.inl rfl)]
  · intro ctx id n
    unfold JsonCatalog.lookupPlural
    rw [← hp]
    cases hn : c.plural n with
    | none => rfl
    | some cat => simp only [key ctx id cat (.inr ⟨n, hn⟩)]

/-- Loading messages that have the texts of the catalog for what lookups ask for gives the same lookups. -/
theorem rebuild_asked {names names' : List Int} {c : JsonCatalog} (hb : Built names c)
    {file : GoMap Bytes (Option JsonMessage)} (hw : file.WF)
    {e : JsonCatalog} (he : e.lookupMap = []) (hd : e.domain = c.domain) (hp : e.plural = c.plural)
    (hok : ∀ key src, (key, src) ∈ file → ∃ m, prepare names' e.categories key src = .ok m)
    (hpf : ∀ k, match c.messages.get? k, preparedFor names' e.categories file k with
      | some m, some m'' => m''.context = m.context ∧ ∀ cat, Asked c cat → m''.tr.get? cat = m.tr.get? cat
      | none, none => True
      | _, _ => False) : ∃ c', e.setAll names' file = .ok c' ∧ Alike c c' := by
  obtain ⟨c', k1, _, k3, _, k5, k6, k7⟩ := setAll_spec names' file e hw hok
  refine ⟨c', k1, ?_⟩
  have hent : ∀ ctx k m, entry c.lookupMap ctx k = some m ↔ c.messages.get? k = some m ∧ m.context = ctx := by
    intro ctx k m
    rw [messages_get? hb]
    constructor
    · intro h
      have := hb.context _ _ _ h
      exact ⟨by rw [this]; exact h, this⟩
    · rintro ⟨h, rfl⟩; exact h
  refine alike_asked (hd.symm.trans k3.symm) (hp.symm.trans k5.symm) (fun ctx => ?_) (fun ctx k => ?_)
  · rw [k7, he]
    constructor
    · intro h
      obtain ⟨k, m, hm⟩ := hb.nonempty ctx h
      obtain ⟨h1, h2⟩ := (hent _ _ _).mp hm
      have := hpf k
      rw [h1] at this
      cases hx : preparedFor names' e.categories file k with
      | none => rw [hx] at this; exact this.elim
      | some m'' => rw [hx] at this; exact Or.inr ⟨k, m'', hx, this.1.trans h2⟩
    · rintro (h | ⟨k, m'', hx, hctx⟩)
      · cases h
      · have := hpf k
        rw [hx] at this
        cases hm : c.messages.get? k with
        | none => rw [hm] at this; exact this.elim
        | some m =>
          rw [hm] at this
          have h := (hent ctx k m).mpr ⟨hm, this.1.symm.trans hctx⟩
          unfold entry at h
          cases hg : c.lookupMap.get? ctx with
          | none => rw [hg] at h; cases h
          | some i => rfl
  · rw [k6, he]
    have := hpf k
    cases hx : preparedFor names' e.categories file k with
    | none =>
      rw [hx] at this
      cases hc : entry c.lookupMap ctx k with
      | none => trivial
      | some m => rw [((hent _ _ _).mp hc).1] at this; exact this.elim
    | some m'' =>
      rw [hx] at this
      simp only []
      cases hm : c.messages.get? k with
      | none => rw [hm] at this; exact this.elim
      | some m =>
        rw [hm] at this
        by_cases ec : m''.context = ctx
        · rw [if_pos ec, (hent ctx k m).mpr ⟨hm, this.1.symm.trans ec⟩]
          exact fun cat ha => (this.2 cat ha).symm
        · rw [if_neg ec]
          cases hc : entry c.lookupMap ctx k with
          | none => trivial
          | some y =>
            obtain ⟨h1, h2⟩ := (hent _ _ _).mp hc
            rw [hm] at h1
            cases h1
            exact absurd (this.1.trans h2) ec

theorem members_read' {lower : Char → Char} (hl : KeepsAscii lower) {order : GoMap Bytes Bytes → GoMap Bytes Bytes}
    (ho : ∀ l, (order l).Perm l) (msgs : GoMap Bytes JsonMessage) :
    ∀ (ks : List Bytes) (acc : GoMap Bytes (Option JsonMessage)), ks.Nodup → (∀ k ∈ ks, k ∉ acc.keys) →
    (∀ k ∈ ks, Utf8 k ∧ ∃ m, msgs.get? k = some m ∧ (m.tr.get? other).isSome) →
    ∃ members, ∃ file : GoMap Bytes (Option JsonMessage), marshalMembers msgs ks = some members ∧
      decodeFile lower order acc members = some (acc ++ file) ∧ file.keys = ks ∧
      ∀ k src, (k, src) ∈ file → ∃ m m', src = some m' ∧ msgs.get? k = some m ∧ m'.context = sanitize m.context ∧ m'.tr.WF ∧
        ∀ cat, m'.tr.get? cat = if cat ∈ categoryNames then (m.tr.get? cat).map sanitize else none
  | [], acc, _, _, _ => ⟨[], [], rfl, by simp [decodeFile], rfl, fun _ _ h => nomatch h⟩
  | k :: ks, acc, hn, hd, hp => by
    obtain ⟨hu, m, hm, hpm⟩ := hp k List.mem_cons_self
    obtain ⟨j, hj⟩ := marshal_some hpm
    obtain ⟨m', hr, h1⟩ := message_read hj hpm hl ho
    have hk : k ∉ acc.keys := hd k List.mem_cons_self
    obtain ⟨members, file, i1, i2, i3, i4⟩ := members_read' hl ho msgs ks (acc ++ [(k, some m')])
      (List.nodup_cons.mp hn).2 (fun x hx => by
        unfold GoMap.keys
        rw [List.map_append, List.mem_append, not_or]
        refine ⟨hd x (List.mem_cons_of_mem _ hx), ?_⟩
        simp only [List.map_cons, List.map_nil, List.mem_singleton]
        rintro rfl
        exact (List.nodup_cons.mp hn).1 hx)
      (fun x hx => hp x (List.mem_cons_of_mem _ hx))
    refine ⟨(k, j) :: members, (k, some m') :: file, ?_, ?_, ?_, ?_⟩
    · unfold marshalMembers
      rw [hm, i1]
      simp only [Option.bind, hj, sanitize_of hu]
    · unfold decodeFile
      rw [hr]
      simp only []
      rw [set_absent hk, i2]
      simp
    · rw [GoMap.keys_cons, i3]
    · intro x src hx
      rcases List.mem_cons.mp hx with hx | hx
      · cases hx
        exact ⟨m, m', rfl, hm, h1⟩
      · exact i4 x src hx

theorem marshalMembers_mem {msgs : GoMap Bytes JsonMessage} : ∀ {ks : List Bytes} {members : List (Bytes × Json)},
    marshalMembers msgs ks = some members → ∀ k j, (k, j) ∈ members →
    ∃ k0 m, k = sanitize k0 ∧ msgs.get? k0 = some m ∧ m.marshal = some j
  | [], _, h, k, j, hm => by cases h; cases hm
  | k0 :: ks, members, h, k, j, hm => by
    unfold marshalMembers at h
    cases h1 : (msgs.get? k0).bind JsonMessage.marshal with
    | none => rw [h1] at h; cases h
    | some j0 =>
      cases h2 : marshalMembers msgs ks with
      | none => rw [h1, h2] at h; cases h
      | some rest =>
        rw [h1, h2] at h
        cases h
        rcases List.mem_cons.mp hm with e | hm
        · cases e
          cases hg : msgs.get? k0 with
          | none => rw [hg] at h1; cases h1
          | some m => rw [hg] at h1; exact ⟨k0, m, rfl, hg, h1⟩
        · exact marshalMembers_mem h2 k j hm

theorem decodeFile_mem {lower : Char → Char} {order : GoMap Bytes Bytes → GoMap Bytes Bytes} :
    ∀ {members : List (Bytes × Json)} {acc file : GoMap Bytes (Option JsonMessage)}, acc.WF →
    decodeFile lower order acc members = some file → file.WF ∧ ∀ k src, file.get? k = some src →
      acc.get? k = some src ∨ ∃ j, (k, j) ∈ members ∧ decodeEntry lower order j = some src
  | [], acc, file, hw, h => by cases h; exact ⟨hw, fun _ _ h => .inl h⟩
  | (k0, j0) :: rest, acc, file, hw, h => by
    unfold decodeFile at h
    cases hd : decodeEntry lower order j0 with
    | none => rw [hd] at h; cases h
    | some msg =>
      rw [hd] at h
      obtain ⟨h1, h2⟩ := decodeFile_mem (hw.set k0 msg) h
      refine ⟨h1, fun k src hk => ?_⟩
      rcases h2 k src hk with h | ⟨j, hj, he⟩
      · rw [GoMap.get?_set] at h
        split at h
        · rename_i e
          cases h
          subst e
          exact .inr ⟨j0, List.mem_cons_self, hd⟩
        · exact .inl h
      · exact .inr ⟨j, List.mem_cons_of_mem _ hj, he⟩

theorem result_inj {id : Bytes} {a b : Except LookupErr Bytes}
    (h : (match a with | .error e => (id, some e) | .ok t => (t, none) : Bytes × Option LookupErr) =
      match b with | .error e => (id, some e) | .ok t => (t, none)) : a = b := by
  cases a <;> cases b <;> simp_all

/-- A catalog with the same lookups has the message, and its texts that are not empty. -/
theorem entry_of_alike {c d : JsonCatalog} (ha : Alike c d) (hp : c.plural = d.plural) {ctx id k : Bytes} (hk : fullKey ctx id = k)
    {m : JsonMessage} (he : entry c.lookupMap ctx k = some m) {cat : Int} (hc : Asked c cat) {t : Bytes} (ht : m.tr.get? cat = some t) :
    ∃ m', entry d.lookupMap ctx k = some m' ∧ (t ≠ [] → m'.tr.get? cat = some t) := by
  have hg : c.getTranslation ctx id cat = d.getTranslation ctx id cat := by
    rcases hc with rfl | ⟨n, hn⟩
    · exact result_inj (ha.1 ctx id)
    · have h := ha.2 ctx id n
      unfold JsonCatalog.lookupPlural at h
      rw [← hp, hn] at h
      exact result_inj h
  unfold JsonCatalog.getTranslation at hg
  simp only [fullKey_eq, hk] at hg
  unfold entry at he ⊢
  cases h1 : c.lookupMap.get? ctx with
  | none => rw [h1] at he; cases he
  | some inner =>
    rw [h1] at he hg
    simp only [] at he hg
    rw [he] at hg
    simp only [] at hg
    rw [ht] at hg
    simp only [] at hg
    cases h2 : d.lookupMap.get? ctx with
    | none => rw [h2] at hg; simp only [] at hg; split at hg <;> cases hg
    | some inner' =>
      rw [h2] at hg
      simp only [] at hg ⊢
      cases h3 : inner'.get? k with
      | none => rw [h3] at hg; simp only [] at hg; split at hg <;> cases hg
      | some m' =>
        rw [h3] at hg
        simp only [] at hg
        refine ⟨m', rfl, fun hne => ?_⟩
        rw [if_neg hne] at hg
        cases h4 : m'.tr.get? cat with
        | none => rw [h4] at hg; cases hg
        | some t' =>
          rw [h4] at hg
          simp only [] at hg
          split at hg <;> cases hg
          rfl

/-- Writing a catalog as JSON and reading it gives a catalog with the same lookups exactly if the catalog is not empty and its keys, its
contexts and the texts that lookups may ask for are valid UTF-8: comments, and texts of other categories, need not be. -/
theorem C64_round_trip_iff {names names' : List Int} (hn : names.Perm categoryNames) (hn' : names'.Perm categoryNames) {lang : Tag}
    {domain : Bytes} {msgs : GoMap Bytes (Option JsonMessage)} (hw : msgs.WF) {c : JsonCatalog}
    (h : newJSONCatalogWithMessages names lang domain msgs = .ok c)
    {lower : Char → Char} (hl : KeepsAscii lower) {order : GoMap Bytes Bytes → GoMap Bytes Bytes} (ho : ∀ l, (order l).Perm l)
    {fileOrder : GoMap Bytes (Option JsonMessage) → GoMap Bytes (Option JsonMessage)} (hf : ∀ l, (fileOrder l).Perm l) :
    (∃ j c', c.marshal = some j ∧ jsonDecode names' lower order fileOrder lang domain j = .ok (some c') ∧ Alike c c') ↔ Carried c := by
  have hb := built_of hw h
  obtain ⟨_, m2, m3, m4⟩ := setAll_meta _ _ _ _ h
  have hempty : (JsonCatalog.new lang domain).lookupMap = [] := by
    unfold JsonCatalog.new
    cases (Verif.Model.Cldr.forLanguage lang).1 <;> rfl
  have hwm : c.messages.WF := flatten_wf _ _ GoMap.WF.nil
  have hperm : (sortBy bytesLe c.messages.keys).Perm c.messages.keys := sortBy_perm _ _
  have hstored : ∀ k m, c.messages.get? k = some m → k ≠ [] ∧ ¬ (m.context ≠ [] ∧ hasSuffix k (b!"_" ++ m.context) = false) ∧
      (m.tr.get? other).isSome = true ∧ m.tr = applyCategories names c.categories m.tr := by
    intro k m hm
    obtain ⟨g1, g2, g3, g4⟩ := prepare_iff.mp (hb.again _ _ _ ((messages_get? hb k m).mp hm))
    exact ⟨g1, g2, g3, congrArg JsonMessage.tr g4⟩
  constructor
  · rintro ⟨j, c', hj, hd, ha⟩
    unfold JsonCatalog.marshal at hj
    change (marshalMembers c.messages (sortBy bytesLe c.messages.keys)).map Json.obj = some j at hj
    cases hm : marshalMembers c.messages (sortBy bytesLe c.messages.keys) with
    | none => rw [hm] at hj; cases hj
    | some members =>
      rw [hm] at hj
      cases hj
      unfold jsonDecode JsonCatalog.unmarshal at hd
      simp only [] at hd
      cases hdf : decodeFile lower order [] members with
      | none => rw [hdf] at hd; cases hd
      | some file =>
        rw [hdf] at hd
        obtain ⟨hwf, hfile⟩ := decodeFile_mem GoMap.WF.nil hdf
        have hset : file ≠ [] ∧ (JsonCatalog.new lang domain).setAll names' (fileOrder file) = .ok c' := by
          cases file with
          | nil => cases hd
          | cons p r =>
            refine ⟨(fun h => nomatch h), ?_⟩
            simp only [] at hd
            cases hx : (JsonCatalog.new lang domain).setAll names' (fileOrder (p :: r)) with
            | error e => rw [hx] at hd; cases hd
            | ok d => rw [hx] at hd; cases hd; rfl
        obtain ⟨hfn, hset⟩ := hset
        refine ⟨fun hnil => ?_, fun k m hk => ?_⟩
        · rw [hnil] at hm
          cases hm
          cases hdf
          exact hfn rfl
        · obtain ⟨_, q2, _, q4⟩ := setAll_meta _ _ _ _ hset
          have hwf' := hwf.perm (hf file).symm
          obtain ⟨c1, r1, _, _, _, _, r6, _⟩ := setAll_spec names' (fileOrder file) _ hwf' (fun key src hx => by
            cases he : prepare names' (JsonCatalog.new lang domain).categories key src with
            | ok m => exact ⟨m, rfl⟩
            | error e =>
              obtain ⟨e', h'⟩ := setAll_error names' _ _ hx he
              rw [h'] at hset; cases hset)
          rw [hset] at r1
          cases r1
          obtain ⟨g1, g2, g3, g4⟩ := hstored k m hk
          obtain ⟨id, hid⟩ := Verif.Props.JsonRefill.full_of_suffix g2
          have hent := (messages_get? hb k m).mp hk
          have key : ∀ cat t, m.tr.get? cat = some t → Asked c cat → Utf8 k ∧ Utf8 m.context ∧ Utf8 t := by
            intro cat t ht hc
            obtain ⟨x, hx, hxt⟩ := entry_of_alike ha (m4.trans q4.symm) hid hent hc ht
            rw [r6, hempty] at hx
            unfold preparedFor at hx
            rw [GoMap.same_of_perm hwf' (hf file) k] at hx
            cases hs : file.get? k with
            | none => rw [hs] at hx; cases hx
            | some src =>
              rw [hs] at hx
              simp only [] at hx
              rcases hfile k src hs with h0 | ⟨j, hj, hje⟩
              · cases h0
              · obtain ⟨k0, m0, rfl, hm0, hmj⟩ := marshalMembers_mem hm k j hj
                obtain ⟨_, _, p3, p4⟩ := hstored k0 m0 hm0
                obtain ⟨m', d1, d2, d3, d4⟩ := message_read hmj p3 hl ho
                rw [hje] at d1
                cases d1
                cases hpr : prepare names' (JsonCatalog.new lang domain).categories (sanitize k0) (some m') with
                | error e => rw [hpr] at hx; cases hx
                | ok y =>
                  rw [hpr] at hx
                  simp only [Except.toOption] at hx
                  obtain ⟨_, _, _, rfl⟩ := prepare_iff.mp hpr
                  split at hx
                  · rename_i ec
                    cases hx
                    refine ⟨sanitize_utf8 _, ?_, ?_⟩
                    · rw [← ec, show JsonMessage.context { m' with translations := _ } = m'.context from rfl, d2]
                      exact sanitize_utf8 _
                    · by_cases e : t = []
                      · rw [e]; exact ⟨[], rfl⟩
                      · have h1 := hxt e
                        change (applyCategories names' (JsonCatalog.new lang domain).categories m'.tr).get? cat = some t at h1
                        rw [← m3, stored_again hn hn' p4 d3 d4 (plural_named m4 hc)] at h1
                        cases hz : m0.tr.get? cat with
                        | none => rw [hz] at h1; cases h1
                        | some z => rw [hz] at h1; cases h1; exact sanitize_utf8 _
                  · cases hx
          cases ht : m.tr.get? other with
          | none => rw [ht] at g3; cases g3
          | some t =>
            obtain ⟨u1, u2, _⟩ := key _ _ ht (.inl rfl)
            exact ⟨u1, u2, fun cat t h1 h2 => (key cat t h1 h2).2.2⟩
  · rintro ⟨hne, hu⟩
    obtain ⟨members, file, i1, i2, i3, i4⟩ := members_read' hl ho c.messages (sortBy bytesLe c.messages.keys) []
      (hperm.nodup_iff.mpr hwm) (fun _ _ h => nomatch h) (fun k hk => by
        have hs := GoMap.get?_isSome.mpr (hperm.mem_iff.mp hk)
        cases hg : c.messages.get? k with
        | none => rw [hg] at hs; cases hs
        | some m => exact ⟨(hu k m hg).1, m, rfl, (hstored k m hg).2.2.1⟩)
    have hwf : file.WF := by unfold GoMap.WF; rw [i3]; exact hperm.nodup_iff.mpr hwm
    have hwf' := hwf.perm (hf file).symm
    have hprep : ∀ k src, (k, src) ∈ file → ∃ m m'', c.messages.get? k = some m ∧
        prepare names' (JsonCatalog.new lang domain).categories k src = .ok m'' ∧ m''.context = m.context ∧
        ∀ cat, Asked c cat → m''.tr.get? cat = m.tr.get? cat := by
      intro k src hk
      obtain ⟨m, m', rfl, hm, d2, d3, d4⟩ := i4 k src hk
      obtain ⟨g1, g2, g3, g4⟩ := hstored k m hm
      obtain ⟨u1, u2, u3⟩ := hu k m hm
      rw [sanitize_of u2] at d2
      refine ⟨m, _, hm, prepare_iff.mpr ⟨g1, by rw [d2]; exact g2, ?_, rfl⟩, d2, fun cat hc => ?_⟩
      · rw [d4, if_pos (by decide)]; simpa using g3
      · change (applyCategories names' (JsonCatalog.new lang domain).categories m'.tr).get? cat = _
        rw [← m3, stored_again hn hn' g4 d3 d4 (plural_named m4 hc)]
        cases ht : m.tr.get? cat with
        | none => rfl
        | some t => simp only [Option.map, sanitize_of (u3 cat t ht hc)]
    obtain ⟨c', r1, r2⟩ := rebuild_asked (names' := names') hb hwf' hempty m2.symm m4.symm
      (fun key src hx => by
        obtain ⟨_, m'', _, h, _⟩ := hprep key src ((hf file).mem_iff.mp hx)
        exact ⟨m'', h⟩)
      (fun k => by
        unfold preparedFor
        rw [GoMap.same_of_perm hwf' (hf file) k]
        cases hs : file.get? k with
        | none =>
          have : k ∉ c.messages.keys := by
            rw [← hperm.mem_iff, ← i3]; exact GoMap.get?_eq_none.mp hs
          rw [GoMap.get?_eq_none.mpr this]; trivial
        | some src =>
          obtain ⟨m, m'', hm, hx, h1⟩ := hprep k src (GoMap.mem_of_get? hs)
          rw [hm]
          simp only [hx, Except.toOption]
          exact h1)
    refine ⟨.obj members, c', ?_, ?_, r2⟩
    · unfold JsonCatalog.marshal
      show (marshalMembers c.messages (sortBy bytesLe c.messages.keys)).map Json.obj = _
      rw [i1]; rfl
    · unfold jsonDecode JsonCatalog.unmarshal
      simp only []
      rw [i2]
      cases hfe : file with
      | nil =>
        rw [hfe] at i3
        have : c.messages.keys = [] := List.Perm.eq_nil (by rw [← i3] at hperm; exact hperm.symm)
        cases hc : c.messages with
        | nil => exact absurd hc hne
        | cons p r => rw [hc] at this; cases this
      | cons p r =>
        rw [hfe] at r1
        simp only [List.nil_append]
        rw [r1]; rfl

/-- The same for the text of a file: what `JSONEncoder` writes is read by `JSONDecoder` as a catalog with the same lookups exactly for
these catalogs. -/
theorem C84_round_trip_iff {names names' : List Int} (hn : names.Perm categoryNames) (hn' : names'.Perm categoryNames) {lang : Tag}
    {domain : Bytes} {msgs : GoMap Bytes (Option JsonMessage)} (hw : msgs.WF) {c : JsonCatalog}
    (h : newJSONCatalogWithMessages names lang domain msgs = .ok c)
    {lower : Char → Char} (hl : KeepsAscii lower) {order : GoMap Bytes Bytes → GoMap Bytes Bytes} (ho : ∀ l, (order l).Perm l)
    {fileOrder : GoMap Bytes (Option JsonMessage) → GoMap Bytes (Option JsonMessage)} (hf : ∀ l, (fileOrder l).Perm l) :
    (∃ t c', jsonEncode (some c) = some t ∧ jsonDecodeText names' lower order fileOrder lang domain t = .ok (some c') ∧ Alike c c') ↔
      Carried c := by
  rw [← C64_round_trip_iff hn hn' hw h hl ho hf]
  constructor
  · rintro ⟨t, c', e, h2, h3⟩
    obtain ⟨j, e1, _, e3⟩ := Verif.Props.JsonText.C84_read e
    unfold jsonDecodeText at h2
    rw [e3] at h2
    exact ⟨j, c', e1, h2, h3⟩
  · rintro ⟨j, c', h1, h2, h3⟩
    have := Verif.Props.JsonText.C84_written c
    rw [h1] at this
    simp only [] at this
    obtain ⟨u, e, _⟩ := this
    obtain ⟨j', e1, _, e3⟩ := Verif.Props.JsonText.C84_read e
    rw [h1] at e1
    cases e1
    exact ⟨_, c', e, by unfold jsonDecodeText; rw [e3]; exact h2, h3⟩

/-- A comment that is no valid UTF-8 does not matter; a key that is none does. -/
example : ∃ c, newJSONCatalogWithMessages categoryNames [("de", some "de")] b!"d"
      [(b!"x_menu", some ⟨[0xFF], b!"menu", some [(1, b!"a"), (5, b!"ö")]⟩)] = .ok c ∧ Carried c := by
  refine ⟨_, rfl, (fun h => nomatch h), fun k m h => ?_⟩
  have hm := GoMap.mem_of_get? h
  rcases List.mem_singleton.mp hm with e
  cases e
  refine ⟨⟨c!"x_menu", by decide⟩, ⟨c!"menu", by decide⟩, fun cat t ht _ => ?_⟩
  have hm : (cat, t) ∈ [((1 : Int), b!"a"), (5, b!"ö")] := GoMap.mem_of_get? ht
  simp only [List.mem_cons, Prod.mk.injEq, List.not_mem_nil, or_false] at hm
  rcases hm with ⟨_, rfl⟩ | ⟨_, rfl⟩
  · exact ⟨c!"a", by decide⟩
  · exact ⟨c!"ö", by decide⟩

example : ∃ c, newJSONCatalogWithMessages categoryNames [("de", some "de")] b!"d" [([0xFF], some ⟨[], [], some [(5, b!"a")]⟩)] = .ok c ∧
    ¬ Carried c := by
  refine ⟨_, rfl, fun h => ?_⟩
  have h1 := sanitize_of (h.2 [0xFF] _ rfl).1
  revert h1
  decide

end Verif.Props.Json
