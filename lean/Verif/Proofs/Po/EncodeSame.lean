import Verif.Proofs.Po.EncodeOrder
/-! Helper lemmas for writing PO files: the result does not depend on the order of the maps. -/
namespace Verif.Proofs.Po
open Verif.Go Verif.Model.PoString Verif.Spec.PoFile Verif.Spec.PoSort
open Verif.Model.Po hiding Field

/-! ## Messages -/

theorem perm_of_sameMap {κ α : Type} [DecidableEq κ] {m n : GoMap κ α} (hm : m.WF) (hn : n.WF) (h : m.Same n) : m.Perm n :=
  (List.perm_ext_iff_of_nodup hm.nodup hn.nodup).2 fun p => by
    rw [show p = (p.1, p.2) from rfl, GoMap.mem_iff hm, GoMap.mem_iff hn, h]

/-- The text of a translation. -/
def encOf (w : Int) (v : Bytes) : Bytes := match encodePoString v w with | .ok t => t | .error _ => []

open Classical in
theorem encodeAll_eq (w : Int) (m : GoMap Int Bytes) :
    encodeAll w m = if ∀ p ∈ m, ∃ t, encodePoString p.2 w = .ok t then .ok (m.map fun p => (p.1, encOf w p.2))
      else .error .indexOutOfRange := by
  induction m with
  | nil => simp [encodeAll]
  | cons p m ih =>
    obtain ⟨k, v⟩ := p
    unfold encodeAll
    rcases encodePoString_cases v w with ⟨css, he, _⟩ | ⟨_, he⟩
    · rw [he]
      simp only
      rw [ih]
      by_cases hall : ∀ p ∈ m, ∃ t, encodePoString p.2 w = .ok t
      · rw [if_pos hall, if_pos (by
          intro p hp
          rcases List.mem_cons.1 hp with rfl | hp
          · exact ⟨_, he⟩
          · exact hall p hp)]
        simp [encOf, he]
      · rw [if_neg hall, if_neg (fun h => hall fun p hp => h p (List.mem_cons_of_mem _ hp))]
    · rw [he]
      simp only
      rw [if_neg]
      intro h
      obtain ⟨t, ht⟩ := h (k, v) List.mem_cons_self
      simp only at ht
      rw [he] at ht
      cases ht

theorem intLe_order : TotalOrder intLe :=
  ⟨fun a b c h1 h2 => by simp only [intLe, decide_eq_true_eq] at *; omega,
   fun a b => by simp only [intLe, decide_eq_true_eq]; omega,
   fun a b h1 h2 => by simp only [intLe, decide_eq_true_eq] at *; omega⟩

theorem flatMap_congr' {α β : Type} {l : List α} {f g : α → List β} (h : ∀ a ∈ l, f a = g a) : l.flatMap f = l.flatMap g := by
  induction l with
  | nil => rfl
  | cons a l ih =>
    rw [List.flatMap_cons, List.flatMap_cons, h a List.mem_cons_self, ih fun b hb => h b (List.mem_cons_of_mem _ hb)]

/-- The lines of the translations. -/
theorem translations_same {m n : GoMap Int Bytes} (hm : m.WF) (hn : n.WF) (h : m.Same n) :
    ((sortBy intLe m.keys).flatMap fun k => b!"msgstr[" ++ itoa k ++ b!"] " ++ (m.get? k).getD [] ++ b!"\n") =
    ((sortBy intLe n.keys).flatMap fun k => b!"msgstr[" ++ itoa k ++ b!"] " ++ (n.get? k).getD [] ++ b!"\n") := by
  have hk : m.keys.Perm n.keys := (perm_of_sameMap hm hn h).map Prod.fst
  rw [sortBy_perm_eq intLe_order hk]
  refine flatMap_congr' fun k _ => ?_
  rw [h k]

open Classical in
theorem encodeTranslations_same (enc : Encoder) (plural : Bool) {m n : GoMap Int Bytes} (hm : m.WF) (hn : n.WF) (h : m.Same n) :
    enc.encodeTranslations plural m = enc.encodeTranslations plural n := by
  have hp := perm_of_sameMap hm hn h
  unfold Encoder.encodeTranslations
  rw [encodeAll_eq, encodeAll_eq]
  by_cases hall : ∀ p ∈ m, ∃ t, encodePoString p.2 enc.wrapWidth = .ok t
  · rw [if_pos hall, if_pos fun p hp' => hall p (hp.mem_iff.2 hp')]
    simp only
    generalize hm1 : (m.map fun p => (p.1, encOf enc.wrapWidth p.2) : GoMap Int Bytes) = m1
    generalize hn1 : (n.map fun p => (p.1, encOf enc.wrapWidth p.2) : GoMap Int Bytes) = n1
    have wm : GoMap.WF m1 := by rw [← hm1]; unfold GoMap.WF; rw [GoMap.keys_map]; exact hm
    have wn : GoMap.WF n1 := by rw [← hn1]; unfold GoMap.WF; rw [GoMap.keys_map]; exact hn
    have hs : GoMap.Same m1 n1 := by
      intro k
      rw [← hm1, ← hn1, GoMap.get?_map, GoMap.get?_map, h k]
    have hp1 := perm_of_sameMap wm wn hs
    clear hm1 hn1
    have key : ∀ {a b : GoMap Int Bytes}, a.WF → b.WF → a.Same b →
        (if plural then
          Except.ok ((sortBy intLe (GoMap.keys (if a.length = 1 then a.set 1 b!"\"\"" else a))).flatMap fun k =>
            b!"msgstr[" ++ itoa k ++ b!"] " ++ (GoMap.get? (if a.length = 1 then a.set 1 b!"\"\"" else a) k).getD [] ++ b!"\n")
        else (.ok (b!"msgstr " ++ (a.get? 0).getD [] ++ b!"\n") : Run Bytes)) =
        (if plural then
          Except.ok ((sortBy intLe (GoMap.keys (if b.length = 1 then b.set 1 b!"\"\"" else b))).flatMap fun k =>
            b!"msgstr[" ++ itoa k ++ b!"] " ++ (GoMap.get? (if b.length = 1 then b.set 1 b!"\"\"" else b) k).getD [] ++ b!"\n")
        else (.ok (b!"msgstr " ++ (b.get? 0).getD [] ++ b!"\n") : Run Bytes)) := by
      intro a b wa wb hab
      have hl := (perm_of_sameMap wa wb hab).length_eq
      rw [hab 0, hl]
      congr 2
      by_cases h1 : b.length = 1
      · rw [if_pos h1, if_pos h1]
        exact translations_same (wa.set _ _) (wb.set _ _) fun k => by rw [GoMap.get?_set, GoMap.get?_set, hab k]
      · rw [if_neg h1, if_neg h1]
        exact translations_same wa wb hab
    by_cases he : m1 = []
    · have : n1 = [] := by rw [he] at hp1; exact hp1.symm.eq_nil
      rw [he, this]
    · have : n1 ≠ [] := fun e => he (by rw [e] at hp1; exact hp1.eq_nil)
      rw [if_neg he, if_neg this]
      exact key wm wn hs
  · rw [if_neg hall, if_neg fun hh => hall fun p hp' => hh p (hp.mem_iff.1 hp')]

theorem encodeMessage_same (enc : Encoder) {m m' : Message} (h : SameMessage m m') : enc.encodeMessage m = enc.encodeMessage m' := by
  obtain ⟨h1, h2, h3, h4, h5, h6, h7⟩ := h
  have hl := (perm_of_sameMap h5 h6 h7).length_eq
  have hp : m'.hasPlural = m.hasPlural := by unfold Message.hasPlural; rw [h4, hl]
  unfold Encoder.encodeMessage
  rw [h1, h2, h3, hp, h4, encodeTranslations_same enc _ h5 h6 h7]

theorem encodeMessages_same (enc : Encoder) {ms ms' : List Message} (h : List.Forall₂ SameMessage ms ms') :
    enc.encodeMessages ms = enc.encodeMessages ms' := by
  induction h with
  | nil => rfl
  | @cons m m' l l' hm hl ih =>
    cases hl with
    | nil => exact encodeMessage_same enc hm
    | @cons x y l l' hx hl =>
      unfold Encoder.encodeMessages
      rw [encodeMessage_same enc hm, ih]

/-! ## Headers -/

theorem short_same {κ α : Type} [DecidableEq κ] {m n : GoMap κ α} (hm : m.WF) (hn : n.WF) (h : m.Same n) (hl : m.length ≤ 1) : m = n := by
  have hp := perm_of_sameMap hm hn h
  match m, n, hl, hp with
  | [], n, _, hp => exact hp.symm.eq_nil.symm
  | [a], n, _, hp => exact (List.perm_singleton.1 hp.symm).symm

theorem header_eq {h h' : Header} (hs : SameHeader h h') (hl : h.unknownFields.length ≤ 1) : h = h' := by
  have hu := short_same hs.unknown.1 hs.unknown.2.1 hs.unknown.2.2 hl
  have hc := hs.comment
  have hf := hs.fields
  cases h; cases h'
  simp only [Header.mk.injEq]
  exact ⟨hc.symm, (hf .projectIDVersion).symm, (hf .reportMsgidBugsTo).symm, (hf .potCreationDate).symm,
    (hf .poRevisionDate).symm, (hf .lastTranslator).symm, (hf .languageTeam).symm, (hf .language).symm, (hf .mimeVersion).symm,
    (hf .contentType).symm, (hf .contentTransferEncoding).symm, (hf .pluralForms).symm, (hf .xGenerator).symm, hu⟩

/-! ## The order of the messages -/

theorem sameMessage_key {m m' : Message} (h : SameMessage m m') : keyOf m' = keyOf m := by rw [keyOf, keyOf, h.context, h.id]

/-- The messages of the two files correspond. -/
theorem all_same {f g : File} (h : SameFile f g) : ∃ l : List Message, l.Perm f.messages.all ∧ List.Forall₂ SameMessage l g.messages.all := by
  classical
  obtain ⟨⟨kf, kg⟩, _, hm⟩ := h
  have hex : ∀ m' ∈ g.messages.all, ∃ m ∈ f.messages.all, SameMessage m m' := by
    intro m' hm'
    have := hm m'.context m'.id
    rw [(mem_all kg).1 hm'] at this
    cases hg : f.getMessage m'.context m'.id with
    | none => rw [hg] at this; cases this
    | some m =>
      rw [hg] at this
      cases this with
      | some hs => exact ⟨m, ((mem_all_key kf).1 hg).1, hs⟩
  let pick : Message → Message := fun m' => if hm' : m' ∈ g.messages.all then Classical.choose (hex m' hm') else m'
  have hpick : ∀ m' ∈ g.messages.all, pick m' ∈ f.messages.all ∧ SameMessage (pick m') m' := by
    intro m' hm'
    have := Classical.choose_spec (hex m' hm')
    simp only [pick, dif_pos hm']
    exact this
  have hkey : (g.messages.all.map pick).map keyOf = g.messages.all.map keyOf := by
    rw [List.map_map]
    exact List.map_congr_left fun m' hm' => (sameMessage_key (hpick m' hm').2).symm
  have hnd : (g.messages.all.map pick).Nodup :=
    (List.pairwise_map.1 (show ((g.messages.all.map pick).map keyOf).Nodup by rw [hkey]; exact nodup_keys kg)).imp fun h e => h (congrArg keyOf e)
  refine ⟨g.messages.all.map pick, (List.perm_ext_iff_of_nodup hnd (nodup_all kf)).2 fun m => ?_, ?_⟩
  · constructor
    · intro h
      obtain ⟨m', hm', rfl⟩ := List.mem_map.1 h
      exact (hpick m' hm').1
    · intro h
      have := hm m.context m.id
      rw [(mem_all kf).1 h] at this
      cases hg : g.getMessage m.context m.id with
      | none => rw [hg] at this; cases this
      | some m' =>
        have hm' := ((mem_all_key kg).1 hg).1
        have hk := ((mem_all_key kg).1 hg).2
        refine List.mem_map.2 ⟨m', hm', ?_⟩
        have h1 := (mem_all kf).1 (hpick m' hm').1
        have h2 := (mem_all kf).1 h
        have hk2 := sameMessage_key (hpick m' hm').2
        rw [hk] at hk2
        have e1 : m.context = (pick m').context := congrArg Prod.fst hk2
        have e2 : m.id = (pick m').id := congrArg Prod.snd hk2
        rw [← e1, ← e2, h2] at h1
        exact (Option.some.inj h1).symm
  · generalize g.messages.all = l at hpick
    clear hkey hnd
    clear_value pick
    clear hex
    induction l with
    | nil => exact .nil
    | cons a l ih => exact .cons (hpick a List.mem_cons_self).2 (ih fun m hm => hpick m (List.mem_cons_of_mem _ hm))

theorem sort_same_of {sort sort' : Sorter} (hs : Sorts sort) (hs' : Sorts sort') {cmp : Compare} {N : Message → Message} {ms ms' l : List Message}
    (hp : l.Perm ms) (hf : List.Forall₂ SameMessage l ms') (hn : Normalises cmp N ms) (hn' : Normalises cmp N ms')
    (ho : StrictOn cmp (ms.map N)) (ho' : StrictOn cmp (ms'.map N))
    (hN : ∀ m m', SameMessage m m' → SameMessage (N m) (N m'))
    (hc : ∀ a a' b b', SameMessage a a' → SameMessage b b' → (cmp a b).1 = (cmp a' b').1) :
    List.Forall₂ SameMessage (sort cmp ms) (sort' cmp ms') := by
  have hlen : ms.length = ms'.length := by rw [← hp.length_eq, hf.length_eq]
  by_cases h2 : 2 ≤ ms.length
  · obtain ⟨p1, s1⟩ := hs.sorted cmp N ms h2 hn ho
    obtain ⟨p2, s2⟩ := hs'.sorted cmp N ms' (hlen ▸ h2) hn' ho'
    have hfN : List.Forall₂ SameMessage (l.map N) (ms'.map N) := by
      clear hp hlen hn' ho' p2 s2
      induction hf with
      | nil => exact .nil
      | cons h _ ih => exact .cons (hN _ _ h) ih
    obtain ⟨t, pt, ft⟩ := perm_forall₂ hfN p2
    have st : t.Pairwise fun a b => ¬ (cmp b a).1 < 0 := by
      revert s2 ft
      generalize sort' cmp ms' = t'
      intro s2 ft
      clear p2 pt
      induction ft with
      | nil => exact .nil
      | @cons a a' t t' ha ht ih =>
        obtain ⟨h1, h2⟩ := List.pairwise_cons.1 s2
        refine List.pairwise_cons.2 ⟨fun b hb => ?_, ih h2⟩
        have : ∃ b' ∈ t', SameMessage b b' := by
          clear ih h1 h2 s2
          induction ht with
          | nil => cases hb
          | cons hx _ ih =>
            rcases List.mem_cons.1 hb with rfl | hb
            · exact ⟨_, List.mem_cons_self, hx⟩
            · obtain ⟨b', hb', hh⟩ := ih hb
              exact ⟨b', List.mem_cons_of_mem _ hb', hh⟩
        obtain ⟨b', hb', hh⟩ := this
        rw [hc _ _ _ _ hh ha]
        exact h1 b' hb'
    have ptm : t.Perm (ms.map N) := pt.trans (hp.map N)
    have : t = sort cmp ms := by
      refine List.Perm.eq_of_pairwise (le := fun a b => ¬ (cmp b a).1 < 0) ?_ st s1 (ptm.trans p1.symm)
      intro a b ha hb h1 h2
      rcases ho.total a (ptm.mem_iff.1 ha) b (p1.mem_iff.1 hb) with h | h | h
      · exact h
      · exact absurd h h2
      · exact absurd h h1
    rw [← this]
    exact ft
  · have h1 : ms.length ≤ 1 := by omega
    rw [hs.short cmp ms h1, hs'.short cmp ms' (hlen ▸ h1)]
    have : l = ms := by
      match ms, h1, hp with
      | [], _, hp => exact hp.eq_nil
      | [a], _, hp => exact List.perm_singleton.1 hp
    rw [← this]
    exact hf

/-! ## `defaultSort` -/

/-- A message as it is after a comparison with `defaultSort`. -/
def tidy (m : Message) : Message := { m with comment := m.comment.map Comment.sort }

theorem sort_sort (c : Comment) : c.sort.sort = c.sort := by
  unfold Comment.sort Comment.sortFlags Comment.sortReferences
  simp only
  rw [sortBy_of_sorted bytesLe_order (sortBy_sorted bytesLe_order _),
    sortBy_of_sorted Reference.le_order (sortBy_sorted Reference.le_order _)]

theorem tidy_tidy (m : Message) : tidy (tidy m) = tidy m := by
  unfold tidy
  simp only [Message.mk.injEq, and_self, and_true]
  cases m.comment with
  | none => rfl
  | some c => simp [sort_sort]

theorem tidy_same {m m' : Message} (h : SameMessage m m') : SameMessage (tidy m) (tidy m') :=
  ⟨by simp only [tidy, h.comment], h.context, h.id, h.idPlural, h.str⟩

theorem defaultSort_same {a a' b b' : Message} (ha : SameMessage a a') (hb : SameMessage b b') :
    (defaultSort a b).1 = (defaultSort a' b').1 := by
  have hk : compareKeys a b = compareKeys a' b' := by unfold compareKeys; rw [ha.context, hb.context, ha.id, hb.id]
  unfold defaultSort
  rw [ha.comment, hb.comment, hk]
  cases a.comment <;> cases b.comment <;> rfl

theorem defaultSort_before (a b : Message) : (defaultSort a b).1 = (defaultSort (tidy a) (tidy b)).1 := by
  have hk : compareKeys a b = compareKeys (tidy a) (tidy b) := rfl
  unfold defaultSort
  rw [hk]
  unfold tidy
  cases a.comment <;> cases b.comment <;> simp [sort_sort]

theorem defaultSort_normalises {ms : List Message}
    (h : (∀ m ∈ ms, m.comment ≠ none) ∨ ∀ m ∈ ms, tidy m = m) : Normalises defaultSort tidy ms := by
  refine ⟨tidy_tidy, fun a ha b hb => ?_, fun a _ b _ => defaultSort_before a b⟩
  rcases h with h | h
  · have hc : ∀ m ∈ ms ++ ms.map tidy, m.comment ≠ none := by
      intro m hm
      rcases List.mem_append.1 hm with hm | hm
      · exact h m hm
      · obtain ⟨m0, hm0, rfl⟩ := List.mem_map.1 hm
        have := h m0 hm0
        unfold tidy
        simpa using this
    have h1 := hc a ha
    have h2 := hc b hb
    unfold defaultSort tidy
    cases e1 : a.comment with
    | none => exact absurd e1 h1
    | some c1 => cases e2 : b.comment with
      | none => exact absurd e2 h2
      | some c2 => rfl
  · have hc : ∀ m ∈ ms ++ ms.map tidy, tidy m = m := by
      intro m hm
      rcases List.mem_append.1 hm with hm | hm
      · exact h m hm
      · obtain ⟨m0, hm0, rfl⟩ := List.mem_map.1 hm
        exact tidy_tidy m0
    have h1 := hc a ha
    have h2 := hc b hb
    unfold defaultSort
    split
    · rename_i ca cb ea eb
      simp only
      unfold tidy
      rw [ea, eb]
      rfl
    · rw [h1, h2]

/-! ### Messages without references -/

theorem compareStrings_zero {a b : Bytes} : compareStrings a b = 0 ↔ a = b := by
  unfold compareStrings
  split
  · simp [*]
  · rename_i h
    split <;> simp [h]

theorem compareStrings_neg {a b : Bytes} : compareStrings a b < 0 ↔ a ≠ b ∧ bytesLe a b = true := by
  unfold compareStrings
  split
  · simp [*]
  · rename_i h
    split <;> simp [*]

theorem compareKeys_neg {a b : Message} : compareKeys a b < 0 ↔
    (a.context ≠ b.context ∧ bytesLe a.context b.context = true) ∨
    (a.context = b.context ∧ a.id ≠ b.id ∧ bytesLe a.id b.id = true) := by
  unfold compareKeys
  by_cases h : a.context = b.context
  · rw [if_neg (by rw [not_not, compareStrings_zero]; exact h), compareStrings_neg]
    simp [h]
  · rw [if_pos (by rw [Ne, compareStrings_zero]; exact h), compareStrings_neg]
    simp [h]

theorem compareKeys_total (a b : Message) : keyOf a = keyOf b ∨ compareKeys a b < 0 ∨ compareKeys b a < 0 := by
  rw [compareKeys_neg, compareKeys_neg]
  by_cases h : a.context = b.context
  · by_cases h' : a.id = b.id
    · left; rw [keyOf, keyOf, h, h']
    · right
      rcases bytesLe_total a.id b.id with h2 | h2
      · exact .inl (.inr ⟨h, h', h2⟩)
      · exact .inr (.inr ⟨h.symm, fun e => h' e.symm, h2⟩)
  · right
    rcases bytesLe_total a.context b.context with h2 | h2
    · exact .inl (.inl ⟨h, h2⟩)
    · exact .inr (.inl ⟨fun e => h e.symm, h2⟩)

theorem bytes_lt_trans {a b c : Bytes} (h1 : a ≠ b ∧ bytesLe a b = true) (h2 : b ≠ c ∧ bytesLe b c = true) :
    a ≠ c ∧ bytesLe a c = true := by
  refine ⟨?_, bytesLe_trans _ _ _ h1.2 h2.2⟩
  rintro rfl
  exact h1.1 (bytesLe_antisymm _ _ h1.2 h2.2)

theorem compareKeys_trans {a b c : Message} (h1 : compareKeys a b < 0) (h2 : compareKeys b c < 0) : compareKeys a c < 0 := by
  rw [compareKeys_neg] at *
  rcases h1 with h1 | ⟨h1, h1'⟩ <;> rcases h2 with h2 | ⟨h2, h2'⟩
  · exact .inl (bytes_lt_trans h1 h2)
  · rw [← h2]; exact .inl h1
  · rw [h1]; exact .inl h2
  · exact .inr ⟨h1.trans h2, bytes_lt_trans h1' h2'⟩

theorem compareKeys_irrefl (a : Message) : ¬ compareKeys a a < 0 := by
  rw [compareKeys_neg]; simp

theorem tidy_key (m : Message) : keyOf (tidy m) = keyOf m := rfl

theorem inj_of_keys {ms : List Message} (h : (ms.map keyOf).Nodup) {a b : Message} (ha : a ∈ ms) (hb : b ∈ ms) (he : keyOf a = keyOf b) : a = b := by
  induction ms with
  | nil => cases ha
  | cons x ms ih =>
    rw [List.map_cons, List.nodup_cons] at h
    rcases List.mem_cons.1 ha with rfl | ha' <;> rcases List.mem_cons.1 hb with rfl | hb'
    · rfl
    · exact absurd (he ▸ List.mem_map.2 ⟨b, hb', rfl⟩) h.1
    · exact absurd (he ▸ List.mem_map.2 ⟨a, ha', rfl⟩) h.1
    · exact ih h.2 ha' hb'

theorem strict_keys {ms : List Message} (hk : (ms.map keyOf).Nodup)
    (h : ∀ a ∈ ms, ∀ b ∈ ms, (defaultSort (tidy a) (tidy b)).1 = compareKeys a b) : StrictOn defaultSort (ms.map tidy) := by
  refine ⟨?_, ?_, ?_⟩
  · intro _ ha' _ hb'
    obtain ⟨a, ha, rfl⟩ := List.mem_map.1 ha'
    obtain ⟨b, hb, rfl⟩ := List.mem_map.1 hb'
    rw [h a ha b hb, h b hb a ha]
    rcases compareKeys_total a b with h1 | h1
    · rw [inj_of_keys hk ha hb h1]; exact .inl rfl
    · exact .inr h1
  · intro _ ha'
    obtain ⟨a, ha, rfl⟩ := List.mem_map.1 ha'
    rw [h a ha a ha]
    exact compareKeys_irrefl a
  · intro _ ha' _ hb' _ hc'
    obtain ⟨a, ha, rfl⟩ := List.mem_map.1 ha'
    obtain ⟨b, hb, rfl⟩ := List.mem_map.1 hb'
    obtain ⟨c, hc, rfl⟩ := List.mem_map.1 hc'
    rw [h a ha b hb, h b hb c hc, h a ha c hc]
    exact compareKeys_trans

theorem no_references {a b : Message} (ha : ∀ x ∈ a.comment, x.references = []) :
    (defaultSort (tidy a) (tidy b)).1 = compareKeys a b := by
  rw [← defaultSort_before]
  unfold defaultSort
  cases h : a.comment with
  | none => rfl
  | some c =>
    cases b.comment with
    | none => rfl
    | some d =>
      have : c.sort.references = [] := by
        have := ha c h
        simp [Comment.sort, Comment.sortFlags, Comment.sortReferences, this, sortBy]
      simp only
      rw [this]
      rfl

/-! ### Messages with different first references -/

theorem refBefore_le {a b : Reference} : a ≠ b ∧ Reference.le a b = true ↔ RefBefore a b := by
  obtain ⟨p, l, c⟩ := a
  obtain ⟨p', l', c'⟩ := b
  unfold Reference.le RefBefore
  simp only [ne_eq, Reference.mk.injEq]
  by_cases h : p = p'
  · subst h
    by_cases h' : l = l'
    · subst h'
      simp
      omega
    · simp [h']
  · simp [h]

theorem compareReferences_neg {a b : Reference} (as bs : List Reference) (h : a ≠ b) (d : Int) :
    (compareReferences (a :: as) (b :: bs)).getD d < 0 ↔ RefBefore a b := by
  obtain ⟨p, l, c⟩ := a
  obtain ⟨p', l', c'⟩ := b
  unfold compareReferences RefBefore
  simp only
  by_cases hp : p = p'
  · subst hp
    rw [if_neg (by rw [not_not, compareStrings_zero])]
    by_cases hl : l = l'
    · subst hl
      rw [if_neg (by simp)]
      by_cases hc : c = c'
      · subst hc; exact absurd rfl h
      · rw [if_pos hc]
        simp only [Option.getD_some]
        by_cases hlt : c > c' <;> simp [hlt] <;> omega
    · rw [if_pos hl]
      simp only [Option.getD_some]
      by_cases hlt : l > l' <;> simp [hlt] <;> omega
  · rw [if_pos (by rw [Ne, compareStrings_zero]; exact hp), Option.getD_some, compareStrings_neg]
    simp [hp]

theorem compareReferences_self (l : List Reference) : compareReferences l l = none ∨ compareReferences l l = some 0 := by
  induction l with
  | nil => exact .inl rfl
  | cons r l ih =>
    have h0 : compareStrings r.path r.path = 0 := compareStrings_zero.2 rfl
    unfold compareReferences
    rw [if_neg (by simp [h0]), if_neg (by simp), if_neg (by simp), h0]
    split
    · exact .inr rfl
    · exact ih

/-- The first reference of the sorted comment. -/
def headRef (m : Message) (r : Reference) : Prop :=
  ∃ (c : Comment) (rs : List Reference), m.comment = some c ∧ c.sort.references = r :: rs

theorem defaultSort_neg {a b : Message} {r s : Reference} (ha : headRef a r) (hb : headRef b s) (h : r ≠ s) :
    (defaultSort (tidy a) (tidy b)).1 < 0 ↔ RefBefore r s := by
  obtain ⟨c, rs, hc, hr⟩ := ha
  obtain ⟨d, ss, hd, hs⟩ := hb
  rw [← defaultSort_before]
  unfold defaultSort
  rw [hc, hd]
  simp only
  rw [hr, hs]
  exact compareReferences_neg rs ss h _

theorem defaultSort_self (a : Message) : ¬ (defaultSort (tidy a) (tidy a)).1 < 0 := by
  rw [← defaultSort_before]
  unfold defaultSort
  cases a.comment with
  | none => exact compareKeys_irrefl a
  | some c =>
    simp only
    rcases compareReferences_self c.sort.references with h | h
    · rw [h]; exact compareKeys_irrefl a
    · rw [h]; simp

theorem firstRef_head {m : Message} {r : Reference} (h : FirstRef m r) : headRef m r := by
  obtain ⟨c, hc, hr, hm⟩ := h
  have hp : c.sort.references.Perm c.references := sortBy_perm _ _
  have hs : Sorted Reference.le c.sort.references := sortBy_sorted Reference.le_order _
  cases he : c.sort.references with
  | nil => rw [he] at hp; rw [hp.symm.eq_nil] at hr; cases hr
  | cons x xs =>
    refine ⟨c, xs, hc, ?_⟩
    rw [he] at hp hs
    rw [he]
    rcases hm x (hp.mem_iff.1 List.mem_cons_self) with h1 | h1
    · rw [h1]
    · rcases List.mem_cons.1 (hp.mem_iff.2 hr) with h2 | h2
      · rw [h2]
      · obtain ⟨h3, h4⟩ := refBefore_le.2 h1
        exact absurd (Reference.le_order.antisymm _ _ h4 ((List.pairwise_cons.1 hs).1 r h2)) h3

theorem strict_references {ms : List Message} (hk : (ms.map keyOf).Nodup) (h1 : ∀ m ∈ ms, ∃ r, FirstRef m r)
    (h2 : ∀ a ∈ ms, ∀ b ∈ ms, ∀ r, FirstRef a r → FirstRef b r → keyOf a = keyOf b) : StrictOn defaultSort (ms.map tidy) := by
  have hcase : ∀ a ∈ ms, ∀ b ∈ ms, a = b ∨ ∃ r s, headRef a r ∧ headRef b s ∧ r ≠ s ∧ FirstRef a r ∧ FirstRef b s := by
    intro a ha b hb
    obtain ⟨r, hr⟩ := h1 a ha
    obtain ⟨s, hs⟩ := h1 b hb
    by_cases e : r = s
    · subst e
      exact .inl (inj_of_keys hk ha hb (h2 a ha b hb r hr hs))
    · exact .inr ⟨r, s, firstRef_head hr, firstRef_head hs, e, hr, hs⟩
  have hlt : ∀ a ∈ ms, ∀ b ∈ ms, (defaultSort (tidy a) (tidy b)).1 < 0 → ∃ r s, headRef a r ∧ headRef b s ∧ RefBefore r s := by
    intro a ha b hb h
    rcases hcase a ha b hb with rfl | ⟨r, s, hr, hs, hne, _⟩
    · exact absurd h (defaultSort_self a)
    · exact ⟨r, s, hr, hs, (defaultSort_neg hr hs hne).1 h⟩
  refine ⟨?_, ?_, ?_⟩
  · intro _ ha' _ hb'
    obtain ⟨a, ha, rfl⟩ := List.mem_map.1 ha'
    obtain ⟨b, hb, rfl⟩ := List.mem_map.1 hb'
    rcases hcase a ha b hb with rfl | ⟨r, s, hr, hs, hne, _⟩
    · exact .inl rfl
    · rw [defaultSort_neg hr hs hne, defaultSort_neg hs hr fun e => hne e.symm, ← refBefore_le, ← refBefore_le]
      rcases Reference.le_order.total r s with h | h
      · exact .inr (.inl ⟨hne, h⟩)
      · exact .inr (.inr ⟨fun e => hne e.symm, h⟩)
  · intro _ ha'
    obtain ⟨a, ha, rfl⟩ := List.mem_map.1 ha'
    exact defaultSort_self a
  · intro _ ha' _ hb' _ hc'
    obtain ⟨a, ha, rfl⟩ := List.mem_map.1 ha'
    obtain ⟨b, hb, rfl⟩ := List.mem_map.1 hb'
    obtain ⟨c, hc, rfl⟩ := List.mem_map.1 hc'
    intro hab hbc
    obtain ⟨r, s, hr, hs, hrs⟩ := hlt a ha b hb hab
    obtain ⟨s', t, hs', ht, hst⟩ := hlt b hb c hc hbc
    have : s = s' := by
      obtain ⟨c1, l1, e1, e2⟩ := hs
      obtain ⟨c2, l2, e3, e4⟩ := hs'
      rw [e1] at e3
      cases e3
      rw [e2] at e4
      exact (List.cons.inj e4).1
    subst this
    rw [← refBefore_le] at hrs hst
    have hrt : RefBefore r t := by
      rw [← refBefore_le]
      refine ⟨?_, Reference.le_order.trans _ _ _ hrs.2 hst.2⟩
      rintro rfl
      exact hrs.1 (Reference.le_order.antisymm _ _ hrs.2 hst.2)
    exact (defaultSort_neg hr ht (refBefore_le.2 hrt).1).2 hrt

/-! ## Files -/

/-- The contexts in another order. -/
theorem sameFile_of_perm {f g : File} (hk : Keyed f) (hs : ∀ m ∈ f.messages.all, m.str.WF) (hp : f.messages.Perm g.messages)
    (hh : Option.Rel SameHeader f.header g.header) : SameFile f g := by
  have hg : Keyed g := ⟨hk.1.perm hp, fun p h => hk.2 p (hp.mem_iff.2 h), fun p h => hk.3 p (hp.mem_iff.2 h)⟩
  refine ⟨⟨hk, hg⟩, hh, fun c i => ?_⟩
  have he : g.getMessage c i = f.getMessage c i := by
    unfold File.getMessage
    rw [GoMap.same_of_perm hk.1 hp c]
  rw [he]
  cases hm : f.getMessage c i with
  | none => exact .none
  | some m =>
    have := hs m ((mem_all_key hk).1 hm).1
    exact .some ⟨rfl, rfl, rfl, rfl, this, this, .refl _⟩

theorem encode_same (enc : Encoder) (sort sort' : Sorter) {f g : File} (h : SameFile f g)
    (hh : enc.writeHeader = true → ∀ x ∈ f.header, x.unknownFields.length ≤ 1)
    (hm : List.Forall₂ SameMessage (enc.sorted sort f.messages.all) (enc.sorted sort' g.messages.all)) :
    enc.encode sort f = enc.encode sort' g := by
  unfold Encoder.encode
  rw [encodeMessages_same enc hm]
  have := h.header
  cases hf : f.header with
  | none =>
    rw [hf] at this
    cases hg : g.header with
    | none => rfl
    | some _ => rw [hg] at this; cases this
  | some x =>
    rw [hf] at this
    cases hg : g.header with
    | none => rw [hg] at this; cases this
    | some y =>
      rw [hg] at this
      cases this with
      | some hxy =>
        by_cases hw : enc.writeHeader = true
        · rw [header_eq hxy (hh hw x hf)]
        · simp [hw]

theorem same_get {f g : File} (h : SameFile f g) {c i : Bytes} {m' : Message} (hg : g.getMessage c i = some m') :
    ∃ m, f.getMessage c i = some m ∧ SameMessage m m' := by
  have := h.messages c i
  rw [hg] at this
  cases hf : f.getMessage c i with
  | none => rw [hf] at this; cases this
  | some m =>
    rw [hf] at this
    cases this with
    | some hs => exact ⟨m, rfl, hs⟩

theorem firstRef_same {m m' : Message} (h : SameMessage m m') {r : Reference} : FirstRef m' r ↔ FirstRef m r := by
  unfold FirstRef; rw [h.comment]

theorem apart_same {f g : File} (h : SameFile f g) (ha : ApartByReference f) : ApartByReference g := by
  refine ⟨fun c i m hm => ?_, fun c i m c' i' m' r hm hm' hr hr' => ?_⟩
  · obtain ⟨m0, h0, hs⟩ := same_get h hm
    obtain ⟨r, hr⟩ := ha.1 c i m0 h0
    exact ⟨r, (firstRef_same hs).2 hr⟩
  · obtain ⟨m0, h0, hs⟩ := same_get h hm
    obtain ⟨m1, h1, hs'⟩ := same_get h hm'
    exact ha.2 c i m0 c' i' m1 r h0 h1 ((firstRef_same hs).1 hr) ((firstRef_same hs').1 hr')

theorem noReferences_same {f g : File} (h : SameFile f g) (ha : NoReferences f) : NoReferences g := by
  refine ⟨fun c i m hm => ?_, ha.2.imp (fun h2 c i m hm => ?_) (fun h2 c i m hm => ?_)⟩
  · obtain ⟨m0, h0, hs⟩ := same_get h hm
    rw [hs.comment]; exact ha.1 c i m0 h0
  · obtain ⟨m0, h0, hs⟩ := same_get h hm
    rw [hs.comment]; exact h2 c i m0 h0
  · obtain ⟨m0, h0, hs⟩ := same_get h hm
    rw [hs.comment]; exact h2 c i m0 h0

theorem apart_sorts {f : File} (hk : Keyed f) (h : ApartByReference f) :
    Normalises defaultSort tidy f.messages.all ∧ StrictOn defaultSort (f.messages.all.map tidy) := by
  have h1 : ∀ m ∈ f.messages.all, ∃ r, FirstRef m r := fun m hm => h.1 _ _ _ ((mem_all hk).1 hm)
  refine ⟨defaultSort_normalises (.inl fun m hm => ?_), strict_references (nodup_keys hk) h1 fun a ha b hb r hr hr' => ?_⟩
  · obtain ⟨r, c, hc, _⟩ := h1 m hm
    rw [hc]; nofun
  · obtain ⟨e1, e2⟩ := h.2 _ _ a _ _ b r ((mem_all hk).1 ha) ((mem_all hk).1 hb) hr hr'
    rw [keyOf, keyOf, e1, e2]

theorem noReferences_sorts {f : File} (hk : Keyed f) (h : NoReferences f) :
    Normalises defaultSort tidy f.messages.all ∧ StrictOn defaultSort (f.messages.all.map tidy) := by
  refine ⟨defaultSort_normalises (h.2.imp (fun h2 m hm => h2 _ _ _ ((mem_all hk).1 hm)) fun h2 m hm => ?_),
    strict_keys (nodup_keys hk) fun a ha b hb => no_references (h.1 _ _ _ ((mem_all hk).1 ha))⟩
  have e1 := h.1 _ _ _ ((mem_all hk).1 hm)
  have e2 := h2 _ _ _ ((mem_all hk).1 hm)
  obtain ⟨c, ctx, id, pl, str⟩ := m
  unfold tidy
  cases c with
  | none => rfl
  | some c =>
    have e3 := e1 c rfl
    have e4 := e2 c rfl
    clear e1 e2
    obtain ⟨t, e, refs, fl, p1, p2⟩ := c
    simp only at e3 e4
    subst e3
    simp [Comment.sort, Comment.sortFlags, Comment.sortReferences, sortBy, sortBy_of_sorted bytesLe_order e4]

theorem encode_defaultSort {enc : Encoder} (hc : enc.sortFunction = some defaultSort) {sort sort' : Sorter} (hs : Sorts sort)
    (hs' : Sorts sort') {f g : File} (h : SameFile f g) (hh : enc.writeHeader = true → ∀ x ∈ f.header, x.unknownFields.length ≤ 1)
    (hf : Normalises defaultSort tidy f.messages.all ∧ StrictOn defaultSort (f.messages.all.map tidy))
    (hg : Normalises defaultSort tidy g.messages.all ∧ StrictOn defaultSort (g.messages.all.map tidy)) :
    enc.encode sort f = enc.encode sort' g := by
  refine encode_same enc sort sort' h hh ?_
  unfold Encoder.sorted
  rw [hc]
  obtain ⟨l, hp, hl⟩ := all_same h
  exact sort_same_of hs hs' hp hl hf.1 hg.1 hf.2 hg.2 (fun _ _ => tidy_same) (fun _ _ _ _ => defaultSort_same)

end Verif.Proofs.Po
