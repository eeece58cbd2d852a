import Verif.Proofs.Po.EncodeFile
import Verif.Proofs.Po.EncodeSort
/-! Helper lemmas for writing PO files: the order of maps, flags and references. -/
namespace Verif.Proofs.Po
open Verif.Go Verif.Spec.PoSort Verif.Spec.PoFile Verif.Spec.PoEntry Verif.Model.PoString
open Verif.Model.Po hiding Field

/-! ## Messages with reordered comments -/

theorem sameComment_refl (c : Comment) : SameComment c c := ⟨rfl, rfl, .refl _, .refl _, rfl, rfl⟩

theorem sameComment_trans {a b c : Comment} (h1 : SameComment a b) (h2 : SameComment b c) : SameComment a c :=
  ⟨h2.1.trans h1.1, h2.2.trans h1.2, h2.3.trans h1.3, h2.4.trans h1.4, h2.5.trans h1.5, h2.6.trans h1.6⟩

theorem reordered_refl (m : Message) : Reordered m m := by
  refine ⟨rfl, rfl, rfl, rfl, ?_⟩
  cases m.comment with
  | none => exact .none
  | some c => exact .some (sameComment_refl c)

theorem rel_trans {α : Type} {R : α → α → Prop} (ht : ∀ a b c, R a b → R b c → R a c) {a b c : Option α}
    (h1 : Option.Rel R a b) (h2 : Option.Rel R b c) : Option.Rel R a c := by
  cases h1 with
  | none => exact h2
  | some h => cases h2 with | some h' => exact .some (ht _ _ _ h h')

theorem reordered_trans (a b c : Message) (h1 : Reordered a b) (h2 : Reordered b c) : Reordered a c :=
  ⟨h2.1.trans h1.1, h2.2.trans h1.2, h2.3.trans h1.3, h2.4.trans h1.4, rel_trans (R := SameComment) (fun _ _ _ x y => sameComment_trans x y) h1.5 h2.5⟩

theorem sort_same (c : Comment) : SameComment c c.sort :=
  ⟨rfl, rfl, sortBy_perm _ _, sortBy_perm _ _, rfl, rfl⟩

theorem defaultSort_reorders (a b : Message) : Reordered a (defaultSort a b).2.1 ∧ Reordered b (defaultSort a b).2.2 := by
  unfold defaultSort
  split
  · rename_i ca cb ha hb
    refine ⟨⟨rfl, rfl, rfl, rfl, ?_⟩, ⟨rfl, rfl, rfl, rfl, ?_⟩⟩
    · rw [ha]; exact .some (sort_same ca)
    · rw [hb]; exact .some (sort_same cb)
  · exact ⟨reordered_refl a, reordered_refl b⟩

theorem commentOk_same {c c' : Comment} (h : CommentOk c) (hs : SameComment c c') : CommentOk c' :=
  ⟨by rw [hs.translator]; exact h.translator, by rw [hs.extracted]; exact h.extracted,
    fun r hr => h.references r (hs.references.mem_iff.1 hr), fun r hr => h.flags r (hs.flags.mem_iff.1 hr)⟩

theorem messageOk_reordered {m m' : Message} (h : MessageOk m) (hr : Reordered m m') : MessageOk m' := by
  refine ⟨by rw [hr.id]; exact h.id, by rw [hr.id]; exact h.idText, by rw [hr.context]; exact h.context,
    by rw [hr.idPlural]; exact h.idPlural, by rw [hr.str]; exact h.str, by rw [hr.str]; exact h.indices, ?_⟩
  intro c' hc'
  have := hr.comment
  rw [show m'.comment = some c' from hc'] at this
  cases hm : m.comment with
  | none => rw [hm] at this; cases this
  | some c =>
    rw [hm] at this
    cases this with
    | some hs => exact commentOk_same (h.comment c hm) hs

/-! ## The messages of a file -/

theorem mem_all {f : File} (h : Keyed f) {m : Message} : m ∈ f.messages.all ↔ f.getMessage m.context m.id = some m := by
  unfold Messages.all File.getMessage
  rw [List.mem_flatMap]
  constructor
  · rintro ⟨p, hp, hm⟩
    obtain ⟨q, hq, rfl⟩ := List.mem_map.1 hm
    obtain ⟨h1, h2⟩ := h.keys p hp q hq
    rw [h1, h2, GoMap.get?_of_mem h.contexts (v := p.2) hp]
    exact GoMap.get?_of_mem (h.inner p hp) hq
  · intro hg
    cases hc : f.messages.get? m.context with
    | none => rw [hc] at hg; cases hg
    | some inner =>
      rw [hc] at hg
      exact ⟨_, GoMap.mem_of_get? hc, List.mem_map.2 ⟨_, GoMap.mem_of_get? hg, rfl⟩⟩

theorem key_of_get {f : File} (h : Keyed f) {c i : Bytes} {m : Message} (hg : f.getMessage c i = some m) : m.context = c ∧ m.id = i := by
  unfold File.getMessage at hg
  cases hc : f.messages.get? c with
  | none => rw [hc] at hg; cases hg
  | some inner =>
    rw [hc] at hg
    exact h.keys _ (GoMap.mem_of_get? hc) _ (GoMap.mem_of_get? hg)

theorem mem_all_key {f : File} (h : Keyed f) {c i : Bytes} {m : Message} :
    f.getMessage c i = some m ↔ m ∈ f.messages.all ∧ keyOf m = (c, i) := by
  constructor
  · intro hg
    obtain ⟨h1, h2⟩ := key_of_get h hg
    refine ⟨(mem_all h).2 (by rw [h1, h2]; exact hg), by rw [keyOf, h1, h2]⟩
  · rintro ⟨h1, h2⟩
    have := (mem_all h).1 h1
    cases h2
    exact this

theorem nodup_keys {f : File} (h : Keyed f) : (f.messages.all.map keyOf).Nodup := by
  obtain ⟨h1, h2, h3⟩ := h
  unfold Messages.all
  revert h1 h2 h3
  generalize f.messages = ms
  intro h1 h2 h3
  induction ms with
  | nil => exact List.nodup_nil
  | cons p ms ih =>
    obtain ⟨k, inner⟩ := p
    obtain ⟨hk, hw⟩ := GoMap.WF.cons_inv h1
    rw [List.flatMap_cons, List.map_append, List.nodup_append]
    refine ⟨?_, ih hw (fun x hx => h2 x (List.mem_cons_of_mem _ hx)) (fun x hx => h3 x (List.mem_cons_of_mem _ hx)), ?_⟩
    · have hi : GoMap.WF inner := h2 _ List.mem_cons_self
      have he : (inner.map fun q => q.2).map keyOf = (GoMap.keys inner).map fun i => (k, i) := by
        rw [GoMap.keys, List.map_map, List.map_map]
        refine List.map_congr_left fun q hq => ?_
        obtain ⟨e1, e2⟩ := h3 _ List.mem_cons_self q hq
        simp [keyOf, e1, e2]
      rw [he]
      exact List.pairwise_map.2 (hi.imp fun hne e => hne (Prod.mk.inj e).2)
    · intro a ha b hb e
      subst e
      obtain ⟨m, hm, rfl⟩ := List.mem_map.1 ha
      obtain ⟨q, hq, rfl⟩ := List.mem_map.1 hm
      obtain ⟨m', hm', he⟩ := List.mem_map.1 hb
      obtain ⟨p', hp', hm'⟩ := List.mem_flatMap.1 hm'
      obtain ⟨q', hq', rfl⟩ := List.mem_map.1 hm'
      obtain ⟨e1, _⟩ := h3 _ List.mem_cons_self q hq
      obtain ⟨e2, _⟩ := h3 _ (List.mem_cons_of_mem _ hp') q' hq'
      have : p'.1 = k := by
        have := (Prod.mk.inj he).1
        rw [e1, e2] at this
        exact this
      exact hk (this ▸ List.mem_map.2 ⟨p', hp', rfl⟩)

theorem nodup_all {f : File} (h : Keyed f) : f.messages.all.Nodup :=
  (List.pairwise_map.1 (nodup_keys h)).imp fun h e => h (congrArg keyOf e)

end Verif.Proofs.Po
