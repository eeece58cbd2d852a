import Verif.Proofs.Po.EncodeOrder
/-! Helper lemmas for writing PO files: reading what was written. -/
namespace Verif.Proofs.Po
open Verif.Go Verif.Model.PoString Verif.Spec.PoEntry Verif.Spec.PoFile Verif.Spec.PoSort
open Verif.Model.Po hiding Field

theorem sorted_reordered {enc : Encoder} {sort : Sorter} (hs : Honest sort) {f : File} (h : FileOk enc f) :
    ∃ ms' : List Message, ms'.Perm f.messages.all ∧ List.Forall₂ Reordered ms' (enc.sorted sort f.messages.all) := by
  unfold Encoder.sorted
  cases hc : enc.sortFunction with
  | none => exact ⟨_, .refl _, List.forall₂_same.2 fun m _ => reordered_refl m⟩
  | some cmp => exact hs cmp Reordered reordered_refl reordered_trans (h.sorting cmp hc) _

theorem forall₂_mem_left {α β : Type} {R : α → β → Prop} {l : List α} {m : List β} (h : List.Forall₂ R l m) :
    ∀ a ∈ l, ∃ b ∈ m, R a b := by
  induction h with
  | nil => nofun
  | cons h _ ih =>
    intro a ha
    rcases List.mem_cons.1 ha with rfl | ha
    · exact ⟨_, List.mem_cons_self, h⟩
    · obtain ⟨b, hb, hr⟩ := ih a ha
      exact ⟨b, List.mem_cons_of_mem _ hb, hr⟩

theorem forall₂_mem_right {α β : Type} {R : α → β → Prop} {l : List α} {m : List β} (h : List.Forall₂ R l m) :
    ∀ b ∈ m, ∃ a ∈ l, R a b := by
  induction h with
  | nil => nofun
  | cons h _ ih =>
    intro a ha
    rcases List.mem_cons.1 ha with rfl | ha
    · exact ⟨_, List.mem_cons_self, h⟩
    · obtain ⟨b, hb, hr⟩ := ih a ha
      exact ⟨b, List.mem_cons_of_mem _ hb, hr⟩

/-- What is read of a file that was written: the entries of the messages that were written. -/
theorem round_trip_sorted (u : Unicode) (ig : Bool) (enc : Encoder) (sort : Sorter) (hs : Honest sort) (f : File) (h : FileOk enc f) :
    ∃ out, enc.encode sort f = .ok out ∧
      (Short (splitByte 0x0a out) → f.messages.all ≠ [] ∨ (∃ e, headOf enc f = some e ∧ parseHeader u (e.message ig) ≠ none) →
        ∃ f', parse u ig out = .ok f' ∧
          (∀ c i m', f'.getMessage c i = some m' ↔
            ∃ m1 ∈ enc.sorted sort f.messages.all, keyOf m1 = (c, i) ∧ m' = (entryOf enc m1).message ig) ∧
          f'.header = some (((headOf enc f).bind fun e => parseHeader u (e.message ig)).getD {})) := by
  obtain ⟨ms', hp, hf⟩ := sorted_reordered hs h
  have hall : ∀ m ∈ f.messages.all, MessageOk m := fun m hm => h.messages _ _ _ ((mem_all h.keyed).1 hm)
  have hok : ∀ m ∈ enc.sorted sort f.messages.all, MessageOk m := by
    intro m hm
    obtain ⟨m0, hm0, hr⟩ := forall₂_mem_right hf m hm
    exact messageOk_reordered (hall m0 (hp.mem_iff.1 hm0)) hr
  obtain ⟨bs, tail, he, hw, ha, ht, hb, hbs⟩ := encode_blocks enc sort rfl hok h.header h.silent
  refine ⟨_, he, fun hsh hne => ?_⟩
  have hone : ∀ l ∈ blockLines bs ++ tail, OneLine l :=
    blocks_oneLine hw (fun l hl => by rw [ht l hl]; decide) (fun b hb' l hl => by rw [hb b hb' l hl]; decide)
  rw [splitByte_text _ hone] at hsh
  have hrd : ∀ m ∈ enc.sorted sort f.messages.all, keyOf ((entryOf enc m).message false) = keyOf m := by
    intro m hm
    have := entryOf_read enc (hok m hm)
    rw [keyOf, this.context, this.id]; rfl
  have hri : ∀ m ∈ enc.sorted sort f.messages.all, keyOf ((entryOf enc m).message ig) = keyOf m := hrd
  have hkeys : (enc.sorted sort f.messages.all).map keyOf = ms'.map keyOf := by
    have : ∀ {l m : List Message}, List.Forall₂ Reordered l m → m.map keyOf = l.map keyOf := by
      intro l m h
      induction h with
      | nil => rfl
      | cons h _ ih => rw [List.map_cons, List.map_cons, ih, keyOf, keyOf, h.context, h.id]
    exact this hf
  obtain ⟨f', hf', hm', hh'⟩ := read_file u ig (hdr := headOf enc f) (es := (enc.sorted sort f.messages.all).map (entryOf enc))
    hw ha (fun l hl => by rw [ht l hl]; exact blankLine_nil) ⟨hone, .inl rfl⟩ (fun l hl => hsh l (List.mem_append_left _ hl)) hbs
    (by
      intro e he
      unfold headOf at he
      split at he
      · split at he
        · cases he
          exact ⟨rfl, by simp [headerEntry, Str.value]⟩
        · cases he
      · cases he)
    (by
      intro e he
      obtain ⟨m, hm, rfl⟩ := List.mem_map.1 he
      have := (entryOf_read enc (hok m hm)).id
      intro e0
      have e1 : ((entryOf enc m).message false).id = [] := e0
      rw [e1] at this
      exact (hok m hm).id this.symm)
    (by
      rw [List.map_map]
      have : (enc.sorted sort f.messages.all).map ((fun e => keyOf (e.message ig)) ∘ entryOf enc) =
          (enc.sorted sort f.messages.all).map keyOf := List.map_congr_left hrd
      rw [this, hkeys]
      exact (List.Perm.nodup_iff (hp.map keyOf)).2 (nodup_keys h.keyed))
    (by
      rcases hne with hne | hne
      · left
        intro e
        rw [List.map_eq_nil_iff] at e
        rw [e] at hf
        cases hf
        exact hne hp.symm.eq_nil
      · exact .inr hne)
  refine ⟨f', hf', fun c i m' => ?_, hh'⟩
  rw [hm']
  constructor
  · rintro ⟨e, he, hk, rfl⟩
    obtain ⟨m1, hm1, rfl⟩ := List.mem_map.1 he
    exact ⟨m1, hm1, by rw [← hk, hri m1 hm1], rfl⟩
  · rintro ⟨m1, hm1, hk, rfl⟩
    exact ⟨_, List.mem_map.2 ⟨m1, hm1, rfl⟩, by rw [hri m1 hm1, hk], rfl⟩

/-- The common part of the theorems on whole files. -/
theorem round_trip_any (u : Unicode) (ig : Bool) (enc : Encoder) (sort : Sorter) (hs : Honest sort) (f : File) (h : FileOk enc f) :
    ∃ out, enc.encode sort f = .ok out ∧
      (Short (splitByte 0x0a out) → f.messages.all ≠ [] ∨ (∃ e, headOf enc f = some e ∧ parseHeader u (e.message ig) ≠ none) →
        ∃ f', parse u ig out = .ok f' ∧
          (∀ c i, Option.Rel (fun m m' => ∃ m1, Reordered m m1 ∧ MessageRead enc.wrapWidth enc.writeReferences m1 ((entryOf enc m1).message false) ∧
              m' = (entryOf enc m1).message ig)
            (f.getMessage c i) (f'.getMessage c i)) ∧
          f'.header = some (((headOf enc f).bind fun e => parseHeader u (e.message ig)).getD {})) := by
  obtain ⟨ms', hp, hf⟩ := sorted_reordered hs h
  have hall : ∀ m ∈ f.messages.all, MessageOk m := fun m hm => h.messages _ _ _ ((mem_all h.keyed).1 hm)
  have hok : ∀ m ∈ enc.sorted sort f.messages.all, MessageOk m := by
    intro m hm
    obtain ⟨m0, hm0, hr⟩ := forall₂_mem_right hf m hm
    exact messageOk_reordered (hall m0 (hp.mem_iff.1 hm0)) hr
  obtain ⟨out, ho, hr⟩ := round_trip_sorted u ig enc sort hs f h
  refine ⟨out, ho, fun hsh hne => ?_⟩
  obtain ⟨f', hf', hm', hh'⟩ := hr hsh hne
  refine ⟨f', hf', fun c i => ?_, hh'⟩
  cases hg : f.getMessage c i with
  | some m =>
    obtain ⟨h1, h2⟩ := (mem_all_key h.keyed).1 hg
    obtain ⟨m1, hm1, hr⟩ := forall₂_mem_left hf m (hp.mem_iff.2 h1)
    have : f'.getMessage c i = some ((entryOf enc m1).message ig) := by
      rw [hm']
      refine ⟨m1, hm1, ?_, rfl⟩
      rw [← h2, keyOf, keyOf, hr.context, hr.id]
    rw [this]
    exact .some ⟨m1, hr, entryOf_read enc (hok m1 hm1), rfl⟩
  | none =>
    cases hg' : f'.getMessage c i with
    | none => exact .none
    | some m' =>
      obtain ⟨m1, hm1, hk, _⟩ := (hm' c i m').1 hg'
      obtain ⟨m, hm, hr⟩ := forall₂_mem_right hf m1 hm1
      have : f.getMessage c i = some m := by
        rw [mem_all_key h.keyed]
        refine ⟨hp.mem_iff.1 hm, ?_⟩
        rw [← hk, keyOf, keyOf, hr.context, hr.id]
      rw [hg] at this
      cases this

theorem round_trip (u : Unicode) (enc : Encoder) (sort : Sorter) (hs : Honest sort) (f : File) (h : FileOk enc f) :
    ∃ out, enc.encode sort f = .ok out ∧
      (Short (splitByte 0x0a out) → f.messages.all ≠ [] ∨ (∃ e, headOf enc f = some e ∧ parseHeader u (e.message false) ≠ none) →
        ∃ f', parse u false out = .ok f' ∧
          (∀ c i, Option.Rel (fun m m' => ∃ m1, Reordered m m1 ∧ MessageRead enc.wrapWidth enc.writeReferences m1 m')
            (f.getMessage c i) (f'.getMessage c i)) ∧
          f'.header = some (((headOf enc f).bind fun e => parseHeader u (e.message false)).getD {})) := by
  obtain ⟨out, ho, hr⟩ := round_trip_any u false enc sort hs f h
  refine ⟨out, ho, fun hsh hne => ?_⟩
  obtain ⟨f', h1, h2, h3⟩ := hr hsh hne
  refine ⟨f', h1, fun c i => ?_, h3⟩
  have := h2 c i
  revert this
  generalize f.getMessage c i = a
  generalize f'.getMessage c i = b
  intro this
  cases this with
  | none => exact .none
  | some h =>
    obtain ⟨m1, q1, q2, rfl⟩ := h
    exact .some ⟨m1, q1, q2⟩

end Verif.Proofs.Po
