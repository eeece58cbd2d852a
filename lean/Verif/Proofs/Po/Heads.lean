import Verif.Proofs.Po.Adjacent
/-!
# Exactly when a sequence of messages is stored
-/
namespace Verif.Proofs.Po
open Verif.Go Verif.Spec.PoEntry Verif.Spec.Adjacent
open Verif.Model.Po hiding Field

theorem indexByte_absent {c : UInt8} : ∀ {s : Bytes}, indexByte? c s = none ↔ c ∉ s := by
  intro s
  induction s with
  | nil => simp [indexByte?]
  | cons x s ih =>
    rw [indexByte?]
    split
    · rename_i h; simp [h]
    · rename_i h
      rw [Option.map_eq_none_iff, ih]
      simp only [List.mem_cons, not_or]
      exact ⟨fun e => ⟨fun e' => h e'.symm, e⟩, fun e => e.2⟩

theorem headerLoop_none_iff (u : Unicode) (ls : List Bytes) : ∀ h, headerLoop u h ls = none ↔
    ¬ ∀ l ∈ ls, 0x3a ∈ l ∨ BlankLine l := by
  induction ls with
  | nil => intro h; simp [headerLoop]
  | cons l ls ih =>
    intro h
    rw [headerLoop, List.forall_mem_cons]
    split
    · rename_i hn
      have hn := indexByte_absent.1 hn
      split
      · rename_i hb
        have hb : BlankLine l := hb
        rw [ih]
        simp [hb]
      · rename_i hb
        have hb : ¬ BlankLine l := hb
        simp [hn, hb]
    · rename_i i hi
      have : (0x3a : UInt8) ∈ l := by
        by_cases hm : (0x3a : UInt8) ∈ l
        · exact hm
        · rw [indexByte_absent.2 hm] at hi; cases hi
      rw [ih]
      simp [this]

theorem parseHeader_none_iff (u : Unicode) (m : Message) : parseHeader u m = none ↔ ¬ Readable m := by
  unfold parseHeader
  rw [Option.map_eq_none_iff, headerLoop_none_iff]
  rfl

theorem heads_filter (ms : List Message) : heads ms = ms.filter fun m => IsHead m := rfl

/-- The messages are stored exactly if the keys are new and different and no header follows one that was read. -/
theorem storeAll_iff (u : Unicode) {ms : List Message} : ∀ {st : PState}, (∃ st', storeAll u st ms = .ok st') ↔
    (∀ m ∈ proper ms, PState.find st m.context m.id = none) ∧ ((proper ms).map keyOf).Nodup ∧
    (st.header ≠ none → heads ms = []) ∧ (heads ms).Pairwise fun a _ => ¬ Readable a := by
  induction ms with
  | nil => intro st; simp [storeAll, proper, heads]
  | cons m ms ih =>
    intro st
    by_cases hid : m.id = []
    · have hpr : proper (m :: ms) = proper ms := by unfold proper; rw [List.filter_cons_of_neg (by simp [hid])]
      rw [hpr]
      by_cases hs : m.str = []
      · have hd : heads (m :: ms) = heads ms := by unfold heads; rw [List.filter_cons_of_neg (by simp [hs])]
        have he : store u st m = .ok st := by unfold store; rw [if_pos hid, if_pos hs]
        rw [hd, storeAll, he]
        exact ih
      · have hd : heads (m :: ms) = m :: heads ms := by unfold heads; rw [List.filter_cons_of_pos (by simp [hid, hs])]
        rw [hd, storeAll]
        cases hh : st.header with
        | some x =>
          have he : store u st m = .error .secondHeader := by unfold store; rw [if_pos hid, if_neg hs, hh]; rfl
          rw [he]
          constructor
          · rintro ⟨_, h⟩; cases h
          · rintro ⟨_, _, h, _⟩; cases h (by simp)
        | none =>
          cases hp : parseHeader u m with
          | none =>
            have he : store u st m = .ok st := by unfold store; rw [if_pos hid, if_neg hs, hh, hp]; rfl
            rw [he]
            refine ih.trans ?_
            have hr := (parseHeader_none_iff u m).1 hp
            rw [hh, List.pairwise_cons]
            simp [hr]
          | some x =>
            have he : store u st m = .ok { st with header := some x } := by
              unfold store; rw [if_pos hid, if_neg hs, hh, hp]; rfl
            rw [he]
            refine ih.trans ?_
            have hr : Readable m := by
              by_cases h : Readable m
              · exact h
              · rw [(parseHeader_none_iff u m).2 h] at hp; cases hp
            rw [List.pairwise_cons]
            have hf : ∀ c i, PState.find { st with header := some x } c i = PState.find st c i := fun _ _ => rfl
            simp only [hf]
            constructor
            · rintro ⟨h1, h2, h3, h4⟩
              refine ⟨h1, h2, fun h => absurd rfl h, ?_, h4⟩
              intro y hy
              rw [h3 (by simp)] at hy; cases hy
            · rintro ⟨h1, h2, _, h3, h4⟩
              refine ⟨h1, h2, fun _ => ?_, h4⟩
              cases hl : heads ms with
              | nil => rfl
              | cons y l => exact absurd hr (h3 y (by rw [hl]; exact List.mem_cons_self))
    · have hpr : proper (m :: ms) = m :: proper ms := by unfold proper; rw [List.filter_cons_of_pos (by simp [hid])]
      have hd : heads (m :: ms) = heads ms := by unfold heads; rw [List.filter_cons_of_neg (by simp [hid])]
      rw [hpr, hd, List.forall_mem_cons, List.map_cons, List.nodup_cons, storeAll]
      rcases store_message (u := u) (st := st) hid with ⟨hx, he⟩ | ⟨hfree, s2, he, hh, hne, hf⟩
      · rw [he]
        constructor
        · rintro ⟨_, h⟩; cases h
        · rintro ⟨h, _⟩; exact absurd h.1 hx
      · rw [he]
        refine ih.trans ?_
        rw [hh]
        constructor
        · rintro ⟨h1, h2, h3⟩
          refine ⟨⟨hfree, ?_⟩, ⟨?_, h2⟩, h3⟩
          · intro x hx
            have := h1 x hx
            rw [hf] at this
            split at this
            · cases this
            · exact this
          · intro hk
            obtain ⟨x, hx, e⟩ := List.mem_map.1 hk
            have := h1 x hx
            simp only [keyOf, Prod.mk.injEq] at e
            rw [hf, if_pos e] at this
            cases this
        · rintro ⟨⟨_, h1⟩, ⟨h2, h2'⟩, h3⟩
          refine ⟨?_, h2', h3⟩
          intro x hx
          rw [hf, if_neg]
          · exact h1 x hx
          · rintro ⟨e1, e2⟩
            exact h2 (List.mem_map.2 ⟨x, hx, by simp [keyOf, e1, e2]⟩)

/-- A header was read exactly if there was one or one of the messages is a header that can be read. -/
theorem storeAll_header (u : Unicode) {ms : List Message} : ∀ {st st' : PState}, storeAll u st ms = .ok st' →
    (st'.header ≠ none ↔ st.header ≠ none ∨ ∃ m ∈ heads ms, Readable m) := by
  induction ms with
  | nil => intro st st' h; cases h; simp [heads]
  | cons m ms ih =>
    intro st st' h
    rw [storeAll] at h
    obtain ⟨s1, h1, h2⟩ := bind_eq_ok.1 h
    rw [ih h2]
    by_cases hid : m.id = []
    · rcases store_header (u := u) (st := st) hid with ⟨_, _, he⟩ | ⟨s2, he, hm, hh, hn, hp⟩
      · rw [he] at h1; cases h1
      · rw [he] at h1; cases h1
        by_cases hs : m.str = []
        · have hd : heads (m :: ms) = heads ms := by unfold heads; rw [List.filter_cons_of_neg (by simp [hs])]
          rw [hn hs, hd]
        · have hd : heads (m :: ms) = m :: heads ms := by unfold heads; rw [List.filter_cons_of_pos (by simp [hid, hs])]
          rw [(hp hs).2, (hp hs).1, hd]
          have : parseHeader u m ≠ none ↔ Readable m := by
            rw [Ne, parseHeader_none_iff, Classical.not_not]
          rw [this]
          constructor
          · rintro (h | ⟨x, hx, h⟩)
            · exact .inr ⟨m, List.mem_cons_self, h⟩
            · exact .inr ⟨x, List.mem_cons_of_mem _ hx, h⟩
          · rintro (hr | ⟨x, hx, hr⟩)
            · exact absurd rfl hr
            · rcases List.mem_cons.1 hx with rfl | hx
              · exact .inl hr
              · exact .inr ⟨x, hx, hr⟩
    · have hd : heads (m :: ms) = heads ms := by unfold heads; rw [List.filter_cons_of_neg (by simp [hid])]
      rcases store_message (u := u) (st := st) hid with ⟨_, he⟩ | ⟨_, s2, he, hh, _⟩
      · rw [he] at h1; cases h1
      · rw [he] at h1; cases h1
        rw [hh, hd]

/-! ## Blocks that are apart -/

theorem readOn_apart {ignore : Bool} (bs : List Block) : ∀ m, (∀ b ∈ bs, ¬ Glued ignore b) → readOn ignore m bs =
    m :: bs.map fun b => opening ignore (if b.1 = [] then afterFirst ignore b.2.comments else b.2.comments) b.2 := by
  induction bs with
  | nil => intro m _; rfl
  | cons b bs ih =>
    intro m h
    rw [readOn, if_neg (h b List.mem_cons_self), ih _ fun x hx => h x (List.mem_cons_of_mem _ hx), List.map_cons]

theorem mem_readBlocks {ignore : Bool} {A B : List Block} {b : Block} (h : Apart ignore (A ++ b :: B)) :
    opening ignore (counted ignore A b) b.2 ∈ readBlocks ignore (A ++ b :: B) := by
  have hg : ∀ x ∈ (A ++ b :: B).tail, ¬ Glued ignore x := fun x hx => not_glued.2 (h x hx)
  cases A with
  | nil =>
    rw [List.nil_append, readBlocks, readOn_apart B _ hg]
    simp [counted]
  | cons a A =>
    rw [List.cons_append, readBlocks, readOn_apart (A ++ b :: B) _ hg]
    refine List.mem_cons_of_mem _ (List.mem_map.2 ⟨b, by simp, ?_⟩)
    by_cases hb : b.1 = []
    · simp [counted, hb]
    · simp [counted, hb]

theorem opening_comment (ignore : Bool) (cs : List CommentLine) (e : Entry) :
    (opening ignore cs e).comment = some (commentOf ignore cs) := rfl

end Verif.Proofs.Po
