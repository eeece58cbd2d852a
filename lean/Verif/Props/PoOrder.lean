import Verif.Props.PoEncoder
/-!
# C77: the default order of messages
-/
namespace Verif.Props.PoOrder
open Verif.Go Verif.Spec.PoFile Verif.Spec.PoSort
open Verif.Model.Po hiding Field
open Verif.Proofs.Po

theorem compareStrings_swap (a b : Bytes) : compareStrings b a = - compareStrings a b := by
  unfold compareStrings
  by_cases h : a = b
  · simp [h]
  · rw [if_neg h, if_neg fun e => h e.symm]
    by_cases h1 : bytesLe a b = true
    · have h2 : ¬ bytesLe b a = true := fun h2 => h (bytesLe_antisymm _ _ h1 h2)
      simp [h1, h2]
    · have h2 : bytesLe b a = true := (bytesLe_total a b).resolve_left h1
      simp [h1, h2]

theorem compareReferences_swap (as bs : List Reference) :
    (compareReferences as bs = none ∧ compareReferences bs as = none) ∨
    ∃ x, compareReferences as bs = some x ∧ compareReferences bs as = some (-x) := by
  induction as generalizing bs with
  | nil =>
    left
    cases bs <;> exact ⟨rfl, rfl⟩
  | cons a as ih =>
    cases bs with
    | nil => exact .inl ⟨rfl, rfl⟩
    | cons b bs =>
      have hs := compareStrings_swap a.path b.path
      by_cases h1 : compareStrings a.path b.path = 0
      · have h1' : compareStrings b.path a.path = 0 := by omega
        by_cases h2 : a.line = b.line
        · by_cases h3 : a.column = b.column
          · by_cases h4 : a.path ≠ [] ∧ b.path ≠ []
            · exact .inr ⟨0, by simp [compareReferences, h1, h2, h3, h4], by simp [compareReferences, h1', h2, h3, h4]⟩
            · have e1 : compareReferences (a :: as) (b :: bs) = compareReferences as bs := by
                unfold compareReferences
                rw [if_neg (not_not.2 h1), if_neg (not_not.2 h2), if_neg (not_not.2 h3), if_neg h4]
                cases as <;> cases bs <;> rfl
              have e2 : compareReferences (b :: bs) (a :: as) = compareReferences bs as := by
                unfold compareReferences
                rw [if_neg (not_not.2 h1'), if_neg (not_not.2 h2.symm), if_neg (not_not.2 h3.symm), if_neg fun h => h4 h.symm]
                cases as <;> cases bs <;> rfl
              rw [e1, e2]
              exact ih bs
          · right
            have h3' : b.column ≠ a.column := fun e => h3 e.symm
            by_cases h5 : a.column > b.column
            · exact ⟨1, by simp [compareReferences, h1, h2, h3, h5], by
                have : ¬ b.column > a.column := by omega
                simp [compareReferences, h1', h2, h3', this]⟩
            · exact ⟨-1, by simp [compareReferences, h1, h2, h3, h5], by
                have : b.column > a.column := by omega
                simp [compareReferences, h1', h2, h3', this]⟩
        · right
          have h2' : b.line ≠ a.line := fun e => h2 e.symm
          by_cases h5 : a.line > b.line
          · exact ⟨1, by simp [compareReferences, h1, h2, h5], by
              have : ¬ b.line > a.line := by omega
              simp [compareReferences, h1', h2', this]⟩
          · exact ⟨-1, by simp [compareReferences, h1, h2, h5], by
              have : b.line > a.line := by omega
              simp [compareReferences, h1', h2', this]⟩
      · right
        refine ⟨compareStrings a.path b.path, by simp [compareReferences, h1], ?_⟩
        have : compareStrings b.path a.path ≠ 0 := by omega
        simp [compareReferences, this, hs, h1]

theorem compareKeys_swap (a b : Message) : compareKeys b a = - compareKeys a b := by
  unfold compareKeys
  rw [compareStrings_swap a.context b.context, compareStrings_swap a.id b.id]
  by_cases h : compareStrings a.context b.context = 0
  · rw [if_neg (by omega), if_neg (by omega)]
  · rw [if_pos (by omega), if_pos h]

/-- The result changes its sign if the messages are exchanged. -/
theorem C77_sign (a b : Message) : (defaultSort b a).1 = - (defaultSort a b).1 := by
  unfold defaultSort
  cases ha : a.comment with
  | none => cases hb : b.comment <;> exact compareKeys_swap a b
  | some ca =>
    cases hb : b.comment with
    | none => exact compareKeys_swap a b
    | some cb =>
      simp only
      rcases compareReferences_swap ca.sort.references cb.sort.references with ⟨h1, h2⟩ | ⟨x, h1, h2⟩
      · rw [h1, h2]; exact compareKeys_swap a b
      · rw [h1, h2]; rfl

/-- Different smallest references decide: path, then line, then column. -/
theorem C77_references (a b : Message) (r s : Reference) (ha : FirstRef a r) (hb : FirstRef b s) (h : r ≠ s) :
    ((defaultSort a b).1 < 0 ↔ RefBefore r s) ∧ (0 < (defaultSort a b).1 ↔ RefBefore s r) := by
  have key : ∀ (a b : Message) (r s : Reference), FirstRef a r → FirstRef b s → r ≠ s → ((defaultSort a b).1 < 0 ↔ RefBefore r s) := by
    intro a b r s ha hb h
    rw [defaultSort_before]
    exact defaultSort_neg (firstRef_head ha) (firstRef_head hb) h
  refine ⟨key a b r s ha hb h, ?_⟩
  rw [← key b a s r hb ha fun e => h e.symm, C77_sign a b]
  omega

example : FirstRef Verif.Props.PoEncoder.exHello ⟨b!"a.go", 3, 0⟩ ∧
    FirstRef (Verif.Props.PoEncoder.msg b!"a" (Verif.Props.PoEncoder.at' b!"z.go")) ⟨b!"z.go", 1, 0⟩ :=
  ⟨⟨_, rfl, by decide, fun _ hs => .inl (List.mem_singleton.1 hs)⟩, ⟨_, rfl, List.mem_singleton.2 rfl, fun _ hs => .inl (List.mem_singleton.1 hs)⟩⟩

/-- The order of contexts and ids. -/
def KeyBefore (a b : Message) : Prop :=
  (a.context ≠ b.context ∧ bytesLe a.context b.context = true) ∨
  (a.context = b.context ∧ a.id ≠ b.id ∧ bytesLe a.id b.id = true)

/-- If one of the messages has no reference, context and id decide. -/
theorem C77_keys (a b : Message)
    (h : (∀ c ∈ a.comment, c.references = []) ∨ ∀ c ∈ b.comment, c.references = []) :
    ((defaultSort a b).1 < 0 ↔ KeyBefore a b) ∧ (0 < (defaultSort a b).1 ↔ KeyBefore b a) := by
  have e : (defaultSort a b).1 = compareKeys a b := by
    rcases h with h | h
    · rw [defaultSort_before]; exact no_references h
    · rw [C77_sign b a, defaultSort_before b a, no_references h, ← compareKeys_swap b a]
  refine ⟨by rw [e]; exact compareKeys_neg, ?_⟩
  have h2 : compareKeys b a < 0 ↔ KeyBefore b a := compareKeys_neg
  rw [← h2, e, compareKeys_swap a b]
  omega

example : ∀ c ∈ (Verif.Props.PoEncoder.msg b!"b" none).comment, c.references = [] := nofun

theorem tidy_reordered (m : Message) : Reordered m (tidy m) := by
  refine ⟨rfl, rfl, rfl, rfl, ?_⟩
  unfold tidy
  cases h : m.comment with
  | none => exact .none
  | some c =>
    refine .some ?_
    exact sort_same c

open List in
theorem perm_map_tidy (l ms : List Message) (h : l.Perm (ms.map tidy)) :
    ∃ ms' : List Message, ms'.Perm ms ∧ List.Forall₂ Reordered ms' l := by
  have h' : ((· ~ List.map tidy ·) : List Message → List Message → Prop) l ms := h
  rw [← List.eq_map_comp_perm] at h'
  obtain ⟨ms', rfl, hp⟩ := h'
  refine ⟨ms', hp, ?_⟩
  rw [List.forall₂_map_right_iff]
  exact List.forall₂_same.2 fun m _ => tidy_reordered m

theorem refBefore_total {r s : Reference} (h : r ≠ s) : RefBefore r s ∨ RefBefore s r := by
  rw [← refBefore_le, ← refBefore_le]
  rcases Reference.le_order.total r s with e | e
  · exact .inl ⟨h, e⟩
  · exact .inr ⟨h.symm, e⟩

/-- The messages are written in the order of their smallest references if every message has one and they are
different: the output is the header and the texts of the messages in that order. -/
theorem C77_written (enc : Encoder) (hc : enc.sortFunction = some defaultSort) (sort : Sorter) (hs : Sorts sort)
    (f : File) (hk : Keyed f) (hf : ApartByReference f) :
    ∃ ms : List Message,
      enc.encode sort f = (match enc.encodeMessages ms with
        | .error e => .error e
        | .ok body => .ok ((match f.header with
          | some h => if enc.writeHeader then enc.encodeHeader h ++ b!"\n" else []
          | none => []) ++ body)) ∧
      (∃ ms' : List Message, ms'.Perm f.messages.all ∧ List.Forall₂ Reordered ms' ms) ∧
      ms.Pairwise fun a b => ∀ r s, FirstRef a r → FirstRef b s → RefBefore r s := by
  have hd : enc.sorted sort f.messages.all = sort defaultSort f.messages.all := by
    unfold Encoder.sorted; rw [hc]
  refine ⟨sort defaultSort f.messages.all, ?_, ?_⟩
  · unfold Encoder.encode
    rw [hd]
    rfl
  · by_cases hl : f.messages.all.length ≤ 1
    · rw [hs.short _ _ hl]
      refine ⟨⟨_, .refl _, List.forall₂_same.2 fun m _ => reordered_refl m⟩, ?_⟩
      match h : f.messages.all, hl with
      | [], _ => exact .nil
      | [x], _ => exact List.pairwise_singleton _ _
    · obtain ⟨hn, ho⟩ := apart_sorts hk hf
      obtain ⟨h1, h2⟩ := hs.sorted defaultSort tidy f.messages.all (by omega) hn ho
      have hnd : ((sort defaultSort f.messages.all).map keyOf).Nodup := by
        rw [(h1.map keyOf).nodup_iff, List.map_map]
        exact nodup_keys hk
      have hpk : (sort defaultSort f.messages.all).Pairwise fun a b => keyOf a ≠ keyOf b :=
        List.pairwise_map.1 hnd
      refine ⟨?_, (h2.and (List.Pairwise.and_mem.1 hpk)).imp ?_⟩
      · obtain ⟨ms', p1, p2⟩ := perm_map_tidy _ _ h1
        exact ⟨ms', p1, p2⟩
      · rintro a b ⟨hab, ha, hb, hne⟩ r s hr hs'
        have key : ∀ m ∈ sort defaultSort f.messages.all, ∀ r, FirstRef m r →
            ∃ x ∈ f.messages.all, FirstRef x r ∧ keyOf x = keyOf m := by
          intro m hm r hr
          obtain ⟨x, hx, rfl⟩ := List.mem_map.1 (h1.mem_iff.1 hm)
          refine ⟨x, hx, ?_, rfl⟩
          obtain ⟨c, e, g1, g2⟩ := hr
          unfold tidy at e
          simp only [Option.map_eq_some_iff] at e
          obtain ⟨d, hd, rfl⟩ := e
          have hp : d.sort.references.Perm d.references := sortBy_perm _ _
          exact ⟨d, hd, hp.mem_iff.1 g1, fun s hs => g2 s (hp.mem_iff.2 hs)⟩
        have hrs : r ≠ s := by
          rintro rfl
          obtain ⟨x, hx, fx, kx⟩ := key a ha r hr
          obtain ⟨y, hy, fy, ky⟩ := key b hb r hs'
          obtain ⟨e1, e2⟩ := hf.2 _ _ x _ _ y r ((mem_all hk).1 hx) ((mem_all hk).1 hy) fx fy
          exact hne (by rw [← kx, ← ky, keyOf, keyOf, e1, e2])
        obtain ⟨c1, c2⟩ := C77_references b a s r hs' hr hrs.symm
        by_contra hcon
        rcases refBefore_total hrs with h | h
        · exact hcon h
        · exact hab (c1.2 h)

open Verif.Props.PoEncoder in
example : exEncoder.sortFunction = some defaultSort ∧ Sorts insertionSort ∧ Keyed exFile ∧ ApartByReference exFile ∧
    exFile.messages.all.length = 2 := by
  obtain ⟨h1, h2, _, _, _, h3⟩ := exFile_apart
  exact ⟨h1, h2, exFile_ok.keyed, h3, by decide⟩

end Verif.Props.PoOrder
