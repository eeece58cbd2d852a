import Verif.Model.Po.File
import Verif.Proofs.Bytes
/-!
# Proofs about comments, messages and files
-/
namespace Verif.Proofs.Po
open Verif.Go Verif.Model.Po

/-! ## `mergeStringArrays` and `mergeReferences` -/

section Append
variable {α : Type} [DecidableEq α]

/-- The common shape of `appendNew` and `mergeReferences`. -/
def addNew (r : List α) : List α → List α
  | [] => r
  | x :: xs => if x ∈ r then addNew r xs else addNew (r ++ [x]) xs

theorem addNew_of_subset {r : List α} : ∀ {xs : List α}, (∀ x ∈ xs, x ∈ r) → addNew r xs = r
  | [], _ => rfl
  | x :: xs, h => by
    unfold addNew
    rw [if_pos (h x List.mem_cons_self)]
    exact addNew_of_subset fun y hy => h y (List.mem_cons_of_mem _ hy)

theorem mem_addNew : ∀ {xs r : List α} {a : α}, a ∈ addNew r xs ↔ a ∈ r ∨ a ∈ xs
  | [], r, a => by simp [addNew]
  | x :: xs, r, a => by
    unfold addNew
    split
    · rename_i hx
      rw [mem_addNew, List.mem_cons]
      constructor
      · rintro (h | h)
        · exact Or.inl h
        · exact Or.inr (Or.inr h)
      · rintro (h | rfl | h)
        · exact Or.inl h
        · exact Or.inl hx
        · exact Or.inr h
    · rw [mem_addNew, List.mem_append, List.mem_singleton, List.mem_cons, or_assoc]

theorem nodup_addNew : ∀ {xs r : List α}, r.Nodup → (addNew r xs).Nodup
  | [], _, h => h
  | x :: xs, r, h => by
    unfold addNew
    split
    · exact nodup_addNew h
    · rename_i hx
      refine nodup_addNew (List.nodup_append.mpr ⟨h, by simp, ?_⟩)
      intro a ha b hb
      rw [List.mem_singleton] at hb
      subst hb
      rintro rfl
      exact hx ha

/-- Only the new elements are appended, each once. -/
theorem count_addNew : ∀ {xs r : List α} {a : α},
    (addNew r xs).count a = if a ∈ r then r.count a else if a ∈ xs then 1 else 0
  | [], r, a => by
    unfold addNew
    split
    · rfl
    · rename_i h; simpa using List.count_eq_zero.mpr h
  | x :: xs, r, a => by
    unfold addNew
    split
    · rename_i hx
      rw [count_addNew]
      by_cases ha : a ∈ r
      · rw [if_pos ha, if_pos ha]
      · rw [if_neg ha, if_neg ha]
        have : a ≠ x := fun e => ha (e ▸ hx)
        simp [this]
    · rename_i hx
      rw [count_addNew]
      by_cases ha : a ∈ r
      · have : x ≠ a := fun e => hx (e ▸ ha)
        rw [if_pos (List.mem_append_left _ ha), if_pos ha, List.count_append]
        simp [this]
      · rw [if_neg ha]
        by_cases e : a = x
        · subst e
          rw [if_pos (by simp), if_pos List.mem_cons_self, List.count_append, List.count_eq_zero.mpr ha]
          simp
        · rw [if_neg (by simp [ha, e])]
          simp [e]

theorem addNew_nil_of_nodup {xs : List α} (h : xs.Nodup) : addNew [] xs = xs := by
  have key : ∀ (xs r : List α), (r ++ xs).Nodup → addNew r xs = r ++ xs := by
    intro xs
    induction xs with
    | nil => intro r _; simp [addNew]
    | cons x xs ih =>
      intro r h
      unfold addNew
      have hx : x ∉ r := by
        intro hx
        exact (List.nodup_append.mp h).2.2 x hx x List.mem_cons_self rfl
      rw [if_neg hx, ih (r ++ [x]) (by simpa using h)]
      simp
  simpa using key xs [] (by simpa using h)

end Append

theorem appendNew_eq (r xs : List Bytes) : appendNew r xs = addNew r xs := by
  induction xs generalizing r with
  | nil => rfl
  | cons x xs ih =>
    simp only [appendNew, addNew, ih]
    by_cases h : x ∈ r
    · rw [if_pos h, if_pos h]
    · rw [if_neg h, if_neg h]

theorem mergeReferences_eq (r xs : List Reference) : mergeReferences r xs = addNew r xs := by
  induction xs generalizing r with
  | nil => rfl
  | cons x xs ih => simp only [mergeReferences, addNew, ih]

theorem mem_mergeStringArrays {l r : List Bytes} {a : Bytes} :
    a ∈ mergeStringArrays l r ↔ a ∈ l ∨ a ∈ r := by
  simp [mergeStringArrays, appendNew_eq, mem_addNew]

theorem nodup_mergeStringArrays (l r : List Bytes) : (mergeStringArrays l r).Nodup := by
  simp only [mergeStringArrays, appendNew_eq]
  exact nodup_addNew (nodup_addNew List.nodup_nil)

theorem mergeStringArrays_of_nodup {l r : List Bytes} (h : l.Nodup) (hr : ∀ x ∈ r, x ∈ l) :
    mergeStringArrays l r = l := by
  simp only [mergeStringArrays, appendNew_eq]
  rw [addNew_nil_of_nodup h, addNew_of_subset hr]

/-! ## The order of references -/

theorem Reference.le_order : TotalOrder Reference.le where
  trans := by
    rintro ⟨p, l, c⟩ ⟨p', l', c'⟩ ⟨p'', l'', c''⟩ h h'
    simp only [Reference.le] at *
    by_cases e : p = p'
    · subst e
      by_cases e' : p = p''
      · subst e'
        simp only [ne_eq, not_true_eq_false, if_false] at *
        by_cases hl : l = l'
        · subst hl
          by_cases hl' : l = l''
          · subst hl'
            simp at *; omega
          · simp [hl'] at *; exact h'
        · by_cases hl' : l' = l''
          · subst hl'; simp [hl] at *; exact h
          · simp [hl, hl'] at *
            have : l ≠ l'' := by omega
            simp [this]; omega
      · simp [e'] at *; exact h'
    · by_cases e' : p' = p''
      · subst e'; simp [e] at *; exact h
      · simp [e, e'] at h h'
        have := bytesLe_trans _ _ _ h h'
        have ne : p ≠ p'' := by
          rintro rfl
          exact e (bytesLe_antisymm _ _ h h')
        simp [ne, this]
  total := by
    rintro ⟨p, l, c⟩ ⟨p', l', c'⟩
    simp only [Reference.le]
    by_cases e : p = p'
    · subst e
      by_cases hl : l = l'
      · subst hl; simp; omega
      · have : l' ≠ l := fun e => hl e.symm
        simp [hl, this]; omega
    · have e' : p' ≠ p := fun x => e x.symm
      simp [e, e']
      exact bytesLe_total p p'
  antisymm := by
    rintro ⟨p, l, c⟩ ⟨p', l', c'⟩ h h'
    simp only [Reference.le] at *
    by_cases e : p = p'
    · subst e
      by_cases hl : l = l'
      · subst hl; simp at *; omega
      · have : l' ≠ l := fun e => hl e.symm
        simp [hl, this] at *; omega
    · have e' : p' ≠ p := fun x => e x.symm
      simp [e, e'] at h h'
      exact absurd (bytesLe_antisymm _ _ h h') e

/-! ## `TrimSpace` of joined lines -/

/-- A line without white space at its ends. -/
def Neat (l : Bytes) : Prop :=
  (∀ e ∈ spaceEncodings, ¬ e <+: l) ∧ (∀ e ∈ spaceEncodings, ¬ e <:+ l)

theorem stripOne_none {es : List Bytes} {s : Bytes} (h : ∀ e ∈ es, ¬ e <+: s) : stripOne es s = none := by
  induction es with
  | nil => rfl
  | cons e es ih =>
    unfold stripOne
    rw [if_neg (by simpa using h e List.mem_cons_self)]
    exact ih fun e' he' => h e' (List.mem_cons_of_mem _ he')

theorem stripAll_none {es : List Bytes} {f : Nat} {s : Bytes} (h : ∀ e ∈ es, ¬ e <+: s) :
    stripAll es f s = s := by
  cases f with
  | zero => rfl
  | succ f => unfold stripAll; rw [stripOne_none h]

theorem space_cases {e : Bytes} (h : e ∈ spaceEncodings) : e = [10] ∨ (10 ∉ e ∧ e ≠ []) := by
  revert e
  decide

theorem no_space_prefix {l t : Bytes} (hl : l ≠ []) (h : ∀ e ∈ spaceEncodings, ¬ e <+: l) :
    ∀ e ∈ spaceEncodings, ¬ e <+: l ++ 10 :: t := by
  intro e he hp
  rcases space_cases he with rfl | ⟨hn, hne⟩
  · cases l with
    | nil => exact hl rfl
    | cons c l =>
      simp only [List.cons_append, List.cons_prefix_cons, List.nil_prefix, and_true] at hp
      refine h [10] he ?_
      rw [← hp]
      exact ⟨l, rfl⟩
  · by_cases hlen : e.length ≤ l.length
    · exact h e he (List.prefix_of_prefix_length_le hp (List.prefix_append _ _) hlen)
    · have : l ++ [10] <+: e := by
        refine List.prefix_of_prefix_length_le (l₃ := l ++ 10 :: t) ⟨t, by simp⟩ hp ?_
        simp; omega
      exact hn (this.subset (by simp))

theorem no_space_suffix {l t : Bytes} (hl : l ≠ []) (h : ∀ e ∈ spaceEncodings, ¬ e <:+ l) :
    ∀ e ∈ spaceEncodings, ¬ e <:+ t ++ 10 :: l := by
  intro e he hp
  rcases space_cases he with rfl | ⟨hn, hne⟩
  · rcases List.eq_nil_or_concat l with rfl | ⟨l', c, rfl⟩
    · exact hl rfl
    · rw [List.concat_eq_append] at *
      have hs : [c] <:+ t ++ 10 :: (l' ++ [c]) := ⟨t ++ 10 :: l', by simp⟩
      have := List.suffix_of_suffix_length_le hp hs (by simp)
      have hc : [10] = [c] := this.eq_of_length (by simp)
      refine h [10] he ?_
      rw [hc]
      exact ⟨l', by simp⟩
  · by_cases hlen : e.length ≤ l.length
    · exact h e he (List.suffix_of_suffix_length_le hp ⟨t ++ [10], by simp⟩ hlen)
    · have : 10 :: l <:+ e := by
        refine List.suffix_of_suffix_length_le (l₃ := t ++ 10 :: l) ⟨t, rfl⟩ hp ?_
        simp; omega
      exact hn (this.subset (by simp))

theorem trimLeft_none {s : Bytes} (h : ∀ e ∈ spaceEncodings, ¬ e <+: s) : trimLeft s = s := stripAll_none h

theorem trimRight_none {s : Bytes} (h : ∀ e ∈ spaceEncodings, ¬ e <:+ s) : trimRight s = s := by
  unfold trimRight
  rw [stripAll_none, List.reverse_reverse]
  intro e he hp
  obtain ⟨e', he', rfl⟩ := List.mem_map.mp he
  exact h e' he' (List.reverse_prefix.mp (by simpa using hp))

theorem trimLeft_newline (s : Bytes) : trimLeft (10 :: s) = trimLeft s := by
  unfold trimLeft
  rw [List.length_cons]
  rfl

theorem trimRight_newline (s : Bytes) : trimRight (s ++ [10]) = trimRight s := by
  unfold trimRight
  rw [List.length_append, List.reverse_append]
  rfl

/-- Every line is empty or neat. -/
def NeatLines (ls : List Bytes) : Prop := ∀ l ∈ ls, l = [] ∨ Neat l

theorem join_cons_cons (l m : Bytes) (ms : List Bytes) : join [10] (l :: m :: ms) = l ++ 10 :: join [10] (m :: ms) := by
  simp [join]

theorem join_concat (ls : List Bytes) (l : Bytes) (h : ls ≠ []) :
    join [10] (ls ++ [l]) = join [10] ls ++ 10 :: l := by
  induction ls with
  | nil => exact absurd rfl h
  | cons a ls ih =>
    cases ls with
    | nil => simp [join]
    | cons b ls =>
      rw [List.cons_append, List.cons_append, join_cons_cons, ← List.cons_append, ih (by simp), join_cons_cons]
      simp

theorem join_no_prefix {l : Bytes} {ls : List Bytes} (hl : l ≠ []) (hn : Neat l) :
    ∀ e ∈ spaceEncodings, ¬ e <+: join [10] (l :: ls) := by
  cases ls with
  | nil => exact hn.1
  | cons m ms => rw [join_cons_cons]; exact no_space_prefix hl hn.1

theorem join_no_suffix {l : Bytes} {ls : List Bytes} (hl : l ≠ []) (hn : Neat l) :
    ∀ e ∈ spaceEncodings, ¬ e <:+ join [10] (ls ++ [l]) := by
  cases ls with
  | nil => exact hn.2
  | cons m ms => rw [join_concat _ _ (by simp)]; exact no_space_suffix hl hn.2

/-- A list of lines without empty first or last line. -/
def Tight (ls : List Bytes) : Prop := ls.head? ≠ some [] ∧ ls.getLast? ≠ some []

theorem trimSpace_tight {ls : List Bytes} (h : Tight ls) (hn : NeatLines ls) :
    trimSpace (join [10] ls) = join [10] ls := by
  cases ls with
  | nil => rfl
  | cons l ls =>
    have hl : l ≠ [] := by rintro rfl; exact h.1 rfl
    have hln : Neat l := (hn l List.mem_cons_self).resolve_left hl
    unfold trimSpace
    rw [trimLeft_none (join_no_prefix hl hln)]
    rcases List.eq_nil_or_concat (l :: ls) with e | ⟨ls', l', e⟩
    · cases e
    · rw [List.concat_eq_append] at e
      rw [e]
      rw [e] at h hn
      have hl' : l' ≠ [] := by rintro rfl; exact h.2 (by simp)
      exact trimRight_none (join_no_suffix hl' ((hn l' (by simp)).resolve_left hl'))

theorem trimSpace_newline_left (s : Bytes) : trimSpace (10 :: s) = trimSpace s := by
  unfold trimSpace; rw [trimLeft_newline]

theorem Tight.of_nonempty {ls : List Bytes} (h : [] ∉ ls) : Tight ls :=
  ⟨fun e => h (List.mem_of_head? e), fun e => h (List.mem_of_getLast? e)⟩

theorem trimSpace_tail {ls : List Bytes} (h : Tight ls) (hn : NeatLines ls) (hne : ls ≠ []) :
    trimSpace (join [10] (ls ++ [[]])) = join [10] ls := by
  rw [join_concat _ _ hne]
  cases ls with
  | nil => exact absurd rfl hne
  | cons l ls =>
    have hl : l ≠ [] := by rintro rfl; exact h.1 rfl
    have hln : Neat l := (hn l List.mem_cons_self).resolve_left hl
    have hp := join_no_prefix (ls := ls ++ [[]]) hl hln
    rw [← List.cons_append, join_concat _ _ (by simp)] at hp
    have ht := trimSpace_tight h hn
    unfold trimSpace at ht ⊢
    rw [trimLeft_none (join_no_prefix hl hln)] at ht
    rw [trimLeft_none hp, trimRight_newline, ht]

/-- The effect of `TrimSpace` on joined lines that are empty or neat and do not repeat. -/
theorem trimSpace_lines {ls : List Bytes} (hd : ls.Nodup) (hn : NeatLines ls) :
    ∃ ls', Tight ls' ∧ NeatLines ls' ∧ trimSpace (join [10] ls) = join [10] ls' ∧ ls'.Nodup ∧
      (∀ l ∈ ls, l ∈ ls' ∨ l = []) ∧ (∀ l ∈ ls', l ∈ ls) := by
  cases ls with
  | nil => exact ⟨[], ⟨by simp, by simp⟩, hn, rfl, hd, by simp, by simp⟩
  | cons l ls =>
    have hd' := List.nodup_cons.mp hd
    by_cases hl : l = []
    · subst hl
      have ht : Tight ls := Tight.of_nonempty hd'.1
      have hn' : NeatLines ls := fun l h => hn l (List.mem_cons_of_mem _ h)
      refine ⟨ls, ht, hn', ?_, hd'.2, ?_, fun l h => List.mem_cons_of_mem _ h⟩
      · cases ls with
        | nil => rfl
        | cons m ms =>
          rw [join_cons_cons, List.nil_append, trimSpace_newline_left, trimSpace_tight ht hn']
      · intro l h
        rcases List.mem_cons.mp h with rfl | h
        · exact Or.inr rfl
        · exact Or.inl h
    · rcases List.eq_nil_or_concat (l :: ls) with e | ⟨ls', l', e⟩
      · cases e
      · rw [List.concat_eq_append] at e
        rw [e] at hd hn ⊢
        by_cases hl' : l' = []
        · subst hl'
          have hnil : [] ∉ ls' := fun h => (List.nodup_append.mp hd).2.2 [] h [] (by simp) rfl
          have hne : ls' ≠ [] := by
            rintro rfl
            simp only [List.nil_append, List.cons.injEq] at e
            exact hl e.1
          refine ⟨ls', Tight.of_nonempty hnil, fun l h => hn l (List.mem_append_left _ h),
            trimSpace_tail (Tight.of_nonempty hnil) (fun l h => hn l (List.mem_append_left _ h)) hne,
            (List.nodup_append.mp hd).1, ?_, fun l h => List.mem_append_left _ h⟩
          intro l h
          rcases List.mem_append.mp h with h | h
          · exact Or.inl h
          · exact Or.inr (by simpa using h)
        · have ht : Tight (ls' ++ [l']) := by
            refine ⟨?_, by simpa using hl'⟩
            rw [← e]; simpa using hl
          exact ⟨_, ht, hn, trimSpace_tight ht hn, hd, fun l h => Or.inl h, fun l h => h⟩

/-! ## Merging again changes nothing -/

theorem addNew_empty_line {r : List Bytes} : ∀ {xs : List Bytes}, (∀ x ∈ xs, x ∈ r ∨ x = []) →
    addNew r xs = r ∨ (addNew r xs = r ++ [[]] ∧ [] ∉ r)
  | [], _ => Or.inl rfl
  | x :: xs, h => by
    unfold addNew
    have hxs : ∀ y ∈ xs, y ∈ r ∨ y = [] := fun y hy => h y (List.mem_cons_of_mem _ hy)
    split
    · exact addNew_empty_line hxs
    · rename_i hx
      have : x = [] := (h x List.mem_cons_self).resolve_left hx
      subst this
      refine Or.inr ⟨addNew_of_subset fun y hy => ?_, hx⟩
      rcases hxs y hy with h | rfl
      · exact List.mem_append_left _ h
      · simp

theorem mergeText_idem {a b : Bytes} (ha : NeatLines (splitByte 10 a)) (hb : NeatLines (splitByte 10 b)) :
    mergeText (mergeText a b) b = mergeText a b := by
  unfold mergeText
  by_cases hb0 : b = []
  · simp [hb0]
  · rw [if_neg hb0]
    simp only [if_neg hb0]
    have hn : NeatLines (mergeStringArrays (splitByte 10 a) (splitByte 10 b)) := by
      intro l hl
      rcases mem_mergeStringArrays.mp hl with h | h
      · exact ha l h
      · exact hb l h
    obtain ⟨ls, ht, hln, htr, hd, hsub, hsup⟩ := trimSpace_lines (nodup_mergeStringArrays _ _) hn
    rw [htr]
    have hB : ∀ l ∈ splitByte 10 b, l ∈ ls ∨ l = [] := fun l h => hsub l (mem_mergeStringArrays.mpr (Or.inr h))
    by_cases hls : ls = []
    · subst hls
      have : mergeStringArrays (splitByte 10 (join [10] [])) (splitByte 10 b) = [[]] := by
        refine mergeStringArrays_of_nodup (l := [[]]) (by simp) fun l h => ?_
        rcases hB l h with h | h
        · cases h
        · simp [h]
      rw [this]
      rfl
    · have h10 : ∀ l ∈ ls, 10 ∉ l := by
        intro l hl
        rcases mem_mergeStringArrays.mp (hsup l hl) with h | h
        · exact not_mem_of_mem_splitByte _ _ l h
        · exact not_mem_of_mem_splitByte _ _ l h
      rw [splitByte_join 10 ls hls h10]
      simp only [mergeStringArrays, appendNew_eq]
      rw [addNew_nil_of_nodup hd]
      rcases addNew_empty_line hB with e | ⟨e, _⟩
      · rw [e, trimSpace_tight ht hln]
      · rw [e, trimSpace_tail ht hln hls]

/-- Comments whose text lines carry no white space at their ends. -/
def NeatComment (c : Comment) : Prop :=
  NeatLines (splitByte 10 c.translator) ∧ NeatLines (splitByte 10 c.extracted)

theorem flags_merge_idem (a b : List Bytes) :
    sortBy bytesLe (mergeStringArrays (sortBy bytesLe (mergeStringArrays a b)) b) =
      sortBy bytesLe (mergeStringArrays a b) := by
  rw [mergeStringArrays_of_nodup]
  · exact sortBy_of_sorted bytesLe_order (sortBy_sorted bytesLe_order _)
  · exact (sortBy_perm _ _).nodup_iff.mpr (nodup_mergeStringArrays _ _)
  · intro x hx; exact mem_sortBy.mpr (mem_mergeStringArrays.mpr (Or.inr hx))

theorem refs_merge_idem (a b : List Reference) :
    sortBy Reference.le (mergeReferences (sortBy Reference.le (mergeReferences a b)) b) =
      sortBy Reference.le (mergeReferences a b) := by
  rw [mergeReferences_eq (sortBy _ _), addNew_of_subset]
  · exact sortBy_of_sorted Reference.le_order (sortBy_sorted Reference.le_order _)
  · intro x hx
    rw [mem_sortBy, mergeReferences_eq, mem_addNew]
    exact Or.inr hx

theorem Comment.merge_idem {c : Comment} {o : Option Comment} (hc : NeatComment c)
    (ho : ∀ x, o = some x → NeatComment x) : (c.merge o).merge o = c.merge o := by
  cases o with
  | none => rfl
  | some o =>
    have h := ho o rfl
    simp only [Comment.merge, Comment.sortReferences, Comment.sortFlags, mergeText_idem hc.1 h.1,
      mergeText_idem hc.2 h.2, flags_merge_idem, refs_merge_idem]

/-! ## Histories of additions -/

theorem getMessage_addMessage (f : File) (m : Message) (ctx id : Bytes) :
    (f.addMessage m).getMessage ctx id =
      if m.id ≠ [] ∧ m.context = ctx ∧ m.id = id then
        some (match f.getMessage ctx id with | some old => old.merge m | none => m)
      else f.getMessage ctx id := by
  unfold File.addMessage
  by_cases hid : m.id = []
  · simp [hid]
  · simp only [ne_eq, hid, not_false_eq_true, true_and, if_false]
    unfold File.getMessage Messages.add
    by_cases hc : m.context = ctx
    · subst hc
      simp only [true_and]
      cases hin : GoMap.get? f.messages m.context with
      | none =>
        simp only [Option.getD_none, GoMap.get?_nil]
        rw [GoMap.get?_set, if_pos rfl]
        simp only [GoMap.set, GoMap.get?]
      | some inner =>
        simp only [Option.getD_some]
        cases ho : GoMap.get? inner m.id with
        | none =>
          simp only []
          rw [GoMap.get?_set, if_pos rfl]
          simp only [GoMap.get?_set]
          by_cases e : m.id = id
          · subst e; simp [ho]
          · simp [e]
        | some old =>
          simp only []
          rw [GoMap.get?_set, if_pos rfl]
          simp only [GoMap.get?_set]
          by_cases e : m.id = id
          · subst e; simp [ho]
          · simp [e]
    · simp only [hc, false_and, if_false]
      cases hin : ((GoMap.get? f.messages m.context).getD []).get? m.id with
      | none => simp only []; rw [GoMap.get?_set, if_neg hc]
      | some old => simp only []; rw [GoMap.get?_set, if_neg hc]

end Verif.Proofs.Po
