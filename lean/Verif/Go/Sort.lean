/-!
# Sorting

`slices.Sort` and `sort.Slice` return some sorted permutation.  For a total antisymmetric order there is
only one, so insertion sort stands for any algorithm (`sorted_unique`).
-/
namespace Verif.Go

variable {α : Type}

/-- Insertion into a sorted list. -/
def insertBy (le : α → α → Bool) (x : α) : List α → List α
  | [] => [x]
  | y :: ys => if le x y then x :: y :: ys else y :: insertBy le x ys

/-- Insertion sort. -/
def sortBy (le : α → α → Bool) : List α → List α
  | [] => []
  | x :: xs => insertBy le x (sortBy le xs)

/-- `le` is a total order. -/
structure TotalOrder (le : α → α → Bool) : Prop where
  trans : ∀ a b c, le a b = true → le b c = true → le a c = true
  total : ∀ a b, le a b = true ∨ le b a = true
  antisymm : ∀ a b, le a b = true → le b a = true → a = b

/-- Sorted in ascending order. -/
def Sorted (le : α → α → Bool) (l : List α) : Prop := l.Pairwise (fun a b => le a b = true)

theorem insertBy_perm (le : α → α → Bool) (x : α) (l : List α) : (insertBy le x l).Perm (x :: l) := by
  induction l with
  | nil => exact List.Perm.refl _
  | cons y ys ih =>
    unfold insertBy
    split
    · exact List.Perm.refl _
    · exact (List.Perm.cons y ih).trans (List.Perm.swap x y ys)

theorem sortBy_perm (le : α → α → Bool) (l : List α) : (sortBy le l).Perm l := by
  induction l with
  | nil => exact List.Perm.refl _
  | cons x xs ih => exact (insertBy_perm le x _).trans (List.Perm.cons x ih)

theorem mem_sortBy {le : α → α → Bool} {l : List α} {a : α} : a ∈ sortBy le l ↔ a ∈ l :=
  (sortBy_perm le l).mem_iff

theorem insertBy_sorted {le : α → α → Bool} (h : TotalOrder le) (x : α) {l : List α} (hl : Sorted le l) :
    Sorted le (insertBy le x l) := by
  induction l with
  | nil => exact List.pairwise_singleton _ _
  | cons y ys ih =>
    have hy := List.pairwise_cons.mp hl
    unfold insertBy
    split
    · rename_i hxy
      refine List.pairwise_cons.mpr ⟨?_, hl⟩
      intro b hb
      rcases List.mem_cons.mp hb with rfl | hb
      · exact hxy
      · exact h.trans _ _ _ hxy (hy.1 b hb)
    · rename_i hxy
      refine List.pairwise_cons.mpr ⟨?_, ih hy.2⟩
      intro b hb
      rcases List.mem_cons.mp ((insertBy_perm le x ys).mem_iff.mp hb) with rfl | hb
      · rcases h.total b y with h' | h'
        · exact absurd h' hxy
        · exact h'
      · exact hy.1 b hb

theorem sortBy_sorted {le : α → α → Bool} (h : TotalOrder le) (l : List α) : Sorted le (sortBy le l) := by
  induction l with
  | nil => exact List.Pairwise.nil
  | cons x xs ih => exact insertBy_sorted h x ih

theorem sorted_unique {le : α → α → Bool} (h : TotalOrder le) :
    ∀ {l m : List α}, l.Perm m → Sorted le l → Sorted le m → l = m
  | [], m, hp, _, _ => (List.Perm.nil_eq hp)
  | x :: xs, m, hp, hl, hm => by
    cases m with
    | nil => exact absurd hp.length_eq (by simp)
    | cons y ys =>
      have hx := List.pairwise_cons.mp hl
      have hy := List.pairwise_cons.mp hm
      have hxy : x = y := by
        rcases List.mem_cons.mp (hp.mem_iff.mp List.mem_cons_self) with e | hxm
        · exact e
        · rcases List.mem_cons.mp (hp.mem_iff.mpr (List.mem_cons_self (a := y) (l := ys))) with e | hym
          · exact e.symm
          · exact h.antisymm _ _ (hx.1 y hym) (hy.1 x hxm)
      subst hxy
      rw [sorted_unique h (List.Perm.cons_inv hp) hx.2 hy.2]

/-- The model of sorting is the only possible result. -/
theorem sortBy_unique {le : α → α → Bool} (h : TotalOrder le) {l m : List α} (hp : m.Perm l)
    (hm : Sorted le m) : m = sortBy le l :=
  sorted_unique h (hp.trans (sortBy_perm le l).symm) hm (sortBy_sorted h l)

theorem sortBy_of_sorted {le : α → α → Bool} (h : TotalOrder le) {l : List α} (hl : Sorted le l) :
    sortBy le l = l := (sortBy_unique h (List.Perm.refl l) hl).symm

theorem sortBy_perm_eq {le : α → α → Bool} (h : TotalOrder le) {l m : List α} (hp : l.Perm m) :
    sortBy le l = sortBy le m :=
  sortBy_unique h ((sortBy_perm le l).trans hp) (sortBy_sorted h l)

/-- Lexicographic comparison `a <= b` of Go strings. -/
def bytesLe : List UInt8 → List UInt8 → Bool
  | [], _ => true
  | _ :: _, [] => false
  | a :: as, b :: bs => if a = b then bytesLe as bs else decide (a.toNat < b.toNat)

theorem bytesLe_refl : ∀ a, bytesLe a a = true
  | [] => rfl
  | a :: as => by simp [bytesLe, bytesLe_refl as]

theorem bytesLe_trans : ∀ a b c, bytesLe a b = true → bytesLe b c = true → bytesLe a c = true
  | [], _, _, _, _ => rfl
  | _ :: _, [], _, h, _ => by cases h
  | _ :: _, _ :: _, [], _, h => by cases h
  | a :: as, b :: bs, c :: cs, h, h' => by
    unfold bytesLe at h h' ⊢
    by_cases hab : a = b
    · subst hab
      rw [if_pos rfl] at h
      by_cases hac : a = c
      · rw [if_pos hac] at h' ⊢; exact bytesLe_trans _ _ _ h h'
      · rw [if_neg hac] at h' ⊢; exact h'
    · rw [if_neg hab] at h
      by_cases hbc : b = c
      · subst hbc; rw [if_neg hab]; exact h
      · rw [if_neg hbc] at h'
        have h1 := of_decide_eq_true h
        have h2 := of_decide_eq_true h'
        rw [if_neg (by rintro rfl; omega)]
        exact decide_eq_true (by omega)

theorem bytesLe_total : ∀ a b, bytesLe a b = true ∨ bytesLe b a = true
  | [], _ => Or.inl rfl
  | _ :: _, [] => Or.inr rfl
  | a :: as, b :: bs => by
    unfold bytesLe
    by_cases hab : a = b
    · subst hab; rw [if_pos rfl, if_pos rfl]; exact bytesLe_total as bs
    · rw [if_neg hab, if_neg (fun e => hab e.symm)]
      have : a.toNat ≠ b.toNat := fun e => hab (UInt8.toNat_inj.mp e)
      rcases Nat.lt_or_gt_of_ne this with h | h
      · exact Or.inl (decide_eq_true h)
      · exact Or.inr (decide_eq_true h)

theorem bytesLe_antisymm : ∀ a b, bytesLe a b = true → bytesLe b a = true → a = b
  | [], [], _, _ => rfl
  | [], _ :: _, _, h => by cases h
  | _ :: _, [], h, _ => by cases h
  | a :: as, b :: bs, h, h' => by
    unfold bytesLe at h h'
    by_cases hab : a = b
    · subst hab; rw [if_pos rfl] at h h'; rw [bytesLe_antisymm _ _ h h']
    · rw [if_neg hab] at h; rw [if_neg (fun e => hab e.symm)] at h'
      have h1 := of_decide_eq_true h
      have h2 := of_decide_eq_true h'
      omega

theorem bytesLe_order : TotalOrder bytesLe := ⟨bytesLe_trans, bytesLe_total, bytesLe_antisymm⟩

end Verif.Go
